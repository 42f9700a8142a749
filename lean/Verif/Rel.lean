import Verif.Stream
import Verif.SubLemmas
import Verif.SrcAny

/-!
# A relational logic for parse methods

Two runs of parse methods are compared: same octets, possibly different options, possibly a nil context on the left, possibly
different recursion bounds. `Cmp` collects what is compared; `Cmp.R m m' Q` says that started in related states, the runs of
`m` and `m'` end in related states with results related by `Q`.
-/

namespace Gpgpdump
open Spec P Src

/-! ## Clean strings and items -/

/-- no control characters -/
def cleanB (s : Str) : Bool := s.all fun c => !isControl c

/-- no control characters -/
structure Clean (s : Str) : Prop where
  all : cleanB s = true

namespace Clean
theorem nil : Clean [] := ⟨rfl⟩
theorem lit {s : String} (h : cleanB s.toList = true) : Clean (S s) := ⟨h⟩
theorem append {a b : Str} (h : Clean a) (h' : Clean b) : Clean (a ++ b) := ⟨by
  have := h.all; have := h'.all
  simp_all [cleanB]⟩
theorem cons {c : Char} {s : Str} (h : isControl c = false) (h' : Clean s) : Clean (c :: s) := ⟨by
  have := h'.all
  simp_all [cleanB]⟩
theorem mem {s : Str} (h : Clean s) {c : Char} (hc : c ∈ s) : isControl c = false := by
  have := h.all
  simp only [cleanB, List.all_eq_true] at this
  simpa using this c hc
theorem of_mem {s : Str} (h : ∀ c ∈ s, isControl c = false) : Clean s := ⟨by
  simp only [cleanB, List.all_eq_true]
  intro c hc; simp [h c hc]⟩
theorem ite {p : Prop} [Decidable p] {a b : Str} (h : Clean a) (h' : Clean b) : Clean (if p then a else b) := by split <;> assumption
end Clean

/-- control characters appear nowhere in the tree, except that the value of a "Literal data format" item is one arbitrary
character -/
inductive CleanItem : Item → Prop
  | mk {n v d t is} (hn : Clean n) (hv : Clean v ∨ (n = S "Literal data format" ∧ v.length = 1)) (hd : Clean d) (ht : Clean t)
      (his : ∀ i ∈ is, CleanItem i) : CleanItem (.mk n v d t is)

/-! ## Trees without dumps -/

mutual
/-- the tree with all dumps removed -/
def Item.bare : Item → Item
  | .mk n v _ t is => .mk n v [] t (bares is)
def bares : List Item → List Item
  | [] => []
  | i :: is => i.bare :: bares is
end

theorem bares_eq (is : List Item) : bares is = is.map Item.bare := by
  induction is with
  | nil => rfl
  | cons i is ih => simp [bares, ih]

theorem Item.bare_add (i j : Item) : (i.add j).bare = i.bare.add j.bare := by
  cases i; simp [Item.add, Item.bare, Item.name, Item.value, Item.dump, Item.note, Item.items, bares_eq]

/-! ## Comparison -/

/-- What is compared. `o`, `o'`: option settings of the two sides; `same`: the options are equal, so dumps must agree too;
`clean`: all items are clean; `real`: all errors are errors of the
program, not the marker of the model for an exhausted recursion bound; `mayPanic`: both sides may panic (at the same place); `nilCtx`: the left context is nil (and the
left side may panic because of it). -/
structure Cmp where
  o : OptCode → Bool
  o' : OptCode → Bool
  same : Bool
  clean : Bool
  mayPanic : Bool
  real : Bool
  nilCtx : Bool
  hutc : o UTC = o' UTC
  hsame : same = true → o = o'
  hnil : nilCtx = true → o = fun _ => false

namespace Cmp
variable (k : Cmp)

structure item (i i' : Item) : Prop where
  bare : i.bare = i'.bare
  same : k.same = true → i = i'
  clean : k.clean = true → CleanItem i ∧ CleanItem i'

structure ctxs (c c' : Option Ctx) : Prop where
  nil : k.nilCtx = true → c = none ∧ ∃ x', c' = some x' ∧ x'.opts = k.o'
  some : k.nilCtx = false → ∃ x x', c = some x ∧ c' = some x' ∧ x.opts = k.o ∧ x'.opts = k.o' ∧ x.mode = x'.mode ∧
    x.sigTime = x'.sigTime ∧ x.keyTime = x'.keyTime

structure sts (s s' : St) : Prop where
  ctx : k.ctxs s.ctx s'.ctx
  rd : s.rd = s'.rd
  cur : k.item s.cur s'.cur

inductive Out {α} (Q : α → α → Prop) : Res α × St → Res α × St → Prop
  | ok {a a' s s'} (h : Q a a') (hs : k.sts s s') : Out Q (.ok a, s) (.ok a', s')
  | err {e s s'} (he : k.real = true → e.real) (hs : k.sts s s') : Out Q (.err e, s) (.err e, s')
  | panic {p s s'} (h : k.mayPanic = true) (hs : k.sts s s') : Out Q (.panic p, s) (.panic p, s')
  | nil {s r} (h : k.nilCtx = true) : Out Q (.panic .nilCtx, s) r

/-- related programs -/
structure R {α} (m m' : P α) (Q : α → α → Prop) : Prop where
  run : ∀ s s', k.sts s s' → k.Out Q (m s) (m' s')

/-- related programs on a reader with `p` read and `q` unread -/
structure At (p q : Bytes) {α} (m m' : P α) (Q : α → α → Prop) : Prop where
  run : ∀ c c' j j', k.ctxs c c' → k.item j j' → k.Out Q (m (St.at c p q j)) (m' (St.at c' p q j'))

end Cmp

/-- a getter that looks at the options only and is false without options -/
structure OptFlag (f : Ctx → Bool) : Prop where
  ex : ∃ g : (OptCode → Bool) → Bool, (∀ x : Ctx, f x = g x.opts) ∧ g (fun _ => false) = false

theorem OptFlag.debug : OptFlag Ctx.debug := ⟨fun o => o DEBUG, fun _ => rfl, rfl⟩
theorem OptFlag.cert : OptFlag Ctx.cert := ⟨fun o => o CERT || o DEBUG, fun _ => rfl, rfl⟩
theorem OptFlag.integer : OptFlag Ctx.integer := ⟨fun o => o INTEGER || o DEBUG, fun _ => rfl, rfl⟩
theorem OptFlag.literal : OptFlag Ctx.literal := ⟨fun o => o LITERAL || o DEBUG, fun _ => rfl, rfl⟩
theorem OptFlag.marker : OptFlag Ctx.marker := ⟨fun o => o MARKER || o DEBUG, fun _ => rfl, rfl⟩
theorem OptFlag.priv : OptFlag Ctx.priv := ⟨fun o => o PRIVATE || o DEBUG, fun _ => rfl, rfl⟩
theorem OptFlag.utc : OptFlag Ctx.utc := ⟨fun o => o UTC, fun _ => rfl, rfl⟩
theorem OptFlag.tagDump (t : Nat) : OptFlag (tagDumpFlag t) := by
  unfold tagDumpFlag
  split
  · exact .priv
  · exact .debug

namespace Cmp
variable {k : Cmp}

/-! ## Items -/

theorem CleanItem.name {i} (h : CleanItem i) : Clean i.name := by cases h; assumption

theorem item.name_eq {i i'} (h : k.item i i') : i.name = i'.name := by
  have := h.bare
  cases i; cases i'
  simp only [Item.bare, Item.mk.injEq] at this
  exact this.1

theorem item_new {n v t : Str} {d d' : Str} (hd : k.same = true → d = d')
    (hc : k.clean = true → Clean n ∧ (Clean v ∨ (n = S "Literal data format" ∧ v.length = 1)) ∧ Clean t ∧ Clean d ∧ Clean d') :
    k.item (newItem n v t d) (newItem n v t d') where
  bare := rfl
  same := fun h => by rw [hd h]
  clean := fun h => by
    obtain ⟨h1, h2, h3, h4, h5⟩ := hc h
    exact ⟨.mk h1 h2 h4 h3 (by simp), .mk h1 h2 h5 h3 (by simp)⟩

/-- items that depend on a flag -/
theorem item_flag {g : Bool → Item} {b b' : Bool} (hb : k.same = true → b = b') (hg : ∀ b b', (g b).bare = (g b').bare)
    (hc : k.clean = true → ∀ b, CleanItem (g b)) : k.item (g b) (g b') where
  bare := hg b b'
  same := fun h => by rw [hb h]
  clean := fun h => ⟨hc h b, hc h b'⟩

theorem item_refl {i : Item} (hc : k.clean = true → CleanItem i) : k.item i i where
  bare := rfl
  same := fun _ => rfl
  clean := fun h => ⟨hc h, hc h⟩

theorem item.add {i i' j j'} (h : k.item i i') (h' : k.item j j') : k.item (i.add j) (i'.add j') where
  bare := by rw [Item.bare_add, Item.bare_add, h.bare, h'.bare]
  same := fun hs => by rw [h.same hs, h'.same hs]
  clean := fun hc => by
    obtain ⟨h1, h2⟩ := h.clean hc
    obtain ⟨h3, h4⟩ := h'.clean hc
    constructor
    · cases h1 with
      | mk a b c d e =>
        exact .mk a b c d (by
          intro x hx
          rcases List.mem_append.mp hx with hx | hx
          · exact e x hx
          · rw [List.mem_singleton.mp hx]; exact h3)
    · cases h2 with
      | mk a b c d e =>
        exact .mk a b c d (by
          intro x hx
          rcases List.mem_append.mp hx with hx | hx
          · exact e x hx
          · rw [List.mem_singleton.mp hx]; exact h4)

theorem item.setValue {i i' v} (h : k.item i i') (hv : k.clean = true → Clean v) : k.item (i.setValue v) (i'.setValue v) where
  bare := by
    have := h.bare
    cases i; cases i'
    simp only [Item.bare, Item.mk.injEq] at this
    obtain ⟨rfl, rfl, -, rfl, h5⟩ := this
    simp [Item.setValue, Item.bare, Item.name, Item.dump, Item.note, Item.items, h5]
  same := fun hs => by rw [h.same hs]
  clean := fun hc => by
    obtain ⟨h1, h2⟩ := h.clean hc
    constructor
    · cases h1 with | mk a b c d e => exact .mk a (.inl (hv hc)) c d e
    · cases h2 with | mk a b c d e => exact .mk a (.inl (hv hc)) c d e

theorem item.setNote {i i' v} (h : k.item i i') (hv : k.clean = true → Clean v) : k.item (i.setNote v) (i'.setNote v) where
  bare := by
    have := h.bare
    cases i; cases i'
    simp only [Item.bare, Item.mk.injEq] at this
    obtain ⟨rfl, rfl, -, rfl, h5⟩ := this
    simp [Item.setNote, Item.bare, Item.name, Item.value, Item.dump, Item.items, h5]
  same := fun hs => by rw [h.same hs]
  clean := fun hc => by
    obtain ⟨h1, h2⟩ := h.clean hc
    constructor
    · cases h1 with | mk a b c d e => exact .mk a b c (hv hc) e
    · cases h2 with | mk a b c d e => exact .mk a b c (hv hc) e

theorem item.setDump {i i' v v'} (h : k.item i i') (he : k.same = true → v = v') (hv : k.clean = true → Clean v ∧ Clean v') :
    k.item (i.setDump v) (i'.setDump v') where
  bare := by
    have := h.bare
    cases i; cases i'
    simp only [Item.bare, Item.mk.injEq] at this
    obtain ⟨rfl, rfl, -, rfl, h5⟩ := this
    simp [Item.setDump, Item.bare, Item.name, Item.value, Item.note, Item.items, h5]
  same := fun hs => by rw [h.same hs, he hs]
  clean := fun hc => by
    obtain ⟨h1, h2⟩ := h.clean hc
    constructor
    · cases h1 with | mk a b c d e => exact .mk a b (hv hc).1 d e
    · cases h2 with | mk a b c d e => exact .mk a b (hv hc).2 d e

/-! ## Rules -/

theorem R.at {α} {m m' : P α} {Q} (h : k.R m m' Q) (p q : Bytes) : k.At p q m m' Q :=
  ⟨fun _ _ _ _ hc hj => h.run _ _ ⟨hc, rfl, hj⟩⟩

theorem R.mono {α} {m m' : P α} {Q Q' : α → α → Prop} (h : k.R m m' Q) (hq : ∀ a a', Q a a' → Q' a a') : k.R m m' Q' :=
  ⟨fun s s' hs => by
    have := h.run s s' hs
    generalize m s = r at this ⊢
    generalize m' s' = r' at this ⊢
    cases this with
    | ok a b => exact .ok (hq _ _ a) b
    | err he a => exact .err he a
    | panic a hst => exact .panic a hst
    | nil a => exact .nil a⟩

theorem R.pure {α} {a a' : α} {Q : α → α → Prop} (h : Q a a') : k.R (Pure.pure a) (Pure.pure a') Q := ⟨fun _ _ hs => .ok h hs⟩
theorem R.fail {α} {e : GoErr} {Q : α → α → Prop} (h : k.real = true → e.real) : k.R (P.fail e) (P.fail e) Q := ⟨fun _ _ hs => .err h hs⟩
theorem R.panic {α} {p : Site} {Q : α → α → Prop} (h : k.mayPanic = true) : k.R (P.panic p) (P.panic p) Q := ⟨fun _ _ hs => .panic h hs⟩

theorem R.bind {α β} {m m' : P α} {f f' : α → P β} {Q : α → α → Prop} {Q' : β → β → Prop} (h : k.R m m' Q)
    (h' : ∀ a a', Q a a' → k.R (f a) (f' a') Q') : k.R (m >>= f) (m' >>= f') Q' := by
  constructor
  intro s s' hs
  have := h.run s s' hs
  rw [bind_run, bind_run]
  generalize m s = r at this ⊢
  generalize m' s' = r' at this ⊢
  cases this with
  | ok ha hs => exact (h' _ _ ha).run _ _ hs
  | err he hs => exact .err he hs
  | panic hp hst => exact .panic hp hst
  | nil hp => exact .nil hp

theorem R.bindEq {α β} {m m' : P α} {f f' : α → P β} {Q' : β → β → Prop} (h : k.R m m' Eq)
    (h' : ∀ a, k.R (f a) (f' a) Q') : k.R (m >>= f) (m' >>= f') Q' :=
  h.bind fun a _ e => e ▸ h' a

theorem R.bindItem {β} {m m' : P Item} {f f' : Item → P β} {Q' : β → β → Prop} (h : k.R m m' k.item)
    (h' : ∀ a a', k.item a a' → k.R (f a) (f' a') Q') : k.R (m >>= f) (m' >>= f') Q' := h.bind h'

theorem R.ite {α} {c : Prop} [Decidable c] {a a' b b' : P α} {Q} (h : c → k.R a a' Q) (h' : ¬ c → k.R b b' Q) :
    k.R (if c then a else b) (if c then a' else b') Q := by
  split
  · exact h ‹_›
  · exact h' ‹_›

/-- the reader operations -/
theorem R.ofReader {α} (f : Reader → Res α × Reader) (hp : ∀ r, k.mayPanic = true ∨ (f r).1.isPanic = false)
    (hst : ∀ r, (f r).1 ≠ .stuck) (hre : ∀ r e, (f r).1 = .err e → e.real) : k.R (fun st => ((f st.rd).1, { st with rd := (f st.rd).2 }))
      (fun st => ((f st.rd).1, { st with rd := (f st.rd).2 })) Eq := by
  constructor
  intro s s' hs
  have e := hs.rd
  rw [← e]
  have hs' : k.sts { s with rd := (f s.rd).2 } { s' with rd := (f s.rd).2 } := ⟨hs.ctx, rfl, hs.cur⟩
  rcases h : (f s.rd).1 with a | e | p | _
  · exact .ok rfl hs'
  · exact .err (fun _ => hre _ _ h) hs'
  · rcases hp s.rd with h' | h'
    · exact .panic h' hs'
    · rw [h] at h'; cases h'
  · exact absurd h (hst _)

theorem readBytes_not_stuck (r : Reader) (n : Int) : (r.readBytes n).1 ≠ .stuck := by
  unfold Reader.readBytes
  repeat' split
  all_goals (intro h; cases h)

theorem readBytes_no_panic (r : Reader) (n : Int) (h : 0 ≤ n) : (r.readBytes n).1.isPanic = false := by
  unfold Reader.readBytes
  repeat' split
  all_goals first | rfl | omega

theorem readBytes_real (r : Reader) (n : Int) (e) (h : (r.readBytes n).1 = .err e) : e.real := by
  unfold Reader.readBytes at h
  repeat' split at h
  all_goals (cases h; try (intro h; cases h))

theorem R.readBytes (n : Int) (h : 0 ≤ n ∨ k.mayPanic = true) : k.R (readBytes n) (readBytes n) Eq :=
  R.ofReader (fun r => r.readBytes n) (fun r => h.symm.imp id (readBytes_no_panic r n)) (fun r => readBytes_not_stuck r n)
    (fun r => readBytes_real r n)

theorem R.readByte : k.R readByte readByte Eq :=
  R.ofReader (fun r => r.readByte)
    (fun r => .inr (by
      have := readBytes_no_panic r 1 (by omega)
      unfold Reader.readByte
      rcases h : r.readBytes 1 with ⟨a, r'⟩
      rw [h] at this
      rcases a with (_ | _) | _ | _ | _ <;> first | rfl | cases this))
    (fun r => by
      have := readBytes_not_stuck r 1
      unfold Reader.readByte
      rcases h : r.readBytes 1 with ⟨a, r'⟩
      rw [h] at this
      rcases a with (_ | _) | _ | _ | _ <;> first | exact absurd rfl this | simp)
    (fun r e h => by
      have := readBytes_real r 1
      unfold Reader.readByte at h
      rcases hr : r.readBytes 1 with ⟨a, r'⟩
      rw [hr] at this h
      rcases a with (_ | _) | _ | _ | _ <;> cases h
      have := this _ rfl
      exact this)

theorem R.read2EOF : k.R read2EOF read2EOF Eq :=
  R.ofReader (fun r => r.read2EOF) (fun r => .inr (by unfold Reader.read2EOF; split <;> rfl))
    (fun r => by unfold Reader.read2EOF; split <;> simp)
    (fun r e h => by unfold Reader.read2EOF at h; split at h <;> cases h; intro h; cases h)

theorem R.seek (a b : Int) : k.R (seek a b) (seek a b) Eq :=
  R.ofReader (fun r => r.seek a b)
    (fun r => .inr (by unfold Reader.seek; simp only; repeat' split
                       all_goals rfl))
    (fun r => by unfold Reader.seek; simp only; repeat' split
                 all_goals simp)
    (fun r e h => by unfold Reader.seek at h; simp only at h; repeat' split at h
                     all_goals (cases h; try (intro h; cases h)))

theorem R.reader : k.R reader reader Eq := ⟨fun _ _ hs => .ok hs.rd hs⟩
theorem R.getCur : k.R getCur getCur k.item := ⟨fun _ _ hs => .ok hs.cur hs⟩

theorem flags_rel {f : Ctx → Bool} (hf : OptFlag f) {c c'} (h : k.ctxs c c') :
    ∃ g : (OptCode → Bool) → Bool, ctxFlag f c = g k.o ∧ ctxFlag f c' = g k.o' := by
  obtain ⟨g, hg, h0⟩ := hf.ex
  refine ⟨g, ?_⟩
  cases hn : k.nilCtx with
  | true =>
    obtain ⟨rfl, x', rfl, hx⟩ := h.nil hn
    simp only [ctxFlag, hg, hx]
    rw [k.hnil hn, h0]; simp
  | false =>
    obtain ⟨x, x', rfl, rfl, h1, h2, -⟩ := h.some hn
    simp only [ctxFlag, hg, h1, h2]; simp

theorem R.flag {f : Ctx → Bool} (hf : OptFlag f) : k.R (flag f) (flag f) (fun b b' => k.same = true → b = b') :=
  ⟨fun s s' hs => by
    rw [flag_run, flag_run]
    refine .ok (fun hk => ?_) hs
    obtain ⟨g, h1, h2⟩ := flags_rel hf hs.ctx
    rw [h1, h2, k.hsame hk]⟩

theorem utc_rel {c c'} (h : k.ctxs c c') : ctxFlag Ctx.utc c = ctxFlag Ctx.utc c' := by
  have hu := k.hutc
  cases hn : k.nilCtx with
  | true =>
    obtain ⟨rfl, x', rfl, hx⟩ := h.nil hn
    simp only [ctxFlag, Ctx.utc, Ctx.get, hx]
    rw [k.hnil hn] at hu
    exact hu
  | false =>
    obtain ⟨x, x', rfl, rfl, h1, h2, -⟩ := h.some hn
    simp only [ctxFlag, Ctx.utc, Ctx.get, h1, h2, hu]

theorem R.utc : k.R (P.flag Ctx.utc) (P.flag Ctx.utc) Eq :=
  ⟨fun s s' hs => by
    rw [flag_run, flag_run]
    exact .ok (utc_rel hs.ctx) hs⟩

theorem R.getCtx {α} (f : Ctx → α) (hf : ∀ x x' : Ctx, x.mode = x'.mode → x.sigTime = x'.sigTime → x.keyTime = x'.keyTime → f x = f x') :
    k.R (P.getCtx f) (P.getCtx f) Eq :=
  ⟨fun s s' hs => by
    unfold P.getCtx
    cases hn : k.nilCtx with
    | true =>
      obtain ⟨h, -⟩ := hs.ctx.nil hn
      rw [h]; exact .nil hn
    | false =>
      obtain ⟨x, x', h1, h2, h3, h4, h5, h6, h7⟩ := hs.ctx.some hn
      rw [h1, h2]
      exact .ok (hf _ _ h5 h6 h7) hs⟩

theorem R.getMode : k.R getMode getMode Eq := R.getCtx _ fun _ _ h _ _ => h
theorem R.getSigTime : k.R getSigTime getSigTime Eq := R.getCtx _ fun _ _ _ h _ => h
theorem R.getKeyTime : k.R getKeyTime getKeyTime Eq := R.getCtx _ fun _ _ _ _ h => h

theorem R.setCtx (f : Ctx → Ctx) (hf : ∀ x x' : Ctx, x.mode = x'.mode → x.sigTime = x'.sigTime → x.keyTime = x'.keyTime →
      (f x).mode = (f x').mode ∧ (f x).sigTime = (f x').sigTime ∧ (f x).keyTime = (f x').keyTime) (ho : ∀ x, (f x).opts = x.opts) :
    k.R (fun st => match st.ctx with
      | none => ((.panic .nilCtx : Res Unit), st)
      | some c => (.ok (), { st with ctx := some (f c) }))
      (fun st => match st.ctx with
      | none => ((.panic .nilCtx : Res Unit), st)
      | some c => (.ok (), { st with ctx := some (f c) })) Eq :=
  ⟨fun s s' hs => by
    cases hn : k.nilCtx with
    | true =>
      obtain ⟨h, -⟩ := hs.ctx.nil hn
      simp only [h]; exact .nil hn
    | false =>
      obtain ⟨x, x', h1, h2, h3, h4, h5, h6, h7⟩ := hs.ctx.some hn
      simp only [h1, h2]
      obtain ⟨a, b, c⟩ := hf _ _ h5 h6 h7
      exact .ok rfl ⟨⟨(fun h => by rw [hn] at h; cases h), fun _ => ⟨_, _, rfl, rfl, by rw [ho, h3], by rw [ho, h4], a, b, c⟩⟩, hs.rd, hs.cur⟩⟩

theorem R.setMode (m : Mode) : k.R (setMode m) (setMode m) Eq := R.setCtx (fun c => { c with mode := m }) (fun _ _ _ a b => ⟨rfl, a, b⟩) fun _ => rfl
theorem R.setSigTime (t) : k.R (setSigTime t) (setSigTime t) Eq := R.setCtx (fun c => { c with sigTime := t }) (fun _ _ a _ b => ⟨a, rfl, b⟩) fun _ => rfl
theorem R.setKeyTime (t) : k.R (setKeyTime t) (setKeyTime t) Eq := R.setCtx (fun c => { c with keyTime := t }) (fun _ _ a b _ => ⟨a, b, rfl⟩) fun _ => rfl

theorem R.add {i i'} (h : k.item i i') : k.R (add i) (add i') Eq := ⟨fun _ _ hs => .ok rfl ⟨hs.ctx, hs.rd, hs.cur.add h⟩⟩
theorem R.setValue {v} (h : k.clean = true → Clean v) : k.R (setValue v) (setValue v) Eq :=
  ⟨fun _ _ hs => .ok rfl ⟨hs.ctx, hs.rd, hs.cur.setValue h⟩⟩
theorem R.setNote {v} (h : k.clean = true → Clean v) : k.R (setNote v) (setNote v) Eq :=
  ⟨fun _ _ hs => .ok rfl ⟨hs.ctx, hs.rd, hs.cur.setNote h⟩⟩
theorem R.setDump {v v'} (he : k.same = true → v = v') (h : k.clean = true → Clean v ∧ Clean v') : k.R (setDump v) (setDump v') Eq :=
  ⟨fun _ _ hs => .ok rfl ⟨hs.ctx, hs.rd, hs.cur.setDump he h⟩⟩
theorem R.addOpt {o : Option Item} (h : k.clean = true → ∀ i, o = some i → CleanItem i) : k.R (addOpt o) (addOpt o) Eq := by
  cases o with
  | none => exact R.pure rfl
  | some i => exact R.add (item_refl fun hc => h hc i rfl)

theorem Out.map_st {α} {Q : α → α → Prop} {r r' : Res α × St} (h : k.Out Q r r') (f f' : St → St)
    (hf : ∀ s s', k.sts s s' → k.sts (f s) (f' s')) : k.Out Q (r.1, f r.2) (r'.1, f' r'.2) := by
  cases h with
  | ok a b => exact .ok a (hf _ _ b)
  | err he a => exact .err he (hf _ _ a)
  | panic a hst => exact .panic a (hf _ _ hst)
  | nil a => exact .nil a

theorem R.nested {α} {c c' : Item} {m m' : P α} {Q} (hc : k.item c c') (h : k.R m m' Q) : k.R (nested c m) (nested c' m') Q :=
  ⟨fun s s' hs => (h.run { s with cur := c } { s' with cur := c' } ⟨hs.ctx, hs.rd, hc⟩).map_st (fun t => { t with cur := s.cur.add t.cur })
    (fun t => { t with cur := s'.cur.add t.cur }) fun _ _ ht => ⟨ht.ctx, ht.rd, hs.cur.add ht.cur⟩⟩

theorem R.scopeAt {α} {body : Bytes} {c c' : Item} {m m' : P α} {Q} (hc : k.item c c') (h : k.At [] body m m' Q) :
    k.R (scope body c m) (scope body c' m') Q :=
  ⟨fun s s' hs => (h.run s.ctx s'.ctx c c' hs.ctx hc).map_st (fun t => { t with rd := s.rd, cur := s.cur })
    (fun t => { t with rd := s'.rd, cur := s'.cur }) fun _ _ ht => ⟨ht.ctx, hs.rd, hs.cur⟩⟩

theorem R.build {c c' : Item} {m m' : P Unit} {Q} (hc : k.item c c') (h : k.R m m' Q) : k.R (build c m) (build c' m') k.item :=
  ⟨fun s s' hs => by
    have := h.run { s with cur := c } { s' with cur := c' } ⟨hs.ctx, hs.rd, hc⟩
    unfold P.build
    generalize m { s with cur := c } = r at this ⊢
    generalize m' { s' with cur := c' } = r' at this ⊢
    cases this with
    | ok a b => exact .ok b.cur ⟨b.ctx, b.rd, hs.cur⟩
    | err he a => exact .err he ⟨a.ctx, a.rd, hs.cur⟩
    | panic a hst => exact .panic a ⟨hst.ctx, hst.rd, hs.cur⟩
    | nil a => exact .nil a⟩

theorem R.onReader {α} {rd : Reader} {m m' : P α} {Q : α → α → Prop} (h : k.R m m' Q) :
    k.R (onReader rd m) (onReader rd m') (fun a b => Q a.1 b.1 ∧ a.2 = b.2) :=
  ⟨fun s s' hs => by
    have := h.run { s with rd := rd } { s' with rd := rd } ⟨hs.ctx, rfl, hs.cur⟩
    unfold P.onReader
    generalize m { s with rd := rd } = r at this ⊢
    generalize m' { s' with rd := rd } = r' at this ⊢
    cases this with
    | ok a b => exact .ok ⟨a, b.rd⟩ ⟨b.ctx, hs.rd, b.cur⟩
    | err he a => exact .err he ⟨a.ctx, hs.rd, a.cur⟩
    | panic a hst => exact .panic a ⟨hst.ctx, hs.rd, hst.cur⟩
    | nil a => exact .nil a⟩

theorem R.failed {α} {m m' : P α} {Q : α → α → Prop} (h : k.R m m' Q) : k.R (failed m) (failed m') Eq :=
  ⟨fun s s' hs => by
    have := h.run s s' hs
    unfold P.failed
    generalize m s = r at this ⊢
    generalize m' s' = r' at this ⊢
    cases this with
    | ok a b => exact .ok rfl b
    | err _ a => exact .ok rfl a
    | panic a hst => exact .panic a hst
    | nil a => exact .nil a⟩

/-! ## Rules with a known reader position -/

theorem At.bind {α β} {p q p' q' : Bytes} {m m' : P α} {f f' : α → P β} {Q : α → α → Prop} {Q' : β → β → Prop}
    (h : k.At p q m m' Q) (hpos : ∀ c j, (m (St.at c p q j)).2.rd = ⟨p' ++ q', p'.length⟩)
    (h' : ∀ a a', Q a a' → k.At p' q' (f a) (f' a') Q') : k.At p q (m >>= f) (m' >>= f') Q' := by
  constructor
  intro c c' j j' hc hj
  have := h.run c c' j j' hc hj
  have hp := hpos c j
  rw [bind_run, bind_run]
  generalize m (St.at c p q j) = r at this hp ⊢
  generalize m' (St.at c' p q j') = r' at this ⊢
  cases this with
  | @ok a a' s s' ha hs =>
    obtain ⟨hx, hr, hcur⟩ := hs
    have hr' := hr
    simp only at hp
    rw [hp] at hr'
    have := (h' _ _ ha).run s.ctx s'.ctx s.cur s'.cur hx hcur
    have e1 : s = St.at s.ctx p' q' s.cur := by
      rcases s with ⟨a, b, c⟩
      simp only at hp
      rw [hp]; rfl
    have e2 : s' = St.at s'.ctx p' q' s'.cur := by
      rcases s' with ⟨a, b, c⟩
      simp only at hr'
      rw [← hr']; rfl
    rw [← e1, ← e2] at this
    exact this
  | err he hs => exact .err he hs
  | panic hk hst => exact .panic hk hst
  | nil hk => exact .nil hk

theorem At.readByte {β} {p q : Bytes} {f f' : UInt8 → P β} {Q : β → β → Prop}
    (h : ∀ b r, q = b :: r → k.At (p ++ [b]) r (f b) (f' b) Q) : k.At p q (readByte >>= f) (readByte >>= f') Q := by
  cases q with
  | nil =>
    constructor
    intro c c' j j' hc hj
    simp only [bind_run, readByte_nil]
    exact .err (fun _ => by intro h; cases h) ⟨hc, rfl, hj⟩
  | cons b r =>
    constructor
    intro c c' j j' hc hj
    simp only [bind_run, readByte_cons]
    exact (h b r rfl).run _ _ _ _ hc hj

theorem At.readBytes {β} {p q : Bytes} {n : Nat} {f f' : Bytes → P β} {Q : β → β → Prop}
    (h : ∀ a r, q = a ++ r → a.length = n → k.At (p ++ a) r (f a) (f' a) Q) :
    k.At p q (readBytes n >>= f) (readBytes n >>= f') Q := by
  constructor
  intro c c' j j' hc hj
  rcases Nat.lt_or_ge q.length n with hn | hn
  · simp only [bind_run, readBytes_err _ _ _ _ _ hn]
    exact .err (fun _ => by split <;> (intro h; cases h)) ⟨hc, rfl, hj⟩
  · simp only [bind_run, readBytes_ok _ _ _ _ _ hn]
    exact (h (q.take n) (q.drop n) (by simp) (by simp; omega)).run _ _ _ _ hc hj

theorem At.add {β} {p q : Bytes} {i i' : Item} {f f' : Unit → P β} {Q : β → β → Prop} (hi : k.item i i')
    (h : k.At p q (f ()) (f' ()) Q) : k.At p q (add i >>= f) (add i' >>= f') Q :=
  At.bind ((R.add hi).at p q) (fun _ _ => rfl) fun _ _ _ => h

theorem At.flag {β} {p q : Bytes} {g : Ctx → Bool} (hg : OptFlag g) {f f' : Bool → P β} {Q : β → β → Prop}
    (h : ∀ b b', (k.same = true → b = b') → k.At p q (f b) (f' b') Q) : k.At p q (P.flag g >>= f) (P.flag g >>= f') Q :=
  At.bind ((R.flag hg).at p q) (fun _ _ => rfl) h

theorem At.ite {α} {p q : Bytes} {c : Prop} [Decidable c] {a a' b b' : P α} {Q} (h : c → k.At p q a a' Q) (h' : ¬ c → k.At p q b b' Q) :
    k.At p q (if c then a else b) (if c then a' else b') Q := by
  split
  · exact h ‹_›
  · exact h' ‹_›

end Cmp
end Gpgpdump
