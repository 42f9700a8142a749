import Verif.PanicTags
import Verif.SpecNil

/-!
# Parse methods without a context

`Deaf m`: `m` does not need a context. `Agree m`: without a context, `m` panics on it or does what it does with a context without options.
`Nils m A`: without a context, with the octets `p` read and `q` unread, `m` panics on the missing context exactly if `A p q`.
-/

namespace Gpgpdump
open P Spec Cmp

/-! ## Methods that need no context -/

structure Deaf {α} (m : P α) : Prop where
  run : ∀ s : St, s.ctx = none → (m s).1 ≠ .panic .nilCtx ∧ (m s).2.ctx = none

namespace Deaf
variable {α β : Type}

theorem pure (a : α) : Deaf (Pure.pure a : P α) := ⟨fun _ h => ⟨(by intro e; cases e), h⟩⟩
theorem fail (e : GoErr) : Deaf (P.fail e : P α) := ⟨fun _ h => ⟨(by intro e; cases e), h⟩⟩
theorem stuck : Deaf (P.stuck : P α) := ⟨fun _ h => ⟨(by intro e; cases e), h⟩⟩
theorem panic {e : Site} (he : e ≠ .nilCtx) : Deaf (P.panic e : P α) := ⟨fun _ h => ⟨(by intro e'; cases e'; exact he rfl), h⟩⟩
theorem ofReader (f : Reader → Res α × Reader) (h : ∀ r, (f r).1 ≠ .panic .nilCtx) : Deaf (fun s => ((f s.rd).1, { s with rd := (f s.rd).2 })) :=
  ⟨fun s hs => ⟨h s.rd, hs⟩⟩
theorem readBytes (n : Int) : Deaf (readBytes n) := ofReader (fun r => r.readBytes n) fun r => by
  unfold Reader.readBytes
  repeat' split
  all_goals (intro e; cases e)
theorem readByte : Deaf readByte := ofReader (fun r => r.readByte) fun r => by
  have h1 := readBytes_no_panic r 1 (by omega)
  unfold Reader.readByte
  rcases hr : r.readBytes 1 with ⟨a, r'⟩
  rw [hr] at h1
  rcases a with (_ | _) | _ | _ | _
  all_goals first | (cases h1; done) | (intro e; cases e; done)
theorem read2EOF : Deaf read2EOF := ofReader (fun r => r.read2EOF) fun r => by
  unfold Reader.read2EOF
  split <;> (intro e; cases e)
theorem seek (a b : Int) : Deaf (seek a b) := ofReader (fun r => r.seek a b) fun r => by
  unfold Reader.seek
  dsimp only
  repeat' split
  all_goals (intro e; cases e)
theorem reader : Deaf reader := ⟨fun _ h => ⟨(by intro e; cases e), h⟩⟩
theorem flag (f : Ctx → Bool) : Deaf (flag f) := ⟨fun _ h => ⟨(by intro e; cases e), h⟩⟩
theorem getCur : Deaf getCur := ⟨fun _ h => ⟨(by intro e; cases e), h⟩⟩
theorem setValue (v) : Deaf (setValue v) := ⟨fun _ h => ⟨(by intro e; cases e), h⟩⟩
theorem setNote (v) : Deaf (setNote v) := ⟨fun _ h => ⟨(by intro e; cases e), h⟩⟩
theorem setDump (v) : Deaf (setDump v) := ⟨fun _ h => ⟨(by intro e; cases e), h⟩⟩
theorem add (i : Item) : Deaf (add i) := ⟨fun _ h => ⟨(by intro e; cases e), h⟩⟩
theorem addOpt (i : Option Item) : Deaf (addOpt i) := by
  cases i with
  | none => exact pure ()
  | some i => exact add i

theorem bind {m : P α} {f : α → P β} (h : Deaf m) (h' : ∀ a, Deaf (f a)) : Deaf (m >>= f) := by
  constructor
  intro s hs
  rw [bind_run]
  have h1 := h.run s hs
  rcases hm : m s with ⟨r, s'⟩
  rw [hm] at h1
  cases r with
  | ok a => exact (h' a).run s' h1.2
  | err e => exact ⟨(by intro e; cases e), h1.2⟩
  | panic e => exact ⟨fun h => h1.1 (by cases h; rfl), h1.2⟩
  | stuck => exact ⟨(by intro e; cases e), h1.2⟩

theorem nested (c : Item) {m : P α} (h : Deaf m) : Deaf (nested c m) := ⟨fun s hs => h.run { s with cur := c } hs⟩
theorem scope (body : Bytes) (c : Item) {m : P α} (h : Deaf m) : Deaf (scope body c m) := ⟨fun s hs => h.run { s with rd := Reader.new body, cur := c } hs⟩
theorem map_ne {r : Res α} {f : α → β} (h : r ≠ .panic .nilCtx) : r.map f ≠ .panic .nilCtx := by
  cases r with
  | panic e => intro h'; apply h; cases h'; rfl
  | _ => intro h'; cases h'
theorem build (c : Item) {m : P Unit} (h : Deaf m) : Deaf (build c m) :=
  ⟨fun s hs => ⟨map_ne (h.run { s with cur := c } hs).1, (h.run { s with cur := c } hs).2⟩⟩
theorem onReader (r : Reader) {m : P α} (h : Deaf m) : Deaf (onReader r m) :=
  ⟨fun s hs => ⟨map_ne (h.run { s with rd := r } hs).1, (h.run { s with rd := r } hs).2⟩⟩
theorem failed {m : P α} (h : Deaf m) : Deaf (failed m) := by
  constructor
  intro s hs
  have h1 := h.run s hs
  unfold P.failed
  rcases hm : m s with ⟨r, s'⟩
  rw [hm] at h1
  cases r with
  | panic e => exact ⟨fun h => h1.1 (by cases h; rfl), h1.2⟩
  | _ => exact ⟨(by intro e; cases e), h1.2⟩
theorem forEach {γ} (l : List γ) {f : γ → P Unit} (h : ∀ a, Deaf (f a)) : Deaf (forEach l f) := by
  induction l with
  | nil => exact .pure _
  | cons a l ih => exact .bind (h a) fun _ => ih

end Deaf

/-- apply the rules -/
syntax "deaf_step" : tactic
macro "deaf" : tactic => `(tactic| repeat' (first | deaf_step | fail))
macro_rules | `(tactic| deaf_step) => `(tactic| dsimp only)
macro_rules | `(tactic| deaf_step) => `(tactic| split)
macro_rules | `(tactic| deaf_step) => `(tactic| with_reducible apply Deaf.bind)
macro_rules | `(tactic| deaf_step) => `(tactic| with_reducible first
  | exact Deaf.pure _ | exact Deaf.fail _ | exact Deaf.stuck | exact Deaf.panic (by decide) | exact Deaf.readByte | exact Deaf.readBytes _
  | exact Deaf.read2EOF | exact Deaf.seek _ _ | exact Deaf.reader | exact Deaf.flag _ | exact Deaf.getCur | exact Deaf.setValue _
  | exact Deaf.setNote _ | exact Deaf.setDump _ | exact Deaf.add _ | exact Deaf.addOpt _ | assumption
  | apply Deaf.nested | apply Deaf.scope | apply Deaf.build | apply Deaf.onReader | apply Deaf.failed | apply Deaf.forEach)
macro_rules | `(tactic| deaf_step) => `(tactic| intro _)

section
variable (X : Ext)

theorem Deaf.rest : Deaf rest := by unfold Gpgpdump.rest; deaf
macro_rules | `(tactic| deaf_step) => `(tactic| with_reducible exact Deaf.rest)
theorem Deaf.getBody : Deaf getBody := by unfold Gpgpdump.getBody; deaf
macro_rules | `(tactic| deaf_step) => `(tactic| with_reducible exact Deaf.getBody)
theorem Deaf.addRaw (n f) : Deaf (addRaw n f) := by unfold Gpgpdump.addRaw; deaf
macro_rules | `(tactic| deaf_step) => `(tactic| with_reducible exact Deaf.addRaw _ _)
theorem Deaf.unknownData : Deaf unknownData := by unfold Gpgpdump.unknownData; deaf
macro_rules | `(tactic| deaf_step) => `(tactic| with_reducible exact Deaf.unknownData)
theorem Deaf.newMPI : Deaf newMPI := by unfold Gpgpdump.newMPI; deaf
macro_rules | `(tactic| deaf_step) => `(tactic| with_reducible exact Deaf.newMPI)
theorem Deaf.newOID : Deaf newOID := by unfold Gpgpdump.newOID; deaf
macro_rules | `(tactic| deaf_step) => `(tactic| with_reducible exact Deaf.newOID)
theorem Deaf.newECParm : Deaf newECParm := by unfold Gpgpdump.newECParm; deaf
macro_rules | `(tactic| deaf_step) => `(tactic| with_reducible exact Deaf.newECParm)
theorem Deaf.newDateTime (u) : Deaf (newDateTime u) := by unfold Gpgpdump.newDateTime; deaf
macro_rules | `(tactic| deaf_step) => `(tactic| with_reducible exact Deaf.newDateTime _)
theorem Deaf.addMPI (n) : Deaf (addMPI n) := by unfold Gpgpdump.addMPI; deaf
macro_rules | `(tactic| deaf_step) => `(tactic| with_reducible exact Deaf.addMPI _)
theorem Deaf.addECPoint (n) : Deaf (addECPoint n) := by unfold Gpgpdump.addECPoint; deaf
macro_rules | `(tactic| deaf_step) => `(tactic| with_reducible exact Deaf.addECPoint _)
theorem Deaf.addOpaque (n) : Deaf (addOpaque n) := by unfold Gpgpdump.addOpaque; deaf
macro_rules | `(tactic| deaf_step) => `(tactic| with_reducible exact Deaf.addOpaque _)
theorem Deaf.parseSig (b) : Deaf (parseSig b) := by unfold Gpgpdump.parseSig; deaf
macro_rules | `(tactic| deaf_step) => `(tactic| with_reducible exact Deaf.parseSig _)
theorem Deaf.parseSecPlain (b) : Deaf (parseSecPlain b) := by unfold Gpgpdump.parseSecPlain; deaf
macro_rules | `(tactic| deaf_step) => `(tactic| with_reducible exact Deaf.parseSecPlain _)
theorem Deaf.parseSecEnc (b) : Deaf (parseSecEnc b) := by unfold Gpgpdump.parseSecEnc; deaf
macro_rules | `(tactic| deaf_step) => `(tactic| with_reducible exact Deaf.parseSecEnc _)
theorem Deaf.s2kParse (d) : Deaf (s2kParse d) := by unfold Gpgpdump.s2kParse; deaf
macro_rules | `(tactic| deaf_step) => `(tactic| with_reducible exact Deaf.s2kParse _)

theorem Deaf.sub01 : Deaf sub01 := by unfold Gpgpdump.sub01; deaf
theorem Deaf.sub04 : Deaf sub04 := by unfold Gpgpdump.sub04; deaf
theorem Deaf.sub05 : Deaf sub05 := by unfold Gpgpdump.sub05; deaf
theorem Deaf.subText : Deaf subText := by unfold Gpgpdump.subText; deaf
theorem Deaf.sub07 : Deaf sub07 := by unfold Gpgpdump.sub07; deaf
theorem Deaf.subList (f) : Deaf (subList f) := by unfold Gpgpdump.subList; deaf
theorem Deaf.sub12 : Deaf sub12 := by unfold Gpgpdump.sub12; deaf
theorem Deaf.sub16 : Deaf sub16 := by unfold Gpgpdump.sub16; deaf
theorem Deaf.sub20 : Deaf sub20 := by unfold Gpgpdump.sub20; deaf
theorem Deaf.otherFlags (i bs) : Deaf (otherFlags i bs) := by
  induction bs generalizing i with
  | nil => exact .pure _
  | cons b l ih => exact .bind (.addOpt _) fun _ => ih _
macro_rules | `(tactic| deaf_step) => `(tactic| with_reducible exact Deaf.otherFlags _ _)
theorem Deaf.trailingFlags : Deaf trailingFlags := by unfold Gpgpdump.trailingFlags; deaf
macro_rules | `(tactic| deaf_step) => `(tactic| with_reducible exact Deaf.trailingFlags)
theorem Deaf.sub23 : Deaf sub23 := by unfold Gpgpdump.sub23; deaf
theorem Deaf.sub25 : Deaf sub25 := by unfold Gpgpdump.sub25; deaf
theorem Deaf.sub27 : Deaf sub27 := by unfold Gpgpdump.sub27; deaf
theorem Deaf.sub29 : Deaf sub29 := by unfold Gpgpdump.sub29; deaf
theorem Deaf.sub30 : Deaf sub30 := by unfold Gpgpdump.sub30; deaf
theorem Deaf.sub31 : Deaf sub31 := by unfold Gpgpdump.sub31; deaf
theorem Deaf.subFingerprint : Deaf subFingerprint := by unfold Gpgpdump.subFingerprint; deaf
theorem Deaf.sub37 : Deaf sub37 := by unfold Gpgpdump.sub37; deaf

theorem Deaf.subLoop {p : UInt8 → Bytes → P Item} (h : ∀ t b, Deaf (p t b)) (l) : Deaf (subLoop p l) := by
  induction l with
  | nil => exact .pure _
  | cons s l ih => exact .bind (h _ _) fun _ => .bind (.add _) fun _ => ih

/-- subpackets of a signature without fields that need a context -/
theorem Deaf.sub02Body (recur : TagParser) {n : Nat} (h : n ∉ [2, 3, 9, 32, 38]) : Deaf (sub02Body X recur n) := by
  unfold Gpgpdump.sub02Body
  split
  all_goals with_reducible first
    | exact absurd (by decide) h
    | exact Deaf.sub04 | exact Deaf.sub05 | exact Deaf.subText | exact Deaf.sub07 | exact Deaf.getCur | exact Deaf.subList _ | exact Deaf.sub12
    | exact Deaf.sub16 | exact Deaf.sub20 | exact Deaf.sub23 | exact Deaf.sub25 | exact Deaf.sub27 | exact Deaf.sub29 | exact Deaf.sub30
    | exact Deaf.sub31 | exact Deaf.subFingerprint | exact Deaf.sub37

theorem Deaf.parseSub17 (t b) : Deaf (parseSub17 t b) := by
  unfold Gpgpdump.parseSub17 subScope
  refine .bind (.flag _) fun _ => .scope _ _ ?_
  unfold sub17Body
  split
  · exact Deaf.sub01
  · exact Deaf.getCur

theorem Deaf.tag02v3 : Deaf (tag02v3 X) := by unfold Gpgpdump.tag02v3; deaf
theorem Deaf.tag04 : Deaf tag04 := by unfold Gpgpdump.tag04; deaf
theorem Deaf.tag08 : Deaf (tag08 X) := by unfold Gpgpdump.tag08; deaf
theorem Deaf.tag10 : Deaf tag10 := by unfold Gpgpdump.tag10; deaf
theorem Deaf.tag11 : Deaf (tag11 X) := by unfold Gpgpdump.tag11; deaf
theorem Deaf.tag12 : Deaf tag12 := by unfold Gpgpdump.tag12; deaf
theorem Deaf.tag13 : Deaf tag13 := by unfold Gpgpdump.tag13; deaf
theorem Deaf.tag17 : Deaf tag17 := by
  unfold Gpgpdump.tag17
  refine .bind .getBody fun b => ?_
  unfold addSubpackets
  refine .bind (.flag _) fun d => ?_
  split
  · exact .fail _
  · exact .bind (.build _ (.subLoop Deaf.parseSub17 _)) fun _ => .add _
theorem Deaf.tag19 : Deaf tag19 := by unfold Gpgpdump.tag19; deaf
theorem Deaf.tag20 : Deaf tag20 := by unfold Gpgpdump.tag20; deaf

theorem Deaf.secOptions (u) : Deaf (secOptions u) := by unfold Gpgpdump.secOptions; deaf
theorem Deaf.onField {α} (f) {m : P α} (h : Deaf m) : Deaf (onField f m) := by unfold Gpgpdump.onField; deaf
theorem Deaf.fieldRest (r) : Deaf (fieldRest r) := by unfold Gpgpdump.fieldRest; deaf
theorem Deaf.secIV (a b) : Deaf (secIV a b) := by unfold Gpgpdump.secIV; deaf
theorem Deaf.getField1 (v) : Deaf (getField1 v) := by unfold Gpgpdump.getField1; deaf
theorem Deaf.getField2 (v) : Deaf (getField2 v) := by unfold Gpgpdump.getField2; deaf
theorem Deaf.secField1 (v u) : Deaf (secField1 v u) := by
  unfold Gpgpdump.secField1
  refine .bind (.getField1 _) fun f => ?_
  split
  · exact .pure _
  · refine .bind (.onField _ (.secOptions _)) fun a => ?_
    deaf
    all_goals first | exact .secIV _ _ | exact .fieldRest _
theorem Deaf.secField2 (v u a) : Deaf (secField2 v u a) := by
  unfold Gpgpdump.secField2
  refine .bind (.getField2 _) fun f => ?_
  split
  · exact .pure _
  · deaf
    all_goals first | exact .fieldRest _ | exact .onField _ (.parseSecPlain _) | exact .onField _ (.parseSecEnc _)
theorem Deaf.seckeyParse (v a) : Deaf (seckeyParse v a) := by
  unfold Gpgpdump.seckeyParse
  exact .bind .readByte fun _ => .bind (.secField1 _ _) fun _ => .secField2 _ _ _

end

/-! ## Methods that agree with a context without options -/

/-- the same state, without a context and with a context without options -/
structure Twin (s s' : St) : Prop where
  nil : s.ctx = none
  empty : ∃ x, s'.ctx = some x ∧ x.opts = fun _ => false
  rd : s.rd = s'.rd
  cur : s.cur = s'.cur

structure Agree {α} (m : P α) : Prop where
  run : ∀ s s', Twin s s' → (m s).1 = .panic .nilCtx ∨ ((m s).1 = (m s').1 ∧ Twin (m s).2 (m s').2)

namespace Agree
variable {α β : Type}

/-- everything that was proved with the comparison logic -/
theorem of_R {m : P α} {Q : α → α → Prop} (hq : ∀ a a', Q a a' → a = a') (h : (nilCmp false false).R m m Q) : Agree m := by
  constructor
  intro s s' ht
  have hitem : (nilCmp false false).item s.cur s'.cur := by rw [ht.cur]; exact item_refl (by simp [nilCmp])
  have hctx : (nilCmp false false).ctxs s.ctx s'.ctx := ⟨fun _ => ⟨ht.nil, ht.empty⟩, by simp [nilCmp]⟩
  have twin : ∀ {t t' : St}, (nilCmp false false).sts t t' → Twin t t' := fun h =>
    ⟨(h.ctx.nil rfl).1, (h.ctx.nil rfl).2, h.rd, h.cur.same rfl⟩
  have := h.run s s' ⟨hctx, ht.rd, hitem⟩
  generalize m s = r at this
  generalize m s' = r' at this
  cases this with
  | ok hv hs => exact .inr ⟨by rw [hq _ _ hv], twin hs⟩
  | err he hs => exact .inr ⟨rfl, twin hs⟩
  | panic hp hs => exact .inr ⟨rfl, twin hs⟩
  | nil => exact .inl rfl

theorem pure (a : α) : Agree (Pure.pure a : P α) := ⟨fun _ _ h => .inr ⟨rfl, h⟩⟩
theorem fail (e : GoErr) : Agree (P.fail e : P α) := ⟨fun _ _ h => .inr ⟨rfl, h⟩⟩
theorem stuck : Agree (P.stuck : P α) := ⟨fun _ _ h => .inr ⟨rfl, h⟩⟩
theorem add (i : Item) : Agree (P.add i) := ⟨fun s s' h => .inr ⟨rfl, h.nil, h.empty, h.rd, by rw [show (P.add i s).2.cur = s.cur.add i from rfl, h.cur]; rfl⟩⟩
theorem getCur : Agree P.getCur := ⟨fun s s' h => .inr ⟨by rw [show (P.getCur s).1 = .ok s.cur from rfl, h.cur]; rfl, h⟩⟩
theorem reader : Agree P.reader := ⟨fun s s' h => .inr ⟨by rw [show (P.reader s).1 = .ok s.rd from rfl, h.rd]; rfl, h⟩⟩
theorem readByte : Agree P.readByte := of_R (fun _ _ h => h) R.readByte
theorem readBytes (n : Nat) : Agree (P.readBytes n) := of_R (fun _ _ h => h) (R.readBytes _ (.inl (by omega)))
theorem flag {f : Ctx → Bool} (hf : OptFlag f) : Agree (P.flag f) := of_R (fun _ _ h => h rfl) (R.flag hf)

theorem bind {m : P α} {f : α → P β} (h : Agree m) (h' : ∀ a, Agree (f a)) : Agree (m >>= f) := by
  constructor
  intro s s' ht
  rw [bind_run, bind_run]
  have h1 := h.run s s' ht
  rcases hm : m s with ⟨r, t⟩
  rcases hm' : m s' with ⟨r', t'⟩
  rw [hm, hm'] at h1
  rcases h1 with h1 | ⟨h1, h2⟩
  · simp only at h1
    subst h1
    exact .inl rfl
  · simp only at h1 h2
    subst h1
    cases r with
    | ok a => exact (h' a).run t t' h2
    | _ => exact .inr ⟨rfl, h2⟩

theorem build (c : Item) {m : P Unit} (h : Agree m) : Agree (build c m) := by
  constructor
  intro s s' ht
  rcases h.run { s with cur := c } { s' with cur := c } ⟨ht.nil, ht.empty, ht.rd, rfl⟩ with h1 | ⟨h1, h2⟩
  · exact .inl (by change (m { s with cur := c }).1.map _ = _; rw [h1]; rfl)
  · refine .inr ⟨?_, h2.nil, h2.empty, h2.rd, ht.cur⟩
    change (m { s with cur := c }).1.map (fun _ => (m { s with cur := c }).2.cur) = (m { s' with cur := c }).1.map (fun _ => (m { s' with cur := c }).2.cur)
    rw [h1, h2.cur]

theorem scope (body : Bytes) (c : Item) {m : P α} (h : Agree m) : Agree (scope body c m) := by
  constructor
  intro s s' ht
  rcases h.run { s with rd := Reader.new body, cur := c } { s' with rd := Reader.new body, cur := c } ⟨ht.nil, ht.empty, rfl, rfl⟩ with h1 | ⟨h1, h2⟩
  · exact .inl h1
  · exact .inr ⟨h1, h2.nil, h2.empty, ht.rd, ht.cur⟩

end Agree

/-! ## Where a context is needed -/

structure Nils {α} (m : P α) (A : Bytes → Bytes → Prop) : Prop where
  run : ∀ p q j, (∃ s, m (St.at none p q j) = (.panic .nilCtx, s)) ↔ A p q

/-- a context without options, with the same octets and the same item -/
theorem twin_at (p q : Bytes) (j : Item) : Twin (St.at none p q j) (St.at (some Ctx.empty) p q j) := ⟨rfl, ⟨_, rfl, rfl⟩, rfl, rfl⟩

namespace Nils
variable {α β : Type}

theorem congr {m : P α} {A A' : Bytes → Bytes → Prop} (h : Nils m A) (e : ∀ p q, A p q ↔ A' p q) : Nils m A' :=
  ⟨fun p q j => (h.run p q j).trans (e p q)⟩

theorem deaf {m : P α} (h : Deaf m) : Nils m (fun _ _ => False) := by
  constructor
  intro p q j
  simp only [iff_false]
  rintro ⟨s, hs⟩
  exact (h.run (St.at none p q j) rfl).1 (by rw [hs])

/-- the first step needs a context -/
theorem now {m : P α} {f : α → P β} (h : ∀ s : St, s.ctx = none → (m s).1 = .panic .nilCtx) : Nils (m >>= f) (fun _ _ => True) := by
  constructor
  intro p q j
  have := h (St.at none p q j) rfl
  rw [bind_panic]
  simp only [iff_true]
  exact .inl ⟨_, Prod.ext this rfl⟩

theorem bind {m : P α} {g : α → P β} {L : α → Bytes → Bytes → Prop} {A : Bytes → Bytes → Prop} {B : α → Bytes → Bytes → Prop}
    (hm : Nils m A) (ha : Agree m) (h : Lang m L) (h' : ∀ a, Nils (g a) (B a)) :
    Nils (m >>= g) (fun p q => A p q ∨ ∃ a f r, q = f ++ r ∧ L a f r ∧ B a (p ++ f) r) := by
  constructor
  intro p q j
  rw [bind_panic, hm.run]
  have hag := ha.run _ _ (twin_at p q j)
  constructor
  · rintro (h1 | ⟨a, s, h1, h2⟩)
    · exact .inl h1
    · rw [h1] at hag
      rcases hag with hag | ⟨e, tw⟩
      · cases hag
      · have h3 : m (St.at (some Ctx.empty) p q j) = (.ok a, (m (St.at (some Ctx.empty) p q j)).2) := Prod.ext e.symm rfl
        obtain ⟨f, r, x1, j1, rfl, hl, h4⟩ := h.sound _ _ _ _ _ _ h3
        refine .inr ⟨a, f, r, rfl, hl, ?_⟩
        rw [h4] at tw
        have hs : s = St.at none (p ++ f) r s.cur := by
          rcases s with ⟨c, rd, cur⟩
          have h5 : c = none := tw.nil
          have h6 : rd = _ := tw.rd
          rw [h5, h6]; rfl
        rw [hs] at h2
        exact ((h' a).run _ _ _).mp h2
  · rintro (h1 | ⟨a, f, r, rfl, hl, hb⟩)
    · exact .inl h1
    · obtain ⟨x1, j1, h1⟩ := h.complete Ctx.empty p j a f r hl
      rw [h1] at hag
      rcases hag with hag | ⟨e, tw⟩
      · exact .inl ((hm.run p (f ++ r) j).mp ⟨_, Prod.ext hag rfl⟩)
      · refine .inr ⟨a, (m (St.at none p (f ++ r) j)).2, Prod.ext e rfl, ?_⟩
        have hs : (m (St.at none p (f ++ r) j)).2 = St.at none (p ++ f) r (m (St.at none p (f ++ r) j)).2.cur := by
          generalize (m (St.at none p (f ++ r) j)).2 = s at tw
          rcases s with ⟨c, rd, cur⟩
          have h5 : c = none := tw.nil
          have h6 : rd = _ := tw.rd
          rw [h5, h6]; rfl
        rw [hs]
        exact ((h' a).run _ _ _).mpr hb

/-- after a method with a reader of its own -/
theorem sub {m : P α} {g : α → P β} {A C : Prop} {B : Bytes → Bytes → Prop} (hm : Nils m (fun _ _ => C)) (ha : Agree m) (h : Sub m A)
    (h' : ∀ a, Nils (g a) B) : Nils (m >>= g) (fun p q => C ∨ (A ∧ B p q)) := by
  constructor
  intro p q j
  rw [bind_panic, hm.run]
  have hag := ha.run _ _ (twin_at p q j)
  constructor
  · rintro (h1 | ⟨a, s, h1, h2⟩)
    · exact .inl h1
    · rw [h1] at hag
      rcases hag with hag | ⟨e, tw⟩
      · cases hag
      · have h3 : m (St.at (some Ctx.empty) p q j) = (.ok a, (m (St.at (some Ctx.empty) p q j)).2) := Prod.ext e.symm rfl
        obtain ⟨hA, x1, h4⟩ := h.sound _ _ _ _ _ _ h3
        refine .inr ⟨hA, ?_⟩
        rw [h4] at tw
        have hs : s = St.at none p q s.cur := by
          rcases s with ⟨c, rd, cur⟩
          have h5 : c = none := tw.nil
          have h6 : rd = _ := tw.rd
          rw [h5, h6]; rfl
        rw [hs] at h2
        exact ((h' a).run _ _ _).mp h2
  · rintro (h1 | ⟨hA, hb⟩)
    · exact .inl h1
    · obtain ⟨a, x1, h1⟩ := h.complete Ctx.empty p q j hA
      rw [h1] at hag
      rcases hag with hag | ⟨e, tw⟩
      · exact .inl ((hm.run p q j).mp ⟨_, Prod.ext hag rfl⟩)
      · refine .inr ⟨a, (m (St.at none p q j)).2, Prod.ext e rfl, ?_⟩
        have hs : (m (St.at none p q j)).2 = St.at none p q (m (St.at none p q j)).2.cur := by
          generalize (m (St.at none p q j)).2 = s at tw
          rcases s with ⟨c, rd, cur⟩
          have h5 : c = none := tw.nil
          have h6 : rd = _ := tw.rd
          rw [h5, h6]; rfl
        rw [hs]
        exact ((h' a).run _ _ _).mpr hb

/-- the second step needs no context -/
theorem first {m : P α} {g : α → P β} {A : Bytes → Bytes → Prop} (hm : Nils m A) (ha : Agree m)
    (h' : ∀ a, Deaf (g a)) : Nils (m >>= g) A := by
  constructor
  intro p q j
  rw [bind_panic, ← hm.run p q j]
  constructor
  · rintro (h1 | ⟨a, s, h1, s', h2⟩)
    · exact h1
    · have := ha.run _ _ (twin_at p q j)
      rw [h1] at this
      rcases this with h | ⟨-, tw⟩
      · cases h
      · exact absurd (by rw [h2]) ((h' a).run s tw.nil).1
  · exact .inl

theorem byte {g : UInt8 → P β} {B : UInt8 → Bytes → Bytes → Prop} (h' : ∀ a, Nils (g a) (B a)) :
    Nils (P.readByte >>= g) (fun p q => ∃ b r, q = b :: r ∧ B b (p ++ [b]) r) :=
  (bind (deaf Deaf.readByte) Agree.readByte Lang.readByte h').congr fun p q => by
    constructor
    · rintro (h | ⟨b, f, r, rfl, rfl, h⟩)
      · exact h.elim
      · exact ⟨b, r, rfl, h⟩
    · rintro ⟨b, r, rfl, h⟩; exact .inr ⟨b, [b], r, rfl, rfl, h⟩

theorem bytes (n : Nat) {g : Bytes → P β} {B : Bytes → Bytes → Bytes → Prop} (h' : ∀ a, Nils (g a) (B a)) :
    Nils (P.readBytes n >>= g) (fun p q => ∃ b r, q = b ++ r ∧ b.length = n ∧ B b (p ++ b) r) :=
  (bind (deaf (Deaf.readBytes n)) (Agree.readBytes n) (Lang.readBytes n) h').congr fun p q => by
    constructor
    · rintro (h | ⟨b, f, r, rfl, ⟨rfl, h1⟩, h⟩)
      · exact h.elim
      · exact ⟨f, r, rfl, h1, h⟩
    · rintro ⟨b, r, rfl, h1, h⟩; exact .inr ⟨b, b, r, rfl, ⟨rfl, h1⟩, h⟩

theorem getBody {g : Bytes → P β} {B : Bytes → Bytes → Bytes → Prop} (h' : ∀ b, Nils (g b) (B b)) :
    Nils (Gpgpdump.getBody >>= g) (fun p q => B (p ++ q) p q) := ⟨fun p q j => (h' _).run p q j⟩

theorem reader {g : Reader → P β} {B : Reader → Bytes → Bytes → Prop} (h' : ∀ r, Nils (g r) (B r)) :
    Nils (P.reader >>= g) (fun p q => B ⟨p ++ q, p.length⟩ p q) := ⟨fun p q j => (h' _).run p q j⟩

theorem getCur {g : Item → P β} {B : Bytes → Bytes → Prop} (h' : ∀ r, Nils (g r) B) : Nils (P.getCur >>= g) B := ⟨fun p q j => (h' _).run p q j⟩
theorem add {i : Item} {g : Unit → P β} {B : Bytes → Bytes → Prop} (h' : ∀ r, Nils (g r) B) : Nils (P.add i >>= g) B := ⟨fun p q _ => (h' _).run p q _⟩
theorem flag {f : Ctx → Bool} {m : Bool → P α} {A : Bytes → Bytes → Prop} (h : ∀ d, Nils (m d) A) : Nils (P.flag f >>= m) A := ⟨fun p q j => (h _).run p q j⟩

theorem nested {m : P α} {A : Bytes → Bytes → Prop} (c : Item) (h : Nils m A) : Nils (nested c m) A := by
  constructor
  intro p q j
  rw [← h.run p q c]
  have e : P.nested c m (St.at none p q j) = ((m (St.at none p q c)).1, { (m (St.at none p q c)).2 with cur := j.add (m (St.at none p q c)).2.cur }) := rfl
  rw [e]
  rcases m (St.at none p q c) with ⟨r, s⟩
  simp

theorem build {m : P Unit} {A : Bytes → Bytes → Prop} (c : Item) (h : Nils m A) : Nils (build c m) A := by
  constructor
  intro p q j
  rw [← h.run p q c]
  have e : P.build c m (St.at none p q j) = ((m (St.at none p q c)).1.map (fun _ => (m (St.at none p q c)).2.cur), { (m (St.at none p q c)).2 with cur := j }) := rfl
  rw [e]
  rcases m (St.at none p q c) with ⟨r, s⟩
  cases r <;> simp [Res.map]

theorem scope {m : P α} {A : Bytes → Bytes → Prop} (body : Bytes) (hdr : Item) (h : Nils m A) : Nils (P.scope body hdr m) (fun _ _ => A [] body) := by
  constructor
  intro p q j
  rw [← h.run [] body hdr]
  have e : P.scope body hdr m (St.at none p q j) = ((m (St.at none [] body hdr)).1, { (m (St.at none [] body hdr)).2 with rd := ⟨p ++ q, p.length⟩, cur := j }) := rfl
  rw [e]
  rcases m (St.at none [] body hdr) with ⟨r, s⟩
  simp

end Nils

end Gpgpdump
