import Verif.DisplayTags
import Verif.MonTags
import Verif.SpecFull

/-!
# What is displayed, with what is remembered

`Tell o h m E`: when `m` succeeds in a context with the options `o` and the memory `h`, it has read octets `f`, appended items `l`, and
`E result f rest l h'` holds for the memory `h'` afterwards.
-/

namespace Gpgpdump
open P Spec Src

/-- the options are these, and the remembered times are shown like all others -/
def Good (o : OptCode → Bool) (x : Ctx) : Prop := x.opts = o ∧ WF (o UTC) (some x)

def Tell (o : OptCode → Bool) (h : History) {α} (m : P α) (E : α → Bytes → Bytes → List Item → History → Prop) : Prop :=
  ∀ x p q j a s, Good o x → hist (some x) = h → m (St.at (some x) p q j) = (.ok a, s) →
    ∃ x' f q' l, Good o x' ∧ q = f ++ q' ∧ s = St.at (some x') (p ++ f) q' (j.addAll l) ∧ E a f q' l (hist (some x'))

variable {o : OptCode → Bool} {h : History}

namespace Tell

theorem mono {α} {m : P α} {E E' : α → Bytes → Bytes → List Item → History → Prop} (hm : Tell o h m E) (h' : ∀ a f q l h', E a f q l h' → E' a f q l h') :
    Tell o h m E' := by
  intro x p q j a s hx hh hr
  obtain ⟨x', f, q', l, h1, h2, h3, h4⟩ := hm x p q j a s hx hh hr
  exact ⟨x', f, q', l, h1, h2, h3, h' _ _ _ _ _ h4⟩

/-- a method that leaves the context alone -/
theorem same {α} {m : P α} {E : α → Bytes → Bytes → List Item → Prop} (hm : Shows o m E) (hc : Moves sameCtx m) :
    Tell o h m (fun a f q l h' => E a f q l ∧ h' = h) := by
  intro x p q j a s hx hh hr
  obtain ⟨x', f, q', l, h1, h2, h3, h4⟩ := hm x p q j a s hx.1 hr
  have h5 : some x = s.ctx := by
    have := hc.run (St.at (some x) p q j)
    rw [hr] at this
    exact this
  rw [h3, St.at_ctx] at h5
  cases h5
  exact ⟨x, f, q', l, hx, h2, h3, h4, hh⟩

/-- the display of a method, known on its own -/
theorem also {α} {m : P α} {E : α → Bytes → Bytes → List Item → Prop} {T : α → Bytes → Bytes → History → Prop} (hm : Shows o m E)
    (hc : Tell o h m (fun a f q _ h' => T a f q h')) : Tell o h m (fun a f q l h' => E a f q l ∧ T a f q h') := by
  intro x p q j a s hx hh hr
  obtain ⟨x', f, q', l, h1, h2, h3, h4⟩ := hm x p q j a s hx.1 hr
  obtain ⟨x2, f2, q2, l2, g1, g2, g3, g4⟩ := hc x p q j a s hx hh hr
  rw [h3] at g3
  have e1 : some x' = some x2 := congrArg St.ctx g3
  cases e1
  have e2 : f = f2 := by
    have := congrArg (fun s => s.rd.off) g3
    simp only [St.at, List.length_append] at this
    have e := h2.symm.trans g2
    exact (List.append_inj e (by omega)).1
  subst e2
  have e3 : q' = q2 := List.append_cancel_left (h2.symm.trans g2)
  subst e3
  exact ⟨x', f, q', l, g1, h2, h3, h4, g4⟩

theorem pure {α} {a : α} {E : α → Bytes → Bytes → List Item → History → Prop} (h' : ∀ q, E a [] q [] h) : Tell o h (Pure.pure a) E := by
  intro x p q j b s hx hh hr
  obtain ⟨rfl, rfl⟩ := pure_inv hr
  exact ⟨x, [], q, [], hx, rfl, by simp, by rw [hh]; exact h' q⟩

theorem fail {α} {e} {E : α → Bytes → Bytes → List Item → History → Prop} : Tell o h (P.fail e : P α) E := by
  intro x p q j b s hx hh hr
  rw [fail_run] at hr; simp at hr

theorem bind {α β} {m : P α} {g : α → P β} {E1 : α → Bytes → Bytes → List Item → History → Prop} {E : β → Bytes → Bytes → List Item → History → Prop}
    (hm : Tell o h m E1) (h' : ∀ a f1 l1 h1, Tell o h1 (g a) (fun b f2 q l2 h2 => E1 a f1 (f2 ++ q) l1 h1 → E b (f1 ++ f2) q (l1 ++ l2) h2)) :
    Tell o h (m >>= g) E := by
  intro x p q j b s hx hh hr
  obtain ⟨a, s1, hr1, hr2⟩ := bind_inv hr
  obtain ⟨x1, f1, q1, l1, hx1, rfl, rfl, h1⟩ := hm x p q j a s1 hx hh hr1
  obtain ⟨x2, f2, q2, l2, hx2, rfl, rfl, h2⟩ := h' a f1 l1 _ x1 _ _ _ b s hx1 rfl hr2
  exact ⟨x2, f1 ++ f2, q2, l1 ++ l2, hx2, by simp, by simp [Item.addAll_addAll], h2 h1⟩

theorem byte {β} {g : UInt8 → P β} {E : β → Bytes → Bytes → List Item → History → Prop}
    (h' : ∀ b, Tell o h (g b) (fun a f q l h' => E a (b :: f) q l h')) : Tell o h (readByte >>= g) E := by
  intro x p q j b s hx hh hr
  obtain ⟨a, s1, hr1, hr2⟩ := bind_inv hr
  obtain ⟨q1, rfl, rfl⟩ := readByte_inv hr1
  obtain ⟨x2, f2, q2, l2, hx2, rfl, rfl, h2⟩ := h' a x _ _ _ b s hx hh hr2
  exact ⟨x2, a :: f2, q2, l2, hx2, by simp, by simp, h2⟩

theorem bytes {β} (n : Nat) {g : Bytes → P β} {E : β → Bytes → Bytes → List Item → History → Prop}
    (h' : ∀ b : Bytes, b.length = n → Tell o h (g b) (fun a f q l h' => E a (b ++ f) q l h')) : Tell o h (readBytes n >>= g) E := by
  intro x p q j b s hx hh hr
  obtain ⟨a, s1, hr1, hr2⟩ := bind_inv hr
  obtain ⟨q1, rfl, hl, rfl⟩ := readBytes_inv hr1
  obtain ⟨x2, f2, q2, l2, hx2, rfl, rfl, h2⟩ := h' a hl x _ _ _ b s hx hh hr2
  exact ⟨x2, a ++ f2, q2, l2, hx2, by simp, by simp, h2⟩

theorem lastAdd {i : Item} {E : Unit → Bytes → Bytes → List Item → History → Prop} (h' : ∀ q, E () [] q [i] h) : Tell o h (P.add i) E := by
  intro x p q j b s hx hh hr
  have := add_inv hr; subst this
  exact ⟨x, [], q, [i], hx, rfl, by simp, by rw [hh]; exact h' q⟩

theorem add {β} {i : Item} {g : Unit → P β} {E : β → Bytes → Bytes → List Item → History → Prop}
    (h' : Tell o h (g ()) (fun a f q l h' => E a f q (i :: l) h')) : Tell o h (P.add i >>= g) E := by
  intro x p q j b s hx hh hr
  obtain ⟨a, s1, hr1, hr2⟩ := bind_inv hr
  have := add_inv hr1; subst this
  obtain ⟨x2, f2, q2, l2, hx2, rfl, rfl, h2⟩ := h' x _ _ _ b s hx hh hr2
  exact ⟨x2, f2, q2, i :: l2, hx2, rfl, by simp [Item.addAll_addAll], h2⟩

theorem flag {β} {F : Ctx → Bool} {v : Bool} {g : Bool → P β} {E : β → Bytes → Bytes → List Item → History → Prop} (hv : ∀ x : Ctx, x.opts = o → F x = v)
    (h' : Tell o h (g v) E) : Tell o h (P.flag F >>= g) E := by
  intro x p q j b s hx hh hr
  rw [bind_run, flag_run] at hr
  simp only [St.at_ctx, ctxFlag, hv x hx.1] at hr
  exact h' x p q j b s hx hh hr

theorem debug {β} {g : Bool → P β} {E : β → Bytes → Bytes → List Item → History → Prop} (h' : Tell o h (g (o DEBUG)) E) : Tell o h (P.flag Ctx.debug >>= g) E :=
  flag (fun x hx => by subst hx; rfl) h'
theorem utc {β} {g : Bool → P β} {E : β → Bytes → Bytes → List Item → History → Prop} (h' : Tell o h (g (o UTC)) E) : Tell o h (P.flag Ctx.utc >>= g) E :=
  flag (fun x hx => by subst hx; rfl) h'

theorem setKeyTime {β} {tm : Bytes} (ht : tm.length = 4) {g : Unit → P β} {E : β → Bytes → Bytes → List Item → History → Prop}
    (h' : Tell o { h with key := some (beNat tm) } (g ()) E) : Tell o h (P.setKeyTime (some ⟨tm, o UTC⟩) >>= g) E := by
  intro x p q j b s hx hh hr
  rw [bind_run, setKeyTime_run] at hr
  refine h' { x with keyTime := some ⟨tm, o UTC⟩ } p q j b s ⟨hx.1, hx.2.1, fun y hy => ?_⟩ ?_ hr
  · cases hy
    exact ⟨fun d hd => by cases hd; rfl, (hx.2.2 x rfl).2⟩
  · subst hh
    have : (DateTime.unix ⟨tm, o UTC⟩).toNat = beNat tm := by
      have := beNat_lt tm
      rw [ht] at this
      simp only [DateTime.unix, UInt32.toNat_ofNat', Nat.reducePow]
      omega
    simp only [hist, Option.map, this]

theorem setMode {β} {m : Mode} {g : Unit → P β} {E : β → Bytes → Bytes → List Item → History → Prop}
    (h' : Tell o { h with session := m } (g ()) E) : Tell o h (P.setMode m >>= g) E := by
  intro x p q j b s hx hh hr
  rw [bind_run, setMode_run] at hr
  refine h' { x with mode := m } p q j b s ⟨hx.1, hx.2.1, fun y hy => ?_⟩ ?_ hr
  · cases hy
    exact hx.2.2 x rfl
  · subst hh; rfl

theorem nested {α} {c : Item} {m : P α} {E1 : α → Bytes → Bytes → List Item → History → Prop} (hm : Tell o h m E1) :
    Tell o h (P.nested c m) (fun a f q l h' => ∃ k, l = [c.addAll k] ∧ E1 a f q k h') := by
  intro x p q j b s hx hh hr
  rw [nested_run] at hr
  rcases hm' : m (St.at (some x) p q c) with ⟨r, s1⟩
  rw [hm'] at hr
  simp only [Prod.mk.injEq] at hr
  obtain ⟨rfl, rfl⟩ := hr
  obtain ⟨x2, f2, q2, l2, hx2, rfl, rfl, h2⟩ := hm x p q c b s1 hx hh hm'
  exact ⟨x2, f2, q2, [c.addAll l2], hx2, rfl, by rw [St.at_cur, St.at_setCur, Item.add_eq], l2, rfl, h2⟩

theorem build {c : Item} {m : P Unit} {E1 : Unit → Bytes → Bytes → List Item → History → Prop} (hm : Tell o h m E1) :
    Tell o h (P.build c m) (fun i f q l h' => l = [] ∧ ∃ k, i = c.addAll k ∧ E1 () f q k h') := by
  intro x p q j b s hx hh hr
  rw [build_run] at hr
  rcases hm' : m (St.at (some x) p q c) with ⟨r, s1⟩
  rw [hm'] at hr
  simp only [Prod.mk.injEq] at hr
  obtain ⟨hr, rfl⟩ := hr
  cases r with
  | ok u =>
    obtain ⟨x2, f2, q2, l2, hx2, rfl, rfl, h2⟩ := hm x p q c u s1 hx hh hm'
    simp only [Res.map, Res.ok.injEq] at hr
    exact ⟨x2, f2, q2, [], hx2, rfl, by rw [St.at_setCur]; simp, rfl, l2, hr.symm, h2⟩
  | _ => simp [Res.map] at hr

end Tell

/-- what a successful run on this reader and item returns, the item it leaves, and what is remembered -/
def RetH (o : OptCode → Bool) (h : History) {α} (m : P α) (rd : Reader) (j : Item) (R : α → Item → History → Prop) : Prop :=
  ∀ x a s, Good o x → hist (some x) = h → m ⟨some x, rd, j⟩ = (.ok a, s) → ∃ x', s.ctx = some x' ∧ Good o x' ∧ R a s.cur (hist (some x'))

namespace RetH

theorem same {α} {m : P α} {rd j} {R : α → Item → Prop} (hm : Ret o m rd j R) (hc : Moves sameCtx m) : RetH o h m rd j (fun a i h' => R a i ∧ h' = h) := by
  intro x a s hx hh hr
  obtain ⟨-, h2⟩ := hm x a s hx.1 hr
  have h5 : some x = s.ctx := by
    have := hc.run ⟨some x, rd, j⟩
    rw [hr] at this
    exact this
  exact ⟨x, h5.symm, hx, h2, hh⟩

theorem mono {α} {m : P α} {rd j} {R R' : α → Item → History → Prop} (hm : RetH o h m rd j R) (h' : ∀ a i h', R a i h' → R' a i h') : RetH o h m rd j R' := by
  intro x a s hx hh hr
  obtain ⟨x', h1, h2, h3⟩ := hm x a s hx hh hr
  exact ⟨x', h1, h2, h' _ _ _ h3⟩

theorem pure {α} {a : α} {rd j} {R : α → Item → History → Prop} (h' : R a j h) : RetH o h (Pure.pure a) rd j R := by
  intro x b s hx hh hr
  obtain ⟨rfl, rfl⟩ := pure_inv hr
  exact ⟨x, rfl, hx, by rw [hh]; exact h'⟩

theorem getCur {rd j} {R : Item → Item → History → Prop} (h' : R j j h) : RetH o h P.getCur rd j R := by
  intro x b s hx hh hr
  rw [getCur_run] at hr
  cases hr
  exact ⟨x, rfl, hx, by rw [hh]; exact h'⟩

theorem getCur' {β} {g : Item → P β} {rd j} {R : β → Item → History → Prop} (h' : RetH o h (g j) rd j R) : RetH o h (P.getCur >>= g) rd j R := by
  intro x b s hx hh hr
  rw [bind_run, getCur_run] at hr
  exact h' x b s hx hh hr

theorem flag {β} {F : Ctx → Bool} {v : Bool} {g : Bool → P β} {rd j} {R : β → Item → History → Prop} (hv : ∀ x : Ctx, x.opts = o → F x = v)
    (h' : RetH o h (g v) rd j R) : RetH o h (P.flag F >>= g) rd j R := by
  intro x b s hx hh hr
  rw [bind_run, flag_run] at hr
  simp only [ctxFlag, hv x hx.1] at hr
  exact h' x b s hx hh hr

theorem debug {β} {g : Bool → P β} {rd j} {R : β → Item → History → Prop} (h' : RetH o h (g (o DEBUG)) rd j R) : RetH o h (P.flag Ctx.debug >>= g) rd j R :=
  flag (fun x hx => by subst hx; rfl) h'
theorem utc {β} {g : Bool → P β} {rd j} {R : β → Item → History → Prop} (h' : RetH o h (g (o UTC)) rd j R) : RetH o h (P.flag Ctx.utc >>= g) rd j R :=
  flag (fun x hx => by subst hx; rfl) h'

theorem tell {α β} {m : P α} {g : α → P β} {E p q j} {R : β → Item → History → Prop} (hm : Tell o h m E)
    (h' : ∀ a f q' l h1, q = f ++ q' → E a f q' l h1 → RetH o h1 (g a) (rdAt (p ++ f) q') (j.addAll l) R) : RetH o h (m >>= g) (rdAt p q) j R := by
  intro x b s hx hh hr
  obtain ⟨a, s1, hr1, hr2⟩ := bind_inv hr
  obtain ⟨x1, f1, q1, l1, hx1, rfl, rfl, h1⟩ := hm x p q j a s1 hx hh hr1
  exact h' a f1 q1 l1 _ rfl h1 x1 b s hx1 rfl hr2

theorem ofTell {α} {m : P α} {E p q j} {R : α → Item → History → Prop} (hm : Tell o h m E) (h' : ∀ a f q' l h1, q = f ++ q' → E a f q' l h1 → R a (j.addAll l) h1) :
    RetH o h m (rdAt p q) j R := by
  intro x a s hx hh hr
  obtain ⟨x1, f1, q1, l1, hx1, rfl, rfl, h1⟩ := hm x p q j a s hx hh hr
  exact ⟨x1, rfl, hx1, h' a f1 q1 l1 _ rfl h1⟩

theorem byte {β} {g : UInt8 → P β} {p q j} {R : β → Item → History → Prop}
    (h' : ∀ b q', q = b :: q' → RetH o h (g b) (rdAt (p ++ [b]) q') j R) : RetH o h (readByte >>= g) (rdAt p q) j R := by
  intro x a s hx hh hr
  obtain ⟨b, s1, hr1, hr2⟩ := bind_inv hr
  obtain ⟨q1, rfl, rfl⟩ := readByte_inv hr1
  exact h' b q1 rfl x a s hx hh hr2

theorem bytes {β} (n : Nat) {g : Bytes → P β} {p q j} {R : β → Item → History → Prop}
    (h' : ∀ b q' : Bytes, q = b ++ q' → b.length = n → RetH o h (g b) (rdAt (p ++ b) q') j R) : RetH o h (readBytes n >>= g) (rdAt p q) j R := by
  intro x a s hx hh hr
  obtain ⟨b, s1, hr1, hr2⟩ := bind_inv hr
  obtain ⟨q1, rfl, hl, rfl⟩ := readBytes_inv hr1
  exact h' b q1 rfl hl x a s hx hh hr2

theorem add {β} {i : Item} {g : Unit → P β} {rd j} {R : β → Item → History → Prop} (h' : RetH o h (g ()) rd (j.addAll [i]) R) : RetH o h (P.add i >>= g) rd j R := by
  intro x a s hx hh hr
  exact h' x a s hx hh hr

theorem reader {β} {g : Reader → P β} {rd j} {R : β → Item → History → Prop} (h' : RetH o h (g rd) rd j R) : RetH o h (P.reader >>= g) rd j R := by
  intro x a s hx hh hr
  exact h' x a s hx hh hr

theorem getBody {β} {g : Bytes → P β} {p q j} {R : β → Item → History → Prop} (h' : RetH o h (g (p ++ q)) (rdAt p q) j R) : RetH o h (Gpgpdump.getBody >>= g) (rdAt p q) j R := by
  intro x a s hx hh hr
  exact h' x a s hx hh hr

theorem unix_tm {tm : Bytes} {u : Bool} (ht : tm.length = 4) : (DateTime.unix ⟨tm, u⟩).toNat = beNat tm := by
  have := beNat_lt tm
  rw [ht] at this
  simp only [DateTime.unix, UInt32.toNat_ofNat', Nat.reducePow]
  omega

theorem setSigTime {β} {tm : Bytes} (ht : tm.length = 4) {g : Unit → P β} {rd j} {R : β → Item → History → Prop}
    (h' : RetH o { h with signature := some (beNat tm) } (g ()) rd j R) : RetH o h (P.setSigTime (some ⟨tm, o UTC⟩) >>= g) rd j R := by
  intro x a s hx hh hr
  refine h' { x with sigTime := some ⟨tm, o UTC⟩ } a s ⟨hx.1, hx.2.1, fun y hy => ?_⟩ ?_ hr
  · cases hy
    exact ⟨(hx.2.2 x rfl).1, fun d hd => by cases hd; rfl⟩
  · subst hh
    simp only [hist, Option.map, unix_tm ht]

theorem dropSigTime {β} {g : Unit → P β} {rd j} {R : β → Item → History → Prop}
    (h' : RetH o { h with signature := none } (g ()) rd j R) : RetH o h (P.setSigTime none >>= g) rd j R := by
  intro x a s hx hh hr
  refine h' { x with sigTime := none } a s ⟨hx.1, hx.2.1, fun y hy => ?_⟩ ?_ hr
  · cases hy
    exact ⟨(hx.2.2 x rfl).1, fun d hd => by cases hd⟩
  · subst hh; rfl

theorem dropKeyTime {β} {g : Unit → P β} {rd j} {R : β → Item → History → Prop}
    (h' : RetH o { h with key := none } (g ()) rd j R) : RetH o h (P.setKeyTime none >>= g) rd j R := by
  intro x a s hx hh hr
  refine h' { x with keyTime := none } a s ⟨hx.1, hx.2.1, fun y hy => ?_⟩ ?_ hr
  · cases hy
    exact ⟨fun d hd => (by cases hd), (hx.2.2 x rfl).2⟩
  · subst hh; rfl

theorem setMode {β} {m : Mode} {g : Unit → P β} {rd j} {R : β → Item → History → Prop}
    (h' : RetH o { h with session := m } (g ()) rd j R) : RetH o h (P.setMode m >>= g) rd j R := by
  intro x a s hx hh hr
  refine h' { x with mode := m } a s ⟨hx.1, hx.2.1, fun y hy => ?_⟩ ?_ hr
  · cases hy
    exact hx.2.2 x rfl
  · subst hh; rfl

/-- a remembered time, with what is known about it -/
def Stored (o : OptCode → Bool) (v : Option Nat) (t : Option DateTime) : Prop := v = t.map (·.unix.toNat) ∧ ∀ d, t = some d → d.utc = o UTC

theorem getSigTime {β} {g : Option DateTime → P β} {rd j} {R : β → Item → History → Prop} (h' : ∀ t, Stored o h.signature t → RetH o h (g t) rd j R) :
    RetH o h (P.getSigTime >>= g) rd j R := by
  intro x a s hx hh hr
  exact h' x.sigTime ⟨by rw [← hh]; rfl, (hx.2.2 x rfl).2⟩ x a s hx hh hr

theorem getKeyTime {β} {g : Option DateTime → P β} {rd j} {R : β → Item → History → Prop} (h' : ∀ t, Stored o h.key t → RetH o h (g t) rd j R) :
    RetH o h (P.getKeyTime >>= g) rd j R := by
  intro x a s hx hh hr
  exact h' x.keyTime ⟨by rw [← hh]; rfl, (hx.2.2 x rfl).1⟩ x a s hx hh hr

theorem getMode {β} {g : Mode → P β} {rd j} {R : β → Item → History → Prop} (h' : RetH o h (g h.session) rd j R) : RetH o h (P.getMode >>= g) rd j R := by
  intro x a s hx hh hr
  have : h.session = x.mode := by rw [← hh]; rfl
  rw [this] at h'
  exact h' x a s hx hh hr

theorem time {β} {g : DateTime → P β} {p q j} {R : β → Item → History → Prop}
    (h' : ∀ tm q' : Bytes, q = tm ++ q' → tm.length = 4 → RetH o h (g ⟨tm, o UTC⟩) (rdAt (p ++ tm) q') j R) :
    RetH o h (P.flag Ctx.utc >>= fun u => newDateTime u >>= g) (rdAt p q) j R := by
  refine utc ?_
  unfold newDateTime
  rw [bind_assoc_P]
  exact bytes 4 fun tm q' hq ht => h' tm q' hq ht

theorem last {m : P Unit} {rd j} {R : Unit → Item → History → Prop} (h' : RetH o h (m >>= fun _ => Pure.pure ()) rd j R) : RetH o h m rd j R := by
  intro x a s hx hh hr
  exact h' x a s hx hh (by rw [bind_run, hr]; rfl)

end RetH

/-- a method of its own reader -/
def Tells (o : OptCode → Bool) (h : History) (m : P Item) (R : Item → History → Prop) : Prop := Tell o h m (fun i f _ l h' => f = [] ∧ l = [] ∧ R i h')

theorem Tells.mono {m : P Item} {R R' : Item → History → Prop} (hm : Tells o h m R) (h' : ∀ i h', R i h' → R' i h') : Tells o h m R' :=
  Tell.mono hm fun i _ _ _ h1 hi => ⟨hi.1, hi.2.1, h' i h1 hi.2.2⟩

theorem Tells.scope {b : Bytes} {hdr : Item} {m : P Item} {R : Item → History → Prop} (hm : RetH o h m (rdAt [] b) hdr (fun i _ h' => R i h')) :
    Tells o h (P.scope b hdr m) R := by
  intro x p q j i s hx hh hr
  rw [scope_run] at hr
  rcases hm' : m (St.at (some x) [] b hdr) with ⟨r, s1⟩
  rw [St.at_ctx, hm'] at hr
  simp only [Prod.mk.injEq] at hr
  obtain ⟨rfl, rfl⟩ := hr
  obtain ⟨x', h1, h2, h3⟩ := hm x i s1 hx hh hm'
  refine ⟨x', [], q, [], h2, rfl, ?_, rfl, rfl, h3⟩
  simp [St.at, h1]

end Gpgpdump
