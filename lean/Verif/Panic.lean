import Verif.AcceptTags
import Verif.AcceptCut
import Verif.ThmParse
import Verif.SpecPanic

/-!
# Which octets a parse method panics on

`Pans m A`: run with a context, the octets `p` read and `q` unread, the method `m` panics at `site` exactly if `A site p q`. The rule for
a sequence uses the accepted language (`Lang`, `Sub`) of its first step.
-/

namespace Gpgpdump
open P Spec Cmp

structure Pans {α} (m : P α) (A : Site → Bytes → Bytes → Prop) : Prop where
  run : ∀ x p q j site, (∃ s, m (St.at (some x) p q j) = (.panic site, s)) ↔ A site p q

/-- never -/
abbrev Calm {α} (m : P α) : Prop := Pans m (fun _ _ _ => False)

theorem bind_panic {α β} {m : P α} {g : α → P β} {st : St} {site : Site} :
    (∃ s, (m >>= g) st = (.panic site, s)) ↔ (∃ s, m st = (.panic site, s)) ∨ ∃ a s', m st = (.ok a, s') ∧ ∃ s, g a s' = (.panic site, s) := by
  rw [bind_run]
  rcases m st with ⟨r, s⟩
  cases r with
  | ok a =>
    simp only [Prod.mk.injEq, reduceCtorEq, false_and, exists_false, false_or, Res.ok.injEq]
    exact ⟨fun h => ⟨a, s, ⟨rfl, rfl⟩, h⟩, by rintro ⟨_, _, ⟨rfl, rfl⟩, h⟩; exact h⟩
  | _ => simp

namespace Pans
variable {α β : Type}

theorem congr {m : P α} {A A' : Site → Bytes → Bytes → Prop} (h : Pans m A) (e : ∀ site p q, A site p q ↔ A' site p q) : Pans m A' :=
  ⟨fun x p q j site => (h.run x p q j site).trans (e site p q)⟩

theorem idle {m : P α} (h : Idle m) : Calm m := by
  constructor
  intro x p q j site
  obtain ⟨a, x', j', h1⟩ := h.run x p q j
  simp [h1]

/-- everything that was proved to be free of panics with the comparison logic -/
theorem of_R {m : P α} {Q : (OptCode → Bool) → α → α → Prop} (h : ∀ o, (selfCmp o false false false).R m m (Q o)) : Calm m := by
  constructor
  intro x p q j site
  simp only [iff_false]
  rintro ⟨s, hs⟩
  have hitem : (selfCmp x.opts false false false).item j j := item_refl (by simp [selfCmp])
  have := (h x.opts).run (St.at (some x) p q j) (St.at (some x) p q j) ⟨selfCmp_ctxs x _ _ _, rfl, hitem⟩
  rw [hs] at this
  cases this with
  | panic h => simp [selfCmp] at h
  | nil h => simp [selfCmp] at h

theorem panic (e : Site) : Pans (P.panic e : P α) (fun site _ _ => site = e) := by
  constructor
  intro x p q j site
  simp [P.panic, eq_comm]

theorem bind {m : P α} {g : α → P β} {L : α → Bytes → Bytes → Prop} {A : Site → Bytes → Bytes → Prop} {B : α → Site → Bytes → Bytes → Prop}
    (hm : Pans m A) (h : Lang m L) (h' : ∀ a, Pans (g a) (B a)) :
    Pans (m >>= g) (fun site p q => A site p q ∨ ∃ a f r, q = f ++ r ∧ L a f r ∧ B a site (p ++ f) r) := by
  constructor
  intro x p q j site
  rw [bind_panic, hm.run]
  refine or_congr Iff.rfl ⟨?_, ?_⟩
  · rintro ⟨a, s', h1, h2⟩
    obtain ⟨f, r, x1, j1, rfl, hl, rfl⟩ := h.sound _ _ _ _ _ _ h1
    exact ⟨a, f, r, rfl, hl, ((h' a).run _ _ _ _ _).mp h2⟩
  · rintro ⟨a, f, r, rfl, hl, hb⟩
    obtain ⟨x1, j1, h1⟩ := h.complete x p j a f r hl
    exact ⟨a, _, h1, ((h' a).run _ _ _ _ _).mpr hb⟩

/-- the first step does not panic -/
theorem after {m : P α} {g : α → P β} {L : α → Bytes → Bytes → Prop} {B : α → Site → Bytes → Bytes → Prop}
    (hm : Calm m) (h : Lang m L) (h' : ∀ a, Pans (g a) (B a)) :
    Pans (m >>= g) (fun site p q => ∃ a f r, q = f ++ r ∧ L a f r ∧ B a site (p ++ f) r) :=
  (bind hm h h').congr fun _ _ _ => by simp

/-- the second step does not panic -/
theorem first {m : P α} {g : α → P β} {A : Site → Bytes → Bytes → Prop} {L : α → Bytes → Bytes → Prop} (hm : Pans m A) (h : Lang m L)
    (h' : ∀ a, Calm (g a)) : Pans (m >>= g) A :=
  (bind hm h h').congr fun _ _ _ => by simp

theorem skip {m : P α} {g : α → P β} {B : Site → Bytes → Bytes → Prop} (h : Idle m) (h' : ∀ a, Pans (g a) B) : Pans (m >>= g) B := by
  constructor
  intro x p q j site
  obtain ⟨a, x', j', h1⟩ := h.run x p q j
  rw [bind_panic, h1]
  simp only [Prod.mk.injEq, reduceCtorEq, false_and, exists_false, false_or, Res.ok.injEq]
  constructor
  · rintro ⟨_, _, ⟨rfl, rfl⟩, h2⟩; exact ((h' _).run _ _ _ _ _).mp h2
  · intro hb; exact ⟨a, _, ⟨rfl, rfl⟩, ((h' _).run _ _ _ _ _).mpr hb⟩

theorem calm_bind {m : P α} {g : α → P β} {L : α → Bytes → Bytes → Prop} (hm : Calm m) (h : Lang m L) (h' : ∀ a, Calm (g a)) : Calm (m >>= g) :=
  (bind hm h h').congr fun _ _ _ => by simp

theorem readByte : Calm readByte := of_R (Q := fun _ => Eq) fun _ => R.readByte
theorem readBytes (n : Nat) : Calm (readBytes n) := of_R (Q := fun _ => Eq) fun _ => R.readBytes _ (.inl (by omega))

theorem byte {g : UInt8 → P β} {B : UInt8 → Site → Bytes → Bytes → Prop} (h' : ∀ a, Pans (g a) (B a)) :
    Pans (P.readByte >>= g) (fun site p q => ∃ b r, q = b :: r ∧ B b site (p ++ [b]) r) :=
  (after readByte Lang.readByte h').congr fun _ p q => by
    constructor
    · rintro ⟨b, f, r, rfl, rfl, h⟩; exact ⟨b, r, rfl, h⟩
    · rintro ⟨b, r, rfl, h⟩; exact ⟨b, [b], r, rfl, rfl, h⟩

theorem bytes (n : Nat) {g : Bytes → P β} {B : Bytes → Site → Bytes → Bytes → Prop} (h' : ∀ a, Pans (g a) (B a)) :
    Pans (P.readBytes n >>= g) (fun site p q => ∃ b r, q = b ++ r ∧ b.length = n ∧ B b site (p ++ b) r) :=
  (after (readBytes n) (Lang.readBytes n) h').congr fun _ p q => by
    constructor
    · rintro ⟨b, f, r, rfl, ⟨rfl, h1⟩, h⟩; exact ⟨f, r, rfl, h1, h⟩
    · rintro ⟨b, r, rfl, h1, h⟩; exact ⟨b, b, r, rfl, ⟨rfl, h1⟩, h⟩

theorem rest {g : Int → P β} {B : Nat → Site → Bytes → Bytes → Prop} (h' : ∀ n : Nat, Pans (g n) (B n)) :
    Pans (rest >>= g) (fun site p q => B q.length site p q) := by
  constructor
  intro x p q j site
  rw [bind_run, rest_run]
  exact (h' _).run _ _ _ _ _

theorem getBody {g : Bytes → P β} {B : Bytes → Site → Bytes → Bytes → Prop} (h' : ∀ b, Pans (g b) (B b)) :
    Pans (getBody >>= g) (fun site p q => B (p ++ q) site p q) := by
  constructor
  intro x p q j site
  rw [bind_run, getBody_run]
  exact (h' _).run _ _ _ _ _

theorem reader {g : Reader → P β} {B : Reader → Site → Bytes → Bytes → Prop} (h' : ∀ r, Pans (g r) (B r)) :
    Pans (P.reader >>= g) (fun site p q => B ⟨p ++ q, p.length⟩ site p q) :=
  ⟨fun x p q j site => (h' _).run x p q j site⟩

theorem nested {m : P α} {A : Site → Bytes → Bytes → Prop} (c : Item) (h : Pans m A) : Pans (nested c m) A := by
  constructor
  intro x p q j site
  rw [← h.run x p q c site, nested_run]
  rcases m (St.at (some x) p q c) with ⟨r, s⟩
  simp

theorem build {m : P Unit} {A : Site → Bytes → Bytes → Prop} (c : Item) (h : Pans m A) : Pans (build c m) A := by
  constructor
  intro x p q j site
  rw [← h.run x p q c site, build_run]
  rcases m (St.at (some x) p q c) with ⟨r, s⟩
  cases r <;> simp [Res.map]

/-- a method on a reader of its own -/
theorem onReader {m : P α} {A : Site → Bytes → Bytes → Prop} (b : Bytes) (h : Pans m A) : Pans (onReader (Reader.new b) m) (fun site _ _ => A site [] b) := by
  constructor
  intro x p q j site
  have hr : P.onReader (Reader.new b) m (St.at (some x) p q j) =
      ((m (St.at (some x) [] b j)).1.map (fun a => (a, (m (St.at (some x) [] b j)).2.rd)),
        { (m (St.at (some x) [] b j)).2 with rd := ⟨p ++ q, p.length⟩ }) := rfl
  rw [hr, ← h.run x [] b j site]
  rcases m (St.at (some x) [] b j) with ⟨r, s⟩
  cases r <;> simp [Res.map]

theorem scope {m : P α} {A : Site → Bytes → Bytes → Prop} (body : Bytes) (hdr : Item) (h : Pans m A) :
    Pans (P.scope body hdr m) (fun site _ _ => A site [] body) := by
  constructor
  intro x p q j site
  have hr : P.scope body hdr m (St.at (some x) p q j) =
      ((m (St.at (some x) [] body hdr)).1, { (m (St.at (some x) [] body hdr)).2 with rd := ⟨p ++ q, p.length⟩, cur := j }) := rfl
  rw [hr, ← h.run x [] body hdr site]
  rcases m (St.at (some x) [] body hdr) with ⟨r, s⟩
  simp

theorem flag {f : Ctx → Bool} {m : Bool → P α} {A : Site → Bytes → Bytes → Prop} (h : ∀ d, Pans (m d) A) : Pans (P.flag f >>= m) A :=
  skip (.flag f) h

/-- after a method with a reader of its own -/
theorem sub {m : P α} {g : α → P β} {A : Prop} {C : Site → Prop} {B : Site → Bytes → Bytes → Prop} (hm : Pans m (fun site _ _ => C site))
    (h : Sub m A) (h' : ∀ a, Pans (g a) B) : Pans (m >>= g) (fun site p q => C site ∨ (A ∧ B site p q)) := by
  constructor
  intro x p q j site
  rw [bind_panic, hm.run]
  refine or_congr Iff.rfl ⟨?_, ?_⟩
  · rintro ⟨a, s', h1, h2⟩
    obtain ⟨ha, x1, rfl⟩ := h.sound _ _ _ _ _ _ h1
    exact ⟨ha, ((h' a).run _ _ _ _ _).mp h2⟩
  · rintro ⟨ha, hb⟩
    obtain ⟨a, x1, h1⟩ := h.complete x p q j ha
    exact ⟨a, _, h1, ((h' a).run _ _ _ _ _).mpr hb⟩

end Pans
end Gpgpdump
