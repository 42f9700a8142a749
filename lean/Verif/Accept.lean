import Verif.Inv
import Verif.SpecAccept

/-!
# Which octets a parse method succeeds on

`Lang m L`: run with a context and the unread octets `post`, the method `m` succeeds with the value `a` exactly if `post = f ++ q` with
`L a f q`, and then it has read `f`. `Oks m A`: with `pre` read and `post` unread, `m` succeeds exactly if `A pre post`; nothing is said
about the reader afterwards.
-/

namespace Gpgpdump
open P Spec

structure Lang {α} (m : P α) (L : α → Bytes → Bytes → Prop) : Prop where
  sound : ∀ x p post j a s, m (St.at (some x) p post j) = (.ok a, s) →
    ∃ f q x' j', post = f ++ q ∧ L a f q ∧ s = St.at (some x') (p ++ f) q j'
  complete : ∀ x p j a f q, L a f q → ∃ x' j', m (St.at (some x) p (f ++ q) j) = (.ok a, St.at (some x') (p ++ f) q j')

structure Oks {α} (m : P α) (A : Bytes → Bytes → Prop) : Prop where
  sound : ∀ x p q j a s, m (St.at (some x) p q j) = (.ok a, s) → A p q ∧ ∃ y, s.ctx = some y
  complete : ∀ x p q j, A p q → ∃ a s, m (St.at (some x) p q j) = (.ok a, s)

/-- the method always succeeds and reads nothing -/
structure Idle {α} (m : P α) : Prop where
  run : ∀ x p q j, ∃ a x' j', m (St.at (some x) p q j) = (.ok a, St.at (some x') p q j')

namespace Idle
theorem pure {α} (a : α) : Idle (Pure.pure a : P α) := ⟨fun x _ _ j => ⟨a, x, j, rfl⟩⟩
theorem flag (f : Ctx → Bool) : Idle (flag f) := ⟨fun x _ _ j => ⟨_, x, j, rfl⟩⟩
theorem add (i : Item) : Idle (add i) := ⟨fun x _ _ _ => ⟨(), x, _, rfl⟩⟩
theorem getCur : Idle getCur := ⟨fun x _ _ j => ⟨_, x, j, rfl⟩⟩
theorem reader : Idle reader := ⟨fun x _ _ j => ⟨_, x, j, rfl⟩⟩
theorem getBody : Idle getBody := ⟨fun x _ _ j => ⟨_, x, j, rfl⟩⟩
theorem setValue (v) : Idle (setValue v) := ⟨fun x _ _ _ => ⟨(), x, _, rfl⟩⟩
theorem setNote (v) : Idle (setNote v) := ⟨fun x _ _ _ => ⟨(), x, _, rfl⟩⟩
theorem setDump (v) : Idle (setDump v) := ⟨fun x _ _ _ => ⟨(), x, _, rfl⟩⟩
theorem getMode : Idle getMode := ⟨fun x _ _ j => ⟨_, x, j, rfl⟩⟩
theorem getSigTime : Idle getSigTime := ⟨fun x _ _ j => ⟨_, x, j, rfl⟩⟩
theorem getKeyTime : Idle getKeyTime := ⟨fun x _ _ j => ⟨_, x, j, rfl⟩⟩
theorem setMode (m) : Idle (setMode m) := ⟨fun _ _ _ j => ⟨(), _, j, rfl⟩⟩
theorem setSigTime (m) : Idle (setSigTime m) := ⟨fun _ _ _ j => ⟨(), _, j, rfl⟩⟩
theorem setKeyTime (m) : Idle (setKeyTime m) := ⟨fun _ _ _ j => ⟨(), _, j, rfl⟩⟩
theorem rest : Idle rest := ⟨fun x p q j => ⟨_, x, j, rest_run (some x) p q j⟩⟩
theorem addOpt (o : Option Item) : Idle (addOpt o) := by
  cases o
  · exact pure ()
  · exact add _
theorem bind {α β} {m : P α} {f : α → P β} (h : Idle m) (h' : ∀ a, Idle (f a)) : Idle (m >>= f) := by
  constructor
  intro x p q j
  obtain ⟨a, x1, j1, h1⟩ := h.run x p q j
  obtain ⟨b, x2, j2, h2⟩ := (h' a).run x1 p q j1
  exact ⟨b, x2, j2, by rw [bind_run, h1]; exact h2⟩
theorem ite {α} {b : Prop} [Decidable b] {m m' : P α} (h : Idle m) (h' : Idle m') : Idle (if b then m else m') := by
  split <;> assumption
theorem forEach {α} (xs : List α) (f : α → P Unit) (h : ∀ a, Idle (f a)) : Idle (forEach xs f) := by
  induction xs with
  | nil => exact pure ()
  | cons a xs ih => exact bind (h a) fun _ => ih
theorem addRaw (n f) : Idle (addRaw n f) := bind reader fun _ => add _
theorem unknownData : Idle unknownData := bind rest fun _ => ite (bind (flag _) fun _ => addRaw _ _) (pure _)
theorem addOpaque (n) : Idle (addOpaque n) := bind (flag _) fun _ => addRaw _ _
end Idle

namespace Lang
variable {α β : Type}

theorem congr {m : P α} {L L' : α → Bytes → Bytes → Prop} (h : Lang m L) (e : ∀ a f q, L a f q ↔ L' a f q) : Lang m L' :=
  ⟨fun x p post j a s hs => by
      obtain ⟨f, q, x', j', h1, h2, h3⟩ := h.sound x p post j a s hs
      exact ⟨f, q, x', j', h1, (e _ _ _).mp h2, h3⟩,
    fun x p j a f q hl => h.complete x p j a f q ((e _ _ _).mpr hl)⟩

theorem pure (a : α) : Lang (Pure.pure a : P α) (fun b f _ => b = a ∧ f = []) := by
  constructor
  · intro x p post j b s h
    obtain ⟨rfl, rfl⟩ := pure_inv h
    exact ⟨[], post, x, j, rfl, ⟨rfl, rfl⟩, by simp⟩
  · rintro x p j b f q ⟨rfl, rfl⟩
    exact ⟨x, j, by rw [pure_run]; simp⟩

theorem idle {m : P Unit} (h : Idle m) : Lang m (fun _ f _ => f = []) := by
  constructor
  · intro x p post j b s hs
    obtain ⟨a, x', j', h1⟩ := h.run x p post j
    rw [h1] at hs
    simp only [Prod.mk.injEq] at hs
    exact ⟨[], post, x', j', rfl, rfl, by rw [← hs.2]; simp⟩
  · rintro x p j b f q rfl
    obtain ⟨a, x', j', h1⟩ := h.run x p ([] ++ q) j
    exact ⟨x', j', by rw [h1]; simp⟩

theorem fail (e : GoErr) : Lang (P.fail e : P α) (fun _ _ _ => False) :=
  ⟨fun x p post j a s h => by rw [fail_run] at h; simp at h, fun _ _ _ _ _ _ h => h.elim⟩

theorem panic (e : Site) : Lang (P.panic e : P α) (fun _ _ _ => False) :=
  ⟨fun x p post j a s h => by simp [P.panic] at h, fun _ _ _ _ _ _ h => h.elim⟩

theorem bind {m : P α} {g : α → P β} {L : α → Bytes → Bytes → Prop} {L' : α → β → Bytes → Bytes → Prop}
    (h : Lang m L) (h' : ∀ a, Lang (g a) (L' a)) :
    Lang (m >>= g) (fun b f q => ∃ a f1 f2, f = f1 ++ f2 ∧ L a f1 (f2 ++ q) ∧ L' a b f2 q) := by
  constructor
  · intro x p post j b s hs
    obtain ⟨a, s1, h1, h2⟩ := bind_inv hs
    obtain ⟨f1, q1, x1, j1, rfl, hl, rfl⟩ := h.sound _ _ _ _ _ _ h1
    obtain ⟨f2, q2, x2, j2, rfl, hl', rfl⟩ := (h' a).sound _ _ _ _ _ _ h2
    exact ⟨f1 ++ f2, q2, x2, j2, by simp, ⟨a, f1, f2, rfl, hl, hl'⟩, by simp⟩
  · rintro x p j b f q ⟨a, f1, f2, rfl, hl, hl'⟩
    obtain ⟨x1, j1, h1⟩ := h.complete x p j a f1 (f2 ++ q) hl
    obtain ⟨x2, j2, h2⟩ := (h' a).complete x1 (p ++ f1) j1 b f2 q hl'
    refine ⟨x2, j2, ?_⟩
    rw [bind_run, List.append_assoc, h1]
    simp only
    rw [h2]; simp

/-- a step that reads nothing and whose value does not matter -/
theorem skip {m : P α} {g : α → P β} {L : β → Bytes → Bytes → Prop} (h : Idle m) (h' : ∀ a, Lang (g a) L) : Lang (m >>= g) L := by
  constructor
  · intro x p post j b s hs
    obtain ⟨a, s1, h1, h2⟩ := bind_inv hs
    obtain ⟨a', x', j', h3⟩ := h.run x p post j
    rw [h3] at h1
    simp only [Prod.mk.injEq] at h1
    rw [← h1.2] at h2
    exact (h' a).sound _ _ _ _ _ _ h2
  · intro x p j b f q hl
    obtain ⟨a, x1, j1, h1⟩ := h.run x p (f ++ q) j
    obtain ⟨x2, j2, h2⟩ := (h' a).complete x1 p j1 b f q hl
    exact ⟨x2, j2, by rw [bind_run, h1]; exact h2⟩

theorem readByte : Lang readByte (fun b f _ => f = [b]) := by
  constructor
  · intro x p post j b s hs
    obtain ⟨q, rfl, rfl⟩ := readByte_inv hs
    exact ⟨[b], q, x, j, rfl, rfl, rfl⟩
  · rintro x p j b f q rfl
    exact ⟨x, j, readByte_cons _ _ _ _ _⟩

theorem readBytes (n : Nat) : Lang (readBytes n) (fun b f _ => f = b ∧ b.length = n) := by
  constructor
  · intro x p post j b s hs
    obtain ⟨q, rfl, h, rfl⟩ := readBytes_inv hs
    exact ⟨b, q, x, j, rfl, ⟨rfl, h⟩, rfl⟩
  · rintro x p j b f q ⟨rfl, rfl⟩
    exact ⟨x, j, readBytes_append _ _ _ _ _⟩

theorem rest {g : Int → P β} {L : Nat → β → Bytes → Bytes → Prop} (h' : ∀ n : Nat, Lang (g n) (L n)) :
    Lang (rest >>= g) (fun b f q => L (f ++ q).length b f q) := by
  constructor
  · intro x p post j b s hs
    rw [bind_run, rest_run] at hs
    obtain ⟨f, q, x', j', rfl, h1, h2⟩ := (h' _).sound _ _ _ _ _ _ hs
    exact ⟨f, q, x', j', rfl, h1, h2⟩
  · intro x p j b f q hl
    rw [bind_run, rest_run]
    exact (h' _).complete x p j b f q hl

theorem nested {m : P α} {L : α → Bytes → Bytes → Prop} (c : Item) (h : Lang m L) : Lang (nested c m) L := by
  constructor
  · intro x p post j a s hs
    rw [nested_run] at hs
    rcases hm : m (St.at (some x) p post c) with ⟨r, s'⟩
    rw [hm] at hs
    simp only [Prod.mk.injEq] at hs
    obtain ⟨rfl, rfl⟩ := hs
    obtain ⟨f, q, x', j', h1, h2, rfl⟩ := h.sound _ _ _ _ _ _ hm
    exact ⟨f, q, x', _, h1, h2, rfl⟩
  · intro x p j a f q hl
    obtain ⟨x', j', h1⟩ := h.complete x p c a f q hl
    exact ⟨x', _, by rw [nested_run, h1]; rfl⟩

theorem ite {b : Prop} [Decidable b] {m m' : P α} {L L' : α → Bytes → Bytes → Prop} (h : Lang m L) (h' : Lang m' L') :
    Lang (if b then m else m') (fun a f q => (b ∧ L a f q) ∨ (¬ b ∧ L' a f q)) := by
  by_cases hb : b
  · rw [if_pos hb]; exact h.congr fun a f q => by simp [hb]
  · rw [if_neg hb]; exact h'.congr fun a f q => by simp [hb]

/-- a method on a reader of its own -/
theorem onReader {m : P α} {L : α → Bytes → Bytes → Prop} (b : Bytes) (h : Lang m L) :
    Lang (onReader (Reader.new b) m) (fun a f _ => f = [] ∧ ∃ g r, b = g ++ r ∧ L a.1 g r ∧ a.2 = ⟨b, g.length⟩) := by
  have hr : ∀ x p post j, P.onReader (Reader.new b) m (St.at (some x) p post j) =
      ((m (St.at (some x) [] b j)).1.map (fun a => (a, (m (St.at (some x) [] b j)).2.rd)),
        { (m (St.at (some x) [] b j)).2 with rd := ⟨p ++ post, p.length⟩ }) := fun _ _ _ _ => rfl
  constructor
  · intro x p post j a s hs
    rw [hr] at hs
    rcases hm : m (St.at (some x) [] b j) with ⟨r, s'⟩
    rw [hm] at hs
    cases r with
    | ok a' =>
      simp only [Res.map, Prod.mk.injEq, Res.ok.injEq] at hs
      obtain ⟨rfl, rfl⟩ := hs
      obtain ⟨f, q, x', j', rfl, h2, rfl⟩ := h.sound _ _ _ _ _ _ hm
      exact ⟨[], post, x', j', rfl, ⟨rfl, f, q, rfl, h2, rfl⟩, by simp [St.at]⟩
    | _ => simp [Res.map] at hs
  · rintro x p j ⟨a, rd⟩ f q ⟨rfl, g, r, rfl, hl, hrd⟩
    simp only at hl hrd
    subst hrd
    obtain ⟨x', j', h1⟩ := h.complete x [] j a g r hl
    refine ⟨x', j', ?_⟩
    rw [hr, h1]
    simp [Res.map, St.at]

end Lang

namespace Oks
variable {α β : Type}

theorem congr {m : P α} {A A' : Bytes → Bytes → Prop} (h : Oks m A) (e : ∀ p q, A p q ↔ A' p q) : Oks m A' :=
  ⟨fun x p q j a s hs => ⟨(e p q).mp (h.sound x p q j a s hs).1, (h.sound x p q j a s hs).2⟩,
    fun x p q j hl => h.complete x p q j ((e p q).mpr hl)⟩

theorem idle {m : P α} (h : Idle m) : Oks m (fun _ _ => True) := by
  constructor
  · intro x p q j a s hs
    obtain ⟨a', x', j', h1⟩ := h.run x p q j
    rw [h1] at hs
    simp only [Prod.mk.injEq] at hs
    exact ⟨trivial, x', by rw [← hs.2]; rfl⟩
  · intro x p q j _
    obtain ⟨a', x', j', h1⟩ := h.run x p q j
    exact ⟨_, _, h1⟩

theorem fail (e : GoErr) : Oks (P.fail e : P α) (fun _ _ => False) :=
  ⟨fun x p q j a s h => by rw [fail_run] at h; simp at h, fun _ _ _ _ h => h.elim⟩

theorem bind {m : P α} {g : α → P β} {L : α → Bytes → Bytes → Prop} {A : α → Bytes → Bytes → Prop} (h : Lang m L)
    (h' : ∀ a, Oks (g a) (A a)) : Oks (m >>= g) (fun p q => ∃ a f r, q = f ++ r ∧ L a f r ∧ A a (p ++ f) r) := by
  constructor
  · intro x p q j b s hs
    obtain ⟨a, s1, h1, h2⟩ := bind_inv hs
    obtain ⟨f1, q1, x1, j1, rfl, hl, rfl⟩ := h.sound _ _ _ _ _ _ h1
    obtain ⟨ha, hy⟩ := (h' a).sound _ _ _ _ _ _ h2
    exact ⟨⟨a, f1, q1, rfl, hl, ha⟩, hy⟩
  · rintro x p q j ⟨a, f, r, rfl, hl, ha⟩
    obtain ⟨x1, j1, h1⟩ := h.complete x p j a f r hl
    obtain ⟨b, s, h2⟩ := (h' a).complete x1 (p ++ f) r j1 ha
    exact ⟨b, s, by rw [bind_run, h1]; exact h2⟩

theorem skip {m : P α} {g : α → P β} {A : Bytes → Bytes → Prop} (h : Idle m) (h' : ∀ a, Oks (g a) A) : Oks (m >>= g) A := by
  constructor
  · intro x p q j b s hs
    obtain ⟨a, s1, h1, h2⟩ := bind_inv hs
    obtain ⟨a', x', j', h3⟩ := h.run x p q j
    rw [h3] at h1
    simp only [Prod.mk.injEq] at h1
    rw [← h1.2] at h2
    exact (h' a).sound _ _ _ _ _ _ h2
  · intro x p q j hl
    obtain ⟨a, x1, j1, h1⟩ := h.run x p q j
    obtain ⟨b, s, h2⟩ := (h' a).complete x1 p q j1 hl
    exact ⟨b, s, by rw [bind_run, h1]; exact h2⟩

theorem getBody {g : Bytes → P β} {A : Bytes → Bytes → Bytes → Prop} (h' : ∀ b, Oks (g b) (A b)) :
    Oks (getBody >>= g) (fun p q => A (p ++ q) p q) := by
  constructor
  · intro x p q j b s hs
    rw [bind_run, getBody_run] at hs
    exact (h' _).sound _ _ _ _ _ _ hs
  · intro x p q j hl
    rw [bind_run, getBody_run]
    exact (h' _).complete _ _ _ _ hl

theorem rest {g : Int → P β} {A : Nat → Bytes → Bytes → Prop} (h' : ∀ n : Nat, Oks (g n) (A n)) :
    Oks (rest >>= g) (fun p q => A q.length p q) := by
  constructor
  · intro x p q j b s hs
    rw [bind_run, rest_run] at hs
    exact (h' _).sound _ _ _ _ _ _ hs
  · intro x p q j hl
    rw [bind_run, rest_run]
    exact (h' _).complete _ _ _ _ hl

/-- a last step that cannot fail -/
theorem last {m : P α} {g : α → P β} {A : Bytes → Bytes → Prop} (h : Oks m A) (h' : ∀ a s y, s.ctx = some y → ∃ b s' y', g a s = (.ok b, s') ∧ s'.ctx = some y') :
    Oks (m >>= g) A := by
  constructor
  · intro x p q j b s hs
    obtain ⟨a, s1, h1, h2⟩ := bind_inv hs
    obtain ⟨ha, y, hy⟩ := h.sound _ _ _ _ _ _ h1
    obtain ⟨b', s', y', h3, h4⟩ := h' a s1 y hy
    rw [h3] at h2
    simp only [Prod.mk.injEq] at h2
    exact ⟨ha, y', by rw [← h2.2]; exact h4⟩
  · intro x p q j hl
    obtain ⟨a, s, h1⟩ := h.complete x p q j hl
    obtain ⟨-, y, hy⟩ := h.sound _ _ _ _ _ _ h1
    obtain ⟨b', s', y', h3, -⟩ := h' a s y hy
    exact ⟨b', s', by rw [bind_run, h1]; exact h3⟩

end Oks

end Gpgpdump
