import Verif.SrcLemmas

/-!
# Arbitrary sources

Facts that hold for every source, also one that reports its error together with the last octets: reading only ever consumes
octets, a packet consumes at least one, and the recursion bounds of the model are never reached.
-/

namespace Gpgpdump
open Spec Src

/-- not the marker of the model for an exhausted recursion bound -/
def GoErr.real (e : GoErr) : Prop := e.cause ≠ .fuel

/-- `s'` comes from `s` by reading, `k` octets at least; `e` is a real error if that of `s` is -/
structure Took (k : Nat) (s s' : Src) (e : Option GoErr) : Prop where
  kin : Kin s s'
  le : s'.data.length + k ≤ s.data.length
  real : s.tail.real → ∀ x, e = some x → x.real

theorem Took.tail {k s s' e} (h : Took k s s' e) (ht : s.tail.real) : s'.tail.real := by rw [h.kin.tail]; exact ht

theorem real_unexpected : (rawErr .unexpectedEOF).real := by intro h; cases h
theorem real_eof : (rawErr .eof).real := by intro h; cases h

theorem real_fix {p : Prop} [Decidable p] {e : GoErr} (h : e.real) : (if p then rawErr .unexpectedEOF else e).real := by
  split
  · exact real_unexpected
  · exact h

theorem took_read {s : Src} {n : Nat} (hn : 0 < n) {b e s'} (h : s.read n = (b, e, s')) :
    Took 0 s s' e ∧ (s.data.length = b.length + s'.data.length) ∧ b.length ≤ n ∧ (e = none → 0 < b.length) := by
  unfold Src.read at h
  split at h
  · split at h
    · cases h
      exact ⟨⟨.refl _, by omega, by intro _ x hx; cases hx; intro h; cases h⟩, by simp, by simp, by intro h; cases h⟩
    · rename_i hs hd
      have hpos : 0 < s.data.length := by
        rcases hsd : s.data with _ | _
        · rw [hsd] at hd; simp at hd
        · simp
      split at h
      · cases h
        exact ⟨⟨.refl _, by omega, by intro _ x hx; cases hx; intro h; cases h⟩, by simp, by simp, by intro h; cases h⟩
      · cases h
        exact ⟨⟨⟨rfl, rfl, rfl⟩, by simp, by intro _ x hx; cases hx⟩, by simp; omega, by simp; omega, by intro; simp; omega⟩
  · split at h
    · cases h
      exact ⟨⟨.refl _, by omega, by intro ht x hx; cases hx; exact ht⟩, by simp, by simp, by intro h; cases h⟩
    · rename_i hs hd
      have hpos : 0 < s.data.length := by
        rcases hsd : s.data with _ | _
        · rw [hsd] at hd; simp at hd
        · simp
      have key : ∀ k, 0 < k → k ≤ n → (s.data.take k, (if (s.eager && (s.data.drop k).isEmpty) = true then some s.tail else none : Option GoErr),
          ({ s with data := s.data.drop k, sched := s.sched.tail } : Src)) = (b, e, s') →
          Took 0 s s' e ∧ (s.data.length = b.length + s'.data.length) ∧ b.length ≤ n ∧ (e = none → 0 < b.length) := by
        intro k h1 h2 h
        simp only [Prod.mk.injEq] at h
        obtain ⟨rfl, rfl, rfl⟩ := h
        refine ⟨⟨⟨rfl, rfl, rfl⟩, by simp, ?_⟩, by simp; omega, by simp; omega, by intro; simp; omega⟩
        intro ht x hx
        split at hx
        · cases hx; exact ht
        · cases hx
      refine key _ ?_ ?_ h
      · split <;> omega
      · split <;> omega

theorem took_fill {f : Nat} {s : Src} {n : Nat} (hf : n < f) {b e s'} (h : fill f s n = (b, e, s')) :
    Took 0 s s' e ∧ s.data.length = b.length + s'.data.length ∧ (e = none → b.length = n) := by
  induction f generalizing s n b e s' with
  | zero => omega
  | succ f ih =>
    cases n with
    | zero =>
      rw [fill] at h
      cases h
      exact ⟨⟨.refl _, by omega, by intro _ x hx; cases hx⟩, by simp, fun _ => rfl⟩
    | succ n =>
      rw [fill] at h
      rcases hr : s.read (n + 1) with ⟨b1, e1, s1⟩
      obtain ⟨h1, h2, h3, h4⟩ := took_read (by omega) hr
      rw [hr] at h
      cases e1 with
      | some x =>
        cases h
        exact ⟨h1, h2, by intro h; cases h⟩
      | none =>
        simp only at h
        rcases hr' : fill f s1 (n + 1 - b1.length) with ⟨b2, e2, s2⟩
        rw [hr'] at h
        simp only [Prod.mk.injEq] at h
        obtain ⟨rfl, rfl, rfl⟩ := h
        have := h4 rfl
        obtain ⟨g1, g2, g3⟩ := ih (by omega) hr'
        refine ⟨⟨h1.kin.trans g1.kin, ?_, fun h => g1.real (h1.tail h)⟩, by simp; omega, ?_⟩
        · have := h1.le; have := g1.le; omega
        · intro h; have := g3 h; simp; omega

def errOf {α} : Except GoErr α → Option GoErr
  | .error e => some e
  | .ok _ => none

theorem took_full {s : Src} {n : Nat} {r s'} (h : s.readFullIO n = (r, s')) :
    Took 0 s s' (errOf r) ∧ ∀ b, r = .ok b → Took n s s' none := by
  unfold readFullIO at h
  rcases hr : fill (n + 1) s n with ⟨b, e, s1⟩
  obtain ⟨h1, h2, h3⟩ := took_fill (by omega) hr
  rw [hr] at h
  simp only at h
  have ok : n ≤ b.length → Took n s s1 none := fun hb => ⟨h1.kin, by omega, by intro _ x hx; cases hx⟩
  split at h
  · cases h
    exact ⟨⟨h1.kin, h1.le, by intro _ x hx; cases hx⟩, fun _ _ => ok (by assumption)⟩
  · cases e with
    | none =>
      cases h
      exact ⟨⟨h1.kin, h1.le, by intro _ x hx; cases hx⟩, fun _ _ => ok (by have := h3 rfl; omega)⟩
    | some x =>
      cases h
      refine ⟨⟨h1.kin, h1.le, ?_⟩, by intro b h; cases h⟩
      intro ht y hy; cases hy
      exact real_fix (h1.real ht x rfl)

theorem took_readFull {s : Src} {n : Nat} {r s'} (h : s.readFull n = (r, s')) :
    Took 0 s s' (errOf r) ∧ ∀ b, r = .ok b → Took n s s' none := by
  unfold readFull at h
  rcases hr : s.readFullIO n with ⟨r1, s1⟩
  obtain ⟨h1, h2⟩ := took_full hr
  rw [hr] at h
  cases r1 with
  | ok b => cases h; exact ⟨h1, h2⟩
  | error e =>
    cases h
    refine ⟨⟨h1.kin, h1.le, ?_⟩, by intro b h; cases h⟩
    intro ht y hy; cases hy
    exact real_fix (h1.real ht e rfl)

theorem Took.trans {j k s s1 s2 e e'} (h : Took j s s1 e) (h' : Took k s1 s2 e') : Took (j + k) s s2 e' :=
  ⟨h.kin.trans h'.kin, by have := h.le; have := h'.le; omega, fun ht => h'.real (h.tail ht)⟩

theorem Took.weak {j k s s1 e} (h : Took j s s1 e) (hk : k ≤ j) : Took k s s1 e := ⟨h.kin, by have := h.le; omega, h.real⟩

theorem Took.none {j s s1 e} (h : Took j s s1 e) : Took j s s1 none := ⟨h.kin, h.le, by intro _ x hx; cases hx⟩

theorem took_length {s : Src} {r s'} (h : readLength s = (r, s')) :
    Took 0 s s' (errOf r) ∧ ∀ b, r = .ok b → Took 1 s s' none := by
  unfold readLength at h
  rcases hr : s.readFull 1 with ⟨r1, s1⟩
  obtain ⟨h1, h2⟩ := took_readFull hr
  rw [hr] at h
  cases r1 with
  | error e => cases h; exact ⟨h1, by intro b h; cases h⟩
  | ok b =>
    have h2 := h2 b rfl
    simp only at h
    have h0 : Took 0 s s1 Option.none := h2.weak (by omega)
    split at h
    · cases h; exact ⟨h0, fun _ _ => h2⟩
    · split at h
      · rcases hr' : s1.readFull 1 with ⟨r2, s2⟩
        obtain ⟨g1, g2⟩ := took_readFull hr'
        rw [hr'] at h
        cases r2 with
        | error e => cases h; exact ⟨(h0.trans g1), by intro b h; cases h⟩
        | ok b' => cases h; exact ⟨h0.trans g1, fun _ _ => (h2.trans g1.none).weak (by omega)⟩
      · split at h
        · cases h; exact ⟨h0, fun _ _ => h2⟩
        · rcases hr' : s1.readFull 4 with ⟨r2, s2⟩
          obtain ⟨g1, g2⟩ := took_readFull hr'
          rw [hr'] at h
          cases r2 with
          | error e => cases h; exact ⟨(h0.trans g1), by intro b h; cases h⟩
          | ok b' => cases h; exact ⟨h0.trans g1, fun _ _ => (h2.trans g1.none).weak (by omega)⟩

theorem took_header {s : Src} {r s'} (h : readHeader s = (r, s')) :
    Took 0 s s' (errOf r) ∧ ∀ b, r = .ok b → Took 1 s s' none := by
  unfold readHeader at h
  rcases hr : s.readFullIO 1 with ⟨r1, s1⟩
  obtain ⟨h1, h2⟩ := took_full hr
  rw [hr] at h
  cases r1 with
  | error e => cases h; exact ⟨h1, by intro b h; cases h⟩
  | ok b =>
    have h2 := h2 b rfl
    simp only at h
    have h0 : Took 0 s s1 Option.none := h2.weak (by omega)
    split at h
    · cases h; exact ⟨⟨h0.kin, h0.le, by intro _ x hx; cases hx; intro h; cases h⟩, by intro b h; cases h⟩
    · split at h
      · split at h
        · cases h; exact ⟨h0, fun _ _ => h2⟩
        · generalize 2 ^ (beNat b % 4) = n at h
          rcases hr' : s1.readFull n with ⟨r2, s2⟩
          obtain ⟨g1, g2⟩ := took_readFull hr'
          rw [hr'] at h
          cases r2 with
          | error e => cases h; exact ⟨(h0.trans g1), by intro b h; cases h⟩
          | ok b' => cases h; exact ⟨h0.trans g1, fun _ _ => (h2.trans g1.none).weak (by omega)⟩
      · rcases hr' : readLength s1 with ⟨r2, s2⟩
        obtain ⟨g1, g2⟩ := took_length hr'
        rw [hr'] at h
        cases r2 with
        | error e => cases h; exact ⟨(h0.trans g1), by intro b h; cases h⟩
        | ok b' =>
          obtain ⟨len, p⟩ := b'
          cases p <;> (cases h; exact ⟨h0.trans g1, fun _ _ => (h2.trans g1.none).weak (by omega)⟩)

theorem took_body {c : Body} {s : Src} {n : Nat} (hn : 0 < n) {b e c' s'} (h : c.read s n = (b, e, c', s')) :
    Took 0 s s' e ∧ b.length ≤ n ∧ (e = none → Took 1 s s' none) := by
  cases c with
  | indeterminate =>
    simp only [Body.read] at h
    rcases hr : s.read n with ⟨b1, e1, s1⟩
    obtain ⟨h1, h2, h3, h4⟩ := took_read hn hr
    rw [hr] at h
    simp only [Prod.mk.injEq] at h
    obtain ⟨rfl, rfl, rfl, rfl⟩ := h
    exact ⟨h1, h3, fun he => ⟨h1.kin, by have := h4 he; omega, by intro _ x hx; cases hx⟩⟩
  | span m =>
    cases m with
    | zero =>
      simp only [Body.read] at h
      cases h
      exact ⟨⟨.refl _, by omega, by intro _ x hx; cases hx; exact real_eof⟩, by simp, by intro h; cases h⟩
    | succ m =>
      simp only [Body.read] at h
      rcases hr : s.read (min n (m + 1)) with ⟨b1, e1, s1⟩
      obtain ⟨h1, h2, h3, h4⟩ := took_read (by omega) hr
      rw [hr] at h
      simp only at h
      cases h
      refine ⟨⟨h1.kin, h1.le, ?_⟩, by omega, fun he => ?_⟩
      · intro ht x hx
        cases e1 with
        | none => cases hx
        | some y => cases hx; exact real_fix (h1.real ht y rfl)
      · cases e1 with
        | none => exact ⟨h1.kin, by have := h4 rfl; omega, by intro _ x hx; cases hx⟩
        | some y => cases he
  | partialLen m p =>
    simp only [Body.read] at h
    have hstart : ∀ r s1, (if m > 0 then (Except.ok (m, p), s) else if p = true then readLength s else (.error (rawErr .eof), s)) = (r, s1) →
        Took 0 s s1 (errOf r) := by
      intro r s1 hh
      split at hh
      · cases hh; exact ⟨.refl _, by omega, by intro _ x hx; cases hx⟩
      · split at hh
        · exact (took_length hh).1
        · cases hh; exact ⟨.refl _, by omega, by intro _ x hx; cases hx; exact real_eof⟩
    generalize (if m > 0 then (Except.ok (m, p), s) else if p = true then readLength s else (.error (rawErr .eof), s)) = st at h hstart
    obtain ⟨r, s1⟩ := st
    have h0 := hstart r s1 rfl
    cases r with
    | error x =>
      cases h
      exact ⟨h0, by simp, by intro h; cases h⟩
    | ok mp =>
      obtain ⟨m', p'⟩ := mp
      cases m' with
      | zero =>
        cases h
        exact ⟨⟨h0.kin, h0.le, by intro _ x hx; cases hx; exact real_eof⟩, by simp, by intro h; cases h⟩
      | succ m' =>
        simp only at h
        rcases hr : s1.read (min n (m' + 1)) with ⟨b1, e1, s2⟩
        obtain ⟨h1, h2, h3, h4⟩ := took_read (by omega) hr
        rw [hr] at h
        simp only at h
        cases h
        refine ⟨⟨h0.kin.trans h1.kin, by have := h0.le; have := h1.le; omega, ?_⟩, by omega, fun he => ?_⟩
        · intro ht x hx
          cases e1 with
          | none => cases hx
          | some y => cases hx; exact real_fix (h1.real (h0.tail ht) y rfl)
        · cases e1 with
          | none => exact ⟨h0.kin.trans h1.kin, by have := h4 rfl; have := h0.le; omega, by intro _ x hx; cases hx⟩
          | some y => cases he

theorem took_loop {X : Ext} {f : Nat} {c : Body} {s : Src} {len cap : Nat} (hc : len ≤ cap) (hf : s.data.length < f)
    {b e c' s'} (h : readAllLoop X f c s len cap = (b, e, c', s')) : Took 0 s s' e := by
  induction f generalizing c s len cap b e c' s' with
  | zero => omega
  | succ f ih =>
    rw [readAllLoop] at h
    simp only at h
    have hcap : len < (if len ≥ cap then max (cap + 1) (X.grow cap) else cap) ∧
        len ≤ (if len ≥ cap then max (cap + 1) (X.grow cap) else cap) := by split <;> omega
    generalize (if len ≥ cap then max (cap + 1) (X.grow cap) else cap) = cap' at h hcap
    rcases hr : c.read s (cap' - len) with ⟨b1, e1, c1, s1⟩
    obtain ⟨h1, h2, h3⟩ := took_body (by omega) hr
    rw [hr] at h
    cases e1 with
    | some x =>
      cases h
      refine ⟨h1.kin, h1.le, ?_⟩
      intro ht y hy
      split at hy
      · cases hy
      · cases hy; exact h1.real ht x rfl
    | none =>
      simp only at h
      rcases hr' : readAllLoop X f c1 s1 (len + b1.length) cap' with ⟨b2, e2, c2, s2⟩
      rw [hr'] at h
      cases h
      have h3 := h3 rfl
      have := h3.le
      exact h1.trans (ih (by omega) (by omega) hr')

theorem nextPacket_took {X : Ext} {s : Src} {r s'} (h : nextPacket X s = (r, s')) :
    Took 0 s s' (errOf r) ∧ ∀ p, r = .ok p → Took 1 s s' none := by
  unfold nextPacket at h
  rcases hr : readHeader s with ⟨r1, s1⟩
  obtain ⟨h1, h2⟩ := took_header hr
  rw [hr] at h
  cases r1 with
  | error e => cases h; exact ⟨h1, by intro b h; cases h⟩
  | ok tc =>
    obtain ⟨tag, c⟩ := tc
    have h2 := h2 _ rfl
    simp only [readAll] at h
    rcases hr' : readAllLoop X (s1.data.length + 2) c s1 0 512 with ⟨b, e, c', s2⟩
    have g := took_loop (by omega) (by omega) hr'
    rw [hr'] at h
    cases e with
    | none => cases h; exact ⟨h1.trans g, fun _ _ => (h2.trans g).weak (by omega)⟩
    | some x => cases h; exact ⟨h1.trans g, by intro b h; cases h⟩

end Gpgpdump
