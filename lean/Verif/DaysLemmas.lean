import Verif.Days
import Verif.NumLemmas
import Verif.ThmCalendar
import Mathlib.Tactic.Linarith
import Mathlib.Tactic.Ring

/-!
# Lemmas about `Days.lean`: division, the shortest decimal, its notation
-/

namespace Gpgpdump

open Spec

/-! ## Division -/

theorem roundEven_spec (a b : Nat) (hb : 0 < b) :
    2 * (b * roundEven a b) ≤ 2 * a + b ∧ 2 * a ≤ 2 * (b * roundEven a b) + b ∧
    (roundEven a b % 2 = 1 → 2 * (b * roundEven a b) < 2 * a + b ∧ 2 * a < 2 * (b * roundEven a b) + b) := by
  have h := Nat.div_add_mod a b
  have hr := Nat.mod_lt a hb
  unfold roundEven
  generalize a / b = q at *
  generalize a % b = r at *
  have e : b * (q + 1) = b * q + b := by ring
  split
  · exact ⟨by omega, by omega, fun _ => ⟨by omega, by omega⟩⟩
  · split
    · rw [e]; exact ⟨by omega, by omega, fun _ => ⟨by omega, by omega⟩⟩
    · split
      · exact ⟨by omega, by omega, fun _ => by omega⟩
      · rw [e]; exact ⟨by omega, by omega, fun _ => by omega⟩

/-- the lower halfway point of a float, in quarters of the last place -/
def Binary64.low (f : Binary64) : Nat := if f.mant = 2 ^ 52 then 4 * f.mant - 1 else 4 * f.mant - 2

/-- the number `a / b` lies between the halfway points of a float -/
def Binary64.Within (f : Binary64) (a b : Nat) : Prop :=
  f.low * b ≤ a * 2 ^ (f.shift + 2) ∧ a * 2 ^ (f.shift + 2) ≤ (4 * f.mant + 2) * b ∧
  (f.mant % 2 = 1 → f.low * b < a * 2 ^ (f.shift + 2) ∧ a * 2 ^ (f.shift + 2) < (4 * f.mant + 2) * b)

theorem near_iff (f : Binary64) (n : Nat) : f.near n = true ↔ f.Within n fixOne := by
  unfold Binary64.near Binary64.Within Binary64.low
  simp only
  rcases Nat.mod_two_eq_zero_or_one f.mant with h | h
  · rw [if_pos h]
    simp only [Bool.and_eq_true, decide_eq_true_eq]
    omega
  · rw [if_neg (by omega)]
    simp only [Bool.and_eq_true, decide_eq_true_eq]
    omega

/-- a float of the range that occurs here -/
def Binary64.Ok (f : Binary64) : Prop := 2 ^ 52 ≤ f.mant ∧ f.mant < 2 ^ 53 ∧ 36 ≤ f.shift ∧ f.shift ≤ 69

theorem low_lt {f : Binary64} (h : f.Ok) : f.low < 4 * f.mant ∧ 4 * f.mant ≤ f.low + 2 := by
  unfold Binary64.low
  have := h.1
  split <;> omega

theorem quotShift_spec {n : Nat} (h0 : 0 < n) (h1 : n < 2 ^ 32) :
    2 ^ 52 * 86400 ≤ n * 2 ^ quotShift n ∧ n * 2 ^ quotShift n < 2 ^ 53 * 86400 ∧ 37 ≤ quotShift n ∧ quotShift n ≤ 69 := by
  have hL : n.log2 < 32 := (Nat.log2_lt (by omega)).mpr h1
  have hlo : 2 ^ n.log2 ≤ n := Nat.log2_self_le (by omega)
  have hhi : n < 2 ^ (n.log2 + 1) := Nat.lt_log2_self
  have a1 : 2 ^ n.log2 * 2 ^ (68 - n.log2) = 2 ^ 68 := by rw [← Nat.pow_add]; congr 1; omega
  have a2 : 2 ^ (n.log2 + 1) * 2 ^ (68 - n.log2) = 2 ^ 69 := by rw [← Nat.pow_add]; congr 1; omega
  have b1 : 2 ^ 68 ≤ n * 2 ^ (68 - n.log2) := a1 ▸ Nat.mul_le_mul_right _ hlo
  have b2 : n * 2 ^ (68 - n.log2) < 2 ^ 69 := a2 ▸ Nat.mul_lt_mul_of_pos_right hhi (Nat.two_pow_pos _)
  have e : 2 ^ (69 - n.log2) = 2 * 2 ^ (68 - n.log2) := by
    rw [show 69 - n.log2 = (68 - n.log2) + 1 by omega, Nat.pow_succ]; omega
  unfold quotShift
  split
  · rename_i hc
    exact ⟨hc, by omega, by omega, by omega⟩
  · rename_i hc
    rw [e, Nat.mul_left_comm]
    exact ⟨by omega, by omega, by omega, by omega⟩

theorem quotient_spec {n : Nat} (h0 : 0 < n) (h1 : n < 2 ^ 32) : (quotient n).Ok ∧ (quotient n).Within n 86400 := by
  obtain ⟨a, b, c, d⟩ := quotShift_spec h0 h1
  obtain ⟨r1, r2, r3⟩ := roundEven_spec (n * 2 ^ quotShift n) 86400 (by omega)
  unfold quotient
  simp only
  generalize hs : quotShift n = s at *
  generalize hm : roundEven (n * 2 ^ s) 86400 = m at *
  have e4 : n * 2 ^ (s + 2) = 4 * (n * 2 ^ s) := by rw [Nat.pow_add]; ring
  have m1 : 2 ^ 52 ≤ m := by omega
  have m2 : m ≤ 2 ^ 53 := by omega
  by_cases hc : m = 2 ^ 53
  · rw [if_pos hc]
    refine ⟨⟨by simp, by simp, by simp only; omega, by simp only; omega⟩, ?_⟩
    have e5 : n * 2 ^ (s - 1 + 2) = 2 * (n * 2 ^ s) := by
      rw [show s - 1 + 2 = s + 1 by omega, Nat.pow_succ]; ring
    unfold Binary64.Within Binary64.low
    simp only [if_true]
    rw [e5]
    generalize n * 2 ^ s = x at *
    refine ⟨by omega, by omega, fun h => ?_⟩
    simp at h
  · rw [if_neg hc]
    refine ⟨⟨m1, by simp only; omega, by simp only; omega, d⟩, ?_⟩
    unfold Binary64.Within Binary64.low
    simp only
    rw [e4]
    generalize n * 2 ^ s = x at *
    clear hc hs hm e4 h1 c d m2
    split
    · rename_i hp
      clear r3
      refine ⟨?_, by clear a b hp m1; omega, fun h => ?_⟩
      · rw [hp]; clear b r1 r2 m1; omega
      · rw [hp] at h; simp at h
    · clear a b
      exact ⟨by omega, by omega, fun h => by have := r3 h; omega⟩

/-! ## The shortest decimal -/

theorem down_spec (f : Binary64) (p : Nat) :
    f.down p * 2 ^ f.shift ≤ f.mant * fixOne ∧ f.mant * fixOne < (f.down p + 10 ^ p) * 2 ^ f.shift := by
  unfold Binary64.down
  have hp : 0 < 10 ^ p := Nat.pow_pos (by omega)
  have hq : 0 < 2 ^ f.shift := Nat.two_pow_pos _
  generalize hx : f.mant * fixOne = x at *
  have h1 := Nat.div_add_mod x (2 ^ f.shift)
  have h2 := Nat.mod_lt x hq
  generalize x / 2 ^ f.shift = v at *
  have h3 := Nat.div_add_mod v (10 ^ p)
  have h4 := Nat.mod_lt v hp
  generalize v / 10 ^ p = w at *
  generalize 10 ^ p = u at *
  generalize 2 ^ f.shift = t at *
  constructor
  · have : w * u ≤ v := by rw [Nat.mul_comm]; omega
    calc w * u * t ≤ v * t := Nat.mul_le_mul_right _ this
      _ ≤ x := by rw [Nat.mul_comm]; omega
  · have : v + 1 ≤ w * u + u := by rw [Nat.mul_comm w]; omega
    calc x < (v + 1) * t := by rw [Nat.add_mul, Nat.mul_comm v]; omega
      _ ≤ _ := Nat.mul_le_mul_right _ this

theorem pow4 (f : Binary64) (n : Nat) : n * 2 ^ (f.shift + 2) = 4 * (n * 2 ^ f.shift) := by
  rw [Nat.pow_add]; ring

theorem near_of_ge {f : Binary64} {c x : Nat} (hc : f.near c = true) (hcx : c ≤ x)
    (hx : x * 2 ^ f.shift ≤ f.mant * fixOne) : f.near x = true := by
  rw [near_iff] at hc ⊢
  obtain ⟨h1, _, h3⟩ := hc
  have hm : c * 2 ^ (f.shift + 2) ≤ x * 2 ^ (f.shift + 2) := Nat.mul_le_mul_right _ hcx
  have h4 := pow4 f x
  have e : (4 * f.mant + 2) * fixOne = 4 * (f.mant * fixOne) + 2 * fixOne := by ring
  have hp : 0 < fixOne := by unfold fixOne; positivity
  refine ⟨by omega, by omega, fun h => ⟨by have := h3 h; omega, by omega⟩⟩

theorem near_of_le {f : Binary64} (hf : f.Ok) {c x : Nat} (hc : f.near c = true) (hcx : x ≤ c)
    (hx : f.mant * fixOne ≤ x * 2 ^ f.shift) : f.near x = true := by
  rw [near_iff] at hc ⊢
  obtain ⟨_, h2, h3⟩ := hc
  have hm : x * 2 ^ (f.shift + 2) ≤ c * 2 ^ (f.shift + 2) := Nat.mul_le_mul_right _ hcx
  have h4 := pow4 f x
  have hp : 0 < fixOne := by unfold fixOne; positivity
  have e : f.low * fixOne < 4 * (f.mant * fixOne) := by
    rw [← Nat.mul_assoc]
    exact Nat.mul_lt_mul_of_pos_right (low_lt hf).1 hp
  refine ⟨by omega, by omega, fun h => ⟨by omega, by have := h3 h; omega⟩⟩

theorem near_last {f : Binary64} (hf : f.Ok) : f.near (f.down 0) = true := by
  rw [near_iff]
  obtain ⟨h1, h2⟩ := down_spec f 0
  have hp : 0 < fixOne := by unfold fixOne; positivity
  have h4 := pow4 f (f.down 0)
  have e : (4 * f.mant + 2) * fixOne = 4 * (f.mant * fixOne) + 2 * fixOne := by ring
  have hlow : f.low + 1 ≤ 4 * f.mant := (low_lt hf).1
  have e2 : f.low * fixOne + fixOne ≤ 4 * (f.mant * fixOne) := by
    have := Nat.mul_le_mul_right fixOne hlow
    rw [Nat.add_mul, Nat.one_mul, Nat.mul_assoc] at this
    exact this
  have hsh : 2 ^ f.shift ≤ 2 ^ 69 := Nat.pow_le_pow_right (by omega) hf.2.2.2
  have hbig : 4 * 2 ^ 69 < fixOne := by unfold fixOne; norm_num
  have e3 : (f.down 0 + 10 ^ 0) * 2 ^ f.shift = f.down 0 * 2 ^ f.shift + 2 ^ f.shift := by ring
  refine ⟨by omega, by omega, fun _ => ⟨by omega, by omega⟩⟩

theorem nearest_or (f : Binary64) (p : Nat) : f.nearest p = f.down p ∨ f.nearest p = f.down p + 10 ^ p := by
  unfold Binary64.nearest
  simp only
  split
  · exact .inl rfl
  · split
    · exact .inr rfl
    · split
      · exact .inl rfl
      · exact .inr rfl

theorem shortest_near {f : Binary64} (hf : f.Ok) (p : Nat) : f.near (f.shortest (p + 1)) = true := by
  induction p with
  | zero =>
    rw [Binary64.shortest, near_last hf]
    cases h : f.near (f.down 0 + 10 ^ 0) with
    | false => exact near_last hf
    | true =>
      simp only
      rcases nearest_or f 0 with e | e <;> rw [e]
      · exact near_last hf
      · exact h
  | succ p ih =>
    rw [Binary64.shortest]
    cases h1 : f.near (f.down (p + 1)) <;> cases h2 : f.near (f.down (p + 1) + 10 ^ (p + 1)) <;> simp only
    · exact ih
    · exact h2
    · exact h1
    · rcases nearest_or f (p + 1) with e | e <;> rw [e]
      · exact h1
      · exact h2

theorem down_dvd (f : Binary64) (p : Nat) : 10 ^ p ∣ f.down p := Nat.dvd_mul_left _ _

theorem near_multiple {f : Binary64} (hf : f.Ok) {c p : Nat} (hc : f.near (c * 10 ^ p) = true) :
    (c * 10 ^ p ≤ f.down p ∧ f.near (f.down p) = true) ∨
    (f.down p + 10 ^ p ≤ c * 10 ^ p ∧ f.near (f.down p + 10 ^ p) = true) := by
  obtain ⟨d1, d2⟩ := down_spec f p
  by_cases hle : c * 10 ^ p * 2 ^ f.shift ≤ f.mant * fixOne
  · have : c * 10 ^ p ≤ f.down p := by
      have hlt : c * 10 ^ p < f.down p + 10 ^ p :=
        Nat.lt_of_mul_lt_mul_right (a := 2 ^ f.shift) (by omega)
      obtain ⟨k, hk⟩ := down_dvd f p
      rw [hk, Nat.mul_comm] at hlt ⊢
      have : 10 ^ p * c < 10 ^ p * (k + 1) := by rw [Nat.mul_add, Nat.mul_one]; exact hlt
      have := Nat.lt_of_mul_lt_mul_left this
      exact Nat.mul_le_mul_left _ (by omega)
    exact .inl ⟨this, near_of_ge hc this d1⟩
  · have : f.down p + 10 ^ p ≤ c * 10 ^ p := by
      have hlt : f.down p < c * 10 ^ p :=
        Nat.lt_of_mul_lt_mul_right (a := 2 ^ f.shift) (by omega)
      obtain ⟨k, hk⟩ := down_dvd f p
      rw [hk, Nat.mul_comm c] at hlt ⊢
      have := Nat.lt_of_mul_lt_mul_left hlt
      calc 10 ^ p * k + 10 ^ p = 10 ^ p * (k + 1) := by ring
        _ ≤ _ := Nat.mul_le_mul_left _ (by omega)
    exact .inr ⟨this, near_of_le hf hc this (by omega)⟩

theorem shortest_dvd {f : Binary64} (hf : f.Ok) {c p : Nat} (hc : f.near (c * 10 ^ p) = true) (q : Nat) (hq : p < q) :
    10 ^ p ∣ f.shortest q := by
  induction q with
  | zero => omega
  | succ q ih =>
    have hd : 10 ^ p ∣ f.down q := (Nat.pow_dvd_pow 10 (by omega)).trans (down_dvd f q)
    have hu : 10 ^ p ∣ f.down q + 10 ^ q := Nat.dvd_add hd (Nat.pow_dvd_pow 10 (by omega))
    rw [Binary64.shortest]
    cases h1 : f.near (f.down q) <;> cases h2 : f.near (f.down q + 10 ^ q) <;> simp only
    · by_cases hpq : p = q
      · subst hpq
        rcases near_multiple hf hc with ⟨_, h⟩ | ⟨_, h⟩
        · rw [h] at h1; cases h1
        · rw [h] at h2; cases h2
      · exact ih (by omega)
    · exact hu
    · exact hd
    · rcases nearest_or f q with e | e <;> rw [e]
      · exact hd
      · exact hu

/-- the distance of a decimal from the float, times `10^72 * 2^shift` -/
def Binary64.off (f : Binary64) (n : Nat) : Int := |(n : Int) * 2 ^ f.shift - f.mant * fixOne|

theorem off_below {f : Binary64} {n : Nat} (h : n * 2 ^ f.shift ≤ f.mant * fixOne) :
    f.off n = f.mant * fixOne - (n : Int) * 2 ^ f.shift := by
  unfold Binary64.off
  have : (n : Int) * 2 ^ f.shift ≤ f.mant * fixOne := by exact_mod_cast h
  rw [abs_of_nonpos (by linarith)]
  ring

theorem off_above {f : Binary64} {n : Nat} (h : f.mant * fixOne ≤ n * 2 ^ f.shift) :
    f.off n = (n : Int) * 2 ^ f.shift - f.mant * fixOne := by
  unfold Binary64.off
  have : (f.mant : Int) * fixOne ≤ (n : Int) * 2 ^ f.shift := by exact_mod_cast h
  rw [abs_of_nonneg (by linarith)]

theorem off_down_le {f : Binary64} {c p : Nat} (h : c ≤ f.down p) : f.off (f.down p) ≤ f.off c := by
  have h1 := (down_spec f p).1
  have h2 : c * 2 ^ f.shift ≤ f.down p * 2 ^ f.shift := Nat.mul_le_mul_right _ h
  rw [off_below h1, off_below (h2.trans h1)]
  have : (c : Int) * 2 ^ f.shift ≤ (f.down p : Int) * 2 ^ f.shift := by exact_mod_cast h2
  linarith

theorem off_up_le {f : Binary64} {c p : Nat} (h : f.down p + 10 ^ p ≤ c) : f.off (f.down p + 10 ^ p) ≤ f.off c := by
  have h1 := (down_spec f p).2.le
  have h2 : (f.down p + 10 ^ p) * 2 ^ f.shift ≤ c * 2 ^ f.shift := Nat.mul_le_mul_right _ h
  rw [off_above h1, off_above (h1.trans h2)]
  have : ((f.down p + 10 ^ p : Nat) : Int) * 2 ^ f.shift ≤ (c : Int) * 2 ^ f.shift := by exact_mod_cast h2
  linarith

theorem off_nearest (f : Binary64) (p : Nat) :
    f.off (f.nearest p) ≤ f.off (f.down p) ∧ f.off (f.nearest p) ≤ f.off (f.down p + 10 ^ p) := by
  obtain ⟨h1, h2⟩ := down_spec f p
  have e1 := off_below h1
  have e2 := off_above h2.le
  have hm : ((2 * f.down p + 10 ^ p) * 2 ^ f.shift : Nat) = (f.down p : Int) * 2 ^ f.shift + ((f.down p + 10 ^ p : Nat) : Int) * 2 ^ f.shift := by
    push_cast; ring
  unfold Binary64.nearest
  simp only
  split
  · rename_i h
    have : (2 * f.mant * fixOne : Int) < ((2 * f.down p + 10 ^ p) * 2 ^ f.shift : Nat) := by exact_mod_cast h
    exact ⟨le_refl _, by rw [e1, e2]; linarith⟩
  · rename_i h
    have h3 : (((2 * f.down p + 10 ^ p) * 2 ^ f.shift : Nat) : Int) ≤ 2 * f.mant * fixOne := by exact_mod_cast Nat.le_of_not_lt h
    have h4 : f.off (f.down p + 10 ^ p) ≤ f.off (f.down p) := by rw [e1, e2]; linarith
    split
    · exact ⟨h4, le_refl _⟩
    · rename_i h'
      have h5 : (2 * f.mant * fixOne : Int) ≤ ((2 * f.down p + 10 ^ p) * 2 ^ f.shift : Nat) := by exact_mod_cast Nat.le_of_not_lt h'
      have h6 : f.off (f.down p) ≤ f.off (f.down p + 10 ^ p) := by rw [e1, e2]; linarith
      split
      · exact ⟨le_refl _, h6⟩
      · exact ⟨h4, le_refl _⟩

/-- Of the decimals with as few digits after the point, the one nearest to the float is taken. -/
theorem shortest_best {f : Binary64} (hf : f.Ok) {c p : Nat} (hc : f.near (c * 10 ^ p) = true) (q : Nat)
    (hno : ∀ c, f.near (c * 10 ^ q) = false) (hp : ∀ j, 10 ^ j ∣ f.shortest q → j ≤ p) :
    f.off (f.shortest q) ≤ f.off (c * 10 ^ p) := by
  induction q with
  | zero =>
    have := hno (f.down 0)
    rw [Nat.pow_zero, Nat.mul_one, near_last hf] at this
    cases this
  | succ q ih =>
    have hpq : p ≤ q := by
      by_contra hlt
      have := hno (c * 10 ^ (p - (q + 1)))
      rw [Nat.mul_assoc, ← Nat.pow_add, Nat.sub_add_cancel (by omega), hc] at this
      cases this
    have hd := down_dvd f q
    have hu : 10 ^ q ∣ f.down q + 10 ^ q := Nat.dvd_add hd (Nat.dvd_refl _)
    rw [Binary64.shortest] at hp ⊢
    cases h1 : f.near (f.down q) <;> cases h2 : f.near (f.down q + 10 ^ q) <;> rw [h1, h2] at hp <;> simp only at hp ⊢
    · refine ih (fun c => ?_) hp
      cases h : f.near (c * 10 ^ q) with
      | false => rfl
      | true =>
        rcases near_multiple hf h with ⟨_, h⟩ | ⟨_, h⟩
        · rw [h] at h1; cases h1
        · rw [h] at h2; cases h2
    · have : p = q := Nat.le_antisymm hpq (hp q hu)
      subst this
      rcases near_multiple hf hc with ⟨_, h⟩ | ⟨h, _⟩
      · rw [h] at h1; cases h1
      · exact off_up_le h
    · have : p = q := Nat.le_antisymm hpq (hp q hd)
      subst this
      rcases near_multiple hf hc with ⟨h, _⟩ | ⟨_, h⟩
      · exact off_down_le h
      · rw [h] at h2; cases h2
    · have : p = q := by
        refine Nat.le_antisymm hpq (hp q ?_)
        rcases nearest_or f q with e | e <;> rw [e]
        · exact hd
        · exact hu
      subst this
      rcases near_multiple hf hc with ⟨h, _⟩ | ⟨h, _⟩
      · exact (off_nearest f p).1.trans (off_down_le h)
      · exact (off_nearest f p).2.trans (off_up_le h)

/-- Two numbers between the halfway points of the same float are close. -/
theorem within_close {f : Binary64} (hf : f.Ok) {a b c d : Nat} (h : f.Within a b) (h' : f.Within c d) :
    a * d * 2 ^ 38 ≤ c * b * 2 ^ 38 + 4 * (b * d) := by
  have hl := (low_lt hf).2
  have h1 := h.2.1
  have h2 := h'.1
  have hsh : 2 ^ 38 ≤ 2 ^ (f.shift + 2) := Nat.pow_le_pow_right (by omega) (by have := hf.2.2.1; omega)
  generalize 2 ^ (f.shift + 2) = t at *
  generalize f.low = l at *
  generalize f.mant = m at *
  have h3 : a * t * d ≤ (4 * m + 2) * b * d := Nat.mul_le_mul_right _ h1
  have h4 : l * d * b ≤ c * t * b := Nat.mul_le_mul_right _ h2
  have h5 : 4 * m * (b * d) ≤ (l + 2) * (b * d) := Nat.mul_le_mul_right _ hl
  have key : a * d * t ≤ c * b * t + 4 * (b * d) := by nlinarith
  by_cases hle : a * d ≤ c * b
  · exact Nat.le_trans (Nat.mul_le_mul_right (2 ^ 38) hle) (Nat.le_add_right _ _)
  · obtain ⟨k, hk⟩ := Nat.exists_eq_add_of_lt (Nat.lt_of_not_le hle)
    rw [hk] at key ⊢
    have : (k + 1) * 2 ^ 38 ≤ (k + 1) * t := Nat.mul_le_mul_left _ hsh
    nlinarith

end Gpgpdump
