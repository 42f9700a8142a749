import Verif.DaysLemmas
import Verif.ThmDisplay
import Mathlib.Algebra.Order.Field.Rat
import Mathlib.Tactic.FieldSimp
import Mathlib.Tactic.NormNum
import Mathlib.Tactic.Positivity

/-!
# C78: durations in days

The number in front of "days after" is `float64(exp)/86400.0` in Go's shortest notation. The specification reads the text as a
decimal number.
-/

namespace Gpgpdump

namespace Spec

/-- the decimal number denoted by a text such as `12`, `0.5` or `1.1574074074074073e-05`: `(n, k)` stands for `n / 10^k` -/
def readNumber (s : Str) : Option (Nat × Nat) :=
  let m := s.takeWhile (· ≠ 'e')
  let a := m.takeWhile (· ≠ '.')
  let b := (m.dropWhile (· ≠ '.')).drop 1
  match decVal (a ++ b), s.dropWhile (· ≠ 'e') with
  | some n, [] => some (n, b.length)
  | some n, 'e' :: '-' :: x => (decVal x).map fun k => (n, b.length + k)
  | _, _ => none

/-- the non-negative numbers with a significand of 53 bits -/
def Double (x : ℚ) : Prop := ∃ m e : ℕ, m < 2 ^ 53 ∧ (x = m * 2 ^ e ∨ x = m / 2 ^ e)

/-- `d` is a double, and none is nearer to `x` -/
def NearestDouble (x d : ℚ) : Prop := Double d ∧ ∀ z, Double z → |x - d| ≤ |x - z|

/-- `d` is the only double nearest to `x` -/
def Identifies (x d : ℚ) : Prop := ∀ z, Double z → z ≠ d → |x - d| < |x - z|

end Spec

open Spec

/-! ## Reading the notation -/

private def step (acc : Option Nat) (c : Char) : Option Nat :=
  acc.bind fun n => if c.isDigit then some (n * 10 + (c.toNat - '0'.toNat)) else none

private theorem decVal_eq (s : Str) : decVal s = s.foldl step (some 0) := rfl

private theorem foldl_none (s : Str) : s.foldl step none = none := by
  induction s with
  | nil => rfl
  | cons c s ih => exact ih

private theorem foldl_from (s : Str) : ∀ n, s.foldl step (some n) = (decVal s).map (n * 10 ^ s.length + ·) := by
  induction s with
  | nil => intro n; simp [decVal_eq]
  | cons c s ih =>
    intro n
    rw [decVal_eq, List.foldl_cons, List.foldl_cons]
    by_cases hc : c.isDigit
    · rw [show step (some n) c = some (n * 10 + (c.toNat - '0'.toNat)) by simp [step, hc],
        show step (some 0) c = some (0 * 10 + (c.toNat - '0'.toNat)) by simp [step, hc], ih, ih]
      cases decVal s with
      | none => rfl
      | some v =>
        simp only [Option.map_some, List.length_cons, Nat.pow_succ]
        congr 1
        ring
    · rw [show step (some n) c = none by simp [step, hc], show step (some 0) c = none by simp [step, hc], foldl_none]
      rfl

theorem decVal_append {a b : Str} {m n : Nat} (ha : decVal a = some m) (hb : decVal b = some n) :
    decVal (a ++ b) = some (m * 10 ^ b.length + n) := by
  rw [decVal_eq, List.foldl_append, ← decVal_eq, ha, foldl_from, hb]
  rfl

theorem decVal_append_inv {a b : Str} {n : Nat} (h : decVal (a ++ b) = some n) :
    ∃ x y, decVal a = some x ∧ decVal b = some y ∧ n = x * 10 ^ b.length + y := by
  rw [decVal_eq, List.foldl_append, ← decVal_eq] at h
  cases ha : decVal a with
  | none => rw [ha, foldl_none] at h; cases h
  | some x =>
    rw [ha, foldl_from] at h
    cases hb : decVal b with
    | none => rw [hb] at h; cases h
    | some y =>
      rw [hb] at h
      exact ⟨x, y, rfl, rfl, (Option.some.inj h).symm⟩

theorem decVal_zeros (j : Nat) : decVal (List.replicate j '0') = some 0 := by
  induction j with
  | zero => rfl
  | succ j ih =>
    have := decVal_append (a := ['0']) (m := 0) rfl ih
    simpa [List.replicate_succ] using this

theorem decVal_dec (n : Nat) : decVal (dec n) = some n := by
  have := decVal_zpad_dec 0 n
  simpa [zpad] using this

theorem dropWhile_zeros (r : Str) : ∃ j, r = List.replicate j '0' ++ r.dropWhile (· == '0') := by
  induction r with
  | nil => exact ⟨0, rfl⟩
  | cons c r ih =>
    by_cases hc : c = '0'
    · obtain ⟨j, hj⟩ := ih
      refine ⟨j + 1, ?_⟩
      rw [List.dropWhile_cons_of_pos (by simp [hc]), List.replicate_succ, List.cons_append, ← hj, hc]
    · exact ⟨0, by rw [List.dropWhile_cons_of_neg (by simp [hc])]; rfl⟩

theorem dropWhile_head {r t : Str} {c : Char} (h : r.dropWhile (· == '0') = c :: t) : c ≠ '0' := by
  induction r with
  | nil => cases h
  | cons d r ih =>
    by_cases hd : d = '0'
    · rw [List.dropWhile_cons_of_pos (by simp [hd])] at h
      exact ih h
    · rw [List.dropWhile_cons_of_neg (by simp [hd])] at h
      cases h
      exact hd

theorem dropZeros_spec (s : Str) : ∃ j, s = dropZeros s ++ List.replicate j '0' := by
  obtain ⟨j, hj⟩ := dropWhile_zeros s.reverse
  refine ⟨j, ?_⟩
  have h := congrArg List.reverse hj
  rw [List.reverse_append, List.reverse_reverse, List.reverse_replicate] at h
  exact h

theorem dropZeros_last {s t : Str} {c : Char} (h : dropZeros s = t ++ [c]) : c ≠ '0' := by
  unfold dropZeros at h
  have h2 := congrArg List.reverse h
  rw [List.reverse_reverse, List.reverse_append] at h2
  exact dropWhile_head h2

theorem digit_ne {c : Char} (h : c.isDigit = true) : c ≠ 'e' ∧ c ≠ '.' := by
  constructor <;> (rintro rfl; revert h; decide)

theorem fraction_eq (s : Str) : fraction s = if dropZeros s = [] then [] else '.' :: dropZeros s := by
  unfold fraction
  cases dropZeros s <;> rfl

theorem read_parts {a b x : Str} {n : Nat} (ha : ∀ c ∈ a, c.isDigit = true) (hb : ∀ c ∈ b, c.isDigit = true)
    (hn : decVal (a ++ b) = some n) (hx : x = [] ∨ x.head? = some 'e') :
    readNumber (a ++ (if b = [] then [] else '.' :: b) ++ x) =
      match x with
      | [] => some (n, b.length)
      | 'e' :: '-' :: x => (decVal x).map fun k => (n, b.length + k)
      | _ => none := by
  have hm : ∀ c ∈ a ++ (if b = [] then [] else '.' :: b), decide (c ≠ 'e') = true := by
    intro c hc
    rcases List.mem_append.mp hc with h | h
    · simpa using (digit_ne (ha c h)).1
    · split at h
      · cases h
      · rcases List.mem_cons.mp h with rfl | h
        · decide
        · simpa using (digit_ne (hb c h)).1
  have hx1 : x.takeWhile (fun c => decide (c ≠ 'e')) = [] ∧ x.dropWhile (fun c => decide (c ≠ 'e')) = x := by
    rcases hx with rfl | h
    · exact ⟨rfl, rfl⟩
    · cases x with
      | nil => exact ⟨rfl, rfl⟩
      | cons c x =>
        cases (Option.some.inj h)
        exact ⟨rfl, rfl⟩
  have ha1 : ∀ c ∈ a, decide (c ≠ '.') = true := fun c hc => by simpa using (digit_ne (ha c hc)).2
  have e1 : (a ++ (if b = [] then [] else '.' :: b)).takeWhile (fun c => decide (c ≠ '.')) = a := by
    rw [List.takeWhile_append_of_pos ha1]
    split <;> simp
  have e2 : ((a ++ (if b = [] then [] else '.' :: b)).dropWhile (fun c => decide (c ≠ '.'))).drop 1 = b := by
    rw [List.dropWhile_append_of_pos ha1]
    split
    · rename_i h; simp [h]
    · simp
  unfold readNumber
  simp only
  rw [List.takeWhile_append_of_pos hm, List.dropWhile_append_of_pos hm, hx1.1, hx1.2, List.append_nil, e1, e2, hn]
  split <;> split <;> simp_all

theorem last_digit {s : Str} {n : Nat} (h : decVal s = some n) (hn : n % 10 = 0) (hs : s ≠ []) : ∃ t, s = t ++ ['0'] := by
  have e := List.dropLast_append_getLast hs
  rw [← e] at h
  obtain ⟨x, y, _, hy, rfl⟩ := decVal_append_inv h
  refine ⟨s.dropLast, ?_⟩
  conv => lhs; rw [← e]
  congr 2
  generalize s.getLast hs = c at hy
  rw [decVal_eq] at hy
  simp only [List.foldl_cons, List.foldl_nil, step, Option.bind_some] at hy
  split at hy
  · rename_i hd
    have hy := Option.some.inj hy
    simp only [List.length_singleton, pow_one] at hn
    have h48 : 48 ≤ c.toNat ∧ c.toNat ≤ 57 := by
      rw [Char.isDigit_iff_toNat] at hd
      exact hd
    have : c.toNat = 48 := by
      have : '0'.toNat = 48 := rfl
      omega
    exact Char.toNat_inj.mp this
  · cases hy

theorem ten_pow_dvd {n N j p : Nat} (h : N * 10 ^ j = n) (hp : 10 ^ p ∣ n) (hN : N % 10 ≠ 0) : p ≤ j := by
  apply Nat.le_of_not_lt
  intro hlt
  have h1 : 10 ^ (j + 1) ∣ N * 10 ^ j := h ▸ (Nat.pow_dvd_pow 10 hlt).trans hp
  rw [Nat.pow_succ, Nat.mul_comm (10 ^ j)] at h1
  have := Nat.dvd_of_mul_dvd_mul_right (Nat.pow_pos (by omega)) h1
  omega

/-- The notation of a number in fixed point denotes that number, with as few decimals as possible. -/
theorem formatG_reads {n : Nat} (hn : 0 < n) : ∃ N k j, readNumber (formatG n) = some (N, k) ∧ N * 10 ^ j = n ∧ k + j = 72 ∧
    ∀ p, p ≤ 72 → 10 ^ p ∣ n → k + p ≤ 72 := by
  unfold formatG
  split
  · rename_i hlt
    have hL : (dec n).length ≤ 68 := by
      rw [dec_eq']
      exact (Nat.length_toDigits_le_iff (by omega) (by omega)).mpr hlt
    have hne := dec_ne_nil n
    obtain ⟨j, hj⟩ := dropZeros_spec ((dec n).drop 1)
    have hsplit : dec n = ((dec n).take 1 ++ dropZeros ((dec n).drop 1)) ++ List.replicate j '0' := by
      rw [List.append_assoc, ← hj, List.take_append_drop]
    have hv := decVal_dec n
    rw [hsplit] at hv
    obtain ⟨N, z, hN, hz, e⟩ := decVal_append_inv hv
    rw [decVal_zeros] at hz
    cases hz
    rw [List.length_replicate] at e
    have hlen := congrArg List.length hsplit
    rw [List.length_append, List.length_append, List.length_replicate, List.length_take] at hlen
    have hpos : 0 < (dec n).length := List.length_pos_iff.mpr hne
    have hdig : ∀ c ∈ (dec n).take 1 ++ dropZeros ((dec n).drop 1), c.isDigit = true := fun c hc =>
      dec_isDigit (n := n) (by rw [hsplit]; exact List.mem_append_left _ hc)
    have hr := read_parts (x := 'e' :: '-' :: zpad 2 (dec (73 - (dec n).length)))
      (fun c hc => hdig c (List.mem_append_left _ hc)) (fun c hc => hdig c (List.mem_append_right _ hc)) hN (.inr rfl)
    simp only [decVal_zpad_dec, Option.map_some] at hr
    refine ⟨N, _, j, by rw [fraction_eq]; exact hr, by omega, by omega, fun p hp hd => ?_⟩
    have hN10 : N % 10 ≠ 0 := by
      intro h0
      have ht1 : ((dec n).take 1).length = 1 := by rw [List.length_take]; omega
      have hne' : (dec n).take 1 ++ dropZeros ((dec n).drop 1) ≠ [] := by
        intro h
        rw [(List.append_eq_nil_iff.mp h).1] at ht1
        cases ht1
      obtain ⟨t, ht⟩ := last_digit hN h0 hne'
      by_cases hb : dropZeros ((dec n).drop 1) = []
      · rw [hb, List.append_nil] at ht hN
        have : t = [] := by
          have := congrArg List.length ht
          rw [ht1, List.length_append, List.length_singleton] at this
          apply List.length_eq_zero_iff.mp
          omega
        rw [ht, this] at hN
        have hN0 : N = 0 := by
          have h1 : decVal ([] ++ ['0']) = some 0 := rfl
          rw [h1] at hN
          exact (Option.some.inj hN).symm
        rw [hN0, Nat.zero_mul] at e
        omega
      · have e2 := List.dropLast_append_getLast hb
        have := dropZeros_last (s := (dec n).drop 1) e2.symm
        rw [← e2, ← List.append_assoc] at ht
        exact this (List.cons.inj (List.append_inj' ht rfl).2).1
    have := ten_pow_dvd (N := N) (j := j) (by omega) hd hN10
    omega
  · rename_i hge
    have hpos : 0 < fixOne := by unfold fixOne; positivity
    obtain ⟨j, hj⟩ := dropZeros_spec (zpad 72 (dec (n % fixOne)))
    have hlen : (zpad 72 (dec (n % fixOne))).length = 72 := zpad_dec_length _ _ (by omega) (Nat.mod_lt _ hpos)
    have hv : decVal (dec (n / fixOne) ++ zpad 72 (dec (n % fixOne))) = some n := by
      rw [decVal_append (decVal_dec _) (decVal_zpad_dec _ _), hlen]
      congr 1
      have := Nat.div_add_mod n fixOne
      rw [Nat.mul_comm] at this
      exact this
    have hdigz : ∀ c ∈ zpad 72 (dec (n % fixOne)), c.isDigit = true := by
      intro c hc
      rcases List.mem_append.mp hc with h | h
      · rw [(List.mem_replicate.mp h).2]; decide
      · exact dec_isDigit h
    have hdigd : ∀ c ∈ dropZeros (zpad 72 (dec (n % fixOne))), c.isDigit = true := fun c hc =>
      hdigz c (by rw [hj]; exact List.mem_append_left _ hc)
    have hl2 := congrArg List.length hj
    rw [hlen, List.length_append, List.length_replicate] at hl2
    generalize hb : dropZeros (zpad 72 (dec (n % fixOne))) = b at *
    rw [hj, ← List.append_assoc] at hv
    obtain ⟨N, z, hN, hz, e⟩ := decVal_append_inv hv
    rw [decVal_zeros] at hz
    cases hz
    rw [List.length_replicate] at e
    have hr := read_parts (x := []) (fun c hc => dec_isDigit hc) hdigd hN (.inl rfl)
    rw [List.append_nil] at hr
    refine ⟨N, b.length, j, by rw [fraction_eq, hb]; exact hr, by omega, by omega, fun p hp hd => ?_⟩
    by_cases hbn : b = []
    · rw [hbn]; simpa using hp
    · have hN10 : N % 10 ≠ 0 := by
        intro h0
        obtain ⟨t, ht⟩ := last_digit hN h0 (by simp [hbn])
        have e2 := List.dropLast_append_getLast hbn
        have := dropZeros_last (hb.trans e2.symm)
        rw [← e2, ← List.append_assoc] at ht
        exact this (List.cons.inj (List.append_inj' ht rfl).2).1
      have := ten_pow_dvd (N := N) (j := j) (by omega) hd hN10
      omega

/-! ## Doubles -/

/-- the number a float stands for -/
def Binary64.val (f : Binary64) : ℚ := f.mant / 2 ^ f.shift

theorem val_double {f : Binary64} (hf : f.Ok) : Double f.val := ⟨f.mant, f.shift, hf.2.1, .inr rfl⟩

theorem within_iff {f : Binary64} {a b : Nat} (hb : 0 < b) (h : f.Within a b) :
    (f.low : ℚ) / 2 ^ (f.shift + 2) ≤ a / b ∧ (a : ℚ) / b ≤ (4 * f.mant + 2) / 2 ^ (f.shift + 2) := by
  have hp : (0 : ℚ) < 2 ^ (f.shift + 2) := by positivity
  have hb' : (0 : ℚ) < b := by exact_mod_cast hb
  rw [div_le_div_iff₀ hp hb', div_le_div_iff₀ hb' hp]
  exact ⟨by exact_mod_cast h.1, by exact_mod_cast h.2.1⟩

/-- The doubles next to a float. -/
theorem double_gap {f : Binary64} (hf : f.Ok) {z : ℚ} (hz : Double z) (hne : z ≠ f.val) :
    f.val + 1 / 2 ^ f.shift ≤ z ∨ f.val + z ≤ f.low / 2 ^ (f.shift + 1) := by
  obtain ⟨h52, h53, _, _⟩ := hf
  have key : ∀ (m s : ℕ), z = m / 2 ^ s → s ≤ f.shift → f.val + 1 / 2 ^ f.shift ≤ z ∨ f.val + z ≤ f.low / 2 ^ (f.shift + 1) := by
    intro m s e hs
    have e' : z = (m * 2 ^ (f.shift - s) : ℕ) / 2 ^ f.shift := by
      rw [e]
      push_cast
      rw [show (2 : ℚ) ^ f.shift = 2 ^ (f.shift - s) * 2 ^ s by rw [← pow_add]; congr 1; omega]
      field_simp
    generalize m * 2 ^ (f.shift - s) = k at e'
    have hp : (0 : ℚ) < 2 ^ f.shift := by positivity
    have hk : k ≠ f.mant := by
      rintro rfl
      exact hne e'
    rcases Nat.lt_or_gt_of_ne hk with hlt | hgt
    · right
      rw [e', Binary64.val, ← add_div, pow_succ, div_le_div_iff₀ hp (by positivity)]
      have : 2 * (f.mant + k) ≤ f.low := by
        unfold Binary64.low
        split <;> omega
      have : (2 * (f.mant + k) : ℚ) ≤ f.low := by exact_mod_cast this
      nlinarith
    · left
      rw [e', Binary64.val, ← add_div, div_le_div_iff_of_pos_right hp]
      exact_mod_cast hgt
  obtain ⟨m, e, hm, h | h⟩ := hz
  · exact key (m * 2 ^ e) 0 (by rw [h]; push_cast; simp) (by omega)
  · by_cases hs : e ≤ f.shift
    · exact key m e h hs
    · right
      have hp : (0 : ℚ) < 2 ^ e := by positivity
      have hq : (0 : ℚ) < 2 ^ (f.shift + 1) := by positivity
      obtain ⟨d, rfl⟩ := Nat.exists_eq_add_of_lt (Nat.lt_of_not_le hs)
      have hz : z ≤ (2 ^ 53 - 1 : ℕ) / 2 ^ (f.shift + 1) := by
        rw [h, div_le_div_iff₀ hp hq]
        have h1 : (m : ℚ) ≤ (2 ^ 53 - 1 : ℕ) := by exact_mod_cast (by omega)
        have h2 : (2 : ℚ) ^ (f.shift + 1) ≤ 2 ^ (f.shift + d + 1) := by
          apply pow_le_pow_right₀ (by norm_num); omega
        exact mul_le_mul h1 h2 (by positivity) (by positivity)
      have hv : f.val = (2 * f.mant : ℕ) / 2 ^ (f.shift + 1) := by
        rw [Binary64.val, pow_succ]; push_cast; field_simp
      rw [hv]
      calc ((2 * f.mant : ℕ) : ℚ) / 2 ^ (f.shift + 1) + z ≤ (2 * f.mant : ℕ) / 2 ^ (f.shift + 1) + (2 ^ 53 - 1 : ℕ) / 2 ^ (f.shift + 1) := by
            linarith
        _ = ((2 * f.mant + (2 ^ 53 - 1) : ℕ) : ℚ) / 2 ^ (f.shift + 1) := by rw [← add_div]; push_cast; rfl
        _ ≤ _ := by
          rw [div_le_div_iff_of_pos_right hq]
          have : 2 * f.mant + (2 ^ 53 - 1) ≤ f.low := by
            unfold Binary64.low
            split <;> omega
          exact_mod_cast this

theorem within_nearest {f : Binary64} (hf : f.Ok) {a b : Nat} (hb : 0 < b) (h : f.Within a b) : NearestDouble (a / b) f.val := by
  refine ⟨val_double hf, fun z hz => ?_⟩
  by_cases hne : z = f.val
  · rw [hne]
  · obtain ⟨h1, h2⟩ := within_iff hb h
    generalize (a : ℚ) / b = x at *
    have hv : f.val = 4 * f.mant / 2 ^ (f.shift + 2) := by
      rw [Binary64.val, pow_add]; field_simp; ring
    have e1 : (4 * f.mant + 2 : ℚ) / 2 ^ (f.shift + 2) = f.val + 1 / 2 ^ f.shift / 2 := by
      rw [Binary64.val, pow_add]; field_simp; ring
    have e2 : (f.low : ℚ) / 2 ^ (f.shift + 2) = f.low / 2 ^ (f.shift + 1) / 2 := by
      rw [pow_succ _ (f.shift + 1)]; field_simp
    rw [e1] at h2
    rw [e2] at h1
    rcases double_gap hf hz hne with g | g
    · have hu : (0 : ℚ) < 1 / 2 ^ f.shift := by positivity
      have hx : x ≤ z := by linarith
      rw [abs_sub_comm x z, abs_of_nonneg (sub_nonneg.mpr hx), abs_le]
      constructor <;> linarith
    · have hlow : (f.low : ℚ) / 2 ^ (f.shift + 1) / 2 ≤ f.val := by
        rw [← e2, hv]
        apply div_le_div_of_nonneg_right _ (by positivity)
        exact_mod_cast (low_lt hf).1.le
      rw [abs_of_nonneg (sub_nonneg.mpr (by linarith : z ≤ x)), abs_le]
      constructor <;> linarith

/-- A number that identifies a float lies strictly between its halfway points. -/
theorem identifies_near {f : Binary64} (hf : f.Ok) {x : ℚ} (h : Identifies x f.val) :
    (f.low : ℚ) / 2 ^ (f.shift + 2) < x ∧ x < (4 * f.mant + 2) / 2 ^ (f.shift + 2) := by
  have hp : (0 : ℚ) < 2 ^ f.shift := by positivity
  have e1 : (4 * f.mant + 2 : ℚ) / 2 ^ (f.shift + 2) = f.val + 1 / 2 ^ f.shift / 2 := by
    rw [Binary64.val, pow_add]; field_simp; ring
  obtain ⟨h52, h53, h36, _⟩ := id hf
  constructor
  · -- the float below
    obtain ⟨z, hz, hzv⟩ : ∃ z, Double z ∧ f.val + z = f.low / 2 ^ (f.shift + 1) := by
      by_cases hm : f.mant = 2 ^ 52
      · refine ⟨(2 ^ 53 - 1 : ℕ) / 2 ^ (f.shift + 1), ⟨2 ^ 53 - 1, f.shift + 1, by norm_num, .inr rfl⟩, ?_⟩
        rw [Binary64.val, Binary64.low, if_pos hm, hm, pow_succ]
        push_cast
        field_simp
        ring
      · refine ⟨(f.mant - 1 : ℕ) / 2 ^ f.shift, ⟨f.mant - 1, f.shift, by omega, .inr rfl⟩, ?_⟩
        rw [Binary64.val, Binary64.low, if_neg hm, pow_succ, Nat.cast_sub (by omega), Nat.cast_sub (by omega)]
        push_cast
        field_simp
        ring
    have hlow : (f.low : ℚ) / 2 ^ (f.shift + 1) < 2 * f.val := by
      rw [Binary64.val, pow_succ, ← mul_div_assoc, div_lt_div_iff₀ (by positivity) hp]
      have : (f.low : ℚ) < 4 * f.mant := by exact_mod_cast (low_lt hf).1
      nlinarith
    have hne : z ≠ f.val := by intro e; rw [e] at hzv; linarith
    have hh := h z hz hne
    have e2 : (f.low : ℚ) / 2 ^ (f.shift + 2) = f.low / 2 ^ (f.shift + 1) / 2 := by
      rw [pow_succ _ (f.shift + 1)]; field_simp
    rw [e2]
    by_contra hc
    have hx : x ≤ f.val := by linarith
    rw [abs_sub_comm, abs_of_nonneg (sub_nonneg.mpr hx)] at hh
    rcases abs_cases (x - z) with ⟨e, _⟩ | ⟨e, _⟩ <;> rw [e] at hh <;> linarith
  · have hz : Double (f.val + 1 / 2 ^ f.shift) := by
      by_cases hm : f.mant + 1 = 2 ^ 53
      · refine ⟨2 ^ 52, f.shift - 1, by norm_num, .inr ?_⟩
        rw [Binary64.val, ← add_div]
        have e : (f.mant : ℚ) + 1 = 2 ^ 53 := by exact_mod_cast hm
        obtain ⟨s, hs⟩ : ∃ s, f.shift = s + 1 := ⟨f.shift - 1, by omega⟩
        rw [e, hs, pow_succ, Nat.add_sub_cancel]
        push_cast
        field_simp
        norm_num
        ring
      · exact ⟨f.mant + 1, f.shift, by omega, .inr (by rw [Binary64.val, ← add_div]; push_cast; rfl)⟩
    have hpos : (0 : ℚ) < 1 / 2 ^ f.shift := by positivity
    have hh := h _ hz (by intro e; linarith)
    rw [e1]
    by_contra hc
    have hx : f.val ≤ x := by linarith
    rw [abs_of_nonneg (sub_nonneg.mpr hx)] at hh
    rcases abs_cases (x - (f.val + 1 / 2 ^ f.shift)) with ⟨e, _⟩ | ⟨e, _⟩ <;> rw [e] at hh <;> linarith

theorem near_of_identifies {f : Binary64} (hf : f.Ok) {n k : Nat} (hk : k ≤ 72) (h : Identifies (n / 10 ^ k) f.val) :
    f.near (n * 10 ^ (72 - k)) = true := by
  obtain ⟨h1, h2⟩ := identifies_near hf h
  rw [near_iff]
  have hx : ((n : ℚ) / 10 ^ k) = (n * 10 ^ (72 - k) : ℕ) / (fixOne : ℕ) := by
    have e : fixOne = 10 ^ (72 - k) * 10 ^ k := by
      rw [← Nat.pow_add, Nat.sub_add_cancel hk]; rfl
    rw [e]
    push_cast
    field_simp
  rw [hx] at h1 h2
  have hb : (0 : ℚ) < (fixOne : ℕ) := by unfold fixOne; push_cast; positivity
  have hp : (0 : ℚ) < 2 ^ (f.shift + 2) := by positivity
  rw [div_lt_div_iff₀ hp hb] at h1
  rw [div_lt_div_iff₀ hb hp] at h2
  have h1' : f.low * fixOne < n * 10 ^ (72 - k) * 2 ^ (f.shift + 2) := by exact_mod_cast h1
  have h2' : n * 10 ^ (72 - k) * 2 ^ (f.shift + 2) < (4 * f.mant + 2) * fixOne := by exact_mod_cast h2
  exact ⟨h1'.le, h2'.le, fun _ => ⟨h1', h2'⟩⟩

theorem toNat_pos {exp : UInt32} (h : exp ≠ 0) : 0 < exp.toNat := by
  rcases Nat.eq_zero_or_pos exp.toNat with e | e
  · exact absurd (UInt32.toNat_inj.mp (by rw [e]; rfl)) h
  · exact e

theorem near_pos {f : Binary64} (hf : f.Ok) {n : Nat} (h : f.near n = true) : 0 < n := by
  rw [near_iff] at h
  rcases Nat.eq_zero_or_pos n with rfl | e
  · have h1 := h.1
    have h52 := hf.1
    have hl := (low_lt hf).2
    have : 0 < f.low * fixOne := Nat.mul_pos (by omega) (by unfold fixOne; positivity)
    omega
  · exact e

/-- What is displayed of a duration other than 0. -/
theorem goDays_reads {exp : UInt32} (h : exp ≠ 0) : ∃ R N k j, R = (quotient exp.toNat).shortest 78 ∧ goDays exp = formatG R ∧
    (quotient exp.toNat).near R = true ∧ readNumber (goDays exp) = some (N, k) ∧ N * 10 ^ j = R ∧ k + j = 72 ∧
    (∀ p, p ≤ 72 → 10 ^ p ∣ R → k + p ≤ 72) ∧
    R * 86400 * 2 ^ 38 ≤ exp.toNat * 10 ^ 72 * 2 ^ 38 + 4 * (10 ^ 72 * 86400) ∧
    exp.toNat * 10 ^ 72 * 2 ^ 38 ≤ R * 86400 * 2 ^ 38 + 4 * (86400 * 10 ^ 72) := by
  obtain ⟨hf, hw⟩ := quotient_spec (toNat_pos h) exp.toNat_lt
  have hn := shortest_near hf 77
  obtain ⟨N, k, j, h1, h2, h3, h4⟩ := formatG_reads (near_pos hf hn)
  have e : goDays exp = formatG ((quotient exp.toNat).shortest 78) := by unfold goDays; rw [if_neg h]
  have hn' := (near_iff _ _).mp hn
  exact ⟨_, N, k, j, rfl, e, hn, by rw [e]; exact h1, h2, h3, h4, within_close hf hn' hw, within_close hf hw hn'⟩

theorem fixed_cast {N k j R : Nat} (h2 : N * 10 ^ j = R) (h3 : k + j = 72) : ((N : ℚ) / 10 ^ k) = R / (fixOne : ℕ) := by
  have e : fixOne = 10 ^ j * 10 ^ k := by rw [← Nat.pow_add, Nat.add_comm, h3]; rfl
  rw [← h2, e]
  push_cast
  field_simp

/-- C78: the number that is displayed denotes the duration: it is less than two microseconds off. -/
theorem C78_value (exp : UInt32) : ∃ n k, readNumber (goDays exp) = some (n, k) ∧ |86400 * ((n : ℚ) / 10 ^ k) - exp.toNat| < 2 / 10 ^ 6 := by
  by_cases h : exp = 0
  · subst h
    exact ⟨0, 0, by decide +kernel, by norm_num⟩
  · obtain ⟨R, N, k, j, _, _, _, h1, h2, h3, _, h5, h6⟩ := goDays_reads h
    refine ⟨N, k, h1, ?_⟩
    rw [fixed_cast h2 h3]
    have h5' : (R * 86400 * 2 ^ 38 : ℚ) ≤ exp.toNat * 10 ^ 72 * 2 ^ 38 + 4 * (10 ^ 72 * 86400) := by exact_mod_cast h5
    have h6' : (exp.toNat * 10 ^ 72 * 2 ^ 38 : ℚ) ≤ R * 86400 * 2 ^ 38 + 4 * (86400 * 10 ^ 72) := by exact_mod_cast h6
    have e : ((fixOne : ℕ) : ℚ) = 10 ^ 72 := by unfold fixOne; push_cast; rfl
    rw [e]
    have hR : (R : ℚ) = R / 10 ^ 72 * 10 ^ 72 := by field_simp
    generalize (R : ℚ) / 10 ^ 72 = r at *
    rw [hR] at h5' h6'
    rw [abs_lt]
    norm_num at h5' h6' ⊢
    constructor <;> linarith

/-- C78: no two durations have the same text. -/
theorem C78_injective {exp exp' : UInt32} (h : goDays exp = goDays exp') : exp = exp' := by
  obtain ⟨n, k, h1, h2⟩ := C78_value exp
  obtain ⟨n', k', h3, h4⟩ := C78_value exp'
  rw [h, h3] at h1
  cases h1
  generalize 86400 * ((n : ℚ) / 10 ^ k) = x at *
  rw [abs_lt] at h2 h4
  have a : (exp.toNat : ℚ) < exp'.toNat + 1 := by linarith
  have b : (exp'.toNat : ℚ) < exp.toNat + 1 := by linarith
  have a' : exp.toNat < exp'.toNat + 1 := by exact_mod_cast a
  have b' : exp'.toNat < exp.toNat + 1 := by exact_mod_cast b
  exact UInt32.toNat_inj.mp (by omega)

theorem fixed_exact {exp : UInt32} (h : exp ≠ 0) {c p : Nat} (hc : c * 10 ^ p * 86400 = exp.toNat * fixOne) (h65 : 65 ≤ p) (hp : p < 78) :
    (quotient exp.toNat).shortest 78 = c * 10 ^ p := by
  obtain ⟨hf, hw⟩ := quotient_spec (toNat_pos h) exp.toNat_lt
  have hT : (quotient exp.toNat).near (c * 10 ^ p) = true := by
    rw [near_iff]
    generalize quotient exp.toNat = f at *
    generalize c * 10 ^ p = T at *
    obtain ⟨w1, w2, w3⟩ := hw
    unfold Binary64.Within
    have hF : 0 < fixOne := by unfold fixOne; positivity
    generalize fixOne = F at *
    generalize exp.toNat = n at *
    have key : T * 2 ^ (f.shift + 2) * 86400 = n * 2 ^ (f.shift + 2) * F := by
      calc _ = T * 86400 * 2 ^ (f.shift + 2) := by ring
        _ = n * F * 2 ^ (f.shift + 2) := by rw [hc]
        _ = _ := by ring
    generalize n * 2 ^ (f.shift + 2) = a at *
    generalize T * 2 ^ (f.shift + 2) = t at *
    have c1 : ∀ {x}, x * 86400 ≤ a → x * F ≤ t := fun {x} hx => by
      have := Nat.mul_le_mul_right F hx
      nlinarith
    have c2 : ∀ {x}, a ≤ x * 86400 → t ≤ x * F := fun {x} hx => by
      have := Nat.mul_le_mul_right F hx
      nlinarith
    have c3 : ∀ {x}, x * 86400 < a → x * F < t := fun {x} hx => by
      have := Nat.mul_lt_mul_of_pos_right hx hF
      nlinarith
    have c4 : ∀ {x}, a < x * 86400 → t < x * F := fun {x} hx => by
      have := Nat.mul_lt_mul_of_pos_right hx hF
      nlinarith
    exact ⟨c1 w1, c2 w2, fun h => ⟨c3 (w3 h).1, c4 (w3 h).2⟩⟩
  have hd := shortest_dvd hf hT 78 hp
  have hn := (near_iff _ _).mp (shortest_near hf 77)
  have hT' := (near_iff _ _).mp hT
  have h1 := within_close hf hn hT'
  have h2 := within_close hf hT' hn
  obtain ⟨m, hm⟩ := hd
  rw [show 77 + 1 = 78 from rfl, hm, Nat.mul_comm (10 ^ p) m] at h1 h2
  rw [hm, Nat.mul_comm]
  have hF : fixOne ≤ 10 ^ 7 * 10 ^ p := by rw [← Nat.pow_add]; exact Nat.pow_le_pow_right (by omega) (by omega)
  have hF' : 0 < fixOne := by unfold fixOne; positivity
  have hp0 : 0 < 10 ^ p := by positivity
  have hcm : m = c := by
    clear hm hn hT hT' hw hf hc
    generalize 10 ^ p = P at *
    generalize fixOne = F at *
    have k1 : m * P * 2 ^ 38 ≤ c * P * 2 ^ 38 + 4 * F := Nat.le_of_mul_le_mul_right (by linarith) hF'
    have k2 : c * P * 2 ^ 38 ≤ m * P * 2 ^ 38 + 4 * F := Nat.le_of_mul_le_mul_right (by linarith) hF'
    have l1 : m * P < (c + 1) * P := by
      have : (c + 1) * P = c * P + P := by ring
      omega
    have l2 : c * P < (m + 1) * P := by
      have : (m + 1) * P = m * P + P := by ring
      omega
    have := Nat.lt_of_mul_lt_mul_right l1
    have := Nat.lt_of_mul_lt_mul_right l2
    omega
  rw [hcm]

/-- C78: durations with a finite decimal expansion (the multiples of 27 seconds, as `86400 = 27 * 3200`) are displayed exactly. -/
theorem C78_exact (exp : UInt32) (h : 27 ∣ exp.toNat) : ∃ n k, readNumber (goDays exp) = some (n, k) ∧ 86400 * n = exp.toNat * 10 ^ k := by
  by_cases h0 : exp = 0
  · subst h0
    exact ⟨0, 0, by decide +kernel, rfl⟩
  · obtain ⟨q, hq⟩ := h
    obtain ⟨R, N, k, j, hR, _, _, h1, h2, h3, _⟩ := goDays_reads h0
    refine ⟨N, k, h1, ?_⟩
    rw [fixed_exact h0 (c := q * 3125) (p := 65) (by rw [hq]; unfold fixOne; ring) (by omega) (by omega)] at hR
    have e : 10 ^ 72 = 10 ^ k * 10 ^ j := by rw [← Nat.pow_add, h3]
    have hj : 0 < 10 ^ j := by positivity
    refine Nat.eq_of_mul_eq_mul_right hj ?_
    rw [Nat.mul_assoc, h2, hR, Nat.mul_assoc exp.toNat, ← e, hq]
    ring

/-- C78: and only those. -/
theorem C78_exact_only (exp : UInt32) {n k : Nat} (h : 86400 * n = exp.toNat * 10 ^ k) : 27 ∣ exp.toNat := by
  have h1 : 27 ∣ exp.toNat * 10 ^ k := ⟨3200 * n, by rw [← h]; ring⟩
  have hc : Nat.Coprime 27 (10 ^ k) := Nat.Coprime.pow_right k (by decide)
  exact hc.dvd_of_dvd_mul_right h1

/-- C78: whole days are displayed as whole numbers. -/
theorem C78_whole (exp : UInt32) (h : 86400 ∣ exp.toNat) : goDays exp = dec (exp.toNat / 86400) := by
  by_cases h0 : exp = 0
  · subst h0
    decide +kernel
  · obtain ⟨q, hq⟩ := h
    have hpos := toNat_pos h0
    have hq0 : 0 < q := by
      rcases Nat.eq_zero_or_pos q with rfl | e
      · omega
      · exact e
    have hR := fixed_exact h0 (c := q) (p := 72) (by rw [hq]; unfold fixOne; ring) (by omega) (by omega)
    unfold goDays
    rw [if_neg h0, hR]
    unfold formatG
    have hF : fixOne = 10 ^ 72 := rfl
    have hge : ¬ q * 10 ^ 72 < 10 ^ 68 := by omega
    rw [if_neg hge, hF, Nat.mul_div_cancel _ (by positivity), Nat.mul_mod_left, hq, Nat.mul_div_cancel_left _ (by omega)]
    rw [show fraction (zpad 72 (dec 0)) = [] by decide +kernel, List.append_nil]

/-- C78: an exponent is used exactly for the durations from one to eight seconds. -/
theorem C78_exponent (exp : UInt32) : 'e' ∈ goDays exp ↔ 1 ≤ exp.toNat ∧ exp.toNat ≤ 8 := by
  by_cases h0 : exp = 0
  · subst h0
    decide +kernel
  · obtain ⟨R, N, k, j, _, he, _, _, _, _, _, h5, h6⟩ := goDays_reads h0
    have hpos := toNat_pos h0
    rw [he]
    unfold formatG
    have hnd : ∀ s : Str, (∀ c ∈ s, c.isDigit = true) → 'e' ∉ s := fun s hs hc => by
      have := hs _ hc
      revert this
      decide
    by_cases hlt : R < 10 ^ 68
    · rw [if_pos hlt]
      simp only [List.mem_append, List.mem_cons, true_or, or_true, true_iff]
      clear he hnd
      exact ⟨hpos, by omega⟩
    · rw [if_neg hlt]
      have h8 : ¬ exp.toNat ≤ 8 := by clear he hnd; omega
      constructor
      · intro hm
        exfalso
        rcases List.mem_append.mp hm with hm | hm
        · exact hnd _ (fun c hc => dec_isDigit hc) hm
        · unfold fraction at hm
          split at hm
          · cases hm
          · rcases List.mem_cons.mp hm with e | hm
            · exact absurd e (by decide)
            · refine hnd _ (fun c hc => ?_) hm
              obtain ⟨j, hj⟩ := dropZeros_spec (zpad 72 (dec (R % fixOne)))
              have : c ∈ zpad 72 (dec (R % fixOne)) := by rw [hj]; exact List.mem_append_left _ hc
              unfold zpad at this
              rcases List.mem_append.mp this with hc | hc
              · rw [List.eq_of_mem_replicate hc]; decide
              · exact dec_isDigit hc
      · intro h
        exact absurd h.2 h8

/-- C78: the text is the shortest that identifies the quotient as a floating-point number: `d` is the double nearest to the number of
days, the text denotes a number whose nearest double is `d`, every number that identifies `d` has at least as many decimals, and none
with as many is nearer to `d`. -/
theorem C78_shortest (exp : UInt32) : ∃ d n k, NearestDouble (exp.toNat / 86400) d ∧ readNumber (goDays exp) = some (n, k) ∧
    NearestDouble (n / 10 ^ k) d ∧ (∀ n' k' : ℕ, Identifies (n' / 10 ^ k') d → k ≤ k') ∧
    ∀ n' : ℕ, Identifies (n' / 10 ^ k) d → |(n : ℚ) / 10 ^ k - d| ≤ |(n' : ℚ) / 10 ^ k - d| := by
  by_cases h : exp = 0
  · subst h
    have h0 : NearestDouble 0 0 := ⟨⟨0, 0, by norm_num, by simp⟩, fun z _ => by simp⟩
    refine ⟨0, 0, 0, by simpa using h0, by decide +kernel, by simpa using h0, fun _ _ _ => Nat.zero_le _, fun n' _ => by simp⟩
  · obtain ⟨hf, hw⟩ := quotient_spec (toNat_pos h) exp.toNat_lt
    obtain ⟨R, N, k, j, hR, _, hn, h1, h2, h3, h4, h5, _⟩ := goDays_reads h
    have hF : 0 < fixOne := by unfold fixOne; positivity
    refine ⟨(quotient exp.toNat).val, N, k, by exact_mod_cast within_nearest hf (by omega) hw, h1, ?_, fun n' k' hi => ?_, fun n' hi => ?_⟩
    · rw [fixed_cast h2 h3]
      exact within_nearest hf hF ((near_iff _ _).mp hn)
    · by_cases hk : k' ≤ 72
      · have hnear := near_of_identifies hf hk hi
        have := h4 (72 - k') (by omega) (by rw [hR]; exact shortest_dvd hf hnear 78 (by omega))
        omega
      · omega
    · have hj : 72 - k = j := by omega
      have hnear := near_of_identifies hf (by omega) hi
      rw [hj] at hnear
      rcases Nat.eq_zero_or_pos k with hk0 | hk0
      · -- whole numbers
        subst hk0
        have hj72 : j = 72 := by omega
        subst hj72
        have hcl := within_close hf ((near_iff _ _).mp hn) ((near_iff _ _).mp hnear)
        have hcl' := within_close hf ((near_iff _ _).mp hnear) ((near_iff _ _).mp hn)
        have e : N = n' := by
          rw [← h2] at hcl hcl'
          have hF' : 10 ^ 72 = fixOne := rfl
          rw [hF'] at hcl hcl'
          clear hw hf hR hn h1 h2 h4 h5 hnear hi
          generalize fixOne = F at *
          have hFF : 0 < F * F := Nat.mul_pos hF hF
          have k1 : N * 2 ^ 38 ≤ n' * 2 ^ 38 + 4 := Nat.le_of_mul_le_mul_right (by linarith) hFF
          have k2 : n' * 2 ^ 38 ≤ N * 2 ^ 38 + 4 := Nat.le_of_mul_le_mul_right (by linarith) hFF
          omega
        rw [e]
      have hbest := shortest_best hf hnear 78 (fun c => ?_) (fun i hi => ?_)
      · rw [fixed_cast h2 h3, fixed_cast (k := k) (j := j) rfl h3]
        have hoff : ∀ x : ℕ, |(x : ℚ) / (fixOne : ℕ) - (quotient exp.toNat).val| =
            (((quotient exp.toNat).off x : ℤ) : ℚ) / ((fixOne : ℕ) * 2 ^ (quotient exp.toNat).shift) := fun x => by
          have hFq : (0 : ℚ) < (fixOne : ℕ) := by exact_mod_cast hF
          unfold Binary64.off Binary64.val
          push_cast
          generalize ((fixOne : ℕ) : ℚ) = F at *
          rw [eq_div_iff (by positivity), ← abs_of_pos (a := F * 2 ^ (quotient exp.toNat).shift) (by positivity), ← abs_mul]
          congr 1
          field_simp
        rw [hoff, hoff]
        apply div_le_div_of_nonneg_right _ (by positivity)
        rw [hR]
        exact_mod_cast hbest
      · -- no multiple of a million
        cases hc : (quotient exp.toNat).near (c * 10 ^ 78) with
        | false => rfl
        | true =>
          exfalso
          have hp := near_pos hf hc
          have hcl := within_close hf ((near_iff _ _).mp hc) hw
          have hlt := exp.toNat_lt
          have hF' : fixOne = 10 ^ 72 := rfl
          rw [hF'] at hcl
          clear hc h1 h2 hR hn hw hf hnear hi h5 h4
          have : 0 < c := by
            rcases Nat.eq_zero_or_pos c with rfl | e
            · omega
            · exact e
          generalize exp.toNat = n at *
          omega
      · rw [← hR] at hi
        by_cases hi72 : i ≤ 72
        · have := h4 i hi72 hi; omega
        · have := h4 72 (by omega) ((Nat.pow_dvd_pow 10 (by omega)).trans hi)
          omega

/-- C78: the text consists of digits, a point, and possibly an exponent. -/
theorem C78_characters (exp : UInt32) : ∀ c ∈ goDays exp, c.isDigit = true ∨ c = '.' ∨ c = 'e' ∨ c = '-' := by
  intro c hc
  have hz : ∀ n m, ∀ c ∈ zpad n (dec m), c.isDigit = true := fun n m c hc => by
    unfold zpad at hc
    rcases List.mem_append.mp hc with hc | hc
    · rw [List.eq_of_mem_replicate hc]; decide
    · exact dec_isDigit hc
  have hfr : ∀ s : Str, (∀ c ∈ s, c.isDigit = true) → ∀ c ∈ fraction s, c.isDigit = true ∨ c = '.' := fun s hs c hc => by
    unfold fraction at hc
    split at hc
    · cases hc
    · rcases List.mem_cons.mp hc with e | hc
      · exact .inr e
      · obtain ⟨j, hj⟩ := dropZeros_spec s
        exact .inl (hs c (by rw [hj]; exact List.mem_append_left _ hc))
  unfold goDays at hc
  split at hc
  · left
    rw [List.mem_singleton.mp hc]
    decide
  · unfold formatG at hc
    split at hc
    · simp only [List.mem_append, List.mem_cons] at hc
      rcases hc with (hc | hc) | hc | hc | hc
      · exact .inl (dec_isDigit (List.mem_of_mem_take hc))
      · rcases hfr _ (fun c hc => dec_isDigit (List.mem_of_mem_drop hc)) c hc with h | h
        · exact .inl h
        · exact .inr (.inl h)
      · exact .inr (.inr (.inl hc))
      · exact .inr (.inr (.inr hc))
      · exact .inl (hz _ _ c hc)
    · rcases List.mem_append.mp hc with hc | hc
      · exact .inl (dec_isDigit hc)
      · rcases hfr _ (hz _ _) c hc with h | h
        · exact .inl h
        · exact .inr (.inl h)

/-! ## Subpackets -/

theorem period_shown {o : OptCode → Bool} {X : Ext} {t : UInt8} {b : Bytes} {i : Item} (ht : t.toNat % 128 = 3 ∨ t.toNat % 128 = 9)
    (h : SubShown o X t b i) : ∃ n r, b = n ++ r ∧ n.length = 4 ∧ i.value = X.days (UInt32.ofNat (beNat n)) ++ " days after".toList := by
  cases h with
  | expires h hl => exact ⟨_, _, rfl, hl, rfl⟩
  | text h => rcases ht with ht | ht <;> rw [ht] at h <;> simp at h
  | other h => rcases ht with ht | ht <;> rw [ht] at h <;> simp at h
  | _ => omega

/-- C78: what is displayed of an expiration time (subpackets 3 and 9), in every state: a number of days, "days after", and the number
denotes the four octets. -/
theorem C78_subpacket (X : Ext) (hX : X.days = goDays) (recur : TagParser) (t : UInt8) (ht : t.toNat % 128 = 3 ∨ t.toNat % 128 = 9) (b : Bytes)
    (x : Ctx) (p q : Bytes) (j i : Item) (s : St) (h : parseSub02 X recur t b (St.at (some x) p q j) = (.ok i, s)) :
    ∃ octets rest number n k, b = octets ++ rest ∧ octets.length = 4 ∧ i.value = number ++ " days after".toList ∧
      readNumber number = some (n, k) ∧ |86400 * ((n : ℚ) / 10 ^ k) - beNat octets| < 2 / 10 ^ 6 := by
  obtain ⟨n, r, hb, hl, hv⟩ := period_shown ht (C57_subpacket X recur t (by omega) (by omega) b x p q j i s h).1
  obtain ⟨N, k, h1, h2⟩ := C78_value (UInt32.ofNat (beNat n))
  have hlt : beNat n < 2 ^ 32 := by
    have := beNat_lt n
    rw [hl] at this
    exact this
  rw [UInt32.toNat_ofNat_of_lt' hlt] at h2
  exact ⟨n, r, _, N, k, hb, hl, by rw [hv, hX], h1, h2⟩

/-- C78: two expiration times displayed with the same value have the same four octets, whatever was read before. -/
theorem C78_octets (X X' : Ext) (hX : X.days = goDays) (hX' : X'.days = goDays) (recur recur' : TagParser) (t t' : UInt8)
    (ht : t.toNat % 128 = 3 ∨ t.toNat % 128 = 9) (ht' : t'.toNat % 128 = 3 ∨ t'.toNat % 128 = 9) (b b' : Bytes) (x x' : Ctx)
    (p q p' q' : Bytes) (j i j' i' : Item) (s s' : St) (h : parseSub02 X recur t b (St.at (some x) p q j) = (.ok i, s))
    (h' : parseSub02 X' recur' t' b' (St.at (some x') p' q' j') = (.ok i', s')) (e : i.value = i'.value) : b.take 4 = b'.take 4 := by
  obtain ⟨n, r, hb, hl, hv⟩ := period_shown ht (C57_subpacket X recur t (by omega) (by omega) b x p q j i s h).1
  obtain ⟨n', r', hb', hl', hv'⟩ := period_shown ht' (C57_subpacket X' recur' t' (by omega) (by omega) b' x' p' q' j' i' s' h').1
  rw [hv, hv', hX, hX'] at e
  have h1 := C78_injective (List.append_cancel_right e)
  have h2 := congrArg UInt32.toNat h1
  have hlt := beNat_lt n
  have hlt' := beNat_lt n'
  rw [hl] at hlt
  rw [hl'] at hlt'
  rw [UInt32.toNat_ofNat_of_lt' hlt, UInt32.toNat_ofNat_of_lt' hlt'] at h2
  rw [hb, hb', List.take_left' hl, List.take_left' hl']
  exact beNat_inj (hl.trans hl'.symm) h2

/-! ## Examples -/

/-- half a day, a week, a second, the longest duration -/
example : goDays 43200 = "0.5".toList ∧ goDays 604800 = "7".toList ∧ goDays 1 = "1.1574074074074073e-05".toList ∧
    goDays 4294967295 = "49710.26961805556".toList := by
  refine ⟨?_, C78_whole 604800 ⟨7, rfl⟩, ?_, ?_⟩ <;> decide +kernel

/-- an inexact one: 100 seconds are 0.0011574074074074074... days -/
example : goDays 100 = "0.0011574074074074073".toList ∧ readNumber (goDays 100) = some (11574074074074073, 19) := by
  constructor <;> decide +kernel

/-- an exact one: 27 seconds -/
example : goDays 27 = "0.0003125".toList ∧ 86400 * 3125 = 27 * 10 ^ 7 := by
  constructor <;> decide +kernel

/-- one day, with an octet behind it -/
example (X : Ext) (hX : X.days = goDays) (recur : TagParser) :
    ∃ i s, parseSub02 X recur 9 [0, 1, 0x51, 0x80, 7] (St.at (some .empty) [] [] default) = (.ok i, s) ∧ i.value = "1 days after".toList := by
  have e : goDays 86400 = ['1'] := by decide +kernel
  refine ⟨_, _, rfl, ?_⟩
  show X.days 86400 ++ _ = _
  rw [hX, e]
  rfl

end Gpgpdump
