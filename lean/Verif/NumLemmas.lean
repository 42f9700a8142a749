import Verif.Values

/-!
# Numbers as text

`dec` and `hex` agree with Lean's own `Nat.repr`/`Nat.toDigits`.
-/

namespace Gpgpdump

theorem digit_eq (n : Nat) (h : n < 16) : digit n = n.digitChar := by
  have : ∀ i : Fin 16, digit i = (i : Nat).digitChar := by decide
  exact this ⟨n, h⟩

theorem digitsAux_eq {b : Nat} (hb : 1 < b) (hb' : b ≤ 16) :
    ∀ fuel n, n < b ^ (fuel + 1) → digitsAux b digit fuel n = Nat.toDigits b n := by
  intro fuel
  induction fuel with
  | zero =>
    intro n h
    have h : n < b := by simpa using h
    rw [digitsAux, Nat.mod_eq_of_lt h, digit_eq n (by omega), Nat.toDigits_of_lt_base h]
  | succ f ih =>
    intro n h
    rw [digitsAux, Nat.toDigits_eq_if hb]
    split
    · rw [digit_eq n (by omega)]
    · have : n % b < b := Nat.mod_lt _ (by omega)
      rw [ih (n / b) (Nat.div_lt_of_lt_mul (by rw [Nat.pow_succ, Nat.mul_comm] at h; exact h)), digit_eq _ (by omega)]

theorem lt_pow_log2 {b : Nat} (hb : 1 < b) (n : Nat) : n < b ^ (n.log2 + 1) := by
  have h1 : n < 2 ^ (n.log2 + 1) := Nat.lt_log2_self
  have h2 : 2 ^ (n.log2 + 1) ≤ b ^ (n.log2 + 1) := Nat.pow_le_pow_left hb _
  omega

/-- `%d` is ordinary decimal notation -/
theorem dec_eq (n : Nat) : dec n = n.repr.toList := by
  rw [Nat.toList_repr]
  exact digitsAux_eq (by omega) (by omega) _ _ (lt_pow_log2 (by omega) n)

theorem dec_eq' (n : Nat) : dec n = Nat.toDigits 10 n := by rw [dec_eq, Nat.toList_repr]

/-- `%x` is ordinary hexadecimal notation -/
theorem hex_eq (n : Nat) : hex n = Nat.toDigits 16 n :=
  digitsAux_eq (by omega) (by omega) _ _ (lt_pow_log2 (by omega) n)

theorem dec_inj {m n : Nat} (h : dec m = dec n) : m = n := by
  rw [dec_eq', dec_eq'] at h
  have := congrArg (fun l => Nat.ofDigitChars 10 l 0) h
  simpa [Nat.ofDigitChars_ten_toDigits] using this

theorem dec_isDigit {n : Nat} {c : Char} (h : c ∈ dec n) : c.isDigit = true := by
  rw [dec_eq'] at h; exact Nat.isDigit_of_mem_toDigits (by omega) (by omega) h

theorem dec_ne_nil (n : Nat) : dec n ≠ [] := by rw [dec_eq']; exact Nat.toDigits_ne_nil

/-- value of a hexadecimal digit (lower or upper case) -/
def hexVal (c : Char) : Option Nat :=
  if '0' ≤ c ∧ c ≤ '9' then some (c.toNat - 48)
  else if 'a' ≤ c ∧ c ≤ 'f' then some (c.toNat - 87)
  else if 'A' ≤ c ∧ c ≤ 'F' then some (c.toNat - 55)
  else none

theorem hexVal_digit (n : Nat) (h : n < 16) : hexVal (digit n) = some n := by
  have : ∀ i : Fin 16, hexVal (digit i) = some (i : Nat) := by decide
  exact this ⟨n, h⟩

theorem hexVal_digitU (n : Nat) (h : n < 16) : hexVal (digitU n) = some n := by
  have : ∀ i : Fin 16, hexVal (digitU i) = some (i : Nat) := by decide
  exact this ⟨n, h⟩

/-- value of a string of hexadecimal digits -/
def hexNat (s : Str) : Option Nat := s.foldl (fun acc c => acc.bind fun a => (hexVal c).map (a * 16 + ·)) (some 0)

theorem hexNat_append (s : Str) (c : Char) : hexNat (s ++ [c]) = (hexNat s).bind fun a => (hexVal c).map (a * 16 + ·) := by
  simp [hexNat, List.foldl_append]

theorem hexNat_digitsAux (f : Nat → Char) (hf : ∀ n < 16, hexVal (f n) = some n) :
    ∀ fuel n, n < 16 ^ (fuel + 1) → hexNat (digitsAux 16 f fuel n) = some n := by
  intro fuel
  induction fuel with
  | zero =>
    intro n h
    have h : n < 16 := by simpa using h
    rw [digitsAux, Nat.mod_eq_of_lt h]
    simp [hexNat, hf n h]
  | succ k ih =>
    intro n h
    rw [digitsAux]
    split
    · rename_i hlt; simp [hexNat, hf n hlt]
    · rw [hexNat_append, ih (n / 16) (by rw [Nat.pow_succ] at h; omega), hf _ (by omega)]
      simp; omega

theorem hexNat_hex (n : Nat) : hexNat (hex n) = some n :=
  hexNat_digitsAux digit hexVal_digit _ _ (lt_pow_log2 (by omega) n)

theorem hexNat_zpad (w : Nat) (s : Str) : hexNat (zpad w s) = hexNat s := by
  unfold zpad
  induction (w - s.length) with
  | zero => simp
  | succ k ih =>
    rw [List.replicate_succ, List.cons_append, ← ih]
    rw [hexNat, List.foldl_cons]
    rfl

theorem digitsAux_chars {b : Nat} {f : Nat → Char} (hb : 0 < b) {c : Char} :
    ∀ fuel n, c ∈ digitsAux b f fuel n → ∃ k < b, c = f k := by
  intro fuel
  induction fuel with
  | zero => intro n h; simp [digitsAux] at h; exact ⟨n % b, Nat.mod_lt _ hb, h⟩
  | succ k ih =>
    intro n h
    rw [digitsAux] at h
    split at h
    · simp at h; exact ⟨n, by assumption, h⟩
    · simp only [List.mem_append, List.mem_singleton] at h
      rcases h with h | h
      · exact ih _ h
      · exact ⟨n % b, Nat.mod_lt _ hb, h⟩

theorem hex_length_le {n k : Nat} (hk : 0 < k) : (hex n).length ≤ k ↔ n < 16 ^ k := by
  rw [hex_eq]; exact Nat.length_toDigits_le_iff (by omega) hk

theorem zpad_length (w : Nat) (s : Str) : (zpad w s).length = max w s.length := by
  simp [zpad]; omega

end Gpgpdump
