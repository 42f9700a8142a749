import Verif.ThmText
import Verif.NumLemmas
import Verif.DisplayRows

/-!
# C71: notation of numbers and texts

The specifications of the output (C57, C62) and the model print numbers and texts with the same few functions. Here
each of them is determined by notions of Lean's own library (`toString`, `Nat.toDigits`, `String.utf8EncodeChar`) or
by the value it denotes.
-/

namespace Gpgpdump

open Spec

namespace Spec

/-- the number an octet string stands for: the octet at distance `k` from the end counts `256^k` -/
def bigEndian (b : Bytes) : Nat := ((List.range b.length).map fun k => (b.reverse.getD k 0).toNat * 256 ^ k).sum

/-- `n` in base 16, lower case, with leading zeros to at least `w` digits -/
def hexPadded (w n : Nat) : Str := List.replicate (w - (Nat.toDigits 16 n).length) '0' ++ Nat.toDigits 16 n

end Spec

/-- Natural numbers and integers are written in decimal, as Lean writes them. -/
theorem C71_decimal (n : Nat) (i : Int) : dec n = (toString n).toList ∧ decInt i = (toString i).toList := by
  refine ⟨dec_eq n, ?_⟩
  unfold decInt
  cases i with
  | ofNat m =>
    rw [if_neg (by simp)]
    exact dec_eq m
  | negSucc m =>
    rw [if_pos (Int.negSucc_lt_zero m), dec_eq]
    show _ = (("-" : String) ++ Nat.repr (m + 1)).toList
    rw [String.toList_append]
    rfl

example : decInt (-9223372036854775808) = "-9223372036854775808".toList ∧ dec 1048576 = "1048576".toList := by
  decide +kernel

/-- Identifiers are `0x` and at least two digits, key IDs `0x` and at least sixteen; no two numbers are written alike. -/
theorem C71_hexadecimal (n : Nat) :
    hashHex2 n = "0x".toList ++ hexPadded 2 n ∧ hashHex16 n = "0x".toList ++ hexPadded 16 n := by
  unfold hashHex2 hashHex16 zpad hexPadded
  rw [hex_eq]
  exact ⟨rfl, rfl⟩

example : hashHex2 9 = "0x09".toList ∧ hashHex2 110 = "0x6e".toList ∧ hashHex2 0x1234 = "0x1234".toList := by
  decide +kernel

/-- Different numbers are written differently. -/
theorem C71_distinct (m n : Nat) (i j : Int) :
    (dec m = dec n ↔ m = n) ∧ (decInt i = decInt j ↔ i = j) ∧ (hashHex2 m = hashHex2 n ↔ m = n) ∧
      (hashHex16 m = hashHex16 n ↔ m = n) := by
  have hx : ∀ w, zpad w (hex m) = zpad w (hex n) → m = n := by
    intro w h
    have h2 := congrArg hexNat h
    rw [hexNat_zpad, hexNat_zpad, hexNat_hex, hexNat_hex] at h2
    exact Option.some.inj h2
  refine ⟨⟨dec_inj, fun h => h ▸ rfl⟩, ⟨fun h => ?_, fun h => h ▸ rfl⟩, ⟨fun h => hx 2 (List.append_cancel_left h), fun h => h ▸ rfl⟩,
    ⟨fun h => hx 16 (List.append_cancel_left h), fun h => h ▸ rfl⟩⟩
  have nodash : ∀ (a b : Nat), dec a ≠ '-' :: dec b := by
    intro a b hc
    have : '-' ∈ dec a := by rw [hc]; exact List.mem_cons_self
    obtain ⟨k, hk, e⟩ := digitsAux_chars (b := 10) (f := digit) (by omega) _ _ this
    have all : ∀ i : Fin 10, '-' ≠ digit i := by decide
    exact all ⟨k, hk⟩ e
  unfold decInt at h
  split at h <;> split at h
  · have := dec_inj (List.cons.inj h).2; omega
  · exact absurd h.symm (nodash _ _)
  · exact absurd h (nodash _ _)
  · have := dec_inj h; omega

example : dec 10 ≠ dec 100 ∧ decInt (-1) ≠ decInt 1 ∧ hashHex2 1 ≠ hashHex2 16 := by decide +kernel

theorem toDigits_two (n : Nat) (h : n < 256) : hexPadded 2 n = [digit (n / 16), digit (n % 16)] := by
  have : ∀ i : Fin 256, hexPadded 2 i = [digit ((i : Nat) / 16), digit ((i : Nat) % 16)] := by decide +kernel
  exact this ⟨n, h⟩

/-- A dump is the octets in order, two digits each, separated by single blanks. -/
theorem C71_dump (b : Bytes) :
    Reader.dumpHex b = [' '].intercalate (b.map fun x => hexPadded 2 x.toNat) := by
  induction b with
  | nil => rfl
  | cons x bs ih =>
    cases bs with
    | nil =>
      show hex2 x = _
      rw [List.map_cons, List.map_nil, toDigits_two _ x.toNat_lt]
      rfl
    | cons y bs =>
      have h : hex2 x = hexPadded 2 x.toNat := by rw [toDigits_two _ x.toNat_lt]; rfl
      rw [Reader.dumpHex, ih, h]
      simp [List.intercalate]

example : Reader.dumpHex [0, 0x9a, 0xff] = "00 9a ff".toList := by decide +kernel

theorem beNat_foldl (b : Bytes) (a : Nat) :
    b.foldl (fun acc x => acc * 256 + x.toNat) a = a * 256 ^ b.length + beNat b := by
  unfold beNat
  induction b generalizing a with
  | nil => simp
  | cons x b ih =>
    rw [List.foldl_cons, List.foldl_cons, ih, ih (0 * 256 + x.toNat), List.length_cons, Nat.pow_succ]
    simp only [Nat.add_mul, Nat.zero_mul, Nat.zero_add, Nat.mul_assoc, Nat.mul_comm 256, Nat.add_assoc]

/-- Numbers of two, four and eight octets are read with the most significant octet first. -/
theorem C71_big_endian (b : Bytes) : beNat b = bigEndian b := by
  induction b with
  | nil => rfl
  | cons x b ih =>
    have h : beNat (x :: b) = x.toNat * 256 ^ b.length + beNat b := by
      have := beNat_foldl b (0 * 256 + x.toNat)
      rw [Nat.zero_mul, Nat.zero_add] at this
      rw [← this]
      unfold beNat
      rw [List.foldl_cons, Nat.zero_mul, Nat.zero_add]
    rw [h, ih]
    unfold bigEndian
    rw [List.length_cons, List.range_succ, List.map_append, List.sum_append, List.reverse_cons, Nat.add_comm]
    congr 1
    · congr 1
      apply List.map_congr_left
      intro k hk
      have hk2 : k < b.reverse.length := by simpa using List.mem_range.mp hk
      simp only [List.getD, List.getElem?_append_left hk2]
    · simp [List.getD]

example : beNat [1, 2, 3] = 66051 ∧ bigEndian [1, 2, 3] = 66051 := by decide

/-- Text is UTF-8 exactly as Lean encodes characters: no overlong forms, no surrogates, nothing above U+10FFFF. -/
theorem C71_utf8 (b : Bytes) (cs : Str) : utf8Decode b = some cs ↔ b = cs.flatMap String.utf8EncodeChar := by
  rw [utf8Decode_iff]
  have h : ∀ c, utf8Char c = String.utf8EncodeChar c := by
    intro c
    have hc : c.toNat < 0x110000 := by
      rcases c.valid with h | h
      · have h2 : c.toNat < 0xd800 := h
        omega
      · exact h.2
    have hv : c.val.toNat = c.toNat := rfl
    unfold utf8Char String.utf8EncodeChar
    simp only [hv]
    generalize c.toNat = n at hc
    by_cases h1 : n < 0x80
    · rw [if_pos h1, if_pos (show n ≤ 127 by omega)]
    rw [if_neg h1, if_neg (show ¬ n ≤ 127 by omega)]
    have e0 : 128 + n % 64 = n % 64 + 128 := by omega
    have e1 : 128 + n / 64 % 64 = n / 64 % 64 + 128 := by omega
    have e2 : 128 + n / 4096 % 64 = n / 4096 % 64 + 128 := by omega
    by_cases h2 : n < 0x800
    · rw [if_pos h2, if_pos (show n ≤ 2047 by omega), e0, show 192 + n / 64 = n / 64 % 32 + 192 by omega]
    rw [if_neg h2, if_neg (show ¬ n ≤ 2047 by omega)]
    by_cases h3 : n < 0x10000
    · rw [if_pos h3, if_pos (show n ≤ 65535 by omega), e0, e1, show 224 + n / 4096 = n / 4096 % 16 + 224 by omega]
    rw [if_neg h3, if_neg (show ¬ n ≤ 65535 by omega), e0, e1, e2, show 240 + n / 262144 = n / 262144 % 8 + 240 by omega]
  unfold utf8
  have h2 : utf8Char = String.utf8EncodeChar := funext h
  rw [h2]

example : utf8Decode [0xe3, 0x81, 0x82, 0x41] = some ['あ', 'A'] ∧ utf8Decode [0xc0, 0x80] = none ∧
    utf8Decode [0xed, 0xa0, 0x80] = none := by decide +kernel

/-- How a text field is shown, for every octet string: an empty one is `0 byte`; one that is not UTF-8 is dumped; in
any other control characters appear as `(U+00XX)` and all other characters as they are. -/
theorem C71_text (name : Str) (f : Bool) (b : Bytes) :
    (b = [] → textItem name b f = leaf name [] "0 byte".toList) ∧
    (b ≠ [] → (∀ cs : Str, b ≠ cs.flatMap String.utf8EncodeChar) →
      textItem name b f = leaf name [] "invalid text string".toList (hexText b)) ∧
    (∀ cs : Str, cs ≠ [] → b = cs.flatMap String.utf8EncodeChar →
      textItem name b f = leaf name (cs.flatMap shownChar) [] (dumpIf f b)) := by
  rw [textItem_eq]
  unfold textRow
  refine ⟨fun h => by rw [if_pos h], fun h hn => ?_, fun cs hc h => ?_⟩
  · rw [if_neg h]
    cases hd : utf8Decode b with
    | none => rfl
    | some cs => exact absurd ((C71_utf8 b cs).mp hd) (hn cs)
  · have hd := (C71_utf8 b cs).mpr h
    have hb : b ≠ [] := by
      intro e
      rw [e] at hd
      have : utf8Decode [] = some [] := by decide +kernel
      rw [this] at hd
      exact hc (Option.some.inj hd).symm
    rw [if_neg hb, hd]
    simp only
    congr 1
    apply List.flatMap_congr
    intro c _
    rw [← shownChar_eq]
    rfl

example : textItem "User ID".toList [0x41, 0x0a, 0xc3, 0xa9] true =
    leaf "User ID".toList "A(U+000A)é".toList [] "41 0a c3 a9".toList := by decide +kernel

/-- C37: different key IDs are shown differently. -/
theorem C37_distinct (a b : Bytes) (ha : a.length = 8) (hb : b.length = 8) : (keyIDItem a).value = (keyIDItem b).value ↔ a = b := by
  refine ⟨fun h => ?_, fun h => by rw [h]⟩
  obtain ⟨ds, h1, -, h2⟩ := C37_keyid_shown a ha
  obtain ⟨ds', h1', -, h2'⟩ := C37_keyid_shown b hb
  rw [h1, h1'] at h
  rw [List.append_cancel_left h, h2'] at h2
  exact beNat_inj (ha.trans hb.symm) (Option.some.inj h2).symm

example : (keyIDItem [0, 0, 0, 0, 0, 0, 0, 1]).value ≠ (keyIDItem [0, 0, 0, 0, 0, 0, 1, 0]).value :=
  fun h => absurd ((C37_distinct _ _ rfl rfl).1 h) (by decide)

end Gpgpdump
