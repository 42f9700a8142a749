import Verif.Basic

/-!
# UTF-8 (Go `unicode/utf8` and `range` over strings)

`utf8.Valid` accepts exactly the well-formed sequences of RFC 3629 (no overlong forms, no surrogates, at most U+10FFFF);
`range string(b)` then yields the code points. `utf8Decode` is both at once: `none` when `utf8.Valid` is false, otherwise the
code points. (Standard library, modelled from its documented behaviour.)
-/

namespace Gpgpdump

/-- continuation octet `10xxxxxx` -/
def isCont (b : UInt8) : Bool := 0x80 ≤ b.toNat && b.toNat ≤ 0xBF

/-- `utf8.Valid` plus decoding -/
def utf8Decode : Bytes → Option Str
  | [] => some []
  | b0 :: bs =>
    let x := b0.toNat
    if x < 0x80 then (utf8Decode bs).map (Char.ofNat x :: ·)
    else match bs with
      | [] => none
      | b1 :: bs1 =>
        let y := b1.toNat
        if !isCont b1 then none
        else if 0xC2 ≤ x ∧ x ≤ 0xDF then
          (utf8Decode bs1).map (Char.ofNat ((x - 0xC0) * 64 + (y - 0x80)) :: ·)
        else match bs1 with
          | [] => none
          | b2 :: bs2 =>
            let z := b2.toNat
            if !isCont b2 then none
            else if 0xE0 ≤ x ∧ x ≤ 0xEF then
              if (x = 0xE0 ∧ y < 0xA0) ∨ (x = 0xED ∧ y > 0x9F) then none
              else (utf8Decode bs2).map
                (Char.ofNat ((x - 0xE0) * 4096 + (y - 0x80) * 64 + (z - 0x80)) :: ·)
            else match bs2 with
              | [] => none
              | b3 :: bs3 =>
                let w := b3.toNat
                if !isCont b3 then none
                else if 0xF0 ≤ x ∧ x ≤ 0xF4 then
                  if (x = 0xF0 ∧ y < 0x90) ∨ (x = 0xF4 ∧ y > 0x8F) then none
                  else (utf8Decode bs3).map
                    (Char.ofNat ((x - 0xF0) * 262144 + (y - 0x80) * 4096 + (z - 0x80) * 64 + (w - 0x80)) :: ·)
                else none

/-- `unicode.IsControl` (category Cc) -/
def isControl (c : Char) : Bool := c.toNat < 0x20 || (0x7F ≤ c.toNat && c.toNat ≤ 0x9F)

end Gpgpdump
