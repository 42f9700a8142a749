import Verif.ThmArmtext

/-!
# ASCII armor (RFC 4880, section 6)

Written from the RFC, independent of the decoder modelled in `Armor.lean`.
-/

namespace Gpgpdump
namespace Spec

/-- RFC 4880, 6.3: the 64 characters in the order of their values -/
def alphabet : Bytes := ascii "ABCDEFGHIJKLMNOPQRSTUVWXYZabcdefghijklmnopqrstuvwxyz0123456789+/"

/-- the character `c` has the value `v` -/
def Sextet (c : UInt8) (v : Nat) : Prop := alphabet[v]? = some c

/-- RFC 4880, 6.3: the characters encode the octets. Four characters are 24 bits, three octets; one `=` at the end leaves two
octets, two leave one, and the bits beyond are not looked at. -/
inductive Base64 : Bytes → Bytes → Prop
  | nil : Base64 [] []
  | four {c1 c2 c3 c4 v1 v2 v3 v4 o1 o2 o3 cs os} (h1 : Sextet c1 v1) (h2 : Sextet c2 v2) (h3 : Sextet c3 v3) (h4 : Sextet c4 v4)
      (h : beNat [o1, o2, o3] = 2 ^ 18 * v1 + 2 ^ 12 * v2 + 2 ^ 6 * v3 + v4) (hr : Base64 cs os) :
      Base64 (c1 :: c2 :: c3 :: c4 :: cs) (o1 :: o2 :: o3 :: os)
  | three {c1 c2 c3 v1 v2 v3 o1 o2} (h1 : Sextet c1 v1) (h2 : Sextet c2 v2) (h3 : Sextet c3 v3)
      (h : beNat [o1, o2] = (2 ^ 12 * v1 + 2 ^ 6 * v2 + v3) / 2 ^ 2) : Base64 [c1, c2, c3, 0x3d] [o1, o2]
  | two {c1 c2 v1 v2 o1} (h1 : Sextet c1 v1) (h2 : Sextet c2 v2)
      (h : beNat [o1] = (2 ^ 6 * v1 + v2) / 2 ^ 4) : Base64 [c1, c2, 0x3d, 0x3d] [o1]

/-- a visible ASCII character -/
def Visible (x : UInt8) : Prop := 0x21 ≤ x ∧ x ≤ 0x7e

/-- blanks, tabs and the like; no line feed -/
def Blank (b : Bytes) : Prop := ∀ x ∈ b, x = 0x20 ∨ x = 0x09 ∨ x = 0x0b ∨ x = 0x0c ∨ x = 0x0d

/-- at most 99 octets, none of them a line feed -/
def ShortLine (l : Bytes) : Prop := 0x0a ∉ l ∧ l.length ≤ 99

/-- RFC 4880, 6.2: the Armor Header Line -/
def ArmorStart (l : Bytes) : Prop :=
  ShortLine l ∧ ∃ t w, l = ascii "-----BEGIN " ++ t ++ ascii "-----" ++ w ∧ t ≠ [] ∧ Blank w

/-- RFC 4880, 6.2: an Armor Header, `Key: Value` -/
def ArmorHeader (l : Bytes) : Prop :=
  ShortLine l ∧ ∃ w k v w', l = w ++ (k ++ ascii ": " ++ v) ++ w' ∧ Blank w ∧ Blank w' ∧
    (∃ x, k.head? = some x ∧ Visible x) ∧ ∃ x, v.getLast? = some x ∧ Visible x

/-- RFC 4880, 6.2: the line after the headers, empty or white space -/
def ArmorBlank (l : Bytes) : Prop := ShortLine l ∧ Blank l

/-- RFC 4880, 6.2: the Armor Tail -/
def ArmorStop (l : Bytes) : Prop := ShortLine l ∧ ascii "-----END " <+: l

/-- RFC 4880, 6.2: the lines are an armored block with these octets as data and this checksum, if any. The lines of base64 have at
most 96 characters (the RFC allows 76). -/
def Armored (ls : List Bytes) (data : Bytes) (crc : Option Nat) : Prop :=
  ∃ start hs blank body sum stop, ls = start :: hs ++ blank :: body ++ sum ++ [stop] ∧
    ArmorStart start ∧ (∀ l ∈ hs, ArmorHeader l) ∧ ArmorBlank blank ∧
    (∀ l ∈ body, l.length ≤ 96) ∧ Base64 body.flatten data ∧
    (sum = [] ∧ crc = none ∨ ∃ c o, sum = [0x3d :: c] ∧ Base64 c o ∧ o.length = 3 ∧ crc = some (beNat o)) ∧
    ArmorStop stop

/-! ## The checksum -/

/-- the product of two polynomials over the field of two elements, the coefficients being the bits of a number -/
def clmul (a b : Nat) : Nat :=
  if h : a = 0 then 0 else (if a % 2 = 1 then b else 0) ^^^ 2 * clmul (a / 2) b
termination_by a
decreasing_by omega

/-- RFC 4880, 6.1: the generator -/
def crcGenerator : Nat := 0x1864cfb

/-- RFC 4880, 6.1: `c` is the CRC-24 of the octets: the remainder of the division by the generator, the register starting as
0xB704CE. -/
def Crc24 (data : Bytes) (c : Nat) : Prop :=
  c < 2 ^ 24 ∧ ∃ q, clmul q crcGenerator ^^^ c = (0xb704ce * 2 ^ (8 * data.length)) ^^^ (beNat data * 2 ^ 24)

/-- the two differ in a burst of at most `w` bits -/
def Burst (w : Nat) (a b : Bytes) : Prop :=
  a.length = b.length ∧ ∃ e k, 0 < e ∧ e < 2 ^ w ∧ beNat a ^^^ beNat b = e * 2 ^ k

/-! ## Reading -/

/-- What a sequence of reads of the sizes `ns` returns from a source of the octets `d` that ends with the error `e`: octets as long
as there are some, any number that fits, then the error. -/
inductive Serves : Bytes → GoErr → List Nat → List (Bytes × Option GoErr) → Prop
  | stop {d e} : Serves d e [] []
  | some {b d e n ns rs} (h0 : b ≠ []) (hn : b.length ≤ n) (h : Serves d e ns rs) : Serves (b ++ d) e (n :: ns) ((b, none) :: rs)
  | done {e n ns rs} (h : Serves [] e ns rs) : Serves [] e (n :: ns) (([], .some e) :: rs)

end Spec
end Gpgpdump
