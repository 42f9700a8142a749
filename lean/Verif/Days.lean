import Verif.Basic

/-!
# Durations in days: `fmt.Sprintf("%v", float64(exp)/86400.0)` (values/expire.go:40)

Binary64 division and the formatting of a float by `fmt` and `strconv` (standard library, Go 1.16), modelled from their source
for the numbers that occur here: quotients of a 32-bit number and 86400. Numbers are kept in fixed point, as multiples of
`10^-72` (`strconv` keeps digits and the position of the decimal point); the quotients are multiples of `2^-69`.
-/

namespace Gpgpdump

/-- a positive binary64 number `mant * 2^-shift` with `2^52 ≤ mant < 2^53` -/
structure Binary64 where
  mant : Nat
  shift : Nat
  deriving DecidableEq, Repr

/-- `a / b` rounded to the nearest integer, ties to even -/
def roundEven (a b : Nat) : Nat :=
  if 2 * (a % b) < b then a / b
  else if b < 2 * (a % b) then a / b + 1
  else if a / b % 2 = 0 then a / b else a / b + 1

/-- the number of binary places with which `n / 86400` has a significand of 53 bits -/
def quotShift (n : Nat) : Nat :=
  if 2 ^ 52 * 86400 ≤ n * 2 ^ (68 - n.log2) then 68 - n.log2 else 69 - n.log2

/-- `float64(exp)/86400.0` (expire.go:40) for `exp ≠ 0`; 32-bit numbers are exact in binary64 -/
def quotient (n : Nat) : Binary64 :=
  let m := roundEven (n * 2 ^ quotShift n) 86400
  if m = 2 ^ 53 then ⟨2 ^ 52, quotShift n - 1⟩ else ⟨m, quotShift n⟩

/-- one in fixed point -/
def fixOne : Nat := 10 ^ 72

/-- strconv `roundShortest`: whether a decimal lies between the halfway points to the neighbouring floats (the lower neighbour of
a power of two is nearer); the halfway points themselves count when the significand is even. -/
def Binary64.near (f : Binary64) (n : Nat) : Bool :=
  let low := if f.mant = 2 ^ 52 then 4 * f.mant - 1 else 4 * f.mant - 2
  let high := 4 * f.mant + 2
  let x := n * 2 ^ (f.shift + 2)
  if f.mant % 2 = 0 then low * fixOne ≤ x && x ≤ high * fixOne else low * fixOne < x && x < high * fixOne

/-- the float cut to a multiple of `10^p` -/
def Binary64.down (f : Binary64) (p : Nat) : Nat := f.mant * fixOne / 2 ^ f.shift / 10 ^ p * 10 ^ p

/-- strconv `decimal.Round` to a multiple of `10^p`, ties to even -/
def Binary64.nearest (f : Binary64) (p : Nat) : Nat :=
  let mid := (2 * f.down p + 10 ^ p) * 2 ^ f.shift
  let x := 2 * f.mant * fixOne
  if x < mid then f.down p
  else if mid < x then f.down p + 10 ^ p
  else if f.mant * fixOne / 2 ^ f.shift / 10 ^ p % 2 = 0 then f.down p else f.down p + 10 ^ p

/-- strconv `roundShortest`: the fewest digits that identify the float; positions from `10^p` downwards -/
def Binary64.shortest (f : Binary64) : Nat → Nat
  | 0 => f.mant * fixOne / 2 ^ f.shift
  | p + 1 =>
    match f.near (f.down p), f.near (f.down p + 10 ^ p) with
    | true, true => f.nearest p
    | true, false => f.down p
    | false, true => f.down p + 10 ^ p
    | false, false => f.shortest p

/-- digits without the zeros at the end -/
def dropZeros (s : Str) : Str := (s.reverse.dropWhile (· == '0')).reverse

/-- fraction digits with their point, nothing if there is none -/
def fraction (s : Str) : Str := if (dropZeros s).isEmpty then [] else '.' :: dropZeros s

/-- strconv `fmtE`, `fmtF` as chosen by `%v` (format `'g'`, shortest): exponents are used below `10^-4` (and for
large numbers, which do not occur here) -/
def formatG (n : Nat) : Str :=
  if n < 10 ^ 68 then
    (dec n).take 1 ++ fraction ((dec n).drop 1) ++ 'e' :: '-' :: zpad 2 (dec (73 - (dec n).length))
  else dec (n / fixOne) ++ fraction (zpad 72 (dec (n % fixOne)))

/-- `fmt.Sprintf("%v", float64(exp)/86400.0)` (expire.go:40) -/
def goDays (exp : UInt32) : Str :=
  if exp = 0 then ['0'] else formatG ((quotient exp.toNat).shortest 78)

end Gpgpdump
