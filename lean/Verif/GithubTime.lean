import Verif.GithubJson
import Verif.Calendar

/-!
# `time.Time.UnmarshalJSON` for `created_at` and `expires_at` (github/structs.go:17-18)

`UnmarshalJSON` (Go 1.16) is `time.Parse` with the layout `"2006-01-02T15:04:05Z07:00"`, the quotes included, on the literal as it
stands in the body. Modelled: whether it gives an error (the instants are not used in the program). As the first quote always
matches, the functions here start behind it.
-/

namespace Gpgpdump

/-- `skip(value, prefix)` for a prefix of one octet -/
def tmSkip (c : UInt8) : Bytes → Option Bytes
  | [] => none
  | b :: r => if b = c then some r else none

def tmDigit (b : UInt8) : Nat := b.toNat - 0x30

/-- `getnum(s, fixed)` -/
def tmNum (fixed : Bool) : Bytes → Option (Nat × Bytes)
  | [] => none
  | a :: r =>
    if jsDigit a then
      match r with
      | [] => if fixed then none else some (tmDigit a, r)
      | b :: r' => if jsDigit b then some (tmDigit a * 10 + tmDigit b, r') else if fixed then none else some (tmDigit a, r)
    else none

/-- `leadingInt` on digits; its overflow is beyond every limit checked here -/
def tmInt (ds : Bytes) : Nat := ds.foldl (fun n b => n * 10 + tmDigit b) 0

/-- `stdLongYear`: four octets, of which `atoi` takes only digits because the first one is a digit -/
def tmYear : Bytes → Option (Nat × Bytes)
  | a :: b :: c :: d :: r => if jsDigit a && [b, c, d].all jsDigit then some (tmInt [a, b, c, d], r) else none
  | _ => none

/-- the fraction behind the seconds, which the layout does not have -/
def tmFrac : Bytes → Option Bytes
  | 0x2e :: a :: r =>
    if jsDigit a then
      let n := jsDigits r
      if tmInt (a :: n.1) < 1000000000 then some n.2 else none
    else some (0x2e :: a :: r)
  | r => some r

/-- `atoi` on two octets: a sign is allowed -/
def tmAtoi2 (a b : UInt8) : Bool := if a = 0x2b || a = 0x2d then jsDigit b else jsDigit a && jsDigit b

/-- `stdISO8601ColonTZ` -/
def tmZone : Bytes → Option Bytes
  | [] => none
  | z :: r =>
    if z = 0x5a then some r
    else match r with
      | h1 :: h2 :: c :: m1 :: m2 :: r' => if c = 0x3a && tmAtoi2 h1 h2 && tmAtoi2 m1 m2 && (z = 0x2b || z = 0x2d) then some r' else none
      | _ => none

/-- `daysIn(m, year)` -/
def tmDaysIn (m y : Nat) : Nat := if m = 2 ∧ isLeap y then 29 else daysBefore m - daysBefore (m - 1)

/-- `time.Parse` without error, on the literal without its quotes -/
def goTime (raw : Bytes) : Bool :=
  ((tmYear (raw ++ [0x22])).bind fun y => (tmSkip 0x2d y.2).bind fun r =>
   (tmNum true r).bind fun mo => if mo.1 = 0 ∨ 12 < mo.1 then none else (tmSkip 0x2d mo.2).bind fun r =>
   (tmNum true r).bind fun d => (tmSkip 0x54 d.2).bind fun r =>
   (tmNum false r).bind fun h => if 24 ≤ h.1 then none else (tmSkip 0x3a h.2).bind fun r =>
   (tmNum true r).bind fun mi => if 60 ≤ mi.1 then none else (tmSkip 0x3a mi.2).bind fun r =>
   (tmNum true r).bind fun s => if 60 ≤ s.1 then none else (tmFrac s.2).bind fun r =>
   (tmZone r).bind fun r => (tmSkip 0x22 r).bind fun r =>
   if r ≠ [] then none
   else if d.1 < 1 ∨ tmDaysIn mo.1 y.1 < d.1 then none else some ()).isSome

end Gpgpdump
