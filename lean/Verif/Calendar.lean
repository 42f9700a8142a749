import Verif.Basic

/-!
# UTC calendar (Go `time.Unix(t,0).In(time.UTC).Format(time.RFC3339)`)

Go's `Time.date` works on days since an absolute zero year congruent to 1 modulo 400; the model uses year 1 itself as the
origin, which is the same computation shifted by a multiple of 400 years. (Standard library, modelled from its source.)
-/

namespace Gpgpdump

/-- `isLeap` -/
def isLeap (y : Nat) : Bool := y % 4 == 0 && (y % 100 != 0 || y % 400 == 0)

/-- `daysBefore[m]`: days in a non-leap year before month `m` (0 = January) -/
def daysBefore : Nat → Nat
  | 0 => 0
  | 1 => 31
  | 2 => 59
  | 3 => 90
  | 4 => 120
  | 5 => 151
  | 6 => 181
  | 7 => 212
  | 8 => 243
  | 9 => 273
  | 10 => 304
  | 11 => 334
  | _ => 365

/-- time.absDate (year part): day count since 0001-01-01 to (year, zero-based day of the year) -/
def yearOfDays (d : Nat) : Nat × Nat :=
  let n := d / 146097
  let y := 400 * n
  let d := d - 146097 * n
  let n := d / 36524
  let n := n - n / 4
  let y := y + 100 * n
  let d := d - 36524 * n
  let n := d / 1461
  let y := y + 4 * n
  let d := d - 1461 * n
  let n := d / 365
  let n := n - n / 4
  let y := y + n
  let d := d - 365 * n
  (y + 1, d)

/-- time.absDate (month part): (leap?, zero-based day of the year) to (month 1-12, day 1-31) -/
def monthOfYday (leap : Bool) (yday : Nat) : Nat × Nat :=
  if leap && yday == 59 then (2, 29)
  else
    let day := if leap && yday > 59 then yday - 1 else yday
    let month := day / 31
    if day ≥ daysBefore (month + 1) then (month + 2, day - daysBefore (month + 1) + 1)
    else (month + 1, day - daysBefore month + 1)

/-- Date of a day number counted from 1970-01-01. -/
def civil (days : Nat) : Nat × Nat × Nat :=
  let y := yearOfDays (days + 719162)
  let m := monthOfYday (isLeap y.1) y.2
  (y.1, m.1, m.2)

/-- `t.Format(time.RFC3339)` in UTC -/
def rfc3339UTC (t : UInt32) : Str :=
  let s := t.toNat
  let c := civil (s / 86400)
  let r := s % 86400
  zpad 4 (dec c.1) ++ '-' :: zpad 2 (dec c.2.1) ++ '-' :: zpad 2 (dec c.2.2) ++
    'T' :: zpad 2 (dec (r / 3600)) ++ ':' :: zpad 2 (dec (r % 3600 / 60)) ++ ':' :: zpad 2 (dec (r % 60)) ++ ['Z']

end Gpgpdump
