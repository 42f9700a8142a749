import Verif.Calendar

/-!
# Local time: `time.Unix(ut, 0).Format(time.RFC3339)` (values/datetime.go:62-66)

The time zone is a function from instants to offsets in seconds east of UTC (`Location.lookup` on the zone data of the system).
Go takes the date from seconds counted since a zero year long before 1; the model counts from 0001-01-01, which is the same
computation shifted by a multiple of 400 years. (Standard library, Go 1.16, modelled from its source.)
-/

namespace Gpgpdump

/-- offsets in seconds east of UTC -/
abbrev Zone := UInt32 → Int

/-- Date of a day number counted from 0001-01-01. -/
def civilFrom1 (days : Nat) : Nat × Nat × Nat :=
  let y := yearOfDays days
  let m := monthOfYday (isLeap y.1) y.2
  (y.1, m.1, m.2)

/-- the offset in `Time.Format` (`stdISO8601ColonTZ`, "Z07:00"): whole minutes, cut towards zero -/
def zoneText (o : Int) : Str :=
  if o = 0 then ['Z']
  else
    let z := o.tdiv 60
    (if z < 0 then '-' else '+') :: zpad 2 (dec (z.natAbs / 60)) ++ ':' :: zpad 2 (dec (z.natAbs % 60))

/-- `t.Format(time.RFC3339)` in local time (datetime.go:62-66, without the UTC flag) -/
def goLocalTime (zone : Zone) (t : UInt32) : Str :=
  let s := (t.toNat + zone t + 62135596800).toNat
  let c := civilFrom1 (s / 86400)
  let r := s % 86400
  zpad 4 (dec c.1) ++ '-' :: zpad 2 (dec c.2.1) ++ '-' :: zpad 2 (dec c.2.2) ++
    'T' :: zpad 2 (dec (r / 3600)) ++ ':' :: zpad 2 (dec (r % 3600 / 60)) ++ ':' :: zpad 2 (dec (r % 60)) ++ zoneText (zone t)

end Gpgpdump
