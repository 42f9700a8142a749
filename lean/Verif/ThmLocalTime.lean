import Verif.LocalTime
import Verif.ThmCalendar
import Verif.ThmDays
import Verif.ThmReadBack

/-!
# C79: dates and times in local time

The specification counts days from 0001-01-01, year by year, month by month, day by day, and takes the offset off the clock reading.
-/

namespace Gpgpdump

namespace Spec

/-- days in the first `n` years of the calendar -/
def eraDays : Nat → Nat
  | 0 => 0
  | n + 1 => eraDays n + yearLen (n + 1)

/-- number of days from 0001-01-01 to the date -/
def eraNumber (y m d : Nat) : Nat := eraDays (y - 1) + monthsDays y (m - 1) + (d - 1)

def RealDate (y m d : Nat) : Prop := 1 ≤ y ∧ 1 ≤ m ∧ m ≤ 12 ∧ 1 ≤ d ∧ d ≤ monthLen y m

/-- `Z`, `+hh:mm` or `-hh:mm` denotes an offset in seconds -/
inductive DenotesOffset : Str → Int → Prop
  | zero : DenotesOffset ['Z'] 0
  | east {hs ms h m} (l1 : hs.length = 2) (l2 : ms.length = 2) (v1 : decVal hs = some h) (v2 : decVal ms = some m) (hm : m < 60) :
      DenotesOffset ('+' :: hs ++ ':' :: ms) (h * 3600 + m * 60 : Nat)
  | west {hs ms h m} (l1 : hs.length = 2) (l2 : ms.length = 2) (v1 : decVal hs = some h) (v2 : decVal ms = some m) (hm : m < 60) :
      DenotesOffset ('-' :: hs ++ ':' :: ms) (-(h * 3600 + m * 60 : Nat))

/-- RFC 3339: the date and time of day, then the offset; denotes the instant `t` (seconds since 1970-01-01T00:00:00Z) -/
def DenotesInstant (s : Str) (t : Int) : Prop :=
  ∃ ys ms ds hs is ss zs y m d h i sec z,
    s = ys ++ '-' :: ms ++ '-' :: ds ++ 'T' :: hs ++ ':' :: is ++ ':' :: ss ++ zs ∧
    ys.length = 4 ∧ ms.length = 2 ∧ ds.length = 2 ∧ hs.length = 2 ∧ is.length = 2 ∧ ss.length = 2 ∧
    decVal ys = some y ∧ decVal ms = some m ∧ decVal ds = some d ∧ decVal hs = some h ∧ decVal is = some i ∧
    decVal ss = some sec ∧
    RealDate y m d ∧ h < 24 ∧ i < 60 ∧ sec < 60 ∧ DenotesOffset zs z ∧
    t = ((eraNumber y m d : Int) - eraNumber 1970 1 1) * 86400 + (h * 3600 + i * 60 + sec : Nat) - z

theorem DenotesOffset.unique {s : Str} {a b : Int} (h : DenotesOffset s a) (h' : DenotesOffset s b) : a = b := by
  cases h with
  | zero => cases h'; rfl
  | east l1 l2 v1 v2 hm =>
    generalize hg : '+' :: _ ++ ':' :: _ = g at h'
    cases h' with
    | zero => simp at hg
    | west => simp at hg
    | east l1' l2' v1' v2' hm' =>
      obtain ⟨rfl, f⟩ := List.append_inj (List.cons.inj hg).2 (by omega)
      obtain rfl := (List.cons.inj f).2
      rw [v1] at v1'; rw [v2] at v2'
      cases v1'; cases v2'
      rfl
  | west l1 l2 v1 v2 hm =>
    generalize hg : '-' :: _ ++ ':' :: _ = g at h'
    cases h' with
    | zero => simp at hg
    | east => simp at hg
    | west l1' l2' v1' v2' hm' =>
      obtain ⟨rfl, f⟩ := List.append_inj (List.cons.inj hg).2 (by omega)
      obtain rfl := (List.cons.inj f).2
      rw [v1] at v1'; rw [v2] at v2'
      cases v1'; cases v2'
      rfl

/-- A text denotes at most one instant. -/
theorem DenotesInstant.unique {s : Str} {t u : Int} (h : DenotesInstant s t) (h' : DenotesInstant s u) : t = u := by
  obtain ⟨ys, ms, ds, hs, is, ss, zs, y, m, d, hh, i, sec, z, e, l1, l2, l3, l4, l5, l6, v1, v2, v3, v4, v5, v6, _, _, _, _, hz, ht⟩ := h
  obtain ⟨ys', ms', ds', hs', is', ss', zs', y', m', d', hh', i', sec', z', e', l1', l2', l3', l4', l5', l6', v1', v2', v3', v4', v5', v6', _, _, _, _, hz', ht'⟩ := h'
  rw [e] at e'
  simp only [List.append_assoc, List.cons_append] at e'
  obtain ⟨rfl, f1⟩ := List.append_inj e' (by omega)
  obtain ⟨rfl, f2⟩ := List.append_inj (List.cons.inj f1).2 (by omega)
  obtain ⟨rfl, f3⟩ := List.append_inj (List.cons.inj f2).2 (by omega)
  obtain ⟨rfl, f4⟩ := List.append_inj (List.cons.inj f3).2 (by omega)
  obtain ⟨rfl, f5⟩ := List.append_inj (List.cons.inj f4).2 (by omega)
  obtain ⟨rfl, rfl⟩ := List.append_inj (List.cons.inj f5).2 (by omega)
  rw [v1] at v1'; rw [v2] at v2'; rw [v3] at v3'; rw [v4] at v4'; rw [v5] at v5'; rw [v6] at v6'
  cases v1'; cases v2'; cases v3'; cases v4'; cases v5'; cases v6'
  rw [ht, ht', hz.unique hz']

end Spec

open Spec

theorem eraDays_closed (n : Nat) : eraDays n = 365 * n + n / 4 - n / 100 + n / 400 := by
  induction n with
  | zero => decide
  | succ n ih =>
    simp only [eraDays, yearLen]
    split
    · rename_i h; unfold Leap at h; omega
    · rename_i h; unfold Leap at h; omega

theorem civilFrom1_eq (D : Nat) : civilFrom1 D =
    ((yearOfDays D).1, (monthOfYday (isLeap (yearOfDays D).1) (yearOfDays D).2).1,
      (monthOfYday (isLeap (yearOfDays D).1) (yearOfDays D).2).2) := by
  unfold civilFrom1
  simp only

theorem civilFrom1_mid (D y yd : Nat) (hy : 1 ≤ y) (he : 365 * (y - 1) + (y - 1) / 4 - (y - 1) / 100 + (y - 1) / 400 + yd = D) (hyd : yd < yearLen y) :
    RealDate y (monthOfYday (isLeap y) yd).1 (monthOfYday (isLeap y) yd).2 ∧
    eraNumber y (monthOfYday (isLeap y) yd).1 (monthOfYday (isLeap y) yd).2 = D ∧ (D < 800000 → y < 10000) := by
  have hlen := yday_lt y yd hyd
  have hlt : yd < 366 := by split at hlen <;> omega
  have hm := monthOfYday_spec (isLeap y) ⟨yd, hlt⟩ hlen
  rw [← monthLen_leap, ← monthsDays_leap] at hm
  refine ⟨⟨hy, hm.1, hm.2.1, hm.2.2.1, hm.2.2.2.1⟩, ?_, by omega⟩
  have h5 : monthsDays y ((monthOfYday (isLeap y) yd).1 - 1) + ((monthOfYday (isLeap y) yd).2 - 1) = yd := hm.2.2.2.2
  unfold eraNumber
  rw [eraDays_closed, Nat.add_assoc, h5]
  exact he

theorem civilFrom1_of (D : Nat) (c : Nat × Nat × Nat) (y m d : Nat) (hc : c = (y, m, d))
    (h : RealDate y m d ∧ eraNumber y m d = D ∧ (D < 800000 → y < 10000)) :
    RealDate c.1 c.2.1 c.2.2 ∧ eraNumber c.1 c.2.1 c.2.2 = D ∧ (D < 800000 → c.1 < 10000) := by
  subst hc
  exact h

theorem civilFrom1_spec (D : Nat) : RealDate (civilFrom1 D).1 (civilFrom1 D).2.1 (civilFrom1 D).2.2 ∧
    eraNumber (civilFrom1 D).1 (civilFrom1 D).2.1 (civilFrom1 D).2.2 = D ∧ (D < 800000 → (civilFrom1 D).1 < 10000) := by
  have hy := yearOfDays_spec D _ _ rfl
  exact civilFrom1_of D _ _ _ _ (civilFrom1_eq D) (civilFrom1_mid D (yearOfDays D).1 (yearOfDays D).2 hy.1 hy.2.1 hy.2.2)

/-- an offset of less than 100 hours, as all offsets are (zone data allow about 26) -/
def OffsetOk (o : Int) : Prop := -360000 < o ∧ o < 360000

theorem zoneText_denotes {o : Int} (h : OffsetOk o) : DenotesOffset (zoneText o) (o - o.tmod 60) := by
  unfold zoneText
  by_cases h0 : o = 0
  · subst h0; exact .zero
  · rw [if_neg h0]
    obtain ⟨h1, h2⟩ := h
    have hdm := Int.mul_tdiv_add_tmod o 60
    simp only
    generalize hz : o.tdiv 60 = z at *
    have hz1 : z.natAbs < 6000 := by
      have : o.natAbs / 60 = z.natAbs := by rw [← hz, Int.natAbs_tdiv]; rfl
      omega
    have l1 := zpad_dec_length 2 (z.natAbs / 60) (by omega) (by omega)
    have l2 := zpad_dec_length 2 (z.natAbs % 60) (by omega) (by omega)
    by_cases hn : z < 0
    · rw [if_pos hn]
      have := DenotesOffset.west l1 l2 (decVal_zpad_dec _ _) (decVal_zpad_dec _ _) (Nat.mod_lt _ (by omega))
      rw [show o - o.tmod 60 = -((z.natAbs / 60 * 3600 + z.natAbs % 60 * 60 : Nat) : Int) by omega]
      exact this
    · rw [if_neg hn]
      have := DenotesOffset.east l1 l2 (decVal_zpad_dec _ _) (decVal_zpad_dec _ _) (Nat.mod_lt _ (by omega))
      rw [show o - o.tmod 60 = ((z.natAbs / 60 * 3600 + z.natAbs % 60 * 60 : Nat) : Int) by omega]
      exact this

/-- C79: in every time zone the text denotes the instant, plus the seconds by which the offset is not a whole number of minutes. -/
theorem C79_instant (zone : Zone) (t : UInt32) (h : OffsetOk (zone t)) : DenotesInstant (goLocalTime zone t) (t.toNat + (zone t).tmod 60) := by
  have hz := zoneText_denotes h
  obtain ⟨h1, h2⟩ := h
  have ht := t.toNat_lt
  unfold goLocalTime
  simp only
  generalize zone t = o at *
  obtain ⟨s, hs⟩ : ∃ s : Nat, (t.toNat : Int) + o + 62135596800 = s := ⟨(t.toNat + o + 62135596800).toNat, by omega⟩
  rw [hs, Int.toNat_natCast]
  obtain ⟨hv, hn, hy⟩ := civilFrom1_spec (s / 86400)
  have hy := hy (by omega)
  generalize civilFrom1 (s / 86400) = c at *
  obtain ⟨y, m, d⟩ := c
  simp only at hv hn hy
  have hd31 : d < 100 := by
    have := hv.2.2.2.2
    unfold monthLen at this
    split at this <;> (try split at this) <;> omega
  generalize hr : s % 86400 = r at *
  refine ⟨_, _, _, _, _, _, _, y, m, d, r / 3600, r % 3600 / 60, r % 60, o - o.tmod 60, rfl,
    zpad_dec_length _ _ (by omega) (by omega), zpad_dec_length _ _ (by omega) (by show m < 100; have := hv.2.2.1; omega),
    zpad_dec_length _ _ (by omega) (by omega), zpad_dec_length _ _ (by omega) (by omega),
    zpad_dec_length _ _ (by omega) (by omega), zpad_dec_length _ _ (by omega) (by omega),
    decVal_zpad_dec _ _, decVal_zpad_dec _ _, decVal_zpad_dec _ _, decVal_zpad_dec _ _, decVal_zpad_dec _ _,
    decVal_zpad_dec _ _, hv, by omega, by omega, by omega, hz, ?_⟩
  have e70 : eraNumber 1970 1 1 = 719162 := by decide +kernel
  rw [hn, e70]
  omega

/-- C79: the text denotes the time stamp exactly if the offset is a whole number of minutes. -/
theorem C79_exact (zone : Zone) (t : UInt32) (h : OffsetOk (zone t)) : DenotesInstant (goLocalTime zone t) t.toNat ↔ 60 ∣ zone t := by
  have hi := C79_instant zone t h
  constructor
  · intro h'
    have := hi.unique h'
    exact Int.dvd_of_tmod_eq_zero (by omega)
  · intro hd
    rwa [Int.tmod_eq_zero_of_dvd hd, Int.add_zero] at hi

/-- C79: less than a minute is lost. -/
theorem C79_minute (zone : Zone) (t : UInt32) (h : OffsetOk (zone t)) : ∃ u : Int, DenotesInstant (goLocalTime zone t) u ∧ |u - t.toNat| < 60 := by
  refine ⟨_, C79_instant zone t h, ?_⟩
  have h1 := Int.tmod_lt_of_pos (zone t) (b := 60) (by omega)
  have h2 := Int.lt_tmod_of_pos (zone t) (b := 60) (by omega)
  rw [abs_lt]
  omega

/-- C79: no two time stamps have the same text, not even in different zones or at the change to or from daylight saving time. -/
theorem C79_injective (zone zone' : Zone) (t t' : UInt32) (h : OffsetOk (zone t)) (h' : OffsetOk (zone' t')) (hd : 60 ∣ zone t) (hd' : 60 ∣ zone' t')
    (e : goLocalTime zone t = goLocalTime zone' t') : t = t' := by
  have h1 := (C79_exact zone t h).mpr hd
  have h2 := (C79_exact zone' t' h').mpr hd'
  rw [e] at h1
  exact UInt32.toNat_inj.mp (by have := h1.unique h2; omega)

theorem civilFrom1_civil (n : Nat) : civilFrom1 (n + 719162) = civil n := rfl

theorem goLocalTime_civil {zone : Zone} {t u : UInt32} (hu : (u.toNat : Int) = t.toNat + zone t) :
    goLocalTime zone t = (rfc3339UTC u).dropLast ++ zoneText (zone t) := by
  unfold goLocalTime rfc3339UTC
  simp only
  rw [show ((t.toNat : Int) + zone t + 62135596800).toNat = u.toNat + 86400 * 719162 by omega, Nat.add_mul_div_left _ _ (by omega),
    Nat.add_mul_mod_self_left, civilFrom1_civil]
  generalize civil (u.toNat / 86400) = c
  rw [List.dropLast_concat]

/-- C79: what stands before the offset is what a clock in the zone shows: the UTC text of the instant moved by the offset. -/
theorem C79_clock (zone : Zone) (t u : UInt32) (hu : (u.toNat : Int) = t.toNat + zone t) :
    ∃ clock, rfc3339UTC u = clock ++ ['Z'] ∧ goLocalTime zone t = clock ++ zoneText (zone t) := by
  refine ⟨(rfc3339UTC u).dropLast, ?_, goLocalTime_civil hu⟩
  unfold rfc3339UTC
  simp only
  rw [List.dropLast_concat]

/-- C79: where the offset is 0, local time and UTC have the same text. -/
theorem C79_utc (zone : Zone) (t : UInt32) (h : zone t = 0) : goLocalTime zone t = rfc3339UTC t := by
  obtain ⟨c, h1, h2⟩ := C79_clock zone t t (by omega)
  rw [h1, h2, h]
  rfl

/-! ## Items -/

/-- the environment prints times as Go does, in a zone whose offsets are whole minutes -/
structure GoZone (X : Ext) (zone : Zone) : Prop where
  time : X.localTime = goLocalTime zone
  ok : ∀ t, OffsetOk (zone t)
  minutes : ∀ t, 60 ∣ zone t

theorem rfc3339_zone {X : Ext} {zone : Zone} (hX : GoZone X zone) (t : UInt32) (utc : Bool) :
    ∃ z : Zone, OffsetOk (z t) ∧ 60 ∣ z t ∧ rfc3339 X t utc = goLocalTime z t := by
  cases utc with
  | true => exact ⟨fun _ => 0, ⟨by show (-360000 : Int) < 0; decide, by show (0 : Int) < 360000; decide⟩, Int.dvd_zero 60, (rfc3339_true X t).trans (C79_utc _ t rfl).symm⟩
  | false => exact ⟨zone, hX.ok t, hX.minutes t, by rw [← hX.time]; rfl⟩

theorem rfc3339_denotes {X : Ext} {zone : Zone} (hX : GoZone X zone) (t : UInt32) (utc : Bool) : DenotesInstant (rfc3339 X t utc) t.toNat := by
  obtain ⟨z, h1, h2, h3⟩ := rfc3339_zone hX t utc
  rw [h3]
  exact (C79_exact z t h1).mpr h2

/-- C79: with or without the UTC option a time stamp is displayed as a text that denotes it. -/
theorem C79_item (X : Ext) (zone : Zone) (hX : GoZone X zone) (name : Str) (tm : Bytes) (utc f : Bool) (h : tm.length = 4) :
    DenotesInstant (dateTimeItem X ⟨tm, utc⟩ name f).value (beNat tm) := by
  have hlt : beNat tm < 2 ^ 32 := by
    have := beNat_lt tm
    rw [h] at this
    exact this
  have hk := rfc3339_denotes hX (UInt32.ofNat (beNat tm)) utc
  rw [UInt32.toNat_ofNat_of_lt' hlt] at hk
  exact hk

/-- C79: the value that is displayed determines the four octets, even if the options, the zones or the names differ. -/
theorem C79_octets (X X' : Ext) (zone zone' : Zone) (hX : GoZone X zone) (hX' : GoZone X' zone') (name name' : Str) (tm tm' : Bytes)
    (utc utc' f f' : Bool) (h : tm.length = 4) (h' : tm'.length = 4)
    (e : (dateTimeItem X ⟨tm, utc⟩ name f).value = (dateTimeItem X' ⟨tm', utc'⟩ name' f').value) : tm = tm' := by
  have h1 := C79_item X zone hX name tm utc f h
  have h2 := C79_item X' zone' hX' name' tm' utc' f' h'
  rw [e] at h1
  exact beNat_inj (h.trans h'.symm) (by have := h1.unique h2; omega)

/-- C79: so is the end of a validity period, as long as it fits into 32 bits (see C18). -/
theorem C79_period (o : OptCode → Bool) (X : Ext) (zone : Zone) (hX : GoZone X zone) (t : UInt8) (n : Bytes) (start : Nat) (h0 : 0 < start)
    (h : start + beNat n < 2 ^ 32) : DenotesInstant (periodRow o X t n (some start)).note (start + beNat n : Nat) := by
  have e : (periodRow o X t n (some start)).note = rfc3339 X (UInt32.ofNat (start + beNat n)) (o UTC) := by
    show endDate (dateText o X) (some start) (beNat n) = _
    unfold endDate
    simp only
    rw [if_pos h0, Nat.mod_eq_of_lt h]
    rfl
  rw [e]
  have hk := rfc3339_denotes hX (UInt32.ofNat (start + beNat n)) (o UTC)
  rwa [UInt32.toNat_ofNat_of_lt' h] at hk

/-! ## The environment -/

/-- C79: the text consists of digits and the characters `-`, `+`, `:`, `T`, `Z`. -/
theorem C79_characters (zone : Zone) (t : UInt32) : goLocalTime zone t ≠ [] ∧
    ∀ c ∈ goLocalTime zone t, c.isDigit = true ∨ c = '-' ∨ c = '+' ∨ c = ':' ∨ c = 'T' ∨ c = 'Z' := by
  have hz : ∀ n m, ∀ c ∈ zpad n (dec m), c.isDigit = true := fun n m c hc => by
    unfold zpad at hc
    rcases List.mem_append.mp hc with hc | hc
    · rw [List.eq_of_mem_replicate hc]; decide
    · exact dec_isDigit hc
  have hzone : ∀ o, ∀ c ∈ zoneText o, c.isDigit = true ∨ c = '-' ∨ c = '+' ∨ c = ':' ∨ c = 'T' ∨ c = 'Z' := fun o c hc => by
    unfold zoneText at hc
    split at hc
    · rw [List.mem_singleton.mp hc]; decide
    · simp only [List.mem_append, List.mem_cons] at hc
      rcases hc with (hc | hc) | hc | hc
      · split at hc <;> rw [hc] <;> decide
      · exact .inl (hz _ _ c hc)
      · rw [hc]; decide
      · exact .inl (hz _ _ c hc)
  unfold goLocalTime
  simp only
  generalize civilFrom1 _ = d
  constructor
  · simp
  · intro c hc
    simp only [List.mem_append, List.mem_cons] at hc
    rcases hc with (((((hc | hc | hc) | hc | hc) | hc | hc) | hc | hc) | hc | hc) | hc
    all_goals first | exact .inl (hz _ _ c hc) | (rw [hc]; decide) | exact hzone _ c hc

theorem digit_plain {c : Char} (h : c.isDigit = true) : isControl c = false ∧ c ≠ '(' := by
  have h' : 48 ≤ c.toNat ∧ c.toNat ≤ 57 := by
    simp only [Char.isDigit, Bool.and_eq_true, decide_eq_true_eq] at h
    exact ⟨UInt32.le_iff_toNat_le.mp h.1, UInt32.le_iff_toNat_le.mp h.2⟩
  constructor
  · unfold isControl
    simp only [Bool.or_eq_false_iff, Bool.and_eq_false_iff, decide_eq_false_iff_not]
    omega
  · rintro rfl
    revert h'
    decide

/-- C79: an environment that prints times and durations as Go does meets the conditions of C28, C73 and C75, in every time zone. -/
theorem C79_environment (X : Ext) (zone : Zone) (ht : X.localTime = goLocalTime zone) (hd : X.days = goDays) : CleanX X ∧ ReadBack.TimeX X := by
  have h1 : ∀ t, ∀ c ∈ X.localTime t, isControl c = false ∧ c ≠ '(' := fun t c hc => by
    rw [ht] at hc
    rcases (C79_characters zone t).2 c hc with h | h | h | h | h | h
    · exact digit_plain h
    all_goals rw [h]; decide
  have h2 : ∀ t, ∀ c ∈ X.days t, isControl c = false ∧ c ≠ '(' := fun t c hc => by
    rw [hd] at hc
    rcases C78_characters t c hc with h | h | h | h
    · exact digit_plain h
    all_goals rw [h]; decide
  exact ⟨⟨fun t => .of_mem fun c hc => (h1 t c hc).1, fun t => .of_mem fun c hc => (h2 t c hc).1⟩,
    ⟨fun t hc => (h1 t _ hc).2 rfl, fun t => by rw [ht]; exact (C79_characters zone t).1, fun t hc => (h2 t _ hc).2 rfl⟩⟩

/-! ## Examples -/

/-- half an hour before 1970 in a zone one hour west of Greenwich; New York in winter; Kathmandu; Liberia before 1972 -/
example : goLocalTime (fun _ => -3600) 1800 = "1969-12-31T23:30:00-01:00".toList ∧
    goLocalTime (fun _ => -18000) 1577836800 = "2019-12-31T19:00:00-05:00".toList ∧
    goLocalTime (fun _ => 20700) 1577836800 = "2020-01-01T05:45:00+05:45".toList ∧
    goLocalTime (fun _ => -2670) 0 = "1969-12-31T23:15:30-00:44".toList := by
  refine ⟨?_, ?_, ?_, ?_⟩ <;> decide +kernel

/-- the last of them is half a minute off -/
example : DenotesInstant (goLocalTime (fun _ => -2670) 0) (-30) := C79_instant (fun _ => -2670) 0 ⟨by decide, by decide⟩

/-- The end of daylight saving time: the same reading of the clock, different texts. -/
example : let zone : Zone := fun t => if t < 1572138000 then 7200 else 3600
    goLocalTime zone 1572136200 = "2019-10-27T02:30:00+02:00".toList ∧ goLocalTime zone 1572139800 = "2019-10-27T02:30:00+01:00".toList := by
  constructor <;> decide +kernel

/-- Offsets with seconds: two instants with the same text (whole minutes are needed in `C79_injective`). -/
example : let zone : Zone := fun t => if t < 1000 then 90 else 60
    goLocalTime zone 970 = goLocalTime zone 1000 := by
  decide +kernel

end Gpgpdump
