import Verif.NumLemmas
import Verif.DecodeLemmas
import Verif.Values

/-!
# C50: dates and times in UTC

The specification below counts days the naive way: whole years from 1970, then whole months, then days.
-/

namespace Gpgpdump

namespace Spec

/-- the Gregorian leap-year rule -/
def Leap (y : Nat) : Prop := y % 4 = 0 ∧ (y % 100 ≠ 0 ∨ y % 400 = 0)

instance (y : Nat) : Decidable (Leap y) := inferInstanceAs (Decidable (_ ∧ _))

def yearLen (y : Nat) : Nat := if Leap y then 366 else 365

def monthLen (y m : Nat) : Nat :=
  if m = 2 then (if Leap y then 29 else 28) else if m = 4 ∨ m = 6 ∨ m = 9 ∨ m = 11 then 30 else 31

/-- days in the first `n` years from 1970 on -/
def yearsDays : Nat → Nat
  | 0 => 0
  | n + 1 => yearsDays n + yearLen (1970 + n)

/-- days in the first `n` months of year `y` -/
def monthsDays (y : Nat) : Nat → Nat
  | 0 => 0
  | n + 1 => monthsDays y n + monthLen y (n + 1)

/-- number of days from 1970-01-01 to the date -/
def dayNumber (y m d : Nat) : Nat := yearsDays (y - 1970) + monthsDays y (m - 1) + (d - 1)

/-- a date from 1970 on -/
def ValidDate (y m d : Nat) : Prop := 1970 ≤ y ∧ 1 ≤ m ∧ m ≤ 12 ∧ 1 ≤ d ∧ d ≤ monthLen y m

/-- decimal value of a digit string -/
def decVal : Str → Option Nat
  | s => s.foldl (fun acc c => acc.bind fun n => if c.isDigit then some (n * 10 + (c.toNat - '0'.toNat)) else none) (some 0)

/-- `YYYY-MM-DDThh:mm:ssZ` denotes the instant `t` (seconds since 1970-01-01T00:00:00Z) -/
def DenotesUTC (s : Str) (t : Nat) : Prop :=
  ∃ ys ms ds hs is ss y m d h i sec,
    s = ys ++ '-' :: ms ++ '-' :: ds ++ 'T' :: hs ++ ':' :: is ++ ':' :: ss ++ ['Z'] ∧
    ys.length = 4 ∧ ms.length = 2 ∧ ds.length = 2 ∧ hs.length = 2 ∧ is.length = 2 ∧ ss.length = 2 ∧
    decVal ys = some y ∧ decVal ms = some m ∧ decVal ds = some d ∧ decVal hs = some h ∧ decVal is = some i ∧
    decVal ss = some sec ∧
    ValidDate y m d ∧ h < 24 ∧ i < 60 ∧ sec < 60 ∧
    t = dayNumber y m d * 86400 + h * 3600 + i * 60 + sec

/-- A date string denotes at most one instant. -/
theorem DenotesUTC.unique {s : Str} {t u : Nat} (h : DenotesUTC s t) (h' : DenotesUTC s u) : t = u := by
  obtain ⟨ys, ms, ds, hs, is, ss, y, m, d, hh, i, sec, e, l1, l2, l3, l4, l5, l6, v1, v2, v3, v4, v5, v6, _, _, _, _, rfl⟩ := h
  obtain ⟨ys', ms', ds', hs', is', ss', y', m', d', hh', i', sec', e', l1', l2', l3', l4', l5', l6', v1', v2', v3', v4', v5', v6', _, _, _, _, rfl⟩ := h'
  rw [e] at e'
  simp only [List.append_assoc, List.cons_append] at e'
  obtain ⟨rfl, f1⟩ := List.append_inj e' (by omega)
  obtain ⟨rfl, f2⟩ := List.append_inj (List.cons.inj f1).2 (by omega)
  obtain ⟨rfl, f3⟩ := List.append_inj (List.cons.inj f2).2 (by omega)
  obtain ⟨rfl, f4⟩ := List.append_inj (List.cons.inj f3).2 (by omega)
  obtain ⟨rfl, f5⟩ := List.append_inj (List.cons.inj f4).2 (by omega)
  obtain ⟨rfl, f6⟩ := List.append_inj (List.cons.inj f5).2 (by omega)
  rw [v1] at v1'; rw [v2] at v2'; rw [v3] at v3'; rw [v4] at v4'; rw [v5] at v5'; rw [v6] at v6'
  cases v1'; cases v2'; cases v3'; cases v4'; cases v5'; cases v6'
  rfl

end Spec

open Spec

theorem isLeap_iff (y : Nat) : isLeap y = true ↔ Leap y := by
  simp [isLeap, Leap]

/-- leap years before year `y` -/
theorem yearsDays_closed (n : Nat) :
    yearsDays n + 719162 = 365 * (1969 + n) + (1969 + n) / 4 - (1969 + n) / 100 + (1969 + n) / 400 := by
  induction n with
  | zero => decide
  | succ n ih =>
    simp only [yearsDays, yearLen]
    split
    · rename_i h; unfold Leap at h; omega
    · rename_i h; unfold Leap at h; omega

theorem yearOfDays_spec (d : Nat) (y yd : Nat) (h : yearOfDays d = (y, yd)) :
    1 ≤ y ∧ 365 * (y - 1) + (y - 1) / 4 - (y - 1) / 100 + (y - 1) / 400 + yd = d ∧ yd < yearLen y := by
  simp only [yearOfDays, Prod.mk.injEq] at h
  obtain ⟨rfl, rfl⟩ := h
  refine ⟨by omega, ?_⟩
  generalize hn : d / 146097 = n
  have hd : d = 146097 * n + (d - 146097 * n) ∧ d - 146097 * n < 146097 := by omega
  generalize hd1 : d - 146097 * n = d1 at hd ⊢
  obtain ⟨hd, hd1'⟩ := hd
  generalize ha : d1 / 36524 - d1 / 36524 / 4 = a
  have h2 : a ≤ 3 ∧ d1 = 36524 * a + (d1 - 36524 * a) ∧ (d1 - 36524 * a < 36524 ∨ (a = 3 ∧ d1 - 36524 * a = 36524)) := by omega
  generalize hd2 : d1 - 36524 * a = d2 at h2 ⊢
  obtain ⟨ha3, hd1e, hd2'⟩ := h2
  generalize hb : d2 / 1461 = b
  have h3 : b ≤ 24 ∧ d2 = 1461 * b + (d2 - 1461 * b) ∧ d2 - 1461 * b < 1461 ∧ (b = 24 → a < 3 → d2 - 1461 * b < 1460) := by omega
  generalize hd3 : d2 - 1461 * b = d3 at h3 ⊢
  obtain ⟨hb24, hd2e, hd3', hd3''⟩ := h3
  generalize hc : d3 / 365 - d3 / 365 / 4 = c
  have h4 : c ≤ 3 ∧ d3 = 365 * c + (d3 - 365 * c) ∧ (d3 - 365 * c < 365 ∨ (c = 3 ∧ d3 - 365 * c = 365)) := by omega
  generalize hd4 : d3 - 365 * c = d4 at h4 ⊢
  obtain ⟨hc3, hd3e, hd4'⟩ := h4
  clear hn hd1 ha hd2 hb hd3 hc hd4
  have e4 : (400 * n + 100 * a + 4 * b + c + 1 - 1) / 4 = 100 * n + 25 * a + b := by omega
  have e100 : (400 * n + 100 * a + 4 * b + c + 1 - 1) / 100 = 4 * n + a := by omega
  have e400 : (400 * n + 100 * a + 4 * b + c + 1 - 1) / 400 = n := by omega
  rw [e4, e100, e400]
  refine ⟨by omega, ?_⟩
  unfold yearLen
  split
  · omega
  · rename_i hl
    have : ¬ (c = 3 ∧ (b ≠ 24 ∨ a = 3)) := by
      intro hh
      apply hl
      unfold Leap
      omega
    omega

theorem monthOfYday_spec : ∀ (leap : Bool) (yd : Fin 366), yd.val < (if leap then 366 else 365) →
    1 ≤ (monthOfYday leap yd).1 ∧ (monthOfYday leap yd).1 ≤ 12 ∧ 1 ≤ (monthOfYday leap yd).2 ∧
    (monthOfYday leap yd).2 ≤ monthLen (if leap then 2000 else 2001) (monthOfYday leap yd).1 ∧
    monthsDays (if leap then 2000 else 2001) ((monthOfYday leap yd).1 - 1) + ((monthOfYday leap yd).2 - 1) = yd := by
  decide +kernel

theorem monthLen_leap (y m : Nat) : monthLen y m = monthLen (if isLeap y then 2000 else 2001) m := by
  have h1 : Leap 2000 := by decide
  have h2 : ¬ Leap 2001 := by decide
  unfold monthLen
  by_cases h : Leap y
  · rw [(isLeap_iff y).mpr h]; simp only [h, h1, if_true]
  · have : isLeap y = false := by simpa [← isLeap_iff] using h
    rw [this]; simp [h, h2]

theorem monthsDays_leap (y m : Nat) : monthsDays y m = monthsDays (if isLeap y then 2000 else 2001) m := by
  induction m with
  | zero => rfl
  | succ m ih => rw [monthsDays, monthsDays, ih, monthLen_leap]

theorem civil_core (D y yd m d : Nat) (hD : 719162 ≤ D) (hy : 1 ≤ y)
    (he : 365 * (y - 1) + (y - 1) / 4 - (y - 1) / 100 + (y - 1) / 400 + yd = D) (hyd : yd < yearLen y)
    (h1 : 1 ≤ m) (h2 : m ≤ 12) (h3 : 1 ≤ d) (h4 : d ≤ monthLen y m) (h5 : monthsDays y (m - 1) + (d - 1) = yd) :
    ValidDate y m d ∧ dayNumber y m d + 719162 = D ∧ (D < 800000 → y < 10000) := by
  have hyl : yearLen y ≤ 366 := by unfold yearLen; split <;> omega
  have hy70 : 1970 ≤ y := by
    apply Nat.le_of_not_lt
    intro hlt
    by_cases h69 : y = 1969
    · subst h69
      have : yearLen 1969 = 365 := by decide
      omega
    · omega
  refine ⟨⟨hy70, h1, h2, h3, h4⟩, ?_, by omega⟩
  unfold dayNumber
  have hc := yearsDays_closed (y - 1970)
  rw [show 1969 + (y - 1970) = y - 1 by omega] at hc
  omega

theorem yday_lt (y yd : Nat) (hyd : yd < yearLen y) : yd < (if isLeap y then 366 else 365) := by
  unfold yearLen at hyd
  by_cases hl : Leap y
  · rw [(isLeap_iff y).mpr hl]; simpa [hl] using hyd
  · have : isLeap y = false := by simpa [← isLeap_iff] using hl
    rw [this]; simpa [hl] using hyd

theorem civil_mid (D y yd : Nat) (hD : 719162 ≤ D) (hy : 1 ≤ y)
    (he : 365 * (y - 1) + (y - 1) / 4 - (y - 1) / 100 + (y - 1) / 400 + yd = D) (hyd : yd < yearLen y) :
    ValidDate y (monthOfYday (isLeap y) yd).1 (monthOfYday (isLeap y) yd).2 ∧
    dayNumber y (monthOfYday (isLeap y) yd).1 (monthOfYday (isLeap y) yd).2 + 719162 = D ∧ (D < 800000 → y < 10000) := by
  have hlen := yday_lt y yd hyd
  have hlt : yd < 366 := by split at hlen <;> omega
  have hm := monthOfYday_spec (isLeap y) ⟨yd, hlt⟩ hlen
  rw [← monthLen_leap, ← monthsDays_leap] at hm
  exact civil_core D y yd _ _ hD hy he hyd hm.1 hm.2.1 hm.2.2.1 hm.2.2.2.1 hm.2.2.2.2

theorem civil_eq (days D : Nat) (hD : days + 719162 = D) : civil days =
    ((yearOfDays D).1, (monthOfYday (isLeap (yearOfDays D).1) (yearOfDays D).2).1,
      (monthOfYday (isLeap (yearOfDays D).1) (yearOfDays D).2).2) := by
  subst hD
  unfold civil
  simp only

theorem civil_of (days : Nat) (c : Nat × Nat × Nat) (y m d : Nat) (hc : c = (y, m, d))
    (h : ValidDate y m d ∧ dayNumber y m d + 719162 = days + 719162 ∧ (days + 719162 < 800000 → y < 10000)) :
    ValidDate c.1 c.2.1 c.2.2 ∧ dayNumber c.1 c.2.1 c.2.2 = days ∧ (days < 50000 → c.1 < 10000) := by
  subst hc
  exact ⟨h.1, Nat.add_right_cancel h.2.1, fun hd => h.2.2 (by omega)⟩

theorem civil_spec (days : Nat) : ValidDate (civil days).1 (civil days).2.1 (civil days).2.2 ∧
    dayNumber (civil days).1 (civil days).2.1 (civil days).2.2 = days ∧ (days < 50000 → (civil days).1 < 10000) := by
  have key : ∀ D, days + 719162 = D → ValidDate (civil days).1 (civil days).2.1 (civil days).2.2 ∧
    dayNumber (civil days).1 (civil days).2.1 (civil days).2.2 = days ∧ (days < 50000 → (civil days).1 < 10000) := by
    intro D hD
    have hy := yearOfDays_spec D _ _ rfl
    have h := civil_mid D (yearOfDays D).1 (yearOfDays D).2 (by omega) hy.1 hy.2.1 hy.2.2
    exact civil_of days _ _ _ _ (civil_eq days D hD) ⟨h.1, h.2.1.trans hD.symm, fun hd => h.2.2 (by omega)⟩
  exact key _ rfl

theorem decVal_zpad_dec (w n : Nat) : decVal (zpad w (dec n)) = some n := by
  unfold zpad
  have hz : ∀ k s, decVal (List.replicate k '0' ++ s) = decVal s := by
    intro k s
    induction k with
    | zero => simp
    | succ k ih =>
      rw [List.replicate_succ, List.cons_append, ← ih]
      rfl
  rw [hz, dec_eq]
  have hd : ∀ s : Str, (∀ c ∈ s, c.isDigit) → ∀ k, s.foldl (fun acc c => acc.bind fun n => if c.isDigit then some (n * 10 + (c.toNat - '0'.toNat)) else none) (some k) =
      some (Nat.ofDigitChars 10 s k) := by
    intro s
    induction s with
    | nil => intro _ k; rfl
    | cons c s ih =>
      intro hs k
      simp only [List.foldl_cons, Option.bind_some, hs c (by simp), if_true]
      rw [ih (fun c hc => hs c (by simp [hc]))]
      simp [Nat.ofDigitChars]
      congr 1
      omega
  unfold decVal
  rw [hd _ (fun c hc => by
    rw [Nat.toList_repr] at hc
    exact Nat.isDigit_of_mem_toDigits (by omega) (by omega) hc)]
  rw [Nat.toList_repr, Nat.ofDigitChars_ten_toDigits]

theorem zpad_dec_length (w n : Nat) (hw : 0 < w) (h : n < 10 ^ w) : (zpad w (dec n)).length = w := by
  rw [zpad_length, dec_eq, Nat.toList_repr]
  have := (Nat.length_toDigits_le_iff (b := 10) (n := n) (k := w) (by omega) hw).mpr h
  omega

theorem denotes_aux (s : Str) (t : Nat) (c : Nat × Nat × Nat) (r : Nat) (hr : r = t % 86400)
    (hs : s = zpad 4 (dec c.1) ++ '-' :: zpad 2 (dec c.2.1) ++ '-' :: zpad 2 (dec c.2.2) ++
      'T' :: zpad 2 (dec (r / 3600)) ++ ':' :: zpad 2 (dec (r % 3600 / 60)) ++ ':' :: zpad 2 (dec (r % 60)) ++ ['Z'])
    (hv : ValidDate c.1 c.2.1 c.2.2) (hn : dayNumber c.1 c.2.1 c.2.2 = t / 86400) (hy : c.1 < 10000) :
    DenotesUTC s t := by
  obtain ⟨y, m, d⟩ := c
  simp only at hv hn hy hs
  have hd31 : d < 100 := by
    have := hv.2.2.2.2
    unfold monthLen at this
    split at this <;> (try split at this) <;> omega
  refine ⟨_, _, _, _, _, _, y, m, d, r / 3600, r % 3600 / 60, r % 60, hs,
    zpad_dec_length _ _ (by omega) (by omega), zpad_dec_length _ _ (by omega) (by have := hv.2.2.1; omega),
    zpad_dec_length _ _ (by omega) (by omega), zpad_dec_length _ _ (by omega) (by omega),
    zpad_dec_length _ _ (by omega) (by omega), zpad_dec_length _ _ (by omega) (by omega),
    decVal_zpad_dec _ _, decVal_zpad_dec _ _, decVal_zpad_dec _ _, decVal_zpad_dec _ _, decVal_zpad_dec _ _,
    decVal_zpad_dec _ _, hv, by omega, by omega, by omega, ?_⟩
  rw [hn]
  omega

theorem rfc3339UTC_eq (t : UInt32) (c : Nat × Nat × Nat) (hc : c = civil (t.toNat / 86400)) (r : Nat) (hr : r = t.toNat % 86400) :
    rfc3339UTC t = zpad 4 (dec c.1) ++ '-' :: zpad 2 (dec c.2.1) ++ '-' :: zpad 2 (dec c.2.2) ++
      'T' :: zpad 2 (dec (r / 3600)) ++ ':' :: zpad 2 (dec (r % 3600 / 60)) ++ ':' :: zpad 2 (dec (r % 60)) ++ ['Z'] := by
  unfold rfc3339UTC
  simp only [← hc, ← hr]

theorem days_lt (t : UInt32) : t.toNat / 86400 < 50000 := by
  have ht := t.toNat_lt
  omega

theorem rfc3339UTC_denotes (t : UInt32) : DenotesUTC (rfc3339UTC t) t.toNat :=
  have h := civil_spec (t.toNat / 86400)
  denotes_aux _ t.toNat (civil (t.toNat / 86400)) (t.toNat % 86400) rfl
    (rfc3339UTC_eq t (civil (t.toNat / 86400)) rfl (t.toNat % 86400) rfl) h.1 h.2.1 (h.2.2 (days_lt t))

theorem newItem_value (n v t d : Str) : (newItem n v t d).value = v := rfl

theorem rfc3339_true (X : Ext) (t : UInt32) : rfc3339 X t true = rfc3339UTC t := if_pos rfl

theorem dateTimeItem_value (X : Ext) (name : Str) (tm : Bytes) (f : Bool) :
    (dateTimeItem X ⟨tm, true⟩ name f).value = rfc3339UTC (UInt32.ofNat (beNat tm)) :=
  (newItem_value name _ [] _).trans (rfc3339_true X _)

/-- C50: with the UTC option every time stamp is shown as the RFC 3339 date and time, in UTC, of exactly that instant. -/
theorem C50_utc_exact (X : Ext) (name : Str) (tm : Bytes) (f : Bool) (h : tm.length = 4) :
    DenotesUTC (dateTimeItem X ⟨tm, true⟩ name f).value (beNat tm) := by
  have hlt : beNat tm < 2 ^ 32 := by
    have := beNat_lt tm
    rw [h] at this
    omega
  have hk := rfc3339UTC_denotes (UInt32.ofNat (beNat tm))
  rw [UInt32.toNat_ofNat_of_lt' hlt] at hk
  rw [dateTimeItem_value]
  exact hk

/-- C50: different time stamps are shown differently. -/
theorem C50_utc_injective (X : Ext) (name : Str) (a b : Bytes) (f g : Bool) (ha : a.length = 4) (hb : b.length = 4)
    (h : (dateTimeItem X ⟨a, true⟩ name f).value = (dateTimeItem X ⟨b, true⟩ name g).value) : a = b := by
  have h1 := C50_utc_exact X name a f ha
  have h2 := C50_utc_exact X name b g hb
  rw [h] at h1
  exact beNat_inj (by omega) (h1.unique h2)

/-- 29 February of a leap year, and the last representable second -/
example : rfc3339UTC 951782400 = S "2000-02-29T00:00:00Z" ∧ rfc3339UTC 4294967295 = S "2106-02-07T06:28:15Z" := by
  decide +kernel

end Gpgpdump
