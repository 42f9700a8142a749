import Verif.GithubTime
import Verif.ThmGithubJson
import Verif.ThmCalendar

/-!
# C82: which dates the GitHub pages may have
-/

namespace Gpgpdump

namespace Spec.GJ

/-- the value of decimal digits -/
def decNum (t : Bytes) : Nat := t.foldl (fun n b => n * 10 + (b.toNat - 0x30)) 0

/-- two octets of the offset from UTC: digits, or a sign and a digit -/
def OffsetPart (t : Bytes) : Prop := ∃ a b, t = [a, b] ∧ (Digit a ∨ a = 0x2b ∨ a = 0x2d) ∧ Digit b

/-- `Z` or an offset from UTC -/
def Zone (z : Bytes) : Prop :=
  z = [0x5a] ∨ ∃ s h m, (s = 0x2b ∨ s = 0x2d) ∧ OffsetPart h ∧ OffsetPart m ∧ z = s :: h ++ 0x3a :: m

/-- a date and time `YYYY-MM-DDThh:mm:ss[.fraction]zone`, where the hour may have one digit and the fraction may have any number of
digits as long as its value, read as an integer, is below 10^9 -/
def TimeText (raw : Bytes) : Prop :=
  ∃ y mo d h mi s f z, raw = y ++ 0x2d :: mo ++ 0x2d :: d ++ 0x54 :: h ++ 0x3a :: mi ++ 0x3a :: s ++ f ++ z ∧
    Digits y ∧ y.length = 4 ∧ Digits mo ∧ mo.length = 2 ∧ Digits d ∧ d.length = 2 ∧ Digits h ∧ h.length ≤ 2 ∧
    Digits mi ∧ mi.length = 2 ∧ Digits s ∧ s.length = 2 ∧
    1 ≤ decNum mo ∧ decNum mo ≤ 12 ∧ 1 ≤ decNum d ∧ decNum d ≤ monthLen (decNum y) (decNum mo) ∧ decNum h < 24 ∧ decNum mi < 60 ∧ decNum s < 60 ∧
    (f = [] ∨ ∃ x, Digits x ∧ decNum x < 10 ^ 9 ∧ f = 0x2e :: x) ∧ Zone z

/-- RFC 3339 section 5.6 `date-time`, with capital `T` and `Z`, without leap seconds and with at most nine digits of a fraction -/
def RFC3339 (raw : Bytes) : Prop :=
  ∃ y mo d h mi s f z, raw = y ++ 0x2d :: mo ++ 0x2d :: d ++ 0x54 :: h ++ 0x3a :: mi ++ 0x3a :: s ++ f ++ z ∧
    Digits y ∧ y.length = 4 ∧ Digits mo ∧ mo.length = 2 ∧ Digits d ∧ d.length = 2 ∧ Digits h ∧ h.length = 2 ∧
    Digits mi ∧ mi.length = 2 ∧ Digits s ∧ s.length = 2 ∧
    1 ≤ decNum mo ∧ decNum mo ≤ 12 ∧ 1 ≤ decNum d ∧ decNum d ≤ monthLen (decNum y) (decNum mo) ∧ decNum h < 24 ∧ decNum mi < 60 ∧ decNum s < 60 ∧
    (f = [] ∨ ∃ x, Digits x ∧ x.length ≤ 9 ∧ f = 0x2e :: x) ∧
    (z = [0x5a] ∨ ∃ c zh zm, (c = 0x2b ∨ c = 0x2d) ∧ Digits zh ∧ zh.length = 2 ∧ Digits zm ∧ zm.length = 2 ∧ decNum zh < 24 ∧ decNum zm < 60 ∧
      z = c :: zh ++ 0x3a :: zm)

end Spec.GJ

open Spec
namespace GJ
open Spec.GJ

theorem skip_iff {c : UInt8} {d r : Bytes} : tmSkip c d = some r ↔ d = c :: r := by
  cases d with
  | nil => simp [tmSkip]
  | cons b d =>
    rw [tmSkip]
    split
    · rename_i h; subst h; simp
    · rename_i h
      simp [h]

theorem two_iff {d r : Bytes} {n : Nat} : tmNum true d = some (n, r) ↔ ∃ t, Digits t ∧ t.length = 2 ∧ n = decNum t ∧ d = t ++ r := by
  constructor
  · intro h
    match d with
    | [] => simp [tmNum] at h
    | [a] => simp [tmNum] at h
    | a :: b :: r' =>
      rw [tmNum] at h
      split at h
      · rename_i ha
        simp only at h
        split at h
        · rename_i hb
          simp only [Option.some.injEq, Prod.mk.injEq] at h
          obtain ⟨rfl, rfl⟩ := h
          refine ⟨[a, b], ⟨by simp, ?_⟩, rfl, ?_, rfl⟩
          · intro x hx
            simp only [List.mem_cons, List.not_mem_nil, or_false] at hx
            rcases hx with rfl | rfl
            · exact (digit_iff _).1 ha
            · exact (digit_iff _).1 hb
          · simp [decNum, tmDigit]
        · simp at h
      · cases h
  · rintro ⟨t, ht, hl, rfl, rfl⟩
    match t, hl with
    | [a, b], _ =>
      have ha := (digit_iff a).2 (ht.2 a (by simp))
      have hb := (digit_iff b).2 (ht.2 b (by simp))
      simp [tmNum, ha, hb, decNum, tmDigit]

theorem hour_sound {d r : Bytes} {n : Nat} (h : tmNum false d = some (n, r)) : ∃ t, Digits t ∧ t.length ≤ 2 ∧ n = decNum t ∧ d = t ++ r := by
  match d with
  | [] => simp [tmNum] at h
  | a :: r' =>
    rw [tmNum.eq_def] at h
    simp only at h
    split at h
    · rename_i ha
      have one : some (tmDigit a, r') = some (n, r) → ∃ t, Digits t ∧ t.length ≤ 2 ∧ n = decNum t ∧ a :: r' = t ++ r := by
        intro h
        simp only [Option.some.injEq, Prod.mk.injEq] at h
        obtain ⟨rfl, rfl⟩ := h
        refine ⟨[a], ⟨by simp, ?_⟩, by simp, ?_, rfl⟩
        · intro x hx
          simp only [List.mem_cons, List.not_mem_nil, or_false] at hx
          rw [hx]
          exact (digit_iff _).1 ha
        · simp [decNum, tmDigit]
      cases r' with
      | nil => exact one (by simpa using h)
      | cons b r'' =>
        simp only at h
        split at h
        · rename_i hb
          have : tmNum true (a :: b :: r'') = some (n, r) := by
            rw [tmNum, if_pos ha]
            simp only
            rw [if_pos hb]
            exact h
          obtain ⟨t, h1, h2, h3⟩ := two_iff.1 this
          exact ⟨t, h1, by omega, h3⟩
        · exact one (by simpa using h)
    · cases h

theorem hour_complete {t r : Bytes} (ht : Digits t) (hl : t.length ≤ 2) : tmNum false (t ++ 0x3a :: r) = some (decNum t, 0x3a :: r) := by
  match t, hl, ht with
  | [], _, ht => exact absurd rfl ht.1
  | [a], _, ht =>
    have ha := (digit_iff a).2 (ht.2 a (by simp))
    simp [tmNum, ha, decNum, tmDigit, show jsDigit 0x3a = false by decide]
  | [a, b], _, ht =>
    have ha := (digit_iff a).2 (ht.2 a (by simp))
    have hb := (digit_iff b).2 (ht.2 b (by simp))
    simp [tmNum, ha, hb, decNum, tmDigit]

theorem year_iff {d r : Bytes} {n : Nat} : tmYear d = some (n, r) ↔ ∃ t, Digits t ∧ t.length = 4 ∧ n = decNum t ∧ d = t ++ r := by
  constructor
  · intro h
    unfold tmYear at h
    split at h
    · rename_i a b c e r'
      split at h
      · rename_i hd
        simp only [Option.some.injEq, Prod.mk.injEq] at h
        obtain ⟨rfl, rfl⟩ := h
        refine ⟨[a, b, c, e], ⟨by simp, ?_⟩, rfl, rfl, rfl⟩
        intro x hx
        simp only [List.all_cons, List.all_nil, Bool.and_true, Bool.and_eq_true] at hd
        simp only [List.mem_cons, List.not_mem_nil, or_false] at hx
        rw [← digit_iff]
        rcases hx with rfl | rfl | rfl | rfl
        · exact hd.1
        · exact hd.2.1
        · exact hd.2.2.1
        · exact hd.2.2.2
      · cases h
    · cases h
  · rintro ⟨t, ht, hl, rfl, rfl⟩
    match t, hl, ht with
    | [a, b, c, e], _, ht =>
      have hd := fun x hx => (digit_iff x).2 (ht.2 x hx)
      simp only [List.cons_append, List.nil_append]
      rw [tmYear, if_pos (by simp [hd a, hd b, hd c, hd e])]
      rfl

theorem atoi2_iff (a b : UInt8) : tmAtoi2 a b = true ↔ OffsetPart [a, b] := by
  unfold tmAtoi2 OffsetPart
  constructor
  · intro h
    split at h
    · rename_i hs
      simp only [Bool.or_eq_true, decide_eq_true_eq] at hs
      exact ⟨a, b, rfl, .inr hs, (digit_iff b).1 h⟩
    · rw [Bool.and_eq_true] at h
      exact ⟨a, b, rfl, .inl ((digit_iff a).1 h.1), (digit_iff b).1 h.2⟩
  · rintro ⟨a', b', he, ha, hb⟩
    simp only [List.cons.injEq, and_true] at he
    obtain ⟨rfl, rfl⟩ := he
    split
    · exact (digit_iff b).2 hb
    · rename_i hs
      simp only [Bool.or_eq_true, decide_eq_true_eq] at hs
      rw [Bool.and_eq_true]
      exact ⟨(digit_iff a).2 (ha.resolve_right hs), (digit_iff b).2 hb⟩

theorem zone_iff {d r : Bytes} : tmZone d = some r ↔ ∃ z, Zone z ∧ d = z ++ r := by
  constructor
  · intro h
    cases d with
    | nil => simp [tmZone] at h
    | cons z d =>
      rw [tmZone.eq_def] at h
      simp only at h
      split at h
      · rename_i hz
        simp only [Option.some.injEq] at h
        subst h
        exact ⟨[0x5a], .inl rfl, by rw [hz]; rfl⟩
      · split at h
        · rename_i h1 h2 c m1 m2 r'
          split at h
          · rename_i hc
            simp only [Bool.and_eq_true, decide_eq_true_eq, Bool.or_eq_true] at hc
            simp only [Option.some.injEq] at h
            subst h
            refine ⟨z :: [h1, h2] ++ 0x3a :: [m1, m2], .inr ⟨z, _, _, hc.2, (atoi2_iff _ _).1 hc.1.1.2, (atoi2_iff _ _).1 hc.1.2, rfl⟩, ?_⟩
            rw [hc.1.1.1]
            rfl
          · cases h
        · cases h
  · rintro ⟨z, hz, rfl⟩
    rcases hz with rfl | ⟨s, h, m, hs, hh, hm, rfl⟩
    · rfl
    · obtain ⟨a, b, rfl, -⟩ := id hh
      obtain ⟨a', b', rfl, -⟩ := id hm
      simp only [List.cons_append, List.nil_append]
      rw [tmZone, if_neg (by rcases hs with rfl | rfl <;> decide)]
      simp only
      rw [if_pos]
      simp only [Bool.and_eq_true, decide_eq_true_eq, Bool.or_eq_true]
      exact ⟨⟨⟨trivial, (atoi2_iff _ _).2 hh⟩, (atoi2_iff _ _).2 hm⟩, hs⟩

theorem frac_time_sound {d r : Bytes} (h : tmFrac d = some r) : ∃ f, (f = [] ∨ ∃ x, Digits x ∧ decNum x < 10 ^ 9 ∧ f = 0x2e :: x) ∧ d = f ++ r := by
  unfold tmFrac at h
  split at h
  · rename_i a r'
    split at h
    · rename_i ha
      simp only at h
      split at h
      · rename_i hn
        simp only [Option.some.injEq] at h
        subst h
        obtain ⟨h1, h2⟩ := digits_split r'
        refine ⟨0x2e :: a :: (jsDigits r').1, .inr ⟨_, ⟨by simp, ?_⟩, hn, rfl⟩, ?_⟩
        · intro b hb
          rw [List.mem_cons] at hb
          rcases hb with rfl | hb
          · exact (digit_iff _).1 ha
          · exact h2 b hb
        · conv_lhs => rw [h1]
          rfl
      · cases h
    · simp only [Option.some.injEq] at h
      exact ⟨[], .inl rfl, h⟩
  · simp only [Option.some.injEq] at h
    exact ⟨[], .inl rfl, h⟩

theorem zone_head {z : Bytes} (h : Zone z) (r : Bytes) : ∃ c q, z ++ r = c :: q ∧ c ≠ 0x2e ∧ jsDigit c = false := by
  rcases h with rfl | ⟨s, h, m, hs, -, -, rfl⟩
  · exact ⟨_, _, rfl, by decide, by decide⟩
  · refine ⟨s, _, rfl, ?_⟩
    rcases hs with rfl | rfl <;> decide

theorem frac_time_complete {f z r : Bytes} (hf : f = [] ∨ ∃ x, Digits x ∧ decNum x < 10 ^ 9 ∧ f = 0x2e :: x) (hz : Zone z) :
    tmFrac (f ++ (z ++ r)) = some (z ++ r) := by
  obtain ⟨c, q, he, h1, h2⟩ := zone_head hz r
  rw [he]
  rcases hf with rfl | ⟨x, hx, hn, rfl⟩
  · unfold tmFrac
    split
    · rename_i heq
      simp only [List.nil_append, List.cons.injEq] at heq
      exact absurd heq.1 h1
    · rfl
  · match x, hx with
    | [], hx => exact absurd rfl hx.1
    | a :: x, hx =>
      have ha := (digit_iff a).2 (hx.2 a (by simp))
      have hd := digits_take (t := x) (rest := c :: q) (fun b hb => hx.2 b (by simp [hb])) (by
        intro b hb
        rw [List.head?_cons, Option.some.injEq] at hb
        exact hb ▸ h2)
      simp only [List.cons_append]
      unfold tmFrac
      simp only
      rw [if_pos ha, hd]
      exact if_pos hn

theorem daysIn_eq (m y : Nat) (h1 : 1 ≤ m) (h2 : m ≤ 12) : tmDaysIn m y = monthLen y m := by
  have hm : m = 1 ∨ m = 2 ∨ m = 3 ∨ m = 4 ∨ m = 5 ∨ m = 6 ∨ m = 7 ∨ m = 8 ∨ m = 9 ∨ m = 10 ∨ m = 11 ∨ m = 12 := by omega
  unfold tmDaysIn monthLen
  by_cases hl : Leap y
  · have hl' := (isLeap_iff y).2 hl
    rcases hm with rfl | rfl | rfl | rfl | rfl | rfl | rfl | rfl | rfl | rfl | rfl | rfl <;> simp [hl, hl', daysBefore]
  · have hl' : isLeap y = false := by simpa [← isLeap_iff] using hl
    rcases hm with rfl | rfl | rfl | rfl | rfl | rfl | rfl | rfl | rfl | rfl | rfl | rfl <;> simp [hl, hl', daysBefore]

theorem some_bind {α β} {o : Option α} {f : α → Option β} : (o.bind f).isSome = true ↔ ∃ x, o = some x ∧ (f x).isSome = true := by
  cases o <;> simp

theorem some_ite {β} {p : Prop} [Decidable p] {x : Option β} : (if p then none else x).isSome = true ↔ ¬ p ∧ x.isSome = true := by
  split <;> simp_all

end GJ
open Spec.GJ Spec.GH

/-- **C82**: the dates that are accepted. -/
theorem C82_time (raw : Bytes) : goTime raw = true ↔ TimeText raw := by
  unfold goTime
  simp only [GJ.some_bind, GJ.some_ite]
  constructor
  · rintro ⟨⟨y, r1⟩, e1, r2, e2, ⟨mo, r3⟩, e3, g1, r4, e4, ⟨d, r5⟩, e5, r6, e6, ⟨h, r7⟩, e7, g2, r8, e8, ⟨mi, r9⟩, e9, g3, r10, e10, ⟨s, r11⟩, e11, g4,
      r12, e12, r13, e13, r14, e14, g5, g6, -⟩
    simp only at e2 e4 e6 e8 e10 e12 g1 g2 g3 g4 g6
    obtain ⟨y, hy, ly, rfl, k1⟩ := GJ.year_iff.1 e1
    obtain ⟨mo, hmo, lmo, rfl, k3⟩ := GJ.two_iff.1 e3
    obtain ⟨d, hd, ld, rfl, k5⟩ := GJ.two_iff.1 e5
    obtain ⟨h, hh, lh, rfl, k7⟩ := GJ.hour_sound e7
    obtain ⟨mi, hmi, lmi, rfl, k9⟩ := GJ.two_iff.1 e9
    obtain ⟨s, hs, ls, rfl, k11⟩ := GJ.two_iff.1 e11
    obtain ⟨f, hf, e12⟩ := GJ.frac_time_sound e12
    obtain ⟨z, hz, e13⟩ := GJ.zone_iff.1 e13
    have e14 := GJ.skip_iff.1 e14
    rw [GJ.skip_iff] at e2 e4 e6 e8 e10
    have g5 : r14 = [] := Classical.not_not.1 g5
    rw [GJ.daysIn_eq _ _ (by omega) (by omega)] at g6
    refine ⟨y, mo, d, h, mi, s, f, z, ?_, hy, ly, hmo, lmo, hd, ld, hh, lh, hmi, lmi, hs, ls, by omega, by omega, by omega, by omega, by omega,
      by omega, by omega, hf, hz⟩
    rw [e2, k3, e4, k5, e6, k7, e8, k9, e10, k11, e12, e13, e14, g5] at k1
    refine List.append_cancel_right (bs := [0x22]) ?_
    rw [k1]
    simp
  · rintro ⟨y, mo, d, h, mi, s, f, z, rfl, hy, ly, hmo, lmo, hd, ld, hh, lh, hmi, lmi, hs, ls, g1, g1', g6, g6', g2, g3, g4, hf, hz⟩
    refine ⟨_, GJ.year_iff.2 ⟨y, hy, ly, rfl, ?_⟩, _, GJ.skip_iff.2 rfl, _, GJ.two_iff.2 ⟨mo, hmo, lmo, rfl, rfl⟩, by simp only; omega, _, GJ.skip_iff.2 rfl,
      _, GJ.two_iff.2 ⟨d, hd, ld, rfl, rfl⟩, _, GJ.skip_iff.2 rfl, _, GJ.hour_complete (r := mi ++ 0x3a :: (s ++ (f ++ (z ++ [0x22])))) hh lh, by simp only; omega, _, GJ.skip_iff.2 rfl,
      _, GJ.two_iff.2 ⟨mi, hmi, lmi, rfl, rfl⟩, by simp only; omega, _, GJ.skip_iff.2 rfl, _, GJ.two_iff.2 ⟨s, hs, ls, rfl, rfl⟩, by simp only; omega,
      _, GJ.frac_time_complete hf hz, _, GJ.zone_iff.2 ⟨z, hz, rfl⟩, _, GJ.skip_iff.2 rfl, by simp, ?_, rfl⟩
    · simp
    · simp only
      rw [GJ.daysIn_eq _ _ g1 g1']
      omega

/-- **C82**: every date of RFC 3339 with capital `T` and `Z`, without a leap second and with at most nine digits of a fraction is
accepted. -/
theorem C82_rfc3339 (raw : Bytes) (h : RFC3339 raw) : goTime raw = true := by
  rw [C82_time]
  obtain ⟨y, mo, d, h, mi, s, f, z, rfl, hy, ly, hmo, lmo, hd, ld, hh, lh, hmi, lmi, hs, ls, g1, g1', g6, g6', g2, g3, g4, hf, hz⟩ := h
  have small : ∀ x : Bytes, (∀ b ∈ x, Digit b) → ∀ n, x.foldl (fun n b => n * 10 + (b.toNat - 0x30)) n < (n + 1) * 10 ^ x.length := by
    intro x
    induction x with
    | nil => intro _ n; simp
    | cons b x ih =>
      intro hx n
      have hb := (hx b (by simp)).2
      rw [List.foldl_cons, List.length_cons, Nat.pow_succ]
      refine Nat.lt_of_lt_of_le (ih (fun c hc => hx c (by simp [hc])) _) ?_
      rw [← Nat.mul_assoc, Nat.mul_right_comm]
      exact Nat.mul_le_mul_right _ (by omega)
  refine ⟨y, mo, d, h, mi, s, f, z, rfl, hy, ly, hmo, lmo, hd, ld, hh, by omega, hmi, lmi, hs, ls, g1, g1', g6, g6', g2, g3, g4, ?_, ?_⟩
  · rcases hf with rfl | ⟨x, hx, this, rfl⟩
    · exact .inl rfl
    · refine .inr ⟨x, hx, ?_, rfl⟩
      have h1 := small x hx.2 0
      rw [Nat.zero_add, Nat.one_mul] at h1
      exact Nat.lt_of_lt_of_le h1 (Nat.pow_le_pow_right (by omega) this)
  · rcases hz with rfl | ⟨c, zh, zm, hc, h1, l1, h2, l2, -, -, rfl⟩
    · exact .inl rfl
    · have part : ∀ t : Bytes, Digits t → t.length = 2 → OffsetPart t := by
        intro t ht hl
        match t, hl with
        | [a, b], _ => exact ⟨a, b, rfl, .inl (ht.2 a (by simp)), ht.2 b (by simp)⟩
      exact .inr ⟨c, zh, zm, hc, part zh h1 l1, part zm h2 l2, rfl⟩

/-! ## `GetKey` on what the server sends -/

/-- the API with its answers as they arrive: an error of the client or a body -/
def apiServer (profile : Except GHErr Bytes) (resp : Nat → Except GHErr Bytes) : GHServer := ⟨profile, fun n => getInPage goTime (resp n)⟩

/-- what the server sends is a page of keys -/
def Sends (resp : Nat → Except GHErr Bytes) (n : Nat) (ks : List (Option GHKey)) : Prop := ∃ body, resp n = .ok body ∧ Page goTime body ks

theorem sends_iff {profile resp n ks} : (apiServer profile resp).page n = .ok ks ↔ Sends resp n ks := (C81_answer goTime (resp n)).1 ks

/-- the pages before page `n` are full and have only other keys -/
def OthersBefore (U : Unicode) (resp : Nat → Except GHErr Bytes) (id : Str) (n : Nat) : Prop :=
  ∀ i, 1 ≤ i → i < n → ∃ ks, Sends resp i ks ∧ 100 ≤ ks.length ∧ ∀ k ∈ ks, Other U id k

theorem before_of {U profile resp id n} (h : OthersBefore U resp id n) : Before U (apiServer profile resp) id n := by
  intro i h1 h2
  obtain ⟨ks, hs, hl, ho⟩ := h i h1 h2
  exact ⟨ks, sends_iff.2 hs, hl, ho⟩

/-- **C81**: the key is found in the bodies: the first one with the ID, on the first page that has it. -/
theorem C81_found (U : Unicode) (profile : Except GHErr Bytes) (resp : Nat → Except GHErr Bytes) (id : Str) (hid : id ≠ []) (n : Nat) (hn : 1 ≤ n)
    (hb : OthersBefore U resp id n) (pre post : List (Option GHKey)) (k : GHKey) (t : Bytes) (hp : Sends resp n (pre ++ some k :: post))
    (ho : ∀ x ∈ pre, Other U id x) (hk : sameKeyID U k.keyID id = true) (ht : k.rawKey = some t) (fuel : Nat) (hf : n ≤ fuel) :
    getKey U (apiServer profile resp) id fuel = (.ok t, (List.range' 1 n).map GHReq.page) :=
  C44_found U _ id hid n hn (before_of hb) pre post k t (sends_iff.2 hp) ho hk ht fuel hf

/-- **C81**: a body that is no page ends the search with `ErrInvalidRequest`. -/
theorem C81_refused (U : Unicode) (profile : Except GHErr Bytes) (resp : Nat → Except GHErr Bytes) (id : Str) (hid : id ≠ []) (n : Nat) (hn : 1 ≤ n)
    (hb : OthersBefore U resp id n) (body : Bytes) (hr : resp n = .ok body) (hp : ∀ ks, ¬ Page goTime body ks) (fuel : Nat) (hf : n ≤ fuel) :
    getKey U (apiServer profile resp) id fuel = (.err (.request 0), (List.range' 1 n).map GHReq.page) :=
  C44_page_error U _ id hid n hn (before_of hb) _ (((C81_answer goTime (resp n)).2 _).2 (.inr ⟨body, hr, hp, rfl⟩)) fuel hf

/-- **C81**, a defect: an array with `null` before the key makes the program panic. -/
theorem C81_null_panics (U : Unicode) (profile : Except GHErr Bytes) (resp : Nat → Except GHErr Bytes) (id : Str) (hid : id ≠ []) (n : Nat) (hn : 1 ≤ n)
    (hb : OthersBefore U resp id n) (pre post : List (Option GHKey)) (hp : Sends resp n (pre ++ none :: post)) (ho : ∀ x ∈ pre, Other U id x)
    (fuel : Nat) (hf : n ≤ fuel) : getKey U (apiServer profile resp) id fuel = (.panic, (List.range' 1 n).map GHReq.page) :=
  C44_null_panics U _ id hid n hn (before_of hb) pre post (sends_iff.2 hp) ho fuel hf

/-! ## Examples -/

deriving instance DecidableEq for GHKey

namespace GJ

/-- A page as GitHub sends it, shortened: unknown members, an escape, a date, a subkey, and text behind the array. -/
def sample : Bytes := asciiBytes (S " [{\"id\":3,\"key_id\":\"3262EFF25BA0D270\",\"raw_key\":\"a\\n\\u00e9\",\"name\":[1.5e3,{}],\"emails\":[{\"email\":\"o\",\"verified\":true}],\"subkeys\":[{\"id\":4,\"raw_key\":null}],\"created_at\":\"2016-03-24T11:31:04-06:00\"}]]x")

/-- the same with the number of a key as a string -/
def spoiled : Bytes := asciiBytes (S "[{\"key_id\":\"A\",\"raw_key\":\"b\"},{\"id\":\"3\"}]")

def resp (n : Nat) : Except GHErr Bytes := if n = 1 then .ok sample else if n = 2 then .ok spoiled else if n = 3 then .ok (asciiBytes (S "[null]")) else .error .noKey

end GJ

theorem C81_example :
    pageKeys goTime GJ.sample = some [some ⟨S "3262EFF25BA0D270", some [0x61, 0x0a, 0xc3, 0xa9]⟩] ∧
    pageKeys goTime GJ.spoiled = none ∧ pageKeys goTime (asciiBytes (S "[null]")) = some [none] ∧ pageKeys goTime (asciiBytes (S "nullx")) = some [] ∧
    pageKeys goTime (asciiBytes (S "{}")) = none ∧ pageKeys goTime (asciiBytes (S "[{\"KEY_ID\":\"a\",\"Key_Id\":null}]")) = some [some ⟨S "a", none⟩] ∧
    pageKeys goTime (asciiBytes (S "[{\"created_at\":\"2016-02-30T11:31:04Z\"}]")) = none := by
  decide +kernel

theorem C81_example_found : getKey ⟨asciiLower, asciiLower⟩ (apiServer (.error .noKey) GJ.resp) (S "0x3262eff25ba0d270") 1 =
    (.ok [0x61, 0x0a, 0xc3, 0xa9], [.page 1]) :=
  C81_found _ _ _ _ (by decide) 1 (by decide) (fun i h1 h2 => by omega) [] [] ⟨S "3262EFF25BA0D270", some [0x61, 0x0a, 0xc3, 0xa9]⟩ _
    ⟨GJ.sample, if_pos rfl, (C81_page _ _ _).1 C81_example.1⟩ (by simp) (by decide +kernel) rfl 1 (by decide)

theorem C82_example : goTime (asciiBytes (S "2016-02-29T1:31:04.000000000000000000005+-6:+3")) = true ∧
    goTime (asciiBytes (S "2016-03-24T11:31:60Z")) = false ∧ goTime (asciiBytes (S "2015-02-29T11:31:04Z")) = false ∧
    goTime (asciiBytes (S "2016-03-24t11:31:04z")) = false ∧ goTime (asciiBytes (S "2016-03-24T11:31:04.1234567890Z")) = false ∧
    goTime (asciiBytes (S "2016-03-24T11:31:04+99:99")) = true := by
  decide +kernel

theorem C81_example_refused : getKey ⟨asciiLower, asciiLower⟩ (apiServer (.error .noKey) fun n => GJ.resp (n + 1)) (S "a") 1 = (.err (.request 0), [.page 1]) :=
  C81_refused _ _ _ _ (by decide) 1 (by decide) (fun i h1 h2 => by omega) GJ.spoiled ((if_neg (by decide)).trans (if_pos rfl))
    (fun ks h => nomatch C81_example.2.1.symm.trans ((C81_page _ _ _).2 h)) 1 (by decide)

theorem C81_example_panics : getKey ⟨asciiLower, asciiLower⟩ (apiServer (.error .noKey) fun n => GJ.resp (n + 2)) (S "a") 1 = (.panic, [.page 1]) :=
  C81_null_panics _ _ _ _ (by decide) 1 (by decide) (fun i h1 h2 => by omega) [] []
    ⟨_, ((if_neg (by decide)).trans (if_neg (by decide))).trans (if_pos rfl), (C81_page _ _ _).1 C81_example.2.2.1⟩ (by simp) 1 (by decide)

example (T : Bytes → Bool) := C81_rest T [0x20] [0x5b, 0x74, 0x72, 0x75, 0x65, 0x5d] [.bool true] (by simp [Ws])
  (.arr (.one (a := []) (b := []) (by simp [Ws]) .true (by simp [Ws]))) [0x5d] []
example (T : Bytes → Bool) := C81_spoiled T [0x20] [0x5b, 0x74, 0x72, 0x75, 0x65, 0x5d] [0x5d] [.bool true] (by simp [Ws])
  (.arr (.one (a := []) (b := []) (by simp [Ws]) .true (by simp [Ws]))) (.bool true) (by simp) (fun h => nomatch h)
example : Denotes [0x5c, 0x6e, 0xc3, 0xa9] ['\n', 'é'] := C81_string (.escape .n (.plain 'é' (by decide) (by decide) (by decide) .nil))
example : goTime (asciiBytes (S "2016-03-24T11:31:04.5-06:30")) = true :=
  C82_rfc3339 _ ⟨[0x32, 0x30, 0x31, 0x36], [0x30, 0x33], [0x32, 0x34], [0x31, 0x31], [0x33, 0x31], [0x30, 0x34], [0x2e, 0x35],
    [0x2d, 0x30, 0x36, 0x3a, 0x33, 0x30], by decide, ⟨by decide, by simp [Digit]⟩, rfl, ⟨by decide, by simp [Digit]⟩, rfl, ⟨by decide, by simp [Digit]⟩, rfl,
    ⟨by decide, by simp [Digit]⟩, rfl, ⟨by decide, by simp [Digit]⟩, rfl, ⟨by decide, by simp [Digit]⟩, rfl, by decide, by decide, by decide, by decide,
    by decide, by decide, by decide, .inr ⟨[0x35], ⟨by decide, by simp [Digit]⟩, by decide, rfl⟩,
    .inr ⟨0x2d, [0x30, 0x36], [0x33, 0x30], .inr rfl, ⟨by decide, by simp [Digit]⟩, rfl, ⟨by decide, by simp [Digit]⟩, rfl, by decide, by decide, rfl⟩⟩

end Gpgpdump
