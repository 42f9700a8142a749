import Verif.SpecCmdLine

/-! # Lemmas for C83: numbers, switches and flags -/

namespace Gpgpdump
open Spec.CL

theorem text_eq (s : String) : text s = O s := rfl

/-! ## Numbers -/

theorem lower_toNat : ∀ c : UInt8, (scLower c).toNat = if c.toNat / 32 % 2 = 0 then c.toNat + 32 else c.toNat := by
  intro c
  have h : ∀ n : Fin 256, (scLower (UInt8.ofNat n.val)).toNat = if n.val / 32 % 2 = 0 then n.val + 32 else n.val := by decide +kernel
  have := h ⟨c.toNat, c.toNat_lt⟩
  simpa using this

theorem scDigit_iff (c : UInt8) (d : Nat) : scDigit c = some d ↔ Digit c d := by
  have h : ∀ n : Fin 256, ∀ d : Fin 37, scDigit (UInt8.ofNat n.val) = some d.val ↔
      ((0x30 ≤ n.val ∧ n.val ≤ 0x39 ∧ n.val = 0x30 + d.val) ∨ (0x61 ≤ n.val ∧ n.val ≤ 0x7a ∧ n.val + 10 = 0x61 + d.val) ∨
        (0x41 ≤ n.val ∧ n.val ≤ 0x5a ∧ n.val + 10 = 0x41 + d.val)) := by decide +kernel
  have hb : ∀ n : Fin 256, ∀ d, scDigit (UInt8.ofNat n.val) = some d → d < 37 := by
    have : ∀ n : Fin 256, ((scDigit (UInt8.ofNat n.val)).getD 0) < 37 := by decide +kernel
    intro n d hd
    have := this n
    rw [hd] at this
    exact this
  by_cases hd : d < 37
  · have := h ⟨c.toNat, c.toNat_lt⟩ ⟨d, hd⟩
    simpa [Digit] using this
  · constructor
    · intro e
      have := hb ⟨c.toNat, c.toNat_lt⟩ d (by simpa using e)
      exact absurd this hd
    · intro e
      rcases e with e | e | e <;> omega

theorem digit_code_ne {c d} (h : Digit c d) : c ≠ 0x5f := by
  rintro rfl
  have e : (0x5f : UInt8).toNat = 0x5f := rfl
  rcases h with h | h | h <;> rw [e] at h <;> omega

theorem digits_loop {b t k n} (h : Digits b t k n) : ∀ a, scLoop b a t = some (a * b ^ k + n) := by
  induction h with
  | one hd hb =>
    intro a
    simp only [scLoop, if_neg (digit_code_ne hd), (scDigit_iff _ _).2 hd, if_neg (Nat.not_le.2 hb), Nat.pow_one]
  | more hd hb _ ih =>
    intro a
    rw [scLoop, if_neg (digit_code_ne hd), (scDigit_iff _ _).2 hd]
    simp only [if_neg (Nat.not_le.2 hb)]
    rw [ih, Nat.pow_succ, Nat.add_mul, Nat.mul_assoc, Nat.add_assoc, Nat.mul_comm b]
  | sep hd hb _ ih =>
    intro a
    rw [scLoop, if_neg (digit_code_ne hd), (scDigit_iff _ _).2 hd]
    simp only [if_neg (Nat.not_le.2 hb)]
    rw [scLoop, if_pos rfl, ih, Nat.pow_succ, Nat.add_mul, Nat.mul_assoc, Nat.add_assoc, Nat.mul_comm b]

theorem digits_under {b t k n} (h : Digits b t k n) : ∀ x y, scUnder x y t = true := by
  induction h with
  | one hd _ => intro x y; simp [scUnder, digit_code_ne hd]
  | more hd _ _ ih => intro x y; rw [scUnder, if_neg (digit_code_ne hd)]; exact ih _ _
  | sep hd _ _ ih => intro x y; rw [scUnder, if_neg (digit_code_ne hd), scUnder, if_pos rfl]; exact ih _ _

theorem digits_ne {b t k n} (h : Digits b t k n) : t ≠ [] := by cases h <;> simp

/-- what the loop and the check of underscores accept behind a digit or at the front -/
theorem loop_digits {b : Nat} : ∀ {m : Nat} {t : Bytes}, t.length < m → t ≠ [] → ∀ {a r}, scLoop b a t = some r →
    (t.contains 0x5f = false ∨ scUnder false true t = true) → ∃ k n, Digits b t k n ∧ r = a * b ^ k + n := by
  intro m
  induction m with
  | zero => intro t h; exact absurd h (Nat.not_lt_zero _)
  | succ m ih =>
    intro t hm hne a r h hu
    cases t with
    | nil => exact absurd rfl hne
    | cons c t =>
      have hc : c ≠ 0x5f := by
        rintro rfl
        rcases hu with hu | hu
        · simp at hu
        · rw [scUnder, if_pos rfl] at hu; simp at hu
      rw [scLoop, if_neg hc] at h
      cases hd : scDigit c with
      | none => rw [hd] at h; exact nomatch h
      | some d =>
        rw [hd] at h
        simp only at h
        by_cases hb : b ≤ d
        · rw [if_pos hb] at h; exact nomatch h
        · rw [if_neg hb] at h
          have hD := (scDigit_iff _ _).1 hd
          have hb' := Nat.lt_of_not_le hb
          cases t with
          | nil => simp only [scLoop, Option.some.injEq] at h; exact ⟨1, d, .one hD hb', by rw [Nat.pow_one]; exact h.symm⟩
          | cons x t =>
            by_cases hx : x = 0x5f
            · subst hx
              rw [scLoop, if_pos rfl] at h
              have hu' : scUnder false false t = true := by
                rcases hu with hu | hu
                · simp at hu
                · rw [scUnder, if_neg hc, scUnder, if_pos rfl] at hu; simpa using hu
              have htne : t ≠ [] := by rintro rfl; simp [scUnder] at hu'
              have hu2 : scUnder false true t = true := by
                cases t with
                | nil => exact absurd rfl htne
                | cons y t => simpa [scUnder] using hu'
              obtain ⟨k, n, hk, e⟩ := ih (by simp only [List.length_cons] at hm ⊢; omega) htne h (Or.inr hu2)
              exact ⟨k + 1, _, .sep hD hb' hk, by rw [e, Nat.pow_succ, Nat.add_mul, Nat.mul_assoc, Nat.add_assoc, Nat.mul_comm b]⟩
            · have hu' : (x :: t).contains 0x5f = false ∨ scUnder false true (x :: t) = true := by
                rcases hu with hu | hu
                · exact Or.inl (by simp only [List.contains_cons, Bool.or_eq_false_iff] at hu ⊢; exact hu.2)
                · rw [scUnder, if_neg hc] at hu
                  refine Or.inr ?_
                  rw [scUnder, if_neg hx] at hu ⊢
                  exact hu
              obtain ⟨k, n, hk, e⟩ := ih (by simp only [List.length_cons] at hm ⊢; omega) (by simp) h hu'
              exact ⟨k + 1, _, .more hD hb' hk, by rw [e, Nat.pow_succ, Nat.add_mul, Nat.mul_assoc, Nat.add_assoc, Nat.mul_comm b]⟩

/-- what stands behind a base prefix: digits, perhaps with an underscore in front -/
theorem behind_iff {b : Nat} {t : Bytes} (ht : t ≠ []) (n : Nat) :
    (scLoop b 0 t = some n ∧ (t.contains 0x5f && !scUnder true false t) = false) ↔
      ∃ k, Digits b t k n ∨ ∃ u, t = 0x5f :: u ∧ Digits b u k n := by
  constructor
  · rintro ⟨h, hu⟩
    cases t with
    | nil => exact absurd rfl ht
    | cons c t =>
      by_cases hc : c = 0x5f
      · subst hc
        have hu' : scUnder false false t = true := by
          simp only [List.contains_cons, beq_self_eq_true, Bool.true_or, Bool.true_and, Bool.not_eq_false', scUnder, if_pos] at hu
          exact hu
        rw [scLoop, if_pos rfl] at h
        have htne : t ≠ [] := by rintro rfl; simp [scUnder] at hu'
        have hu2 : scUnder false true t = true := by
          cases t with
          | nil => exact absurd rfl htne
          | cons y t => simpa [scUnder] using hu'
        obtain ⟨k, m, hk, e⟩ := loop_digits (Nat.lt_succ_self _) htne h (Or.inr hu2)
        rw [Nat.zero_mul, Nat.zero_add] at e
        exact ⟨k, Or.inr ⟨t, rfl, e ▸ hk⟩⟩
      · have hu2 : (c :: t).contains 0x5f = false ∨ scUnder false true (c :: t) = true := by
          rw [Bool.and_eq_false_iff] at hu
          rcases hu with hu | hu
          · exact Or.inl hu
          · refine Or.inr ?_
            rw [scUnder, if_neg hc] at hu ⊢
            simpa using hu
        obtain ⟨k, m, hk, e⟩ := loop_digits (Nat.lt_succ_self _) ht h hu2
        rw [Nat.zero_mul, Nat.zero_add] at e
        exact ⟨k, Or.inl (e ▸ hk)⟩
  · rintro ⟨k, h | ⟨u, rfl, h⟩⟩
    · refine ⟨by rw [digits_loop h]; simp, ?_⟩
      rw [digits_under h]; simp
    · refine ⟨by rw [scLoop, if_pos rfl, digits_loop h]; simp, ?_⟩
      rw [scUnder, if_pos rfl, digits_under h]; simp

theorem lower_cases (b x : UInt8) (hx : x ∈ [0x62, 0x6f, 0x78]) : scLower b = x ↔ b = x ∨ b = x - 32 := by
  have h : ∀ n : Fin 256, ∀ y ∈ [(0x62 : UInt8), 0x6f, 0x78], scLower (UInt8.ofNat n.val) = y ↔ (UInt8.ofNat n.val) = y ∨ (UInt8.ofNat n.val) = y - 32 := by
    decide +kernel
  have := h ⟨b.toNat, b.toNat_lt⟩ x hx
  simpa using this

theorem uintEnd_some {b t f n} : uintEnd b t f = some n ↔ scLoop b 0 t = some n ∧ (t.contains 0x5f && !scUnder f (!f) t) = false := by
  rw [uintEnd]
  cases h : scLoop b 0 t with
  | none => simp
  | some m =>
    simp only [Option.some.injEq]
    cases hc : (t.contains 0x5f && !scUnder f (!f) t) <;> simp

theorem uint_ten {s : Bytes} (hs : s ≠ []) (h : s.head? ≠ some 0x30) : scUint s = uintEnd 10 s false := by
  match s, hs, h with
  | [a], _, h =>
    have ha : a ≠ 0x30 := fun e => h (by rw [e]; rfl)
    simp [scUint, ha]
  | [a, b], _, h =>
    have ha : a ≠ 0x30 := fun e => h (by rw [e]; rfl)
    simp [scUint, ha]
  | a :: b :: c :: r, _, h =>
    have ha : a ≠ 0x30 := fun e => h (by rw [e]; rfl)
    simp [scUint, ha]

/-- a base prefix -/
def Prefixed (t : Bytes) : Prop := ∃ p c r, t = p :: c :: r ∧ scLower p ∈ [(0x62 : UInt8), 0x6f, 0x78]

theorem uint_oct {t : Bytes} (h : ¬ Prefixed t) : scUint (0x30 :: t) = uintEnd 8 t true := by
  match t, h with
  | [], _ => rfl
  | [b], _ => simp [scUint]
  | b :: c :: r, h =>
    have hb : scLower b ∉ [(0x62 : UInt8), 0x6f, 0x78] := fun e => h ⟨b, c, r, rfl, e⟩
    simp only [List.mem_cons, List.not_mem_nil, or_false, not_or] at hb
    simp [scUint, hb]

theorem uint_base {x : UInt8} {b : Nat} {t : Bytes} (ht : t ≠ []) (hb : (scLower x, b) ∈ [((0x62 : UInt8), 2), (0x6f, 8), (0x78, 16)]) :
    scUint (0x30 :: x :: t) = uintEnd b t true := by
  match t, ht with
  | c :: r, _ =>
    simp only [List.mem_cons, Prod.mk.injEq, List.not_mem_nil, or_false] at hb
    rcases hb with ⟨h, rfl⟩ | ⟨h, rfl⟩ | ⟨h, rfl⟩ <;> simp [scUint, h]

theorem bases_iff (x : UInt8) (b : Nat) :
    (scLower x, b) ∈ [((0x62 : UInt8), 2), (0x6f, 8), (0x78, 16)] ↔ ∃ p, (p, b) ∈ bases ∧ x = UInt8.ofNat p.toNat := by
  constructor
  · intro h
    simp only [List.mem_cons, Prod.mk.injEq, List.not_mem_nil, or_false] at h
    rcases h with ⟨h, rfl⟩ | ⟨h, rfl⟩ | ⟨h, rfl⟩
    · rcases (lower_cases x 0x62 (by simp)).1 h with rfl | rfl
      · exact ⟨'b', by simp [bases], rfl⟩
      · exact ⟨'B', by simp [bases], rfl⟩
    · rcases (lower_cases x 0x6f (by simp)).1 h with rfl | rfl
      · exact ⟨'o', by simp [bases], rfl⟩
      · exact ⟨'O', by simp [bases], rfl⟩
    · rcases (lower_cases x 0x78 (by simp)).1 h with rfl | rfl
      · exact ⟨'x', by simp [bases], rfl⟩
      · exact ⟨'X', by simp [bases], rfl⟩
  · rintro ⟨p, hp, rfl⟩
    simp only [bases, List.mem_cons, Prod.mk.injEq, List.not_mem_nil, or_false] at hp
    rcases hp with ⟨rfl, rfl⟩ | ⟨rfl, rfl⟩ | ⟨rfl, rfl⟩ | ⟨rfl, rfl⟩ | ⟨rfl, rfl⟩ | ⟨rfl, rfl⟩ <;> decide

theorem digits_not_prefixed {t k n} (h : Digits 8 t k n) : ¬ Prefixed t := by
  rintro ⟨p, c, r, rfl, hp⟩
  have hd : ∃ d, Digit p d ∧ d < 8 := by
    cases h with
    | more h1 h2 _ => exact ⟨_, h1, h2⟩
    | sep h1 h2 _ => exact ⟨_, h1, h2⟩
  obtain ⟨d, h1, h2⟩ := hd
  have h3 := (scDigit_iff _ _).2 h1
  simp only [List.mem_cons, List.not_mem_nil, or_false] at hp
  have hk : scDigit p = some 11 ∨ scDigit p = some 24 ∨ scDigit p = some 33 := by
    rcases hp with hp | hp | hp
    · rcases (lower_cases p 0x62 (by simp)).1 hp with rfl | rfl <;> decide
    · rcases (lower_cases p 0x6f (by simp)).1 hp with rfl | rfl <;> decide
    · rcases (lower_cases p 0x78 (by simp)).1 hp with rfl | rfl <;> decide
  rw [h3] at hk
  simp only [Option.some.injEq] at hk
  omega

theorem behind_end {b : Nat} {t : Bytes} (ht : t ≠ []) (n : Nat) :
    uintEnd b t true = some n ↔ ∃ k, Digits b t k n ∨ ∃ u, t = 0x5f :: u ∧ Digits b u k n := by
  rw [uintEnd_some]
  exact behind_iff ht n

theorem scUint_iff (s : Bytes) (n : Nat) : scUint s = some n ↔ Natural s n := by
  constructor
  · intro h
    match s with
    | [] => simp [scUint] at h
    | a :: t =>
      by_cases ha : a = 0x30
      · subst ha
        by_cases hp : Prefixed t
        · obtain ⟨p, c, r, rfl, hp⟩ := hp
          have hb : ∃ b, (scLower p, b) ∈ [((0x62 : UInt8), 2), (0x6f, 8), (0x78, 16)] := by
            simp only [List.mem_cons, List.not_mem_nil, or_false] at hp
            rcases hp with hp | hp | hp
            · exact ⟨2, by simp [hp]⟩
            · exact ⟨8, by simp [hp]⟩
            · exact ⟨16, by simp [hp]⟩
          obtain ⟨b, hb⟩ := hb
          rw [uint_base (by simp) hb, behind_end (by simp)] at h
          obtain ⟨q, hq, rfl⟩ := (bases_iff _ _).1 hb
          obtain ⟨k, h | ⟨u, e, h⟩⟩ := h
          · exact .base hq h
          · rw [e]; exact .baseSep hq h
        · rw [uint_oct hp] at h
          by_cases ht : t = []
          · subst ht
            have : n = 0 := by
              have : uintEnd 8 [] true = some 0 := rfl
              rw [this] at h
              exact (Option.some.inj h).symm
            subst this
            exact .zero
          · rw [behind_end ht] at h
            obtain ⟨k, h | ⟨u, rfl, h⟩⟩ := h
            · exact .oct h
            · exact .octSep h
      · have hh : (a :: t).head? ≠ some 0x30 := by simpa using ha
        rw [uint_ten (by simp) hh, uintEnd_some] at h
        have hu : (a :: t).contains 0x5f = false ∨ scUnder false true (a :: t) = true := by
          have := h.2
          rw [Bool.and_eq_false_iff] at this
          rcases this with h' | h'
          · exact Or.inl h'
          · exact Or.inr (by simpa using h')
        obtain ⟨k, m, hk, e⟩ := loop_digits (Nat.lt_succ_self _) (by simp) h.1 hu
        rw [Nat.zero_mul, Nat.zero_add] at e
        exact .dec hh (e ▸ hk)
  · intro h
    cases h with
    | zero => rfl
    | dec hh hd =>
      rw [uint_ten (digits_ne hd) hh, uintEnd_some]
      refine ⟨by rw [digits_loop hd]; simp, ?_⟩
      rw [digits_under hd]; simp
    | @oct t k n hd =>
      show scUint (0x30 :: t) = _
      rw [uint_oct (digits_not_prefixed hd)]
      exact (behind_end (digits_ne hd) _).2 ⟨_, Or.inl hd⟩
    | @octSep t k n hd =>
      show scUint (0x30 :: 0x5f :: t) = _
      rw [uint_oct (t := 0x5f :: t)]
      · exact (behind_end (by simp) _).2 ⟨_, Or.inr ⟨_, rfl, hd⟩⟩
      · rintro ⟨p, c, r, e, hp⟩
        cases e
        exact absurd hp (by decide)
    | base hp hd =>
      rw [show (text "0" : Bytes) = [0x30] from rfl, List.singleton_append, uint_base (digits_ne hd) ((bases_iff _ _).2 ⟨_, hp, rfl⟩)]
      exact (behind_end (digits_ne hd) _).2 ⟨_, Or.inl hd⟩
    | baseSep hp hd =>
      rw [show (text "0" : Bytes) = [0x30] from rfl, List.singleton_append, uint_base (by simp) ((bases_iff _ _).2 ⟨_, hp, rfl⟩)]
      exact (behind_end (by simp) _).2 ⟨_, Or.inr ⟨_, rfl, hd⟩⟩

theorem natural_head {t n} (h : Natural t n) : ∃ c r, t = c :: r ∧ c ≠ 0x2d ∧ c ≠ 0x2b := by
  have dig : ∀ {b t k n}, Digits b t k n → ∃ c r, t = c :: r ∧ c ≠ 0x2d ∧ c ≠ 0x2b := by
    intro b t k n h
    have key : ∀ {c d}, Digit c d → c ≠ 0x2d ∧ c ≠ 0x2b := by
      intro c d hd
      constructor
      · rintro rfl
        have := (scDigit_iff _ _).2 hd
        rw [show scDigit 0x2d = none by decide] at this
        exact nomatch this
      · rintro rfl
        have := (scDigit_iff _ _).2 hd
        rw [show scDigit 0x2b = none by decide] at this
        exact nomatch this
    cases h with
    | one hd _ => exact ⟨_, _, rfl, key hd⟩
    | more hd _ _ => exact ⟨_, _, rfl, key hd⟩
    | sep hd _ _ => exact ⟨_, _, rfl, key hd⟩
  cases h with
  | dec _ hd => exact dig hd
  | _ => exact ⟨_, _, rfl, by decide, by decide⟩

theorem scInt_iff (s : Bytes) (n : Int) : scInt s = some n ↔ Integer s n := by
  constructor
  · intro h
    match s with
    | [] => simp [scInt] at h
    | c :: r =>
      rw [scInt] at h
      by_cases h1 : c = 0x2d
      · subst h1
        rw [if_pos rfl] at h
        cases hu : scUint r with
        | none => rw [hu] at h; exact nomatch h
        | some m =>
          rw [hu] at h
          simp only [Option.bind_some] at h
          by_cases hm : m ≤ 2 ^ 63
          · rw [if_pos hm] at h
            cases h
            exact .minus ((scUint_iff _ _).1 hu) hm
          · rw [if_neg hm] at h; exact nomatch h
      · rw [if_neg h1] at h
        cases hu : scUint (if c = 0x2b then r else c :: r) with
        | none => rw [hu] at h; exact nomatch h
        | some m =>
          rw [hu] at h
          simp only [Option.bind_some] at h
          by_cases hm : m < 2 ^ 63
          · rw [if_pos hm] at h
            cases h
            by_cases h2 : c = 0x2b
            · subst h2
              rw [if_pos rfl] at hu
              exact .plus ((scUint_iff _ _).1 hu) hm
            · rw [if_neg h2] at hu
              exact .plain ((scUint_iff _ _).1 hu) hm
          · rw [if_neg hm] at h; exact nomatch h
  · intro h
    cases h with
    | plain ht hn =>
      obtain ⟨c, r, rfl, h1, h2⟩ := natural_head ht
      rw [scInt, if_neg h1, if_neg h2, (scUint_iff _ _).2 ht, Option.bind_some, if_pos hn]
    | plus ht hn =>
      rw [show (text "+" : Bytes) = [0x2b] from rfl, List.singleton_append, scInt, if_neg (by decide), if_pos rfl, (scUint_iff _ _).2 ht, Option.bind_some, if_pos hn]
    | minus ht hn =>
      rw [show (text "-" : Bytes) = [0x2d] from rfl, List.singleton_append, scInt, if_pos rfl, (scUint_iff _ _).2 ht, Option.bind_some, if_pos hn]

theorem scBool_iff (s : Bytes) (b : Bool) : scBool s = some b ↔ Switch s b := by
  have hd : ∀ x ∈ [O "0", O "f", O "F", O "false", O "FALSE", O "False"], x ∉ [O "1", O "t", O "T", O "true", O "TRUE", O "True"] := by decide +kernel
  show _ ↔ (b = true ∧ s ∈ [O "1", O "t", O "T", O "true", O "TRUE", O "True"]) ∨ (b = false ∧ s ∈ [O "0", O "f", O "F", O "false", O "FALSE", O "False"])
  rw [scBool]
  by_cases h1 : s ∈ [O "1", O "t", O "T", O "true", O "TRUE", O "True"]
  · rw [if_pos h1]
    constructor
    · intro h; exact Or.inl ⟨(Option.some.inj h).symm, h1⟩
    · rintro (⟨rfl, _⟩ | ⟨_, h⟩)
      · rfl
      · exact absurd h1 (hd _ h)
  · rw [if_neg h1]
    by_cases h2 : s ∈ [O "0", O "f", O "F", O "false", O "FALSE", O "False"]
    · rw [if_pos h2]
      constructor
      · intro h; exact Or.inr ⟨(Option.some.inj h).symm, h2⟩
      · rintro (⟨_, h⟩ | ⟨rfl, _⟩)
        · exact absurd h h1
        · rfl
    · rw [if_neg h2]
      constructor
      · intro h; exact nomatch h
      · rintro (⟨_, h⟩ | ⟨_, h⟩)
        · exact absurd h h1
        · exact absurd h h2

theorem pfSet_iff (f : Flag) (v : Bytes) : pfSet f v = true ↔ Fits f.type v := by
  rw [pfSet]
  cases f.type with
  | bool =>
    simp only [Option.isSome_iff_exists, Fits, scBool_iff]
  | int => simp only [Option.isSome_iff_exists, Fits, scInt_iff]
  | string => simp [Fits]

/-! ## Flags -/

/-- what is used of a list of flags -/
structure Ordinary (F : List Flag) : Prop where
  names : ∀ f ∈ F, ∀ g ∈ F, f.name = g.name → f = g
  shorts : ∀ f ∈ F, ∀ g ∈ F, ∀ c, f.short = some c → g.short = some c → f = g
  name : ∀ f ∈ F, f.name ≠ [] ∧ f.name.head? ≠ some 0x2d ∧ 0x3d ∉ f.name
  letter : ∀ f ∈ F, f.short ≠ some 0x74 ∧ f.short ≠ some 0x3d ∧ f.short ≠ some 0x2d

theorem flagsOf_ordinary (c : CmdName) : Ordinary (flagsOf c) := by
  constructor
  · have : ∀ f ∈ flagsOf c, ∀ g ∈ flagsOf c, f.name = g.name → f = g := by cases c <;> decide +kernel
    exact this
  · have : ∀ f ∈ flagsOf c, ∀ g ∈ flagsOf c, f.short = none ∨ f.short ≠ g.short ∨ f = g := by cases c <;> decide +kernel
    intro f hf g hg x h1 h2
    rcases this f hf g hg with h | h | h
    · rw [h1] at h; exact nomatch h
    · exact absurd (h1.trans h2.symm) h
    · exact h
  · have : ∀ f ∈ flagsOf c, f.name ≠ [] ∧ f.name.head? ≠ some 0x2d ∧ 0x3d ∉ f.name := by cases c <;> decide +kernel
    exact this
  · have : ∀ f ∈ flagsOf c, f.short ≠ some 0x74 ∧ f.short ≠ some 0x3d ∧ f.short ≠ some 0x2d := by cases c <;> decide +kernel
    exact this

theorem flags_mem (c : CmdName) (f : Flag) : f ∈ flagsOf c ↔ f ∈ flags c := by
  have h1 : ∀ f ∈ flagsOf c, f ∈ flags c := by cases c <;> decide +kernel
  have h2 : ∀ f ∈ flags c, f ∈ flagsOf c := by cases c <;> decide +kernel
  exact ⟨h1 f, h2 f⟩

section
variable {F : List Flag} (hF : Ordinary F)
include hF

theorem find_name {f : Flag} (h : f ∈ F) : F.find? (fun g => g.name == f.name) = some f := by
  cases e : F.find? (fun g => g.name == f.name) with
  | none => have := List.find?_eq_none.1 e f h; simp at this
  | some g =>
    have h1 := List.find?_some e
    exact congrArg some (hF.names g (List.mem_of_find?_eq_some e) f h (by simpa using h1))

theorem find_short {f : Flag} {c} (h : f ∈ F) (hc : f.short = some c) : F.find? (fun g => g.short == some c) = some f := by
  cases e : F.find? (fun g => g.short == some c) with
  | none => have := List.find?_eq_none.1 e f h; simp [hc] at this
  | some g =>
    have h1 := List.find?_some e
    exact congrArg some (hF.shorts g (List.mem_of_find?_eq_some e) f h c (by simpa using h1) hc)
end

theorem assign_some {f v r x} : pfAssign f v r = some x ↔ Fits f.type v ∧ x = ((f, v), r) := by
  rw [pfAssign]
  by_cases h : pfSet f v = true
  · rw [if_pos h]
    exact ⟨fun e => ⟨(pfSet_iff _ _).1 h, (Option.some.inj e).symm⟩, fun e => by rw [e.2]⟩
  · rw [if_neg h]
    exact ⟨fun e => (nomatch e), fun e => absurd ((pfSet_iff _ _).2 e.1) h⟩

theorem fits_true {f : Flag} (h : f.type = .bool) : Fits f.type (text "true") := by
  rw [h]; exact ⟨true, Or.inl ⟨rfl, by decide +kernel⟩⟩

end Gpgpdump
