import Verif.SpecGithub
import Verif.ThmJson
import Verif.DisplayRows

/-!
# C81, first part: the scanner accepts exactly the JSON values, and delimits them
-/

namespace Gpgpdump
open Spec
namespace GJ
open Spec.GJ

theorem mem_takeWhile {p : UInt8 → Bool} {b : UInt8} : ∀ {d : Bytes}, b ∈ d.takeWhile p → p b = true := by
  intro d
  induction d with
  | nil => intro h; simp at h
  | cons c d ih =>
    intro h
    rw [List.takeWhile_cons] at h
    split at h
    · rename_i hc
      rw [List.mem_cons] at h
      rcases h with rfl | h
      · exact hc
      · exact ih h
    · simp at h

theorem space_iff (b : UInt8) : jsSpace b = true ↔ b = 0x20 ∨ b = 0x09 ∨ b = 0x0a ∨ b = 0x0d := by
  simp only [jsSpace, Bool.or_eq_true, decide_eq_true_eq]
  constructor
  · rintro (((h | h) | h) | h) <;> simp [h]
  · rintro (h | h | h | h) <;> simp [h]

theorem skip_sound (d : Bytes) : ∃ w, Ws w ∧ d = w ++ jsSkip d :=
  ⟨d.takeWhile jsSpace, fun b hb => (space_iff b).1 (mem_takeWhile hb), (List.takeWhile_append_dropWhile).symm⟩

/-- the octet at the front is not white space -/
def Black (d : Bytes) : Prop := ∃ c r, d = c :: r ∧ jsSpace c = false

theorem skip_ws {w d : Bytes} (hw : Ws w) (hd : Black d) : jsSkip (w ++ d) = d := by
  obtain ⟨c, r, rfl, hc⟩ := hd
  induction w with
  | nil => simp [jsSkip, hc]
  | cons b w ih =>
    have hb := (space_iff b).2 (hw b (by simp))
    have := ih fun x hx => hw x (by simp [hx])
    simpa [jsSkip, List.dropWhile_cons, hb] using this

theorem Black.append {d e : Bytes} (h : Black d) : Black (d ++ e) := by
  obtain ⟨c, r, rfl, hc⟩ := h
  exact ⟨c, r ++ e, rfl, hc⟩

theorem digit_iff (b : UInt8) : jsDigit b = true ↔ Digit b := by
  simp [jsDigit, Digit, UInt8.le_iff_toNat_le]

theorem hex_of {b : UInt8} (h : jsHex b = true) : Hex b (jsHexVal b) := by
  revert h
  refine byOctet (p := fun b => jsHex b = true → Hex b (jsHexVal b)) ?_ b
  unfold Hex
  decide +kernel

theorem hex_to {b : UInt8} {n : Nat} (h : Hex b n) : jsHex b = true ∧ jsHexVal b = n := by
  unfold Hex at h
  have h1 : jsHex b = true := by
    simp only [jsHex, Bool.or_eq_true, Bool.and_eq_true, decide_eq_true_eq, UInt8.le_iff_toNat_le]
    rcases h with h | h | h
    · left; left; exact ⟨h.1, h.2.1⟩
    · right; exact ⟨h.1, h.2.1⟩
    · left; right; exact ⟨h.1, h.2.1⟩
  refine ⟨h1, ?_⟩
  have := hex_of h1
  unfold Hex at this
  omega

theorem hex4_of {a b c d : UInt8} (h : (jsHex a && jsHex b && jsHex c && jsHex d) = true) : Hex4 [a, b, c, d] (jsHex4 a b c d) := by
  simp only [Bool.and_eq_true] at h
  exact .mk (hex_of h.1.1.1) (hex_of h.1.1.2) (hex_of h.1.2) (hex_of h.2)

theorem hex4_to {x : Bytes} {n : Nat} (h : Hex4 x n) :
    ∃ a b c d, x = [a, b, c, d] ∧ (jsHex a && jsHex b && jsHex c && jsHex d) = true ∧ jsHex4 a b c d = n := by
  cases h with
  | mk ha hb hc hd =>
    refine ⟨_, _, _, _, rfl, ?_, ?_⟩
    · simp [hex_to ha, hex_to hb, hex_to hc, hex_to hd]
    · simp [jsHex4, hex_to ha, hex_to hb, hex_to hc, hex_to hd]

theorem esc_of {e : UInt8} (h : jsEsc e = true) : Escape e (jsEscChar e) := by
  simp only [jsEsc, Bool.or_eq_true, decide_eq_true_eq] at h
  rcases h with ((((((h | h) | h) | h) | h) | h) | h) | h <;> subst h
  · exact .b
  · exact .f
  · exact .n
  · exact .r
  · exact .t
  · exact .backslash
  · exact .slash
  · exact .quote

theorem esc_to {e : UInt8} {c : Char} (h : Escape e c) : jsEsc e = true ∧ jsEscChar e = c ∧ e ≠ 0x75 := by
  cases h <;> decide +kernel

/-! ## strings -/

theorem string_cons (c e : UInt8) (r : Bytes) : jsString (c :: e :: r) =
    if c = 0x22 then some ([], e :: r)
    else if c = 0x5c then
      if e = 0x75 then
        match r with
        | h1 :: h2 :: h3 :: h4 :: r' =>
          if jsHex h1 && jsHex h2 && jsHex h3 && jsHex h4 then (jsString r').map fun x => (c :: e :: h1 :: h2 :: h3 :: h4 :: x.1, x.2) else none
        | _ => none
      else if jsEsc e then (jsString r).map fun x => (c :: e :: x.1, x.2)
      else none
    else if c < 0x20 then none
    else (jsString (e :: r)).map fun x => (c :: x.1, x.2) := by
  rw [jsString.eq_def]; rfl

theorem string_sound : ∀ (n : Nat) (d raw rest : Bytes), d.length ≤ n → jsString d = some (raw, rest) → Raw raw ∧ d = raw ++ 0x22 :: rest := by
  intro n
  induction n with
  | zero =>
    intro d raw rest hn h
    have : d = [] := List.length_eq_zero_iff.1 (by omega)
    subst this
    simp [jsString] at h
  | succ n ih =>
    intro d raw rest hn h
    match d with
    | [] => simp [jsString] at h
    | [c] =>
      rw [jsString] at h
      split at h
      · rename_i hc
        simp only [Option.some.injEq, Prod.mk.injEq] at h
        obtain ⟨rfl, rfl⟩ := h
        exact ⟨.nil, by rw [hc]; rfl⟩
      · cases h
    | c :: e :: r =>
      rw [string_cons] at h
      by_cases h1 : c = 0x22
      · rw [if_pos h1] at h
        simp only [Option.some.injEq, Prod.mk.injEq] at h
        obtain ⟨rfl, rfl⟩ := h
        exact ⟨.nil, by rw [h1]; rfl⟩
      rw [if_neg h1] at h
      by_cases h2 : c = 0x5c
      · rw [if_pos h2] at h
        by_cases h3 : e = 0x75
        · rw [if_pos h3] at h
          match r with
          | [] => cases h
          | [_] => cases h
          | [_, _] => cases h
          | [_, _, _] => cases h
          | a :: b :: x :: y :: r' =>
            simp only at h
            split at h
            · rename_i hx
              cases hs : jsString r' with
              | none => rw [hs] at h; cases h
              | some z =>
                rw [hs] at h
                simp only [Option.map_some, Option.some.injEq, Prod.mk.injEq] at h
                obtain ⟨rfl, rfl⟩ := h
                obtain ⟨hr, he⟩ := ih r' z.1 z.2 (by simp at hn; omega) hs
                refine ⟨?_, ?_⟩
                · rw [h2, h3]; exact .unicode (hex4_of hx) hr
                · rw [he]; simp
            · cases h
        · rw [if_neg h3] at h
          split at h
          · rename_i he
            cases hs : jsString r with
            | none => rw [hs] at h; cases h
            | some z =>
              rw [hs] at h
              simp only [Option.map_some, Option.some.injEq, Prod.mk.injEq] at h
              obtain ⟨rfl, rfl⟩ := h
              obtain ⟨hr, he'⟩ := ih r z.1 z.2 (by simp at hn; omega) hs
              refine ⟨?_, ?_⟩
              · rw [h2]; exact .escape (esc_of he) hr
              · rw [he']; simp
          · cases h
      · rw [if_neg h2] at h
        split at h
        · cases h
        · rename_i h3
          cases hs : jsString (e :: r) with
          | none => rw [hs] at h; cases h
          | some z =>
            rw [hs] at h
            simp only [Option.map_some, Option.some.injEq, Prod.mk.injEq] at h
            obtain ⟨rfl, rfl⟩ := h
            obtain ⟨hr, he'⟩ := ih (e :: r) z.1 z.2 (by simp at hn ⊢; omega) hs
            refine ⟨.plain ?_ h1 h2 hr, ?_⟩
            · rw [UInt8.lt_iff_toNat_lt] at h3
              simpa using h3
            · rw [he']; simp

theorem string_complete {raw : Bytes} (h : Raw raw) (rest : Bytes) : jsString (raw ++ 0x22 :: rest) = some (raw, rest) := by
  induction h with
  | nil =>
    cases rest with
    | nil => simp [jsString]
    | cons b r => rw [List.nil_append, string_cons, if_pos rfl]
  | @plain b r h h1 h2 hr ih =>
    cases hx : r ++ 0x22 :: rest with
    | nil => simp at hx
    | cons e r' =>
      rw [List.cons_append, hx, string_cons, if_neg h1, if_neg h2, if_neg (by rw [UInt8.lt_iff_toNat_lt]; simpa using h), ← hx, ih]
      rfl
  | @escape e c r h hr ih =>
    obtain ⟨h1, -, h3⟩ := esc_to h
    rw [List.cons_append, List.cons_append, string_cons, if_neg (by decide), if_pos rfl, if_neg h3, if_pos h1, ih]
    rfl
  | @unicode x n r h hr ih =>
    obtain ⟨a, b, c, d, rfl, h1, -⟩ := hex4_to h
    simp only [List.cons_append, List.nil_append]
    rw [string_cons, if_neg (by decide), if_pos rfl, if_pos rfl]
    simp only
    rw [if_pos h1, ih]
    rfl

/-! ## numbers -/

/-- octets that may continue a number -/
def numChar (b : UInt8) : Bool := jsDigit b || b = 0x2e || b = 0x65 || b = 0x45

/-- a number ends here -/
def Stop (rest : Bytes) : Prop := ∀ c, rest.head? = some c → numChar c = false

theorem digits_split (d : Bytes) : d = (jsDigits d).1 ++ (jsDigits d).2 ∧ ∀ b ∈ (jsDigits d).1, Digit b := by
  rw [jsDigits]
  exact ⟨(List.takeWhile_append_dropWhile).symm, fun b hb => (digit_iff b).1 (mem_takeWhile hb)⟩

theorem digits_take {t rest : Bytes} (ht : ∀ b ∈ t, Digit b) (hr : ∀ c, rest.head? = some c → jsDigit c = false) : jsDigits (t ++ rest) = (t, rest) := by
  rw [jsDigits]
  induction t with
  | nil =>
    cases rest with
    | nil => rfl
    | cons c r => simp [hr c rfl]
  | cons b t ih =>
    have hb := (digit_iff b).2 (ht b (by simp))
    have := ih fun x hx => ht x (by simp [hx])
    simp only [Prod.mk.injEq] at this
    simp [hb, this.1, this.2]

theorem exp_sound {d t rest : Bytes} (h : jsExp d = some (t, rest)) :
    d = t ++ rest ∧ (t = [] ∨ ∃ e s x, (e = 0x65 ∨ e = 0x45) ∧ (s = [] ∨ s = [0x2b] ∨ s = [0x2d]) ∧ Digits x ∧ t = e :: s ++ x) := by
  unfold jsExp at h
  cases d with
  | nil => simp only [Option.some.injEq, Prod.mk.injEq] at h; obtain ⟨rfl, rfl⟩ := h; exact ⟨rfl, .inl rfl⟩
  | cons e r =>
    simp only at h
    split at h
    · rename_i he
      simp only [Bool.or_eq_true, decide_eq_true_eq] at he
      have key : ∀ s r', r = s ++ r' → (s = [] ∨ s = [0x2b] ∨ s = [0x2d]) →
          (if (jsDigits r').1 = [] then none else some (e :: s ++ (jsDigits r').1, (jsDigits r').2)) = some (t, rest) →
          e :: r = t ++ rest ∧ (t = [] ∨ ∃ e s x, (e = 0x65 ∨ e = 0x45) ∧ (s = [] ∨ s = [0x2b] ∨ s = [0x2d]) ∧ Digits x ∧ t = e :: s ++ x) := by
        intro s r' hr hs h
        obtain ⟨h1, h2⟩ := digits_split r'
        split at h
        · cases h
        · rename_i hn
          simp only [Option.some.injEq, Prod.mk.injEq] at h
          obtain ⟨rfl, rfl⟩ := h
          refine ⟨?_, .inr ⟨e, s, _, he, hs, ⟨hn, h2⟩, rfl⟩⟩
          rw [hr]
          conv_lhs => rw [h1]
          simp
      cases r with
      | nil => exact key [] [] rfl (.inl rfl) h
      | cons x r' =>
        simp only at h
        by_cases hx : (x = 0x2b || x = 0x2d) = true
        · rw [if_pos hx] at h
          simp only [Bool.or_eq_true, decide_eq_true_eq] at hx
          refine key [x] r' rfl ?_ h
          rcases hx with rfl | rfl <;> simp
        · rw [if_neg hx] at h
          exact key [] (x :: r') rfl (.inl rfl) h
    · simp only [Option.some.injEq, Prod.mk.injEq] at h; obtain ⟨rfl, rfl⟩ := h; exact ⟨rfl, .inl rfl⟩

theorem stop_digit {rest : Bytes} (h : Stop rest) : ∀ c, rest.head? = some c → jsDigit c = false := by
  intro c hc
  have := h c hc
  simp only [numChar, Bool.or_eq_false_iff] at this
  exact this.1.1.1

theorem exp_none {rest : Bytes} (h : Stop rest) : jsExp rest = some ([], rest) := by
  cases rest with
  | nil => rfl
  | cons c r =>
    have := h c rfl
    simp only [numChar, Bool.or_eq_false_iff] at this
    unfold jsExp
    simp only
    rw [if_neg (by rw [this.1.2, this.2]; decide)]

theorem exp_complete {t rest : Bytes} (hr : Stop rest)
    (h : t = [] ∨ ∃ e s x, (e = 0x65 ∨ e = 0x45) ∧ (s = [] ∨ s = [0x2b] ∨ s = [0x2d]) ∧ Digits x ∧ t = e :: s ++ x) :
    jsExp (t ++ rest) = some (t, rest) := by
  rcases h with rfl | ⟨e, s, x, he, hs, hx, rfl⟩
  · exact exp_none hr
  · have hd := digits_take hx.2 (stop_digit hr)
    have he' : (e = 0x65 || e = 0x45) = true := by simpa using he
    unfold jsExp
    simp only [List.cons_append]
    rw [if_pos he']
    rcases hs with rfl | rfl | rfl
    · match x, hx with
      | [], hx => exact absurd rfl hx.1
      | y :: x', hx =>
        have hy : ¬ (y = 0x2b || y = 0x2d) = true := by
          have := (hx.2 y (by simp)).1
          simp only [Bool.or_eq_true, decide_eq_true_eq]
          rintro (rfl | rfl) <;> simp at this
        simp only [List.nil_append, List.cons_append]
        rw [if_neg hy]
        simp only
        rw [← List.cons_append, hd]
        simp
    all_goals
      simp only [List.cons_append, List.nil_append]
      simp [hd, hx.1]

theorem frac_sound {d t rest : Bytes} (h : jsFrac d = some (t, rest)) : d = t ++ rest ∧ (t = [] ∨ ∃ x, Digits x ∧ t = 0x2e :: x) := by
  unfold jsFrac at h
  cases d with
  | nil => simp only [Option.some.injEq, Prod.mk.injEq] at h; obtain ⟨rfl, rfl⟩ := h; exact ⟨rfl, .inl rfl⟩
  | cons p r =>
    simp only at h
    split at h
    · rename_i hp
      obtain ⟨h1, h2⟩ := digits_split r
      split at h
      · cases h
      · rename_i hn
        simp only [Option.some.injEq, Prod.mk.injEq] at h
        obtain ⟨rfl, rfl⟩ := h
        refine ⟨?_, .inr ⟨_, ⟨hn, h2⟩, by rw [hp]⟩⟩
        conv_lhs => rw [h1]
        simp
    · simp only [Option.some.injEq, Prod.mk.injEq] at h; obtain ⟨rfl, rfl⟩ := h; exact ⟨rfl, .inl rfl⟩

theorem frac_complete {t rest : Bytes} (hd : ∀ c, rest.head? = some c → jsDigit c = false) (hp : rest.head? ≠ some 0x2e)
    (h : t = [] ∨ ∃ x, Digits x ∧ t = 0x2e :: x) : jsFrac (t ++ rest) = some (t, rest) := by
  rcases h with rfl | ⟨x, hx, rfl⟩
  · cases rest with
    | nil => rfl
    | cons c r =>
      unfold jsFrac
      simp only [List.nil_append]
      rw [if_neg (fun e => hp (by rw [e]; rfl))]
  · unfold jsFrac
    simp only [List.cons_append]
    rw [if_pos trivial, digits_take hx.2 hd]
    simp [hx.1]

theorem int_sound {d t rest : Bytes} (h : jsInt d = some (t, rest)) : d = t ++ rest ∧ Digits t ∧ (t = [0x30] ∨ t.head? ≠ some 0x30) := by
  unfold jsInt at h
  cases d with
  | nil => cases h
  | cons c r =>
    simp only at h
    split at h
    · rename_i hc
      simp only [Option.some.injEq, Prod.mk.injEq] at h
      obtain ⟨rfl, rfl⟩ := h
      subst hc
      exact ⟨rfl, ⟨by simp, by simp [Digit]⟩, .inl rfl⟩
    · rename_i hc
      split at h
      · rename_i hd
        simp only [Option.some.injEq] at h
        have ⟨h1, h2⟩ := digits_split (c :: r)
        rw [h] at h1 h2
        have hne : t ≠ [] := by
          rintro rfl
          rw [jsDigits, List.takeWhile_cons, if_pos hd] at h
          simp at h
        refine ⟨h1, ⟨hne, h2⟩, .inr ?_⟩
        cases t with
        | nil => exact absurd rfl hne
        | cons x t =>
          simp only [List.cons_append, List.cons.injEq] at h1
          rw [List.head?_cons, ← h1.1]
          exact fun e => hc (Option.some.inj e)
      · cases h

theorem int_complete {t rest : Bytes} (hd : ∀ c, rest.head? = some c → jsDigit c = false) (h : Digits t)
    (h0 : t = [0x30] ∨ t.head? ≠ some 0x30) : jsInt (t ++ rest) = some (t, rest) := by
  unfold jsInt
  match t, h with
  | [], h => exact absurd rfl h.1
  | c :: t, h =>
    simp only [List.cons_append]
    split
    · rename_i hc
      rcases h0 with h0 | h0
      · simp only [List.cons.injEq] at h0
        rw [h0.2]
        rfl
      · exact absurd (by rw [hc]; rfl) h0
    · rw [if_pos ((digit_iff c).2 (h.2 c (by simp))), ← List.cons_append, digits_take h.2 hd]

theorem number_sound {d t rest : Bytes} (h : jsNumber d = some (t, rest)) : d = t ++ rest ∧ Number t := by
  have key : ∀ s d', d = s ++ d' → (s = [] ∨ s = [0x2d]) →
      ((jsInt d').bind fun i => (jsFrac i.2).bind fun f => (jsExp f.2).map fun e => (s ++ i.1 ++ f.1 ++ e.1, e.2)) = some (t, rest) →
      d = t ++ rest ∧ Number t := by
    intro s d' hd hs h
    cases hi : jsInt d' with
    | none => rw [hi] at h; cases h
    | some i =>
      rw [hi, Option.bind_some] at h
      cases hf : jsFrac i.2 with
      | none => rw [hf] at h; cases h
      | some f =>
        rw [hf, Option.bind_some] at h
        cases he : jsExp f.2 with
        | none => rw [he] at h; cases h
        | some e =>
          rw [he, Option.map_some] at h
          simp only [Option.some.injEq, Prod.mk.injEq] at h
          obtain ⟨rfl, rfl⟩ := h
          obtain ⟨h1, h2, h3⟩ := int_sound (t := i.1) (rest := i.2) hi
          obtain ⟨h4, h5⟩ := frac_sound (t := f.1) (rest := f.2) hf
          obtain ⟨h6, h7⟩ := exp_sound (t := e.1) (rest := e.2) he
          refine ⟨?_, s, i.1, f.1, e.1, rfl, hs, h2, h3, h5, h7⟩
          rw [hd, h1]
          conv_lhs => rw [h4, h6]
          simp
  unfold jsNumber at h
  by_cases hm : d.head? = some 0x2d
  · simp only [if_pos hm] at h
    cases d with
    | nil => cases hm
    | cons c r =>
      rw [List.head?_cons, Option.some.injEq] at hm
      subst hm
      exact key [0x2d] r rfl (.inr rfl) h
  · simp only [if_neg hm] at h
    exact key [] d rfl (.inl rfl) h

theorem head_append {a b : Bytes} (h : a ≠ []) : (a ++ b).head? = a.head? := by
  cases a with
  | nil => exact absurd rfl h
  | cons => rfl

theorem number_complete {t rest : Bytes} (h : Number t) (hr : Stop rest) : jsNumber (t ++ rest) = some (t, rest) := by
  obtain ⟨s, i, f, e, rfl, hs, hi, hi0, hf, he⟩ := h
  have hE := exp_complete hr he
  have h1 : ∀ c, (e ++ rest).head? = some c → jsDigit c = false ∧ c ≠ 0x2e := by
    intro c hc
    rcases he with rfl | ⟨e, s, x, he, -, -, rfl⟩
    · have := hr c hc
      simp only [numChar, Bool.or_eq_false_iff, decide_eq_false_iff_not] at this
      exact ⟨this.1.1.1, this.1.1.2⟩
    · simp only [List.cons_append, List.head?_cons, Option.some.injEq] at hc
      subst hc
      rcases he with rfl | rfl <;> decide
  have hF := frac_complete (rest := e ++ rest) (fun c hc => (h1 c hc).1) (fun hc => (h1 _ hc).2 rfl) hf
  have h2 : ∀ c, (f ++ (e ++ rest)).head? = some c → jsDigit c = false := by
    intro c hc
    rcases hf with rfl | ⟨x, -, rfl⟩
    · exact (h1 c hc).1
    · simp only [List.cons_append, List.head?_cons, Option.some.injEq] at hc
      subst hc
      decide
  have hI := int_complete h2 hi hi0
  have hd : ∀ c, (i ++ (f ++ (e ++ rest))).head? = some c → c ≠ 0x2d := by
    intro c hc
    rw [head_append hi.1] at hc
    have := (hi.2 c (List.mem_of_mem_head? hc)).1
    rintro rfl
    simp at this
  unfold jsNumber
  rcases hs with rfl | rfl
  · simp only [List.nil_append, List.append_assoc]
    rw [if_neg (fun h => hd _ h rfl)]
    simp only
    rw [hI, Option.bind_some, hF, Option.bind_some, hE, Option.map_some]
    simp
  · simp only [List.cons_append, List.nil_append, List.append_assoc]
    rw [if_pos List.head?_cons]
    simp only [List.drop_succ_cons, List.drop_zero]
    rw [hI, Option.bind_some, hF, Option.bind_some, hE, Option.map_some]
    simp

/-! ## values -/

theorem word_sound {w d rest : Bytes} {v v' : JVal} (h : jsWord w v d = some (v', rest)) : v' = v ∧ d = w ++ rest := by
  unfold jsWord at h
  split at h
  · rename_i hp
    simp only [Option.some.injEq, Prod.mk.injEq] at h
    obtain ⟨rfl, rfl⟩ := h
    exact ⟨rfl, (List.prefix_iff_eq_append.1 hp).symm⟩
  · cases h

theorem word_complete (w rest : Bytes) (v : JVal) : jsWord w v (w ++ rest) = some (v, rest) := by
  unfold jsWord
  rw [if_pos (List.prefix_append w rest), List.drop_left]

theorem value_sound : ∀ f,
    (∀ d v rest, jsValue f d = some (v, rest) → ∃ t, Val v t ∧ d = t ++ rest) ∧
    (∀ d l rest, jsElems f d = some (l, rest) → ∃ t, Elems l t ∧ d = t ++ 0x5d :: rest) ∧
    (∀ d l rest, jsMembers f d = some (l, rest) → ∃ t, Members l t ∧ d = t ++ 0x7d :: rest) := by
  intro f
  induction f with
  | zero => exact ⟨fun _ _ _ h => by simp [jsValue] at h, fun _ _ _ h => by simp [jsElems] at h, fun _ _ _ h => by simp [jsMembers] at h⟩
  | succ f ih =>
    obtain ⟨ihV, ihE, ihM⟩ := ih
    refine ⟨fun d v rest h => ?_, fun d l rest h => ?_, fun d l rest h => ?_⟩
    · cases d with
      | nil => simp [jsValue] at h
      | cons c r =>
        rw [jsValue] at h
        by_cases h1 : c = 0x6e
        · rw [if_pos h1] at h
          obtain ⟨rfl, rfl⟩ := word_sound h
          exact ⟨_, .null, by rw [h1]; rfl⟩
        rw [if_neg h1] at h
        by_cases h2 : c = 0x74
        · rw [if_pos h2] at h
          obtain ⟨rfl, rfl⟩ := word_sound h
          exact ⟨_, .true, by rw [h2]; rfl⟩
        rw [if_neg h2] at h
        by_cases h3 : c = 0x66
        · rw [if_pos h3] at h
          obtain ⟨rfl, rfl⟩ := word_sound h
          exact ⟨_, .false, by rw [h3]; rfl⟩
        rw [if_neg h3] at h
        by_cases h4 : c = 0x22
        · rw [if_pos h4] at h
          cases hs : jsString r with
          | none => rw [hs] at h; cases h
          | some z =>
            rw [hs] at h
            simp only [Option.map_some, Option.some.injEq, Prod.mk.injEq] at h
            obtain ⟨rfl, rfl⟩ := h
            obtain ⟨hr, he⟩ := string_sound r.length r z.1 z.2 (Nat.le_refl _) hs
            exact ⟨_, .str hr, by rw [h4, he]; simp⟩
        rw [if_neg h4] at h
        by_cases h5 : c = 0x5b
        · rw [if_pos h5] at h
          split at h
          · rename_i r' hr
            simp only [Option.some.injEq, Prod.mk.injEq] at h
            obtain ⟨rfl, rfl⟩ := h
            obtain ⟨w, hw, he⟩ := skip_sound r
            exact ⟨_, .arr0 hw, by rw [h5, he, hr]; simp⟩
          · cases hs : jsElems f r with
            | none => rw [hs] at h; cases h
            | some z =>
              rw [hs] at h
              simp only [Option.map_some, Option.some.injEq, Prod.mk.injEq] at h
              obtain ⟨rfl, rfl⟩ := h
              obtain ⟨t, ht, he⟩ := ihE r z.1 z.2 hs
              exact ⟨_, .arr ht, by rw [h5, he]; simp⟩
        rw [if_neg h5] at h
        by_cases h6 : c = 0x7b
        · rw [if_pos h6] at h
          split at h
          · rename_i r' hr
            simp only [Option.some.injEq, Prod.mk.injEq] at h
            obtain ⟨rfl, rfl⟩ := h
            obtain ⟨w, hw, he⟩ := skip_sound r
            exact ⟨_, .obj0 hw, by rw [h6, he, hr]; simp⟩
          · cases hs : jsMembers f r with
            | none => rw [hs] at h; cases h
            | some z =>
              rw [hs] at h
              simp only [Option.map_some, Option.some.injEq, Prod.mk.injEq] at h
              obtain ⟨rfl, rfl⟩ := h
              obtain ⟨t, ht, he⟩ := ihM r z.1 z.2 hs
              exact ⟨_, .obj ht, by rw [h6, he]; simp⟩
        rw [if_neg h6] at h
        cases hs : jsNumber (c :: r) with
        | none => rw [hs] at h; cases h
        | some z =>
          rw [hs] at h
          simp only [Option.map_some, Option.some.injEq, Prod.mk.injEq] at h
          obtain ⟨rfl, rfl⟩ := h
          obtain ⟨he, hn⟩ := number_sound (t := z.1) (rest := z.2) hs
          exact ⟨_, .num hn, he⟩
    · rw [jsElems] at h
      obtain ⟨a, ha, hda⟩ := skip_sound d
      cases hv : jsValue f (jsSkip d) with
      | none => rw [hv] at h; cases h
      | some x =>
        rw [hv, Option.bind_some] at h
        obtain ⟨t, ht, hdt⟩ := ihV _ x.1 x.2 hv
        obtain ⟨b, hb, hdb⟩ := skip_sound x.2
        split at h
        · rename_i r hr
          cases hs : jsElems f r with
          | none => rw [hs] at h; cases h
          | some z =>
            rw [hs] at h
            simp only [Option.map_some, Option.some.injEq, Prod.mk.injEq] at h
            obtain ⟨rfl, rfl⟩ := h
            obtain ⟨u, hu, he⟩ := ihE r z.1 z.2 hs
            refine ⟨_, .more ha ht hb hu, ?_⟩
            rw [hda, hdt, hdb, hr, he]
            simp
        · rename_i r hr
          simp only [Option.some.injEq, Prod.mk.injEq] at h
          obtain ⟨rfl, rfl⟩ := h
          refine ⟨_, .one ha ht hb, ?_⟩
          rw [hda, hdt, hdb, hr]
          simp
        · cases h
    · rw [jsMembers] at h
      obtain ⟨a, ha, hda⟩ := skip_sound d
      split at h
      · rename_i r hr
        cases hk : jsString r with
        | none => rw [hk] at h; cases h
        | some k =>
          rw [hk, Option.bind_some] at h
          obtain ⟨hrk, hek⟩ := string_sound r.length r k.1 k.2 (Nat.le_refl _) hk
          obtain ⟨b, hb, hdb⟩ := skip_sound k.2
          split at h
          · rename_i r' hr'
            obtain ⟨c, hc, hdc⟩ := skip_sound r'
            cases hv : jsValue f (jsSkip r') with
            | none => rw [hv] at h; cases h
            | some x =>
              rw [hv, Option.bind_some] at h
              obtain ⟨t, ht, hdt⟩ := ihV _ x.1 x.2 hv
              obtain ⟨e, he, hde⟩ := skip_sound x.2
              split at h
              · rename_i r'' hr''
                cases hs : jsMembers f r'' with
                | none => rw [hs] at h; cases h
                | some z =>
                  rw [hs] at h
                  simp only [Option.map_some, Option.some.injEq, Prod.mk.injEq] at h
                  obtain ⟨rfl, rfl⟩ := h
                  obtain ⟨u, hu, heu⟩ := ihM r'' z.1 z.2 hs
                  refine ⟨_, .more ha hrk hb hc ht he hu, ?_⟩
                  rw [hda, hr, hek, hdb, hr', hdc, hdt, hde, hr'', heu]
                  simp
              · rename_i r'' hr''
                simp only [Option.some.injEq, Prod.mk.injEq] at h
                obtain ⟨rfl, rfl⟩ := h
                refine ⟨_, .one ha hrk hb hc ht he, ?_⟩
                rw [hda, hr, hek, hdb, hr', hdc, hdt, hde, hr'']
                simp
              · cases h
          · cases h
      · cases h

/-- the octets a value may begin with -/
theorem val_black {v : JVal} {t : Bytes} (h : Val v t) : ∃ c r, t = c :: r ∧ jsSpace c = false ∧ c ≠ 0x5d ∧ c ≠ 0x7d := by
  cases h with
  | num h =>
    obtain ⟨s, i, f, e, rfl, hs, hi, -⟩ := h
    rcases hs with rfl | rfl
    · match i, hi with
      | [], hi => exact absurd rfl hi.1
      | c :: i, hi =>
        refine ⟨c, _, rfl, ?_⟩
        have := hi.2 c (by simp)
        unfold Digit at this
        revert this
        refine byOctet (p := fun c => 0x30 ≤ c.toNat ∧ c.toNat ≤ 0x39 → jsSpace c = false ∧ c ≠ 0x5d ∧ c ≠ 0x7d) ?_ c
        decide +kernel
    · exact ⟨0x2d, _, rfl, by decide⟩
  | _ => exact ⟨_, _, rfl, by decide, by decide, by decide⟩

theorem stop_cons {c : UInt8} {r : Bytes} (h : numChar c = false) : Stop (c :: r) := by
  intro x hx
  rw [List.head?_cons, Option.some.injEq] at hx
  exact hx ▸ h

theorem stop_ws {w r : Bytes} (hw : Ws w) (hr : Stop r) : Stop (w ++ r) := by
  cases w with
  | nil => exact hr
  | cons c w =>
    refine stop_cons ?_
    rcases hw c (by simp) with rfl | rfl | rfl | rfl <;> decide

/-- what may follow a value for the scanner to end it there -/
def Ends (v : JVal) (rest : Bytes) : Prop := ∀ x, v = .num x → Stop rest

theorem number_first {t : Bytes} (h : Number t) : ∃ c r, t = c :: r ∧ c ≠ 0x6e ∧ c ≠ 0x74 ∧ c ≠ 0x66 ∧ c ≠ 0x22 ∧ c ≠ 0x5b ∧ c ≠ 0x7b := by
  obtain ⟨s, i, f, e, rfl, hs, hi, -⟩ := h
  rcases hs with rfl | rfl
  · match i, hi with
    | [], hi => exact absurd rfl hi.1
    | c :: i, hi =>
      refine ⟨c, _, rfl, ?_⟩
      have := hi.2 c (by simp)
      unfold Digit at this
      revert this
      refine byOctet (p := fun c => 0x30 ≤ c.toNat ∧ c.toNat ≤ 0x39 → c ≠ 0x6e ∧ c ≠ 0x74 ∧ c ≠ 0x66 ∧ c ≠ 0x22 ∧ c ≠ 0x5b ∧ c ≠ 0x7b) ?_ c
      decide +kernel
  · exact ⟨0x2d, _, rfl, by decide⟩

theorem elems_black {l : List JVal} {t : Bytes} (h : Elems l t) (rest : Bytes) : ∃ c r, jsSkip (t ++ rest) = c :: r ∧ c ≠ 0x5d := by
  have key : ∀ {v t a} (ha : Ws a) (h : Val v t) (rest : Bytes), ∃ c r, jsSkip (a ++ (t ++ rest)) = c :: r ∧ c ≠ 0x5d := by
    intro v t a ha h rest
    obtain ⟨c, r, rfl, h1, h2, -⟩ := val_black h
    exact ⟨c, r ++ rest, skip_ws ha ⟨c, _, rfl, h1⟩, h2⟩
  cases h with
  | @one v t a b ha h hb => simpa using key ha h (b ++ rest)
  | @more v t a b l u ha h hb hl => simpa using key ha h (b ++ 0x2c :: (u ++ rest))

theorem members_black {l : List (Bytes × JVal)} {t : Bytes} (h : Members l t) (rest : Bytes) : ∃ c r, jsSkip (t ++ rest) = c :: r ∧ c ≠ 0x7d := by
  have key : ∀ {a} (ha : Ws a) (rest : Bytes), ∃ c r, jsSkip (a ++ 0x22 :: rest) = c :: r ∧ c ≠ 0x7d := by
    intro a ha rest
    exact ⟨0x22, rest, skip_ws ha ⟨0x22, _, rfl, by decide⟩, by decide⟩
  cases h with
  | one ha hk hb hc h hd =>
    simp only [List.append_assoc, List.cons_append]
    exact key ha _
  | more ha hk hb hc h hd hl =>
    simp only [List.append_assoc, List.cons_append]
    exact key ha _

theorem elem_step {f : Nat} {v : JVal} {t a b : Bytes} {q : UInt8} {rest : Bytes} (ha : Ws a) (h : Val v t) (hb : Ws b)
    (hq : q = 0x2c ∨ q = 0x5d ∨ q = 0x7d) (hv : ∀ rest, Ends v rest → jsValue f (t ++ rest) = some (v, rest)) :
    jsValue f (jsSkip (a ++ (t ++ (b ++ q :: rest)))) = some (v, b ++ q :: rest) ∧ jsSkip (b ++ q :: rest) = q :: rest := by
  have hB : Black t := by
    obtain ⟨c, r, rfl, h1, -⟩ := val_black h
    exact ⟨c, r, rfl, h1⟩
  rw [skip_ws ha hB.append]
  refine ⟨hv _ fun _ _ => stop_ws hb (stop_cons ?_), skip_ws hb ⟨q, rest, rfl, ?_⟩⟩
  · rcases hq with rfl | rfl | rfl <;> decide
  · rcases hq with rfl | rfl | rfl <;> decide

mutual
theorem value_complete {v : JVal} {t : Bytes} (h : Val v t) : ∀ (f : Nat) (rest : Bytes), t.length < f → Ends v rest →
    jsValue f (t ++ rest) = some (v, rest) := by
  intro f rest hf hr
  cases f with
  | zero => omega
  | succ f =>
    match h with
    | .null =>
      simp only [List.cons_append, List.nil_append]
      rw [jsValue, if_pos rfl]
      exact word_complete [0x75, 0x6c, 0x6c] rest _
    | .true =>
      simp only [List.cons_append, List.nil_append]
      rw [jsValue, if_neg (by decide), if_pos rfl]
      exact word_complete [0x72, 0x75, 0x65] rest _
    | .false =>
      simp only [List.cons_append, List.nil_append]
      rw [jsValue, if_neg (by decide), if_neg (by decide), if_pos rfl]
      exact word_complete [0x61, 0x6c, 0x73, 0x65] rest _
    | .num h =>
      have hn := number_complete h (hr _ rfl)
      obtain ⟨c, r, rfl, h1, h2, h3, h4, h5, h6⟩ := number_first h
      rw [List.cons_append] at hn
      rw [List.cons_append, jsValue, if_neg h1, if_neg h2, if_neg h3, if_neg h4, if_neg h5, if_neg h6, hn]
      rfl
    | .str h =>
      simp only [List.cons_append, List.append_assoc, List.nil_append]
      rw [jsValue, if_neg (by decide), if_neg (by decide), if_neg (by decide), if_pos rfl, string_complete h]
      rfl
    | .arr0 h =>
      simp only [List.cons_append, List.append_assoc, List.nil_append]
      rw [jsValue, if_neg (by decide), if_neg (by decide), if_neg (by decide), if_neg (by decide), if_pos rfl,
        skip_ws h ⟨0x5d, rest, rfl, by decide⟩]
      rfl
    | .arr (t := t) h =>
      simp only [List.cons_append, List.append_assoc, List.nil_append]
      have := elems_complete h f rest (by simp at hf; omega)
      rw [jsValue, if_neg (by decide), if_neg (by decide), if_neg (by decide), if_neg (by decide), if_pos rfl]
      obtain ⟨c, r, hs, hc⟩ := elems_black h (0x5d :: rest)
      rw [hs, this]
      split
      · rename_i heq
        simp only [List.cons.injEq] at heq
        exact absurd heq.1 hc
      · rfl
    | .obj0 h =>
      simp only [List.cons_append, List.append_assoc, List.nil_append]
      rw [jsValue, if_neg (by decide), if_neg (by decide), if_neg (by decide), if_neg (by decide), if_neg (by decide), if_pos rfl,
        skip_ws h ⟨0x7d, rest, rfl, by decide⟩]
      rfl
    | .obj (t := t) h =>
      simp only [List.cons_append, List.append_assoc, List.nil_append]
      have := members_complete h f rest (by simp at hf; omega)
      rw [jsValue, if_neg (by decide), if_neg (by decide), if_neg (by decide), if_neg (by decide), if_neg (by decide), if_pos rfl]
      obtain ⟨c, r, hs, hc⟩ := members_black h (0x7d :: rest)
      rw [hs, this]
      split
      · rename_i heq
        simp only [List.cons.injEq] at heq
        exact absurd heq.1 hc
      · rfl
theorem elems_complete {l : List JVal} {t : Bytes} (h : Elems l t) : ∀ (f : Nat) (rest : Bytes), t.length + 1 < f →
    jsElems f (t ++ 0x5d :: rest) = some (l, rest) := by
  intro f rest hf
  cases f with
  | zero => omega
  | succ f =>
    match h with
    | .one (t := t) (b := b) ha h hb =>
      have hv := fun rest he => value_complete h f rest (by simp at hf; omega) he
      obtain ⟨h1, h2⟩ := elem_step (f := f) (rest := rest) (q := 0x5d) ha h hb (by simp) hv
      simp only [List.append_assoc]
      rw [jsElems, h1, Option.bind_some, h2]
      rfl
    | .more (t := t) (b := b) (u := u) ha h hb hl =>
      have hv := fun rest he => value_complete h f rest (by simp at hf; omega) he
      have ht : 0 < t.length := by obtain ⟨c, r, rfl, -⟩ := val_black h; simp
      obtain ⟨h1, h2⟩ := elem_step (f := f) (rest := u ++ 0x5d :: rest) (q := 0x2c) ha h hb (by simp) hv
      simp only [List.append_assoc, List.cons_append]
      rw [jsElems, h1, Option.bind_some, h2]
      simp only
      rw [elems_complete hl f rest (by simp at hf; omega)]
      rfl
theorem members_complete {l : List (Bytes × JVal)} {t : Bytes} (h : Members l t) : ∀ (f : Nat) (rest : Bytes), t.length + 1 < f →
    jsMembers f (t ++ 0x7d :: rest) = some (l, rest) := by
  intro f rest hf
  cases f with
  | zero => omega
  | succ f =>
    match h with
    | .one (t := t) (d := d) (c := c) ha hk hb hc h hd =>
      have hv := fun rest he => value_complete h f rest (by simp at hf; omega) he
      obtain ⟨h1, h2⟩ := elem_step (f := f) (rest := rest) (q := 0x7d) hc h hd (by simp) hv
      simp only [List.append_assoc, List.cons_append]
      rw [jsMembers, skip_ws ha ⟨0x22, _, rfl, by decide⟩]
      simp only
      rw [string_complete hk, Option.bind_some, skip_ws hb ⟨0x3a, _, rfl, by decide⟩]
      simp only
      rw [h1, Option.bind_some, h2]
      rfl
    | .more (t := t) (d := d) (u := u) ha hk hb hc h hd hl =>
      have hv := fun rest he => value_complete h f rest (by simp at hf; omega) he
      obtain ⟨h1, h2⟩ := elem_step (f := f) (rest := u ++ 0x7d :: rest) (q := 0x2c) hc h hd (by simp) hv
      simp only [List.append_assoc, List.cons_append]
      rw [jsMembers, skip_ws ha ⟨0x22, _, rfl, by decide⟩]
      simp only
      rw [string_complete hk, Option.bind_some, skip_ws hb ⟨0x3a, _, rfl, by decide⟩]
      simp only
      rw [h1, Option.bind_some, h2]
      simp only
      rw [members_complete hl f rest (by simp at hf; omega)]
      rfl
end

end GJ
end Gpgpdump
