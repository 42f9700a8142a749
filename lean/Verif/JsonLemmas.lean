import Verif.SpecJson

/-!
# A JSON text has one value
-/

namespace Gpgpdump
open Spec.Json

theorem Json.span_det {α} {p : α → Prop} : ∀ {a a' r r' : List α}, (∀ c ∈ a, p c) → (∀ c ∈ a', p c) →
    (∀ c, r.head? = some c → ¬ p c) → (∀ c, r'.head? = some c → ¬ p c) → a ++ r = a' ++ r' → a = a' ∧ r = r' := by
  intro a
  induction a with
  | nil =>
    intro a' r r' _ ha' hr _ h
    cases a' with
    | nil => exact ⟨rfl, h⟩
    | cons c a' =>
      have : r = c :: (a' ++ r') := h
      subst this
      exact absurd (ha' c (by simp)) (hr c rfl)
  | cons c a ih =>
    intro a' r r' ha ha' hr hr' h
    cases a' with
    | nil =>
      have : c :: (a ++ r) = r' := h
      subst this
      exact absurd (ha c (by simp)) (hr' c rfl)
    | cons d a' =>
      obtain ⟨rfl, h2⟩ := List.cons.inj h
      obtain ⟨rfl, rfl⟩ := ih (fun c hc => ha c (by simp [hc])) (fun c hc => ha' c (by simp [hc])) hr hr' h2
      exact ⟨rfl, rfl⟩

theorem Json.ws_det {a a' r r' : Str} {c c' : Char} (ha : Ws a) (ha' : Ws a') (hc : isWs c = false) (hc' : isWs c' = false)
    (h : a ++ c :: r = a' ++ c' :: r') : a = a' ∧ c = c' ∧ r = r' := by
  obtain ⟨rfl, h2⟩ := Json.span_det (p := fun c => isWs c = true) ha ha' (by simp [hc]) (by simp [hc']) h
  obtain ⟨rfl, rfl⟩ := List.cons.inj h2
  exact ⟨rfl, rfl, rfl⟩

def Json.hexVal (c : Char) : Nat := if c.toNat < 58 then c.toNat - 48 else if c.toNat < 97 then c.toNat - 55 else c.toNat - 87

theorem Json.hexDigit_val {c n} (h : HexDigit c n) : n = Json.hexVal c := by
  cases h with
  | dec n h => revert n; decide
  | lower n h => revert n; decide
  | upper n h => revert n; decide

theorem Json.hex4_det {x y n m} (hx : Hex4 x n) (hy : Hex4 y m) (r r' : Str) (h : x ++ r = y ++ r') : x = y ∧ n = m ∧ r = r' := by
  cases hx with | mk ha hb hc hd
  cases hy with | mk ha' hb' hc' hd'
  simp only [List.cons_append, List.nil_append, List.cons.injEq] at h
  obtain ⟨rfl, rfl, rfl, rfl, rfl⟩ := h
  rw [Json.hexDigit_val ha, Json.hexDigit_val ha', Json.hexDigit_val hb, Json.hexDigit_val hb', Json.hexDigit_val hc,
    Json.hexDigit_val hc', Json.hexDigit_val hd, Json.hexDigit_val hd']
  exact ⟨rfl, rfl, rfl⟩

theorem Json.escape_det {e c d} (h : Escape e c) (h' : Escape e d) : c = d := by
  cases h <;> cases h' <;> rfl

theorem Json.escape_ne_u {e c} (h : Escape e c) : e ≠ 'u' := by
  cases h <;> decide

theorem Json.chars_det {s t} (h : Chars s t) : ∀ {s' t' r r'}, Chars s' t' → t ++ '"' :: r = t' ++ '"' :: r' →
    s = s' ∧ t = t' ∧ r = r' := by
  induction h with
  | nil =>
    intro s' t' r r' h' he
    cases h' with
    | nil => exact ⟨rfl, rfl, (List.cons.inj he).2⟩
    | plain c h0 h1 h2 h => exact absurd (List.cons.inj he).1.symm h1
    | escape he' h => exact absurd (List.cons.inj he).1 (by decide)
    | unicode hx hn h => simp only [List.cons_append, List.nil_append] at he; exact absurd (List.cons.inj he).1 (by decide)
    | pair hx hn hy hm h => simp only [List.cons_append, List.nil_append] at he; exact absurd (List.cons.inj he).1 (by decide)
  | plain c h0 h1 h2 h ih =>
    intro s' t' r r' h' he
    cases h' with
    | nil => exact absurd (List.cons.inj he).1 h1
    | plain c' h0' h1' h2' h' =>
      obtain ⟨rfl, he2⟩ := List.cons.inj he
      obtain ⟨rfl, rfl, rfl⟩ := ih h' he2
      exact ⟨rfl, rfl, rfl⟩
    | escape he' h => exact absurd (List.cons.inj he).1 h2
    | unicode hx hn h => simp only [List.cons_append] at he; exact absurd (List.cons.inj he).1 h2
    | pair hx hn hy hm h => simp only [List.cons_append] at he; exact absurd (List.cons.inj he).1 h2
  | escape he' h ih =>
    intro s' t' r r' h' he
    cases h' with
    | nil => exact absurd (List.cons.inj he).1 (by decide)
    | plain c' h0' h1' h2' h' => exact absurd (List.cons.inj he).1.symm h2'
    | escape he'' h' =>
      simp only [List.cons_append, List.cons.injEq, true_and] at he
      obtain ⟨rfl, he⟩ := he
      obtain ⟨rfl, rfl, rfl⟩ := ih h' he
      rw [Json.escape_det he' he'']
      exact ⟨rfl, rfl, rfl⟩
    | unicode hx hn h =>
      simp only [List.cons_append, List.cons.injEq, true_and] at he
      exact absurd he.1 (Json.escape_ne_u he')
    | pair hx hn hy hm h =>
      simp only [List.cons_append, List.cons.injEq, true_and] at he
      exact absurd he.1 (Json.escape_ne_u he')
  | unicode hx hn h ih =>
    intro s' t' r r' h' he
    cases h' with
    | nil => simp only [List.cons_append, List.nil_append] at he; exact absurd (List.cons.inj he).1 (by decide)
    | plain c' h0' h1' h2' h' => simp only [List.cons_append] at he; exact absurd (List.cons.inj he).1.symm h2'
    | escape he'' h' =>
      simp only [List.cons_append, List.cons.injEq, true_and] at he
      exact absurd he.1.symm (Json.escape_ne_u he'')
    | unicode hx' hn' h' =>
      simp only [List.cons_append, List.cons.injEq, true_and, List.append_assoc] at he
      obtain ⟨rfl, rfl, he⟩ := Json.hex4_det hx hx' _ _ he
      obtain ⟨rfl, rfl, rfl⟩ := ih h' he
      exact ⟨rfl, rfl, rfl⟩
    | pair hx' hn' hy hm h' =>
      simp only [List.cons_append, List.cons.injEq, true_and, List.append_assoc] at he
      obtain ⟨rfl, rfl, he⟩ := Json.hex4_det hx hx' _ _ he
      omega
  | pair hx hn hy hm h ih =>
    intro s' t' r r' h' he
    cases h' with
    | nil => simp only [List.cons_append, List.nil_append] at he; exact absurd (List.cons.inj he).1 (by decide)
    | plain c' h0' h1' h2' h' => simp only [List.cons_append] at he; exact absurd (List.cons.inj he).1.symm h2'
    | escape he'' h' =>
      simp only [List.cons_append, List.cons.injEq, true_and] at he
      exact absurd he.1.symm (Json.escape_ne_u he'')
    | unicode hx' hn' h' =>
      simp only [List.cons_append, List.cons.injEq, true_and, List.append_assoc] at he
      obtain ⟨rfl, rfl, he⟩ := Json.hex4_det hx hx' _ _ he
      omega
    | pair hx' hn' hy' hm' h' =>
      simp only [List.cons_append, List.cons.injEq, true_and, List.append_assoc] at he
      obtain ⟨rfl, rfl, he⟩ := Json.hex4_det hx hx' _ _ he
      simp only [List.cons.injEq, true_and] at he
      obtain ⟨rfl, rfl, he⟩ := Json.hex4_det hy hy' _ _ he
      obtain ⟨rfl, rfl, rfl⟩ := ih h' he
      exact ⟨rfl, rfl, rfl⟩

/-- the characters of numbers -/
def Json.numChar (c : Char) : Bool := (48 ≤ c.toNat && c.toNat ≤ 57) || c = '-' || c = '+' || c = '.' || c = 'e' || c = 'E'

theorem Json.digits_num {t} (h : Digits t) : ∀ c ∈ t, Json.numChar c = true := by
  intro c hc
  have := h.2 c hc
  simp [Json.numChar, this]

theorem Json.number_chars {t} (h : Number t) : ∀ c ∈ t, Json.numChar c = true := by
  obtain ⟨sign, int, frac, exp, rfl, hs, hi, -, hf, he⟩ := h
  intro c hc
  rw [List.mem_append, List.mem_append, List.mem_append] at hc
  rcases hc with ((hc | hc) | hc) | hc
  · rcases hs with rfl | rfl <;> simp at hc
    subst hc; decide
  · exact Json.digits_num hi c hc
  · rcases hf with rfl | ⟨d, hd, rfl⟩
    · simp at hc
    · rw [List.mem_cons] at hc
      rcases hc with rfl | hc
      · decide
      · exact Json.digits_num hd c hc
  · rcases he with rfl | ⟨e, s, d, he, hs, hd, rfl⟩
    · simp at hc
    · rw [List.mem_append, List.mem_cons] at hc
      rcases hc with (rfl | hc) | hc
      · rcases he with rfl | rfl <;> decide
      · rcases hs with rfl | rfl | rfl <;> simp at hc <;> (subst hc; decide)
      · exact Json.digits_num hd c hc

/-- a number starts with a minus sign or a digit -/
def Json.numStart (c : Char) : Bool := (48 ≤ c.toNat && c.toNat ≤ 57) || c = '-'

theorem Json.number_head {t} (h : Number t) : ∃ c r, t = c :: r ∧ Json.numStart c = true := by
  obtain ⟨sign, int, frac, exp, rfl, hs, hi, -, hf, he⟩ := h
  rcases hs with rfl | rfl
  · obtain ⟨hne, hd⟩ := hi
    cases int with
    | nil => exact absurd rfl hne
    | cons c r =>
      refine ⟨c, r ++ frac ++ exp, by simp, ?_⟩
      have := hd c (by simp)
      simp [Json.numStart, this]
  · exact ⟨'-', int ++ frac ++ exp, by simp, by decide⟩

/-- what may follow a value -/
def Json.Delim (r : Str) : Prop := ∀ c, r.head? = some c → isWs c = true ∨ c = ',' ∨ c = ']' ∨ c = '}'

theorem Json.delim_nil : Json.Delim [] := by intro c h; simp at h
theorem Json.delim_cons {c r} (h : isWs c = true ∨ c = ',' ∨ c = ']' ∨ c = '}') : Json.Delim (c :: r) := by
  intro d hd
  simp only [List.head?_cons, Option.some.injEq] at hd
  exact hd ▸ h
theorem Json.delim_ws {a r} (ha : Ws a) (hr : Json.Delim r) : Json.Delim (a ++ r) := by
  cases a with
  | nil => exact hr
  | cons c a => exact Json.delim_cons (.inl (ha c (by simp)))

theorem Json.numChar_not {c} (h : Json.numChar c = true) : ¬(isWs c = true ∨ c = ',' ∨ c = ']' ∨ c = '}') := by
  intro h'
  rcases h' with h' | rfl | rfl | rfl
  · simp only [isWs, Bool.or_eq_true, decide_eq_true_eq] at h'
    rcases h' with ((rfl | rfl) | rfl) | rfl <;> exact absurd h (by decide)
  all_goals exact absurd h (by decide)

theorem Json.numStart_not {c} (h : Json.numStart c = true) :
    isWs c = false ∧ c ≠ '"' ∧ c ≠ '[' ∧ c ≠ '{' ∧ c ≠ 'n' ∧ c ≠ 't' ∧ c ≠ 'f' ∧ c ≠ ']' ∧ c ≠ '}' ∧ c ≠ ',' := by
  refine ⟨?_, ?_, ?_, ?_, ?_, ?_, ?_, ?_, ?_, ?_⟩
  · by_cases hw : isWs c = true
    · simp only [isWs, Bool.or_eq_true, decide_eq_true_eq] at hw
      rcases hw with ((rfl | rfl) | rfl) | rfl <;> exact absurd h (by decide)
    · exact Bool.eq_false_iff.2 hw
  all_goals (rintro rfl; exact absurd h (by decide))

/-- the first character tells the kind of value -/
def Json.starts (c : Char) : Value → Prop
  | .null => c = 'n'
  | .true => c = 't'
  | .false => c = 'f'
  | .num _ => Json.numStart c = true
  | .str _ => c = '"'
  | .arr _ => c = '['
  | .obj _ => c = '{'

theorem Json.val_head {v t} (h : Val v t) : ∃ c r, t = c :: r ∧ Json.starts c v := by
  cases h with
  | num h =>
    obtain ⟨c, r, rfl, h'⟩ := Json.number_head h
    exact ⟨c, r, rfl, h'⟩
  | _ => exact ⟨_, _, rfl, rfl⟩

theorem Json.starts_not {c v} (h : Json.starts c v) : isWs c = false ∧ c ≠ ']' ∧ c ≠ '}' ∧ c ≠ ',' := by
  cases v with
  | num => have := Json.numStart_not h; exact ⟨this.1, this.2.2.2.2.2.2.2.1, this.2.2.2.2.2.2.2.2.1, this.2.2.2.2.2.2.2.2.2⟩
  | _ => simp only [Json.starts] at h; subst h; decide

theorem Json.ws_val_det {a a' t t' r r' v v'} (ha : Ws a) (ha' : Ws a') (h : Val v t) (h' : Val v' t')
    (he : a ++ (t ++ r) = a' ++ (t' ++ r')) : a = a' ∧ t ++ r = t' ++ r' := by
  obtain ⟨c, x, rfl, hc⟩ := Json.val_head h
  obtain ⟨c', x', rfl, hc'⟩ := Json.val_head h'
  obtain ⟨rfl, rfl, h⟩ := Json.ws_det ha ha' (Json.starts_not hc).1 (Json.starts_not hc').1 he
  exact ⟨rfl, List.append_cancel_left he⟩

theorem Json.elems_head {l t} (h : Elems l t) : ∃ a c r, Ws a ∧ t = a ++ c :: r ∧ isWs c = false ∧ c ≠ ']' := by
  cases h with
  | one ha h hb =>
    obtain ⟨c, x, rfl, hc⟩ := Json.val_head h
    exact ⟨_, c, x ++ _, ha, by simp; rfl, (Json.starts_not hc).1, (Json.starts_not hc).2.1⟩
  | more ha h hb hl =>
    obtain ⟨c, x, rfl, hc⟩ := Json.val_head h
    exact ⟨_, c, x ++ _ ++ _, ha, by simp; rfl, (Json.starts_not hc).1, (Json.starts_not hc).2.1⟩

theorem Json.members_head {l t} (h : Members l t) : ∃ a r, Ws a ∧ t = a ++ '"' :: r := by
  cases h with
  | one ha hk hb hc h hd => exact ⟨_, _, ha, by simp only [List.append_assoc, List.cons_append]; rfl⟩
  | more ha hk hb hc h hd hl => exact ⟨_, _, ha, by simp only [List.append_assoc, List.cons_append]; rfl⟩

mutual
theorem Json.val_det {v t} (h : Val v t) {v' t' r r'} (h' : Val v' t') (hr : Json.Delim r) (hr' : Json.Delim r')
    (he : t ++ r = t' ++ r') : v = v' ∧ t = t' ∧ r = r' := by
  have hs : ∀ c, Json.starts c v → Json.starts c v' → v = v' ∨ (∃ n m, v = .num n ∧ v' = .num m) ∨ (∃ n m, v = .str n ∧ v' = .str m) ∨
      (∃ n m, v = .arr n ∧ v' = .arr m) ∨ (∃ n m, v = .obj n ∧ v' = .obj m) := by
    intro c h1 h2
    cases v <;> cases v' <;> simp only [Json.starts] at h1 h2 <;> try (subst h1; exact absurd h2 (by decide))
    all_goals first | exact .inl rfl | (subst h2; exact absurd h1 (by decide)) | simp
  obtain ⟨c, x, e1, hc⟩ := Json.val_head h
  obtain ⟨c', x', e2, hc'⟩ := Json.val_head h'
  have hcc : c = c' := by rw [e1, e2] at he; exact (List.cons.inj he).1
  subst hcc
  have hk := hs c hc hc'
  clear hs hc hc' e1 e2
  cases h with
  | null => cases h' <;> simp at hk; exact ⟨rfl, rfl, by simpa using he⟩
  | true => cases h' <;> simp at hk; exact ⟨rfl, rfl, by simpa using he⟩
  | false => cases h' <;> simp at hk; exact ⟨rfl, rfl, by simpa using he⟩
  | num h =>
    cases h' <;> simp at hk
    rename_i h'
    obtain ⟨rfl, rfl⟩ := Json.span_det (p := fun c => Json.numChar c = true) (Json.number_chars h) (Json.number_chars h')
      (fun c hc hn => Json.numChar_not hn (hr c hc)) (fun c hc hn => Json.numChar_not hn (hr' c hc)) he
    exact ⟨rfl, rfl, rfl⟩
  | str h =>
    cases h' <;> simp at hk
    rename_i h'
    simp only [List.cons_append, List.append_assoc, List.nil_append, List.cons.injEq, true_and] at he
    obtain ⟨rfl, rfl, rfl⟩ := Json.chars_det h h' he
    exact ⟨rfl, rfl, rfl⟩
  | arr0 h =>
    cases h' <;> simp at hk
    · rename_i h'
      simp only [List.cons_append, List.append_assoc, List.nil_append, List.cons.injEq, true_and] at he
      obtain ⟨rfl, -, rfl⟩ := Json.ws_det h h' (by decide) (by decide) he
      exact ⟨rfl, rfl, rfl⟩
    · rename_i h'
      obtain ⟨a, c, y, ha, rfl, hc, hn⟩ := Json.elems_head h'
      simp only [List.cons_append, List.append_assoc, List.nil_append, List.cons.injEq, true_and] at he
      obtain ⟨rfl, rfl, -⟩ := Json.ws_det h ha (by decide) hc he
      exact absurd rfl hn
  | arr h =>
    cases h' <;> simp at hk
    · rename_i h'
      obtain ⟨a, c, y, ha, rfl, hc, hn⟩ := Json.elems_head h
      simp only [List.cons_append, List.append_assoc, List.nil_append, List.cons.injEq, true_and] at he
      obtain ⟨rfl, rfl, -⟩ := Json.ws_det ha h' hc (by decide) he
      exact absurd rfl hn
    · rename_i h'
      simp only [List.cons_append, List.append_assoc, List.nil_append, List.cons.injEq, true_and] at he
      obtain ⟨rfl, rfl, rfl⟩ := Json.elems_det h h' he
      exact ⟨rfl, rfl, rfl⟩
  | obj0 h =>
    cases h' <;> simp at hk
    · rename_i h'
      simp only [List.cons_append, List.append_assoc, List.nil_append, List.cons.injEq, true_and] at he
      obtain ⟨rfl, -, rfl⟩ := Json.ws_det h h' (by decide) (by decide) he
      exact ⟨rfl, rfl, rfl⟩
    · rename_i h'
      obtain ⟨a, y, ha, rfl⟩ := Json.members_head h'
      simp only [List.cons_append, List.append_assoc, List.nil_append, List.cons.injEq, true_and] at he
      obtain ⟨rfl, hn, -⟩ := Json.ws_det h ha (by decide) (by decide) he
      exact absurd hn (by decide)
  | obj h =>
    cases h' <;> simp at hk
    · rename_i h'
      obtain ⟨a, y, ha, rfl⟩ := Json.members_head h
      simp only [List.cons_append, List.append_assoc, List.nil_append, List.cons.injEq, true_and] at he
      obtain ⟨rfl, hn, -⟩ := Json.ws_det ha h' (by decide) (by decide) he
      exact absurd hn (by decide)
    · rename_i h'
      simp only [List.cons_append, List.append_assoc, List.nil_append, List.cons.injEq, true_and] at he
      obtain ⟨rfl, rfl, rfl⟩ := Json.members_det h h' he
      exact ⟨rfl, rfl, rfl⟩
theorem Json.elems_det {l t} (h : Elems l t) {l' t' r r'} (h' : Elems l' t') (he : t ++ ']' :: r = t' ++ ']' :: r') :
    l = l' ∧ t = t' ∧ r = r' := by
  cases h with
  | one ha h hb =>
    cases h' with
    | one ha' h' hb' =>
      simp only [List.append_assoc] at he
      obtain ⟨rfl, he1⟩ := Json.ws_val_det ha ha' h h' he
      obtain ⟨rfl, rfl, he2⟩ := Json.val_det h h' (Json.delim_ws hb (Json.delim_cons (by simp)))
        (Json.delim_ws hb' (Json.delim_cons (by simp))) he1
      obtain ⟨rfl, -, rfl⟩ := Json.ws_det hb hb' (by decide) (by decide) he2
      exact ⟨rfl, rfl, rfl⟩
    | more ha' h' hb' hl' =>
      simp only [List.append_assoc, List.cons_append] at he
      obtain ⟨rfl, he1⟩ := Json.ws_val_det ha ha' h h' he
      obtain ⟨rfl, rfl, he2⟩ := Json.val_det h h' (Json.delim_ws hb (Json.delim_cons (by simp)))
        (Json.delim_ws hb' (Json.delim_cons (by simp))) he1
      obtain ⟨rfl, hn, -⟩ := Json.ws_det hb hb' (by decide) (by decide) he2
      exact absurd hn (by decide)
  | more ha h hb hl =>
    cases h' with
    | one ha' h' hb' =>
      simp only [List.append_assoc, List.cons_append] at he
      obtain ⟨rfl, he1⟩ := Json.ws_val_det ha ha' h h' he
      obtain ⟨rfl, rfl, he2⟩ := Json.val_det h h' (Json.delim_ws hb (Json.delim_cons (by simp)))
        (Json.delim_ws hb' (Json.delim_cons (by simp))) he1
      obtain ⟨rfl, hn, -⟩ := Json.ws_det hb hb' (by decide) (by decide) he2
      exact absurd hn (by decide)
    | more ha' h' hb' hl' =>
      simp only [List.append_assoc, List.cons_append] at he
      obtain ⟨rfl, he1⟩ := Json.ws_val_det ha ha' h h' he
      obtain ⟨rfl, rfl, he2⟩ := Json.val_det h h' (Json.delim_ws hb (Json.delim_cons (by simp)))
        (Json.delim_ws hb' (Json.delim_cons (by simp))) he1
      obtain ⟨rfl, -, he3⟩ := Json.ws_det hb hb' (by decide) (by decide) he2
      obtain ⟨rfl, rfl, rfl⟩ := Json.elems_det hl hl' he3
      exact ⟨rfl, rfl, rfl⟩
theorem Json.members_det {l t} (h : Members l t) {l' t' r r'} (h' : Members l' t') (he : t ++ '}' :: r = t' ++ '}' :: r') :
    l = l' ∧ t = t' ∧ r = r' := by
  cases h with
  | one ha hk hb hc h hd =>
    cases h' with
    | one ha' hk' hb' hc' h' hd' =>
      simp only [List.append_assoc, List.cons_append] at he
      obtain ⟨rfl, -, he1⟩ := Json.ws_det ha ha' (by decide) (by decide) he
      obtain ⟨rfl, rfl, he2⟩ := Json.chars_det hk hk' he1
      obtain ⟨rfl, -, he3⟩ := Json.ws_det hb hb' (by decide) (by decide) he2
      obtain ⟨rfl, he4⟩ := Json.ws_val_det hc hc' h h' he3
      obtain ⟨rfl, rfl, he5⟩ := Json.val_det h h' (Json.delim_ws hd (Json.delim_cons (by simp)))
        (Json.delim_ws hd' (Json.delim_cons (by simp))) he4
      obtain ⟨rfl, -, rfl⟩ := Json.ws_det hd hd' (by decide) (by decide) he5
      exact ⟨rfl, rfl, rfl⟩
    | more ha' hk' hb' hc' h' hd' hl' =>
      simp only [List.append_assoc, List.cons_append] at he
      obtain ⟨rfl, -, he1⟩ := Json.ws_det ha ha' (by decide) (by decide) he
      obtain ⟨rfl, rfl, he2⟩ := Json.chars_det hk hk' he1
      obtain ⟨rfl, -, he3⟩ := Json.ws_det hb hb' (by decide) (by decide) he2
      obtain ⟨rfl, he4⟩ := Json.ws_val_det hc hc' h h' he3
      obtain ⟨rfl, rfl, he5⟩ := Json.val_det h h' (Json.delim_ws hd (Json.delim_cons (by simp)))
        (Json.delim_ws hd' (Json.delim_cons (by simp))) he4
      obtain ⟨rfl, hn, -⟩ := Json.ws_det hd hd' (by decide) (by decide) he5
      exact absurd hn (by decide)
  | more ha hk hb hc h hd hl =>
    cases h' with
    | one ha' hk' hb' hc' h' hd' =>
      simp only [List.append_assoc, List.cons_append] at he
      obtain ⟨rfl, -, he1⟩ := Json.ws_det ha ha' (by decide) (by decide) he
      obtain ⟨rfl, rfl, he2⟩ := Json.chars_det hk hk' he1
      obtain ⟨rfl, -, he3⟩ := Json.ws_det hb hb' (by decide) (by decide) he2
      obtain ⟨rfl, he4⟩ := Json.ws_val_det hc hc' h h' he3
      obtain ⟨rfl, rfl, he5⟩ := Json.val_det h h' (Json.delim_ws hd (Json.delim_cons (by simp)))
        (Json.delim_ws hd' (Json.delim_cons (by simp))) he4
      obtain ⟨rfl, hn, -⟩ := Json.ws_det hd hd' (by decide) (by decide) he5
      exact absurd hn (by decide)
    | more ha' hk' hb' hc' h' hd' hl' =>
      simp only [List.append_assoc, List.cons_append] at he
      obtain ⟨rfl, -, he1⟩ := Json.ws_det ha ha' (by decide) (by decide) he
      obtain ⟨rfl, rfl, he2⟩ := Json.chars_det hk hk' he1
      obtain ⟨rfl, -, he3⟩ := Json.ws_det hb hb' (by decide) (by decide) he2
      obtain ⟨rfl, he4⟩ := Json.ws_val_det hc hc' h h' he3
      obtain ⟨rfl, rfl, he5⟩ := Json.val_det h h' (Json.delim_ws hd (Json.delim_cons (by simp)))
        (Json.delim_ws hd' (Json.delim_cons (by simp))) he4
      obtain ⟨rfl, -, he6⟩ := Json.ws_det hd hd' (by decide) (by decide) he5
      obtain ⟨rfl, rfl, rfl⟩ := Json.members_det hl hl' he6
      exact ⟨rfl, rfl, rfl⟩
end

/-- A JSON text has one value. -/
theorem Json.text_det {v v' t} (h : Text v t) (h' : Text v' t) : v = v' := by
  obtain ⟨a, u, b, ha, hu, hb, rfl⟩ := h
  obtain ⟨a', u', b', ha', hu', hb', he⟩ := h'
  simp only [List.append_assoc] at he
  obtain ⟨rfl, he2⟩ := Json.ws_val_det ha ha' hu hu' he
  have hd : ∀ {b}, Ws b → Json.Delim b := fun {b} hb => by
    have := Json.delim_ws hb Json.delim_nil
    rwa [List.append_nil] at this
  exact (Json.val_det hu hu' (hd hb) (hd hb') he2).1

theorem Json.field_det {k ms s s'} (h : Field k ms s) (h' : Field k ms s') : s = s' := by
  rcases h with h | ⟨h, rfl⟩ <;> rcases h' with h' | ⟨h', rfl⟩
  · rw [h] at h'; cases h'; rfl
  · rw [h] at h'; cases h'
  · rw [h] at h'; cases h'
  · rfl

mutual
theorem Json.item_det {v i} (h : HoldsItem v i) {i'} (h' : HoldsItem v i') : i = i' := by
  cases h with | mk hn hv hd ht hi
  cases h' with | mk hn' hv' hd' ht' hi'
  rw [Json.field_det hn hn', Json.field_det hv hv', Json.field_det hd hd', Json.field_det ht ht', Json.items_det hi hi']
theorem Json.items_det {o is} (h : HoldsItems o is) {is'} (h' : HoldsItems o is') : is = is' := by
  cases h with
  | none => cases h'; rfl
  | nil => cases h'; rfl
  | cons h hl =>
    cases h' with | cons h' hl'
    rw [Json.item_det h h', Json.items_det hl hl']
end

/-- A JSON text decodes to at most one list of packets. -/
theorem Json.decodes_det {t is is'} (h : Decodes t is) (h' : Decodes t is') : is = is' := by
  obtain ⟨v, ht, ms, rfl, hi⟩ := h
  obtain ⟨v', ht', ms', rfl, hi'⟩ := h'
  have := Json.text_det ht ht'
  cases this
  exact Json.items_det hi hi'

end Gpgpdump
