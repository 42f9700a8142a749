import Verif.Json
import Verif.JsonLemmas

/-!
# `json.Indent` keeps the value of a JSON text, up to the nesting limit of the scanner
-/

namespace Gpgpdump
open Spec.Json

namespace Json

theorem map_app (o : Option Str) (a b : Str) : (o.map (b ++ ·)).map (a ++ ·) = o.map (a ++ b ++ ·) := by
  cases o <;> simp

/-- what the delayed newline of an opening bracket writes -/
def pre (ind : Str) (need : Bool) (d : Nat) : Str := if need then jsonNewline ind (d + 1) else []
def dep (need : Bool) (d : Nat) : Nat := if need then d + 1 else d

theorem run_ws {ind : Str} {need d} : ∀ {a : Str} (_ : Ws a) (rest : Str),
    indentRun ind false false need d (a ++ rest) = indentRun ind false false need d rest
  | [], _, _ => rfl
  | c :: a, h, rest => by
    have hc := h c (by simp)
    simp only [isWs, Bool.or_eq_true, decide_eq_true_eq, or_assoc] at hc
    rw [List.cons_append, indentRun, if_pos hc]
    exact run_ws (fun c h' => h c (by simp [h'])) rest

theorem not_ws {c} (h : isWs c = false) : ¬(c = ' ' ∨ c = '\t' ∨ c = '\n' ∨ c = '\r') := by
  intro h'
  have : isWs c = true := by simpa [isWs, or_assoc] using h'
  rw [h] at this; cases this

/-- a character that starts or continues a literal or a number -/
def copied (c : Char) : Prop :=
  isWs c = false ∧ c ≠ '"' ∧ c ≠ '[' ∧ c ≠ '{' ∧ c ≠ ']' ∧ c ≠ '}' ∧ c ≠ ',' ∧ c ≠ ':'

instance (c : Char) : Decidable (copied c) := by unfold copied; infer_instance

theorem run_copied {ind : Str} {need d c} (h : copied c) (rest : Str) :
    indentRun ind false false need d (c :: rest) =
      (indentRun ind false false false (dep need d) rest).map (pre ind need d ++ [c] ++ ·) := by
  obtain ⟨h0, h1, h2, h3, h4, h5, h6, h7⟩ := h
  rw [indentRun, if_neg (not_ws h0), if_neg (by simp [h4, h5])]
  simp only
  rw [if_neg (by simp [h2, h3]), if_neg h6, if_neg h7]
  have : (c == '"') = false := by simp [h1]
  rw [this]
  rfl

theorem run_copy {ind : Str} {d} : ∀ {t : Str} (_ : ∀ c ∈ t, copied c) (rest : Str),
    indentRun ind false false false d (t ++ rest) = (indentRun ind false false false d rest).map (t ++ ·)
  | [], _, rest => by simp
  | c :: t, h, rest => by
    rw [List.cons_append, run_copied (h c (by simp)), dep, if_neg (by simp),
      run_copy (fun c h' => h c (by simp [h'])) rest, map_app]
    rfl

theorem run_word {ind : Str} {need d} {t : Str} (hne : t ≠ []) (h : ∀ c ∈ t, copied c) (rest : Str) :
    indentRun ind false false need d (t ++ rest) =
      (indentRun ind false false false (dep need d) rest).map (pre ind need d ++ t ++ ·) := by
  cases t with
  | nil => exact absurd rfl hne
  | cons c t =>
    rw [List.cons_append, run_copied (h c (by simp)), run_copy (fun c h' => h c (by simp [h'])) rest, map_app]
    simp only [List.append_assoc, List.cons_append, List.nil_append]

theorem copied_num {c} (h : numChar c = true) : copied c := by
  have hn := numChar_not h
  simp only [not_or] at hn
  refine ⟨Bool.eq_false_iff.2 hn.1, ?_, ?_, ?_, hn.2.2.1, hn.2.2.2, hn.2.1, ?_⟩ <;> (rintro rfl; exact absurd h (by decide))

/-- inside a string everything is copied -/
theorem run_chars {ind : Str} {need d} {s t} (h : Chars s t) (rest : Str) :
    indentRun ind true false need d (t ++ '"' :: rest) =
      (indentRun ind false false need d rest).map (t ++ ['"'] ++ ·) := by
  induction h with
  | nil =>
    rw [List.nil_append, indentRun]
    rfl
  | @plain s t c h0 h1 h2 h ih =>
    rw [List.cons_append, indentRun]
    have e1 : (false || c != '"') = true := by simp [h1]
    have e2 : (!false && c == '\\') = false := by simp [h2]
    rw [e1, e2, ih, map_app]
    rfl
  | @escape s t e c he h ih =>
    rw [List.cons_append, indentRun]
    show Option.map _ (indentRun ind true true need d (e :: (t ++ '"' :: rest))) = _
    rw [indentRun]
    show Option.map _ (Option.map _ (indentRun ind true false need d _)) = _
    rw [ih, map_app, map_app]
    rfl
  | @unicode s t x n hx hn h ih =>
    have hd : ∀ {c n}, HexDigit c n → ∀ r, indentRun ind true false need d (c :: r) =
        (indentRun ind true false need d r).map ([c] ++ ·) := by
      intro c n h r
      rw [indentRun]
      have e1 : (false || c != '"') = true ∧ (!false && c == '\\') = false := by
        cases h with
        | dec n h => revert n; decide
        | lower n h => revert n; decide
        | upper n h => revert n; decide
      rw [e1.1, e1.2]
    cases hx with | mk ha hb hc hd'
    simp only [List.cons_append, List.nil_append]
    rw [indentRun]
    show Option.map _ (indentRun ind true true need d ('u' :: _)) = _
    rw [indentRun]
    show Option.map _ (Option.map _ (indentRun ind true false need d _)) = _
    rw [hd ha, hd hb, hd hc, hd hd', ih]
    cases indentRun ind false false need d rest <;> simp
  | @pair s t x y n m hx hn hy hm h ih =>
    have hd : ∀ {c n}, HexDigit c n → ∀ r, indentRun ind true false need d (c :: r) =
        (indentRun ind true false need d r).map ([c] ++ ·) := by
      intro c n h r
      rw [indentRun]
      have e1 : (false || c != '"') = true ∧ (!false && c == '\\') = false := by
        cases h with
        | dec n h => revert n; decide
        | lower n h => revert n; decide
        | upper n h => revert n; decide
      rw [e1.1, e1.2]
    cases hx with | mk ha hb hc hd'
    cases hy with | mk ka kb kc kd
    simp only [List.cons_append, List.nil_append]
    rw [indentRun]
    show Option.map _ (indentRun ind true true need d ('u' :: _)) = _
    rw [indentRun]
    show Option.map _ (Option.map _ (indentRun ind true false need d _)) = _
    rw [hd ha, hd hb, hd hc, hd hd', indentRun]
    show Option.map _ (Option.map _ (Option.map _ (Option.map _ (Option.map _ (Option.map _ (Option.map _
      (indentRun ind true true need d ('u' :: _)))))))) = _
    rw [indentRun]
    show Option.map _ (Option.map _ (Option.map _ (Option.map _ (Option.map _ (Option.map _ (Option.map _
      (Option.map _ (indentRun ind true false need d _)))))))) = _
    rw [hd ka, hd kb, hd kc, hd kd, ih]
    cases indentRun ind false false need d rest <;> simp

theorem run_string {ind : Str} {need d} {s t} (h : Chars s t) (rest : Str) :
    indentRun ind false false need d ('"' :: (t ++ '"' :: rest)) =
      (indentRun ind false false false (dep need d) rest).map (pre ind need d ++ ('"' :: t ++ ['"']) ++ ·) := by
  rw [indentRun, if_neg (by decide), if_neg (by decide)]
  simp only
  rw [if_neg (by decide), if_neg (by decide), if_neg (by decide)]
  show Option.map _ (indentRun ind true false false _ _) = _
  rw [run_chars h, map_app]
  simp only [List.append_assoc, List.cons_append, List.nil_append]
  rfl

theorem run_comma {ind : Str} {d} (rest : Str) : indentRun ind false false false d (',' :: rest) =
    (indentRun ind false false false d rest).map (',' :: jsonNewline ind d ++ ·) := by
  rw [indentRun, if_neg (by decide), if_neg (by decide)]
  simp only
  rw [if_neg (by decide), if_pos trivial, if_neg (by decide), if_neg (by decide)]
  rfl

theorem run_colon {ind : Str} {d} (rest : Str) : indentRun ind false false false d (':' :: rest) =
    (indentRun ind false false false d rest).map ([':', ' '] ++ ·) := by
  rw [indentRun, if_neg (by decide), if_neg (by decide)]
  simp only
  rw [if_neg (by decide), if_neg (by decide), if_pos trivial, if_neg (by decide), if_neg (by decide)]
  rfl

theorem run_close {ind : Str} {d c} (h : c = ']' ∨ c = '}') (rest : Str) : indentRun ind false false false d (c :: rest) =
    (indentRun ind false false false (d - 1) rest).map (jsonNewline ind (d - 1) ++ [c] ++ ·) := by
  rw [indentRun, if_neg (by rcases h with rfl | rfl <;> decide), if_pos (by rcases h with rfl | rfl <;> decide), if_neg (by decide)]

theorem run_close0 {ind : Str} {d c} (h : c = ']' ∨ c = '}') (rest : Str) : indentRun ind false false true d (c :: rest) =
    (indentRun ind false false false d rest).map ([c] ++ ·) := by
  rw [indentRun, if_neg (by rcases h with rfl | rfl <;> decide), if_pos (by rcases h with rfl | rfl <;> decide), if_pos rfl]

theorem run_open {ind : Str} {need d c} (h : c = '[' ∨ c = '{') (hd : dep need d + 1 ≤ jsonMaxNesting) (rest : Str) :
    indentRun ind false false need d (c :: rest) =
      (indentRun ind false false true (dep need d) rest).map (pre ind need d ++ [c] ++ ·) := by
  rw [indentRun, if_neg (by rcases h with rfl | rfl <;> decide), if_neg (by rcases h with rfl | rfl <;> decide)]
  simp only
  rw [if_pos (by rcases h with rfl | rfl <;> decide), if_neg (by show ¬(dep need d + 1 > _); omega)]
  rfl

theorem run_open_deep {ind : Str} {need d c} (h : c = '[' ∨ c = '{') (hd : jsonMaxNesting < dep need d + 1) (rest : Str) :
    indentRun ind false false need d (c :: rest) = none := by
  rw [indentRun, if_neg (by rcases h with rfl | rfl <;> decide), if_neg (by rcases h with rfl | rfl <;> decide)]
  simp only
  rw [if_pos (by rcases h with rfl | rfl <;> decide), if_pos (by show (dep need d + 1 > _); omega)]

theorem ws_newline {ind : Str} (h : Ws ind) (d : Nat) : Ws (jsonNewline ind d) := by
  intro c hc
  rw [jsonNewline, List.mem_append] at hc
  rcases hc with hc | hc
  · simp at hc; subst hc; decide
  · rw [repeatStr, List.mem_flatten] at hc
    obtain ⟨l, hl, hc⟩ := hc
    rw [List.mem_replicate] at hl
    exact h c (hl.2 ▸ hc)

theorem ws_nil : Ws [] := by intro c h; simp at h
theorem ws_space : Ws [' '] := by intro c h; simp at h; subst h; rfl
theorem ws_append {a b} (ha : Ws a) (hb : Ws b) : Ws (a ++ b) := by
  intro c h
  rcases List.mem_append.1 h with h | h
  · exact ha c h
  · exact hb c h

/-- `Elems` does not care about white space in front. -/
theorem elems_ws {l t} (w : Str) (hw : Ws w) (h : Elems l t) : Elems l (w ++ t) := by
  cases h with
  | one ha h hb =>
    have := Elems.one (ws_append hw ha) h hb
    simpa only [List.append_assoc] using this
  | more ha h hb hl =>
    have := Elems.more (ws_append hw ha) h hb hl
    simpa only [List.append_assoc] using this

theorem members_ws {l t} (w : Str) (hw : Ws w) (h : Members l t) : Members l (w ++ t) := by
  cases h with
  | one ha hk hb hc h hd =>
    have := Members.one (ws_append hw ha) hk hb hc h hd
    simpa only [List.append_assoc] using this
  | more ha hk hb hc h hd hl =>
    have := Members.more (ws_append hw ha) hk hb hc h hd hl
    simpa only [List.append_assoc] using this

mutual
theorem indent_val {ind : Str} (hi : Ws ind) {v t} (h : Val v t) (need : Bool) (d : Nat)
    (hd : dep need d + nesting v ≤ jsonMaxNesting) :
    ∃ t', Val v t' ∧ ∀ rest, indentRun ind false false need d (t ++ rest) =
      (indentRun ind false false false (dep need d) rest).map (pre ind need d ++ t' ++ ·) := by
  cases h with
  | null => exact ⟨_, .null, run_word (by simp) (by decide)⟩
  | true => exact ⟨_, .true, run_word (by simp) (by decide)⟩
  | false => exact ⟨_, .false, run_word (by simp) (by decide)⟩
  | num h =>
    obtain ⟨c, r, hr, -⟩ := number_head h
    exact ⟨_, .num h, run_word (by rw [hr]; simp) (fun c hc => copied_num (number_chars h c hc))⟩
  | str h =>
    refine ⟨_, .str h, fun rest => ?_⟩
    rw [List.append_assoc]
    exact run_string h rest
  | arr0 h =>
    refine ⟨_, .arr0 ws_nil, fun rest => ?_⟩
    simp only [List.cons_append, List.append_assoc, List.nil_append]
    rw [run_open (.inl rfl) (by simpa [nesting, nestingAll] using hd), run_ws h, run_close0 (.inl rfl), map_app]
    simp only [List.cons_append, List.append_assoc, List.nil_append]
  | arr h =>
    rw [nesting] at hd
    obtain ⟨t', ht', e⟩ := indent_elems hi h true (dep need d) (by simp only [dep, if_true] at hd ⊢; omega)
    refine ⟨_, .arr (elems_ws _ (ws_newline hi (dep need d + 1)) ht'), fun rest => ?_⟩
    simp only [List.cons_append, List.append_assoc, List.nil_append]
    rw [run_open (.inl rfl) (by omega), e rest, map_app]
    simp only [pre, if_true, dep, List.cons_append, List.append_assoc, List.nil_append, Nat.add_sub_cancel]
  | obj0 h =>
    refine ⟨_, .obj0 ws_nil, fun rest => ?_⟩
    simp only [List.cons_append, List.append_assoc, List.nil_append]
    rw [run_open (.inr rfl) (by simpa [nesting, nestingMembers] using hd), run_ws h, run_close0 (.inr rfl), map_app]
    simp only [List.cons_append, List.append_assoc, List.nil_append]
  | obj h =>
    rw [nesting] at hd
    obtain ⟨t', ht', e⟩ := indent_members hi h true (dep need d) (by simp only [dep, if_true] at hd ⊢; omega)
    refine ⟨_, .obj (members_ws _ (ws_newline hi (dep need d + 1)) ht'), fun rest => ?_⟩
    simp only [List.cons_append, List.append_assoc, List.nil_append]
    rw [run_open (.inr rfl) (by omega), e rest, map_app]
    simp only [pre, if_true, dep, List.cons_append, List.append_assoc, List.nil_append, Nat.add_sub_cancel]
theorem indent_elems {ind : Str} (hi : Ws ind) {l t} (h : Elems l t) (need : Bool) (d : Nat)
    (hd : dep need d + nestingAll l ≤ jsonMaxNesting) :
    ∃ t', Elems l t' ∧ ∀ rest, indentRun ind false false need d (t ++ ']' :: rest) =
      (indentRun ind false false false (dep need d - 1) rest).map (pre ind need d ++ t' ++ [']'] ++ ·) := by
  cases h with
  | one ha h hb =>
    rw [nestingAll] at hd
    obtain ⟨t', ht', e⟩ := indent_val hi h need d (by omega)
    refine ⟨_, .one ws_nil ht' (ws_newline hi (dep need d - 1)), fun rest => ?_⟩
    simp only [List.append_assoc]
    rw [run_ws ha, e, run_ws hb, run_close (.inl rfl), map_app]
    simp only [List.append_assoc, List.nil_append]
  | more ha h hb hl =>
    rw [nestingAll] at hd
    obtain ⟨t', ht', e⟩ := indent_val hi h need d (by omega)
    obtain ⟨u', hu', e'⟩ := indent_elems hi hl false (dep need d) (by simp only [dep, Bool.false_eq_true, if_false] at hd ⊢; omega)
    refine ⟨_, .more ws_nil ht' ws_nil (elems_ws _ (ws_newline hi (dep need d)) hu'), fun rest => ?_⟩
    simp only [List.append_assoc, List.cons_append]
    rw [run_ws ha, e, run_ws hb, run_comma, e', map_app, map_app]
    simp only [List.append_assoc, List.nil_append, List.cons_append, pre, dep, Bool.false_eq_true, if_false]
theorem indent_members {ind : Str} (hi : Ws ind) {l t} (h : Members l t) (need : Bool) (d : Nat)
    (hd : dep need d + nestingMembers l ≤ jsonMaxNesting) :
    ∃ t', Members l t' ∧ ∀ rest, indentRun ind false false need d (t ++ '}' :: rest) =
      (indentRun ind false false false (dep need d - 1) rest).map (pre ind need d ++ t' ++ ['}'] ++ ·) := by
  cases h with
  | one ha hk hb hc h hd' =>
    rw [nestingMembers] at hd
    obtain ⟨t', ht', e⟩ := indent_val hi h false (dep need d) (by simp only [dep, Bool.false_eq_true, if_false] at hd ⊢; omega)
    refine ⟨_, .one ws_nil hk ws_nil (c := [' ']) ws_space ht' (ws_newline hi (dep need d - 1)), fun rest => ?_⟩
    simp only [List.append_assoc, List.cons_append]
    rw [run_ws ha, run_string hk, run_ws hb, run_colon, run_ws hc, e, run_ws hd', run_close (.inr rfl)]
    simp only [map_app]
    simp only [List.append_assoc, List.nil_append, List.cons_append, pre, dep, Bool.false_eq_true, if_false]
  | more ha hk hb hc h hd' hl =>
    rw [nestingMembers] at hd
    obtain ⟨t', ht', e⟩ := indent_val hi h false (dep need d) (by simp only [dep, Bool.false_eq_true, if_false] at hd ⊢; omega)
    obtain ⟨u', hu', e'⟩ := indent_members hi hl false (dep need d) (by simp only [dep, Bool.false_eq_true, if_false] at hd ⊢; omega)
    refine ⟨_, .more ws_nil hk ws_nil (c := [' ']) ws_space ht' ws_nil (members_ws _ (ws_newline hi (dep need d)) hu'), fun rest => ?_⟩
    simp only [List.append_assoc, List.cons_append]
    rw [run_ws ha, run_string hk, run_ws hb, run_colon, run_ws hc, e, run_ws hd', run_comma]
    have : ∀ d, dep false d = d := fun _ => rfl
    rw [this, e']
    simp only [map_app]
    simp only [List.append_assoc, List.nil_append, List.cons_append, pre, dep, Bool.false_eq_true, if_false]
end

theorem map_none (f : Str → Str) : (none : Option Str).map f = none := rfl

mutual
theorem deep_val {ind : Str} (hi : Ws ind) {v t} (h : Val v t) (need : Bool) (d : Nat) (h0 : dep need d ≤ jsonMaxNesting)
    (hd : jsonMaxNesting < dep need d + nesting v) (rest : Str) :
    indentRun ind false false need d (t ++ rest) = none := by
  cases h with
  | null => simp only [nesting] at hd; omega
  | true => simp only [nesting] at hd; omega
  | false => simp only [nesting] at hd; omega
  | num h => simp only [nesting] at hd; omega
  | str h => simp only [nesting] at hd; omega
  | arr0 h => exact run_open_deep (.inl rfl) (by simpa [nesting, nestingAll] using hd) _
  | arr h =>
    rw [nesting] at hd
    by_cases h1 : jsonMaxNesting < dep need d + 1
    · exact run_open_deep (.inl rfl) h1 _
    simp only [List.cons_append, List.append_assoc, List.nil_append]
    rw [run_open (.inl rfl) (by omega),
      deep_elems hi h true (dep need d) (by simp only [dep, if_true] at h1 ⊢; omega) (by simp only [dep, if_true] at hd ⊢; omega),
      map_none]
  | obj0 h => exact run_open_deep (.inr rfl) (by simpa [nesting, nestingMembers] using hd) _
  | obj h =>
    rw [nesting] at hd
    by_cases h1 : jsonMaxNesting < dep need d + 1
    · exact run_open_deep (.inr rfl) h1 _
    simp only [List.cons_append, List.append_assoc, List.nil_append]
    rw [run_open (.inr rfl) (by omega),
      deep_members hi h true (dep need d) (by simp only [dep, if_true] at h1 ⊢; omega) (by simp only [dep, if_true] at hd ⊢; omega),
      map_none]
theorem deep_elems {ind : Str} (hi : Ws ind) {l t} (h : Elems l t) (need : Bool) (d : Nat) (h0 : dep need d ≤ jsonMaxNesting)
    (hd : jsonMaxNesting < dep need d + nestingAll l) (rest : Str) :
    indentRun ind false false need d (t ++ ']' :: rest) = none := by
  cases h with
  | one ha h hb =>
    rw [nestingAll, nestingAll] at hd
    simp only [List.append_assoc]
    rw [run_ws ha]
    exact deep_val hi h need d h0 (by omega) _
  | @more v _ _ _ l _ ha h hb hl =>
    rw [nestingAll] at hd
    simp only [List.append_assoc, List.cons_append]
    rw [run_ws ha]
    by_cases h1 : jsonMaxNesting < dep need d + nesting v
    · exact deep_val hi h need d h0 h1 _
    obtain ⟨t', -, e⟩ := indent_val hi h need d (by omega)
    rw [e, run_ws hb, run_comma, deep_elems hi hl false (dep need d) h0
      (by simp only [dep, Bool.false_eq_true, if_false] at hd h1 ⊢; omega)]
    rfl
theorem deep_members {ind : Str} (hi : Ws ind) {l t} (h : Members l t) (need : Bool) (d : Nat) (h0 : dep need d ≤ jsonMaxNesting)
    (hd : jsonMaxNesting < dep need d + nestingMembers l) (rest : Str) :
    indentRun ind false false need d (t ++ '}' :: rest) = none := by
  cases h with
  | one ha hk hb hc h hd' =>
    rw [nestingMembers, nestingMembers] at hd
    simp only [List.append_assoc, List.cons_append]
    rw [run_ws ha, run_string hk, run_ws hb, run_colon, run_ws hc,
      deep_val hi h false (dep need d) h0 (by simp only [dep, Bool.false_eq_true, if_false] at hd ⊢; omega)]
    rfl
  | @more k x v _ _ _ _ _ l _ ha hk hb hc h hd' hl =>
    rw [nestingMembers] at hd
    simp only [List.append_assoc, List.cons_append]
    rw [run_ws ha, run_string hk, run_ws hb, run_colon, run_ws hc]
    by_cases h1 : jsonMaxNesting < dep need d + nesting v
    · rw [deep_val hi h false (dep need d) h0 h1]
      rfl
    obtain ⟨t', -, e⟩ := indent_val hi h false (dep need d) (by simp only [dep, Bool.false_eq_true, if_false] at h1 ⊢; omega)
    rw [e, run_ws hd', run_comma, deep_members hi hl false (dep false (dep need d)) h0
      (by simp only [dep, Bool.false_eq_true, if_false] at hd h1 ⊢; omega)]
    rfl
end

/-- `json.Indent` of a JSON text: the same value, if the nesting is within the limit of the scanner. -/
theorem indent_text {ind : Str} (hi : Ws ind) {v t} (h : Text v t) (hd : nesting v ≤ jsonMaxNesting) :
    ∃ t', jsonIndent ind t = some t' ∧ Text v t' := by
  obtain ⟨a, u, b, ha, hu, hb, rfl⟩ := h
  obtain ⟨t', ht', e⟩ := indent_val hi hu false 0 (by simpa [dep] using hd)
  refine ⟨t', ?_, [], t', [], ws_nil, ht', ws_nil, by simp⟩
  have hb' : indentRun ind false false false 0 b = some [] := by
    have := run_ws (ind := ind) (need := false) (d := 0) hb []
    rw [List.append_nil] at this
    rw [this, indentRun]
  rw [jsonIndent, List.append_assoc, run_ws ha, e]
  show Option.map _ (indentRun ind false false false 0 b) = _
  rw [hb']
  simp [pre]

/-- Beyond the limit `json.Indent` fails. -/
theorem indent_deep {ind : Str} (hi : Ws ind) {v t} (h : Text v t) (hd : jsonMaxNesting < nesting v) : jsonIndent ind t = none := by
  obtain ⟨a, u, b, ha, hu, hb, rfl⟩ := h
  rw [jsonIndent, List.append_assoc, run_ws ha]
  exact deep_val hi hu false 0 (by simp [dep]) (by simpa [dep] using hd) b

end Json
end Gpgpdump
