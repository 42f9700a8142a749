import Verif.Run

/-!
# C27: text fields
-/

namespace Gpgpdump

namespace Spec

/-- UTF-8 (RFC 3629 section 3) -/
def utf8Char (c : Char) : Bytes :=
  let n := c.toNat
  if n < 0x80 then [UInt8.ofNat n]
  else if n < 0x800 then [UInt8.ofNat (0xC0 + n / 64), UInt8.ofNat (0x80 + n % 64)]
  else if n < 0x10000 then
    [UInt8.ofNat (0xE0 + n / 4096), UInt8.ofNat (0x80 + n / 64 % 64), UInt8.ofNat (0x80 + n % 64)]
  else
    [UInt8.ofNat (0xF0 + n / 262144), UInt8.ofNat (0x80 + n / 4096 % 64), UInt8.ofNat (0x80 + n / 64 % 64),
      UInt8.ofNat (0x80 + n % 64)]

def utf8 (cs : Str) : Bytes := cs.flatMap utf8Char

/-- control characters: Unicode category Cc -/
def Control (c : Char) : Prop := c.toNat < 0x20 ∨ 0x7F ≤ c.toNat ∧ c.toNat ≤ 0x9F

instance (c : Char) : Decidable (Control c) := inferInstanceAs (Decidable (_ ∨ _))

def hexDigits : List Char := ['0', '1', '2', '3', '4', '5', '6', '7', '8', '9', 'A', 'B', 'C', 'D', 'E', 'F']

/-- how one character is shown: control characters as `(U+00XX)`, all others as themselves -/
def shownChar (c : Char) : Str :=
  if Control c then
    ['(', 'U', '+', '0', '0', hexDigits.getD (c.toNat / 16) '?', hexDigits.getD (c.toNat % 16) '?', ')']
  else [c]

end Spec

open Spec

theorem ofNat_toNat_lt (n : Nat) (h : n < 256) : (UInt8.ofNat n).toNat = n := UInt8.toNat_ofNat_of_lt' h

theorem isCont_ofNat (n : Nat) (h : n < 64) : isCont (UInt8.ofNat (0x80 + n)) = true := by
  unfold isCont
  rw [ofNat_toNat_lt _ (by omega)]
  simp; omega

theorem isCont_iff (b : UInt8) : isCont b = true ↔ 0x80 ≤ b.toNat ∧ b.toNat ≤ 0xBF := by simp [isCont]

theorem dec1 (b0 : UInt8) (bs : Bytes) (h : b0.toNat < 0x80) :
    utf8Decode (b0 :: bs) = (utf8Decode bs).map (Char.ofNat b0.toNat :: ·) := by
  rw [utf8Decode.eq_def]; simp only; rw [if_pos h]

theorem dec2 (b0 b1 : UInt8) (bs : Bytes) (h0 : 0xC2 ≤ b0.toNat ∧ b0.toNat ≤ 0xDF) (h1 : isCont b1 = true) :
    utf8Decode (b0 :: b1 :: bs) =
      (utf8Decode bs).map (Char.ofNat ((b0.toNat - 0xC0) * 64 + (b1.toNat - 0x80)) :: ·) := by
  rw [utf8Decode]; simp only; rw [if_neg (by omega), if_neg (by simp [h1]), if_pos h0]

theorem dec3 (b0 b1 b2 : UInt8) (bs : Bytes) (h0 : 0xE0 ≤ b0.toNat ∧ b0.toNat ≤ 0xEF) (h1 : isCont b1 = true)
    (h2 : isCont b2 = true) (hx : ¬ ((b0.toNat = 0xE0 ∧ b1.toNat < 0xA0) ∨ (b0.toNat = 0xED ∧ b1.toNat > 0x9F))) :
    utf8Decode (b0 :: b1 :: b2 :: bs) =
      (utf8Decode bs).map (Char.ofNat ((b0.toNat - 0xE0) * 4096 + (b1.toNat - 0x80) * 64 + (b2.toNat - 0x80)) :: ·) := by
  rw [utf8Decode]; simp only
  rw [if_neg (by omega), if_neg (by simp [h1]), if_neg (by omega), if_neg (by simp [h2]), if_pos h0, if_neg hx]

theorem dec4 (b0 b1 b2 b3 : UInt8) (bs : Bytes) (h0 : 0xF0 ≤ b0.toNat ∧ b0.toNat ≤ 0xF4) (h1 : isCont b1 = true)
    (h2 : isCont b2 = true) (h3 : isCont b3 = true)
    (hx : ¬ ((b0.toNat = 0xF0 ∧ b1.toNat < 0x90) ∨ (b0.toNat = 0xF4 ∧ b1.toNat > 0x8F))) :
    utf8Decode (b0 :: b1 :: b2 :: b3 :: bs) =
      (utf8Decode bs).map (Char.ofNat ((b0.toNat - 0xF0) * 262144 + (b1.toNat - 0x80) * 4096 + (b2.toNat - 0x80) * 64 +
        (b3.toNat - 0x80)) :: ·) := by
  rw [utf8Decode]; simp only
  rw [if_neg (by omega), if_neg (by simp [h1]), if_neg (by omega), if_neg (by simp [h2]), if_neg (by omega),
    if_neg (by simp [h3]), if_pos h0, if_neg hx]

theorem utf8Decode_cons_char (c : Char) (bs : Bytes) :
    utf8Decode (utf8Char c ++ bs) = (utf8Decode bs).map (c :: ·) := by
  have hval : c.toNat < 0xd800 ∨ 0xdfff < c.toNat ∧ c.toNat < 0x110000 := c.valid
  have hc : ∀ n, n = c.toNat → Char.ofNat n = c := by rintro n rfl; exact Char.ofNat_toNat c
  unfold utf8Char
  simp only
  generalize c.toNat = n at *
  by_cases h1 : n < 0x80
  · rw [if_pos h1]
    have e0 := ofNat_toNat_lt n (by omega)
    rw [List.cons_append, List.nil_append, dec1 _ _ (by omega), hc _ (by omega)]
  by_cases h2 : n < 0x800
  · rw [if_neg h1, if_pos h2]
    have e0 := ofNat_toNat_lt (0xC0 + n / 64) (by omega)
    have e1 := ofNat_toNat_lt (0x80 + n % 64) (by omega)
    simp only [List.cons_append, List.nil_append]
    rw [dec2 _ _ _ (by omega) (isCont_ofNat _ (by omega)), hc _ (by omega)]
  by_cases h3 : n < 0x10000
  · rw [if_neg h1, if_neg h2, if_pos h3]
    have e0 := ofNat_toNat_lt (0xE0 + n / 4096) (by omega)
    have e1 := ofNat_toNat_lt (0x80 + n / 64 % 64) (by omega)
    have e2 := ofNat_toNat_lt (0x80 + n % 64) (by omega)
    simp only [List.cons_append, List.nil_append]
    rw [dec3 _ _ _ _ (by omega) (isCont_ofNat _ (by omega)) (isCont_ofNat _ (by omega)) (by omega), hc _ (by omega)]
  · rw [if_neg h1, if_neg h2, if_neg h3]
    have e0 := ofNat_toNat_lt (0xF0 + n / 262144) (by omega)
    have e1 := ofNat_toNat_lt (0x80 + n / 4096 % 64) (by omega)
    have e2 := ofNat_toNat_lt (0x80 + n / 64 % 64) (by omega)
    have e3 := ofNat_toNat_lt (0x80 + n % 64) (by omega)
    simp only [List.cons_append, List.nil_append]
    rw [dec4 _ _ _ _ _ (by omega) (isCont_ofNat _ (by omega)) (isCont_ofNat _ (by omega)) (isCont_ofNat _ (by omega)) (by omega),
      hc _ (by omega)]

theorem utf8Decode_utf8 (cs : Str) : utf8Decode (utf8 cs) = some cs := by
  induction cs with
  | nil => rfl
  | cons c cs ih =>
    rw [utf8, List.flatMap_cons, utf8Decode_cons_char, ← utf8, ih]; rfl

theorem toNat_charOfNat (n : Nat) (h : n < 0xd800 ∨ 0xdfff < n ∧ n < 0x110000) : (Char.ofNat n).toNat = n := by
  rw [Char.ofNat, dif_pos (by exact h)]
  show (Char.ofNatAux n _).val.toNat = n
  rfl

theorem ofNat_eq_of (b : UInt8) (n : Nat) (h : n = b.toNat) : UInt8.ofNat n = b := by subst h; exact UInt8.ofNat_toNat

/-- one decoding step -/
theorem utf8Decode_step (b : UInt8) (bs : Bytes) (cs : Str) (h : utf8Decode (b :: bs) = some cs) :
    ∃ c bs' cs', b :: bs = utf8Char c ++ bs' ∧ cs = c :: cs' ∧ utf8Decode bs' = some cs' := by
  have hb := b.toNat_lt
  by_cases h1 : b.toNat < 0x80
  · rw [dec1 b bs h1, Option.map_eq_some_iff] at h
    obtain ⟨cs', h', rfl⟩ := h
    refine ⟨_, bs, cs', ?_, rfl, h'⟩
    unfold utf8Char
    simp only [toNat_charOfNat b.toNat (by omega)]
    rw [if_pos h1, ofNat_eq_of b _ rfl]
    rfl
  rw [utf8Decode.eq_def] at h
  simp only at h
  rw [if_neg h1] at h
  match bs, h with
  | [], h => simp at h
  | b1 :: bs1, h =>
    simp only at h
    by_cases c1 : isCont b1 = false
    · rw [if_pos (by simp [c1])] at h; cases h
    have c1 : isCont b1 = true := by simpa using c1
    rw [if_neg (by simp [c1])] at h
    have d1 := (isCont_iff b1).mp c1
    by_cases h2 : 0xC2 ≤ b.toNat ∧ b.toNat ≤ 0xDF
    · rw [if_pos h2, Option.map_eq_some_iff] at h
      obtain ⟨cs', h', rfl⟩ := h
      refine ⟨_, bs1, cs', ?_, rfl, h'⟩
      unfold utf8Char
      simp only [toNat_charOfNat ((b.toNat - 0xC0) * 64 + (b1.toNat - 0x80)) (by omega)]
      rw [if_neg (by omega), if_pos (by omega), ofNat_eq_of b _ (by omega), ofNat_eq_of b1 _ (by omega)]
      rfl
    rw [if_neg h2] at h
    match bs1, h with
    | [], h => simp at h
    | b2 :: bs2, h =>
      simp only at h
      by_cases c2 : isCont b2 = false
      · rw [if_pos (by simp [c2])] at h; cases h
      have c2 : isCont b2 = true := by simpa using c2
      rw [if_neg (by simp [c2])] at h
      have d2 := (isCont_iff b2).mp c2
      by_cases h3 : 0xE0 ≤ b.toNat ∧ b.toNat ≤ 0xEF
      · rw [if_pos h3] at h
        by_cases hx : (b.toNat = 0xE0 ∧ b1.toNat < 0xA0) ∨ (b.toNat = 0xED ∧ b1.toNat > 0x9F)
        · rw [if_pos hx] at h; cases h
        rw [if_neg hx, Option.map_eq_some_iff] at h
        obtain ⟨cs', h', rfl⟩ := h
        refine ⟨_, bs2, cs', ?_, rfl, h'⟩
        unfold utf8Char
        simp only [toNat_charOfNat ((b.toNat - 0xE0) * 4096 + (b1.toNat - 0x80) * 64 + (b2.toNat - 0x80)) (by omega)]
        rw [if_neg (by omega), if_neg (by omega), if_pos (by omega), ofNat_eq_of b _ (by omega), ofNat_eq_of b1 _ (by omega),
          ofNat_eq_of b2 _ (by omega)]
        rfl
      rw [if_neg h3] at h
      match bs2, h with
      | [], h => simp at h
      | b3 :: bs3, h =>
        simp only at h
        by_cases c3 : isCont b3 = false
        · rw [if_pos (by simp [c3])] at h; cases h
        have c3 : isCont b3 = true := by simpa using c3
        rw [if_neg (by simp [c3])] at h
        have d3 := (isCont_iff b3).mp c3
        by_cases h4 : ¬ (0xF0 ≤ b.toNat ∧ b.toNat ≤ 0xF4)
        · rw [if_neg h4] at h; cases h
        have h4 := Classical.not_not.mp h4
        rw [if_pos h4] at h
        by_cases hx : (b.toNat = 0xF0 ∧ b1.toNat < 0x90) ∨ (b.toNat = 0xF4 ∧ b1.toNat > 0x8F)
        · rw [if_pos hx] at h; cases h
        rw [if_neg hx, Option.map_eq_some_iff] at h
        obtain ⟨cs', h', rfl⟩ := h
        refine ⟨_, bs3, cs', ?_, rfl, h'⟩
        unfold utf8Char
        simp only [toNat_charOfNat ((b.toNat - 0xF0) * 262144 + (b1.toNat - 0x80) * 4096 + (b2.toNat - 0x80) * 64 +
          (b3.toNat - 0x80)) (by omega)]
        rw [if_neg (by omega), if_neg (by omega), if_neg (by omega), ofNat_eq_of b _ (by omega), ofNat_eq_of b1 _ (by omega),
          ofNat_eq_of b2 _ (by omega), ofNat_eq_of b3 _ (by omega)]
        rfl

theorem utf8_of_decode : ∀ (n : Nat) (b : Bytes) (cs : Str), b.length ≤ n → utf8Decode b = some cs → b = utf8 cs := by
  intro n
  induction n with
  | zero =>
    intro b cs hl h
    obtain rfl : b = [] := List.length_eq_zero_iff.mp (by omega)
    have : cs = [] := by simpa [utf8Decode] using h.symm
    subst this; rfl
  | succ n ih =>
    intro b cs hl h
    match b, h with
    | [], h =>
      have : cs = [] := by simpa [utf8Decode] using h.symm
      subst this; rfl
    | b0 :: bs, h =>
      obtain ⟨c, bs', cs', he, rfl, h'⟩ := utf8Decode_step b0 bs cs h
      rw [he]
      have hne : 0 < (utf8Char c).length := by
        unfold utf8Char; simp only; split <;> (try split) <;> (try split) <;> simp
      have hlen := congrArg List.length he
      simp only [List.length_append, List.length_cons] at hlen hl
      rw [ih bs' cs' (by omega) h']
      rfl

/-- `utf8Decode` decides well-formed UTF-8. -/
theorem utf8Decode_iff (b : Bytes) (cs : Str) : utf8Decode b = some cs ↔ b = utf8 cs :=
  ⟨utf8_of_decode b.length b cs (Nat.le_refl _), fun h => h ▸ utf8Decode_utf8 cs⟩

theorem isControl_iff (c : Char) : isControl c = true ↔ Control c := by simp [isControl, Control]

theorem shownChar_eq (c : Char) : (if isControl c then '(' :: fmtU c ++ [')'] else [c]) = shownChar c := by
  unfold shownChar
  by_cases h : Control c
  · rw [if_pos ((isControl_iff c).mpr h), if_pos h]
    have key : ∀ n : Fin 0xA0, (n.val < 0x20 ∨ 0x7F ≤ n.val ∧ n.val ≤ 0x9F) →
        '(' :: fmtU (Char.ofNat n) ++ [')'] =
          ['(', 'U', '+', '0', '0', hexDigits.getD (n.val / 16) '?', hexDigits.getD (n.val % 16) '?', ')'] := by decide +kernel
    have := key ⟨c.toNat, by unfold Control at h; omega⟩ h
    simpa using this
  · rw [if_neg (by rw [isControl_iff]; exact h), if_neg h]

theorem escapeText_eq (cs : Str) : escapeText cs = cs.flatMap shownChar := by
  induction cs with
  | nil => rfl
  | cons c cs ih => rw [escapeText, ih, shownChar_eq, List.flatMap_cons]

theorem shownChar_clean (c : Char) : ∀ d ∈ shownChar c, ¬ Control d := by
  unfold shownChar
  split
  · rename_i h
    have key : ∀ n : Fin 0xA0, ∀ d ∈ ['(', 'U', '+', '0', '0', hexDigits.getD (n.val / 16) '?', hexDigits.getD (n.val % 16) '?', ')'],
        ¬ Control d := by decide +kernel
    exact key ⟨c.toNat, by unfold Control at h; omega⟩
  · intro d hd
    rename_i h
    rw [List.mem_singleton] at hd
    subst hd; exact h

/-- C27: a text field that is well-formed UTF-8 is shown as its characters, control characters replaced by `(U+00XX)` and all
others unchanged. -/
theorem C27_text_shown (name : Str) (cs : Str) (hne : cs ≠ []) (f : Bool) :
    (textItem name (utf8 cs) f).value = cs.flatMap shownChar ∧ (textItem name (utf8 cs) f).note = [] := by
  unfold textItem
  have : (utf8 cs).isEmpty = false := by
    match cs, hne with
    | c :: cs, _ =>
      have hne : 0 < (utf8Char c).length := by
        unfold utf8Char; simp only; split <;> (try split) <;> (try split) <;> simp
      rw [utf8, List.flatMap_cons, List.isEmpty_eq_false_iff]
      intro he
      have := congrArg List.length he
      simp only [List.length_append, List.length_nil] at this
      omega
  rw [this, utf8Decode_utf8, if_neg (by simp)]
  simp only [escapeText_eq, newItem, Item.value, Item.note, and_self]

/-- C27: a text field that is not well-formed UTF-8 is shown only as a hex dump (whatever the options), marked `invalid text
string`. -/
theorem C27_text_invalid (name : Str) (b : Bytes) (h : ¬ ∃ cs, b = utf8 cs) (f : Bool) :
    textItem name b f = .mk name [] (Reader.dumpHex b) (S "invalid text string") [] := by
  have hn : utf8Decode b = none := by
    cases hd : utf8Decode b with
    | none => rfl
    | some cs => exact absurd ⟨cs, (utf8Decode_iff b cs).mp hd⟩ h
  have hne : b.isEmpty = false := by
    rw [List.isEmpty_eq_false_iff]
    rintro rfl
    exact h ⟨[], rfl⟩
  unfold textItem
  rw [hne, hn, if_neg (by simp)]
  simp only [newItem, dumpBytes_eq, if_true]

/-- C27: an empty text field is shown without value and dump. -/
theorem C27_text_empty (name : Str) (f : Bool) : textItem name [] f = .mk name [] [] (S "0 byte") [] := rfl

/-- C27: no text value ever contains a control character. -/
theorem C27_no_control (name : Str) (b : Bytes) (f : Bool) : ∀ c ∈ (textItem name b f).value, ¬ Control c := by
  by_cases h : ∃ cs, b = utf8 cs
  · obtain ⟨cs, rfl⟩ := h
    by_cases hne : cs = []
    · subst hne; intro c hc; cases hc
    · rw [(C27_text_shown name cs hne f).1]
      intro c hc
      obtain ⟨d, _, hd⟩ := List.mem_flatMap.mp hc
      exact shownChar_clean d c hd
  · rw [C27_text_invalid name b h f]
    intro c hc; cases hc

/-- C27 for User ID packets: the packet is shown as its header and exactly one text field made of the whole body. -/
theorem C27_user_id (X : Ext) (recur : TagParser) (body : Bytes) (st : St) :
    ∃ i st', tagParse X recur 13 body st = (.ok i, st') ∧
      i.items = [textItem (S "User ID") body (ctxFlag Ctx.debug st.ctx)] := by
  simp only [tagParse, tagScope, tagBody_13, tag13, bind_run, flag_run, scope_run, getBody_run, add_run, getCur_run]
  exact ⟨_, _, rfl, rfl⟩

/-- C27: texts without control characters are shown verbatim, hence different ones differently. -/
theorem C27_text_verbatim (name : Str) (cs : Str) (hne : cs ≠ []) (hc : ∀ c ∈ cs, ¬ Control c) (f : Bool) :
    (textItem name (utf8 cs) f).value = cs := by
  rw [(C27_text_shown name cs hne f).1]
  clear hne
  induction cs with
  | nil => rfl
  | cons c cs ih =>
    rw [List.flatMap_cons, ih (fun d hd => hc d (List.mem_cons_of_mem _ hd))]
    unfold shownChar
    rw [if_neg (hc c List.mem_cons_self)]
    rfl

/-- the escape notation is not reserved: a text can look like the escaped form of another one -/
theorem C27_escape_ambiguous (name : Str) (f : Bool) :
    (textItem name (utf8 [Char.ofNat 27]) f).value = (textItem name (utf8 (S "(U+001B)")) f).value := by
  rw [(C27_text_shown name _ (by decide) f).1, (C27_text_shown name _ (by decide) f).1]
  decide +kernel

/-- an e-mail address with an escape sequence, and an overlong encoding -/
example : (textItem (S "User ID") [0x61, 0x1b, 0x5b, 0xc3, 0xa9] false).value = S "a(U+001B)[é" ∧
    (textItem (S "User ID") [0xc0, 0x80] false).dump = S "c0 80" := by
  decide +kernel

/-- the specification is Lean's own UTF-8 encoding -/
theorem utf8Char_eq_core (c : Char) : utf8Char c = String.utf8EncodeChar c := by
  have hval : c.toNat < 0xd800 ∨ 0xdfff < c.toNat ∧ c.toNat < 0x110000 := c.valid
  have e : c.val.toNat = c.toNat := rfl
  unfold utf8Char String.utf8EncodeChar
  simp only [e]
  generalize c.toNat = n at *
  by_cases h1 : n < 0x80
  · rw [if_pos h1, if_pos (by omega)]
  by_cases h2 : n < 0x800
  · rw [if_neg h1, if_pos h2, if_neg (by omega), if_pos (by omega), show n / 64 % 0x20 + 0xc0 = 0xC0 + n / 64 by omega,
      Nat.add_comm (n % 0x40)]
  by_cases h3 : n < 0x10000
  · rw [if_neg h1, if_neg h2, if_pos h3, if_neg (by omega), if_neg (by omega), if_pos (by omega),
      show n / 4096 % 0x10 + 0xe0 = 0xE0 + n / 4096 by omega, Nat.add_comm (n % 0x40), Nat.add_comm (n / 64 % 0x40)]
  · rw [if_neg h1, if_neg h2, if_neg h3, if_neg (by omega), if_neg (by omega), if_neg (by omega),
      show n / 262144 % 0x08 + 0xf0 = 0xF0 + n / 262144 by omega, Nat.add_comm (n % 0x40), Nat.add_comm (n / 64 % 0x40),
      Nat.add_comm (n / 4096 % 0x40)]

end Gpgpdump
