import Verif.ThmControl
import Verif.ThmRender
import Verif.ThmEmbed
import Verif.ThmCLI

/-!
# C75: the text of a result determines the result

`C29_ambiguous` shows that two trees may have the same text. The trees `Parse` returns are not like that: their text can be read back.
-/

namespace Gpgpdump
open Spec Spec.Json P Src

/-! ## Reading a line -/

namespace ReadBack

/-- the last " (" of a line: what is before it and what is behind it -/
def noteOf : Str → Option (Str × Str)
  | [] => none
  | c :: r =>
    match noteOf r with
    | some (x, y) => some (c :: x, y)
    | none => if c = ' ' ∧ r.head? = some '(' then some ([], r.tail) else none

/-- the names of items that have no note if they have a value -/
def freeNames : List Str :=
  ["Hash Algorithm", "Public-key Algorithm", "Symmetric Algorithm", "AEAD Algorithm", "Compression Algorithm", "Signiture Type", "ECC Curve OID",
   "String-to-Key (S2K) Algorithm", "Flag", "User ID", "File name", "Name", "Value", "Additional resultrmation", "GNU-divert-to-card", "Count",
   "Public key creation time", "Key ID", "Class", "Level", "Trust amount", "Chunk size", "Type", "Signature creation time", "Creation time",
   "Signature Creation Time (sub 2)", "Signature Creation Time <critical> (sub 2)", "Issuer (sub 16)", "Issuer <critical> (sub 16)",
   "Regular Expression (sub 6)", "Regular Expression <critical> (sub 6)", "Preferred Key Server (sub 24)", "Preferred Key Server <critical> (sub 24)",
   "Policy URI (sub 26)", "Policy URI <critical> (sub 26)", "Signer's User ID (sub 28)", "Signer's User ID <critical> (sub 28)"].map String.toList

def isFree (n : Str) : Bool := freeNames.contains n

def mdcLine : Str := "MDC (SHA-1 (20 bytes))".toList

/-- name, value and note of a line -/
def decode (s : Str) : Str × Str × Str :=
  match s.dropWhile (· != ':') with
  | [] =>
    if s = mdcLine then ("MDC".toList, [], "SHA-1 (20 bytes)".toList)
    else match noteOf s with
      | some (x, y) => (x, [], y.dropLast)
      | none => (s, [], [])
  | _ :: r =>
    if isFree (s.takeWhile (· != ':')) then (s.takeWhile (· != ':'), r.tail, [])
    else match noteOf r.tail with
      | some (x, y) => (s.takeWhile (· != ':'), x, y.dropLast)
      | none => (s.takeWhile (· != ':'), r.tail, [])

def hexDigit (c : Char) : Bool := ('0' ≤ c && c ≤ '9') || ('a' ≤ c && c ≤ 'f')

/-- a line of octets -/
def isDump : Str → Bool
  | a :: b :: r => hexDigit a && hexDigit b && (r.head? == none || r.head? == some ' ')
  | _ => false

def upperName (n : Str) : Bool :=
  (match n with | c :: _ => 'A' ≤ c && c ≤ 'Z' | [] => false) && !n.contains ':' && n.take 4 != "MDC ".toList

def lowerNames : List Str :=
  ["symmetric key (encoded)", "nonce for the AEAD", "2-octet checksum", "certification digests"].map String.toList

def okName (n : Str) : Bool := upperName n || lowerNames.contains n

/-- an item that can be read back from its lines -/
structure Row (i : Item) : Prop where
  dump : i.dump = [] ∨ isDump i.dump = true
  name : okName i.name = true
  line : decode (itemLine i) = (i.name, i.value, i.note)

theorem noteOf_none {s : Str} (h : '(' ∉ s) : noteOf s = none := by
  induction s with
  | nil => rfl
  | cons c s ih =>
    rw [noteOf, ih fun hm => h (List.mem_cons_of_mem _ hm)]
    dsimp only
    rw [if_neg]
    rintro ⟨-, hh⟩
    cases s with
    | nil => cases hh
    | cons c' s => cases hh; exact h (by simp)

theorem noteOf_append {s x y : Str} (a : Str) (h : noteOf s = some (x, y)) : noteOf (a ++ s) = some (a ++ x, y) := by
  induction a with
  | nil => exact h
  | cons c a ih => rw [List.cons_append, noteOf, ih]; rfl

theorem noteOf_close {t : Str} (h : noteOf t = none) : noteOf (t ++ [')']) = none := by
  induction t with
  | nil => decide
  | cons c t ih =>
    rw [noteOf] at h
    cases ht : noteOf t with
    | some p => rw [ht] at h; cases h
    | none =>
      rw [ht] at h
      dsimp only at h
      split at h
      · cases h
      · rename_i hn
        rw [List.cons_append, noteOf, ih ht]
        dsimp only
        rw [if_neg]
        rintro ⟨h1, h2⟩
        refine hn ⟨h1, ?_⟩
        cases t with
        | nil => cases h2
        | cons c' t => exact h2

theorem noteOf_note {t : Str} (a : Str) (h : noteOf t = none) : noteOf (a ++ (S " (" ++ t ++ S ")")) = some (a, t ++ [')']) := by
  have h1 : noteOf (S " (" ++ t ++ S ")") = some ([], t ++ [')']) := by
    show noteOf (' ' :: '(' :: (t ++ [')'])) = _
    have h2 : noteOf ('(' :: (t ++ [')'])) = none := by
      rw [noteOf, noteOf_close h]
      dsimp only
      rw [if_neg (by rintro ⟨h, -⟩; revert h; decide)]
    rw [noteOf, h2]
    rfl
  rw [noteOf_append a h1, List.append_nil]

theorem okName_colon {n : Str} (h : okName n = true) : ':' ∉ n := by
  unfold okName at h
  rw [Bool.or_eq_true] at h
  rcases h with h | h
  · unfold upperName at h
    simp only [Bool.and_eq_true, Bool.not_eq_true', List.contains_eq_mem, decide_eq_false_iff_not] at h
    exact h.1.2
  · rw [List.contains_iff_mem] at h
    have : ∀ n ∈ lowerNames, ':' ∉ n := by decide
    exact this n h

theorem okName_mdc {n : Str} (h : okName n = true) : n ≠ "MDC (SHA-1".toList := by
  rintro rfl
  revert h
  decide

theorem drop_colon {n r : Str} (h : ':' ∉ n) : (n ++ ':' :: r).dropWhile (· != ':') = ':' :: r ∧ (n ++ ':' :: r).takeWhile (· != ':') = n := by
  induction n with
  | nil => exact ⟨by simp, by simp⟩
  | cons c n ih =>
    have hc : (c != ':') = true := by
      rw [bne_iff_ne]; rintro rfl; exact h List.mem_cons_self
    have ih := ih fun hm => h (List.mem_cons_of_mem _ hm)
    rw [List.cons_append, List.dropWhile_cons, List.takeWhile_cons, if_pos hc, if_pos hc, ih.1, ih.2]
    exact ⟨rfl, rfl⟩

theorem drop_none {s : Str} (h : ':' ∉ s) : s.dropWhile (· != ':') = [] := by
  induction s with
  | nil => rfl
  | cons c n ih =>
    have hc : (c != ':') = true := by
      rw [bne_iff_ne]; rintro rfl; exact h List.mem_cons_self
    rw [List.dropWhile_cons, if_pos hc, ih fun hm => h (List.mem_cons_of_mem _ hm)]

theorem colon_line {n : Str} (v r : Str) : n ++ (S ": " ++ v) ++ r = n ++ ':' :: ' ' :: (v ++ r) := by
  show n ++ (':' :: ' ' :: v) ++ r = _
  rw [List.append_assoc]; rfl

/-! ## Kinds of items -/

theorem line_mk (n v d t : Str) (is : List Item) :
    itemLine (.mk n v d t is) = n ++ (if v = [] then [] else S ": " ++ v) ++ (if t = [] then [] else S " (" ++ t ++ S ")") := rfl

section
variable {n v t d : Str} {is : List Item}

theorem row_free (hn : okName n = true) (hf : isFree n = true) (hv : v ≠ []) (hd : d = [] ∨ isDump d = true) : Row (.mk n v d [] is) := by
  refine ⟨hd, hn, ?_⟩
  show _ = (n, v, [])
  rw [line_mk, if_neg hv, if_pos rfl, colon_line]
  unfold decode
  rw [(drop_colon (okName_colon hn)).1, (drop_colon (okName_colon hn)).2]
  dsimp only
  rw [if_pos hf, List.tail_cons, List.append_nil]

theorem row_value (hn : okName n = true) (hf : isFree n = false) (hv : v ≠ []) (h : noteOf v = none) (hd : d = [] ∨ isDump d = true) :
    Row (.mk n v d [] is) := by
  refine ⟨hd, hn, ?_⟩
  show _ = (n, v, [])
  rw [line_mk, if_neg hv, if_pos rfl, colon_line]
  unfold decode
  rw [(drop_colon (okName_colon hn)).1, (drop_colon (okName_colon hn)).2]
  dsimp only
  rw [if_neg (by rw [hf]; decide), List.tail_cons, List.append_nil, h]

theorem row_both (hn : okName n = true) (hf : isFree n = false) (hv : v ≠ []) (ht : t ≠ []) (h : noteOf t = none) (hd : d = [] ∨ isDump d = true) :
    Row (.mk n v d t is) := by
  refine ⟨hd, hn, ?_⟩
  show _ = (n, v, t)
  rw [line_mk, if_neg hv, if_neg ht, colon_line]
  unfold decode
  rw [(drop_colon (okName_colon hn)).1, (drop_colon (okName_colon hn)).2]
  dsimp only
  rw [if_neg (by rw [hf]; decide), List.tail_cons, noteOf_note v h]
  dsimp only
  rw [List.dropLast_concat]

theorem row_note (hn : okName n = true) (ht : t ≠ []) (h : noteOf t = none) (hc : ':' ∉ t) (hd : d = [] ∨ isDump d = true) : Row (.mk n [] d t is) := by
  refine ⟨hd, hn, ?_⟩
  show _ = (n, [], t)
  rw [line_mk, if_pos rfl, if_neg ht, List.append_nil]
  have e := noteOf_note n h
  unfold decode
  rw [drop_none]
  · dsimp only
    rw [if_neg, e]
    · dsimp only
      rw [List.dropLast_concat]
    · intro he
      rw [he, show noteOf mdcLine = some ("MDC (SHA-1".toList, "20 bytes))".toList) by decide] at e
      exact okName_mdc hn (congrArg Prod.fst (Option.some.inj e)).symm
  · have h1 : ':' ∉ S " (" := by decide
    have h2 : ':' ∉ S ")" := by decide
    simp only [List.mem_append, not_or]
    exact ⟨okName_colon hn, ⟨h1, hc⟩, h2⟩

theorem row_bare (hn : okName n = true) (h : noteOf n = none) (hd : d = [] ∨ isDump d = true) : Row (.mk n [] d [] is) := by
  refine ⟨hd, hn, ?_⟩
  show _ = (n, [], [])
  rw [line_mk, if_pos rfl, if_pos rfl, List.append_nil, List.append_nil]
  unfold decode
  rw [drop_none (okName_colon hn)]
  dsimp only
  rw [if_neg, h]
  rintro rfl
  revert h
  decide

theorem row_mdc (hd : d = [] ∨ isDump d = true) : Row (.mk "MDC".toList [] d "SHA-1 (20 bytes)".toList is) := by
  refine ⟨hd, ?_, ?_⟩
  · show okName "MDC".toList = true
    decide
  · show decode (itemLine (.mk "MDC".toList [] [] "SHA-1 (20 bytes)".toList [])) = ("MDC".toList, [], "SHA-1 (20 bytes)".toList)
    decide

end

/-! ## Texts -/

theorem digitsAux_mem {b : Nat} {f : Nat → Char} {p : Char → Prop} (hb : 0 < b) (hf : ∀ n < b, p (f n)) (fuel n : Nat) :
    ∀ c ∈ digitsAux b f fuel n, p c := by
  induction fuel generalizing n with
  | zero => intro c hc; rw [digitsAux, List.mem_singleton] at hc; subst hc; exact hf _ (Nat.mod_lt _ hb)
  | succ fuel ih =>
    rw [digitsAux]
    split
    · intro c hc; rw [List.mem_singleton] at hc; subst hc; exact hf _ ‹_›
    · intro c hc
      rcases List.mem_append.mp hc with hc | hc
      · exact ih _ c hc
      · rw [List.mem_singleton] at hc; subst hc; exact hf _ (Nat.mod_lt _ hb)

/-- neither a colon nor a parenthesis -/
def Plain (s : Str) : Prop := ∀ c ∈ s, c ≠ ':' ∧ c ≠ '('

theorem Plain.note {s} (h : Plain s) : noteOf s = none := noteOf_none fun hm => (h _ hm).2 rfl
theorem Plain.colon {s} (h : Plain s) : ':' ∉ s := fun hm => (h _ hm).1 rfl
theorem Plain.append {a b} (ha : Plain a) (hb : Plain b) : Plain (a ++ b) := fun c hc => (List.mem_append.mp hc).elim (ha c) (hb c)
theorem plain_lit {s : Str} (h : s.all (fun c => c != ':' && c != '(') = true) : Plain s := by
  intro c hc
  have := List.all_eq_true.mp h c hc
  simpa using this
theorem plain_dec (n) : Plain (dec n) := by
  refine digitsAux_mem (by omega) (fun k hk => ?_) _ _
  have : ∀ k : Fin 10, digit k.val ≠ ':' ∧ digit k.val ≠ '(' := by decide
  exact this ⟨k, hk⟩
theorem plain_decInt (n) : Plain (decInt n) := by
  unfold decInt
  split
  · intro c hc
    rcases List.mem_cons.mp hc with rfl | hc
    · decide
    · exact plain_dec _ c hc
  · exact plain_dec _
theorem plain_size (n) : Plain (sizeText n) := (plain_dec n).append (plain_lit (by decide))
theorem plain_bits (n) : Plain (dec n ++ " bits".toList) := (plain_dec n).append (plain_lit (by decide))

theorem ne_append {a b : Str} (h : b ≠ []) : a ++ b ≠ [] := fun e => h (List.append_eq_nil_iff.mp e).2
theorem size_ne (n) : sizeText n ≠ [] := ne_append (by decide)
theorem bits_ne (n) : dec n ++ " bits".toList ≠ [] := ne_append (by decide)
theorem dec_ne (n) : dec n ≠ [] := by
  unfold dec
  cases n.log2 with
  | zero => rw [digitsAux]; simp
  | succ k => rw [digitsAux]; split <;> simp

theorem hex_digit (b : UInt8) : (match hexOctet b with | [x, y] => hexDigit x && hexDigit y | _ => false) = true :=
  byOctet (p := fun b => (match hexOctet b with | [x, y] => hexDigit x && hexDigit y | _ => false) = true) (by decide +kernel) b

theorem dump_octet (b : UInt8) {r : Str} (h : (r.head? == none || r.head? == some ' ') = true) : isDump (hexOctet b ++ r) = true := by
  have hb := hex_digit b
  unfold hexOctet at hb ⊢
  dsimp only at hb
  simp only [List.cons_append, List.nil_append, isDump, h, Bool.and_true]
  exact hb

theorem dump_hex (b : Bytes) : hexText b = [] ∨ isDump (hexText b) = true := by
  match b with
  | [] => exact .inl rfl
  | [b] => exact .inr (by rw [hexText, ← List.append_nil (hexOctet b)]; exact dump_octet b rfl)
  | b :: c :: bs => exact .inr (dump_octet b rfl)

theorem dump_if (f : Bool) (b : Bytes) : dumpIf f b = [] ∨ isDump (dumpIf f b) = true := by
  unfold dumpIf
  split
  · exact dump_hex b
  · exact .inl rfl

theorem dump_nil : ([] : Str) = [] ∨ isDump [] = true := .inl rfl

/-! ## Names -/

theorem upper_ok {n : Str} (h : upperName n = true) : okName n = true := by unfold okName; rw [h]; rfl

theorem upper_append {a b : Str} (h : upperName a = true) (hl : 4 ≤ a.length) (hb : ':' ∉ b) : upperName (a ++ b) = true := by
  unfold upperName at h ⊢
  simp only [Bool.and_eq_true, Bool.not_eq_true', List.contains_eq_mem, decide_eq_false_iff_not, bne_iff_ne] at h ⊢
  obtain ⟨⟨h1, h2⟩, h3⟩ := h
  refine ⟨⟨?_, ?_⟩, ?_⟩
  · cases a with
    | nil => simp at hl
    | cons c a => exact h1
  · rw [List.mem_append, not_or]; exact ⟨h2, hb⟩
  · rw [List.take_append_of_le_length hl]; exact h3

theorem close_colon {n : Nat} {a : Str} (ha : ':' ∉ a) : ':' ∉ a ++ dec n ++ ")".toList := by
  have h2 : ':' ∉ ")".toList := by decide
  simp only [List.mem_append, not_or]
  exact ⟨⟨ha, (plain_dec n).colon⟩, h2⟩

theorem packetName_ok (tag) : upperName (packetName tag).toList = true ∧ 4 ≤ (packetName tag).toList.length := by
  unfold packetName
  split <;> decide

theorem packet_ok (tag) : okName ((packetName tag).toList ++ " (tag ".toList ++ dec tag ++ ")".toList) = true := by
  rw [List.append_assoc, List.append_assoc]
  refine upper_ok (upper_append (packetName_ok tag).1 (packetName_ok tag).2 ?_)
  rw [← List.append_assoc]
  exact close_colon (by decide)

theorem sub_ok (t) : okName (subName t) = true := byOctet (p := fun t => okName (subName t) = true) (by decide +kernel) t

theorem sub_free (t) : isFree (subName t) = decide (t.toNat % 128 ∈ [2, 16, 6, 24, 26, 28]) :=
  byOctet (p := fun t => isFree (subName t) = decide (t.toNat % 128 ∈ [2, 16, 6, 24, 26, 28])) (by decide +kernel) t

/-! ## All items of a result -/

/-- every item in the list and below can be read back -/
def Rows (is : List Item) : Prop := ∀ i ∈ is, Each Row i

theorem rows_nil : Rows [] := fun _ h => by cases h
theorem Rows.cons {i is} (h : Each Row i) (hs : Rows is) : Rows (i :: is) := fun j hj => by
  rcases List.mem_cons.mp hj with rfl | hj
  · exact h
  · exact hs j hj
theorem Rows.append {is js} (h : Rows is) (hs : Rows js) : Rows (is ++ js) := fun j hj => (List.mem_append.mp hj).elim (h j) (hs j)
theorem rows_cons_iff {i is} : Rows (i :: is) ↔ Each Row i ∧ Rows is :=
  ⟨fun h => ⟨h i List.mem_cons_self, fun j hj => h j (List.mem_cons_of_mem _ hj)⟩, fun h => .cons h.1 h.2⟩
theorem rows_append_iff {is js} : Rows (is ++ js) ↔ Rows is ∧ Rows js :=
  ⟨fun h => ⟨fun j hj => h j (List.mem_append_left _ hj), fun j hj => h j (List.mem_append_right _ hj)⟩, fun h => .append h.1 h.2⟩

theorem each_mk {n v d t is} (h : Row (.mk n v d t is)) (hs : Rows is) : Each Row (.mk n v d t is) := .mk h hs
theorem each_leaf {n v d t} (h : Row (.mk n v d t [])) : Each Row (leaf n v t d) := .mk h rows_nil

/-- the environment prints times and durations without parentheses, and prints something -/
structure TimeX (X : Ext) : Prop where
  time : ∀ t, '(' ∉ X.localTime t
  timeNe : ∀ t, X.localTime t ≠ []
  days : ∀ t, '(' ∉ X.days t

section
variable {o : OptCode → Bool} {X : Ext}

theorem each_hash (b) : Each Row (hashRow o b) := each_leaf (row_free (by decide) (by decide) (ne_append (by decide)) (dump_if _ _))
theorem each_pub (b) : Each Row (pubRow o b) := each_leaf (row_free (by decide) (by decide) (ne_append (by decide)) (dump_if _ _))
theorem each_sym (b) : Each Row (symRow o b) := each_leaf (row_free (by decide) (by decide) (ne_append (by decide)) (dump_if _ _))
theorem each_aead (b) : Each Row (aeadRow o b) := each_leaf (row_free (by decide) (by decide) (ne_append (by decide)) (dump_if _ _))
theorem each_comp (b) : Each Row (compRow o b) := each_leaf (row_free (by decide) (by decide) (ne_append (by decide)) (dump_if _ _))
theorem each_sigType (b) : Each Row (sigTypeRow o b) := each_leaf (row_free (by decide) (by decide) (ne_append (by decide)) (dump_if _ _))

theorem each_version (c d v) : Each Row (versionRow o c d v) := by
  have h : ∀ t ∈ ["old".toList, "current".toList, "draft".toList, "unknown".toList], t ≠ [] ∧ noteOf t = none := by decide
  refine each_leaf (row_both (by decide) (by decide) (dec_ne _) (h _ ?_).1 (h _ ?_).2 (dump_if _ _)) <;>
  · repeat' split
    all_goals simp

theorem each_keyID (k) : Each Row (keyIDRow k) :=
  each_leaf (row_free (by decide) (by decide) (fun h => by have := (List.append_eq_nil_iff.mp h).1; revert this; decide) dump_nil)
theorem each_left16 (k) : Each Row (left16Row k) := each_leaf (row_bare (by decide) (by decide) (dump_hex _))

theorem utf8Decode_ne {b : Bytes} {cs} (hb : b ≠ []) (h : utf8Decode b = some cs) : cs ≠ [] := by
  cases b with
  | nil => exact absurd rfl hb
  | cons c b =>
    obtain ⟨_, _, _, -, rfl, -⟩ := utf8Decode_step c b cs h
    exact List.cons_ne_nil _ _

theorem each_text {n : Str} (hn : okName n = true) (hf : isFree n = true) (f b) : Each Row (textRow n f b) := by
  unfold textRow
  split
  · exact each_leaf (row_note hn (by decide) (by decide) (by decide) dump_nil)
  · split
    · exact each_leaf (row_note hn (by decide) (by decide) (by decide) (dump_hex _))
    · rename_i hb _ cs hcs
      refine each_leaf (row_free hn hf ?_ (dump_if _ _))
      have := utf8Decode_ne hb hcs
      cases cs with
      | nil => exact absurd rfl this
      | cons c cs =>
        rw [List.flatMap_cons]
        intro h
        have := (List.append_eq_nil_iff.mp h).1
        split at this
        · exact absurd (List.append_eq_nil_iff.mp this).2 (by decide)
        · cases this

theorem rows_unknown (q) : Rows (unknownRows o q) := by
  unfold unknownRows
  split
  · exact rows_nil
  · exact .cons (each_leaf (row_note (by decide) (size_ne _) (plain_size _).note (plain_size _).colon (dump_if _ _))) rows_nil

/-- a row with a size -/
theorem each_size {n d : Str} {is k} (hn : okName n = true) (hd : d = [] ∨ isDump d = true) (hs : Rows is) : Each Row (.mk n [] d (sizeText k) is) :=
  each_mk (row_note hn (size_ne _) (plain_size _).note (plain_size _).colon hd) hs
theorem leaf_size {n d : Str} {k} (hn : okName n = true) (hd : d = [] ∨ isDump d = true) : Each Row (leaf n [] (sizeText k) d) :=
  each_size hn hd rows_nil

theorem each_kdf (k) : Each Row (kdfRow o k) := by
  unfold kdfRow
  split
  · exact each_size (by decide) (dump_if _ _) (.cons (each_hash _) (.cons (each_sym _) rows_nil))
  · exact each_leaf (row_both (by decide) (by decide) (by decide) (size_ne _) (plain_size _).note (dump_if _ _))

/-- every integer is labelled by a name -/
def NamedSlots (ss : List Slot) : Prop := ∀ s ∈ ss, match s with
  | .int l => okName l.toList = true
  | .point l => upperName l.toList = true ∧ 4 ≤ l.toList.length
  | _ => True

theorem point_ok {l : String} (h : upperName l.toList = true ∧ 4 ≤ l.toList.length) (x) :
    okName (l.toList ++ " EC point (".toList ++ (pointFormat x).toList ++ ")".toList) = true := by
  have e : ∀ x, ':' ∉ (pointFormat x).toList := by
    intro x
    unfold pointFormat
    split <;> decide
  have e1 : ':' ∉ " EC point (".toList := by decide
  have e2 : ':' ∉ ")".toList := by decide
  rw [List.append_assoc, List.append_assoc]
  refine upper_ok (upper_append h.1 h.2 ?_)
  simp only [List.mem_append, not_or]
  exact ⟨e1, e x, e2⟩

theorem curve_ne (oid) : (curveName oid).toList ≠ [] := by
  unfold curveName
  have hall : ∀ p ∈ curves, p.2.toList ≠ [] := by decide
  cases hc : curves.lookup oid with
  | none => rw [Option.getD_none]; decide
  | some s =>
    obtain ⟨l1, l2, he, -⟩ := List.lookup_eq_some_iff.mp hc
    exact hall (oid, s) (by rw [he]; simp)

theorem rows_slots {ss f q is} (h : SlotRows o ss f q is) : NamedSlots ss → Rows is := by
  induction h with
  | nil => intro _; exact rows_nil
  | int hb hl h ih =>
    intro hp
    exact .cons (each_leaf (row_note (hp _ List.mem_cons_self) (bits_ne _) (plain_bits _).note (plain_bits _).colon (dump_if _ _)))
      (ih fun l hl => hp l (List.mem_cons_of_mem _ hl))
  | point hb hl h ih =>
    intro hp
    exact .cons (each_leaf (row_note (point_ok (hp _ List.mem_cons_self) _) (bits_ne _) (plain_bits _).note (plain_bits _).colon (dump_if _ _)))
      (ih fun l hl => hp l (List.mem_cons_of_mem _ hl))
  | curve hl h ih =>
    intro hp
    exact .cons (each_leaf (row_free (by decide) (by decide) (curve_ne _) (dump_hex _))) (ih fun l hl => hp l (List.mem_cons_of_mem _ hl))
  | kdf hl h ih =>
    intro hp
    exact .cons (each_kdf _) (ih fun l hl => hp l (List.mem_cons_of_mem _ hl))
  | wrapped hl h ih =>
    intro hp
    exact .cons (leaf_size (by decide) (dump_if _ _)) (ih fun l hl => hp l (List.mem_cons_of_mem _ hl))
  | kdfMissing => intro _; exact .cons (each_kdf _) rows_nil
  | wrappedMissing => intro _; exact .cons (leaf_size (by decide) dump_nil) rows_nil

theorem rows_cut {ss q is} (h : SlotsCut o ss q is) : NamedSlots ss → Rows is := by
  induction h with
  | here => intro _; exact rows_nil
  | next hb hl h ih =>
    intro hp
    exact .cons (each_leaf (row_note (hp _ List.mem_cons_self) (bits_ne _) (plain_bits _).note (plain_bits _).colon (dump_if _ _)))
      (ih fun l hl => hp l (List.mem_cons_of_mem _ hl))

theorem named_all {ss : List Slot} (h : ss.all (fun s => match s with | .int l => okName l.toList | .point l => upperName l.toList && decide (4 ≤ l.toList.length) | _ => true) = true) :
    NamedSlots ss := by
  intro s hs
  have := List.all_eq_true.mp h s hs
  cases s with
  | int l => exact this
  | point l => simpa using this
  | _ => trivial

/-- a table of slots with such labels -/
macro "namedSlots" : tactic =>
  `(tactic| (intro a ss h
             repeat' split at h
             all_goals first
               | (cases h; done)
               | (cases h; exact named_all (by decide))))

theorem pub_named : ∀ a ss, pubSlots a = some ss → NamedSlots ss := by unfold pubSlots; namedSlots
theorem sig_named : ∀ a ss, sigSlots a = some ss → NamedSlots ss := by unfold sigSlots; namedSlots
theorem ses_named : ∀ a ss, sesSlots a = some ss → NamedSlots ss := by unfold sesSlots; namedSlots
theorem sec_named : ∀ a ss, secSlots a = some ss → NamedSlots ss := by unfold secSlots; namedSlots

theorem opaque_ok (a) : okName (opaqueName a) = true := byOctet (p := fun a => okName (opaqueName a) = true) (by decide +kernel) a
theorem encrypted_ok (a) : okName (encryptedName a) = true := byOctet (p := fun a => okName (encryptedName a) = true) (by decide +kernel) a
theorem secretUnknown_ok (a : UInt8) : okName ("Multi-precision integers of unknown secret key (pub ".toList ++ dec a.toNat ++ ")".toList) = true :=
  byOctet (p := fun a => okName ("Multi-precision integers of unknown secret key (pub ".toList ++ dec a.toNat ++ ")".toList) = true) (by decide +kernel) a

theorem rows_integers {slots : UInt8 → Option (List Slot)} (hs : ∀ a ss, slots a = some ss → NamedSlots ss) {a f q is} (h : Integers o slots a f q is) :
    Rows is := by
  cases h with
  | known ha h => exact rows_slots h (hs _ _ ha)
  | unknown => exact .cons (leaf_size (opaque_ok _) (dump_if _ _)) rows_nil

theorem rows_secretInts {a f q is} (h : SecretInts o a f q is) : Rows is := by
  cases h with
  | known ha h => exact rows_slots h (sec_named _ _ ha)
  | unknown => exact .cons (leaf_size (secretUnknown_ok _) (dump_if _ _)) rows_nil

theorem each_s2kRow (t) {is} (hs : Rows is) : Each Row (s2kRow o t is) :=
  each_mk (row_free (by decide) (by decide) (ne_append (by decide)) (dump_if _ _)) hs
theorem each_gnuRow (t) {is} (hs : Rows is) : Each Row (gnuRow t is) :=
  each_mk (row_free (by decide) (by decide) (ne_append (dec_ne _)) dump_nil) hs
theorem each_salt (s) : Each Row (saltRow s) := each_leaf (row_bare (by decide) (by decide) (dump_hex _))
theorem each_count (c) : Each Row (countRow c) := each_leaf (row_free (by decide) (by decide) (dec_ne _) (dump_hex _))

theorem each_s2k {iv f q i} (h : S2KShown o iv f q i) : Each Row i := by
  cases h with
  | simple => exact each_s2kRow _ (.cons (each_hash _) rows_nil)
  | salted => exact each_s2kRow _ (.cons (each_hash _) (.cons (each_salt _) rows_nil))
  | iterated => exact each_s2kRow _ (.cons (each_hash _) (.cons (each_salt _) (.cons (each_count _) rows_nil)))
  | gnu => exact each_s2kRow _ (.cons (each_gnuRow _ rows_nil) rows_nil)
  | card => exact each_s2kRow _ (.cons (each_gnuRow _ (.cons (each_leaf (row_bare (by decide) (by decide) (dump_hex _))) rows_nil)) rows_nil)
  | notGnu => exact each_s2kRow _ rows_nil
  | other => exact each_s2kRow _ rows_nil

theorem rfc3339_ne (t) : rfc3339UTC t ≠ [] := by
  unfold rfc3339UTC
  exact ne_append (by decide)

theorem moment_ne (hT : TimeX X) (tm) : momentText o X tm ≠ [] := by
  unfold momentText
  split
  · exact rfc3339_ne _
  · exact hT.timeNe _

theorem leaf_moment (hT : TimeX X) {n : Str} (hn : okName n = true) (hf : isFree n = true) (tm b f) :
    Each Row (leaf n (momentText o X tm) [] (dumpIf f b)) :=
  each_leaf (row_free hn hf (moment_ne hT tm) (dump_if _ _))

theorem rows_pubShown (hT : TimeX X) {v a f q is} (h : PubShown o X v a f q is) : Rows is := by
  cases h with
  | v3 ht hd h =>
    exact .cons (leaf_moment hT (by decide) (by decide) _ _ _) (.cons (each_leaf (row_both (by decide) (by decide) (dec_ne _) (by decide) (by decide) dump_nil))
      (.cons (each_pub _) (rows_integers pub_named h)))
  | v4 ht h => exact .cons (leaf_moment hT (by decide) (by decide) _ _ _) (.cons (each_pub _) (rows_integers pub_named h))
  | v5 ht hl h => exact .cons (leaf_moment hT (by decide) (by decide) _ _ _) (.cons (each_pub _) (rows_integers pub_named h))
  | other => exact rows_nil

theorem rows_options {u c iv f q is} (h : OptionsShown o u c iv f q is) : Rows is := by
  cases h with
  | plain => exact rows_nil
  | s2k hu h => exact .cons (each_sym _) (.cons (each_s2k h) rows_nil)
  | aead h => exact .cons (each_sym _) (.cons (each_aead _) (.cons (each_s2k h) rows_nil))
  | cipher => exact .cons (each_sym _) rows_nil

theorem rows_iv {u c iv n is} (h : IVShown u c iv n is) : Rows is := by
  cases h with
  | none => exact rows_nil
  | iv => exact .cons (each_leaf (row_bare (by decide) (by decide) (dump_hex _))) rows_nil
  | nonce => exact .cons (each_leaf (row_bare (by decide) (by decide) (dump_hex _))) rows_nil

theorem usage_ok (u) : usageNote u ≠ [] ∧ noteOf (usageNote u) = none ∧ ':' ∉ usageNote u :=
  byOctet (p := fun u => usageNote u ≠ [] ∧ noteOf (usageNote u) = none ∧ ':' ∉ usageNote u) (by decide +kernel) u

theorem each_usage (u) {is} (hs : Rows is) : Each Row (.mk "Secret-Key".toList [] [] (usageNote u) is) :=
  each_mk (row_note (by decide) (usage_ok u).1 (usage_ok u).2.1 (usage_ok u).2.2 dump_nil) hs

theorem each_checksum (c) : Each Row (checksumRow c) := each_leaf (row_bare (by decide) (by decide) (dump_hex _))

theorem each_secret {a f q i} (h : SecretShown o a f q i) : Each Row i := by
  cases h with
  | plain h hc => exact each_usage _ (.append (rows_secretInts h) (.cons (each_checksum _) rows_nil))
  | encrypted hu h hn => exact each_usage _ (.append (.append (rows_options h) (rows_iv hn)) (.cons (leaf_size (encrypted_ok _) (dump_if _ _)) rows_nil))

theorem rows_options5 {u f is} (h : Options5Shown o u f is) : Rows is := by
  cases h with
  | none => exact rows_nil
  | plain => exact rows_unknown _
  | some hu hl h hn => exact .append (.append (rows_options h) (rows_iv hn)) (rows_unknown _)

theorem rows_material {u a f q note is} (h : Material5Shown o u a f q note is) : Rows is ∧ (note = [] ∨ note = usageNote u) := by
  cases h with
  | none => exact ⟨rows_nil, .inl rfl⟩
  | encrypted => exact ⟨.cons (leaf_size (encrypted_ok _) (dump_if _ _)) rows_nil, .inr rfl⟩
  | plain h0 hl h hc => exact ⟨.append (.append (rows_secretInts h) (.cons (each_checksum _) rows_nil)) (rows_unknown _), .inr rfl⟩

theorem each_secret5 {a f q i} (h : Secret5Shown o a f q i) : Each Row i := by
  cases h with
  | mk ho hm =>
    obtain ⟨h1, rfl | rfl⟩ := rows_material hm
    · exact each_mk (row_bare (by decide) (by decide) dump_nil) (.append (rows_options5 ho) h1)
    · exact each_usage _ (.append (rows_options5 ho) h1)

theorem each_secretEither {v a f q i} (h : if v = (5 : UInt8) then Secret5Shown o a f q i else SecretShown o a f q i) : Each Row i := by
  split at h
  · exact each_secret5 h
  · exact each_secret h

/-! ## Subpackets -/

theorem each_subRow (t b) {is} (hs : Rows is) : Each Row (subRow o t b is) := each_size (sub_ok t) (dump_if _ _) hs

theorem each_subValue {t b is} {v : Str} (hf : t.toNat % 128 ∉ [2, 16, 6, 24, 26, 28]) (hv : v ≠ []) (hs : Rows is) : Each Row (subRow o t b is v) :=
  each_mk (row_both (sub_ok t) (by rw [sub_free]; exact decide_eq_false hf) hv (size_ne _) (plain_size _).note (dump_if _ _)) hs

theorem rows_map {f : UInt8 → Item} (h : ∀ b, Each Row (f b)) (l : Bytes) : Rows (l.map f) := by
  intro i hi
  obtain ⟨b, -, rfl⟩ := List.mem_map.mp hi
  exact h b

theorem each_flag {v : Str} (hv : v ≠ []) : Each Row (leaf "Flag".toList v) := each_leaf (row_free (by decide) (by decide) hv dump_nil)

theorem rows_flags {names : List (UInt8 × String)} (hn : ∀ p ∈ names, p.2.toList ≠ []) (n b) : Rows (flagRows names n b) := by
  unfold flagRows
  refine .append ?_ ?_
  · intro i hi
    obtain ⟨p, hp, he⟩ := List.mem_filterMap.mp hi
    split at he
    · cases he; exact each_flag (hn p hp)
    · cases he
  · dsimp only
    split
    · exact .cons (each_flag (ne_append (by decide))) rows_nil
    · exact rows_nil

theorem rows_restFlags (r : Bytes) : ∀ n, Rows (restFlagRows n r) := by
  induction r with
  | nil => intro n; exact rows_nil
  | cons b r ih => intro n; exact .append (rows_flags (fun _ h => by cases h) _ _) (ih _)

theorem rows_notation (fl) : Rows (notationRows fl) := by
  unfold notationRows
  split
  · exact .append (.append (.append (rows_flags (by decide) _ _) (rows_flags (fun _ h => by cases h) _ _)) (rows_flags (fun _ h => by cases h) _ _))
      (rows_flags (fun _ h => by cases h) _ _)
  · exact rows_nil

theorem each_num {name : String} (hn : okName name.toList = true) (hf : isFree name.toList = true) (b) : Each Row (numRow name b) :=
  each_leaf (row_free hn hf (dec_ne _) dump_nil)

theorem fingerprint_ok (v) : (fingerprintNote v).toList ≠ [] ∧ noteOf (fingerprintNote v).toList = none :=
  byOctet (p := fun v => (fingerprintNote v).toList ≠ [] ∧ noteOf (fingerprintNote v).toList = none) (by decide +kernel) v

theorem class_ne (v) : (classText v).toList ≠ [] := byOctet (p := fun v => (classText v).toList ≠ []) (by decide +kernel) v

theorem rows_keyFlags (b) : Rows (keyFlagRows b) := .append (rows_flags (by decide) _ _) (rows_flags (by decide) _ _)
theorem rows_keyFlags2 (b) : Rows (keyFlagRows2 b) := rows_flags (by decide) _ _
theorem rows_features (b) : Rows (featureRows b) := rows_flags (by decide) _ _
theorem rows_server (b) : Rows (serverRows b) := rows_flags (by decide) _ _

theorem each_sub {t b i} (ht : t.toNat % 128 ∉ [2, 3, 9]) (h : SubShown o X t b i) : Each Row i := by
  cases h with
  | created h => exact absurd (by rw [h]; decide) ht
  | expires h => exact absurd (by rcases h with h | h <;> rw [h] <;> decide) ht
  | exportable h =>
    refine each_leaf (row_both (sub_ok t) (by rw [sub_free, h]; decide) ?_ (size_ne _) (plain_size _).note (dump_hex _))
    split <;> decide
  | issuer h => exact each_leaf (row_free (sub_ok t) (by rw [sub_free, h]; decide) (fun h => by have := (List.append_eq_nil_iff.mp h).1; revert this; decide) dump_nil)
  | text h => exact each_text (sub_ok t) (by rw [sub_free]; exact decide_eq_true (by simp only [List.mem_cons, List.not_mem_nil, or_false] at h ⊢; omega)) _ _
  | trust => exact each_subRow _ _ (.cons (each_num (by decide) (by decide) _) (.cons (each_num (by decide) (by decide) _) rows_nil))
  | revocable h => exact each_subValue (by rw [h]; decide) (by split <;> decide) rows_nil
  | primary h => exact each_subValue (by rw [h]; decide) (by split <;> decide) rows_nil
  | other => exact each_subRow _ _ rows_nil
  | ciphers => exact each_subRow _ _ (rows_map each_sym _)
  | hashes => exact each_subRow _ _ (rows_map each_hash _)
  | compressions => exact each_subRow _ _ (rows_map each_comp _)
  | aeads => exact each_subRow _ _ (rows_map each_aead _)
  | revoker =>
    exact each_subRow _ _ (.cons (each_leaf (row_free (by decide) (by decide) (class_ne _) (dump_hex _))) (.cons (each_pub _)
      (.cons (leaf_size (by decide) (dump_hex _)) rows_nil)))
  | «notation» =>
    refine each_subRow _ _ (.append (rows_notation _) (.cons (each_text (by decide) (by decide) _ _) (.cons ?_ rows_nil)))
    split
    · exact each_text (by decide) (by decide) _ _
    · exact each_leaf (row_bare (by decide) (by decide) (dump_hex _))
  | server => exact each_subRow _ _ (.append (rows_server _) (rows_restFlags _ _))
  | keyFlags1 => exact each_subRow _ _ (rows_keyFlags _)
  | keyFlags => exact each_subRow _ _ (.append (.append (rows_keyFlags _) (rows_keyFlags2 _)) (rows_restFlags _ _))
  | reason h =>
    refine each_subValue (by rw [h]; decide) (ne_append (by decide)) ?_
    split
    · exact rows_nil
    · exact .cons (each_text (by decide) (by decide) _ _) rows_nil
  | features => exact each_subRow _ _ (.append (rows_features _) (rows_restFlags _ _))
  | target => exact each_subRow _ _ (.cons (each_pub _) (.cons (each_hash _) (.cons (leaf_size (by decide) (dump_hex _)) rows_nil)))
  | fingerprint =>
    exact each_subRow _ _ (.cons (each_leaf (row_both (by decide) (by decide) (dec_ne _) (fingerprint_ok _).1 (fingerprint_ok _).2 dump_nil))
      (.cons (leaf_size (by decide) (dump_hex _)) rows_nil))
  | attested => exact each_subRow _ _ (.cons (leaf_size (by decide) (dump_if _ _)) rows_nil)

theorem each_imageSize (z : Int) : Each Row (leaf "Image data".toList [] (decInt z ++ " bytes".toList)) := by
  have h := (plain_decInt z).append (plain_lit (s := " bytes".toList) (by decide))
  exact each_leaf (row_note (by decide) (ne_append (by decide)) h.note h.colon dump_nil)

theorem enc_ok (e : UInt8) : noteOf ("(enc ".toList ++ dec e.toNat ++ ")".toList) = none :=
  byOctet (p := fun e => noteOf ("(enc ".toList ++ dec e.toNat ++ ")".toList) = none) (by decide +kernel) e

theorem each_attr {t b i} (h : AttrShown o t b i) : Each Row i := by
  cases h with
  | image =>
    refine each_subRow _ _ (.cons ?_ (.cons (each_imageSize _) rows_nil))
    unfold numRow
    split
    · exact each_leaf (row_value (by decide) (by decide) (dec_ne _) (plain_dec _).note dump_nil)
    · exact each_leaf (row_both (by decide) (by decide) (dec_ne _) (by decide) (by decide) dump_nil)
  | experimental =>
    refine each_subRow _ _ (.cons ?_ (.cons ?_ (.cons (each_imageSize _) rows_nil)))
    · exact each_leaf (row_both (by decide) (by decide) (dec_ne _) (by decide) (by decide) dump_nil)
    · exact each_leaf (row_both (by decide) (by decide) (by split <;> decide) (ne_append (by decide)) (enc_ok _) dump_nil)
  | other => exact each_subRow _ _ rows_nil

/-! ## Packets -/

theorem each_packetRow (tag body) {is} (hs : Rows is) : Each Row (packetRow o tag body is) := each_size (packet_ok tag) (dump_if _ _) hs

theorem each_hashed3 (hT : TimeX X) {b i} (h : Hashed3Shown o X b i) : Each Row i := by
  cases h with
  | five => exact each_size (by decide) dump_nil (.cons (each_sigType _) (.cons (leaf_moment hT (by decide) (by decide) _ _ _) rows_nil))
  | other => exact each_leaf (row_both (by decide) (by decide) (by decide) (size_ne _) (plain_size _).note (dump_if _ _))

theorem each_hashed3Cut {b i} (h : Hashed3Cut o b i) : Each Row i := by
  cases h with
  | kind => exact each_size (by decide) dump_nil rows_nil
  | time => exact each_size (by decide) dump_nil (.cons (each_sigType _) rows_nil)
  | other => exact each_mk (row_both (by decide) (by decide) (by decide) (size_ne _) (plain_size _).note dump_nil) rows_nil

theorem rows_sig3 (hT : TimeX X) {b is} (h : Sig3Shown o X b is) : Rows is := by
  cases h with
  | mk hh hk hl hf =>
    exact .cons (each_hashed3 hT hh) (.cons (each_keyID _) (.cons (each_pub _) (.cons (each_hash _) (.cons (each_left16 _)
      (.append (rows_integers sig_named hf) (rows_unknown _))))))

theorem rows_sig3Cut (hT : TimeX X) {b is} (h : Sig3Cut o X b is) : Rows is := by
  cases h with
  | size => exact rows_nil
  | hashed h => exact .cons (each_hashed3Cut h) rows_nil
  | keyID hh => exact .cons (each_hashed3 hT hh) rows_nil
  | algorithm hh => exact .cons (each_hashed3 hT hh) (.cons (each_keyID _) rows_nil)
  | hash hh => exact .cons (each_hashed3 hT hh) (.cons (each_keyID _) (.cons (each_pub _) rows_nil))
  | left hh => exact .cons (each_hashed3 hT hh) (.cons (each_keyID _) (.cons (each_pub _) (.cons (each_hash _) rows_nil)))
  | integers hh hk hl ha hc =>
    exact .cons (each_hashed3 hT hh) (.cons (each_keyID _) (.cons (each_pub _) (.cons (each_hash _) (.cons (each_left16 _) (rows_cut hc (sig_named _ _ ha))))))

theorem rows_packed (body b) : Rows (packedRows o body b) := by
  unfold packedRows
  split
  · exact rows_nil
  · refine .cons (each_comp _) ?_
    split
    · exact rows_nil
    · refine .cons ?_ rows_nil
      split
      · exact each_leaf (row_both (by decide) (by decide) (by decide) (size_ne _) (plain_size _).note (dump_if _ _))
      · exact leaf_size (by decide) (dump_if _ _)

theorem source_ok : ∀ n : Mode, sourceText n ≠ [] := by intro n; cases n <;> decide
theorem sourceNote_ok (k : Nat) (n : Mode) : sourceNote (dec k) n ≠ [] ∧ noteOf (sourceNote (dec k) n) = none ∧ ':' ∉ sourceNote (dec k) n := by
  cases n with
  | notSpecified => exact ⟨size_ne k, (plain_size k).note, (plain_size k).colon⟩
  | symEnc =>
    exact (by decide : sourceNote [] .symEnc ≠ [] ∧ noteOf (sourceNote [] .symEnc) = none ∧ ':' ∉ sourceNote [] .symEnc)
  | pubEnc =>
    exact (by decide : sourceNote [] .pubEnc ≠ [] ∧ noteOf (sourceNote [] .pubEnc) = none ∧ ':' ∉ sourceNote [] .pubEnc)

theorem literal_ok (f) : (literalFormat f).toList ≠ [] ∧ noteOf (literalFormat f).toList = none :=
  byOctet (p := fun f => (literalFormat f).toList ≠ [] ∧ noteOf (literalFormat f).toList = none) (by decide +kernel) f

/-- packets other than signatures with subpackets and encrypted data -/
theorem each_display (hT : TimeX X) {tag body i} (h : Display o X tag body i) (h2 : tag = 2 → ∀ v r, body = v :: r → v ∉ [4, 5])
    (h9 : tag ≠ 9) (h18 : tag ≠ 18) : Each Row i := by
  cases h with
  | signature hv => exact absurd hv (h2 rfl _ _ rfl)
  | encrypted => exact absurd rfl h9
  | integrity => exact absurd rfl h18
  | sessionKey hk h =>
    exact each_packetRow _ _ (.cons (each_version _ _ _) (.cons (each_keyID _) (.cons (each_pub _) (.append (rows_integers ses_named h) (rows_unknown _)))))
  | signature3 h => exact each_packetRow _ _ (.cons (each_version _ _ _) (rows_sig3 hT h))
  | signature3Cut h => exact each_packetRow _ _ (.cons (each_version _ _ _) (rows_sig3Cut hT h))
  | signatureOther => exact each_packetRow _ _ (.cons (each_version _ _ _) (rows_unknown _))
  | password h => exact each_packetRow _ _ (.cons (each_version _ _ _) (.cons (each_sym _) (.cons (each_s2k h) (rows_unknown _))))
  | passwordOther => exact each_packetRow _ _ (.cons (each_version _ _ _) (rows_unknown _))
  | onePass =>
    refine each_packetRow _ _ (.cons (each_version _ _ _) (.cons (each_sigType _) (.cons (each_hash _) (.cons (each_pub _) (.cons (each_keyID _)
      (.cons (each_leaf (row_both (by decide) (by decide) (by split <;> decide) ?_ ?_ dump_nil)) (rows_unknown _)))))))
    · rename_i last _ _
      exact byOctet (p := fun last => "flag 0x".toList ++ hexOctet last ≠ []) (by decide +kernel) last
    · rename_i last _ _
      exact byOctet (p := fun last => noteOf ("flag 0x".toList ++ hexOctet last) = none) (by decide +kernel) last
  | publicKey ht h => exact each_packetRow _ _ (.cons (each_version _ _ _) (.append (rows_pubShown hT h) (rows_unknown _)))
  | secretKey ht h hs =>
    exact each_packetRow _ _ (.cons (each_version _ _ _) (.cons (each_mk (row_bare (by decide) (by decide) dump_nil) (rows_pubShown hT h))
      (.cons (each_secretEither hs) (rows_unknown _))))
  | compressed => exact each_packetRow _ _ (rows_packed _ _)
  | marker => exact each_packetRow _ _ (.cons (leaf_size (by decide) (dump_if _ _)) rows_nil)
  | literal =>
    refine each_packetRow _ _ (.cons (each_leaf (row_both (by decide) (by decide) (by simp) (literal_ok _).1 (literal_ok _).2 dump_nil))
      (.cons (each_text (by decide) (by decide) _ _) (.cons (each_leaf (row_free (by decide) (by decide) ?_ (dump_if _ _)))
        (.cons (leaf_size (by decide) (dump_if _ _)) rows_nil))))
    split
    · decide
    · exact moment_ne hT _
  | trust => exact each_packetRow _ _ (.cons (leaf_size (by decide) (dump_hex _)) rows_nil)
  | userID => exact each_packetRow _ _ (.cons (each_text (by decide) (by decide) _ _) rows_nil)
  | userAttribute hs h =>
    refine each_packetRow _ _ (.cons (each_size (by decide) (dump_if _ _) ?_) rows_nil)
    clear hs
    induction h with
    | nil => exact rows_nil
    | cons h _ ih => exact .cons (each_attr h) ih
  | mdc => exact each_packetRow _ _ (.cons (each_leaf (row_mdc (dump_if _ _))) rows_nil)
  | aead =>
    refine each_packetRow _ _ (.cons (each_version _ _ _) (.cons (each_sym _) (.cons (each_aead _) (.cons (each_leaf (row_free (by decide) (by decide) (dec_ne _) (dump_hex _)))
      (.cons (each_leaf (row_bare (by decide) (by decide) (dump_hex _))) ?_)))))
    split
    · exact rows_nil
    · exact .cons (leaf_size (by decide) (dump_if _ _)) rows_nil
  | aeadCut =>
    exact each_packetRow _ _ (.cons (each_version _ _ _) (.cons (each_sym _) (.cons (each_aead _)
      (.cons (each_leaf (row_free (by decide) (by decide) (dec_ne _) (dump_hex _))) rows_nil))))
  | other => exact each_packetRow _ _ rows_nil

/-- the text of a date has no parenthesis -/
theorem paren_utc (t) : '(' ∉ rfc3339UTC t := by
  have hz : ∀ w n, Plain (zpad w (dec n)) := by
    intro w n
    refine Plain.append ?_ (plain_dec n)
    intro c hc
    rw [List.eq_of_mem_replicate hc]
    decide
  have hp : ∀ w n, '(' ∉ zpad w (dec n) := fun w n hm => (hz w n _ hm).2 rfl
  unfold rfc3339UTC
  simp only [List.mem_append, List.mem_cons, List.not_mem_nil, not_or, hp, not_false_eq_true, true_and, and_true]
  decide

theorem date_ok (hT : TimeX X) (n) : dateText o X n ≠ [] ∧ noteOf (dateText o X n) = none := by
  unfold dateText
  split
  · exact ⟨rfc3339_ne _, noteOf_none (paren_utc _)⟩
  · exact ⟨hT.timeNe _, noteOf_none (hT.time _)⟩

theorem each_period (hT : TimeX X) {t n s} (h : t.toNat % 128 ∉ [2, 16, 6, 24, 26, 28]) : Each Row (periodRow o X t n s) := by
  have hf : isFree (subName t) = false := by rw [sub_free]; exact decide_eq_false h
  have hv : X.days (UInt32.ofNat (beNat n)) ++ " days after".toList ≠ [] := ne_append (by decide)
  have bare : Each Row (leaf (subName t) (X.days (UInt32.ofNat (beNat n)) ++ " days after".toList) [] (dumpIf (o DEBUG) n)) := by
    refine each_leaf (row_value (sub_ok t) hf hv (noteOf_none ?_) (dump_if _ _))
    have h2 : '(' ∉ " days after".toList := by decide
    simp only [List.mem_append, not_or]
    exact ⟨hT.days _, h2⟩
  unfold periodRow endDate
  split
  · exact bare
  · split
    · exact each_leaf (row_both (sub_ok t) hf hv (date_ok hT _).1 (date_ok hT _).2 (dump_if _ _))
    · exact bare

theorem each_full (hT : TimeX X) {h tag body i h'} (hf : Full o X h tag body i h') : Each Row i := by
  have no : ∀ {tag : Nat}, tag ≠ 2 → tag = 2 → ∀ (v : UInt8) r, body = v :: r → v ∉ [4, 5] := fun h e => absurd e h
  refine Full.rec (o := o) (X := X)
    (motive_1 := fun h tag body i h' _ => Each Row i)
    (motive_2 := fun h name area is h' _ => okName name.toList = true → Rows is)
    (motive_3 := fun h subs is h' _ => Rows is)
    (motive_4 := fun h ps is h' _ => Rows is)
    ?_ ?_ ?_ ?_ ?_ ?_ ?_ ?_ ?_ ?_ ?_ ?_ ?_ ?_ ?_ ?_ ?_ ?_ ?_ ?_ ?_ hf
  -- packets
  · intro h tag body i ht hd
    exact each_display hT hd (by rintro rfl; exact absurd (by decide) ht) (by rintro rfl; exact ht (by decide)) (by rintro rfl; exact ht (by decide))
  · intro h body i hd; exact each_display hT hd (fun e => by cases e) (by decide) (by decide)
  · intro h body i hd; exact each_display hT hd (fun e => by cases e) (by decide) (by decide)
  · intro h body
    exact each_packetRow _ _ (.cons (each_leaf (row_both (by decide) (by decide) (source_ok _) (size_ne _) (plain_size _).note (dump_if _ _))) rows_nil)
  · intro h body
    exact each_packetRow _ _ (.cons (each_leaf (row_note (by decide) (sourceNote_ok _ _).1 (sourceNote_ok _ _).2.1 (sourceNote_ok _ _).2.2 (dump_if _ _))) rows_nil)
  · intro h tag v tm r i ht hv hl hd
    exact each_display hT hd (by rintro rfl; exact absurd ht (by decide)) (by rintro rfl; exact absurd ht (by decide)) (by rintro rfl; exact absurd ht (by decide))
  · intro h tag v r i ht hv hd
    exact each_display hT hd (by rintro rfl; exact absurd ht (by decide)) (by rintro rfl; exact absurd ht (by decide)) (by rintro rfl; exact absurd ht (by decide))
  · intro h v r i hv hd
    exact each_display hT hd (fun _ v' r' e => by cases e; exact hv) (by decide) (by decide)
  · intro h1 h2 h3 v t a h a1 a2 i1 i2 l f q is hv hd hu hl hf hl1 hl2 ih1 ih2
    exact each_packetRow _ _ (.cons (each_version _ _ _) (.cons (each_sigType _) (.cons (each_pub _) (.cons (each_hash _)
      (.append (.append (ih1 (by decide)) (ih2 (by decide))) (.cons (each_left16 _) (.append (rows_integers sig_named hf) (rows_unknown _))))))))
  -- areas
  · intro h name hn; exact rows_nil
  · intro h name area subs is h' h0 hs hd ih hn; exact .cons (each_size hn (dump_if _ _) ih) rows_nil
  -- subpackets
  · intro h; exact rows_nil
  · intro h t b i subs is h' ht hd hs ih; exact .cons (each_sub ht hd) ih
  · intro h t tm r subs is h' ht hl hs ih
    exact .cons (leaf_moment hT (sub_ok t) (by rw [sub_free, ht]; decide) _ _ _) ih
  · intro h t n r subs is h' ht hl hs ih; exact .cons (each_period hT (by rw [ht]; decide)) ih
  · intro h t n r subs is h' ht hl hs ih; exact .cons (each_period hT (by rw [ht]; decide)) ih
  · intro h1 h2 h3 t b i subs is ht hd hs ih ih'; exact .cons (each_subRow _ _ (.cons ih rows_nil)) ih'
  · intro h t k d subs is h' ht hk hs ih
    exact .cons (each_subRow _ _ (.cons (each_num (by decide) (by decide) _) (.cons (leaf_size (by decide) (dump_if _ _)) rows_nil))) ih
  · intro h1 h2 h3 t a b ps js subs is ht ha hb hd hs ih ih'
    exact .cons (each_subRow _ _ (.cons (each_num (by decide) (by decide) _) (.cons (each_size (by decide) (dump_if _ _) ih) rows_nil))) ih'
  -- packets one after the other
  · intro h; exact rows_nil
  · intro h1 h2 h3 tag body ps i is hd hs ih ih'; exact .cons ih ih'

theorem rows_fullAll (hT : TimeX X) {h ps is h'} (hf : FullAll o X h ps is h') : Rows is := by
  induction ps generalizing h is with
  | nil => cases hf; exact rows_nil
  | cons p ps ih =>
    cases hf with
    | cons hd hs => exact .cons (each_full hT hd) (ih hs)

theorem each_top (hT : TimeX X) {h p i h'} (hf : FullTop o X h p i h') : Each Row i := by
  cases hf with
  | plain h8 hd => exact each_full hT hd
  | packed hz hp hd => exact each_packetRow _ _ (.append (rows_packed _ _) (rows_fullAll hT hd))
  | huge hz => exact each_packetRow _ _ (rows_packed _ _)

theorem rows_tops (hT : TimeX X) {h ps is h'} (hf : FullTops o X h ps is h') : Rows is := by
  induction hf with
  | nil => exact rows_nil
  | cons hd _ ih => exact .cons (each_top hT hd) ih

end

/-! ## The lines of a text -/

/-- indentation: spaces and tabs -/
def Blank (indent : Str) : Prop := indent ≠ [] ∧ ∀ c ∈ indent, c = ' ' ∨ c = '\t'

theorem Blank.breaks {indent} (h : Blank indent) : '\n' ∉ indent := fun hm => by
  rcases h.2 _ hm with e | e <;> revert e <;> decide

/-- starts with something that is not in the indentation and not a parenthesis -/
def Starts1 : Str → Prop
  | c :: _ => c ≠ ' ' ∧ c ≠ '\t' ∧ c ≠ '('
  | [] => False

theorem Starts1.not_prefix {indent l} (hi : Blank indent) (h : Starts1 l) : ¬ indent <+: l := by
  rintro ⟨r, rfl⟩
  cases indent with
  | nil => exact hi.1 rfl
  | cons c indent =>
    rcases hi.2 c List.mem_cons_self with e | e
    · exact h.1 e
    · exact h.2.1 e

/-- a line that is one line, or has one line break in it; what is behind the break is nothing or a note -/
inductive LineOK : Str → Prop
  | whole {l} (hs : Starts1 l) (hb : '\n' ∉ l) : LineOK l
  | broken {a k} (hs : Starts1 a) (ha : '\n' ∉ a) (hk : '\n' ∉ k) (h : k = [] ∨ ∃ r, k = ' ' :: '(' :: r) : LineOK (a ++ '\n' :: k)

theorem LineOK.head {l} (h : LineOK l) : ∃ c r, l = c :: r ∧ c ≠ ' ' ∧ c ≠ '\t' ∧ c ≠ '(' ∧ c ≠ '\n' := by
  have key : ∀ {a r : Str}, Starts1 a → '\n' ∉ a → ∃ c r', a ++ r = c :: r' ∧ c ≠ ' ' ∧ c ≠ '\t' ∧ c ≠ '(' ∧ c ≠ '\n' := by
    intro a r hs hb
    cases a with
    | nil => cases hs
    | cons c a => exact ⟨c, a ++ r, rfl, hs.1, hs.2.1, hs.2.2, fun e => hb (e ▸ List.mem_cons_self)⟩
  cases h with
  | whole hs hb => rw [← List.append_nil l]; exact key hs hb
  | broken hs ha => exact key hs ha

theorem blanks {indent} (hi : Blank indent) (d) : ∀ c ∈ repeatStr indent d, c = ' ' ∨ c = '\t' := by
  intro c hc
  unfold repeatStr at hc
  obtain ⟨l, hl, hm⟩ := List.mem_flatten.1 hc
  rw [List.eq_of_mem_replicate hl] at hm
  exact hi.2 c hm

/-- the next line does not look like the second half of a broken one -/
theorem next_line {indent} (hi : Blank indent) {L : List (Nat × Str)} (hL : ∀ l ∈ L, LineOK l.2) {k r : Str} (hk : k = [] ∨ ∃ r, k = ' ' :: '(' :: r) :
    (L.map (outLine indent)).flatten ≠ k ++ '\n' :: r := by
  intro h
  cases L with
  | nil => rcases hk with rfl | ⟨_, rfl⟩ <;> cases h
  | cons l L =>
    obtain ⟨c, t, he, h1, h2, h3, h4⟩ := (hL l List.mem_cons_self).head
    simp only [List.map_cons, List.flatten_cons, outLine, List.append_assoc, he] at h
    have hb := blanks hi l.1
    generalize repeatStr indent l.1 = w at h hb
    cases w with
    | nil =>
      rcases hk with rfl | ⟨_, rfl⟩
      · simp only [List.nil_append, List.cons_append, List.cons.injEq] at h
        exact h4 h.1
      · simp only [List.nil_append, List.cons_append, List.cons.injEq] at h
        exact h1 h.1
    | cons x w =>
      rcases hk with rfl | ⟨_, rfl⟩
      · simp only [List.nil_append, List.cons_append, List.cons.injEq] at h
        have := hb x List.mem_cons_self
        rw [h.1] at this
        revert this; decide
      · simp only [List.cons_append, List.cons.injEq] at h
        cases w with
        | nil =>
          simp only [List.nil_append, List.cons.injEq] at h
          exact h3 h.2.1
        | cons y w =>
          simp only [List.cons_append, List.cons.injEq] at h
          have := hb y (by simp)
          rw [h.2.1] at this
          revert this; decide

theorem outs_inj {indent : Str} (hi : Blank indent) : ∀ {L L' : List (Nat × Str)}, (∀ l ∈ L, LineOK l.2) → (∀ l ∈ L', LineOK l.2) →
    (L.map (outLine indent)).flatten = (L'.map (outLine indent)).flatten → L = L'
  | [], [], _, _, _ => rfl
  | [], l :: L', _, _, h => by simp [outLine] at h
  | l :: L, [], _, _, h => by simp [outLine] at h
  | (d, l) :: L, (d', l') :: L', hL, hL', h => by
    have h1 := hL (d, l) (by simp)
    have h2 := hL' (d', l') (by simp)
    have tL : ∀ l ∈ L, LineOK l.2 := fun l hl => hL l (by simp [hl])
    have tL' : ∀ l ∈ L', LineOK l.2 := fun l hl => hL' l (by simp [hl])
    have hb : ∀ {d : Nat} {l : Str}, '\n' ∉ l → '\n' ∉ repeatStr indent d ++ l := by
      intro d l hl hm
      rcases List.mem_append.1 hm with hm | hm
      · exact breaks_repeat hi.breaks _ hm
      · exact hl hm
    simp only [List.map_cons, List.flatten_cons, outLine] at h
    rw [List.append_assoc _ ['\n'], List.append_assoc _ ['\n']] at h
    dsimp only at h1 h2
    cases h1 with
    | whole s1 b1 =>
      cases h2 with
      | whole s2 b2 =>
        obtain ⟨e1, e2⟩ := line_inj (hb b1) (hb b2) h
        obtain ⟨rfl, rfl⟩ := depth_inj (s1.not_prefix hi) (s2.not_prefix hi) e1
        rw [outs_inj hi tL tL' e2]
      | broken s2 b2 k2 h2 =>
        rw [← List.append_assoc _ _ (_ :: _), List.append_assoc _ (_ :: _)] at h
        obtain ⟨-, e2⟩ := line_inj (hb b1) (hb b2) h
        exact absurd e2 (next_line hi tL h2)
    | broken s1 b1 k1 h1 =>
      cases h2 with
      | whole s2 b2 =>
        rw [← List.append_assoc _ _ (_ :: _), List.append_assoc _ (_ :: _)] at h
        obtain ⟨-, e2⟩ := line_inj (hb b1) (hb b2) h
        exact absurd e2.symm (next_line hi tL' h1)
      | broken s2 b2 k2 h2 =>
        rw [← List.append_assoc _ _ (_ :: _), List.append_assoc _ (_ :: _), ← List.append_assoc _ _ (_ :: _), List.append_assoc _ (_ :: _)] at h
        obtain ⟨e1, e2⟩ := line_inj (hb b1) (hb b2) h
        obtain ⟨rfl, rfl⟩ := depth_inj (s1.not_prefix hi) (s2.not_prefix hi) e1
        obtain ⟨rfl, e3⟩ := line_inj k1 k2 e2
        rw [outs_inj hi tL tL' e3]

/-! ## Reading trees -/

theorem ok_starts {n : Str} (h : okName n = true) (r : Str) : Starts1 (n ++ r) ∧ isDump (n ++ r) = false := by
  unfold okName at h
  rw [Bool.or_eq_true] at h
  rcases h with h | h
  · unfold upperName at h
    rw [Bool.and_eq_true, Bool.and_eq_true] at h
    cases n with
    | nil => cases h.1.1
    | cons c n =>
      have hc := h.1.1
      dsimp only at hc
      rw [Bool.and_eq_true, decide_eq_true_eq, decide_eq_true_eq] at hc
      have h1 : 65 ≤ c.toNat := hc.1
      have h2 : c.toNat ≤ 90 := hc.2
      refine ⟨⟨?_, ?_, ?_⟩, ?_⟩
      · rintro rfl; revert h1; decide
      · rintro rfl; revert h1; decide
      · rintro rfl; revert h1; decide
      · have : hexDigit c = false := by
          unfold hexDigit
          have e1 : decide (c ≤ '9') = false := decide_eq_false (fun h => by have : c.toNat ≤ 57 := h; omega)
          have e2 : decide ('a' ≤ c) = false := decide_eq_false (fun h => by have : 97 ≤ c.toNat := h; omega)
          rw [e1, e2, Bool.and_false]; rfl
        rw [List.cons_append]
        generalize n ++ r = m
        cases m with
        | nil => rfl
        | cons b m => rw [isDump, this]; rfl
  · rw [List.contains_iff_mem] at h
    unfold lowerNames at h
    simp only [List.map_cons, List.map_nil, List.mem_cons, List.not_mem_nil, or_false] at h
    rcases h with rfl | rfl | rfl | rfl
    · exact ⟨(by decide : 's' ≠ ' ' ∧ 's' ≠ '\t' ∧ 's' ≠ '('), rfl⟩
    · exact ⟨(by decide : 'n' ≠ ' ' ∧ 'n' ≠ '\t' ∧ 'n' ≠ '('), rfl⟩
    · exact ⟨(by decide : '2' ≠ ' ' ∧ '2' ≠ '\t' ∧ '2' ≠ '('), rfl⟩
    · exact ⟨(by decide : 'c' ≠ ' ' ∧ 'c' ≠ '\t' ∧ 'c' ≠ '('), rfl⟩

theorem Clean.breaks {s : Str} (h : Clean s) : '\n' ∉ s := fun hm => by
  have := h.mem hm
  revert this; decide

/-- an item and its lines -/
structure Legible (i : Item) : Prop extends Row i where
  lineOK : LineOK (itemLine i)
  dumpOK : i.dump ≠ [] → LineOK i.dump

theorem dump_starts {d : Str} (h : isDump d = true) : Starts1 d := by
  match d, h with
  | a :: b :: r, h =>
    unfold isDump at h
    rw [Bool.and_eq_true, Bool.and_eq_true] at h
    refine ⟨?_, ?_, ?_⟩ <;> rintro rfl <;> exact absurd h.1.1 (by decide)

theorem good {i : Item} (hc : CleanItem i) (hr : Each Row i) : Each Legible i := by
  induction hc with
  | @mk n v d t is hn hv hd ht _ ih =>
    cases hr with
    | mk hr hrs =>
      refine .mk ⟨hr, ?_, ?_⟩ fun k hk => ih k hk (hrs k hk)
      · rcases hv with hv | ⟨rfl, hl⟩
        · exact .whole (by rw [line_mk, List.append_assoc]; exact (ok_starts hr.name _).1)
            (itemLine_breaks (Clean.breaks hn) (Clean.breaks hv) (Clean.breaks ht))
        · obtain ⟨c, rfl⟩ := List.length_eq_one_iff.mp hl
          by_cases hcb : c = '\n'
          · subst hcb
            have e : itemLine (.mk (S "Literal data format") ['\n'] d t is) =
                S "Literal data format: " ++ '\n' :: (if t = [] then [] else S " (" ++ t ++ S ")") := by
              rw [line_mk, if_neg (by decide)]; rfl
            rw [e]
            refine .broken ((by decide : 'L' ≠ ' ' ∧ 'L' ≠ '\t' ∧ 'L' ≠ '(')) (by decide) ?_ ?_
            · have e2 : '\n' ∉ S " (" := by decide
              have e3 : '\n' ∉ S ")" := by decide
              split
              · exact List.not_mem_nil
              · simp only [List.mem_append, not_or]
                exact ⟨⟨e2, Clean.breaks ht⟩, e3⟩
            · split
              · exact .inl rfl
              · exact .inr ⟨t ++ S ")", rfl⟩
          · exact .whole (by rw [line_mk, List.append_assoc]; exact (ok_starts hr.name _).1)
              (itemLine_breaks (Clean.breaks hn) (fun hm => hcb (List.mem_singleton.mp hm).symm) (Clean.breaks ht))
      · intro hne
        exact .whole (dump_starts (hr.dump.resolve_left hne)) (Clean.breaks hd)

/-- the text of trees that can be read back determines them -/
theorem text_inj {indent : Str} (hi : Blank indent) {ps ps' : List Item} (h : ∀ i ∈ ps, Each Legible i) (h' : ∀ i ∈ ps', Each Legible i)
    (he : infoToString indent ps = infoToString indent ps') : ps = ps' := by
  have ok : ∀ {ps : List Item}, (∀ i ∈ ps, Each Legible i) → ∀ l ∈ linesAll 0 ps, LineOK l.2 := fun hp =>
    mem_linesAll (fun l => LineOK l.2) (fun i d hq => hq.lineOK) (fun i d hq hne => hq.dumpOK hne) 0 _ hp
  have rd : ∀ i, Each Legible i → Each (Readable (fun s => isDump s = true) (fun p => decode (itemLine (.mk p.1 p.2.1 [] p.2.2 [])) = p)) i := by
    intro i hp
    induction hp with
    | @mk i h _ ih =>
      refine .mk ⟨h.dump, ?_, ?_⟩ ih
      · rcases i with ⟨n, v, d, t, is⟩
        show ¬ isDump (itemLine (.mk n v d t is)) = true
        rw [line_mk, List.append_assoc, (ok_starts (n := n) h.name _).2]
        decide
      · exact h.line
  unfold infoToString at he
  rw [itemsToStr_lines, itemsToStr_lines] at he
  refine linesAll_inj (D := fun s => isDump s = true) (F := fun p => decode (itemLine (.mk p.1 p.2.1 [] p.2.2 [])) = p) ?_ 0 ps ps'
    (fun i hm => rd i (h i hm)) (fun i hm => rd i (h' i hm)) (outs_inj hi (ok h) (ok h') he)
  intro i i' h1 h2 hl
  have e : ∀ i : Item, itemLine (.mk i.name i.value [] i.note []) = itemLine i := fun i => rfl
  rw [e] at h1 h2
  rw [hl] at h1
  have := h1.symm.trans h2
  simp only [Prod.mk.injEq] at this
  exact this

/-- what `Parse` returns can be read back -/
theorem result_good (X : Ext) (hX : OwnErrors X) (hC : CleanX X) (hT : TimeX X) (x : Ctx) (hc : Consistent x) (s : Source) :
    ∀ i ∈ (parseSrc X (some x) s.src).packets, Each Legible i := by
  have hcl : ∀ i ∈ (parseSrc X (some x) s.src).packets, CleanItem i := by
    have h := Cmp.parseSrc (k := selfCmp x.opts true true false) (X := X) (src := s.src)
      (r_parseAny X (fun _ => hC) (by simp [selfCmp]) s.src (by simp [selfCmp]) rfl) (selfCmp_ctxs x _ _ _)
    rcases h with ⟨h, -⟩ | ⟨-, -, -, -, h, -⟩
    · cases h
    · exact h rfl
  have hr : Rows (parseSrc X (some x) s.src).packets := by
    rw [parseSrc_packets]
    obtain ⟨qs, rs, h', -, h1, -⟩ := seqPackets_full hX (loopEnd (split s.data) s.src.tail).1 x hc.good
    exact rows_tops hT h1
  exact fun i hi => good (hcl i hi) (hr i hi)

end ReadBack

open ReadBack

/-! ## C75 -/

/-- C75: two results of `Parse` with the same text are the same. The inputs, the options, the earlier histories and the environments
may be different, and `Parse` may have ended with an error or a panic. -/
theorem C75_text (X X' : Ext) (hX : OwnErrors X) (hX' : OwnErrors X') (hC : CleanX X) (hC' : CleanX X') (hT : TimeX X) (hT' : TimeX X')
    (x x' : Ctx) (hc : Consistent x) (hc' : Consistent x') (s s' : Source) (indent : Str) (hi : Blank indent)
    (he : infoToString indent (parseSrc X (some x) s.src).packets = infoToString indent (parseSrc X' (some x') s'.src).packets) :
    (parseSrc X (some x) s.src).packets = (parseSrc X' (some x') s'.src).packets :=
  text_inj hi (result_good X hX hC hT x hc s) (result_good X' hX' hC' hT' x' hc' s') he

/-- C75, with dumps (option DEBUG): two accepted inputs with the same text consist of the same packets. -/
theorem C75_packets (X X' : Ext) (hX : OwnErrors X) (hX' : OwnErrors X') (hC : CleanX X) (hC' : CleanX X') (hT : TimeX X) (hT' : TimeX X')
    (x x' : Ctx) (hc : Consistent x) (hc' : Consistent x') (hx : x.opts DEBUG = true) (hx' : x'.opts DEBUG = true) (d d' : Bytes)
    (sched sched' : List Nat) (indent : Str) (hi : Blank indent)
    (h : (parseSrc X (some x) (Source.src ⟨d, rawErr .eof, sched⟩)).res = .ok ())
    (h' : (parseSrc X' (some x') (Source.src ⟨d', rawErr .eof, sched'⟩)).res = .ok ())
    (he : infoToString indent (parseSrc X (some x) (Source.src ⟨d, rawErr .eof, sched⟩)).packets =
      infoToString indent (parseSrc X' (some x') (Source.src ⟨d', rawErr .eof, sched'⟩)).packets) :
    ∃ ps, PacketSeq ps d ∧ PacketSeq ps d' :=
  C16_lossless X X' x x' hx hx' d d' sched sched' h h'
    (by rw [C75_text X X' hX hX' hC hC' hT hT' x x' hc hc' ⟨d, rawErr .eof, sched⟩ ⟨d', rawErr .eof, sched'⟩ indent hi he])

/-! ## The tool -/

theorem utf8_inj {a b : Str} (h : utf8 a = utf8 b) : a = b := by
  have := congrArg utf8Decode h
  rw [utf8Decode_utf8, utf8Decode_utf8] at this
  exact Option.some.inj this

theorem json_inj {a b : Int} {is is' : List Item} {t : Str} (h : infoJSON a (goItems is) = some t) (h' : infoJSON b (goItems is') = some t) :
    is = is' := by
  have key : ∀ {a : Int} {is}, infoJSON a (goItems is) = some t → Decodes t is := by
    intro a is h
    obtain ⟨out, ho, hd, -⟩ := C30_json_partial is 0 (.inl (Int.le_refl 0))
    exact (C30_indent_irrelevant is a 0 t out h ho is).mpr hd
  exact Json.decodes_det (key h) (key h')

open Spec.CLI in
theorem rendered_inj {f f' : Flags} (hj : f.json = f'.json) (hn : f.indent = f'.indent) {ps ps' : List Item} (h : ∀ i ∈ ps, Each Legible i)
    (h' : ∀ i ∈ ps', Each Legible i) {out : Bytes} (hr : Rendered f ps out) (hr' : Rendered f' ps' out) : ps = ps' := by
  generalize ho : out = out' at hr'
  have sp : ∀ n : Int, 0 < n → Blank (List.replicate n.toNat ' ') := by
    intro n hn
    refine ⟨fun e => ?_, fun c hc => .inl (List.eq_of_mem_replicate hc)⟩
    have := congrArg List.length e
    rw [List.length_replicate, List.length_nil] at this
    omega
  cases hr with
  | json h1 h2 =>
    cases hr' with
    | json _ h3 => rw [utf8_inj ho] at h2; exact json_inj h2 h3
    | spaces h4 | tab h4 => rw [hj, h4] at h1; cases h1
  | spaces h1 h2 =>
    cases hr' with
    | json h4 => rw [hj, h4] at h1; cases h1
    | spaces => rw [← hn] at ho; exact text_inj (sp _ h2) h h' (utf8_inj ho)
    | tab h4 h5 => omega
  | tab h1 h2 =>
    cases hr' with
    | json h4 => rw [hj, h4] at h1; cases h1
    | spaces h4 h5 => omega
    | tab => exact text_inj ⟨by decide, by decide⟩ h h' (utf8_inj ho)

open Spec.CLI in
/-- C75 at the command line: two runs that end normally with the same standard output, as text or as JSON, with the same indentation,
have parsed their inputs to the same result. The other flags, the commands and the inputs may be different. -/
theorem C75_tool (X X' : Ext) (hX : OwnErrors X) (hX' : OwnErrors X') (hC : CleanX X) (hC' : CleanX X') (hT : TimeX X) (hT' : TimeX X')
    (W W' : World) (stale stale' : Bool) (f f' : Flags) (hf : f.debug = false) (hf' : f'.debug = false) (hj : f.json = f'.json)
    (hn : f.indent = f'.indent) (cmd cmd' : Command) (forced forced' : Bool) (s s' r r' : Source) (hd : Dumps W cmd s.src forced)
    (hd' : Dumps W' cmd' s'.src forced') (hs : Reads X (f.armor || forced) s r) (hs' : Reads X' (f'.armor || forced') s' r') (out : Bytes)
    (h : execute X W stale f cmd = ⟨some .normal, out, false⟩) (h' : execute X' W' stale' f' cmd' = ⟨some .normal, out, false⟩) :
    (parseSrc X (some (cliCtx f forced)) r.src).packets = (parseSrc X' (some (cliCtx f' forced')) r'.src).packets := by
  have hcon : ∀ f forced, Consistent (cliCtx f forced) := fun f forced => ⟨fun d hd => (by cases hd), fun d hd => (by cases hd)⟩
  have h1 := (C45_normal_means_dumped X W stale f hf cmd s.src forced hd (by rw [h])).2
  have h2 := (C45_normal_means_dumped X' W' stale' f' hf' cmd' s'.src forced' hd' (by rw [h'])).2
  rw [h, parse_reads (cliCtx_armor f forced) hs] at h1
  rw [h', parse_reads (cliCtx_armor f' forced') hs'] at h2
  exact rendered_inj hj hn (result_good X hX hC hT _ (hcon _ _) r) (result_good X' hX' hC' hT' _ (hcon _ _) r') h1 h2

/-! ## Examples -/

/-! The hypotheses about the environment can be met: a clock in UTC, whole days. -/

namespace ReadBack

def utcX : Ext where
  localTime := rfc3339UTC
  days t := dec (t.toNat / 86400)
  flate _ := ⟨[], rawErr .eof, [], false⟩
  zlib _ := .ok ⟨[], rawErr .eof, [], false⟩
  bzip2 _ := ⟨[], rawErr .eof, [], false⟩
  armor b := .ok ⟨b, rawErr .eof, [], false⟩
  grow n := 2 * n

theorem utcX_ok : OwnErrors utcX ∧ CleanX utcX ∧ TimeX utcX :=
  ⟨fun _ => ⟨(by decide : Cause.eof ≠ .tooLarge), (by decide : Cause.eof ≠ .tooLarge), fun _ h => (by cases h), fun _ h => by cases h; exact (by decide : Cause.eof ≠ .tooLarge)⟩,
    ⟨fun t => Gpgpdump.Clean.rfc3339UTC t, fun t => Gpgpdump.Clean.dec _⟩, ⟨paren_utc, rfc3339_ne, fun t h => (plain_dec _ _ h).2 rfl⟩⟩

def debugX : Ctx := Ctx.new [(DEBUG, true)]

end ReadBack

/-! A user ID packet that looks like a note and a literal packet whose format octet is a line feed; the text has an additional line.
The same packets with headers of the old format have the same text. -/

theorem C75_example (d : Bytes) (hd : d = [0xcd, 5, 65, 32, 40, 66, 41, 0xcb, 6, 10, 0, 0, 0, 0, 0] ∨ d = [0xb4, 5, 65, 32, 40, 66, 41, 0xac, 6, 10, 0, 0, 0, 0, 0]) :
    (parseSrc utcX (some debugX) (Source.src ⟨d, rawErr .eof, [4]⟩)).res = .ok () ∧
    infoToString ['\t'] (parseSrc utcX (some debugX) (Source.src ⟨d, rawErr .eof, [4]⟩)).packets =
      S "User ID Packet (tag 13) (5 bytes)\n\t41 20 28 42 29\n\tUser ID: A (B)\n\t\t41 20 28 42 29\nLiteral Data Packet (tag 11) (6 bytes)\n\t0a 00 00 00 00 00\n\tLiteral data format: \n (unknown)\n\tFile name (0 byte)\n\tCreation time: null\n\t\t00 00 00 00\n\tLiteral data (0 bytes)\n" := by
  rcases hd with rfl | rfl <;> decide +kernel

example : ∃ ps, PacketSeq ps [0xcd, 5, 65, 32, 40, 66, 41, 0xcb, 6, 10, 0, 0, 0, 0, 0] ∧ PacketSeq ps [0xb4, 5, 65, 32, 40, 66, 41, 0xac, 6, 10, 0, 0, 0, 0, 0] :=
  have hX := utcX_ok
  have hc : Consistent debugX := ⟨fun d hd => (by cases hd), fun d hd => (by cases hd)⟩
  have h1 := C75_example _ (.inl rfl)
  have h2 := C75_example _ (.inr rfl)
  C75_packets utcX utcX hX.1 hX.1 hX.2.1 hX.2.1 hX.2.2 hX.2.2 debugX debugX hc hc (by decide) (by decide) _ _ [4] [4] ['\t'] ⟨by decide, by decide⟩ h1.1 h2.1
    (h1.2.trans h2.2.symm)

end Gpgpdump
