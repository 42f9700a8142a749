import Verif.JsonIndent
import Verif.ThmText

/-!
# C30: the JSON output is faithful
-/

namespace Gpgpdump
open Spec Spec.Json

namespace Spec.Json

/-- What JSON can keep of a Go string: its code points; an octet that does not belong to one becomes U+FFFD. -/
inductive Coerce : Bytes → Str → Prop
  | nil : Coerce [] []
  | char {b s} (c : Char) (h : Coerce b s) : Coerce (utf8Char c ++ b) (c :: s)
  | bad {b s} (x : UInt8) (hx : ∀ c, ¬ utf8Char c <+: x :: b) (h : Coerce b s) : Coerce (x :: b) (Char.ofNat 0xFFFD :: s)

mutual
/-- the tree with its strings coerced -/
inductive CoerceItem : GItem → Item → Prop
  | mk {n v d t n' v' d' t' is is'} (hn : Coerce n n') (hv : Coerce v v') (hd : Coerce d d') (ht : Coerce t t')
      (hi : CoerceItems is is') : CoerceItem (.mk n v d t is) (.mk n' v' d' t' is')
inductive CoerceItems : List GItem → List Item → Prop
  | nil : CoerceItems [] []
  | cons {g i gs is} (h : CoerceItem g i) (hs : CoerceItems gs is) : CoerceItems (g :: gs) (i :: is)
end

mutual
/-- the tree with its strings as Go strings (UTF-8) -/
def goItem : Item → GItem
  | .mk n v d t is => .mk (utf8 n) (utf8 v) (utf8 d) (utf8 t) (goItems is)
def goItems : List Item → List GItem
  | [] => []
  | i :: is => goItem i :: goItems is
end

end Spec.Json

namespace Json

theorem utf8Char_ne (c : Char) : utf8Char c ≠ [] := by
  unfold utf8Char; simp only; split <;> (try split) <;> (try split) <;> simp

theorem utf8Char_len (c : Char) : (utf8Char c).length = 1 ∨ (utf8Char c).length = 2 ∨ (utf8Char c).length = 3 ∨ (utf8Char c).length = 4 := by
  unfold utf8Char; simp only; split <;> (try split) <;> (try split) <;> simp

theorem decode_char (c : Char) : utf8Decode (utf8Char c) = some [c] := by
  have := utf8Decode_utf8 [c]
  simpa [utf8] using this

theorem char_of_decode {b c} (h : utf8Decode b = some [c]) : b = utf8Char c := by
  have := (utf8Decode_iff b [c]).1 h
  simpa [utf8] using this

/-- No encoding of a code point is the beginning of another. -/
theorem utf8Char_prefix {c c' : Char} {s : Bytes} (h : utf8Char c = utf8Char c' ++ s) : c = c' ∧ s = [] := by
  have h1 := decode_char c
  rw [h, utf8Decode_cons_char] at h1
  cases hs : utf8Decode s with
  | none => rw [hs] at h1; cases h1
  | some l =>
    rw [hs] at h1
    simp only [Option.map_some, Option.some.injEq, List.cons.injEq] at h1
    obtain ⟨rfl, rfl⟩ := h1
    refine ⟨rfl, ?_⟩
    have := congrArg List.length h
    rw [List.length_append] at this
    exact List.length_eq_zero_iff.1 (by omega)

theorem prefix_char {c c' : Char} {b : Bytes} (h : utf8Char c <+: b) (h' : utf8Char c' <+: b) : c = c' := by
  rcases List.prefix_or_prefix_of_prefix h h' with ⟨s, hs⟩ | ⟨s, hs⟩
  · exact (utf8Char_prefix hs.symm).1.symm
  · exact (utf8Char_prefix hs.symm).1

theorem findSome_of {α β} {f : α → Option β} {y : β} : ∀ {l : List α}, (∀ x ∈ l, f x = none ∨ f x = some y) → (∃ x ∈ l, f x = some y) →
    l.findSome? f = some y := by
  intro l
  induction l with
  | nil => intro _ h; simp at h
  | cons x l ih =>
    intro h h'
    rw [List.findSome?_cons]
    rcases h x (by simp) with e | e
    · rw [e]
      refine ih (fun x hx => h x (by simp [hx])) ?_
      obtain ⟨z, hz, e'⟩ := h'
      rw [List.mem_cons] at hz
      rcases hz with rfl | hz
      · rw [e] at e'; cases e'
      · exact ⟨z, hz, e'⟩
    · rw [e]

theorem runeStep_char (c : Char) (b : Bytes) : runeStep (utf8Char c ++ b) = some (c, b) := by
  unfold runeStep
  refine findSome_of ?_ ⟨(utf8Char c).length, ?_, ?_⟩
  · intro k hk
    split
    · rename_i c' he
      right
      have hp : utf8Char c' <+: utf8Char c ++ b := char_of_decode he ▸ List.take_prefix _ _
      have hc := prefix_char hp (List.prefix_append _ _)
      subst hc
      have hcd := char_of_decode he
      have : utf8Char c' ++ (utf8Char c' ++ b).drop k = utf8Char c' ++ b := by
        rw (config := {occs := .pos [1]}) [← hcd]
        exact List.take_append_drop k _
      rw [List.append_cancel_left this]
    · exact .inl rfl
  · rcases utf8Char_len c with h | h | h | h <;> rw [h] <;> simp
  · rw [List.take_left, decode_char, List.drop_left]

theorem runeStep_bad {b : Bytes} (h : ∀ c, ¬ utf8Char c <+: b) : runeStep b = none := by
  unfold runeStep
  rw [List.findSome?_eq_none_iff]
  intro k _
  split
  · rename_i c he
    exact absurd (char_of_decode he ▸ List.take_prefix k b) (h c)
  · rfl

theorem hexDigit_digit {n : Nat} (h : n < 16) : HexDigit (digit n) n := by
  by_cases h' : n < 10
  · have : digit n = Char.ofNat (48 + n) := by revert n; decide
    rw [this]; exact .dec n h'
  · have : digit n = Char.ofNat (97 + (n - 10)) := by revert n; decide
    rw [this]
    have := HexDigit.lower (n - 10) (by omega)
    rwa [Nat.add_sub_cancel' (by omega)] at this

theorem hex0 : HexDigit '0' 0 := .dec 0 (by omega)
theorem hex2' : HexDigit '2' 2 := .dec 2 (by omega)

theorem char_ofNat (c : Char) : Char.ofNat c.toNat = c := by
  exact Char.ofNat_toNat c

theorem chars_jsonChar (c : Char) {s t} (h : Chars s t) : Chars (c :: s) (jsonChar c ++ t) := by
  unfold jsonChar
  split
  · rename_i e; subst e; exact .escape .backslash h
  split
  · rename_i e; subst e; exact .escape .quote h
  split
  · rename_i e; subst e; exact .escape .n h
  split
  · rename_i e; subst e; exact .escape .r h
  split
  · rename_i e; subst e; exact .escape .t h
  split
  · rename_i h1 h2 _ _ _ e
    have hlt : c.toNat < 256 := by
      rcases e with e | rfl | rfl | rfl
      · omega
      all_goals decide
    have hx := Hex4.mk hex0 hex0 (hexDigit_digit (n := c.toNat / 16) (by omega)) (hexDigit_digit (n := c.toNat % 16) (by omega))
    have hv : 0 * 4096 + 0 * 256 + c.toNat / 16 * 16 + c.toNat % 16 = c.toNat := by omega
    rw [hv] at hx
    have := Chars.unicode hx (by omega) h
    rw [char_ofNat] at this
    exact this
  split
  · rename_i e
    have hx := Hex4.mk hex2' hex0 hex2' (hexDigit_digit (n := c.toNat % 16) (by omega))
    have hv : 2 * 4096 + 0 * 256 + 2 * 16 + c.toNat % 16 = c.toNat := by omega
    rw [hv] at hx
    have := Chars.unicode hx (by omega) h
    rw [char_ofNat] at this
    exact this
  · rename_i h1 h2 _ _ _ h3 _
    exact .plain c (by omega) h2 h1 h

theorem chars_bad {s t} (h : Chars s t) : Chars (Char.ofNat 0xFFFD :: s) (S "\\ufffd" ++ t) := by
  have hf : HexDigit 'f' 15 := .lower 5 (by omega)
  have hd : HexDigit 'd' 13 := .lower 3 (by omega)
  exact Chars.unicode (Hex4.mk hf hf hf hd) (by omega) h

theorem jsonChars_chars {b s} (h : Coerce b s) : ∀ n, b.length ≤ n → Chars s (jsonChars n b) := by
  induction h with
  | nil => intro n _; cases n <;> exact .nil
  | @char b s c h ih =>
    intro n hn
    rw [List.length_append] at hn
    cases n with
    | zero =>
      have := utf8Char_ne c
      exact absurd (List.length_eq_zero_iff.1 (by omega)) this
    | succ n =>
      have hp : 0 < (utf8Char c).length := List.length_pos_iff.2 (utf8Char_ne c)
      have hr := runeStep_char c b
      obtain ⟨x, r, hx⟩ := List.exists_cons_of_ne_nil (utf8Char_ne c)
      rw [hx, List.cons_append] at hr
      rw [hx, List.cons_append, jsonChars, hr]
      exact chars_jsonChar c (ih n (by omega))
  | @bad b s x hx h ih =>
    intro n hn
    cases n with
    | zero => simp at hn
    | succ n =>
      rw [jsonChars, runeStep_bad hx]
      exact chars_bad (ih n (by simpa using hn))

theorem val_jsonString {b s} (h : Coerce b s) : Val (.str s) (jsonString b) :=
  .str (jsonChars_chars h _ (Nat.le_refl _))

theorem coerce_empty {b s} (h : Coerce b s) : b.length = 0 ↔ s = [] := by
  cases h with
  | nil => simp
  | char c h => simp [utf8Char_ne]
  | bad x hx h => simp

/-- the fields after the first one -/
inductive Tail : List (Str × Value) → Str → Prop
  | nil : Tail [] []
  | cons {ms u} (h : Members ms u) : Tail ms (',' :: u)

theorem members_key {k v t ms u} (hk : Chars k k) (hv : Val v t) (h : Tail ms u) : Members ((k, v) :: ms) (jsonKey k ++ t ++ u) := by
  cases h with
  | nil =>
    have := Members.one ws_nil hk ws_nil ws_nil hv ws_nil
    simpa [jsonKey] using this
  | cons h =>
    have := Members.more ws_nil hk ws_nil ws_nil hv ws_nil h
    simpa [jsonKey] using this

theorem tail_key {k v t ms u} (hk : Chars k k) (hv : Val v t) (h : Tail ms u) : Tail ((k, v) :: ms) ([','] ++ jsonKey k ++ t ++ u) := by
  have := Tail.cons (members_key hk hv h)
  simpa using this

theorem chars_plain : ∀ {k : Str}, (∀ c ∈ k, 0x20 ≤ c.toNat ∧ c ≠ '"' ∧ c ≠ '\\') → Chars k k
  | [], _ => .nil
  | c :: k, h => .plain c (h c (by simp)).1 (h c (by simp)).2.1 (h c (by simp)).2.2 (chars_plain (fun c h' => h c (by simp [h'])))

theorem chars_keys : Chars (S "name") (S "name") ∧ Chars (S "value") (S "value") ∧ Chars (S "dump") (S "dump") ∧
    Chars (S "note") (S "note") ∧ Chars (S "Item") (S "Item") ∧ Chars (S "Packet") (S "Packet") := by
  refine ⟨?_, ?_, ?_, ?_, ?_, ?_⟩ <;> exact chars_plain (by decide)

/-- an optional string field -/
def optField (k : String) (s : Str) : List (Str × Value) := if s = [] then [] else [(k.toList, .str s)]

theorem tail_opt {k : String} {b s ms u} (hk : Chars k.toList k.toList) (hb : Coerce b s) (h : Tail ms u) :
    Tail (optField k s ++ ms) (jsonOpt (S k) b ++ u) := by
  unfold optField jsonOpt
  by_cases he : s = []
  · rw [if_pos he, if_pos ((coerce_empty hb).2 he)]
    exact h
  · rw [if_neg he, if_neg (fun h' => he ((coerce_empty hb).1 h'))]
    exact tail_key hk (val_jsonString hb) h

/-- the field with the children -/
def listField : List Value → List (Str × Value)
  | [] => []
  | v :: l => [(S "Item", .arr (v :: l))]

mutual
/-- the value written for an item -/
def itemVal : Item → Value
  | .mk n v d t is => .obj ((S "name", .str n) :: (optField "value" v ++ (optField "dump" d ++ (optField "note" t ++
      listField (itemVals is)))))
def itemVals : List Item → List Value
  | [] => []
  | i :: is => itemVal i :: itemVals is
end

mutual
theorem val_marshal {g i} (h : CoerceItem g i) : Val (itemVal i) g.marshal := by
  cases h with | mk hn hv hd ht hi
  have key : ∀ {ms u}, Tail ms u → Val (.obj ((S "name", .str _) :: (optField "value" _ ++ (optField "dump" _ ++ (optField "note" _ ++ ms)))))
      ('{' :: (jsonKey (S "name") ++ jsonString _ ++ (jsonOpt (S "value") _ ++ (jsonOpt (S "dump") _ ++ (jsonOpt (S "note") _ ++ u)))) ++ ['}']) :=
    fun {ms u} h => .obj (members_key chars_keys.1 (val_jsonString hn) (tail_opt chars_keys.2.1 hv (tail_opt chars_keys.2.2.1 hd
      (tail_opt chars_keys.2.2.2.1 ht h))))
  cases hi with
  | nil =>
    have := key Tail.nil
    simpa [GItem.marshal, itemVal, itemVals, listField] using this
  | cons h hs =>
    have := key (tail_key chars_keys.2.2.2.2.1 (Val.arr (more_marshal hs (val_marshal h))) Tail.nil)
    simpa [GItem.marshal, itemVal, itemVals, listField] using this
theorem more_marshal {gs is} (hs : CoerceItems gs is) {v t} (hv : Val v t) : Elems (v :: itemVals is) (t ++ marshalMore gs) := by
  cases hs with
  | nil =>
    have := Elems.one ws_nil hv ws_nil
    simpa [marshalMore, itemVals] using this
  | cons h' hs' =>
    have := Elems.more ws_nil hv ws_nil (more_marshal hs' (val_marshal h'))
    simpa [marshalMore, itemVals] using this
end

/-- the value written for the packets -/
def infoVal : List Item → Value
  | [] => .obj []
  | i :: is => .obj [(S "Packet", .arr (itemVal i :: itemVals is))]

theorem text_marshal {gs is} (h : CoerceItems gs is) : Text (infoVal is) (marshalInfo gs) := by
  refine ⟨[], marshalInfo gs, [], ws_nil, ?_, ws_nil, by simp⟩
  cases h with
  | nil => exact .obj0 ws_nil
  | cons h hs =>
    have := Val.obj (members_key chars_keys.2.2.2.2.2 (Val.arr (more_marshal hs (val_marshal h))) Tail.nil)
    simpa [marshalInfo, infoVal] using this

theorem get_opt_self (k : String) (s : Str) (ms) (h : get k ms = none) : Spec.Json.Field k (optField k s ++ ms) s := by
  unfold optField Spec.Json.Field
  by_cases he : s = []
  · rw [if_pos he]; exact .inr ⟨h, he⟩
  · rw [if_neg he]; left; simp [Spec.Json.get, List.lookup]

theorem get_opt_ne {k k' : String} (s : Str) (ms) (h : k'.toList ≠ k.toList) : get k (optField k' s ++ ms) = get k ms := by
  unfold optField Spec.Json.get
  split
  · rfl
  · have : (k.toList == k'.toList) = false := by simpa using fun e => h e.symm
    simp [List.lookup, this]

theorem get_cons_ne {k : String} (k' : Str) (v) (ms) (h : k' ≠ k.toList) : get k ((k', v) :: ms) = get k ms := by
  unfold Spec.Json.get
  have : (k.toList == k') = false := by simpa using fun e => h e.symm
  simp [List.lookup, this]

theorem field_of_get {k : String} {ms ms' s} (h : get k ms = get k ms') (h' : Spec.Json.Field k ms' s) : Spec.Json.Field k ms s := by
  unfold Spec.Json.Field at *
  rw [h]; exact h'

mutual
theorem holds_item : ∀ i : Item, HoldsItem (itemVal i) i
  | .mk n v d t is => by
    rw [itemVal]
    have hm : ∀ k : String, k.toList ≠ S "Item" → get k (listField (itemVals is)) = none := by
      intro k hk
      cases is with
      | nil => rfl
      | cons i is => rw [itemVals, listField, get_cons_ne _ _ _ (Ne.symm hk)]; rfl
    refine .mk (.inl ?_) ?_ ?_ ?_ ?_
    · rfl
    · refine field_of_get (get_cons_ne _ _ _ (by decide)) (get_opt_self _ _ _ ?_)
      rw [get_opt_ne _ _ (by decide), get_opt_ne _ _ (by decide), hm _ (by decide)]
    · refine field_of_get (get_cons_ne _ _ _ (by decide)) (field_of_get (get_opt_ne _ _ (by decide)) (get_opt_self _ _ _ ?_))
      rw [get_opt_ne _ _ (by decide), hm _ (by decide)]
    · refine field_of_get (get_cons_ne _ _ _ (by decide)) (field_of_get (get_opt_ne _ _ (by decide))
        (field_of_get (get_opt_ne _ _ (by decide)) (get_opt_self _ _ _ ?_)))
      rw [hm _ (by decide)]
    · rw [get_cons_ne _ _ _ (by decide), get_opt_ne _ _ (by decide), get_opt_ne _ _ (by decide), get_opt_ne _ _ (by decide)]
      cases is with
      | nil => exact .none
      | cons i is => exact .cons (holds_item i) (holds_items is)
theorem holds_items : ∀ is : List Item, HoldsItems (some (.arr (itemVals is))) is
  | [] => .nil
  | i :: is => .cons (holds_item i) (holds_items is)
end

theorem holds_info (is : List Item) : Holds (infoVal is) is := by
  cases is with
  | nil => exact ⟨[], rfl, .none⟩
  | cons i is => exact ⟨_, rfl, .cons (holds_item i) (holds_items is)⟩

theorem nesting_opt (k : String) (s : Str) (ms) : nestingMembers (optField k s ++ ms) = nestingMembers ms := by
  unfold optField
  split
  · rfl
  · simp [nestingMembers, nesting]

mutual
theorem nesting_item : ∀ i : Item, nesting (itemVal i) + 1 = 2 * levels i
  | .mk n v d t is => by
    rw [itemVal, nesting, nestingMembers, nesting_opt, nesting_opt, nesting_opt, levels]
    cases is with
    | nil => simp [itemVals, listField, nestingMembers, nesting, levelsAll]
    | cons i is =>
      have h := nesting_items (i :: is)
      have h1 := nesting_item i
      have hl : 1 ≤ levels i := by cases i; rw [levels]; omega
      simp only [itemVals] at h
      simp only [itemVals, listField, nestingMembers, nesting]
      rw [h]
      have : 1 ≤ levelsAll (i :: is) := by rw [levelsAll]; omega
      omega
theorem nesting_items : ∀ is : List Item, nestingAll (itemVals is) = 2 * levelsAll is - 1
  | [] => rfl
  | i :: is => by
    have h1 := nesting_item i
    have h2 := nesting_items is
    rw [itemVals, nestingAll, levelsAll, h2]
    omega
end

theorem nesting_info {is : List Item} : nesting (infoVal is) = 1 + (if is = [] then 0 else 2 * levelsAll is) := by
  cases is with
  | nil => rfl
  | cons i is =>
    have h := nesting_items (i :: is)
    simp only [itemVals] at h
    have : 1 ≤ levelsAll (i :: is) := by
      have hl : 1 ≤ levels i := by cases i; rw [levels]; omega
      rw [levelsAll]; omega
    simp only [infoVal, nesting, nestingMembers, h]
    rw [if_neg (by simp)]
    omega

theorem ws_spaces (n : Nat) : Ws (repeatStr [' '] n) := by
  intro c hc
  rw [repeatStr, List.mem_flatten] at hc
  obtain ⟨l, hl, hc⟩ := hc
  rw [List.mem_replicate] at hl
  rw [hl.2] at hc
  simp at hc; subst hc; rfl

mutual
theorem coerce_go : ∀ i : Item, CoerceItem (goItem i) i
  | .mk n v d t is => .mk (coerce_utf8 n) (coerce_utf8 v) (coerce_utf8 d) (coerce_utf8 t) (coerce_gos is)
theorem coerce_gos : ∀ is : List Item, CoerceItems (goItems is) is
  | [] => .nil
  | i :: is => .cons (coerce_go i) (coerce_gos is)
theorem coerce_utf8 : ∀ s : Str, Coerce (utf8 s) s
  | [] => .nil
  | c :: s => .char c (coerce_utf8 s)
end

theorem coerce_exists : ∀ n (b : Bytes), b.length ≤ n → ∃ s, Coerce b s := by
  intro n
  induction n with
  | zero => intro b hb; cases b with
    | nil => exact ⟨[], .nil⟩
    | cons x b => simp at hb
  | succ n ih =>
    intro b hb
    cases b with
    | nil => exact ⟨[], .nil⟩
    | cons x b =>
      by_cases h : ∃ c, utf8Char c <+: x :: b
      · obtain ⟨c, r, hr⟩ := h
        have hp : 0 < (utf8Char c).length := List.length_pos_iff.2 (utf8Char_ne c)
        have := congrArg List.length hr
        rw [List.length_append] at this
        obtain ⟨s, hs⟩ := ih r (by omega)
        exact ⟨c :: s, hr ▸ .char c hs⟩
      · obtain ⟨s, hs⟩ := ih b (by simpa using hb)
        exact ⟨_, .bad x (fun c hc => h ⟨c, hc⟩) hs⟩

mutual
theorem coerceItem_exists : ∀ g : GItem, ∃ i, CoerceItem g i
  | .mk n v d t is => by
    obtain ⟨n', hn⟩ := coerce_exists _ n (Nat.le_refl _)
    obtain ⟨v', hv⟩ := coerce_exists _ v (Nat.le_refl _)
    obtain ⟨d', hd⟩ := coerce_exists _ d (Nat.le_refl _)
    obtain ⟨t', ht⟩ := coerce_exists _ t (Nat.le_refl _)
    obtain ⟨is', hi⟩ := coerceItems_exists is
    exact ⟨_, .mk hn hv hd ht hi⟩
theorem coerceItems_exists : ∀ gs : List GItem, ∃ is, CoerceItems gs is
  | [] => ⟨[], .nil⟩
  | g :: gs => by
    obtain ⟨i, h⟩ := coerceItem_exists g
    obtain ⟨is, hs⟩ := coerceItems_exists gs
    exact ⟨_, .cons h hs⟩
end

theorem json_decodes {gs is} (h : CoerceItems gs is) (indent : Int) (hd : indent ≤ 0 ∨ levelsAll is < 5000) :
    ∃ out, infoJSON indent gs = some out ∧ Decodes out is := by
  unfold infoJSON
  by_cases hi : indent > 0
  · rw [if_pos hi]
    obtain ⟨t, ht, htt⟩ := indent_text (ws_spaces indent.toNat) (text_marshal h)
      (by rw [nesting_info, jsonMaxNesting]; split <;> omega)
    exact ⟨t, ht, _, htt, holds_info is⟩
  · rw [if_neg hi]
    exact ⟨_, rfl, _, text_marshal h, holds_info is⟩

end Json

/-- **C30** (the strings are valid UTF-8, and with an indentation the tree has fewer than 5000 levels). The output is a JSON text
that decodes to the tree, and to nothing else. In full the claim is for every tree, indentation and strings; `C30_deep` and
`C30_lossy` show why both conditions are needed. -/
theorem C30_json_partial (is : List Item) (indent : Int) (hd : indent ≤ 0 ∨ levelsAll is < 5000) :
    ∃ out, infoJSON indent (goItems is) = some out ∧ Decodes out is ∧ ∀ is', Decodes out is' → is' = is := by
  obtain ⟨out, ho, hdec⟩ := Json.json_decodes (Json.coerce_gos is) indent hd
  exact ⟨out, ho, hdec, fun is' h => Json.decodes_det h hdec⟩

/-- **C30**, any octets in the strings: the output is still a JSON text, and decodes to the tree with the octets that do not belong
to a code point replaced by U+FFFD. -/
theorem C30_any_string (gs : List GItem) (indent : Int) :
    ∃ is, CoerceItems gs is ∧
      (indent ≤ 0 ∨ levelsAll is < 5000 → ∃ out, infoJSON indent gs = some out ∧ Decodes out is) := by
  obtain ⟨is, h⟩ := Json.coerceItems_exists gs
  exact ⟨is, h, Json.json_decodes h indent⟩

/-- **C30**: the indentation does not matter for what is decoded. -/
theorem C30_indent_irrelevant (is : List Item) (a b : Int) (x y : Str) (hx : infoJSON a (goItems is) = some x)
    (hy : infoJSON b (goItems is) = some y) (is' : List Item) : Decodes x is' ↔ Decodes y is' := by
  have key : ∀ {i : Int} {out}, infoJSON i (goItems is) = some out → Decodes out is := by
    intro i out ho
    unfold infoJSON at ho
    by_cases hi : i > 0
    · rw [if_pos hi] at ho
      have ht := Json.text_marshal (Json.coerce_gos is)
      by_cases hd : nesting (Json.infoVal is) ≤ jsonMaxNesting
      · obtain ⟨t, ht, htt⟩ := Json.indent_text (Json.ws_spaces i.toNat) ht hd
        rw [ht] at ho
        cases ho
        exact ⟨_, htt, Json.holds_info is⟩
      · rw [Json.indent_deep (Json.ws_spaces i.toNat) ht (by omega)] at ho
        cases ho
    · rw [if_neg hi] at ho
      cases ho
      exact ⟨_, Json.text_marshal (Json.coerce_gos is), Json.holds_info is⟩
  constructor
  · intro h; rw [Json.decodes_det h (key hx)]; exact key hy
  · intro h; rw [Json.decodes_det h (key hy)]; exact key hx

/-- **C30, violated**: with an indentation, a tree of 5000 levels or more gives an error and no output. -/
theorem C30_deep (is : List Item) (indent : Int) (hi : 0 < indent) (hd : 5000 ≤ levelsAll is) :
    infoJSON indent (goItems is) = none := by
  unfold infoJSON
  rw [if_pos hi]
  refine Json.indent_deep (Json.ws_spaces _) (Json.text_marshal (Json.coerce_gos is)) ?_
  rw [Json.nesting_info, jsonMaxNesting]
  have : is ≠ [] := by rintro rfl; simp [levelsAll] at hd
  rw [if_neg this]
  omega

/-- **C30, violated**: different strings that are not valid UTF-8 give the same output. -/
theorem C30_lossy : infoJSON 0 [.mk [0xFF] [] [] [] []] = infoJSON 0 [.mk [0xFE] [] [] [] []] := by
  decide +kernel

/-- The hypotheses of `C30_json_partial` are met by a tree with every character that needs an escape, and the text is what it
should be. -/
theorem C30_example :
    let i := Item.mk (S "a\"\\\n<") [] [] [Char.ofNat 0x2028] [.mk (S "b") (S "é") (S "00") [] []]
    infoJSON 1 (goItems [i]) =
      some (S ("{\n \"Packet\": [\n  {\n   \"name\": \"a\\\"\\\\\\n\\u003c\",\n   \"note\": \"\\u2028\",\n   \"Item\": [\n" ++
        "    {\n     \"name\": \"b\",\n     \"value\": \"é\",\n     \"dump\": \"00\"\n    }\n   ]\n  }\n ]\n}")) ∧
    levelsAll [i] = 2 := by
  decide +kernel

end Gpgpdump
