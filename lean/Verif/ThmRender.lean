import Verif.SpecRender

/-!
# C29: the text output
-/

namespace Gpgpdump
open Spec

theorem headLine_eq (i : Item) : headLine i = itemLine i := by
  have : ∀ s : Str, (s.length > 0) ↔ ¬ s = [] := fun s => by cases s <;> simp
  unfold headLine itemLine
  congr 1
  · congr 1
    by_cases h : i.value = []
    · rw [if_pos h, if_neg (fun h' => (this _).1 h' h)]
    · rw [if_neg h, if_pos ((this _).2 h)]
  · by_cases h : i.note = []
    · rw [if_pos h, if_neg (fun h' => (this _).1 h' h)]
    · rw [if_neg h, if_pos ((this _).2 h)]

/-- a line of the output -/
def outLine (indent : Str) (l : Nat × Str) : Str := repeatStr indent l.1 ++ l.2 ++ ['\n']

mutual
theorem toStr_lines (indent : Str) (d : Nat) : ∀ i : Item, i.toStr indent d = ((lines d i).map (outLine indent)).flatten
  | .mk n v dm t is => by
    have ih := itemsToStr_lines indent (d + 1) is
    have hl : itemLine (.mk n v dm t is) = headLine (.mk n v dm t []) := (headLine_eq _).symm
    unfold Item.toStr lines
    rw [ih, hl]
    by_cases h : dm = []
    · subst h; simp [outLine]
    · have h' : dm.length > 0 := List.length_pos_iff.2 h
      simp [h, h', outLine]
theorem itemsToStr_lines (indent : Str) (d : Nat) : ∀ is : List Item, itemsToStr indent d is = ((linesAll d is).map (outLine indent)).flatten
  | [] => rfl
  | i :: is => by
    unfold itemsToStr linesAll
    rw [toStr_lines indent d i, itemsToStr_lines indent d is]
    simp
end

/-- C29: the text consists of the lines of the items and dumps in pre-order, each indented by its depth. -/
theorem C29_lines (indent : Str) (packets : List Item) :
    infoToString indent packets = ((linesAll 0 packets).map fun l => (List.replicate l.1 indent).flatten ++ l.2 ++ ['\n']).flatten :=
  itemsToStr_lines indent 0 packets

mutual
theorem lines_length (d : Nat) : ∀ i : Item, (lines d i).length = items i + dumps i
  | .mk n v dm t is => by
    have ih := linesAll_length (d + 1) is
    unfold lines items dumps
    simp only [List.cons_append, List.length_cons, List.length_append, ih]
    by_cases h : dm = [] <;> simp [h] <;> omega
theorem linesAll_length (d : Nat) : ∀ is : List Item, (linesAll d is).length = itemsAll is + dumpsAll is
  | [] => rfl
  | i :: is => by
    unfold linesAll itemsAll dumpsAll
    rw [List.length_append, lines_length d i, linesAll_length d is]
    omega
end

mutual
theorem mem_lines (p : Nat × Str → Prop) {q : Item → Prop} (h1 : ∀ i d, q i → p (d, itemLine i)) (h2 : ∀ i d, q i → i.dump ≠ [] → p (d, i.dump)) (d : Nat) :
    ∀ i : Item, Each q i → ∀ l ∈ lines d i, p l
  | .mk n v dm t is, .mk hq hi, l, hl => by
    unfold lines at hl
    simp only [List.cons_append, List.mem_cons, List.mem_append] at hl
    rcases hl with rfl | hl | hl
    · exact h1 _ _ hq
    · by_cases h : dm = []
      · simp [h] at hl
      · simp only [h, if_false, List.mem_singleton] at hl
        subst hl
        exact h2 (.mk n v dm t is) _ hq h
    · exact mem_linesAll p h1 h2 (d + 1) is hi l hl
theorem mem_linesAll (p : Nat × Str → Prop) {q : Item → Prop} (h1 : ∀ i d, q i → p (d, itemLine i)) (h2 : ∀ i d, q i → i.dump ≠ [] → p (d, i.dump)) (d : Nat) :
    ∀ is : List Item, (∀ i ∈ is, Each q i) → ∀ l ∈ linesAll d is, p l
  | [], _, l, hl => by cases hl
  | i :: is, h, l, hl => by
    unfold linesAll at hl
    rcases List.mem_append.1 hl with hl | hl
    · exact mem_lines p h1 h2 d i (h i (by simp)) l hl
    · exact mem_linesAll p h1 h2 d is (fun i hi => h i (by simp [hi])) l hl
end

theorem itemLine_breaks {i : Item} (hn : '\n' ∉ i.name) (hv : '\n' ∉ i.value) (ht : '\n' ∉ i.note) : '\n' ∉ itemLine i := by
  have e1 : '\n' ∉ S ": " := by decide
  have e2 : '\n' ∉ S " (" := by decide
  have e3 : '\n' ∉ S ")" := by decide
  unfold itemLine
  intro h
  rcases List.mem_append.1 h with h | h
  · rcases List.mem_append.1 h with h | h
    · exact hn h
    · split at h
      · cases h
      · rcases List.mem_append.1 h with h | h
        · exact e1 h
        · exact hv h
  · split at h
    · cases h
    · rcases List.mem_append.1 h with h | h
      · rcases List.mem_append.1 h with h | h
        · exact e2 h
        · exact ht h
      · exact e3 h

theorem breaks_repeat {indent : Str} (hi : '\n' ∉ indent) (d : Nat) : '\n' ∉ repeatStr indent d := by
  unfold repeatStr
  intro h
  obtain ⟨l, hl, hm⟩ := List.mem_flatten.1 h
  rw [List.eq_of_mem_replicate hl] at hm
  exact hi hm

/-- C29: the number of line breaks is the number of items plus the number of dumps. -/
theorem C29_count (indent : Str) (hi : '\n' ∉ indent) (packets : List Item)
    (h : ∀ i ∈ packets, Each (fun i => '\n' ∉ i.name ∧ '\n' ∉ i.value ∧ '\n' ∉ i.note ∧ '\n' ∉ i.dump) i) :
    (infoToString indent packets).count '\n' = itemsAll packets + dumpsAll packets := by
  have hl := mem_linesAll (fun l => '\n' ∉ l.2) (fun i d hq => itemLine_breaks hq.1 hq.2.1 hq.2.2.1) (fun i d hq _ => hq.2.2.2) 0 packets h
  rw [← linesAll_length 0 packets]
  unfold infoToString
  rw [itemsToStr_lines]
  generalize linesAll 0 packets = L at hl
  induction L with
  | nil => rfl
  | cons l L ih =>
    simp only [List.map_cons, List.flatten_cons, List.count_append, List.length_cons, outLine]
    rw [ih fun l hl' => hl l (by simp [hl']), List.count_eq_zero.2 (breaks_repeat hi l.1), List.count_eq_zero.2 (hl l (by simp))]
    simp; omega

/-! ## What the text determines -/

/-- the first line of a text -/
theorem line_inj {a a' r r' : Str} (ha : '\n' ∉ a) (ha' : '\n' ∉ a') (h : a ++ '\n' :: r = a' ++ '\n' :: r') : a = a' ∧ r = r' := by
  induction a generalizing a' with
  | nil =>
    cases a' with
    | nil => simp at h; exact ⟨rfl, h⟩
    | cons c a' => simp at h; exact absurd (List.mem_cons.2 (.inl h.1)) ha'
  | cons c a ih =>
    cases a' with
    | nil => simp at h; exact absurd (List.mem_cons.2 (.inl h.1.symm)) ha
    | cons c' a' =>
      simp only [List.cons_append, List.cons.injEq] at h
      obtain ⟨rfl, h⟩ := h
      obtain ⟨rfl, rfl⟩ := ih (fun hm => ha (by simp [hm])) (fun hm => ha' (by simp [hm])) h
      exact ⟨rfl, rfl⟩

theorem depth_inj {indent : Str} {l l' : Str} (hl : ¬ indent <+: l) (hl' : ¬ indent <+: l') :
    ∀ {d d' : Nat}, repeatStr indent d ++ l = repeatStr indent d' ++ l' → d = d' ∧ l = l'
  | 0, 0, h => ⟨rfl, h⟩
  | 0, d' + 1, h => by
    refine absurd ⟨repeatStr indent d' ++ l', ?_⟩ hl
    simp only [repeatStr, List.replicate_succ, List.flatten_cons, List.append_assoc, List.replicate_zero, List.flatten_nil, List.nil_append] at h ⊢
    exact h.symm
  | d + 1, 0, h => by
    refine absurd ⟨repeatStr indent d ++ l, ?_⟩ hl'
    simp only [repeatStr, List.replicate_succ, List.flatten_cons, List.append_assoc, List.replicate_zero, List.flatten_nil, List.nil_append] at h ⊢
    exact h
  | d + 1, d' + 1, h => by
    have : repeatStr indent d ++ l = repeatStr indent d' ++ l' := by
      simp only [repeatStr, List.replicate_succ, List.flatten_cons, List.append_assoc] at h ⊢
      exact List.append_cancel_left h
    obtain ⟨rfl, rfl⟩ := depth_inj hl hl' this
    exact ⟨rfl, rfl⟩

theorem outLines_inj {indent : Str} (hi : '\n' ∉ indent) : ∀ {L L' : List (Nat × Str)}, (∀ l ∈ L, '\n' ∉ l.2 ∧ ¬ indent <+: l.2) → (∀ l ∈ L', '\n' ∉ l.2 ∧ ¬ indent <+: l.2) →
    (L.map (outLine indent)).flatten = (L'.map (outLine indent)).flatten → L = L'
  | [], [], _, _, _ => rfl
  | [], l :: L', _, _, h => by simp [outLine] at h
  | l :: L, [], _, _, h => by simp [outLine] at h
  | (d, l) :: L, (d', l') :: L', hL, hL', h => by
    have h1 := hL (d, l) (by simp)
    have h2 := hL' (d', l') (by simp)
    have hb : ∀ {d : Nat} {l : Str}, '\n' ∉ l → '\n' ∉ repeatStr indent d ++ l := by
      intro d l hl hm
      rcases List.mem_append.1 hm with hm | hm
      · exact breaks_repeat hi _ hm
      · exact hl hm
    simp only [List.map_cons, List.flatten_cons, outLine] at h
    rw [List.append_assoc _ ['\n'], List.append_assoc _ ['\n']] at h
    obtain ⟨e1, e2⟩ := line_inj (hb h1.1) (hb h2.1) h
    obtain ⟨rfl, rfl⟩ := depth_inj h1.2 h2.2 e1
    rw [outLines_inj hi (fun l hl => hL l (by simp [hl])) (fun l hl => hL' l (by simp [hl])) e2]

/-- C29: if no field has a line break and no line starts with the indentation, the text determines the lines and their depths.
The full claim (the text determines the tree) is false, see `C29_ambiguous`; what is missing besides is in `C29_tree_partial`. -/
theorem C29_determined_partial (indent : Str) (hi : '\n' ∉ indent) (packets packets' : List Item) (h : ∀ i ∈ packets, Each (OneLine indent) i)
    (h' : ∀ i ∈ packets', Each (OneLine indent) i) (he : infoToString indent packets = infoToString indent packets') :
    linesAll 0 packets = linesAll 0 packets' := by
  have key : ∀ ps : List Item, (∀ i ∈ ps, Each (OneLine indent) i) → ∀ l ∈ linesAll 0 ps, '\n' ∉ l.2 ∧ ¬ indent <+: l.2 := fun ps hp =>
    mem_linesAll (fun l => '\n' ∉ l.2 ∧ ¬ indent <+: l.2) (fun i d hq => ⟨itemLine_breaks hq.1 hq.2.1 hq.2.2.1, hq.2.2.2.2.1⟩) (fun i d hq _ => ⟨hq.2.2.2.1, hq.2.2.2.2.2⟩) 0 ps hp
  unfold infoToString at he
  rw [itemsToStr_lines, itemsToStr_lines] at he
  exact outLines_inj hi (key _ h) (key _ h') he

mutual
theorem lines_deep (d : Nat) : ∀ (i : Item), ∀ l ∈ lines d i, d ≤ l.1
  | .mk n v dm t is, l, hl => by
    unfold lines at hl
    simp only [List.cons_append, List.mem_cons, List.mem_append] at hl
    rcases hl with rfl | hl | hl
    · exact Nat.le_refl _
    · split at hl
      · cases hl
      · simp only [List.mem_singleton] at hl; subst hl; exact Nat.le_succ d
    · have := linesAll_deep (d + 1) is l hl; omega
theorem linesAll_deep (d : Nat) : ∀ (is : List Item), ∀ l ∈ linesAll d is, d ≤ l.1
  | [], l, hl => by cases hl
  | i :: is, l, hl => by
    unfold linesAll at hl
    rcases List.mem_append.1 hl with hl | hl
    · exact lines_deep d i l hl
    · exact linesAll_deep d is l hl
end

/-- the next item starts with a line at its own depth -/
theorem linesAll_head (d : Nat) (is : List Item) : linesAll d is = [] ∨ ∃ l L, linesAll d is = (d, l) :: L := by
  cases is with
  | nil => exact .inl rfl
  | cons i is =>
    rcases i with ⟨n, v, dm, t, ks⟩
    refine .inr ⟨itemLine (.mk n v dm t ks), (if dm = [] then [] else [(d + 1, dm)]) ++ linesAll (d + 1) ks ++ linesAll d is, ?_⟩
    rw [linesAll, lines]
    rfl

theorem deep_split {d : Nat} {A A' B B' : List (Nat × Str)} (hA : ∀ l ∈ A, d + 1 ≤ l.1) (hA' : ∀ l ∈ A', d + 1 ≤ l.1)
    (hB : B = [] ∨ ∃ l L, B = (d, l) :: L) (hB' : B' = [] ∨ ∃ l L, B' = (d, l) :: L) (h : A ++ B = A' ++ B') : A = A' ∧ B = B' := by
  induction A generalizing A' with
  | nil =>
    cases A' with
    | nil => exact ⟨rfl, h⟩
    | cons a A' =>
      exfalso
      rcases hB with rfl | ⟨l, L, rfl⟩
      · cases h
      · simp only [List.nil_append, List.cons_append, List.cons.injEq] at h
        have := hA' a (by simp)
        rw [← h.1] at this
        exact absurd this (by simp)
  | cons a A ih =>
    cases A' with
    | nil =>
      exfalso
      rcases hB' with rfl | ⟨l, L, rfl⟩
      · cases h
      · simp only [List.nil_append, List.cons_append, List.cons.injEq] at h
        have := hA a (by simp)
        rw [h.1] at this
        exact absurd this (by simp)
    | cons a' A' =>
      simp only [List.cons_append, List.cons.injEq] at h
      obtain ⟨rfl, h⟩ := h
      obtain ⟨rfl, rfl⟩ := ih (fun l hl => hA l (by simp [hl])) (fun l hl => hA' l (by simp [hl])) h
      exact ⟨rfl, rfl⟩

/-- how an item has to be written so that it can be read back: dumps are recognizable (`D`), and the parts of item lines too (`F`
is a set of name, value and note on which item lines are unambiguous) -/
def Readable (D : Str → Prop) (F : Str × Str × Str → Prop) (i : Item) : Prop :=
  (i.dump = [] ∨ D i.dump) ∧ ¬ D (itemLine i) ∧ F (i.name, i.value, i.note)

mutual
theorem lines_inj {D : Str → Prop} {F : Str × Str × Str → Prop}
    (hF : ∀ i i' : Item, F (i.name, i.value, i.note) → F (i'.name, i'.value, i'.note) → itemLine i = itemLine i' → i.name = i'.name ∧ i.value = i'.value ∧ i.note = i'.note) (d : Nat) :
    ∀ (i i' : Item), Each (Readable D F) i → Each (Readable D F) i' → lines d i = lines d i' → i = i'
  | .mk n v dm t is, .mk n' v' dm' t' is', .mk hq hi, .mk hq' hi', h => by
    unfold lines at h
    simp only [List.cons_append, List.cons.injEq, Prod.mk.injEq, true_and] at h
    obtain ⟨h1, h2⟩ := h
    obtain ⟨e1, e2, e3⟩ := hF _ _ hq.2.2 hq'.2.2 h1
    simp only [Item.name, Item.value, Item.note] at e1 e2 e3
    subst e1 e2 e3
    have hdump : ∀ {dm : Str} {is is' : List Item}, dm ≠ [] → D dm → (∀ i ∈ is', Each (Readable D F) i) → (d + 1, dm) :: linesAll (d + 1) is = linesAll (d + 1) is' → False := by
      intro dm is is' hne hD hi' he
      cases is' with
      | nil => cases he
      | cons k ks =>
        rcases k with ⟨n, v, dm', t, js⟩
        unfold linesAll lines at he
        simp only [List.cons_append, List.cons.injEq, Prod.mk.injEq, true_and] at he
        cases hi' (.mk n v dm' t js) (by simp) with
        | mk hq _ => exact hq.2.1 (he.1 ▸ hD)
    have key : dm = dm' ∧ linesAll (d + 1) is = linesAll (d + 1) is' := by
      by_cases hd : dm = []
      · by_cases hd' : dm' = []
        · rw [if_pos hd, if_pos hd'] at h2
          exact ⟨hd.trans hd'.symm, h2⟩
        · rw [if_pos hd, if_neg hd'] at h2
          exact (hdump hd' (hq'.1.resolve_left hd') hi h2.symm).elim
      · by_cases hd' : dm' = []
        · rw [if_neg hd, if_pos hd'] at h2
          exact (hdump hd (hq.1.resolve_left hd) hi' h2).elim
        · rw [if_neg hd, if_neg hd'] at h2
          simp only [List.cons_append, List.nil_append, List.cons.injEq, Prod.mk.injEq, true_and] at h2
          exact h2
    obtain ⟨rfl, h3⟩ := key
    rw [linesAll_inj hF (d + 1) is is' hi hi' h3]
theorem linesAll_inj {D : Str → Prop} {F : Str × Str × Str → Prop}
    (hF : ∀ i i' : Item, F (i.name, i.value, i.note) → F (i'.name, i'.value, i'.note) → itemLine i = itemLine i' → i.name = i'.name ∧ i.value = i'.value ∧ i.note = i'.note) (d : Nat) :
    ∀ (is is' : List Item), (∀ i ∈ is, Each (Readable D F) i) → (∀ i ∈ is', Each (Readable D F) i) → linesAll d is = linesAll d is' → is = is'
  | [], [], _, _, _ => rfl
  | [], .mk n v dm t ks :: is', _, _, h => by unfold linesAll lines at h; simp at h
  | .mk n v dm t ks :: is, [], _, _, h => by unfold linesAll lines at h; simp at h
  | i :: is, i' :: is', hi, hi', h => by
    have e : ∀ (d : Nat) (i : Item), lines d i = (d, itemLine i) :: (lines d i).tail ∧ ∀ l ∈ (lines d i).tail, d + 1 ≤ l.1 := by
      intro d i
      rcases i with ⟨n, v, dm, t, ks⟩
      unfold lines
      refine ⟨rfl, ?_⟩
      simp only [List.cons_append, List.tail_cons, List.mem_append]
      rintro l (hl | hl)
      · split at hl
        · cases hl
        · simp only [List.mem_singleton] at hl; subst hl; exact Nat.le_refl _
      · exact linesAll_deep (d + 1) ks l hl
    have h2 : lines d i = lines d i' ∧ linesAll d is = linesAll d is' := by
      unfold linesAll at h
      rw [(e d i).1, (e d i').1] at h
      simp only [List.cons_append, List.cons.injEq] at h
      obtain ⟨a1, a2⟩ := deep_split (e d i).2 (e d i').2 (linesAll_head d is) (linesAll_head d is') h.2
      rw [(e d i).1, (e d i').1, a1, h.1]
      exact ⟨rfl, a2⟩
    rw [lines_inj hF d i i' (hi i (by simp)) (hi' i' (by simp)) h2.1, linesAll_inj hF d is is' (fun i h => hi i (by simp [h])) (fun i h => hi' i (by simp [h])) h2.2]
end

/-- C29: the text determines the tree if besides dumps are recognizable as such and item lines are unambiguous. -/
theorem C29_tree_partial (indent : Str) (hi : '\n' ∉ indent) (D : Str → Prop) (F : Str × Str × Str → Prop)
    (hF : ∀ i i' : Item, F (i.name, i.value, i.note) → F (i'.name, i'.value, i'.note) → itemLine i = itemLine i' → i.name = i'.name ∧ i.value = i'.value ∧ i.note = i'.note)
    (packets packets' : List Item) (h : ∀ i ∈ packets, Each (fun i => OneLine indent i ∧ Readable D F i) i) (h' : ∀ i ∈ packets', Each (fun i => OneLine indent i ∧ Readable D F i) i)
    (he : infoToString indent packets = infoToString indent packets') : packets = packets' := by
  have sub : ∀ {p q : Item → Prop}, (∀ i, p i → q i) → ∀ i, Each p i → Each q i := by
    intro p q hpq i hp
    induction hp with
    | mk h _ ih => exact .mk (hpq _ h) ih
  exact linesAll_inj hF 0 packets packets' (fun i hm => sub (fun _ h => h.2) i (h i hm)) (fun i hm => sub (fun _ h => h.2) i (h' i hm))
    (C29_determined_partial indent hi packets packets' (fun i hm => sub (fun _ h => h.1) i (h i hm)) (fun i hm => sub (fun _ h => h.1) i (h' i hm)) he)

/-- C29 is false: a dump looks like a child, a value like a part of the name, a note like a part of the value. -/
theorem C29_ambiguous (indent : Str) :
    infoToString indent [newItem (S "Trust") [] [] (S "0a 0b")] = infoToString indent [(newItem (S "Trust")).add (newItem (S "0a 0b"))] ∧
    infoToString indent [newItem (S "User ID") (S "Alice")] = infoToString indent [newItem (S "User ID: Alice")] ∧
    infoToString indent [newItem (S "User ID") (S "Alice (home)")] = infoToString indent [newItem (S "User ID") (S "Alice") (S "home")] := by
  refine ⟨?_, ?_, ?_⟩ <;> simp [infoToString, itemsToStr, Item.toStr, newItem, Item.add, Item.name, Item.value, Item.dump, Item.note, Item.items, headLine, S, repeatStr]

/-- C29 needs an indentation: without it children look like siblings. -/
theorem C29_no_indent : infoToString [] [(newItem (S "a")).add (newItem (S "b"))] = infoToString [] [newItem (S "a"), newItem (S "b")] := by
  decide

/-- a tree of depth 2 with a dump -/
theorem C29_example : infoToString ['\t'] [((newItem (S "User ID Packet (tag 13)") [] (S "5 bytes")).add ((newItem (S "User ID") (S "Alice") [] (S "41 6c 69 63 65")))), newItem (S "x")] =
    S "User ID Packet (tag 13) (5 bytes)\n\tUser ID: Alice\n\t\t41 6c 69 63 65\nx\n" := by
  decide

end Gpgpdump
