import Verif.Unique
import Verif.ThmTagsError

/-!
# The rows shown with an error are determined by the contents
-/

namespace Gpgpdump
open P Spec

variable {o : OptCode → Bool} {X : Ext}

/-- the first field is cut off -/
def HeadCut (s : Slot) (q : Bytes) : Prop :=
  match s with
  | .int _ => IntCut q
  | .point _ => IntCut q
  | .curve => q = [] ∨ ∃ n r, q = n :: r ∧ r.length < UInt8.toNat n
  | _ => ∃ n r, q = n :: r ∧ r.length < UInt8.toNat n

theorem counted_not_cut {a r : Bytes} (h : a.length < 256) (he : ∃ n r', UInt8.ofNat a.length :: (a ++ r) = n :: r' ∧ r'.length < UInt8.toNat n) : False := by
  obtain ⟨n, r', he, hr⟩ := he
  obtain ⟨rfl, rfl⟩ := List.cons.inj he
  simp only [UInt8.toNat_ofNat', List.length_append] at hr
  omega

theorem HeadCut.not_rows {s : Slot} {f r : Bytes} {is : List Item} (h' : SlotRows o [s] f r is) (h : HeadCut s (f ++ r)) : False := by
  cases h' with
  | int hb hl h' => cases h'; rw [List.append_nil, List.append_assoc] at h; exact Spec.IntCut.not_int h hb hl
  | point hb hl h' => cases h'; rw [List.append_nil, List.append_assoc] at h; exact Spec.IntCut.not_int h hb hl
  | curve hl h' =>
    cases h'; rw [List.append_nil] at h
    rcases h with h | h
    · cases h
    · exact counted_not_cut hl h
  | kdf hl h' => cases h'; rw [List.append_nil] at h; exact counted_not_cut hl h
  | wrapped hl h' => cases h'; rw [List.append_nil] at h; exact counted_not_cut hl h
  | kdfMissing => obtain ⟨n, r, h, -⟩ := h; cases h
  | wrappedMissing => obtain ⟨n, r, h, -⟩ := h; cases h

theorem Spec.FieldsCut.cases' {s ss q is} (h : FieldsCut o (s :: ss) q is) : (HeadCut s q ∧ is = []) ∨
    ∃ f r js ks, q = f ++ r ∧ SlotRows o [s] f r js ∧ FieldsCut o ss r ks ∧ is = js ++ ks := by
  cases h with
  | int h => exact .inl ⟨h, rfl⟩
  | point h => exact .inl ⟨h, rfl⟩
  | curve => exact .inl ⟨.inl rfl, rfl⟩
  | sized hs hq =>
    refine .inl ⟨?_, rfl⟩
    simp only [List.mem_cons, List.not_mem_nil, or_false] at hs
    rcases hs with rfl | rfl | rfl
    · exact .inr ⟨_, _, rfl, hq⟩
    · exact ⟨_, _, rfl, hq⟩
    · exact ⟨_, _, rfl, hq⟩
  | next h h' => exact .inr ⟨_, _, _, _, rfl, h, h', rfl⟩

theorem Spec.FieldsCut.uniq : ∀ {ss q is is'}, FieldsCut o ss q is → FieldsCut o ss q is' → is = is'
  | [], _, _, _, h, _ => by cases h
  | s :: ss, q, is, is', h, h' => by
    rcases h.cases' with ⟨hc, rfl⟩ | ⟨f, r, js, ks, rfl, h1, h2, rfl⟩ <;> rcases h'.cases' with ⟨hc', rfl⟩ | ⟨f', r', js', ks', he, h1', h2', rfl⟩
    · rfl
    · rw [he] at hc; exact (HeadCut.not_rows h1' hc).elim
    · exact (HeadCut.not_rows h1 hc').elim
    · obtain ⟨rfl, rfl, rfl⟩ := h1.uniq h1' he
      rw [FieldsCut.uniq h2 h2']

theorem slots_head {s ss f q is} (h : SlotRows o (s :: ss) f q is) : ∃ f1 f2 is1 is2, f = f1 ++ f2 ∧
    SlotRows o [s] f1 (f2 ++ q) is1 ∧ SlotRows o ss f2 q is2 := by
  cases h with
  | int hb hl h => exact ⟨_, _, _, _, (List.append_assoc _ _ _).symm, by simpa using SlotRows.int hb hl (.nil (o := o)), h⟩
  | point hb hl h => exact ⟨_, _, _, _, (List.append_assoc _ _ _).symm, by simpa using SlotRows.point hb hl (.nil (o := o)), h⟩
  | curve hl h => exact ⟨_, _, _, _, (List.cons_append).symm, by simpa using SlotRows.curve hl (.nil (o := o)), h⟩
  | kdf hl h => exact ⟨_, _, _, _, (List.cons_append).symm, by simpa using SlotRows.kdf hl (.nil (o := o)), h⟩
  | wrapped hl h => exact ⟨_, _, _, _, (List.cons_append).symm, by simpa using SlotRows.wrapped hl (.nil (o := o)), h⟩
  | kdfMissing => exact ⟨[], [], _, _, rfl, .kdfMissing, .nil⟩
  | wrappedMissing => exact ⟨[], [], _, _, rfl, .wrappedMissing, .nil⟩

theorem Spec.FieldsCut.not_rows : ∀ {ss q is f r is'}, FieldsCut o ss q is → SlotRows o ss f r is' → q = f ++ r → False
  | [], _, _, _, _, _, h, _, _ => by cases h
  | s :: ss, q, is, f, r, is', h, h', he => by
    obtain ⟨f1, f2, is1, is2, rfl, h1, h2⟩ := slots_head h'
    rw [List.append_assoc] at he
    rcases h.cases' with ⟨hc, rfl⟩ | ⟨f, r, js, ks, rfl, h3, h4, rfl⟩
    · rw [he] at hc; exact HeadCut.not_rows h1 hc
    · obtain ⟨rfl, rfl, rfl⟩ := h3.uniq h1 he
      exact FieldsCut.not_rows h4 h2 rfl

/-- the row of a cut string-to-key specifier, from its octets -/
def s2kCutOf (o : OptCode → Bool) : Bytes → Item
  | [] => s2kRow o 0 []
  | [t] => s2kRow o t []
  | t :: h :: r => if t = 101 then s2kRow o 101 [] else if r.length = 8 then s2kRow o t [hashRow o h, saltRow r] else s2kRow o t [hashRow o h]

theorem Spec.S2KCutRow.eq {q i} (h : S2KCutRow o q i) : i = s2kCutOf o q := by
  cases h with
  | hash => rfl
  | salt ht hq =>
    simp only [List.mem_cons, List.not_mem_nil, or_false] at ht
    show _ = if _ then _ else if _ then _ else _
    rw [if_neg (by rintro rfl; revert ht; decide), if_neg (by omega)]
  | count hs =>
    exact (if_pos hs).symm
  | card => rfl
  | serial => rfl

theorem Spec.S2KCutRow.not_shown {q i iv f r i'} (h : S2KCutRow o q i) (h' : S2KShown o iv f r i') (he : q = f ++ r) : False := by
  cases h with
  | hash ht =>
    cases h' with
    | notGnu => obtain ⟨rfl, -⟩ := List.cons.inj he; revert ht; decide
    | other ht' => obtain ⟨rfl, -⟩ := List.cons.inj he; revert ht ht'; simp only [List.mem_cons, List.not_mem_nil, or_false, not_or]; tauto
    | _ => have := congrArg List.length he; simp at this
  | salt ht hq =>
    cases h' with
    | notGnu => obtain ⟨rfl, -⟩ := List.cons.inj he; revert ht; decide
    | simple => obtain ⟨rfl, -⟩ := List.cons.inj he; revert ht; decide
    | gnu => obtain ⟨rfl, -⟩ := List.cons.inj he; revert ht; decide
    | card => obtain ⟨rfl, -⟩ := List.cons.inj he; revert ht; decide
    | other ht' => obtain ⟨rfl, -⟩ := List.cons.inj he; revert ht ht'; simp only [List.mem_cons, List.not_mem_nil, or_false, not_or]; tauto
    | salted hs => have := congrArg List.length he; simp at this; omega
    | iterated hs => have := congrArg List.length he; simp at this; omega
  | count hs =>
    cases h' with
    | iterated hs' => have := congrArg List.length he; simp at this; omega
    | other ht' => obtain ⟨rfl, -⟩ := List.cons.inj he; revert ht'; decide
    | _ => obtain ⟨h, -⟩ := List.cons.inj he; revert h; decide
  | card =>
    cases h' with
    | gnu hn => simp only [List.cons_append, List.cons.injEq] at he; exact hn he.2.2.2.2.1.symm
    | card hs => have := congrArg List.length he; simp at this
    | notGnu h => exact h ⟨_, _, (List.cons.inj he).2.symm⟩
    | other ht' => obtain ⟨rfl, -⟩ := List.cons.inj he; revert ht'; decide
    | _ => obtain ⟨h, -⟩ := List.cons.inj he; revert h; decide
  | serial hq =>
    cases h' with
    | gnu hn => simp only [List.cons_append, List.cons.injEq] at he; exact hn he.2.2.2.2.1.symm
    | card hs =>
      simp only [List.cons_append, List.cons.injEq] at he
      exact counted_not_cut hs ⟨_, _, List.cons_eq_cons.2 ⟨he.2.2.2.2.2.1.symm, he.2.2.2.2.2.2.symm⟩, hq⟩
    | notGnu h => exact h ⟨_, _, (List.cons.inj he).2.symm⟩
    | other ht' => obtain ⟨rfl, -⟩ := List.cons.inj he; revert ht'; decide
    | _ => obtain ⟨h, -⟩ := List.cons.inj he; revert h; decide

theorem Spec.S2KCutRow.ne {q i} (h : S2KCutRow o q i) : q ≠ [] := by
  rintro rfl; cases h

theorem Spec.OptionsCutRows.uniq {u q is is'} (h : OptionsCutRows o u q is) (h' : OptionsCutRows o u q is') : is = is' := by
  generalize hu : u = u' at h'
  generalize hq : q = q' at h'
  cases h with
  | cipher h0 =>
    cases h' with
    | cipher => rfl
    | _ => cases hq
  | mode =>
    cases h' with
    | mode => cases hq; rfl
    | s2k hu' h' => obtain ⟨rfl, rfl⟩ := List.cons.inj hq; exact absurd rfl h'.ne
    | type => cases hq; rfl
    | _ => cases hq
  | type hu1 =>
    cases h' with
    | mode => cases hq; rfl
    | s2k hu' h' => obtain ⟨rfl, rfl⟩ := List.cons.inj hq; exact absurd rfl h'.ne
    | type => cases hq; rfl
    | _ => cases hq
  | s2k hu1 h =>
    cases h' with
    | mode => obtain ⟨rfl, rfl⟩ := List.cons.inj hq; exact absurd rfl h.ne
    | type => obtain ⟨rfl, rfl⟩ := List.cons.inj hq; exact absurd rfl h.ne
    | s2k hu' h' => obtain ⟨rfl, rfl⟩ := List.cons.inj hq; rw [h.eq, h'.eq]
    | cipher => cases hq
    | aeadType => subst hu; exact absurd hu1 (by decide)
    | aead => subst hu; exact absurd hu1 (by decide)
  | aeadType =>
    cases h' with
    | aeadType => cases hq; rfl
    | aead h' => obtain ⟨e, hq2⟩ := List.cons.inj hq; obtain ⟨rfl, rfl⟩ := List.cons.inj hq2; subst e; exact absurd rfl h'.ne
    | s2k hu' => subst hu; exact absurd hu' (by decide)
    | _ => cases hq
  | aead h =>
    cases h' with
    | aeadType => obtain ⟨e, hq2⟩ := List.cons.inj hq; obtain ⟨rfl, rfl⟩ := List.cons.inj hq2; subst e; exact absurd rfl h.ne
    | aead h' => obtain ⟨e, hq2⟩ := List.cons.inj hq; obtain ⟨rfl, rfl⟩ := List.cons.inj hq2; subst e; rw [h.eq, h'.eq]
    | s2k hu' => subst hu; exact absurd hu' (by decide)
    | _ => cases hq

theorem Spec.OptionsCutRows.not_shown {u q is c iv f r is'} (h : OptionsCutRows o u q is) (hu : u ≠ 0) (h' : OptionsShown o u c iv f r is') (he : q = f ++ r) : False := by
  generalize hv : u = u' at h'
  cases h' with
  | plain => exact hu hv
  | cipher hn =>
    cases h with
    | cipher => cases he
    | mode => subst hv; exact hn (by decide)
    | type h => rcases h with rfl | rfl <;> subst hv <;> exact hn (by decide)
    | s2k h => rcases h with rfl | rfl <;> subst hv <;> exact hn (by decide)
    | aeadType => subst hv; exact hn (by decide)
    | aead => subst hv; exact hn (by decide)
  | s2k hu' h' =>
    cases h with
    | cipher => cases he
    | mode => subst hv; exact absurd hu' (by decide)
    | type h => obtain ⟨-, he⟩ := List.cons.inj he; cases h' <;> cases he
    | s2k _ h => obtain ⟨-, he⟩ := List.cons.inj he; exact h.not_shown h' he
    | aeadType => subst hv; exact absurd hu' (by decide)
    | aead => subst hv; exact absurd hu' (by decide)
  | aead h' =>
    cases h with
    | cipher => cases he
    | mode => cases he
    | type h => subst hv; exact absurd h (by decide)
    | s2k h => subst hv; exact absurd h (by decide)
    | aeadType => obtain ⟨-, he⟩ := List.cons.inj he; obtain ⟨-, he⟩ := List.cons.inj he; cases h' <;> cases he
    | aead h => obtain ⟨-, he⟩ := List.cons.inj he; obtain ⟨-, he⟩ := List.cons.inj he; exact h.not_shown h' he

theorem Spec.OptionsCutRows.ne0 {u q is} (h : OptionsCutRows o u q is) : u ≠ 0 := by
  cases h with
  | cipher hu => exact hu
  | type hu => rcases hu with rfl | rfl <;> decide
  | s2k hu => rcases hu with rfl | rfl <;> decide
  | _ => decide

/-! ## Public keys -/

/-- a cut key behind its time -/
def KeyCut (o : OptCode → Bool) (r : Bytes) (k : List Item) : Prop :=
  (r = [] ∧ k = []) ∨ ∃ a q ss is, r = a :: q ∧ pubSlots a = some ss ∧ FieldsCut o ss q is ∧ k = pubRow o a :: is

def Key5Cut (o : OptCode → Bool) (r : Bytes) (k : List Item) : Prop :=
  (r = [] ∧ k = []) ∨ ∃ a q, r = a :: q ∧ ((q.length < 4 ∧ k = [pubRow o a]) ∨ (∃ n r', n < 2 ^ 32 ∧ r'.length < n ∧ q = beOctets 4 n ++ r' ∧ k = [pubRow o a]) ∨
    ∃ b r' ss is, b.length < 2 ^ 32 ∧ q = beOctets 4 b.length ++ (b ++ r') ∧ pubSlots a = some ss ∧ FieldsCut o ss b is ∧ k = pubRow o a :: is)

theorem KeyCut.uniq {r k k'} (h : KeyCut o r k) (h' : KeyCut o r k') : k = k' := by
  rcases h with ⟨rfl, rfl⟩ | ⟨a, q, ss, is, rfl, hs, hf, rfl⟩ <;> rcases h' with ⟨h, rfl⟩ | ⟨a', q', ss', is', h, hs', hf', rfl⟩
  · rfl
  · cases h
  · cases h
  · obtain ⟨rfl, rfl⟩ := List.cons.inj h
    obtain rfl := Option.some.inj (hs.symm.trans hs')
    rw [hf.uniq hf']

theorem KeyCut.not_ints {r k a f q is} (h : KeyCut o r k) (h' : Integers o pubSlots a f q is) (he : r = a :: (f ++ q)) : False := by
  rcases h with ⟨rfl, rfl⟩ | ⟨a, q, ss, is, rfl, hs, hf, rfl⟩
  · cases he
  · obtain ⟨rfl, rfl⟩ := List.cons.inj he
    cases h' with
    | known ha h' =>
      obtain rfl := Option.some.inj (hs.symm.trans ha)
      exact hf.not_rows h' rfl
    | unknown ha => rw [hs] at ha; cases ha

theorem size4_short {n : Nat} {q b r : Bytes} (hn : n < 2 ^ 32) (hb : b.length < 2 ^ 32) (hq : q.length < n) (he : beOctets 4 n ++ q = beOctets 4 b.length ++ (b ++ r)) :
    False := by
  obtain ⟨h1, rfl⟩ := List.append_inj he (by simp)
  have h2 := congrArg beNat h1
  rw [beNat_beOctets _ _ hn, beNat_beOctets _ _ hb] at h2
  simp only [List.length_append] at hq
  omega

theorem Key5Cut.uniq {r k k'} (h : Key5Cut o r k) (h' : Key5Cut o r k') : k = k' := by
  rcases h with ⟨rfl, rfl⟩ | ⟨a, q, rfl, h⟩ <;> rcases h' with ⟨e, rfl⟩ | ⟨a', q', e, h'⟩
  · rfl
  · cases e
  · cases e
  · obtain ⟨rfl, rfl⟩ := List.cons.inj e
    rcases h with ⟨h1, rfl⟩ | ⟨n, r', hn, hr, rfl, rfl⟩ | ⟨b, r', ss, is, hb, rfl, hs, hf, rfl⟩ <;>
      rcases h' with ⟨h1', rfl⟩ | ⟨n', r'', hn', hr', e', rfl⟩ | ⟨b', r'', ss', is', hb', e', hs', hf', rfl⟩
    · rfl
    · rfl
    · rw [e'] at h1; simp at h1
    · rfl
    · rfl
    · exact (size4_short hn hb' hr e').elim
    · simp at h1'
    · exact (size4_short hn' hb hr' e'.symm).elim
    · obtain ⟨rfl, rfl⟩ := counted4_inj hb hb' e'
      obtain rfl := Option.some.inj (hs.symm.trans hs')
      rw [hf.uniq hf']

theorem Key5Cut.not_ints {r k a f g q is} (h : Key5Cut o r k) (hl : (f ++ g).length < 2 ^ 32) (h' : Integers o pubSlots a f g is)
    (he : r = a :: (beOctets 4 (f ++ g).length ++ ((f ++ g) ++ q))) : False := by
  rcases h with ⟨rfl, rfl⟩ | ⟨a, q, rfl, h⟩
  · cases he
  · obtain ⟨rfl, rfl⟩ := List.cons.inj he
    rcases h with ⟨h1, rfl⟩ | ⟨n, r', hn, hr, e, rfl⟩ | ⟨b, r', ss, is, hb, e, hs, hf, rfl⟩
    · simp at h1
    · exact size4_short hn hl hr e.symm
    · obtain ⟨rfl, rfl⟩ := counted4_inj hl hb e
      cases h' with
      | known ha h' =>
        obtain rfl := Option.some.inj (hs.symm.trans ha)
        exact hf.not_rows h' rfl
      | unknown ha => rw [hs] at ha; cases ha

def Key3Cut (o : OptCode → Bool) (r : Bytes) (k : List Item) : Prop :=
  (r.length < 2 ∧ k = []) ∨ ∃ days r' k', days.length = 2 ∧ r = days ++ r' ∧ k = daysRow days :: k' ∧ KeyCut o r' k'

theorem Key3Cut.uniq {r k k'} (h : Key3Cut o r k) (h' : Key3Cut o r k') : k = k' := by
  rcases h with ⟨h1, rfl⟩ | ⟨days, r', k1, hd, rfl, rfl, h⟩ <;> rcases h' with ⟨h1', rfl⟩ | ⟨days', r'', k2, hd', e', rfl, h'⟩
  · rfl
  · rw [e', List.length_append] at h1; omega
  · rw [List.length_append] at h1'; omega
  · obtain ⟨rfl, rfl⟩ := List.append_inj e' (hd.trans hd'.symm)
    rw [h.uniq h']

theorem Key3Cut.not_ints {r k days a f q is} (h : Key3Cut o r k) (hd : days.length = 2) (h' : Integers o pubSlots a f q is) (he : r = days ++ a :: (f ++ q)) : False := by
  rcases h with ⟨h1, -⟩ | ⟨days', r', k1, hd', e, -, h⟩
  · rw [he, List.length_append] at h1; omega
  · exact h.not_ints h' (List.append_inj (e.symm.trans he) (hd'.trans hd.symm)).2

def KeyAt (o : OptCode → Bool) (v : UInt8) (r : Bytes) (k : List Item) : Prop :=
  if v = 3 then Key3Cut o r k else if v = 4 then KeyCut o r k else v = 5 ∧ Key5Cut o r k

theorem KeyAt.uniq {v r k k'} (h : KeyAt o v r k) (h' : KeyAt o v r k') : k = k' := by
  unfold KeyAt at h h'
  by_cases h3 : v = 3
  · rw [if_pos h3] at h h'; exact h.uniq h'
  · rw [if_neg h3] at h h'
    by_cases h4 : v = 4
    · rw [if_pos h4] at h h'; exact h.uniq h'
    · rw [if_neg h4] at h h'; exact h.2.uniq h'.2

theorem KeyAt.three {r k} (h : KeyAt o 3 r k) : Key3Cut o r k := h
theorem KeyAt.four {r k} (h : KeyAt o 4 r k) : KeyCut o r k := h
theorem KeyAt.five {r k} (h : KeyAt o 5 r k) : Key5Cut o r k := And.right h

theorem KeyAt.mem {v r k} (h : KeyAt o v r k) : v ∈ [3, 4, 5] := by
  unfold KeyAt at h
  by_cases h3 : v = 3
  · simp [h3]
  · rw [if_neg h3] at h
    by_cases h4 : v = 4
    · simp [h4]
    · rw [if_neg h4] at h; simp [h.1]

theorem Spec.PubCutRows.view {v q l} (h : PubCutRows o X v q l) :
    (q.length < 4 ∧ v ∈ [3, 4, 5] ∧ l = []) ∨ ∃ tm r k, tm.length = 4 ∧ q = tm ++ r ∧ l = createdRow o X tm :: k ∧ KeyAt o v r k := by
  cases h with
  | time hv hq => exact .inl ⟨hq, hv, rfl⟩
  | alg hv ht =>
    refine .inr ⟨_, [], [], ht, (List.append_nil _).symm, rfl, ?_⟩
    simp only [List.mem_cons, List.not_mem_nil, or_false] at hv
    rcases hv with rfl | rfl
    · exact .inl ⟨rfl, rfl⟩
    · exact ⟨rfl, .inl ⟨rfl, rfl⟩⟩
  | key ht hs h => exact .inr ⟨_, _, _, ht, rfl, rfl, .inr ⟨_, _, _, _, rfl, hs, h, rfl⟩⟩
  | days ht hq => exact .inr ⟨_, _, _, ht, rfl, rfl, .inl ⟨hq, rfl⟩⟩
  | alg3 ht hd => exact .inr ⟨_, _, _, ht, rfl, rfl, .inr ⟨_, [], [], hd, (List.append_nil _).symm, rfl, .inl ⟨rfl, rfl⟩⟩⟩
  | key3 ht hd hs h => exact .inr ⟨_, _, _, ht, rfl, rfl, .inr ⟨_, _, _, hd, rfl, rfl, .inr ⟨_, _, _, _, rfl, hs, h, rfl⟩⟩⟩
  | size5 ht hq => exact .inr ⟨_, _, _, ht, rfl, rfl, rfl, .inr ⟨_, _, rfl, .inl ⟨hq, rfl⟩⟩⟩
  | short5 ht hn hq => exact .inr ⟨_, _, _, ht, rfl, rfl, rfl, .inr ⟨_, _, rfl, .inr (.inl ⟨_, _, hn, hq, rfl, rfl⟩)⟩⟩
  | key5 ht hb hs h => exact .inr ⟨_, _, _, ht, rfl, rfl, rfl, .inr ⟨_, _, rfl, .inr (.inr ⟨_, _, _, _, hb, rfl, hs, h, rfl⟩)⟩⟩

theorem Spec.PubCutRows.uniq {v q l l'} (h : PubCutRows o X v q l) (h' : PubCutRows o X v q l') : l = l' := by
  rcases h.view with ⟨hq, -, e⟩ | ⟨tm, r, k, ht, e, el, hk⟩ <;> rcases h'.view with ⟨hq', -, e'⟩ | ⟨tm', r', k', ht', e', el', hk'⟩
  · rw [e, e']
  · rw [e', List.length_append] at hq; omega
  · rw [e, List.length_append] at hq'; omega
  · obtain ⟨h1, h2⟩ := List.append_inj (e.symm.trans e') (ht.trans ht'.symm)
    rw [h2] at hk
    rw [el, el', h1, hk.uniq hk']

theorem PubShown.view {v a f r is} (h' : PubShown o X v a f r is) : v ∉ [3, 4, 5] ∨ ∃ tm r1, tm.length = 4 ∧ f ++ r = tm ++ r1 ∧ ∀ k, ¬ KeyAt o v r1 k := by
  cases h' with
  | v3 ht hd h => exact .inr ⟨_, _, ht, List.append_assoc .., fun k hk => hk.three.not_ints hd h (by simp)⟩
  | v4 ht h => exact .inr ⟨_, _, ht, List.append_assoc .., fun k hk => hk.four.not_ints h (by simp)⟩
  | v5 ht hl h => exact .inr ⟨_, _, ht, List.append_assoc .., fun k hk => hk.five.not_ints (q := r) hl h (by simp)⟩
  | other hn => exact .inl hn

theorem Spec.PubCutRows.not_shown {v q l a f r is} (h : PubCutRows o X v q l) (h' : PubShown o X v a f r is) (he : q = f ++ r) : False := by
  rcases h.view with ⟨hq, hv, -⟩ | ⟨tm, r, k, ht, e, -, hk⟩ <;> rcases PubShown.view h' with hn | ⟨tm', r', ht', e', hk'⟩
  · exact hn hv
  · rw [he, e', List.length_append] at hq; omega
  · exact hn hk.mem
  · obtain ⟨-, h2⟩ := List.append_inj (e.symm.trans (he.trans e')) (ht.trans ht'.symm)
    rw [h2] at hk
    exact hk' _ hk

/-! ## Secret keys -/

theorem Spec.SecretInts.not_cut {a ss f q is b js} (h : SecretInts o a f q is) (hs : secSlots a = some ss) (h' : FieldsCut o ss b js) (he : b = f ++ q) : False := by
  cases h with
  | known ha h =>
    obtain rfl := Option.some.inj (hs.symm.trans ha)
    exact h'.not_rows h he
  | unknown ha => rw [hs] at ha; cases ha

/-- the plain material of a cut key -/
def PlainCut (o : OptCode → Bool) (a : UInt8) (r : Bytes) (is : List Item) : Prop :=
  (∃ ss, secSlots a = some ss ∧ FieldsCut o ss r is) ∨ (secSlots a = none ∧ r = [] ∧ is = []) ∨ ∃ f q, SecretInts o a f q is ∧ q.length < 2 ∧ r = f ++ q

theorem PlainCut.uniq {a r is is'} (h : PlainCut o a r is) (h' : PlainCut o a r is') : is = is' := by
  rcases h with ⟨ss, hs, h⟩ | ⟨hs, rfl, rfl⟩ | ⟨f, q, h, hq, e⟩ <;> rcases h' with ⟨ss', hs', h'⟩ | ⟨hs', e', rfl⟩ | ⟨f', q', h', hq', e'⟩
  · obtain rfl := Option.some.inj (hs.symm.trans hs')
    exact h.uniq h'
  · rw [hs] at hs'; cases hs'
  · exact (h'.not_cut hs h e').elim
  · rw [hs] at hs'; cases hs'
  · rfl
  · cases h' with
    | known ha => rw [hs] at ha; cases ha
    | unknown ha h2 => omega
  · exact (h.not_cut hs' h' e).elim
  · cases h with
    | known ha => rw [hs'] at ha; cases ha
    | unknown ha h2 => omega
  · exact (h.uniq h' (e.symm.trans e')).2.2

/-- a key cut in its options -/
def OptCut (o : OptCode → Bool) (u : UInt8) (r : Bytes) (is : List Item) : Prop :=
  OptionsCutRows o u r is ∨ ∃ c f q, OptionsShown o u c true f q is ∧ q.length < blockSize c ∧ r = f ++ q

theorem OptCut.uniq {u r is is'} (hu : u ≠ 0) (h : OptCut o u r is) (h' : OptCut o u r is') : is = is' := by
  rcases h with h | ⟨c, f, q, h, hq, e⟩ <;> rcases h' with h' | ⟨c', f', q', h', hq', e'⟩
  · exact h.uniq h'
  · exact (h.not_shown hu h' e').elim
  · exact (h'.not_shown hu h e).elim
  · exact (h.uniq h' (e.symm.trans e')).2.2.2.2

theorem Spec.SecretCutRows.view {a q n is} (h : SecretCutRows o a q n is) :
    (q = [] ∧ n = [] ∧ is = []) ∨ (∃ u r, q = u :: r ∧ u ≠ 0 ∧ n = [] ∧ OptCut o u r is) ∨ ∃ r, q = 0 :: r ∧ n = usageNote 0 ∧ PlainCut o a r is := by
  cases h with
  | usage => exact .inl ⟨rfl, rfl, rfl⟩
  | options h => exact .inr (.inl ⟨_, _, rfl, h.ne0, rfl, .inl h⟩)
  | iv hu ho hq => exact .inr (.inl ⟨_, _, rfl, hu, rfl, .inr ⟨_, _, _, ho, hq, rfl⟩⟩)
  | material hs h => exact .inr (.inr ⟨_, rfl, rfl, .inl ⟨_, hs, h⟩⟩)
  | unknown hs => exact .inr (.inr ⟨_, rfl, rfl, .inr (.inl ⟨hs, rfl, rfl⟩)⟩)
  | checksum h hq => exact .inr (.inr ⟨_, rfl, rfl, .inr (.inr ⟨_, _, h, hq, rfl⟩)⟩)

theorem Spec.SecretCutRows.uniq {a q n is n' is'} (h : SecretCutRows o a q n is) (h' : SecretCutRows o a q n' is') : n = n' ∧ is = is' := by
  rcases h.view with ⟨e, hn, hi⟩ | ⟨u, r, e, hu, hn, ho⟩ | ⟨r, e, hn, hp⟩ <;>
    rcases h'.view with ⟨e', hn', hi'⟩ | ⟨u', r', e', hu', hn', ho'⟩ | ⟨r', e', hn', hp'⟩ <;> rw [e] at e' <;> rw [hn, hn']
  · exact ⟨rfl, hi.trans hi'.symm⟩
  · cases e'
  · cases e'
  · cases e'
  · obtain ⟨rfl, rfl⟩ := List.cons.inj e'
    exact ⟨rfl, ho.uniq hu ho'⟩
  · exact absurd (List.cons.inj e').1 hu
  · cases e'
  · exact absurd (List.cons.inj e').1.symm hu'
  · obtain ⟨-, rfl⟩ := List.cons.inj e'
    exact ⟨rfl, hp.uniq hp'⟩

/-- a version 5 key cut in its options -/
def Opt5Cut (o : OptCode → Bool) (u : UInt8) (r : Bytes) (is : List Item) : Prop :=
  (r = [] ∧ is = []) ∨ (∃ n q, r = n :: q ∧ q.length < UInt8.toNat n ∧ is = []) ∨
    ∃ b q, b.length < 256 ∧ b ≠ [] ∧ u ≠ 0 ∧ r = UInt8.ofNat b.length :: (b ++ q) ∧
      (OptionsCutRows o u b is ∨ ∃ c f g, b = f ++ g ∧ OptionsShown o u c true f g is ∧ q.length < blockSize c)

theorem Opt5Cut.uniq {u r is is'} (h : Opt5Cut o u r is) (h' : Opt5Cut o u r is') : is = is' := by
  rcases h with ⟨e, hi⟩ | ⟨n, q, e, hq, hi⟩ | ⟨b, q, hb, h0, hu, e, h⟩ <;> rcases h' with ⟨e', hi'⟩ | ⟨n', q', e', hq', hi'⟩ | ⟨b', q', hb', h0', hu', e', h'⟩
  · rw [hi, hi']
  · rw [hi, hi']
  · rw [e] at e'; cases e'
  · rw [hi, hi']
  · rw [hi, hi']
  · exact (counted_not_cut hb' ⟨_, _, e'.symm.trans e, hq⟩).elim
  · rw [e] at e'; cases e'
  · exact (counted_not_cut hb ⟨_, _, e.symm.trans e', hq'⟩).elim
  · obtain ⟨rfl, rfl⟩ := counted1_inj hb hb' (e.symm.trans e')
    rcases h with h | ⟨c, f, g, eb, h, hq⟩ <;> rcases h' with h' | ⟨c', f', g', eb', h', hq'⟩
    · exact h.uniq h'
    · exact (h.not_shown hu h' eb').elim
    · exact (h'.not_shown hu h eb).elim
    · exact (h.uniq h' (eb.symm.trans eb')).2.2.2.2

theorem Opt5Cut.not_shown {u r is f s js} (h : Opt5Cut o u r is) (h' : Options5Shown o u f js) (he : r = f ++ s) : False := by
  cases h' with
  | none =>
    rcases h with ⟨e, -⟩ | ⟨n, q, e, hq, -⟩ | ⟨b, q, hb, h0, hu, e, h⟩ <;> rw [e] at he
    · cases he
    · obtain ⟨rfl, -⟩ := List.cons.inj he
      exact absurd hq (Nat.not_lt_zero _)
    · have := congrArg UInt8.toNat (List.cons.inj he).1
      rw [UInt8.toNat_ofNat', Nat.mod_eq_of_lt hb] at this
      exact h0 (List.length_eq_zero_iff.1 this)
  | plain hl h0 =>
    rcases h with ⟨e, -⟩ | ⟨n, q, e, hq, -⟩ | ⟨b, q, hb, h0, hu, e, h⟩
    · rw [e] at he; cases he
    · exact counted_not_cut hl ⟨_, _, he.symm.trans e, hq⟩
    · exact hu rfl
  | @some _ c iv f g n is ivs hu hl h1 hn =>
    have he' : r = UInt8.ofNat (f ++ g).length :: ((f ++ g) ++ (n ++ s)) := by rw [he]; simp
    rcases h with ⟨e, -⟩ | ⟨n, q, e, hq, -⟩ | ⟨b, q, hb, h0, hu, e, h⟩
    · rw [e] at he; cases he
    · exact counted_not_cut hl ⟨_, _, he'.symm.trans e, hq⟩
    · obtain ⟨rfl, rfl⟩ := counted1_inj hb hl (e.symm.trans he')
      rcases h with h | ⟨c', f', g', eb, h, hq⟩
      · exact h.not_shown hu h1 rfl
      · obtain ⟨rfl, rfl, -, -, -⟩ := h.uniq h1 eb.symm
        rw [List.length_append] at hq
        cases hn <;> omega

/-- version 5 material that is cut -/
def Mat5Cut (o : OptCode → Bool) (u a : UInt8) (s : Bytes) (n : Str) (js : List Item) : Prop :=
  (∃ m q, m < 2 ^ 32 ∧ q.length < m ∧ s = beOctets 4 m ++ q ∧ n = [] ∧ js = []) ∨
    (u = 0 ∧ n = usageNote 0 ∧ ∃ b q, b.length < 2 ^ 32 ∧ s = beOctets 4 b.length ++ (b ++ q) ∧
      ((∃ ss, secSlots a = some ss ∧ FieldsCut o ss b js) ∨ ∃ g r, b = g ++ r ∧ SecretInts o a g r js))

theorem Mat5Cut.uniq {u a s n js n' js'} (h : Mat5Cut o u a s n js) (h' : Mat5Cut o u a s n' js') : n = n' ∧ js = js' := by
  rcases h with ⟨m, q, hm, hq, e, hn, hj⟩ | ⟨-, hn, b, q, hb, e, h⟩ <;> rcases h' with ⟨m', q', hm', hq', e', hn', hj'⟩ | ⟨-, hn', b', q', hb', e', h'⟩
  · exact ⟨hn.trans hn'.symm, hj.trans hj'.symm⟩
  · exact (size4_short hm hb' hq (e.symm.trans e')).elim
  · exact (size4_short hm' hb hq' (e'.symm.trans e)).elim
  · refine ⟨hn.trans hn'.symm, ?_⟩
    obtain ⟨rfl, -⟩ := counted4_inj hb hb' (e.symm.trans e')
    rcases h with ⟨ss, hs, h⟩ | ⟨g, r, eb, h⟩ <;> rcases h' with ⟨ss', hs', h'⟩ | ⟨g', r', eb', h'⟩
    · obtain rfl := Option.some.inj (hs.symm.trans hs')
      exact h.uniq h'
    · exact (h'.not_cut hs h eb').elim
    · exact (h.not_cut hs' h' eb).elim
    · exact (h.uniq h' (eb.symm.trans eb')).2.2

theorem Spec.Secret5CutRows.view {a q n is} (h : Secret5CutRows o a q n is) :
    (q = [] ∧ n = [] ∧ is = []) ∨ (∃ u r, q = u :: r ∧ n = [] ∧ Opt5Cut o u r is) ∨
      ∃ u f s js ks, q = u :: (f ++ s) ∧ Options5Shown o u f js ∧ Mat5Cut o u a s n ks ∧ is = js ++ ks := by
  cases h with
  | usage => exact .inl ⟨rfl, rfl, rfl⟩
  | count => exact .inr (.inl ⟨_, _, rfl, rfl, .inl ⟨rfl, rfl⟩⟩)
  | short hq => exact .inr (.inl ⟨_, _, rfl, rfl, .inr (.inl ⟨_, _, rfl, hq, rfl⟩)⟩)
  | options hl h0 h => exact .inr (.inl ⟨_, _, rfl, rfl, .inr (.inr ⟨_, _, hl, h0, h.ne0, rfl, .inl h⟩)⟩)
  | @iv u c f g q _ hl hu ho hq =>
    refine .inr (.inl ⟨_, _, rfl, rfl, .inr (.inr ⟨f ++ g, q, hl, ?_, hu, by rw [List.append_assoc], .inr ⟨_, _, _, rfl, ho, hq⟩⟩)⟩)
    intro e
    obtain ⟨rfl, rfl⟩ := List.append_eq_nil_iff.1 e
    cases ho
  | data ho hn hq => exact .inr (.inr ⟨_, _, _, _, [], rfl, ho, .inl ⟨_, _, hn, hq, rfl, rfl, rfl⟩, (List.append_nil _).symm⟩)
  | material ho h0 hl hs h => exact .inr (.inr ⟨_, _, _, _, _, rfl, ho, .inr ⟨rfl, rfl, _, _, hl, rfl, .inl ⟨_, hs, h⟩⟩, rfl⟩)
  | @checksum f is g r q js ho h0 hl h hq =>
    exact .inr (.inr ⟨_, _, _, _, _, rfl, ho, .inr ⟨rfl, rfl, g ++ r, q, hl, by rw [List.append_assoc], .inr ⟨_, _, rfl, h⟩⟩, rfl⟩)

theorem Spec.Secret5CutRows.uniq {a q n is n' is'} (h : Secret5CutRows o a q n is) (h' : Secret5CutRows o a q n' is') : n = n' ∧ is = is' := by
  rcases h.view with ⟨e, hn, hi⟩ | ⟨u, r, e, hn, ho⟩ | ⟨u, f, s, js, ks, e, ho, hm, hi⟩ <;>
    rcases h'.view with ⟨e', hn', hi'⟩ | ⟨u', r', e', hn', ho'⟩ | ⟨u', f', s', js', ks', e', ho', hm', hi'⟩ <;> rw [e] at e'
  · exact ⟨hn.trans hn'.symm, hi.trans hi'.symm⟩
  · cases e'
  · cases e'
  · cases e'
  · obtain ⟨rfl, rfl⟩ := List.cons.inj e'
    exact ⟨hn.trans hn'.symm, ho.uniq ho'⟩
  · obtain ⟨rfl, e2⟩ := List.cons.inj e'
    exact (ho.not_shown ho' e2).elim
  · cases e'
  · obtain ⟨rfl, e2⟩ := List.cons.inj e'
    exact (ho'.not_shown ho e2.symm).elim
  · obtain ⟨rfl, e2⟩ := List.cons.inj e'
    obtain ⟨rfl, rfl, rfl⟩ := ho.uniq ho' e2
    obtain ⟨h1, h2⟩ := hm.uniq hm'
    exact ⟨h1, by rw [hi, hi', h2]⟩

/-! ## Packets -/

/-- the rows of a cut one-pass signature -/
def onePassCut (o : OptCode → Bool) : Bytes → List Item
  | [] => []
  | [v] => [versionRow o 3 none v]
  | [v, t] => [versionRow o 3 none v, sigTypeRow o t]
  | [v, t, h] => [versionRow o 3 none v, sigTypeRow o t, hashRow o h]
  | v :: t :: h :: a :: kid =>
    if kid.length < 8 then [versionRow o 3 none v, sigTypeRow o t, hashRow o h, pubRow o a]
    else [versionRow o 3 none v, sigTypeRow o t, hashRow o h, pubRow o a, keyIDRow kid]

theorem Spec.TagPart.inv4 {b l} (h : TagPart o X 4 b l) : l = onePassCut o b := by
  cases h with
  | onePass4 hk => exact (if_pos hk).symm
  | onePass5 hk => exact (if_neg (by omega)).symm
  | publicKey ht => exact absurd ht (by decide)
  | secretKey1 ht => exact absurd ht (by decide)
  | secretKey2 ht => exact absurd ht (by decide)
  | _ => rfl

def formatRow (fmt : UInt8) : Item := leaf "Literal data format".toList [Char.ofNat fmt.toNat] (literalFormat fmt).toList

def literalCut (o : OptCode → Bool) : Bytes → List Item
  | [] => []
  | [fmt] => [formatRow fmt]
  | fmt :: n :: r => if r.length < n.toNat then [formatRow fmt] else [formatRow fmt, textRow "File name".toList (o LITERAL || o DEBUG) (r.take n.toNat)]

theorem Spec.TagPart.inv11 {b l} (h : TagPart o X 11 b l) : l = literalCut o b := by
  cases h with
  | literal2 hr => exact (if_pos hr).symm
  | literal3 hn hr =>
    refine Eq.trans ?_ (if_neg (by rw [List.length_append]; omega)).symm
    rw [List.take_left' hn]; rfl
  | publicKey ht => exact absurd ht (by decide)
  | secretKey1 ht => exact absurd ht (by decide)
  | secretKey2 ht => exact absurd ht (by decide)
  | _ => rfl

def aeadCut (o : OptCode → Bool) : Bytes → List Item
  | [v] => [versionRow o 1 none v]
  | [v, c] => [versionRow o 1 none v, symRow o c]
  | [v, c, a] => [versionRow o 1 none v, symRow o c, aeadRow o a]
  | _ => []

theorem Spec.TagPart.inv20 {b l} (h : TagPart o X 20 b l) : l = aeadCut o b := by
  cases h with
  | publicKey ht => exact absurd ht (by decide)
  | secretKey1 ht => exact absurd ht (by decide)
  | secretKey2 ht => exact absurd ht (by decide)
  | _ => rfl

def packedCut (o : OptCode → Bool) : Bytes → List Item
  | [] => []
  | a :: z => [compRow o a, leaf "Compressed data".toList [] (sizeText z.length) (dumpIf (o DEBUG) z)]

theorem Spec.TagPart.inv8 {b l} (h : TagPart o X 8 b l) : l = packedCut o b := by
  cases h with
  | publicKey ht => exact absurd ht (by decide)
  | secretKey1 ht => exact absurd ht (by decide)
  | secretKey2 ht => exact absurd ht (by decide)
  | _ => rfl

theorem Spec.TagPart.inv17 {b l} (h : TagPart o X 17 b l) : l = [] := by
  cases h with
  | publicKey ht => exact absurd ht (by decide)
  | secretKey1 ht => exact absurd ht (by decide)
  | secretKey2 ht => exact absurd ht (by decide)
  | _ => rfl

def passwordCut (o : OptCode → Bool) : Bytes → List Item
  | v :: c :: t :: q => [versionRow o 4 (some 5) v, symRow o c, s2kCutOf o (t :: q)]
  | [v, c] => [versionRow o 4 (some 5) v, symRow o c]
  | [v] => [versionRow o 4 (some 5) v]
  | [] => []

theorem Spec.TagPart.inv3 {b l} (h : TagPart o X 3 b l) : l = passwordCut o b := by
  cases h with
  | @password3 c q i h =>
    have h1 := h.eq
    cases q with
    | nil => exact absurd rfl h.ne
    | cons t q => rw [h1]; rfl
  | publicKey ht => exact absurd ht (by decide)
  | secretKey1 ht => exact absurd ht (by decide)
  | secretKey2 ht => exact absurd ht (by decide)
  | _ => rfl

theorem Spec.TagPart.inv1 {b l} (h : TagPart o X 1 b l) : (b = [] ∧ l = []) ∨ ∃ v q, b = v :: q ∧ ((q.length < 8 ∧ l = [versionRow o 3 none v]) ∨
    ∃ kid r, kid.length = 8 ∧ q = kid ++ r ∧ ((r = [] ∧ l = [versionRow o 3 none v, keyIDRow kid]) ∨
      ∃ a ss q is, sesSlots a = some ss ∧ FieldsCut o ss q is ∧ r = a :: q ∧ l = versionRow o 3 none v :: keyIDRow kid :: pubRow o a :: is)) := by
  cases h with
  | nothing => exact .inl ⟨rfl, rfl⟩
  | session1 hq => exact .inr ⟨_, _, rfl, .inl ⟨hq, rfl⟩⟩
  | session2 hk => exact .inr ⟨_, _, rfl, .inr ⟨_, [], hk, (List.append_nil _).symm, .inl ⟨rfl, rfl⟩⟩⟩
  | session3 hk hs h => exact .inr ⟨_, _, rfl, .inr ⟨_, _, hk, rfl, .inr ⟨_, _, _, _, hs, h, rfl, rfl⟩⟩⟩
  | publicKey ht => exact absurd ht (by decide)
  | secretKey1 ht => exact absurd ht (by decide)
  | secretKey2 ht => exact absurd ht (by decide)

theorem Spec.TagPart.uniq1 {b l l'} (h : TagPart o X 1 b l) (h' : TagPart o X 1 b l') : l = l' := by
  rcases h.inv1 with ⟨e, hl⟩ | ⟨v, q, e, h⟩ <;> rcases h'.inv1 with ⟨e', hl'⟩ | ⟨v', q', e', h'⟩ <;> rw [e] at e'
  · rw [hl, hl']
  · cases e'
  · cases e'
  · obtain ⟨rfl, rfl⟩ := List.cons.inj e'
    rcases h with ⟨hq, hl⟩ | ⟨kid, r, hk, eq, h⟩ <;> rcases h' with ⟨hq', hl'⟩ | ⟨kid', r', hk', eq', h'⟩
    · rw [hl, hl']
    · rw [eq', List.length_append] at hq; omega
    · rw [eq, List.length_append] at hq'; omega
    · obtain ⟨rfl, rfl⟩ := List.append_inj (eq.symm.trans eq') (hk.trans hk'.symm)
      rcases h with ⟨er, hl⟩ | ⟨a, ss, q, is, hs, h, er, hl⟩ <;> rcases h' with ⟨er', hl'⟩ | ⟨a', ss', q', is', hs', h', er', hl'⟩ <;> rw [er] at er'
      · rw [hl, hl']
      · cases er'
      · cases er'
      · obtain ⟨rfl, rfl⟩ := List.cons.inj er'
        obtain rfl := Option.some.inj (hs.symm.trans hs')
        rw [hl, hl', h.uniq h']

theorem Spec.TagPart.inv6 {tag b l} (ht : tag ∈ [6, 14]) (h : TagPart o X tag b l) :
    (b = [] ∧ l = []) ∨ ∃ v q k, b = v :: q ∧ PubCutRows o X v q k ∧ l = versionRow o 4 (some 5) v :: k := by
  cases h with
  | nothing => exact .inl ⟨rfl, rfl⟩
  | publicKey ht h => exact .inr ⟨_, _, _, rfl, h, rfl⟩
  | secretKey1 ht' =>
    simp only [List.mem_cons, List.not_mem_nil, or_false] at ht ht'
    omega
  | secretKey2 ht' =>
    simp only [List.mem_cons, List.not_mem_nil, or_false] at ht ht'
    omega
  | _ => exact absurd ht (by decide)

theorem Spec.TagPart.uniq6 {tag b l l'} (ht : tag ∈ [6, 14]) (h : TagPart o X tag b l) (h' : TagPart o X tag b l') : l = l' := by
  rcases h.inv6 ht with ⟨e, hl⟩ | ⟨v, q, k, e, h, hl⟩ <;> rcases h'.inv6 ht with ⟨e', hl'⟩ | ⟨v', q', k', e', h', hl'⟩ <;> rw [e] at e'
  · rw [hl, hl']
  · cases e'
  · cases e'
  · obtain ⟨rfl, rfl⟩ := List.cons.inj e'
    rw [hl, hl', h.uniq h']

def publicItem (l : List Item) : Item := .mk "Public-Key".toList [] [] [] l
def secretItem (note : Str) (l : List Item) : Item := .mk "Secret-Key".toList [] [] note l

theorem Spec.TagPart.inv5 {tag b l} (ht : tag ∈ [5, 7]) (h : TagPart o X tag b l) :
    (b = [] ∧ l = []) ∨ (∃ v q k, b = v :: q ∧ PubCutRows o X v q k ∧ l = [versionRow o 4 (some 5) v, publicItem k]) ∨
      ∃ v a f q k note m, b = v :: (f ++ q) ∧ PubShown o X v a f q k ∧ (if v = 5 then Secret5CutRows o a q note m else SecretCutRows o a q note m) ∧
        l = [versionRow o 4 (some 5) v, publicItem k, secretItem note m] := by
  cases h with
  | nothing => exact .inl ⟨rfl, rfl⟩
  | publicKey ht' =>
    simp only [List.mem_cons, List.not_mem_nil, or_false] at ht ht'
    omega
  | secretKey1 ht' h => exact .inr (.inl ⟨_, _, _, rfl, h, rfl⟩)
  | secretKey2 ht' hp h => exact .inr (.inr ⟨_, _, _, _, _, _, _, rfl, hp, h, rfl⟩)
  | _ => exact absurd ht (by decide)

theorem Spec.TagPart.uniq5 {tag b l l'} (ht : tag ∈ [5, 7]) (h : TagPart o X tag b l) (h' : TagPart o X tag b l') : l = l' := by
  rcases h.inv5 ht with ⟨e, hl⟩ | ⟨v, q, k, e, h, hl⟩ | ⟨v, a, f, q, k, note, m, e, hp, h, hl⟩ <;>
    rcases h'.inv5 ht with ⟨e', hl'⟩ | ⟨v', q', k', e', h', hl'⟩ | ⟨v', a', f', q', k', note', m', e', hp', h', hl'⟩ <;> rw [e] at e'
  · rw [hl, hl']
  · cases e'
  · cases e'
  · cases e'
  · obtain ⟨rfl, rfl⟩ := List.cons.inj e'
    rw [hl, hl', h.uniq h']
  · obtain ⟨rfl, e2⟩ := List.cons.inj e'
    exact (h.not_shown hp' e2).elim
  · cases e'
  · obtain ⟨rfl, e2⟩ := List.cons.inj e'
    exact (h'.not_shown hp e2.symm).elim
  · obtain ⟨rfl, e2⟩ := List.cons.inj e'
    obtain ⟨rfl, rfl, rfl, rfl⟩ := hp.uniq hp' e2
    by_cases h5 : v = 5
    · rw [if_pos h5] at h h'
      obtain ⟨h1, h2⟩ := h.uniq h'
      rw [hl, hl', h1, h2]
    · rw [if_neg h5] at h h'
      obtain ⟨h1, h2⟩ := h.uniq h'
      rw [hl, hl', h1, h2]

theorem Spec.TagPart.inv_other {tag b l} (ht : tag ∉ [1, 2, 3, 4, 5, 6, 7, 8, 11, 14, 17, 20]) (h : TagPart o X tag b l) : l = [] := by
  cases h with
  | nothing => rfl
  | publicKey ht' =>
    simp only [List.mem_cons, List.not_mem_nil, or_false] at ht ht'
    omega
  | secretKey1 ht' =>
    simp only [List.mem_cons, List.not_mem_nil, or_false] at ht ht'
    omega
  | secretKey2 ht' =>
    simp only [List.mem_cons, List.not_mem_nil, or_false] at ht ht'
    omega
  | _ => exact absurd ht (by decide)

/-- The rows that come with an error are determined by tag and contents. Signatures are left out: what their subpackets of a duration show depends
on the creation time remembered. -/
theorem Spec.TagPart.uniq {tag b l l'} (hs : tag ≠ 2) (h : TagPart o X tag b l) (h' : TagPart o X tag b l') : l = l' := by
  by_cases ht : tag ∈ [1, 2, 3, 4, 5, 6, 7, 8, 11, 14, 17, 20]
  · simp only [List.mem_cons, List.not_mem_nil, or_false] at ht
    rcases ht with rfl | rfl | rfl | rfl | rfl | rfl | rfl | rfl | rfl | rfl | rfl | rfl
    · exact h.uniq1 h'
    · exact absurd rfl hs
    · exact h.inv3.trans h'.inv3.symm
    · exact h.inv4.trans h'.inv4.symm
    · exact h.uniq5 (by decide) h'
    · exact h.uniq6 (by decide) h'
    · exact h.uniq5 (by decide) h'
    · exact h.inv8.trans h'.inv8.symm
    · exact h.inv11.trans h'.inv11.symm
    · exact h.uniq6 (by decide) h'
    · exact h.inv17.trans h'.inv17.symm
    · exact h.inv20.trans h'.inv20.symm
  · exact (h.inv_other ht).trans (h'.inv_other ht).symm

/-- `TagPart` says which item it is: an item that comes with an error of the first call has the rows of every reading of the contents as a packet
that ends too early. -/
theorem C98_cut_unique (hX : OwnErrors X) (x : Ctx) (tag : Nat) (body : Bytes) (i : Option Item) (e : GoErr) (l : List Item) (ht : tag ≠ 2)
    (h : (tagOnce X (some x) tag body).1 = .ret i (some e)) (hl : TagPart x.opts X tag body l) : i = some (packetRow x.opts tag body l) := by
  obtain ⟨l', h1, rfl⟩ := C98_cut hX x tag body i e h
  rw [h1.uniq ht hl]

/-- For a tag other than 2 nothing but the options counts for an error and for the item that comes with it: with two contexts that have the same
options, whatever creation times they remember, the first call fails with both or with none, and the items are equal. -/
theorem C98_cut_context (hX : OwnErrors X) (x y : Ctx) (tag : Nat) (body : Bytes) (i : Option Item) (e : GoErr) (ht : tag ≠ 2) (ho : x.opts = y.opts)
    (h : (tagOnce X (some x) tag body).1 = .ret i (some e)) : ∃ e', (tagOnce X (some y) tag body).1 = .ret i (some e') ∧ e'.cause = e.cause := by
  obtain ⟨i', e', h', hc⟩ := ((C98_outcome hX tag body).2.1 y e.cause).mpr (((C98_outcome hX tag body).2.1 x e.cause).mp ⟨i, e, h, rfl⟩)
  refine ⟨e', ?_, hc⟩
  obtain ⟨l, h1, rfl⟩ := C98_cut hX x tag body i e h
  rw [ho] at h1 ⊢
  rw [h', C98_cut_unique hX y tag body i' e' l ht h' h1]

/-- a context that remembers the creation time of a key -/
def Ctx.later : Ctx := { Ctx.empty with keyTime := some ⟨[0, 0, 0, 1], false⟩ }

/-- the item that comes with an error, and the cause -/
def Spec.withError : Returned × Option Ctx → Option (Item × Cause)
  | (.ret (some i) (some e), _) => some (i, e.cause)
  | _ => none

/-- Hypotheses met: a cut public key, with a context that remembers a time and with one that does not. A signature with a key expiration time shows
why tag 2 is left out: cut behind the unhashed area, its item with the one context is not the item with the other. -/
theorem C98_cut_context_example : Ctx.later.opts = Ctx.empty.opts ∧
    (withError (tagOnce Tests.X (some Ctx.later) 6 [4, 0, 0, 0, 0, 1])).isSome ∧
    withError (tagOnce Tests.X (some Ctx.later) 6 [4, 0, 0, 0, 0, 1]) = withError (tagOnce Tests.X (some Ctx.empty) 6 [4, 0, 0, 0, 0, 1]) ∧
    (withError (tagOnce Tests.X (some Ctx.later) 2 [4, 0, 1, 8, 0, 6, 5, 9, 0, 0, 0, 1, 0, 0, 0xab])).isSome ∧
    (withError (tagOnce Tests.X (some Ctx.empty) 2 [4, 0, 1, 8, 0, 6, 5, 9, 0, 0, 0, 1, 0, 0, 0xab])).isSome ∧
    withError (tagOnce Tests.X (some Ctx.later) 2 [4, 0, 1, 8, 0, 6, 5, 9, 0, 0, 0, 1, 0, 0, 0xab]) ≠
      withError (tagOnce Tests.X (some Ctx.empty) 2 [4, 0, 1, 8, 0, 6, 5, 9, 0, 0, 0, 1, 0, 0, 0xab]) :=
  ⟨rfl, by decide +kernel, by decide +kernel, by decide +kernel, by decide +kernel, by decide +kernel⟩

end Gpgpdump
