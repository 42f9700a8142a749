import Verif.FullTags
import Verif.ThmTrunc
import Verif.ThmSubs

/-!
# The table of displayed items allows one display only
-/

namespace Gpgpdump
open P Spec

variable {o : OptCode → Bool} {X : Ext}

/-! ## Integers -/

theorem ofNat_inj {n m : Nat} (hn : n < 256) (hm : m < 256) (h : UInt8.ofNat n = UInt8.ofNat m) : n = m := by
  have := congrArg UInt8.toNat h
  simp only [UInt8.toNat_ofNat', Nat.reducePow] at this
  omega

/-- two blocks with a count of one octet -/
theorem counted1_inj {a a' r r' : Bytes} (h : a.length < 256) (h' : a'.length < 256) (he : UInt8.ofNat a.length :: (a ++ r) = UInt8.ofNat a'.length :: (a' ++ r')) :
    a = a' ∧ r = r' := by
  simp only [List.cons.injEq] at he
  exact List.append_inj he.2 (ofNat_inj h h' he.1)

theorem counted4_inj {a a' r r' : Bytes} (h : a.length < 2 ^ 32) (h' : a'.length < 2 ^ 32)
    (he : beOctets 4 a.length ++ (a ++ r) = beOctets 4 a'.length ++ (a' ++ r')) : a = a' ∧ r = r' := by
  obtain ⟨h1, h2⟩ := List.append_inj he (by simp)
  have h3 := congrArg beNat h1
  rw [beNat_beOctets _ _ (by simpa using h), beNat_beOctets _ _ (by simpa using h')] at h3
  exact List.append_inj h2 h3

theorem Spec.SlotRows.uniq {ss f q is} (h : SlotRows o ss f q is) : ∀ {f' q' is'}, SlotRows o ss f' q' is' → f ++ q = f' ++ q' → f = f' ∧ q = q' ∧ is = is' := by
  induction h with
  | nil =>
    intro f' q' is' h' he
    cases h'
    exact ⟨rfl, he, rfl⟩
  | int hb hl h ih =>
    intro f' q' is' h' he
    cases h' with
    | int hb' hl' h' =>
      simp only [List.append_assoc] at he
      obtain ⟨rfl, he1⟩ := be2_inj hb hb' he
      obtain ⟨rfl, he2⟩ := List.append_inj he1 (hl.trans hl'.symm)
      obtain ⟨rfl, rfl, rfl⟩ := ih h' he2
      exact ⟨rfl, rfl, rfl⟩
  | point hb hl h ih =>
    intro f' q' is' h' he
    cases h' with
    | point hb' hl' h' =>
      simp only [List.append_assoc] at he
      obtain ⟨rfl, he1⟩ := be2_inj hb hb' he
      obtain ⟨rfl, he2⟩ := List.append_inj he1 (hl.trans hl'.symm)
      obtain ⟨rfl, rfl, rfl⟩ := ih h' he2
      exact ⟨rfl, rfl, rfl⟩
  | curve hl h ih =>
    intro f' q' is' h' he
    cases h' with
    | curve hl' h' =>
      simp only [List.append_assoc, List.cons_append] at he
      obtain ⟨rfl, he1⟩ := counted1_inj hl hl' he
      obtain ⟨rfl, rfl, rfl⟩ := ih h' he1
      exact ⟨rfl, rfl, rfl⟩
  | kdf hl h ih =>
    intro f' q' is' h' he
    cases h' with
    | kdf hl' h' =>
      simp only [List.append_assoc, List.cons_append] at he
      obtain ⟨rfl, he1⟩ := counted1_inj hl hl' he
      obtain ⟨rfl, rfl, rfl⟩ := ih h' he1
      exact ⟨rfl, rfl, rfl⟩
    | kdfMissing => simp at he
  | wrapped hl h ih =>
    intro f' q' is' h' he
    cases h' with
    | wrapped hl' h' =>
      simp only [List.append_assoc, List.cons_append] at he
      obtain ⟨rfl, he1⟩ := counted1_inj hl hl' he
      obtain ⟨rfl, rfl, rfl⟩ := ih h' he1
      exact ⟨rfl, rfl, rfl⟩
    | wrappedMissing => simp at he
  | kdfMissing =>
    intro f' q' is' h' he
    cases h' with
    | kdf hl' h' => simp at he
    | kdfMissing => exact ⟨rfl, rfl, rfl⟩
  | wrappedMissing =>
    intro f' q' is' h' he
    cases h' with
    | wrapped hl' h' => simp at he
    | wrappedMissing => exact ⟨rfl, rfl, rfl⟩

theorem Spec.Integers.uniq {slots a f q is f' q' is'} (h : Integers o slots a f q is) (h' : Integers o slots a f' q' is') (he : f ++ q = f' ++ q') :
    f = f' ∧ q = q' ∧ is = is' := by
  cases h with
  | known ha h =>
    cases h' with
    | known ha' h' =>
      rw [ha] at ha'
      cases ha'
      exact h.uniq h' he
    | unknown ha' => rw [ha] at ha'; cases ha'
  | unknown ha =>
    cases h' with
    | known ha' h' => rw [ha] at ha'; cases ha'
    | unknown ha' => cases he; exact ⟨rfl, rfl, rfl⟩

theorem Spec.SecretInts.uniq {a f q is f' q' is'} (h : SecretInts o a f q is) (h' : SecretInts o a f' q' is') (he : f ++ q = f' ++ q') :
    f = f' ∧ q = q' ∧ is = is' := by
  cases h with
  | known ha h =>
    cases h' with
    | known ha' h' =>
      rw [ha] at ha'
      cases ha'
      exact h.uniq h' he
    | unknown ha' => rw [ha] at ha'; cases ha'
  | unknown ha hq =>
    cases h' with
    | known ha' h' => rw [ha] at ha'; cases ha'
    | unknown ha' hq' =>
      obtain ⟨rfl, rfl⟩ := List.append_inj' he (hq.trans hq'.symm)
      exact ⟨rfl, rfl, rfl⟩

/-! ## String-to-key specifiers and keys -/

/-- the octets behind "GNU" are looked at in one way -/
theorem Spec.S2KShown.uniq {iv f q i iv' f' q' i'} (h : S2KShown o iv f q i) (h' : S2KShown o iv' f' q' i') (he : f ++ q = f' ++ q') :
    iv = iv' ∧ f = f' ∧ q = q' ∧ i = i' := by
  cases h <;> cases h' <;> simp only [List.cons_append, List.nil_append, List.append_assoc, List.cons.injEq] at he
  all_goals first
    | (obtain ⟨e, -⟩ := he; exact absurd e (by decide))
    | (obtain ⟨e, -⟩ := he; subst e; rename_i hn; exact (hn (by decide)).elim)
    | (obtain ⟨e, -⟩ := he; subst e; rename_i hn _ ; exact (hn (by decide)).elim)
    | skip
  · obtain ⟨-, rfl, rfl⟩ := he
    exact ⟨rfl, rfl, rfl, rfl⟩
  · rename_i hs _ _ hs'
    obtain ⟨-, rfl, he1⟩ := he
    obtain ⟨rfl, rfl⟩ := List.append_inj he1 (hs.trans hs'.symm)
    exact ⟨rfl, rfl, rfl, rfl⟩
  · rename_i hs _ _ _ hs'
    obtain ⟨-, rfl, he1⟩ := he
    obtain ⟨rfl, he2⟩ := List.append_inj he1 (hs.trans hs'.symm)
    obtain ⟨rfl, rfl⟩ := List.cons.inj he2
    exact ⟨rfl, rfl, rfl, rfl⟩
  · obtain ⟨-, -, -, -, rfl, rfl⟩ := he
    exact ⟨rfl, rfl, rfl, rfl⟩
  · rename_i hn _ _
    obtain ⟨-, -, -, -, e, -⟩ := he
    exact absurd e hn
  · rename_i hn _ hg
    exact absurd ⟨_, _, he.2.symm⟩ hg
  · rename_i hn
    obtain ⟨-, -, -, -, e, -⟩ := he
    exact absurd e.symm hn
  · rename_i hs _ hs'
    obtain ⟨-, -, -, -, -, e1, e2⟩ := he
    obtain ⟨rfl, rfl⟩ := counted1_inj hs hs' (List.cons_eq_cons.2 ⟨e1, e2⟩)
    exact ⟨rfl, rfl, rfl, rfl⟩
  · rename_i hg
    exact absurd ⟨_, _, he.2.symm⟩ hg
  · rename_i hg _ _
    exact absurd ⟨_, _, he.2⟩ hg
  · rename_i hg _ _
    exact absurd ⟨_, _, he.2⟩ hg
  · obtain ⟨-, rfl⟩ := he
    exact ⟨rfl, rfl, rfl, rfl⟩
  · obtain ⟨rfl, rfl⟩ := he
    exact ⟨rfl, rfl, rfl, rfl⟩

/-! ## Keys -/

theorem Spec.PubShown.uniq {v a f q is a' f' q' is'} (h : PubShown o X v a f q is) (h' : PubShown o X v a' f' q' is') (he : f ++ q = f' ++ q') :
    a = a' ∧ f = f' ∧ q = q' ∧ is = is' := by
  cases h with
  | v3 ht hd h =>
    generalize hv : (3 : UInt8) = v at h'
    cases h' with
    | v3 ht' hd' h' =>
      simp only [List.append_assoc, List.cons_append] at he
      obtain ⟨rfl, he1⟩ := List.append_inj he (ht.trans ht'.symm)
      obtain ⟨rfl, he2⟩ := List.append_inj he1 (hd.trans hd'.symm)
      obtain ⟨rfl, he3⟩ := List.cons.inj he2
      obtain ⟨rfl, rfl, rfl⟩ := h.uniq h' he3
      exact ⟨rfl, rfl, rfl, rfl⟩
    | v4 => exact absurd hv (by decide)
    | v5 => exact absurd hv (by decide)
    | other hn => exact absurd (by rw [← hv]; decide) hn
  | v4 ht h =>
    generalize hv : (4 : UInt8) = v at h'
    cases h' with
    | v4 ht' h' =>
      simp only [List.append_assoc, List.cons_append] at he
      obtain ⟨rfl, he1⟩ := List.append_inj he (ht.trans ht'.symm)
      obtain ⟨rfl, he3⟩ := List.cons.inj he1
      obtain ⟨rfl, rfl, rfl⟩ := h.uniq h' he3
      exact ⟨rfl, rfl, rfl, rfl⟩
    | v3 => exact absurd hv (by decide)
    | v5 => exact absurd hv (by decide)
    | other hn => exact absurd (by rw [← hv]; decide) hn
  | v5 ht hl h =>
    generalize hv : (5 : UInt8) = v at h'
    cases h' with
    | v5 ht' hl' h' =>
      simp only [List.append_assoc, List.cons_append] at he
      obtain ⟨rfl, he1⟩ := List.append_inj he (ht.trans ht'.symm)
      obtain ⟨rfl, he2⟩ := List.cons.inj he1
      obtain ⟨he3, rfl⟩ := counted4_inj (r := q) (r' := q') hl hl' (by simpa only [List.append_assoc] using he2)
      obtain ⟨rfl, rfl, rfl⟩ := h.uniq h' he3
      exact ⟨rfl, rfl, rfl, rfl⟩
    | v3 => exact absurd hv (by decide)
    | v4 => exact absurd hv (by decide)
    | other hn => exact absurd (by rw [← hv]; decide) hn
  | other hn =>
    cases h' with
    | other => exact ⟨rfl, rfl, he, rfl⟩
    | v3 => exact absurd (by decide) hn
    | v4 => exact absurd (by decide) hn
    | v5 => exact absurd (by decide) hn

theorem Spec.OptionsShown.uniq {u c iv f q is c' iv' f' q' is'} (h : OptionsShown o u c iv f q is) (h' : OptionsShown o u c' iv' f' q' is')
    (he : f ++ q = f' ++ q') : c = c' ∧ iv = iv' ∧ f = f' ∧ q = q' ∧ is = is' := by
  cases h with
  | plain =>
    generalize hv : (0 : UInt8) = u at h'
    cases h' with
    | plain => exact ⟨rfl, rfl, rfl, he, rfl⟩
    | s2k hu => subst hv; exact absurd hu (by decide)
    | aead => exact absurd hv (by decide)
    | cipher hu => subst hv; exact absurd (by decide) hu
  | s2k hu h =>
    cases h' with
    | plain => exact absurd hu (by decide)
    | s2k hu' h' =>
      obtain ⟨rfl, he1⟩ := List.cons.inj he
      obtain ⟨rfl, rfl, rfl, rfl⟩ := h.uniq h' he1
      exact ⟨rfl, rfl, rfl, rfl, rfl⟩
    | aead => exact absurd hu (by decide)
    | cipher hu' => rcases hu with rfl | rfl <;> exact absurd (by decide) hu'
  | aead h =>
    generalize hv : (253 : UInt8) = u at h'
    cases h' with
    | plain => exact absurd hv (by decide)
    | s2k hu => subst hv; exact absurd hu (by decide)
    | aead h' =>
      obtain ⟨rfl, he1⟩ := List.cons.inj he
      obtain ⟨rfl, he2⟩ := List.cons.inj he1
      obtain ⟨rfl, rfl, rfl, rfl⟩ := h.uniq h' he2
      exact ⟨rfl, rfl, rfl, rfl, rfl⟩
    | cipher hu => subst hv; exact absurd (by decide) hu
  | cipher hu =>
    cases h' with
    | plain => exact absurd (by decide) hu
    | s2k hu' => rcases hu' with rfl | rfl <;> exact absurd (by decide) hu
    | aead => exact absurd (by decide) hu
    | cipher hu' =>
      obtain ⟨rfl, rfl⟩ := List.cons.inj he
      exact ⟨rfl, rfl, rfl, rfl, rfl⟩

theorem Spec.OptionsShown.ne_nil {u c iv f q is} (h : OptionsShown o u c iv f q is) (hu : u ≠ 0) : f ≠ [] := by
  cases h with
  | plain => exact absurd rfl hu
  | s2k | aead | cipher => simp

theorem Spec.IVShown.uniq {u c iv n q is n' q' is'} (h : IVShown u c iv n is) (h' : IVShown u c iv n' is') (he : n ++ q = n' ++ q') :
    n = n' ∧ q = q' ∧ is = is' := by
  cases h with
  | none =>
    cases h' with
    | none => exact ⟨rfl, he, rfl⟩
  | iv hu hn =>
    cases h' with
    | iv hu' hn' =>
      obtain ⟨rfl, rfl⟩ := List.append_inj he (hn.trans hn'.symm)
      exact ⟨rfl, rfl, rfl⟩
    | nonce => exact absurd rfl hu
  | nonce hn =>
    generalize hv : (253 : UInt8) = u at h'
    cases h' with
    | iv hu' hn' => exact absurd hv.symm hu'
    | nonce hn' =>
      obtain ⟨rfl, rfl⟩ := List.append_inj he (hn.trans hn'.symm)
      exact ⟨rfl, rfl, rfl⟩

theorem Spec.SecretShown.uniq {a f q i f' q' i'} (h : SecretShown o a f q i) (h' : SecretShown o a f' q' i') (he : f ++ q = f' ++ q') :
    f = f' ∧ q = q' ∧ i = i' := by
  cases h with
  | plain h hc =>
    generalize hg : (0 : UInt8) = z at h' he
    cases h' with
    | plain h' hc' =>
      simp only [List.cons_append, List.append_assoc, List.cons.injEq] at he
      obtain ⟨rfl, he1, rfl⟩ := h.uniq h' he.2
      obtain ⟨rfl, rfl⟩ := List.append_inj he1 (hc.trans hc'.symm)
      subst hg
      exact ⟨rfl, rfl, rfl⟩
    | encrypted hu =>
      subst hg
      exact absurd (List.cons.inj he).1.symm hu
  | encrypted hu h hn =>
    cases h' with
    | plain => exact absurd (List.cons.inj he).1 hu
    | encrypted hu' h' hn' =>
      simp only [List.append_nil, List.cons.injEq] at he
      obtain ⟨rfl, he1⟩ := he
      obtain ⟨rfl, rfl, rfl, he2, rfl⟩ := h.uniq h' he1
      obtain ⟨rfl, rfl, rfl⟩ := hn.uniq hn' he2
      exact ⟨rfl, rfl, rfl⟩

theorem Spec.Options5Shown.uniq {u f q is f' q' is'} (h : Options5Shown o u f is) (h' : Options5Shown o u f' is') (he : f ++ q = f' ++ q') :
    f = f' ∧ q = q' ∧ is = is' := by
  cases h with
  | none =>
    cases h' with
    | none => exact ⟨rfl, (List.cons.inj he).2, rfl⟩
    | plain hl h0 =>
      have := ofNat_inj (by decide : 0 < 256) hl (List.cons.inj he).1
      exact absurd (List.length_eq_zero_iff.1 this.symm) h0
    | some hu hl h hn =>
      have := ofNat_inj (by decide : 0 < 256) hl (List.cons.inj he).1
      exact absurd (List.append_eq_nil_iff.1 (List.length_eq_zero_iff.1 this.symm)).1 (h.ne_nil hu)
  | plain hl h0 =>
    generalize hv : (0 : UInt8) = u at h'
    cases h' with
    | none =>
      have := ofNat_inj (by decide : 0 < 256) hl (List.cons.inj he).1.symm
      exact absurd (List.length_eq_zero_iff.1 this.symm) h0
    | plain hl' h0' =>
      simp only [List.cons_append] at he
      obtain ⟨rfl, rfl⟩ := counted1_inj hl hl' he
      exact ⟨rfl, rfl, rfl⟩
    | some hu => exact absurd hv.symm hu
  | some hu hl h hn =>
    cases h' with
    | none =>
      have := ofNat_inj (by decide : 0 < 256) hl (List.cons.inj he).1.symm
      exact absurd (List.append_eq_nil_iff.1 (List.length_eq_zero_iff.1 this.symm)).1 (h.ne_nil hu)
    | plain => exact absurd rfl hu
    | some hu' hl' h' hn' =>
      obtain ⟨he1, he2⟩ := counted1_inj (r := _ ++ q) (r' := _ ++ q') hl hl' (by simpa only [List.append_assoc, List.cons_append] using he)
      obtain ⟨rfl, rfl, rfl, rfl, rfl⟩ := h.uniq h' he1
      obtain ⟨rfl, rfl, rfl⟩ := hn.uniq hn' he2
      exact ⟨rfl, rfl, rfl⟩

theorem Spec.Material5Shown.uniq {u a f q note is f' q' note' is'} (h : Material5Shown o u a f q note is) (h' : Material5Shown o u a f' q' note' is')
    (he : f ++ q = f' ++ q') : f = f' ∧ q = q' ∧ note = note' ∧ is = is' := by
  have key : ∀ {m r q : Bytes}, m.length < 2 ^ 32 → [0, 0, 0, 0] ++ q = beOctets 4 m.length ++ r → m = [] := by
    intro m r q hl he
    have h1 := (List.append_inj he (by simp)).1
    have h3 := congrArg beNat h1
    rw [beNat_beOctets _ _ (by simpa using hl)] at h3
    exact List.length_eq_zero_iff.1 h3.symm
  cases h with
  | none =>
    cases h' with
    | none => exact ⟨rfl, (List.append_inj he rfl).2, rfl, rfl⟩
    | encrypted hu h0 hl =>
      rw [List.append_assoc] at he
      exact absurd (key hl he) h0
    | plain h0 hl =>
      rw [List.append_assoc] at he
      exact absurd (key hl he) h0
  | encrypted hu h0 hl =>
    cases h' with
    | none =>
      rw [List.append_assoc] at he
      exact absurd (key hl he.symm) h0
    | encrypted hu' h0' hl' =>
      rw [List.append_assoc, List.append_assoc] at he
      obtain ⟨rfl, rfl⟩ := counted4_inj hl hl' he
      exact ⟨rfl, rfl, rfl, rfl⟩
    | plain => exact absurd rfl hu
  | plain h0 hl h hc =>
    generalize hv : (0 : UInt8) = u at h'
    cases h' with
    | none =>
      rw [List.append_assoc] at he
      exact absurd (key hl he.symm) h0
    | encrypted hu' => exact absurd hv.symm hu'
    | plain h0' hl' h' hc' =>
      obtain ⟨he1, he2⟩ := counted4_inj (r := _ ++ q) (r' := _ ++ q') hl hl' (by simpa only [List.append_assoc] using he)
      obtain ⟨rfl, rfl, rfl⟩ := h.uniq h' he1
      obtain ⟨rfl, rfl⟩ := List.append_inj he2 (hc.trans hc'.symm)
      exact ⟨rfl, rfl, rfl, rfl⟩

theorem Spec.Secret5Shown.uniq {a f q i f' q' i'} (h : Secret5Shown o a f q i) (h' : Secret5Shown o a f' q' i') (he : f ++ q = f' ++ q') :
    f = f' ∧ q = q' ∧ i = i' := by
  cases h with
  | mk ho hm =>
  cases h' with
  | mk ho' hm' =>
  simp only [List.cons_append, List.append_assoc, List.cons.injEq] at he
  obtain ⟨rfl, he1⟩ := he
  obtain ⟨rfl, he2, rfl⟩ := ho.uniq ho' he1
  obtain ⟨rfl, rfl, rfl, rfl⟩ := hm.uniq hm' he2
  exact ⟨rfl, rfl, rfl⟩

/-! ## Subpackets -/

/-- the item of a subpacket as a function, other than notations (20) and the validity periods (3, 9) -/
def subOf (o : OptCode → Bool) (X : Ext) (t : UInt8) (b : Bytes) : Item :=
  let m := t.toNat % 128
  if m = 2 then leaf (subName t) (momentText o X (b.take 4)) [] (dumpIf (o DEBUG) (b.take 4))
  else if m = 4 then leaf (subName t) (if b.headD 0 = 0 then "Not exportable".toList else "Exportable".toList) (sizeText b.length) (hexText b.tail)
  else if m = 5 then subRow o t b [numRow "Level" (b.headD 0), numRow "Trust amount" (b.tail.headD 0)]
  else if m ∈ [6, 24, 26, 28] then textRow (subName t) (o DEBUG) b
  else if m = 7 then subRow o t b [] (if b.headD 0 = 0 then "Not revocable".toList else "Revocablee".toList)
  else if m = 11 then subRow o t b (b.map (symRow o))
  else if m = 12 then subRow o t b [leaf "Class".toList (classText (b.headD 0)).toList [] (hexText [b.headD 0]), pubRow o (b.tail.headD 0),
        leaf "Fingerprint".toList [] (sizeText b.tail.tail.length) (hexText b.tail.tail)]
  else if m = 16 then leaf (subName t) (keyIDText (b.take 8))
  else if m = 21 then subRow o t b (b.map (hashRow o))
  else if m = 22 then subRow o t b (b.map (compRow o))
  else if m = 23 then subRow o t b (serverRows (b.headD 0) ++ restFlagRows 2 b.tail)
  else if m = 25 then subRow o t b [] (if b.headD 0 = 0 then "Not primary".toList else "Primary".toList)
  else if m = 27 then (match b with
    | b :: c :: r => subRow o t (b :: c :: r) (keyFlagRows b ++ keyFlagRows2 c ++ restFlagRows 2 r)
    | b => subRow o t b (keyFlagRows (b.headD 0)))
  else if m = 29 then subRow o t b (if b.tail = [] then [] else [textRow "Additional resultrmation".toList (o DEBUG) b.tail])
        ((if 100 ≤ (b.headD 0).toNat ∧ (b.headD 0).toNat ≤ 110 then "(Private Use)" else reasonName (b.headD 0).toNat).toList ++ " (".toList ++
          dec (b.headD 0).toNat ++ ")".toList)
  else if m = 30 then subRow o t b (featureRows (b.headD 0) ++ restFlagRows 2 b.tail)
  else if m = 31 then subRow o t b [pubRow o (b.headD 0), hashRow o (b.tail.headD 0),
    leaf "Hash".toList [] (sizeText b.tail.tail.length) (hexText b.tail.tail)]
  else if m = 33 ∨ m = 35 then subRow o t b [numRow "Version" (b.headD 0) (fingerprintNote (b.headD 0)).toList,
        leaf "Fingerprint".toList [] (sizeText b.tail.length) (hexText b.tail)]
  else if m = 34 then subRow o t b (b.map (aeadRow o))
  else if m = 37 then subRow o t b [leaf "certification digests".toList [] (sizeText b.length) (dumpIf (o CERT || o DEBUG) b)]
  else subRow o t b []

theorem Spec.SubShown.eq_subOf {t b i} (ht : t.toNat % 128 ∉ [3, 9, 20]) (h : SubShown o X t b i) : i = subOf o X t b := by
  cases h
  case expires h _ => rcases h with h | h <;> exact absurd (by rw [h]; decide) ht
  case «notation» h _ _ _ => exact absurd (by rw [h]; decide) ht
  case text h =>
    unfold subOf
    have h2 : t.toNat % 128 ≠ 2 := by intro e; rw [e] at h; exact absurd h (by decide)
    have h4 : t.toNat % 128 ≠ 4 := by intro e; rw [e] at h; exact absurd h (by decide)
    have h5 : t.toNat % 128 ≠ 5 := by intro e; rw [e] at h; exact absurd h (by decide)
    simp only [if_neg h2, if_neg h4, if_neg h5, if_pos h]
  case fingerprint h =>
    rcases h with h | h <;> simp only [subOf, h, List.mem_cons, List.not_mem_nil, or_false, or_self, reduceIte, Nat.reduceEqDiff, List.headD_cons, List.tail_cons, or_true]
  case created h hl => simp only [subOf, h, List.mem_cons, List.not_mem_nil, or_self, reduceIte, Nat.reduceEqDiff, List.take_left' hl]
  case issuer h hl => simp only [subOf, h, List.mem_cons, List.not_mem_nil, or_self, reduceIte, Nat.reduceEqDiff, List.take_left' hl]
  case other h =>
    simp only [List.mem_cons, List.not_mem_nil, or_false, not_or] at h ht
    obtain ⟨h2, h3, h4, h5, h6, h7, h9, h11, h12, h16, h20, h21, h22, h23, h24, h25, h26, h27, h28, h29, h30, h31, h32, h33, h34, h35, h37, h38⟩ := h
    simp only [subOf, h2, h4, h5, h6, h7, h11, h12, h16, h21, h22, h23, h24, h25, h26, h27, h28, h29, h30, h31, h33, h34, h35, h37,
      List.mem_cons, List.not_mem_nil, or_false, if_false]
  all_goals
    rename_i h
    (simp only [subOf, h, List.mem_cons, List.not_mem_nil, or_self, reduceIte, Nat.reduceEqDiff, List.headD_cons, List.tail_cons]) <;> rfl

theorem Spec.SubShown.notation_inv {t b i} (ht : t.toNat % 128 = 20) (h : SubShown o X t b i) :
    ∃ fl name value r : Bytes, fl.length = 4 ∧ name.length < 65536 ∧ value.length < 65536 ∧
      b = fl ++ (beOctets 2 name.length ++ (beOctets 2 value.length ++ (name ++ (value ++ r)))) ∧
      i = subRow o t b
          (notationRows fl ++ [textRow "Name".toList (o DEBUG) name,
            if 128 ≤ (fl.headD 0).toNat then textRow "Value".toList (o DEBUG) value else leaf "Value".toList [] [] (hexText value)]) := by
  cases h
  case «notation» h hf hn hv => exact ⟨_, _, _, _, hf, hn, hv, rfl, rfl⟩
  case created h _ => exact absurd (ht.symm.trans h) (by decide)
  case issuer h _ => exact absurd (ht.symm.trans h) (by decide)
  case expires h _ => rw [ht] at h; exact absurd h (by decide)
  all_goals
    rename_i h
    rw [ht] at h
    exact absurd h (by decide)

theorem Spec.SubShown.uniq {t b i i'} (ht : t.toNat % 128 ∉ [3, 9]) (h : SubShown o X t b i) (h' : SubShown o X t b i') : i = i' := by
  by_cases h20 : t.toNat % 128 = 20
  · obtain ⟨fl, name, value, r, hf, hn, hv, rfl, rfl⟩ := h.notation_inv h20
    obtain ⟨fl', name', value', r', hf', hn', hv', he, rfl⟩ := h'.notation_inv h20
    obtain ⟨rfl, he1⟩ := List.append_inj he (hf.trans hf'.symm)
    obtain ⟨e1, he2⟩ := be2_inj hn hn' he1
    obtain ⟨e2, he3⟩ := be2_inj hv hv' he2
    obtain ⟨rfl, he4⟩ := List.append_inj he3 e1
    obtain ⟨rfl, he5⟩ := List.append_inj he4 e2
    rfl
  · have : t.toNat % 128 ∉ [3, 9, 20] := by
      simp only [List.mem_cons, List.not_mem_nil, or_false] at ht ⊢
      omega
    rw [h.eq_subOf this, h'.eq_subOf this]

theorem Spec.AttrShown.uniq {t b i i'} (h : AttrShown o t b i) (h' : AttrShown o t b i') : i = i' := by
  cases h <;> cases h' <;> first | rfl | (exfalso; omega)

theorem attrs_uniq {subs is} (h : List.Forall₂ (fun (s : UInt8 × Bytes) i => AttrShown o s.1 s.2 i) subs is) :
    ∀ {is'}, List.Forall₂ (fun (s : UInt8 × Bytes) i => AttrShown o s.1 s.2 i) subs is' → is = is' := by
  induction h with
  | nil => intro is' h'; cases h'; rfl
  | cons h hs ih =>
    intro is' h'
    cases h' with
    | cons h1 hs1 => rw [Spec.AttrShown.uniq h h1, ih hs1]

/-! ## Version 3 signatures -/

theorem Spec.Hashed3Shown.uniq {hd hi q hd' hi' q'} (h : Hashed3Shown o X hd hi) (h' : Hashed3Shown o X hd' hi') (he : hd ++ q = hd' ++ q') :
    hd = hd' ∧ hi = hi' ∧ q = q' := by
  cases h with
  | five hl =>
    cases h' with
    | five hl' =>
      simp only [List.cons_append, List.cons.injEq] at he
      obtain ⟨-, rfl, he1⟩ := he
      obtain ⟨rfl, rfl⟩ := List.append_inj he1 (hl.trans hl'.symm)
      exact ⟨rfl, rfl, rfl⟩
    | other hl' h5 => exact absurd (ofNat_inj (by decide : 5 < 256) hl' (List.cons.inj he).1).symm h5
  | other hl h5 =>
    cases h' with
    | five hl' => exact absurd (ofNat_inj hl (by decide : 5 < 256) (List.cons.inj he).1) h5
    | other hl' h5' =>
      obtain ⟨rfl, rfl⟩ := counted1_inj hl hl' he
      exact ⟨rfl, rfl, rfl⟩

theorem Spec.Hashed3Shown.not_cut {hd hi q hi'} (h : Hashed3Shown o X hd hi) : ¬ Hashed3Cut o (hd ++ q) hi' := by
  intro h'
  cases h with
  | five hl =>
    generalize hg : (5 :: _ :: _ : Bytes) ++ q = b at h'
    cases h' with
    | kind => simp at hg
    | time ht =>
      have := congrArg List.length hg
      simp only [List.length_append, List.length_cons] at this
      omega
    | other hn h => exact hn (List.cons.inj hg).1.symm
  | other hl h5 =>
    generalize hg : UInt8.ofNat _ :: _ ++ q = b at h'
    cases h' with
    | kind => exact h5 (ofNat_inj hl (by decide : 5 < 256) (List.cons.inj hg).1)
    | time ht => exact h5 (ofNat_inj hl (by decide : 5 < 256) (List.cons.inj hg).1)
    | other hn h =>
      obtain ⟨e1, e2⟩ := List.cons.inj hg
      rw [← e1, ← e2] at h
      simp only [List.append_eq, List.length_append, UInt8.toNat_ofNat', Nat.reducePow] at h
      omega

theorem Spec.Hashed3Cut.uniq {hd hi hi'} (h : Hashed3Cut o hd hi) (h' : Hashed3Cut o hd hi') : hi = hi' := by
  generalize hg : hd = hd' at h'
  cases h with
  | kind =>
    cases h' with
    | kind => rfl
    | time => simp at hg
    | other hn => exact absurd (List.cons.inj hg).1.symm hn
  | time h =>
    cases h' with
    | kind => simp at hg
    | time h' =>
      simp only [List.cons.injEq] at hg
      obtain ⟨-, rfl, rfl⟩ := hg
      rfl
    | other hn => exact absurd (List.cons.inj hg).1.symm hn
  | other hn h =>
    cases h' with
    | kind => exact absurd (List.cons.inj hg).1 hn
    | time => exact absurd (List.cons.inj hg).1 hn
    | other hn' h' =>
      obtain ⟨rfl, rfl⟩ := List.cons.inj hg
      rfl

theorem Spec.IntCut.not_int {bits data q} (h : IntCut (beOctets 2 bits ++ (data ++ q))) (hb : bits < 65536) (hl : data.length = (bits + 7) / 8) : False := by
  generalize hg : beOctets 2 bits ++ (data ++ q) = b at h
  cases h with
  | size h =>
    have := congrArg List.length hg
    simp only [List.length_append, beOctets_length] at this
    omega
  | data hb' h =>
    obtain ⟨rfl, rfl⟩ := be2_inj hb hb' hg
    simp only [List.length_append] at h
    omega

theorem Spec.SlotsCut.uniq {ss q is} (h : SlotsCut o ss q is) : ∀ {is'}, SlotsCut o ss q is' → is = is' := by
  induction h with
  | here h =>
    intro is' h'
    generalize hg : q = q' at h'
    cases h' with
    | here => rfl
    | next hb hl => subst hg; exact (h.not_int hb hl).elim
  | next hb hl h ih =>
    intro is' h'
    generalize hg : beOctets 2 _ ++ (_ ++ _) = q' at h'
    cases h' with
    | here h' => subst hg; exact (h'.not_int hb hl).elim
    | next hb' hl' h' =>
      obtain ⟨rfl, he1⟩ := be2_inj hb hb' hg
      obtain ⟨rfl, rfl⟩ := List.append_inj he1 (hl.trans hl'.symm)
      rw [ih h']

theorem Spec.SlotsCut.not_rows {ss q is} (h : SlotsCut o ss q is) : ∀ {f r is'}, SlotRows o ss f r is' → q = f ++ r → False := by
  induction h with
  | here h =>
    intro f r is' h' he
    cases h' with
    | int hb hl h' =>
      rw [he, List.append_assoc, List.append_assoc] at h
      exact h.not_int hb hl
  | next hb hl h ih =>
    intro f r is' h' he
    cases h' with
    | int hb' hl' h' =>
      rw [List.append_assoc, List.append_assoc] at he
      obtain ⟨rfl, he1⟩ := be2_inj hb hb' he
      obtain ⟨rfl, he2⟩ := List.append_inj he1 (hl.trans hl'.symm)
      exact ih h' he2

/-- what is displayed of a version 3 signature behind its hashed part, complete or not -/
def Rest3 (o : OptCode → Bool) (r : Bytes) (js : List Item) : Prop :=
  (r.length < 8 ∧ js = []) ∨ ∃ kid r1 : Bytes, kid.length = 8 ∧ r = kid ++ r1 ∧
    ((r1 = [] ∧ js = [keyIDRow kid]) ∨ (∃ a, r1 = [a] ∧ js = [keyIDRow kid, pubRow o a]) ∨
      ∃ a h r2, r1 = a :: h :: r2 ∧ ((r2.length < 2 ∧ js = [keyIDRow kid, pubRow o a, hashRow o h]) ∨
        ∃ l q : Bytes, l.length = 2 ∧ r2 = l ++ q ∧
          ((∃ ss is, sigSlots a = some ss ∧ SlotsCut o ss q is ∧ js = keyIDRow kid :: pubRow o a :: hashRow o h :: left16Row l :: is) ∨
            ∃ f q1 is, q = f ++ q1 ∧ Integers o sigSlots a f q1 is ∧
              js = keyIDRow kid :: pubRow o a :: hashRow o h :: left16Row l :: (is ++ unknownRows o q1))))

theorem Rest3.uniq {r js js'} (h : Rest3 o r js) (h' : Rest3 o r js') : js = js' := by
  rcases h with ⟨h1, rfl⟩ | ⟨kid, r1, hk, rfl, h⟩
  · rcases h' with ⟨h2, rfl⟩ | ⟨kid', r1', hk', rfl, -⟩
    · rfl
    · simp only [List.length_append] at h1; omega
  · rcases h' with ⟨h2, rfl⟩ | ⟨kid', r1', hk', he, h'⟩
    · simp only [List.length_append] at h2; omega
    · obtain ⟨rfl, rfl⟩ := List.append_inj he (hk.trans hk'.symm)
      rcases h with ⟨rfl, rfl⟩ | ⟨a, rfl, rfl⟩ | ⟨a, h, r2, rfl, hh⟩
      · rcases h' with ⟨-, rfl⟩ | ⟨a', he, -⟩ | ⟨a', h', r2', he, -⟩
        · rfl
        · cases he
        · cases he
      · rcases h' with ⟨he, -⟩ | ⟨a', he, rfl⟩ | ⟨a', h', r2', he, -⟩
        · cases he
        · cases he; rfl
        · cases he
      · rcases h' with ⟨he, -⟩ | ⟨a', he, -⟩ | ⟨a', h', r2', he, hh'⟩
        · cases he
        · cases he
        · obtain ⟨rfl, he1⟩ := List.cons.inj he
          obtain ⟨rfl, rfl⟩ := List.cons.inj he1
          rcases hh with ⟨h2, rfl⟩ | ⟨l, q, hl, rfl, hh⟩
          · rcases hh' with ⟨h2', rfl⟩ | ⟨l', q', hl', rfl, -⟩
            · rfl
            · simp only [List.length_append] at h2; omega
          · rcases hh' with ⟨h2', rfl⟩ | ⟨l', q', hl', he2, hh'⟩
            · simp only [List.length_append] at h2'; omega
            · obtain ⟨rfl, rfl⟩ := List.append_inj he2 (hl.trans hl'.symm)
              rcases hh with ⟨ss, is, hs, hc, rfl⟩ | ⟨f, q1, is, rfl, hi, rfl⟩
              · rcases hh' with ⟨ss', is', hs', hc', rfl⟩ | ⟨f', q1', is', hq, hi', rfl⟩
                · rw [hs] at hs'
                  cases hs'
                  rw [hc.uniq hc']
                · cases hi' with
                  | known ha h => rw [hs] at ha; cases ha; exact (hc.not_rows h hq).elim
                  | unknown ha => rw [hs] at ha; cases ha
              · rcases hh' with ⟨ss', is', hs', hc', rfl⟩ | ⟨f', q1', is', hq, hi', rfl⟩
                · cases hi with
                  | known ha h => rw [hs'] at ha; cases ha; exact (hc'.not_rows h rfl).elim
                  | unknown ha => rw [hs'] at ha; cases ha
                · obtain ⟨rfl, rfl, rfl⟩ := hi.uniq hi' hq
                  rfl

/-- a version 3 signature, complete or cut off -/
theorem sig3_parts {b is} (h : Sig3Shown o X b is ∨ Sig3Cut o X b is) :
    (b = [] ∧ is = []) ∨ (∃ hi, Hashed3Cut o b hi ∧ is = [hi]) ∨ ∃ hd hi r js, Hashed3Shown o X hd hi ∧ b = hd ++ r ∧ is = hi :: js ∧ Rest3 o r js := by
  rcases h with h | h
  · cases h with
    | mk hh hk hl hf =>
      exact .inr (.inr ⟨_, _, _, _, hh, rfl, rfl, .inr ⟨_, _, hk, rfl, .inr (.inr ⟨_, _, _, rfl, .inr ⟨_, _, hl, rfl, .inr ⟨_, _, _, rfl, hf, rfl⟩⟩⟩)⟩⟩)
  · cases h with
    | size => exact .inl ⟨rfl, rfl⟩
    | hashed h => exact .inr (.inl ⟨_, h, rfl⟩)
    | keyID hh hk => exact .inr (.inr ⟨_, _, _, _, hh, rfl, rfl, .inl ⟨hk, rfl⟩⟩)
    | algorithm hh hk => exact .inr (.inr ⟨_, _, _, _, hh, rfl, rfl, .inr ⟨_, [], hk, (List.append_nil _).symm, .inl ⟨rfl, rfl⟩⟩⟩)
    | hash hh hk => exact .inr (.inr ⟨_, _, _, _, hh, rfl, rfl, .inr ⟨_, _, hk, rfl, .inr (.inl ⟨_, rfl, rfl⟩)⟩⟩)
    | left hh hk hl => exact .inr (.inr ⟨_, _, _, _, hh, rfl, rfl, .inr ⟨_, _, hk, rfl, .inr (.inr ⟨_, _, _, rfl, .inl ⟨hl, rfl⟩⟩)⟩⟩)
    | integers hh hk hl ha hc =>
      exact .inr (.inr ⟨_, _, _, _, hh, rfl, rfl, .inr ⟨_, _, hk, rfl, .inr (.inr ⟨_, _, _, rfl, .inr ⟨_, _, hl, rfl, .inl ⟨_, _, ha, hc, rfl⟩⟩⟩)⟩⟩)

theorem sig3_uniq {b is is'} (h : Sig3Shown o X b is ∨ Sig3Cut o X b is) (h' : Sig3Shown o X b is' ∨ Sig3Cut o X b is') : is = is' := by
  have hn : ∀ {hd hi r}, Hashed3Shown o X hd hi → ([] : Bytes) ≠ hd ++ r := by
    intro hd hi r h; cases h <;> simp
  have hn' : ∀ {hi}, ¬ Hashed3Cut o ([] : Bytes) hi := by intro hi h; cases h
  rcases sig3_parts h with ⟨rfl, rfl⟩ | ⟨hi, hc, rfl⟩ | ⟨hd, hi, r, js, hh, rfl, rfl, hr⟩
  · rcases sig3_parts h' with ⟨-, rfl⟩ | ⟨hi', hc', rfl⟩ | ⟨hd', hi', r', js', hh', he, rfl, hr'⟩
    · rfl
    · exact (hn' hc').elim
    · exact (hn hh' he).elim
  · rcases sig3_parts h' with ⟨rfl, rfl⟩ | ⟨hi', hc', rfl⟩ | ⟨hd', hi', r', js', hh', rfl, rfl, hr'⟩
    · exact (hn' hc).elim
    · rw [hc.uniq hc']
    · exact (hh'.not_cut hc).elim
  · rcases sig3_parts h' with ⟨he, rfl⟩ | ⟨hi', hc', rfl⟩ | ⟨hd', hi', r', js', hh', he, rfl, hr'⟩
    · exact (hn hh he.symm).elim
    · exact (hh.not_cut hc').elim
    · obtain ⟨rfl, rfl, rfl⟩ := hh.uniq hh' he
      rw [hr.uniq hr']

/-! ## Packets -/

theorem Spec.Opens.uniq {b z z'} (hz : Opens X b z) (hz' : Opens X b z') : z = z' := by
  have h1 := openOK_of_opens hz
  have h2 := openOK_of_opens hz'
  cases h1 with
  | one =>
    cases h2 with
    | one => rfl
    | data h0 => exact absurd rfl h0
    | large h0 => exact absurd rfl h0
  | data h0 h =>
    cases h2 with
    | one => exact absurd rfl h0
    | data h0' h' => rw [h] at h'; cases h'; rfl
    | large h0' h' => rw [h] at h'; cases h'
  | large h0 h he =>
    cases h2 with
    | one => exact absurd rfl h0
    | data h0' h' => rw [h] at h'; cases h'
    | large h0' h' => rfl

theorem Spec.KeyEnd.not_packet {b} (h : KeyEnd X b) {t c r} : decNext b ≠ .packet t c r := by
  intro hd
  obtain ⟨-, hm⟩ := nextPacket_spec (X := X) (s := { data := b, tail := wrapErr .eof, sched := [], eager := false, strict := true }) (.inl rfl)
  obtain ⟨e, s', hq, -⟩ := (nextPacket_quiet (X := X) (s := { data := b, tail := wrapErr .eof, sched := [], eager := false, strict := true }) rfl).mpr h
  rw [hq] at hm
  simp only [hd] at hm
  exact absurd hm.1 (by simp)

/-- complete packets and an unnoticed end: the octets can be split in one way -/
theorem block_uniq {ps a b} (h : ClosedSeq ps a) : ∀ {ps' a' b'}, KeyEnd X b → KeyEnd X b' → ClosedSeq ps' a' → a ++ b = a' ++ b' → ps = ps' := by
  induction h with
  | nil =>
    intro ps' a' b' hb hb' h' he
    cases h' with
    | nil => rfl
    | cons h hs =>
      rw [List.append_assoc] at he
      exact (hb.not_packet (by rw [← List.nil_append b, he]; exact decNext_complete h _)).elim
  | cons h hs ih =>
    intro ps' a' b' hb hb' h' he
    rw [List.append_assoc] at he
    cases h' with
    | nil => exact (hb'.not_packet (by rw [← List.nil_append b', ← he]; exact decNext_complete h _)).elim
    | cons h' hs' =>
      rw [List.append_assoc] at he
      have e := (decNext_complete h _).symm.trans ((congrArg decNext he).trans (decNext_complete h' _))
      obtain ⟨rfl, rfl, e1⟩ := Dec.packet.inj e
      rw [ih hb hb' hs' e1]

theorem Spec.Display.uniq' {tag body i tag' body' i'} (h9 : tag ≠ 9) (h18 : tag ≠ 18) (h2 : tag = 2 → ∀ v r, body = v :: r → v ∉ [4, 5])
    (hg : tag = tag') (hb : body = body') (h : Display o X tag body i) (h' : Display o X tag' body' i') : i = i' := by
  cases h with
  | sessionKey hk h =>
    cases h' with
    | sessionKey hk' h' =>
      obtain ⟨rfl, he⟩ := List.cons.inj hb
      obtain ⟨rfl, he1⟩ := List.append_inj he (hk.trans hk'.symm)
      obtain ⟨rfl, he2⟩ := List.cons.inj he1
      obtain ⟨rfl, rfl, rfl⟩ := h.uniq h' he2
      rfl
    | publicKey ht => subst hg; exact absurd ht (by decide)
    | secretKey ht => subst hg; exact absurd ht (by decide)
    | other ht => subst hg; exact absurd (by decide) ht
    | _ => exact absurd hg (by decide)
  | signature hv => exact absurd hv (h2 rfl _ _ rfl)
  | signature3 h =>
    cases h' with
    | signature hv => obtain ⟨rfl, -⟩ := List.cons.inj hb; exact absurd hv (by decide)
    | signature3 h' => obtain ⟨-, rfl⟩ := List.cons.inj hb; rw [sig3_uniq (.inl h) (.inl h')]
    | signature3Cut h' => obtain ⟨-, rfl⟩ := List.cons.inj hb; rw [sig3_uniq (.inl h) (.inr h')]
    | signatureOther hv => obtain ⟨rfl, -⟩ := List.cons.inj hb; exact absurd (by decide) hv
    | publicKey ht => subst hg; exact absurd ht (by decide)
    | secretKey ht => subst hg; exact absurd ht (by decide)
    | other ht => subst hg; exact absurd (by decide) ht
    | _ => exact absurd hg (by decide)
  | signature3Cut h =>
    cases h' with
    | signature hv => obtain ⟨rfl, -⟩ := List.cons.inj hb; exact absurd hv (by decide)
    | signature3 h' => obtain ⟨-, rfl⟩ := List.cons.inj hb; rw [sig3_uniq (.inr h) (.inl h')]
    | signature3Cut h' => obtain ⟨-, rfl⟩ := List.cons.inj hb; rw [sig3_uniq (.inr h) (.inr h')]
    | signatureOther hv => obtain ⟨rfl, -⟩ := List.cons.inj hb; exact absurd (by decide) hv
    | publicKey ht => subst hg; exact absurd ht (by decide)
    | secretKey ht => subst hg; exact absurd ht (by decide)
    | other ht => subst hg; exact absurd (by decide) ht
    | _ => exact absurd hg (by decide)
  | signatureOther hv =>
    cases h' with
    | signature hv' => obtain ⟨rfl, -⟩ := List.cons.inj hb; exact absurd hv' (h2 rfl _ _ rfl)
    | signature3 h' => obtain ⟨rfl, -⟩ := List.cons.inj hb; exact absurd (by decide) hv
    | signature3Cut h' => obtain ⟨rfl, -⟩ := List.cons.inj hb; exact absurd (by decide) hv
    | signatureOther hv' => obtain ⟨rfl, rfl⟩ := List.cons.inj hb; rfl
    | publicKey ht => subst hg; exact absurd ht (by decide)
    | secretKey ht => subst hg; exact absurd ht (by decide)
    | other ht => subst hg; exact absurd (by decide) ht
    | _ => exact absurd hg (by decide)
  | password h =>
    cases h' with
    | password h' =>
      simp only [List.cons.injEq] at hb
      obtain ⟨-, rfl, he⟩ := hb
      obtain ⟨rfl, rfl, rfl, rfl⟩ := h.uniq h' he
      rfl
    | passwordOther hv => exact absurd (List.cons.inj hb).1.symm hv
    | publicKey ht => subst hg; exact absurd ht (by decide)
    | secretKey ht => subst hg; exact absurd ht (by decide)
    | other ht => subst hg; exact absurd (by decide) ht
    | _ => exact absurd hg (by decide)
  | passwordOther hv =>
    cases h' with
    | password h' => exact absurd (List.cons.inj hb).1 hv
    | passwordOther hv' => obtain ⟨rfl, rfl⟩ := List.cons.inj hb; rfl
    | publicKey ht => subst hg; exact absurd ht (by decide)
    | secretKey ht => subst hg; exact absurd ht (by decide)
    | other ht => subst hg; exact absurd (by decide) ht
    | _ => exact absurd hg (by decide)
  | onePass hk =>
    cases h' with
    | onePass hk' =>
      simp only [List.cons.injEq] at hb
      obtain ⟨rfl, rfl, rfl, rfl, he⟩ := hb
      obtain ⟨rfl, he1⟩ := List.append_inj he (hk.trans hk'.symm)
      obtain ⟨rfl, rfl⟩ := List.cons.inj he1
      rfl
    | publicKey ht => subst hg; exact absurd ht (by decide)
    | secretKey ht => subst hg; exact absurd ht (by decide)
    | other ht => subst hg; exact absurd (by decide) ht
    | _ => exact absurd hg (by decide)
  | publicKey ht h =>
    cases h' with
    | publicKey ht' h' =>
      subst hg
      obtain ⟨rfl, he⟩ := List.cons.inj hb
      obtain ⟨rfl, rfl, rfl, rfl⟩ := h.uniq h' he
      rfl
    | secretKey ht' =>
      simp only [List.mem_cons, List.not_mem_nil, or_false] at ht ht'
      omega
    | other ht' =>
      simp only [List.mem_cons, List.not_mem_nil, or_false] at ht ht'
      omega
    | _ => subst hg; exact absurd ht (by decide)
  | secretKey ht h hs =>
    cases h' with
    | secretKey ht' h' hs' =>
      subst hg
      obtain ⟨rfl, he⟩ := List.cons.inj hb
      obtain ⟨rfl, rfl, he1, rfl⟩ := h.uniq h' he
      split at hs
      · rename_i hv
        rw [if_pos hv] at hs'
        obtain ⟨rfl, rfl, rfl⟩ := hs.uniq hs' he1
        rfl
      · rename_i hv
        rw [if_neg hv] at hs'
        obtain ⟨rfl, rfl, rfl⟩ := hs.uniq hs' he1
        rfl
    | publicKey ht' =>
      simp only [List.mem_cons, List.not_mem_nil, or_false] at ht ht'
      omega
    | other ht' =>
      simp only [List.mem_cons, List.not_mem_nil, or_false] at ht ht'
      omega
    | _ => subst hg; exact absurd ht (by decide)
  | compressed h =>
    cases h' with
    | compressed h' => subst hb; rw [h.uniq h']
    | publicKey ht => subst hg; exact absurd ht (by decide)
    | secretKey ht => subst hg; exact absurd ht (by decide)
    | other ht => subst hg; exact absurd (by decide) ht
    | _ => exact absurd hg (by decide)
  | encrypted => exact absurd rfl h9
  | marker =>
    cases h' with
    | marker => subst hb; rfl
    | publicKey ht => subst hg; exact absurd ht (by decide)
    | secretKey ht => subst hg; exact absurd ht (by decide)
    | other ht => subst hg; exact absurd (by decide) ht
    | _ => exact absurd hg (by decide)
  | trust =>
    cases h' with
    | trust => subst hb; rfl
    | publicKey ht => subst hg; exact absurd ht (by decide)
    | secretKey ht => subst hg; exact absurd ht (by decide)
    | other ht => subst hg; exact absurd (by decide) ht
    | _ => exact absurd hg (by decide)
  | userID =>
    cases h' with
    | userID => subst hb; rfl
    | publicKey ht => subst hg; exact absurd ht (by decide)
    | secretKey ht => subst hg; exact absurd ht (by decide)
    | other ht => subst hg; exact absurd (by decide) ht
    | _ => exact absurd hg (by decide)
  | mdc =>
    cases h' with
    | mdc => subst hb; rfl
    | publicKey ht => subst hg; exact absurd ht (by decide)
    | secretKey ht => subst hg; exact absurd ht (by decide)
    | other ht => subst hg; exact absurd (by decide) ht
    | _ => exact absurd hg (by decide)
  | literal hn ht =>
    cases h' with
    | literal hn' ht' =>
      simp only [List.cons.injEq] at hb
      obtain ⟨rfl, e, he⟩ := hb
      obtain ⟨rfl, he1⟩ := List.append_inj he (ofNat_inj hn hn' e)
      obtain ⟨rfl, rfl⟩ := List.append_inj he1 (ht.trans ht'.symm)
      rfl
    | publicKey ht => subst hg; exact absurd ht (by decide)
    | secretKey ht => subst hg; exact absurd ht (by decide)
    | other ht => subst hg; exact absurd (by decide) ht
    | _ => exact absurd hg (by decide)
  | userAttribute hs h =>
    cases h' with
    | userAttribute hs' h' =>
      subst hb
      rw [C24_unique hs hs'] at h
      rw [attrs_uniq h h']
    | publicKey ht => subst hg; exact absurd ht (by decide)
    | secretKey ht => subst hg; exact absurd ht (by decide)
    | other ht => subst hg; exact absurd (by decide) ht
    | _ => exact absurd hg (by decide)
  | integrity => exact absurd rfl h18
  | aead hn =>
    cases h' with
    | aead hn' =>
      simp only [List.cons.injEq] at hb
      obtain ⟨rfl, rfl, rfl, rfl, he⟩ := hb
      obtain ⟨rfl, rfl⟩ := List.append_inj he (hn.trans hn'.symm)
      rfl
    | aeadCut hn' =>
      simp only [List.cons.injEq] at hb
      obtain ⟨rfl, rfl, rfl, rfl, rfl⟩ := hb
      simp only [List.length_append] at hn'
      omega
    | publicKey ht => subst hg; exact absurd ht (by decide)
    | secretKey ht => subst hg; exact absurd ht (by decide)
    | other ht => subst hg; exact absurd (by decide) ht
    | _ => exact absurd hg (by decide)
  | aeadCut hn =>
    cases h' with
    | aead hn' =>
      simp only [List.cons.injEq] at hb
      obtain ⟨rfl, rfl, rfl, rfl, rfl⟩ := hb
      simp only [List.length_append] at hn
      omega
    | aeadCut hn' =>
      simp only [List.cons.injEq] at hb
      obtain ⟨rfl, rfl, rfl, rfl, rfl⟩ := hb
      rfl
    | publicKey ht => subst hg; exact absurd ht (by decide)
    | secretKey ht => subst hg; exact absurd ht (by decide)
    | other ht => subst hg; exact absurd (by decide) ht
    | _ => exact absurd hg (by decide)
  | other ht =>
    cases h' with
    | other => subst hg hb; rfl
    | publicKey ht' | secretKey ht' =>
      simp only [List.mem_cons, List.not_mem_nil, or_false] at ht ht'
      omega
    | _ => subst hg; exact absurd (by decide) ht

/-- packets other than version 4 and 5 signatures and encrypted data are displayed in one way -/
theorem Spec.Display.uniq {tag body i i'} (h9 : tag ≠ 9) (h18 : tag ≠ 18) (h2 : tag = 2 → ∀ v r, body = v :: r → v ∉ [4, 5])
    (h : Display o X tag body i) (h' : Display o X tag body i') : i = i' := h.uniq' h9 h18 h2 rfl rfl h'

theorem Spec.SubShown.not_block {t b i} (ht : t.toNat % 128 ∈ [32, 38]) : ¬ SubShown o X t b i := by
  intro h
  have key : ∀ {m : Nat}, t.toNat % 128 = m → m ∉ [32, 38] → False := fun e hm => hm (e ▸ ht)
  cases h
  case created h _ => exact key h (by decide)
  case issuer h _ => exact key h (by decide)
  case expires h _ => rcases h with h | h <;> exact key h (by decide)
  case «notation» h _ _ _ => exact key h (by decide)
  case text h =>
    simp only [List.mem_cons, List.not_mem_nil, or_false] at ht h
    omega
  case fingerprint h => rcases h with h | h <;> exact key h (by decide)
  case other h =>
    simp only [List.mem_cons, List.not_mem_nil, or_false] at ht h
    omega
  all_goals
    rename_i h
    exact key h (by decide)

theorem subs_cons {t t' : UInt8} {b b' : Bytes} {l l' : List (UInt8 × Bytes)} (h : (t, b) :: l = (t', b') :: l') : (t = t' ∧ b = b') ∧ l = l' := by
  cases h; exact ⟨⟨rfl, rfl⟩, rfl⟩

/-! ## Everything -/

theorem Spec.Full.uniq' {h tag body i h'} (hf : Full o X h tag body i h') :
    ∀ {tag' body' j k}, tag = tag' → body = body' → Full o X h tag' body' j k → i = j ∧ h' = k := by
  refine Full.rec (o := o) (X := X)
    (motive_1 := fun h tag body i h' _ => ∀ {tag' body' j k}, tag = tag' → body = body' → Full o X h tag' body' j k → i = j ∧ h' = k)
    (motive_2 := fun h name area is h' _ => ∀ {js k}, FullArea o X h name area js k → is = js ∧ h' = k)
    (motive_3 := fun h subs is h' _ => ∀ {subs' js k}, subs = subs' → FullSubs o X h subs' js k → is = js ∧ h' = k)
    (motive_4 := fun h ps is h' _ => ∀ {js k}, FullAll o X h ps js k → is = js ∧ h' = k)
    ?_ ?_ ?_ ?_ ?_ ?_ ?_ ?_ ?_ ?_ ?_ ?_ ?_ ?_ ?_ ?_ ?_ ?_ ?_ ?_ ?_ hf
  -- packets
  · intro h tag body i ht hd tag' body' j k hg hb hf
    have h9 : tag ≠ 9 := by rintro rfl; exact ht (by decide)
    have h18 : tag ≠ 18 := by rintro rfl; exact ht (by decide)
    have h2 : tag ≠ 2 := by rintro rfl; exact ht (by decide)
    cases hf with
    | plain ht' hd' => exact ⟨hd.uniq' h9 h18 (fun e => absurd e h2) hg hb hd', rfl⟩
    | key ht' | keyOther ht' =>
      simp only [List.mem_cons, List.not_mem_nil, or_false] at ht ht'
      omega
    | _ => subst hg; exact absurd (by decide) ht
  · intro h body i hd tag' body' j k hg hb hf
    cases hf with
    | sessionKey hd' => exact ⟨hd.uniq' (by decide) (by decide) (fun e => absurd e (by decide)) rfl hb hd', rfl⟩
    | plain ht => subst hg; exact absurd (by decide) ht
    | key ht => subst hg; exact absurd ht (by decide)
    | keyOther ht => subst hg; exact absurd ht (by decide)
    | _ => exact absurd hg (by decide)
  · intro h body i hd tag' body' j k hg hb hf
    cases hf with
    | password hd' => exact ⟨hd.uniq' (by decide) (by decide) (fun e => absurd e (by decide)) rfl hb hd', rfl⟩
    | plain ht => subst hg; exact absurd (by decide) ht
    | key ht => subst hg; exact absurd ht (by decide)
    | keyOther ht => subst hg; exact absurd ht (by decide)
    | _ => exact absurd hg (by decide)
  · intro h body tag' body' j k hg hb hf
    cases hf with
    | encrypted => subst hb; exact ⟨rfl, rfl⟩
    | plain ht => subst hg; exact absurd (by decide) ht
    | key ht => subst hg; exact absurd ht (by decide)
    | keyOther ht => subst hg; exact absurd ht (by decide)
    | _ => exact absurd hg (by decide)
  · intro h body tag' body' j k hg hb hf
    cases hf with
    | integrity => subst hb; exact ⟨rfl, rfl⟩
    | plain ht => subst hg; exact absurd (by decide) ht
    | key ht => subst hg; exact absurd ht (by decide)
    | keyOther ht => subst hg; exact absurd ht (by decide)
    | _ => exact absurd hg (by decide)
  · intro h tag v tm r i ht hv hl hd tag' body' j k hg hb hf
    cases hf with
    | key ht' hv' hl' hd' =>
      obtain ⟨-, he⟩ := List.cons.inj hb
      obtain ⟨rfl, -⟩ := List.append_inj he (hl.trans hl'.symm)
      exact ⟨hd.uniq' (by rintro rfl; exact absurd ht (by decide)) (by rintro rfl; exact absurd ht (by decide)) (by rintro rfl; exact absurd ht (by decide)) hg hb hd', rfl⟩
    | keyOther ht' hv' =>
      obtain ⟨rfl, -⟩ := List.cons.inj hb
      exact absurd hv hv'
    | plain ht' =>
      simp only [List.mem_cons, List.not_mem_nil, or_false] at ht ht'
      omega
    | _ => subst hg; exact absurd ht (by decide)
  · intro h tag v r i ht hv hd tag' body' j k hg hb hf
    cases hf with
    | key ht' hv' hl' hd' =>
      obtain ⟨rfl, -⟩ := List.cons.inj hb
      exact absurd hv' hv
    | keyOther ht' hv' hd' => exact ⟨hd.uniq' (by rintro rfl; exact absurd ht (by decide)) (by rintro rfl; exact absurd ht (by decide)) (by rintro rfl; exact absurd ht (by decide)) hg hb hd', rfl⟩
    | plain ht' =>
      simp only [List.mem_cons, List.not_mem_nil, or_false] at ht ht'
      omega
    | _ => subst hg; exact absurd ht (by decide)
  · intro h v r i hv hd tag' body' j k hg hb hf
    cases hf with
    | signatureOther hv' hd' =>
      exact ⟨hd.uniq' (by decide) (by decide) (fun _ v' r' e => by cases e; exact hv) rfl hb hd', rfl⟩
    | signature hv' =>
      obtain ⟨rfl, -⟩ := List.cons.inj hb
      exact absurd hv' hv
    | plain ht => subst hg; exact absurd (by decide) ht
    | key ht => subst hg; exact absurd ht (by decide)
    | keyOther ht => subst hg; exact absurd ht (by decide)
    | _ => exact absurd hg (by decide)
  · intro h1 h2 h3 v t a h a1 a2 i1 i2 l f q is hv hd hu hl hf hl1 hl2 ih1 ih2 tag' body' j k hg hb hf'
    cases hf' with
    | signatureOther hv' =>
      obtain ⟨rfl, -⟩ := List.cons.inj hb
      exact absurd hv hv'
    | signature hv' hd' hu' hl' hf' hl1' hl2' =>
      simp only [List.cons.injEq] at hb
      obtain ⟨rfl, rfl, rfl, rfl, he⟩ := hb
      obtain ⟨rfl, he1⟩ := counted2_inj hl1 hl1' he
      obtain ⟨rfl, he2⟩ := counted2_inj hl2 hl2' he1
      obtain ⟨rfl, he3⟩ := List.append_inj he2 (hl.trans hl'.symm)
      obtain ⟨rfl, rfl, rfl⟩ := hf.uniq hf' he3
      obtain ⟨rfl, rfl⟩ := ih1 hd'
      obtain ⟨rfl, rfl⟩ := ih2 hu'
      exact ⟨rfl, rfl⟩
    | plain ht => subst hg; exact absurd (by decide) ht
    | key ht => subst hg; exact absurd ht (by decide)
    | keyOther ht => subst hg; exact absurd ht (by decide)
    | _ => exact absurd hg (by decide)
  -- areas
  · intro h name js k hf
    generalize hb : ([] : Bytes) = area at hf
    cases hf with
    | empty => exact ⟨rfl, rfl⟩
    | subs h0 => exact absurd hb.symm h0
  · intro h name area subs is h' h0 hs hd ih js k hf
    cases hf with
    | empty => exact absurd rfl h0
    | subs h0' hs' hd' =>
      obtain ⟨rfl, rfl⟩ := ih (C24_unique hs hs') hd'
      exact ⟨rfl, rfl⟩
  -- subpackets
  · intro h subs' js k hb hf
    cases hf with
    | nil => exact ⟨rfl, rfl⟩
    | _ => cases hb
  · intro h t b i subs is h' ht hd hs ih subs' js k hb hf
    cases hf with
    | nil => cases hb
    | plain ht' hd' hs' =>
      obtain ⟨⟨rfl, rfl⟩, rfl⟩ := subs_cons hb
      obtain ⟨rfl, rfl⟩ := ih rfl hs'
      have hne : t.toNat % 128 ∉ [3, 9] := by
        simp only [List.mem_cons, List.not_mem_nil, or_false] at ht ⊢
        omega
      rw [hd.uniq hne hd']
      exact ⟨rfl, rfl⟩
    | created ht' =>
      obtain ⟨⟨rfl, -⟩, -⟩ := subs_cons hb
      rw [ht'] at ht; exact absurd (by decide) ht
    | expires ht' =>
      obtain ⟨⟨rfl, -⟩, -⟩ := subs_cons hb
      rw [ht'] at ht; exact absurd (by decide) ht
    | keyExpires ht' =>
      obtain ⟨⟨rfl, -⟩, -⟩ := subs_cons hb
      rw [ht'] at ht; exact absurd (by decide) ht
    | embedded ht' =>
      obtain ⟨⟨rfl, -⟩, -⟩ := subs_cons hb
      exact absurd hd (SubShown.not_block (by rw [ht']; decide))
    | keyBlockOther ht' =>
      obtain ⟨⟨rfl, -⟩, -⟩ := subs_cons hb
      exact absurd hd (SubShown.not_block (by rw [ht']; decide))
    | keyBlock ht' =>
      obtain ⟨⟨rfl, -⟩, -⟩ := subs_cons hb
      exact absurd hd (SubShown.not_block (by rw [ht']; decide))
  · intro h t tm r subs is h' ht hl hs ih subs' js k hb hf
    cases hf with
    | nil => cases hb
    | created ht' hl' hs' =>
      obtain ⟨⟨rfl, he⟩, rfl⟩ := subs_cons hb
      obtain ⟨rfl, -⟩ := List.append_inj he (hl.trans hl'.symm)
      obtain ⟨rfl, rfl⟩ := ih rfl hs'
      exact ⟨rfl, rfl⟩
    | plain ht' hd' =>
      obtain ⟨⟨rfl, -⟩, -⟩ := subs_cons hb
      rw [ht] at ht'; exact absurd (by decide) ht'
    | expires ht' =>
      obtain ⟨⟨rfl, -⟩, -⟩ := subs_cons hb
      rw [ht] at ht'; exact absurd ht' (by decide)
    | keyExpires ht' =>
      obtain ⟨⟨rfl, -⟩, -⟩ := subs_cons hb
      rw [ht] at ht'; exact absurd ht' (by decide)
    | embedded ht' =>
      obtain ⟨⟨rfl, -⟩, -⟩ := subs_cons hb
      rw [ht] at ht'; exact absurd ht' (by decide)
    | keyBlockOther ht' =>
      obtain ⟨⟨rfl, -⟩, -⟩ := subs_cons hb
      rw [ht] at ht'; exact absurd ht' (by decide)
    | keyBlock ht' =>
      obtain ⟨⟨rfl, -⟩, -⟩ := subs_cons hb
      rw [ht] at ht'; exact absurd ht' (by decide)
  · intro h t n r subs is h' ht hl hs ih subs' js k hb hf
    cases hf with
    | nil => cases hb
    | expires ht' hl' hs' =>
      obtain ⟨⟨rfl, he⟩, rfl⟩ := subs_cons hb
      obtain ⟨rfl, -⟩ := List.append_inj he (hl.trans hl'.symm)
      obtain ⟨rfl, rfl⟩ := ih rfl hs'
      exact ⟨rfl, rfl⟩
    | plain ht' hd' =>
      obtain ⟨⟨rfl, -⟩, -⟩ := subs_cons hb
      rw [ht] at ht'; exact absurd (by decide) ht'
    | created ht' =>
      obtain ⟨⟨rfl, -⟩, -⟩ := subs_cons hb
      rw [ht] at ht'; exact absurd ht' (by decide)
    | keyExpires ht' =>
      obtain ⟨⟨rfl, -⟩, -⟩ := subs_cons hb
      rw [ht] at ht'; exact absurd ht' (by decide)
    | embedded ht' =>
      obtain ⟨⟨rfl, -⟩, -⟩ := subs_cons hb
      rw [ht] at ht'; exact absurd ht' (by decide)
    | keyBlockOther ht' =>
      obtain ⟨⟨rfl, -⟩, -⟩ := subs_cons hb
      rw [ht] at ht'; exact absurd ht' (by decide)
    | keyBlock ht' =>
      obtain ⟨⟨rfl, -⟩, -⟩ := subs_cons hb
      rw [ht] at ht'; exact absurd ht' (by decide)
  · intro h t n r subs is h' ht hl hs ih subs' js k hb hf
    cases hf with
    | nil => cases hb
    | keyExpires ht' hl' hs' =>
      obtain ⟨⟨rfl, he⟩, rfl⟩ := subs_cons hb
      obtain ⟨rfl, -⟩ := List.append_inj he (hl.trans hl'.symm)
      obtain ⟨rfl, rfl⟩ := ih rfl hs'
      exact ⟨rfl, rfl⟩
    | plain ht' hd' =>
      obtain ⟨⟨rfl, -⟩, -⟩ := subs_cons hb
      rw [ht] at ht'; exact absurd (by decide) ht'
    | created ht' =>
      obtain ⟨⟨rfl, -⟩, -⟩ := subs_cons hb
      rw [ht] at ht'; exact absurd ht' (by decide)
    | expires ht' =>
      obtain ⟨⟨rfl, -⟩, -⟩ := subs_cons hb
      rw [ht] at ht'; exact absurd ht' (by decide)
    | embedded ht' =>
      obtain ⟨⟨rfl, -⟩, -⟩ := subs_cons hb
      rw [ht] at ht'; exact absurd ht' (by decide)
    | keyBlockOther ht' =>
      obtain ⟨⟨rfl, -⟩, -⟩ := subs_cons hb
      rw [ht] at ht'; exact absurd ht' (by decide)
    | keyBlock ht' =>
      obtain ⟨⟨rfl, -⟩, -⟩ := subs_cons hb
      rw [ht] at ht'; exact absurd ht' (by decide)
  · intro h1 h2 h3 t b i subs is ht hd hs ih1 ih2 subs' js k hb hf
    cases hf with
    | nil => cases hb
    | embedded ht' hd' hs' =>
      obtain ⟨⟨rfl, rfl⟩, rfl⟩ := subs_cons hb
      obtain ⟨rfl, rfl⟩ := ih1 rfl rfl hd'
      obtain ⟨rfl, rfl⟩ := ih2 rfl hs'
      exact ⟨rfl, rfl⟩
    | plain ht' hd' =>
      obtain ⟨⟨rfl, -⟩, -⟩ := subs_cons hb
      exact absurd hd' (SubShown.not_block (by rw [ht]; decide))
    | created ht' =>
      obtain ⟨⟨rfl, -⟩, -⟩ := subs_cons hb
      rw [ht] at ht'; exact absurd ht' (by decide)
    | expires ht' =>
      obtain ⟨⟨rfl, -⟩, -⟩ := subs_cons hb
      rw [ht] at ht'; exact absurd ht' (by decide)
    | keyExpires ht' =>
      obtain ⟨⟨rfl, -⟩, -⟩ := subs_cons hb
      rw [ht] at ht'; exact absurd ht' (by decide)
    | keyBlockOther ht' =>
      obtain ⟨⟨rfl, -⟩, -⟩ := subs_cons hb
      rw [ht] at ht'; exact absurd ht' (by decide)
    | keyBlock ht' =>
      obtain ⟨⟨rfl, -⟩, -⟩ := subs_cons hb
      rw [ht] at ht'; exact absurd ht' (by decide)
  · intro h t k d subs is h' ht hk hs ih subs' js k' hb hf
    cases hf with
    | nil => cases hb
    | keyBlockOther ht' hk' hs' =>
      obtain ⟨⟨rfl, he⟩, rfl⟩ := subs_cons hb
      obtain ⟨rfl, rfl⟩ := List.cons.inj he
      obtain ⟨rfl, rfl⟩ := ih rfl hs'
      exact ⟨rfl, rfl⟩
    | keyBlock ht' =>
      obtain ⟨⟨rfl, he⟩, rfl⟩ := subs_cons hb
      exact absurd (List.cons.inj he).1 hk
    | plain ht' hd' =>
      obtain ⟨⟨rfl, -⟩, -⟩ := subs_cons hb
      exact absurd hd' (SubShown.not_block (by rw [ht]; decide))
    | created ht' =>
      obtain ⟨⟨rfl, -⟩, -⟩ := subs_cons hb
      rw [ht] at ht'; exact absurd ht' (by decide)
    | expires ht' =>
      obtain ⟨⟨rfl, -⟩, -⟩ := subs_cons hb
      rw [ht] at ht'; exact absurd ht' (by decide)
    | keyExpires ht' =>
      obtain ⟨⟨rfl, -⟩, -⟩ := subs_cons hb
      rw [ht] at ht'; exact absurd ht' (by decide)
    | embedded ht' =>
      obtain ⟨⟨rfl, -⟩, -⟩ := subs_cons hb
      rw [ht] at ht'; exact absurd ht' (by decide)
  · intro h1 h2 h3 t a b ps js subs is ht ha hk hd hs ih1 ih2 subs' js' k hb hf
    cases hf with
    | nil => cases hb
    | keyBlockOther ht' hk' hs' =>
      obtain ⟨⟨rfl, he⟩, rfl⟩ := subs_cons hb
      exact absurd (List.cons.inj he).1.symm hk'
    | keyBlock ht' ha' hk' hd' hs' =>
      obtain ⟨⟨rfl, he⟩, rfl⟩ := subs_cons hb
      have he1 := (List.cons.inj he).2
      have e := block_uniq ha hk hk' ha' he1
      subst e
      obtain ⟨rfl, rfl⟩ := ih1 hd'
      obtain ⟨rfl, rfl⟩ := ih2 rfl hs'
      rw [he1]
      exact ⟨rfl, rfl⟩
    | plain ht' hd' =>
      obtain ⟨⟨rfl, -⟩, -⟩ := subs_cons hb
      exact absurd hd' (SubShown.not_block (by rw [ht]; decide))
    | created ht' =>
      obtain ⟨⟨rfl, -⟩, -⟩ := subs_cons hb
      rw [ht] at ht'; exact absurd ht' (by decide)
    | expires ht' =>
      obtain ⟨⟨rfl, -⟩, -⟩ := subs_cons hb
      rw [ht] at ht'; exact absurd ht' (by decide)
    | keyExpires ht' =>
      obtain ⟨⟨rfl, -⟩, -⟩ := subs_cons hb
      rw [ht] at ht'; exact absurd ht' (by decide)
    | embedded ht' =>
      obtain ⟨⟨rfl, -⟩, -⟩ := subs_cons hb
      rw [ht] at ht'; exact absurd ht' (by decide)
  -- packets one after the other
  · intro h js k hf
    cases hf
    exact ⟨rfl, rfl⟩
  · intro h1 h2 h3 tag body ps i is hd hs ih1 ih2 js k hf
    cases hf with
    | cons hd' hs' =>
      obtain ⟨rfl, rfl⟩ := ih1 rfl rfl hd'
      obtain ⟨rfl, rfl⟩ := ih2 hs'
      exact ⟨rfl, rfl⟩

theorem Spec.Full.uniq {h tag body i h' j k} (hf : Full o X h tag body i h') (hf' : Full o X h tag body j k) : i = j ∧ h' = k := hf.uniq' rfl rfl hf'

theorem Spec.FullAll.uniq {ps : List (Nat × Bytes)} : ∀ {h is h' js k}, FullAll o X h ps is h' → FullAll o X h ps js k → is = js ∧ h' = k := by
  induction ps with
  | nil =>
    intro h is h' js k hf hf'
    cases hf
    cases hf'
    exact ⟨rfl, rfl⟩
  | cons p ps ih =>
    intro h is h' js k hf hf'
    cases hf with
    | cons hd hs =>
    cases hf' with
    | cons hd' hs' =>
    obtain ⟨rfl, rfl⟩ := hd.uniq hd'
    obtain ⟨rfl, rfl⟩ := ih hs hs'
    exact ⟨rfl, rfl⟩

theorem Spec.FullTop.uniq {h p i h' j k} (hf : FullTop o X h p i h') (hf' : FullTop o X h p j k) : i = j ∧ h' = k := by
  cases hf with
  | plain h8 hd =>
    cases hf' with
    | plain h8' hd' => exact hd.uniq hd'
    | packed => exact absurd rfl h8
    | huge => exact absurd rfl h8
  | packed hz hp hd =>
    generalize hg : 8 = tag at hf'
    cases hf' with
    | plain h8' => exact absurd hg.symm h8'
    | packed hz' hp' hd' =>
      cases hz.uniq hz'
      cases C05_unique hp hp'
      obtain ⟨rfl, rfl⟩ := hd.uniq hd'
      exact ⟨rfl, rfl⟩
    | huge hz' => cases hz.uniq hz'
  | huge hz =>
    generalize hg : 8 = tag at hf'
    cases hf' with
    | plain h8' => exact absurd hg.symm h8'
    | packed hz' hp' hd' => cases hz.uniq hz'
    | huge hz' => exact ⟨rfl, rfl⟩

/-- the table allows one display of the packets only -/
theorem Spec.FullTops.uniq {ps : List (Nat × Bytes)} : ∀ {h is h' js k}, FullTops o X h ps is h' → FullTops o X h ps js k → is = js ∧ h' = k := by
  induction ps with
  | nil =>
    intro h is h' js k hf hf'
    cases hf
    cases hf'
    exact ⟨rfl, rfl⟩
  | cons p ps ih =>
    intro h is h' js k hf hf'
    cases hf with
    | cons hd hs =>
    cases hf' with
    | cons hd' hs' =>
    obtain ⟨rfl, rfl⟩ := hd.uniq hd'
    obtain ⟨rfl, rfl⟩ := ih hs hs'
    exact ⟨rfl, rfl⟩

end Gpgpdump
