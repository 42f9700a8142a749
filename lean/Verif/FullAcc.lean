import Verif.Unique

/-!
# What can be displayed is accepted
-/

namespace Gpgpdump
open P Spec

variable {o : OptCode → Bool} {X : Ext}

/-! ## Fields -/

theorem Spec.SlotRows.ints {ss f q is} (h : SlotRows o ss f q is) (hs : ∀ s ∈ ss, ∃ l, s = .int l) : MPIs ss.length f := by
  induction h with
  | nil => exact .zero
  | int hb hl h ih =>
    rw [List.length_cons, ← List.append_assoc]
    exact .succ hb hl (ih fun s hm => hs s (List.mem_cons_of_mem _ hm))
  | _ => obtain ⟨l, hl⟩ := hs _ List.mem_cons_self; cases hl

theorem Spec.SlotRows.point1 {l f q is} (h : SlotRows o [.point l] f q is) : MPIs 1 f := by
  cases h with
  | point hb hl h =>
    cases h
    rw [← List.append_assoc]
    exact .succ hb hl .zero

theorem Spec.SlotRows.curve_inv {ss f q is} (h : SlotRows o (.curve :: ss) f q is) : ∃ c g js, Counted c ∧ f = c ++ g ∧ SlotRows o ss g q js := by
  cases h with
  | curve hl h => exact ⟨_, _, _, .mk hl, rfl, h⟩

theorem Spec.SlotRows.point_inv {l ss f q is} (h : SlotRows o (.point l :: ss) f q is) : ∃ m g js, MPIs 1 m ∧ f = m ++ g ∧ SlotRows o ss g q js := by
  cases h with
  | @point _ _ bits data g _ js hb hl h =>
    refine ⟨beOctets 2 bits ++ data ++ [], g, js, .succ hb hl .zero, by simp, h⟩

theorem Spec.SlotRows.kdf_inv {f q is} (h : SlotRows o [.kdf] f q is) : Counted f ∨ (f = [] ∧ q = []) := by
  cases h with
  | kdf hl h => cases h; rw [List.append_nil]; exact .inl (.mk hl)
  | kdfMissing => exact .inr ⟨rfl, rfl⟩

theorem Spec.SlotRows.wrapped_inv {f q is} (h : SlotRows o [.wrapped] f q is) : Counted f ∨ (f = [] ∧ q = []) := by
  cases h with
  | wrapped hl h => cases h; rw [List.append_nil]; exact .inl (.mk hl)
  | wrappedMissing => exact .inr ⟨rfl, rfl⟩

theorem sig_ints {a f q is} (h : Integers o sigSlots a f q is) : MPIs (sigInts a) f := by
  cases h with
  | known ha h =>
    unfold sigSlots at ha
    unfold sigInts
    split at ha
    · rename_i h1
      cases ha
      rw [if_pos h1]
      exact h.ints (by simp)
    rename_i h1
    rw [if_neg h1]
    split at ha
    · rename_i h2
      cases ha; subst h2
      exact h.ints (by simp)
    split at ha
    · rename_i h3
      cases ha
      rw [if_pos (by simp only [List.mem_cons, List.not_mem_nil, or_false] at h3 ⊢; rcases h3 with rfl | rfl <;> simp)]
      exact h.ints (by simp)
    split at ha
    · rename_i h4
      cases ha; subst h4
      exact h.ints (by simp)
    split at ha
    · rename_i h5
      cases ha; subst h5
      exact h.ints (by simp)
    · cases ha
  | unknown ha =>
    have : sigInts a = 0 := by
      revert ha
      exact byOctet (p := fun a => sigSlots a = none → sigInts a = 0) (by decide +kernel) a
    rw [this]
    exact .zero

theorem pub_fields {a f q is} (h : Integers o pubSlots a f q is) : PubFields a f q := by
  cases h with
  | known ha h =>
    unfold pubSlots at ha
    split at ha
    · cases ha; exact .rsa ‹_› (h.ints (by simp))
    split at ha
    · rename_i h2
      cases ha; subst h2; exact .dsa (h.ints (by simp))
    split at ha
    · cases ha; exact .elgamal ‹_› (h.ints (by simp))
    split at ha
    · rename_i h2
      cases ha; subst h2
      obtain ⟨c, g, js, hc, rfl, h1⟩ := h.curve_inv
      obtain ⟨m, g, js, hm, rfl, h2⟩ := h1.point_inv
      exact .ecdh hc hm h2.kdf_inv
    split at ha
    · rename_i h2
      cases ha; subst h2
      obtain ⟨c, g, js, hc, rfl, h1⟩ := h.curve_inv
      exact .curve (by decide) hc h1.point1
    split at ha
    · rename_i h2
      cases ha; subst h2
      obtain ⟨c, g, js, hc, rfl, h1⟩ := h.curve_inv
      exact .curve (by decide) hc h1.point1
    · cases ha
  | unknown ha =>
    refine .other ?_
    revert ha
    exact byOctet (p := fun a => pubSlots a = none → a ∉ [1, 2, 3, 16, 17, 18, 19, 20, 22]) (by decide +kernel) a

theorem ses_fields {a f q is} (h : Integers o sesSlots a f q is) : SesFields a f q := by
  cases h with
  | known ha h =>
    unfold sesSlots at ha
    split at ha
    · cases ha; exact .rsa ‹_› (h.ints (by simp))
    split at ha
    · cases ha; exact .elgamal ‹_› (h.ints (by simp))
    split at ha
    · rename_i h2
      cases ha; subst h2
      obtain ⟨m, g, js, hm, rfl, h1⟩ := h.point_inv
      exact .ecdh hm h1.wrapped_inv
    · cases ha
  | unknown ha =>
    refine .other ?_
    revert ha
    exact byOctet (p := fun a => sesSlots a = none → a ∉ [1, 2, 3, 16, 18, 20]) (by decide +kernel) a

theorem sec_fields {a f q is} (h : SecretInts o a f q is) : SecFields a f q := by
  cases h with
  | known ha h =>
    unfold secSlots at ha
    split at ha
    · cases ha; exact .rsa ‹_› (h.ints (by simp))
    split at ha
    · rename_i h2
      cases ha; subst h2; exact .one (by decide) (h.ints (by simp))
    split at ha
    · rename_i h3
      cases ha
      refine .one ?_ (h.ints (by simp))
      simp only [List.mem_cons, List.not_mem_nil, or_false] at h3 ⊢
      rcases h3 with rfl | rfl <;> simp
    split at ha
    · rename_i h2
      cases ha; subst h2; exact .one (by decide) (h.ints (by simp))
    split at ha
    · rename_i h2
      cases ha; subst h2; exact .one (by decide) (h.ints (by simp))
    split at ha
    · rename_i h2
      cases ha; subst h2; exact .one (by decide) (h.ints (by simp))
    · cases ha
  | unknown ha hq =>
    refine .other ?_ hq
    revert ha
    exact byOctet (p := fun a => secSlots a = none → a ∉ [1, 2, 3, 16, 17, 18, 19, 20, 22]) (by decide +kernel) a

/-! ## Keys -/

theorem Spec.S2KShown.spec {iv f q i} (h : S2KShown o iv f q i) : S2KSpec iv f q := by
  cases h with
  | simple => exact .simple
  | salted hs => exact .salted hs
  | iterated hs => exact .iterated hs
  | gnu hn => exact .gnu hn
  | card hs => exact .card (.mk hs)
  | notGnu h => exact .notGnu h
  | other h => exact .other h

theorem Spec.PubShown.part {v a f q is} (h : PubShown o X v a f q is) : PubPart v a f q := by
  cases h with
  | v3 ht hd h => exact .v3 ht hd (pub_fields h)
  | v4 ht h => exact .v4 ht (pub_fields h)
  | v5 ht hl h => exact .v5 ht hl (pub_fields h)
  | other hv => exact .other hv

theorem Spec.OptionsShown.options {u c iv f q is} (h : OptionsShown o u c iv f q is) : SecOptions u c iv f q := by
  cases h with
  | plain => exact .plain
  | s2k hu h => exact .s2k hu h.spec
  | aead h => exact .aead h.spec
  | cipher hu => exact .cipher hu

theorem Spec.IVShown.length {u c iv n is} (h : IVShown u c iv n is) : n.length = if iv then blockSize c else 0 := by
  cases h with
  | none => rfl
  | iv hu hn => exact hn
  | nonce hn => exact hn

theorem two_octets {c : Bytes} (h : c.length = 2) : ∃ a b, c = [a, b] := by
  match c, h with
  | [a, b], _ => exact ⟨a, b, rfl⟩

theorem Spec.SecretShown.part {a f q i} (h : SecretShown o a f q i) : SecretPart a (f ++ q) := by
  cases h with
  | plain h hc =>
    obtain ⟨c0, c1, rfl⟩ := two_octets hc
    rw [List.cons_append, List.append_assoc]
    exact .plain (sec_fields h)
  | encrypted hu h hn =>
    rw [List.append_nil]
    exact .encrypted hu h.options hn.length

theorem Spec.Options5Shown.options {u f is} (h : Options5Shown o u f is) : Options5 u f := by
  cases h with
  | none => exact .none
  | plain hl h0 =>
    have := Options5.some (u := 0) (f := []) (n := []) hl h0 .plain rfl
    simpa using this
  | some hu hl h hn =>
    refine .some hl ?_ h.options ?_
    · intro e
      exact h.ne_nil hu (List.append_eq_nil_iff.1 e).1
    · rw [hn.length]
      simp [hu]

theorem Spec.Material5Shown.material {u a m q note is} (h : Material5Shown o u a m q note is) : Material5 u a (m ++ q) := by
  cases h with
  | none => exact .none
  | encrypted hu h0 hl =>
    rw [List.append_assoc]
    exact .encrypted hu h0 hl
  | plain h0 hl h hc =>
    obtain ⟨c0, c1, rfl⟩ := two_octets hc
    simp only [List.append_assoc, List.cons_append, List.nil_append]
    have := Material5.plain (c0 := c0) (c1 := c1) (rest := q) h0 hl (sec_fields h)
    simpa only [List.append_assoc] using this

theorem Spec.Secret5Shown.part {a f q i} (h : Secret5Shown o a f q i) : SecretPart5 a (f ++ q) := by
  cases h with
  | mk ho hm =>
    rw [List.cons_append, List.append_assoc]
    exact .mk ho.options hm.material

/-! ## Subpackets and packets -/

theorem Spec.AttrShown.attr {t b i} (h : AttrShown o t b i) : AttrSub t b := by
  cases h with
  | image h hv => exact .image h (fun h1 h2 => by omega)
  | experimental h h1 h2 => exact .image h (fun _ _ => by simp)
  | other h => exact .other h

theorem Spec.SubShown.acc {t b i} (h : SubShown o X t b i) : AccSub X t b := by
  cases h
  case created h hl => exact .plain (by rw [h]; decide) (by rw [h, List.length_append, hl]; exact Nat.le_add_right _ _)
  case issuer h hl => exact .plain (by rw [h]; decide) (by rw [h, List.length_append, hl]; exact Nat.le_add_right _ _)
  case expires h hl => rcases h with h | h <;> exact .plain (by rw [h]; decide) (by rw [h, List.length_append, hl]; exact Nat.le_add_right _ _)
  case «notation» h hf hn hv => exact .notation h hf hn hv
  case text h =>
    simp only [List.mem_cons, List.not_mem_nil, or_false] at h
    rcases h with h | h | h | h <;> exact .plain (by rw [h]; decide) (by rw [h]; exact Nat.zero_le _)
  case fingerprint h => rcases h with h | h <;> exact .plain (by rw [h]; decide) (by rw [h]; exact Nat.le_add_left _ _)
  case other h =>
    simp only [List.mem_cons, List.not_mem_nil, or_false, not_or] at h
    obtain ⟨h2, h3, h4, h5, h6, h7, h9, h11, h12, h16, h20, h21, h22, h23, h24, h25, h26, h27, h28, h29, h30, h31, h32, h33, h34, h35, h37, h38⟩ := h
    refine .plain (by simp [*]) ?_
    unfold subSize
    simp [*]
  all_goals
    rename_i h
    refine .plain (by rw [h]; decide) ?_
    rw [h]
    simp [subSize]

theorem forall₂_left {α β} {R : α → β → Prop} {P : α → Prop} (hR : ∀ a b, R a b → P a) {l m} (h : List.Forall₂ R l m) : ∀ a ∈ l, P a := by
  induction h with
  | nil => simp
  | cons h _ ih =>
    intro a ha
    rcases List.mem_cons.mp ha with rfl | ha
    · exact hR _ _ h
    · exact ih a ha

theorem Spec.Display.acc {tag body i} (h2 : tag = 2 → ∀ v r, body = v :: r → v ∉ [4, 5]) (h : Display o X tag body i) : Acc X tag body := by
  cases h with
  | sessionKey hk h => exact .sessionKey hk (ses_fields h)
  | signature hv => exact absurd hv (h2 rfl _ _ rfl)
  | signature3 h => exact .signatureOther (by decide)
  | signature3Cut h => exact .signatureOther (by decide)
  | signatureOther hv => exact .signatureOther (h2 rfl _ _ rfl)
  | password h => exact .password h.spec
  | passwordOther hv => exact .passwordOther hv
  | onePass hk =>
    refine .onePass ?_
    simp only [List.length_cons, List.length_append, hk]
    omega
  | publicKey ht h => exact .publicKey ht h.part
  | secretKey ht h hs =>
    split at hs
    · rename_i hv
      subst hv
      exact .secretKey5 ht h.part hs.part
    · rename_i hv
      exact .secretKey ht hv h.part hs.part
  | compressed h => exact .compressed h
  | literal hn ht => exact .literal (.mk hn) ht
  | userAttribute hs h => exact .userAttribute hs (forall₂_left (P := fun s : UInt8 × Bytes => AttrSub s.1 s.2) (fun _ _ h => Spec.AttrShown.attr h) h)
  | aead hn =>
    refine .aead ?_
    simp only [List.length_cons]
    omega
  | aeadCut hn =>
    refine .aead ?_
    simp only [List.length_cons]
    omega
  | other h =>
    refine .other ?_
    simp only [List.mem_cons, List.not_mem_nil, or_false, not_or] at h ⊢
    omega
  | encrypted | marker | trust | userID | integrity | mdc => exact .other (by decide)

theorem Spec.Full.acc {h tag body i h'} (hf : Full o X h tag body i h') : Acc X tag body := by
  refine Full.rec (o := o) (X := X)
    (motive_1 := fun h tag body i h' _ => Acc X tag body)
    (motive_2 := fun h name area is h' _ => ∃ subs, SubSeq subs area ∧ ∀ s ∈ subs, AccSub X s.1 s.2)
    (motive_3 := fun h subs is h' _ => ∀ s ∈ subs, AccSub X s.1 s.2)
    (motive_4 := fun h ps is h' _ => ∀ p ∈ ps, Acc X p.1 p.2)
    ?_ ?_ ?_ ?_ ?_ ?_ ?_ ?_ ?_ ?_ ?_ ?_ ?_ ?_ ?_ ?_ ?_ ?_ ?_ ?_ ?_ hf
  · intro h tag body i ht hd
    exact hd.acc (by rintro rfl; exact absurd (by decide) ht)
  · intro h body i hd
    exact hd.acc (fun e => absurd e (by decide))
  · intro h body i hd
    exact hd.acc (fun e => absurd e (by decide))
  · intro h body
    exact .other (by decide)
  · intro h body
    exact .other (by decide)
  · intro h tag v tm r i ht hv hl hd
    exact hd.acc (by rintro rfl; exact absurd ht (by decide))
  · intro h tag v r i ht hv hd
    exact hd.acc (by rintro rfl; exact absurd ht (by decide))
  · intro h v r i hv hd
    exact .signatureOther hv
  · intro h1 h2 h3 v t a h a1 a2 i1 i2 l f q is hv hd hu hl hf hl1 hl2 ih1 ih2
    obtain ⟨s1, hs1, ha1⟩ := ih1
    obtain ⟨s2, hs2, ha2⟩ := ih2
    obtain ⟨l0, l1, rfl⟩ := two_octets hl
    exact .signature (f := f) (rest := q) hv hl1 hl2 hs1 hs2 ha1 ha2 (sig_ints hf)
  · intro h name
    exact ⟨[], .nil, by simp⟩
  · intro h name area subs is h' h0 hs hd ih
    exact ⟨subs, hs, ih⟩
  · intro h
    simp
  · intro h t b i subs is h' ht hd hs ih
    exact List.forall_mem_cons.mpr ⟨hd.acc, ih⟩
  · intro h t tm r subs is h' ht hl hs ih
    exact List.forall_mem_cons.mpr ⟨(SubShown.created (o := o) ht hl).acc, ih⟩
  · intro h t n r subs is h' ht hl hs ih
    exact List.forall_mem_cons.mpr ⟨(SubShown.expires (o := o) (note := []) (.inl ht) hl).acc, ih⟩
  · intro h t n r subs is h' ht hl hs ih
    exact List.forall_mem_cons.mpr ⟨(SubShown.expires (o := o) (note := []) (.inr ht) hl).acc, ih⟩
  · intro h1 h2 h3 t b i subs is ht hd hs ih1 ih2
    exact List.forall_mem_cons.mpr ⟨.embedded ht ih1, ih2⟩
  · intro h t k d subs is h' ht hk hs ih
    exact List.forall_mem_cons.mpr ⟨.keyBlockOther ht hk, ih⟩
  · intro h1 h2 h3 t a b ps js subs is ht ha hb hd hs ih1 ih2
    exact List.forall_mem_cons.mpr ⟨.keyBlock ht ha ih1 hb, ih2⟩
  · intro h
    simp
  · intro h1 h2 h3 tag body ps i is hd hs ih1 ih2
    exact List.forall_mem_cons.mpr ⟨ih1, ih2⟩

theorem Spec.FullAll.acc {ps : List (Nat × Bytes)} : ∀ {h is h'}, FullAll o X h ps is h' → ∀ p ∈ ps, Acc X p.1 p.2 := by
  induction ps with
  | nil => simp
  | cons p ps ih =>
    intro h is h' hf
    cases hf with
    | cons hd hs => exact List.forall_mem_cons.mpr ⟨hd.acc, ih hs⟩

theorem Spec.FullTop.acc {h p i h'} (hf : FullTop o X h p i h') : AccTop X p.1 p.2 := by
  cases hf with
  | plain h8 hd => exact .plain h8 hd.acc
  | packed hz hp hd => exact .packed hz hp hd.acc
  | huge hz => exact .huge hz

/-- packets for which the table has a display are accepted -/
theorem Spec.FullTops.acc {ps : List (Nat × Bytes)} : ∀ {h is h'}, FullTops o X h ps is h' → ∀ p ∈ ps, AccTop X p.1 p.2 := by
  induction ps with
  | nil => simp
  | cons p ps ih =>
    intro h is h' hf
    cases hf with
    | cons hd hs => exact List.forall_mem_cons.mpr ⟨hd.acc, ih hs⟩

end Gpgpdump
