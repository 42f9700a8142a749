import Verif.SpecMemory
import Verif.ThmOutcome
import Verif.ThmLocalTime

/-!
# C80: what an earlier use of the context changes
-/

namespace Gpgpdump
open P Spec

variable {o : OptCode → Bool} {X : Ext}

/-! ## Items that neither store nor use anything -/

theorem markOf_untracked {n : Str} (h : tracked.contains n = false) : markOf n = none ∧ n ≠ S "User Attribute Packet (tag 17)" := by
  have h := untracked h
  unfold tracked at h
  simp only [List.mem_append, List.mem_cons, List.not_mem_nil, or_false, not_or] at h
  obtain ⟨⟨⟨⟨h1, h2, h3, h4, h5, h6⟩, h7⟩, h8⟩, h9⟩ := h
  refine ⟨?_, h6⟩
  unfold markOf
  rw [if_neg (by simp [h1, h2]), if_neg (by simp [h3, h4]), if_neg h5, if_neg h7, if_neg h8, if_neg h9]

theorem marks_untracked {n v d t : Str} {is : List Item} (h : tracked.contains n = false) : marks (.mk n v d t is) = marksAll is := by
  unfold marks
  rw [(markOf_untracked h).1]
  exact if_neg (markOf_untracked h).2

theorem marks_leaf {n v d t : Str} (h : tracked.contains n = false) : marks (leaf n v t d) = [] := by
  unfold leaf
  rw [marks_untracked h]
  rfl

theorem marks_named {n v d t : Str} {is : List Item} {m : Mark} (h : markOf n = some m) : marks (.mk n v d t is) = [m] := by
  unfold marks
  rw [h]

theorem marksAll_append (l l' : List Item) : marksAll (l ++ l') = marksAll l ++ marksAll l' := by
  induction l with
  | nil => rfl
  | cons i l ih => simp only [List.cons_append, marksAll, ih, List.append_assoc]

/-- nothing in the list stores or uses anything -/
abbrev Mute (l : List Item) : Prop := marksAll l = []

theorem Mute.append {l l' : List Item} (h : Mute l) (h' : Mute l') : Mute (l ++ l') := by
  unfold Mute
  rw [marksAll_append, h, h']
  rfl
theorem Mute.cons {i : Item} {l : List Item} (h : marks i = []) (h' : Mute l) : Mute (i :: l) := by
  show marks i ++ marksAll l = []
  rw [h, h']
  rfl
theorem Mute.all {l : List Item} (h : ∀ i ∈ l, marks i = []) : Mute l := by
  induction l with
  | nil => rfl
  | cons i l ih => exact .cons (h i (List.mem_cons_self ..)) (ih fun j hj => h j (List.mem_cons_of_mem _ hj))

/-- names that begin with another letter than those of the items that count -/
theorem untracked_head {c : Char} {s : Str} (h : c ∉ ['P', 'S', 'U', 'K']) : tracked.contains (c :: s) = false := (Quiet.of_head (v := []) (t := []) (d := []) h).1

theorem marks_hash (b) : marks (hashRow o b) = [] := marks_leaf (by fresh)
theorem marks_pub (b) : marks (pubRow o b) = [] := marks_leaf (by fresh)
theorem marks_sym (b) : marks (symRow o b) = [] := marks_leaf (by fresh)
theorem marks_aead (b) : marks (aeadRow o b) = [] := marks_leaf (by fresh)
theorem marks_comp (b) : marks (compRow o b) = [] := marks_leaf (by fresh)
theorem marks_sigType (b) : marks (sigTypeRow o b) = [] := marks_leaf (by fresh)
theorem marks_version (a b v) : marks (versionRow o a b v) = [] := marks_leaf (by fresh)
theorem marks_keyID (b) : marks (keyIDRow b) = [] := marks_leaf (by fresh)
theorem marks_left (b) : marks (left16Row b) = [] := marks_leaf (by fresh)
theorem marks_checksum (b) : marks (checksumRow b) = [] := marks_leaf (by fresh)
theorem marks_salt (b) : marks (saltRow b) = [] := marks_leaf (by fresh)
theorem marks_count (b) : marks (countRow b) = [] := marks_leaf (by fresh)
theorem marks_num {n : String} (b t) (h : tracked.contains n.toList = false) : marks (numRow n b t) = [] := marks_leaf h
theorem marks_text {n} (h : tracked.contains n = false) (f b) : marks (textRow n f b) = [] := by
  unfold textRow
  split
  · exact marks_leaf h
  · split <;> exact marks_leaf h
theorem mute_unknown (q) : Mute (unknownRows o q) := by
  unfold unknownRows
  split
  · rfl
  · exact .cons (marks_leaf (by fresh)) rfl

/-- does not begin with one of the letters P, S, U, K -/
def headFine : Str → Bool
  | [] => false
  | c :: _ => !(['P', 'S', 'U', 'K'].contains c)

theorem untracked_fine {n : Str} (h : headFine n = true) (m : Str) : tracked.contains (n ++ m) = false := by
  cases n with
  | nil => cases h
  | cons c s => exact untracked_head (by simpa [headFine] using h)
theorem untracked_fine' {n : Str} (h : headFine n = true) : tracked.contains n = false := by
  have := untracked_fine h []
  rwa [List.append_nil] at this

/-- labels of integers -/
def slotFine : Slot → Bool
  | .int l => headFine l.toList
  | .point l => headFine l.toList
  | _ => true

theorem mute_kdf (k) : marks (kdfRow o k) = [] := by
  unfold kdfRow
  split
  · rw [marks_untracked (by fresh)]
    exact Mute.cons (marks_hash _) (.cons (marks_sym _) rfl)
  · exact marks_leaf (by fresh)

theorem mute_slots {ss f q is} (h : SlotRows o ss f q is) (hs : ∀ s ∈ ss, slotFine s = true) : Mute is := by
  induction h with
  | nil => rfl
  | int hb hl h ih => exact .cons (marks_leaf (untracked_fine' (hs _ (List.mem_cons_self ..)))) (ih fun s h => hs s (List.mem_cons_of_mem _ h))
  | point hb hl h ih =>
    refine .cons (marks_leaf ?_) (ih fun s h => hs s (List.mem_cons_of_mem _ h))
    rw [List.append_assoc, List.append_assoc]
    exact untracked_fine (hs _ (List.mem_cons_self ..)) _
  | curve hl h ih => exact .cons (marks_leaf (by fresh)) (ih fun s h => hs s (List.mem_cons_of_mem _ h))
  | kdf hl h ih => exact .cons (mute_kdf _) (ih fun s h => hs s (List.mem_cons_of_mem _ h))
  | wrapped hl h ih => exact .cons (marks_leaf (by fresh)) (ih fun s h => hs s (List.mem_cons_of_mem _ h))
  | kdfMissing => exact .cons (mute_kdf _) rfl
  | wrappedMissing => exact .cons (marks_leaf (by fresh)) rfl

/-- all slots in a table are fine -/
def TableFine (slots : UInt8 → Option (List Slot)) : Prop := ∀ a ss, slots a = some ss → ∀ s ∈ ss, slotFine s = true

theorem fine_pub : TableFine pubSlots := by
  intro a ss h
  unfold pubSlots at h
  repeat' split at h
  all_goals first | (cases h; done) | (cases h; decide)
theorem fine_sig : TableFine sigSlots := by
  intro a ss h
  unfold sigSlots at h
  repeat' split at h
  all_goals first | (cases h; done) | (cases h; decide)
theorem fine_ses : TableFine sesSlots := by
  intro a ss h
  unfold sesSlots at h
  repeat' split at h
  all_goals first | (cases h; done) | (cases h; decide)
theorem fine_sec : TableFine secSlots := by
  intro a ss h
  unfold secSlots at h
  repeat' split at h
  all_goals first | (cases h; done) | (cases h; decide)

theorem opaque_fine (a) : tracked.contains (opaqueName a) = false := by
  unfold opaqueName
  repeat' split
  all_goals exact untracked_fine' rfl
theorem encrypted_fine (a) : tracked.contains (encryptedName a) = false := by
  unfold encryptedName
  repeat' split
  all_goals exact untracked_fine' rfl

theorem mute_integers {slots a f q is} (hs : TableFine slots) (h : Integers o slots a f q is) : Mute is := by
  cases h with
  | known ha h => exact mute_slots h (hs a _ ha)
  | unknown ha => exact .cons (marks_leaf (opaque_fine _)) rfl
theorem mute_secretInts {a f q is} (h : SecretInts o a f q is) : Mute is := by
  cases h with
  | known ha h => exact mute_slots h (fine_sec a _ ha)
  | unknown ha hq =>
    refine .cons (marks_leaf ?_) rfl
    rw [List.append_assoc]
    exact untracked_fine rfl _

theorem mute_s2kRow {t is} (h : Mute is) : marks (s2kRow o t is) = [] := by
  unfold s2kRow
  rw [marks_untracked (by fresh)]
  exact h
theorem mute_gnu {n is} (h : Mute is) : marks (gnuRow n is) = [] := by
  unfold gnuRow
  rw [marks_untracked (by fresh)]
  exact h
theorem mute_s2k {iv f q i} (h : S2KShown o iv f q i) : marks i = [] := by
  cases h with
  | simple => exact mute_s2kRow (.cons (marks_hash _) rfl)
  | salted => exact mute_s2kRow (.cons (marks_hash _) (.cons (marks_salt _) rfl))
  | iterated => exact mute_s2kRow (.cons (marks_hash _) (.cons (marks_salt _) (.cons (marks_count _) rfl)))
  | gnu => exact mute_s2kRow (.cons (mute_gnu rfl) rfl)
  | card => exact mute_s2kRow (.cons (mute_gnu (.cons (marks_leaf (by fresh)) rfl)) rfl)
  | notGnu => exact mute_s2kRow rfl
  | other => exact mute_s2kRow rfl

theorem mute_options {u c iv f q is} (h : OptionsShown o u c iv f q is) : Mute is := by
  cases h with
  | plain => rfl
  | s2k hu h => exact .cons (marks_sym _) (.cons (mute_s2k h) rfl)
  | aead h => exact .cons (marks_sym _) (.cons (marks_aead _) (.cons (mute_s2k h) rfl))
  | cipher => exact .cons (marks_sym _) rfl
theorem mute_iv {u c iv n is} (h : IVShown u c iv n is) : Mute is := by
  cases h with
  | none => rfl
  | iv => exact .cons (marks_leaf (by fresh)) rfl
  | nonce => exact .cons (marks_leaf (by fresh)) rfl
theorem mute_secret {a f q i} (h : SecretShown o a f q i) : marks i = [] := by
  cases h with
  | plain h => rw [marks_untracked (by fresh)]; exact (mute_secretInts h).append (.cons (marks_checksum _) rfl)
  | encrypted hu h hn =>
    rw [marks_untracked (by fresh)]
    exact ((mute_options h).append (mute_iv hn)).append (.cons (marks_leaf (encrypted_fine _)) rfl)
theorem mute_secret5 {a f q i} (h : Secret5Shown o a f q i) : marks i = [] := by
  obtain ⟨ho, hm⟩ := h
  rw [marks_untracked (by fresh)]
  refine Mute.append ?_ ?_
  · cases ho with
    | none => rfl
    | plain => exact mute_unknown _
    | some hu hl h hn => exact ((mute_options h).append (mute_iv hn)).append (mute_unknown _)
  · cases hm with
    | none => rfl
    | encrypted => exact .cons (marks_leaf (encrypted_fine _)) rfl
    | plain h0 hl h => exact ((mute_secretInts h).append (.cons (marks_checksum _) rfl)).append (mute_unknown _)

/-! ### Subpackets -/

theorem sub_untracked {t : UInt8} (h : t.toNat % 128 ∉ [2, 3, 9]) : tracked.contains (subName t) = false := by
  have : ∀ t : UInt8, (t.toNat % 128 ∈ [2, 3, 9] ∨ tracked.contains (subName t) = false) :=
    byOctet (p := fun t => t.toNat % 128 ∈ [2, 3, 9] ∨ tracked.contains (subName t) = false) (by decide +kernel)
  exact (this t).resolve_left h

theorem marks_sub {t : UInt8} {b is v} (h : t.toNat % 128 ∉ [2, 3, 9]) : marks (subRow o t b is v) = marksAll is := marks_untracked (sub_untracked h)

theorem mute_flags (l n b) : Mute (flagRows l n b) := by
  unfold flagRows
  refine Mute.append (Mute.all fun i hi => ?_) ?_
  · obtain ⟨p, -, hp⟩ := List.mem_filterMap.mp hi
    split at hp
    · cases hp; exact marks_leaf (by fresh)
    · cases hp
  · simp only
    split
    · exact Mute.cons (marks_leaf (by fresh)) rfl
    · rfl
theorem mute_restFlags (n b) : Mute (restFlagRows n b) := by
  induction b generalizing n with
  | nil => rfl
  | cons a b ih => exact (mute_flags _ _ _).append (ih _)
theorem mute_notation (fl) : Mute (notationRows fl) := by
  unfold notationRows
  split
  · exact (((mute_flags _ _ _).append (mute_flags _ _ _)).append (mute_flags _ _ _)).append (mute_flags _ _ _)
  · rfl
theorem mute_map {f : UInt8 → Item} (h : ∀ b, marks (f b) = []) (l : Bytes) : Mute (l.map f) := by
  refine .all fun i hi => ?_
  obtain ⟨b, -, rfl⟩ := List.mem_map.mp hi
  exact h b

theorem mute_sub {t : UInt8} {b i} (ht : t.toNat % 128 ∉ [2, 3, 9]) (h : SubShown o X t b i) : marks i = [] := by
  cases h with
  | created h => exact absurd (by rw [h]; decide) ht
  | expires h => exact absurd (by rcases h with h | h <;> rw [h] <;> decide) ht
  | exportable => exact marks_leaf (sub_untracked ht)
  | trust => rw [marks_sub ht]; exact Mute.cons (marks_num _ _ (by fresh)) (.cons (marks_num _ _ (by fresh)) rfl)
  | text => exact marks_text (sub_untracked ht) _ _
  | revocable => rw [marks_sub ht]; rfl
  | ciphers => rw [marks_sub ht]; exact mute_map marks_sym _
  | revoker => rw [marks_sub ht]; exact Mute.cons (marks_leaf (by fresh)) (.cons (marks_pub _) (.cons (marks_leaf (by fresh)) rfl))
  | issuer => exact marks_leaf (sub_untracked ht)
  | «notation» =>
    rw [marks_sub ht]
    refine (mute_notation _).append (.cons (marks_text (by fresh) _ _) (.cons ?_ rfl))
    split
    · exact marks_text (by fresh) _ _
    · exact marks_leaf (by fresh)
  | hashes => rw [marks_sub ht]; exact mute_map marks_hash _
  | compressions => rw [marks_sub ht]; exact mute_map marks_comp _
  | server => rw [marks_sub ht]; exact (mute_flags _ _ _).append (mute_restFlags _ _)
  | primary => rw [marks_sub ht]; rfl
  | keyFlags1 => rw [marks_sub ht]; exact (mute_flags _ _ _).append (mute_flags _ _ _)
  | keyFlags => rw [marks_sub ht]; exact (((mute_flags _ _ _).append (mute_flags _ _ _)).append (mute_flags _ _ _)).append (mute_restFlags _ _)
  | reason =>
    rw [marks_sub ht]
    split
    · rfl
    · exact Mute.cons (marks_text (by fresh) _ _) rfl
  | features => rw [marks_sub ht]; exact (mute_flags _ _ _).append (mute_restFlags _ _)
  | target => rw [marks_sub ht]; exact Mute.cons (marks_pub _) (.cons (marks_hash _) (.cons (marks_leaf (by fresh)) rfl))
  | fingerprint => rw [marks_sub ht]; exact Mute.cons (marks_num _ _ (by fresh)) (.cons (marks_leaf (by fresh)) rfl)
  | aeads => rw [marks_sub ht]; exact mute_map marks_aead _
  | attested => rw [marks_sub ht]; exact Mute.cons (marks_leaf (by fresh)) rfl
  | other => rw [marks_sub ht]; rfl

/-! ### Packets -/

theorem packetName_eq (tag : Nat) : (packetName tag).toList ++ " (tag ".toList ++ dec tag ++ ")".toList = tagStr tag := by
  unfold tagStr
  rw [packetNames_eq]
  rfl

theorem marks_packet {tag : Nat} {b is} (h : tag ∉ [1, 3, 9, 17, 18]) : marks (packetRow o tag b is) = marksAll is := by
  unfold packetRow
  rw [packetName_eq]
  exact marks_untracked (tagStr_untracked h)
theorem marks_packet_use {tag : Nat} {b is} (h : tag ∈ [9, 18]) : marks (packetRow o tag b is) = [⟨.session, true⟩] := by
  unfold packetRow
  rw [packetName_eq]
  simp only [List.mem_cons, List.not_mem_nil, or_false] at h
  rcases h with rfl | rfl <;> exact marks_named (by decide +kernel)
theorem marks_packet_set {tag : Nat} {b is} (h : tag ∈ [1, 3]) : marks (packetRow o tag b is) = [⟨.session, false⟩] := by
  unfold packetRow
  rw [packetName_eq]
  simp only [List.mem_cons, List.not_mem_nil, or_false] at h
  rcases h with rfl | rfl <;> exact marks_named (by decide +kernel)
theorem marks_attribute {b is} : marks (packetRow o 17 b is) = [] := by
  unfold packetRow
  rw [packetName_eq]
  unfold marks
  rw [show markOf (tagStr 17) = none by decide +kernel]
  exact if_pos (by decide +kernel)

theorem mute_slotsCut {ss q is} (h : SlotsCut o ss q is) (hs : ∀ s ∈ ss, slotFine s = true) : Mute is := by
  induction h with
  | here => rfl
  | next hb hl h ih => exact .cons (marks_leaf (untracked_fine' (hs _ (List.mem_cons_self ..)))) (ih fun s h => hs s (List.mem_cons_of_mem _ h))
theorem mute_hashed3 {b i} (h : Hashed3Shown o X b i) : marks i = [] := by
  cases h with
  | five => rw [marks_untracked (by fresh)]; exact Mute.cons (marks_sigType _) (.cons (marks_leaf (by fresh)) rfl)
  | other => exact marks_leaf (by fresh)
theorem mute_hashed3Cut {b i} (h : Hashed3Cut o b i) : marks i = [] := by
  cases h with
  | kind => rw [marks_untracked (by fresh)]; rfl
  | time => rw [marks_untracked (by fresh)]; exact Mute.cons (marks_sigType _) rfl
  | other => rw [marks_untracked (by fresh)]; rfl
theorem mute_sig3 {b is} (h : Sig3Shown o X b is) : Mute is := by
  obtain ⟨hh, hk, hl, hf⟩ := h
  exact .cons (mute_hashed3 hh) (.cons (marks_keyID _) (.cons (marks_pub _) (.cons (marks_hash _) (.cons (marks_left _)
    ((mute_integers fine_sig hf).append (mute_unknown _))))))
theorem mute_sig3Cut {b is} (h : Sig3Cut o X b is) : Mute is := by
  cases h with
  | size => rfl
  | hashed h => exact .cons (mute_hashed3Cut h) rfl
  | keyID hh hk => exact .cons (mute_hashed3 hh) rfl
  | algorithm hh hk => exact .cons (mute_hashed3 hh) (.cons (marks_keyID _) rfl)
  | hash hh hk => exact .cons (mute_hashed3 hh) (.cons (marks_keyID _) (.cons (marks_pub _) rfl))
  | left hh hk hl => exact .cons (mute_hashed3 hh) (.cons (marks_keyID _) (.cons (marks_pub _) (.cons (marks_hash _) rfl)))
  | integers hh hk hl ha hc =>
    exact .cons (mute_hashed3 hh) (.cons (marks_keyID _) (.cons (marks_pub _) (.cons (marks_hash _) (.cons (marks_left _) (mute_slotsCut hc (fine_sig _ _ ha))))))
theorem mute_packed (b huge) : Mute (packedRows o b huge) := by
  unfold packedRows
  split
  · rfl
  · refine .cons (marks_comp _) ?_
    split
    · rfl
    · exact .cons (marks_leaf (by fresh)) rfl
theorem marks_area {name : String} {a is} (h : tracked.contains name.toList = false) : marks (areaRow o name a is) = marksAll is := marks_untracked h

/-- packets that have nothing to do with the memory -/
theorem mute_display {tag body i} (ht : tag ∉ [1, 2, 3, 5, 6, 7, 9, 14, 18]) (h : Display o X tag body i) : marks i = [] := by
  cases h with
  | sessionKey => exact absurd (by decide) ht
  | signature => exact absurd (by decide) ht
  | signature3 => exact absurd (by decide) ht
  | signature3Cut => exact absurd (by decide) ht
  | signatureOther => exact absurd (by decide) ht
  | password => exact absurd (by decide) ht
  | passwordOther => exact absurd (by decide) ht
  | onePass =>
    rw [marks_packet (by decide)]
    exact Mute.cons (marks_version _ _ _) (.cons (marks_sigType _) (.cons (marks_hash _) (.cons (marks_pub _) (.cons (marks_keyID _)
      (.cons (marks_leaf (by fresh)) (mute_unknown _))))))
  | publicKey h => exact absurd (by simp only [List.mem_cons, List.not_mem_nil, or_false] at h ⊢; omega) ht
  | secretKey h => exact absurd (by simp only [List.mem_cons, List.not_mem_nil, or_false] at h ⊢; omega) ht
  | compressed => rw [marks_packet (by decide)]; exact mute_packed _ _
  | encrypted => exact absurd (by decide) ht
  | marker => rw [marks_packet (by decide)]; exact Mute.cons (marks_leaf (by fresh)) rfl
  | literal =>
    rw [marks_packet (by decide)]
    exact Mute.cons (marks_leaf (by fresh)) (.cons (marks_text (by fresh) _ _) (.cons (marks_leaf (by fresh)) (.cons (marks_leaf (by fresh)) rfl)))
  | trust => rw [marks_packet (by decide)]; exact Mute.cons (marks_leaf (by fresh)) rfl
  | userID => rw [marks_packet (by decide)]; exact Mute.cons (marks_text (by fresh) _ _) rfl
  | userAttribute => exact marks_attribute
  | integrity => exact absurd (by decide) ht
  | mdc => rw [marks_packet (by decide)]; exact Mute.cons (marks_leaf (by fresh)) rfl
  | aead =>
    rw [marks_packet (by decide)]
    refine Mute.cons (marks_version _ _ _) (.cons (marks_sym _) (.cons (marks_aead _) (.cons (marks_leaf (by fresh)) (.cons (marks_leaf (by fresh)) ?_))))
    split
    · rfl
    · exact Mute.cons (marks_leaf (by fresh)) rfl
  | aeadCut =>
    rw [marks_packet (by decide)]
    exact Mute.cons (marks_version _ _ _) (.cons (marks_sym _) (.cons (marks_aead _) (.cons (marks_leaf (by fresh)) rfl)))
  | other h =>
    rw [marks_packet (by simp only [List.mem_cons, List.not_mem_nil, or_false] at h ⊢; omega)]
    rfl

theorem mute_signature {v r i} (hv : v ∉ [4, 5]) (h : Display o X 2 (v :: r) i) : marks i = [] := by
  generalize hb : v :: r = body at h
  cases h with
  | signature hv' => cases hb; exact absurd hv' hv
  | signature3 h => rw [marks_packet (by decide)]; exact Mute.cons (marks_version _ _ _) (mute_sig3 h)
  | signature3Cut h => rw [marks_packet (by decide)]; exact Mute.cons (marks_version _ _ _) (mute_sig3Cut h)
  | signatureOther => rw [marks_packet (by decide)]; exact Mute.cons (marks_version _ _ _) (mute_unknown _)
  | publicKey h => exact absurd h (by decide)
  | secretKey h => exact absurd h (by decide)
  | other h => exact absurd (by decide) h

theorem marks_session {body i} (h : Display o X 1 body i) : marks i = [⟨.session, false⟩] := by
  cases h with
  | sessionKey => exact marks_packet_set (by decide)
  | publicKey h => exact absurd h (by decide)
  | secretKey h => exact absurd h (by decide)
  | other h => exact absurd (by decide) h
theorem marks_password {body i} (h : Display o X 3 body i) : marks i = [⟨.session, false⟩] := by
  cases h with
  | password => exact marks_packet_set (by decide)
  | passwordOther => exact marks_packet_set (by decide)
  | publicKey h => exact absurd h (by decide)
  | secretKey h => exact absurd h (by decide)
  | other h => exact absurd (by decide) h

theorem marks_keyTime {v d t : Str} : marks (leaf "Public key creation time".toList v t d) = [⟨.key, false⟩] := marks_named (by decide +kernel)
theorem marks_keyList {v d t : Str} {l} (h : Mute l) : marksAll (leaf "Public key creation time".toList v t d :: l) = [⟨.key, false⟩] := by
  unfold marksAll
  rw [marks_keyTime, h]
  rfl
theorem marks_pubShown {v a f q is} (hv : v ∈ [3, 4, 5]) (h : PubShown o X v a f q is) : marksAll is = [⟨.key, false⟩] := by
  cases h with
  | v3 ht hd h => exact marks_keyList (.cons (marks_leaf (by fresh)) (.cons (marks_pub a) (mute_integers fine_pub h)))
  | v4 ht h => exact marks_keyList (.cons (marks_pub a) (mute_integers fine_pub h))
  | v5 ht hd h => exact marks_keyList (.cons (marks_pub a) (mute_integers fine_pub h))
  | other h => exact absurd hv h
theorem mute_pubShown {v a f q is} (hv : v ∉ [3, 4, 5]) (h : PubShown o X v a f q is) : Mute is := by
  cases h with
  | v3 => exact absurd (by decide) hv
  | v4 => exact absurd (by decide) hv
  | v5 => exact absurd (by decide) hv
  | other h => rfl

/-- key packets: the stores and uses are those of the public part -/
theorem marks_keyPacket {tag v r i} (ht : tag ∈ [5, 6, 7, 14]) (h : Display o X tag (v :: r) i) :
    ∃ a f q is, PubShown o X v a f q is ∧ marks i = marksAll is := by
  generalize hb : v :: r = body at h
  cases h with
  | publicKey ht' h =>
    cases hb
    refine ⟨_, _, _, _, h, ?_⟩
    rw [marks_packet (by simp only [List.mem_cons, List.not_mem_nil, or_false] at ht ⊢; omega)]
    show marks _ ++ _ = _
    rw [marks_version, marksAll_append, mute_unknown, List.append_nil]
    rfl
  | secretKey ht' h hs =>
    cases hb
    refine ⟨_, _, _, _, h, ?_⟩
    rw [marks_packet (by simp only [List.mem_cons, List.not_mem_nil, or_false] at ht ⊢; omega)]
    show marks _ ++ (marks _ ++ (marks _ ++ _)) = _
    rw [marks_version, mute_unknown, marks_untracked (by fresh)]
    split at hs
    · rw [mute_secret5 hs]; exact List.append_nil _
    · rw [mute_secret hs]; exact List.append_nil _
  | other h => exact absurd (by simp only [List.mem_cons, List.not_mem_nil, or_false] at ht ⊢; omega) h
  | _ => exact absurd ht (by decide)

/-! ## Two memories side by side -/

/-- the text of a date tells which date it is -/
def Legible (time : Nat → Str) : Prop := (∀ n, n < 2 ^ 32 → time n ≠ []) ∧ ∀ n m, n < 2 ^ 32 → m < 2 ^ 32 → time n = time m → n = m

/-- creation times have four octets -/
def Bounded (h : History) : Prop := (∀ n, h.key = some n → n < 2 ^ 32) ∧ (∀ n, h.signature = some n → n < 2 ^ 32)

theorem Spec.EqualAt.same {h h' : History} {c} (e : EqualAt h h' c) : Same h h' c := by
  cases c
  · exact e
  · exact congrArg start e
  · exact congrArg start e
theorem Spec.EqualAt.symm {h h' : History} {c} (e : EqualAt h h' c) : EqualAt h' h c := by cases c <;> exact Eq.symm e
theorem Spec.EqualAt.trans {h h' h'' : History} {c} (e : EqualAt h h' c) (e' : EqualAt h' h'' c) : EqualAt h h'' c := by cases c <;> exact Eq.trans e e'
theorem Spec.EqualAt.refl (h : History) (c) : EqualAt h h c := by cases c <;> rfl
theorem Spec.Same.congr {h h' k k' : History} {c} (s : Same h h' c) (e : EqualAt k h c) (e' : EqualAt k' h' c) : Same k k' c := by
  cases c
  · exact (e.trans s).trans e'.symm
  · exact ((congrArg start e).trans s).trans (congrArg start e').symm
  · exact ((congrArg start e).trans s).trans (congrArg start e').symm

theorem first_append (c : Cell) (l l' : List Mark) : first c (l ++ l') = (first c l).or (first c l') := List.find?_append

/-- the same octets read with two memories: `E` says that the results are equal -/
structure Beside (time : Nat → Str) (h1 h2 : History) (M : List Mark) (E : Prop) (h1' h2' : History) : Prop where
  same : (∀ c, Exposed c M → Same h1 h2 c) → E
  needed : Legible time → Bounded h1 → Bounded h2 → E → ∀ c, Exposed c M → Same h1 h2 c
  after : ∀ c, first c M ≠ none → EqualAt h1' h2' c
  kept : ∀ c, first c M = none → EqualAt h1' h1 c ∧ EqualAt h2' h2 c
  bounded : Bounded h1 → Bounded h2 → Bounded h1' ∧ Bounded h2'

variable {time : Nat → Str} {h1 h2 h1' h2' h1'' h2'' : History} {M M' : List Mark} {E E' : Prop}

theorem Beside.comp (s : Beside time h1 h2 M E h1' h2') (s' : Beside time h1' h2' M' E' h1'' h2'') : Beside time h1 h2 (M ++ M') (E ∧ E') h1'' h2'' := by
  have hx : ∀ c, Exposed c M → Exposed c (M ++ M') := by
    intro c h
    unfold Exposed at h ⊢
    rw [first_append, h]
    rfl
  have hx' : ∀ c, first c M = none → first c (M ++ M') = first c M' := by
    intro c h
    rw [first_append, h]
    rfl
  refine ⟨?_, ?_, ?_, ?_, ?_⟩
  · intro h
    refine ⟨s.same fun c hc => h c (hx c hc), s'.same fun c hc => ?_⟩
    by_cases hn : first c M = none
    · have := h c ((hx' c hn).trans hc)
      exact this.congr (s.kept c hn).1 (s.kept c hn).2
    · exact (s.after c hn).same
  · intro hl b1 b2 e c hc
    by_cases hn : first c M = none
    · have b := s.bounded b1 b2
      have := s'.needed hl b.1 b.2 e.2 c ((hx' c hn).symm.trans hc)
      exact this.congr (s.kept c hn).1.symm (s.kept c hn).2.symm
    · refine s.needed hl b1 b2 e.1 c ?_
      unfold Exposed at hc ⊢
      rw [first_append] at hc
      cases hf : first c M with
      | none => exact absurd hf hn
      | some m => rw [hf] at hc; exact hc
  · intro c hc
    by_cases hn : first c M' = none
    · have hm : first c M ≠ none := by
        intro hm
        exact hc ((hx' c hm).trans hn)
      exact (s'.kept c hn).1.trans ((s.after c hm).trans (s'.kept c hn).2.symm)
    · exact s'.after c hn
  · intro c hc
    rw [first_append, Option.or_eq_none_iff] at hc
    have a := s.kept c hc.1
    have b := s'.kept c hc.2
    exact ⟨b.1.trans a.1, b.2.trans a.2⟩
  · intro b1 b2
    have b := s.bounded b1 b2
    exact s'.bounded b.1 b.2

theorem Beside.cast (s : Beside time h1 h2 M E h1' h2') (hM : M' = M) (hE : E' ↔ E) : Beside time h1 h2 M' E' h1' h2' := by
  subst hM
  cases propext hE
  exact s

theorem Beside.skip : Beside time h1 h2 [] True h1 h2 :=
  ⟨fun _ => trivial, fun _ _ _ _ c h => (by cases h), fun c h => absurd rfl h, fun c _ => ⟨.refl _ c, .refl _ c⟩, fun b1 b2 => ⟨b1, b2⟩⟩

theorem Beside.storeSession (m) : Beside time h1 h2 [⟨.session, false⟩] True { h1 with session := m } { h2 with session := m } := by
  refine ⟨fun _ => trivial, fun _ _ _ _ c h => ?_, fun c h => ?_, fun c h => ?_, fun b1 b2 => ⟨b1, b2⟩⟩
  · cases c <;> cases h
  · cases c
    · rfl
    · exact absurd rfl h
    · exact absurd rfl h
  · cases c
    · cases h
    · exact ⟨rfl, rfl⟩
    · exact ⟨rfl, rfl⟩
theorem Beside.storeKey {n : Nat} (hn : n < 2 ^ 32) : Beside time h1 h2 [⟨.key, false⟩] True { h1 with key := some n } { h2 with key := some n } := by
  refine ⟨fun _ => trivial, fun _ _ _ _ c h => ?_, fun c h => ?_, fun c h => ?_, fun b1 b2 => ⟨⟨fun m h => ?_, b1.2⟩, ⟨fun m h => ?_, b2.2⟩⟩⟩
  · cases c <;> cases h
  · cases c
    · exact absurd rfl h
    · rfl
    · exact absurd rfl h
  · cases c
    · exact ⟨rfl, rfl⟩
    · cases h
    · exact ⟨rfl, rfl⟩
  · cases h; exact hn
  · cases h; exact hn
theorem Beside.storeSignature {n : Nat} (hn : n < 2 ^ 32) :
    Beside time h1 h2 [⟨.signature, false⟩] True { h1 with signature := some n } { h2 with signature := some n } := by
  refine ⟨fun _ => trivial, fun _ _ _ _ c h => ?_, fun c h => ?_, fun c h => ?_, fun b1 b2 => ⟨⟨b1.1, fun m h => ?_⟩, ⟨b2.1, fun m h => ?_⟩⟩⟩
  · cases c <;> cases h
  · cases c
    · exact absurd rfl h
    · exact absurd rfl h
    · rfl
  · cases c
    · exact ⟨rfl, rfl⟩
    · exact ⟨rfl, rfl⟩
    · cases h
  · cases h; exact hn
  · cases h; exact hn

theorem Beside.useSession (hE : E ↔ h1.session = h2.session) :
    Beside time h1 h2 [⟨.session, true⟩] E { h1 with session := .notSpecified } { h2 with session := .notSpecified } := by
  refine ⟨fun h => hE.mpr (h .session rfl), fun _ _ _ e c h => ?_, fun c h => ?_, fun c h => ?_, fun b1 b2 => ⟨b1, b2⟩⟩
  · cases c
    · exact hE.mp e
    · cases h
    · cases h
  · cases c
    · rfl
    · exact absurd rfl h
    · exact absurd rfl h
  · cases c
    · cases h
    · exact ⟨rfl, rfl⟩
    · exact ⟨rfl, rfl⟩
theorem Beside.useKey (hs : start h1.key = start h2.key → E)
    (hn : Legible time → (∀ n, h1.key = some n → n < 2 ^ 32) → (∀ n, h2.key = some n → n < 2 ^ 32) → E → start h1.key = start h2.key) :
    Beside time h1 h2 [⟨.key, true⟩] E { h1 with key := none } { h2 with key := none } := by
  refine ⟨fun h => hs (h .key rfl), fun l b1 b2 e c h => ?_, fun c h => ?_, fun c h => ?_, fun b1 b2 => ⟨⟨fun m h => ?_, b1.2⟩, ⟨fun m h => ?_, b2.2⟩⟩⟩
  · cases c
    · cases h
    · exact hn l b1.1 b2.1 e
    · cases h
  · cases c
    · exact absurd rfl h
    · rfl
    · exact absurd rfl h
  · cases c
    · exact ⟨rfl, rfl⟩
    · cases h
    · exact ⟨rfl, rfl⟩
  · cases h
  · cases h
theorem Beside.useSignature (hs : start h1.signature = start h2.signature → E)
    (hn : Legible time → (∀ n, h1.signature = some n → n < 2 ^ 32) → (∀ n, h2.signature = some n → n < 2 ^ 32) → E →
      start h1.signature = start h2.signature) :
    Beside time h1 h2 [⟨.signature, true⟩] E { h1 with signature := none } { h2 with signature := none } := by
  refine ⟨fun h => hs (h .signature rfl), fun l b1 b2 e c h => ?_, fun c h => ?_, fun c h => ?_,
    fun b1 b2 => ⟨⟨b1.1, fun m h => ?_⟩, ⟨b2.1, fun m h => ?_⟩⟩⟩
  · cases c
    · cases h
    · cases h
    · exact hn l b1.2 b2.2 e
  · cases c
    · exact absurd rfl h
    · exact absurd rfl h
    · rfl
  · cases c
    · exact ⟨rfl, rfl⟩
    · exact ⟨rfl, rfl⟩
    · cases h
  · cases h
  · cases h

/-! ## Notes that show what is remembered -/

theorem sourceText_inj {m m' : Mode} (h : sourceText m = sourceText m') : m = m' := by cases m <;> cases m' <;> first | rfl | exact absurd h (by decide)
theorem sourceNote_ne {n : Nat} {m : Mode} (hm : m ≠ .notSpecified) : sourceNote (dec n) .notSpecified ≠ sourceNote (dec n) m := by
  intro h
  have h1 : (sourceNote (dec n) m).head? = some 'p' := by
    cases m with
    | notSpecified => exact absurd rfl hm
    | symEnc => rfl
    | pubEnc => rfl
  rw [← h] at h1
  change (dec n ++ S " bytes").head? = some 'p' at h1
  cases hn : dec n with
  | nil => exact absurd hn (dec_ne_nil n)
  | cons c s =>
    have hd := dec_isDigit (n := n) (c := c) (by rw [hn]; exact List.mem_cons_self ..)
    rw [hn] at h1
    cases h1
    exact absurd hd (by decide)
theorem sourceNote_two (s : Str) : sourceNote s .symEnc ≠ sourceNote s .pubEnc := by
  show S _ ≠ S _
  decide
theorem sourceNote_inj {n : Nat} {m m' : Mode} (h : sourceNote (dec n) m = sourceNote (dec n) m') : m = m' := by
  cases m with
  | notSpecified => cases m' with
    | notSpecified => rfl
    | symEnc => exact absurd h (sourceNote_ne (by decide))
    | pubEnc => exact absurd h (sourceNote_ne (by decide))
  | symEnc => cases m' with
    | notSpecified => exact absurd h.symm (sourceNote_ne (by decide))
    | symEnc => rfl
    | pubEnc => exact absurd h (sourceNote_two _)
  | pubEnc => cases m' with
    | notSpecified => exact absurd h.symm (sourceNote_ne (by decide))
    | symEnc => exact absurd h.symm (sourceNote_two _)
    | pubEnc => rfl

theorem endDate_start (s : Option Nat) (n : Nat) : endDate time s n = endDate time (start s) n := by
  cases s with
  | none => rfl
  | some t => cases t <;> rfl
theorem endDate_inj {s s' : Option Nat} {n : Nat} (hl : Legible time) (hb : ∀ n, s = some n → n < 2 ^ 32) (hb' : ∀ n, s' = some n → n < 2 ^ 32)
    (h : endDate time s n = endDate time s' n) : start s = start s' := by
  have hm : ∀ k, k % 2 ^ 32 < 2 ^ 32 := fun k => Nat.mod_lt _ (by decide)
  rcases s with _ | _ | t <;> rcases s' with _ | _ | t'
  · rfl
  · rfl
  · exact absurd h.symm (hl.1 _ (hm _))
  · rfl
  · rfl
  · exact absurd h.symm (hl.1 _ (hm _))
  · exact absurd h (hl.1 _ (hm _))
  · exact absurd h (hl.1 _ (hm _))
  · have e := hl.2 _ _ (hm _) (hm _) h
    have b := hb _ rfl
    have b' := hb' _ rfl
    have : t = t' := by omega
    rw [this]

theorem period_inj {t n s s'} (h : periodRow o X t n s = periodRow o X t n s') : endDate (dateText o X) s (beNat n) = endDate (dateText o X) s' (beNat n) :=
  congrArg Item.note h
theorem period_same {t n} {s s' : Option Nat} (h : start s = start s') : periodRow o X t n s = periodRow o X t n s' := by
  unfold periodRow
  rw [endDate_start s, endDate_start s', h]

/-! ## The table of everything that is displayed, read with two memories -/

/-- what is displayed with the memory `h2` instead of `h1` -/
def OtherMemory (time : Nat → Str) (F : History → List Item → History → Prop) (h1 : History) (l1 : List Item) (h1' : History) : Prop :=
  ∀ h2, ∃ l2 h2', F h2 l2 h2' ∧ marksAll l1 = marksAll l2 ∧ Beside time h1 h2 (marksAll l1) (l1 = l2) h1' h2'

theorem sub_marks (t : UInt8) : (t.toNat % 128 = 2 → markOf (subName t) = some ⟨.signature, false⟩) ∧
    (t.toNat % 128 = 3 → markOf (subName t) = some ⟨.signature, true⟩) ∧ (t.toNat % 128 = 9 → markOf (subName t) = some ⟨.key, true⟩) :=
  byOctet (p := fun t => (t.toNat % 128 = 2 → markOf (subName t) = some ⟨.signature, false⟩) ∧
    (t.toNat % 128 = 3 → markOf (subName t) = some ⟨.signature, true⟩) ∧ (t.toNat % 128 = 9 → markOf (subName t) = some ⟨.key, true⟩)) (by decide +kernel) t

theorem Beside.cons {i1 i2 : Item} {l1 l2 : List Item} (s : Beside time h1 h2 (marks i1) (i1 = i2) h1' h2')
    (s' : Beside time h1' h2' (marksAll l1) (l1 = l2) h1'' h2'') : Beside time h1 h2 (marksAll (i1 :: l1)) (i1 :: l1 = i2 :: l2) h1'' h2'' :=
  (s.comp s').cast rfl (by rw [List.cons.injEq])
theorem Beside.mute {i : Item} {l1 l2 : List Item} (h : marks i = []) (s : Beside time h1 h2 (marksAll l1) (l1 = l2) h1' h2') :
    Beside time h1 h2 (marksAll (i :: l1)) (i :: l1 = i :: l2) h1' h2' :=
  Beside.cons (Beside.skip.cast h (by simp)) s
theorem Beside.wrap {n v d t : Str} {l1 l2 : List Item} (h : tracked.contains n = false) (s : Beside time h1 h2 (marksAll l1) (l1 = l2) h1' h2') :
    Beside time h1 h2 (marks (.mk n v d t l1)) (Item.mk n v d t l1 = .mk n v d t l2) h1' h2' :=
  s.cast (marks_untracked h) (by simp)

theorem Beside.skip' : Beside time h1 h2 (marksAll []) (([] : List Item) = []) h1 h2 := Beside.skip.cast rfl (by simp)
theorem marks_all (i : Item) : marksAll [i] = marks i := by
  show marks i ++ [] = _
  rw [List.append_nil]

theorem area_length {h n a l h' k l' k'} (f : FullArea o X h n a l h') (f' : FullArea o X k n a l' k') : l.length = l'.length := by
  cases f with
  | empty => cases f' with
    | empty => rfl
    | subs h0 => exact absurd rfl h0
  | subs h0 => cases f' with
    | empty => exact absurd rfl h0
    | subs => rfl

theorem four_lt {b : Bytes} (h : b.length = 4) : beNat b < 2 ^ 32 := by
  have := beNat_lt b
  rw [h] at this
  exact this

theorem sub32_untracked {t : UInt8} (h : t.toNat % 128 = 32 ∨ t.toNat % 128 = 38) : tracked.contains (subName t) = false :=
  sub_untracked (by rcases h with h | h <;> rw [h] <;> decide)

mutual
theorem full_twin {h1 tag body i1 h1'} : Full o X h1 tag body i1 h1' → ∀ h2, ∃ i2 h2', Full o X h2 tag body i2 h2' ∧ marks i1 = marks i2 ∧
    Beside (dateText o X) h1 h2 (marks i1) (i1 = i2) h1' h2'
  | .plain ht hd, h2 => ⟨_, _, .plain ht hd, rfl, Beside.skip.cast (mute_display ht hd) (by simp)⟩
  | .sessionKey hd, h2 => ⟨_, _, .sessionKey hd, rfl, (Beside.storeSession _).cast (marks_session hd) (by simp)⟩
  | .password hd, h2 => ⟨_, _, .password hd, rfl, (Beside.storeSession _).cast (marks_password hd) (by simp)⟩
  | .encrypted, h2 => ⟨_, _, .encrypted, by rw [marks_packet_use (by decide), marks_packet_use (by decide)],
      (Beside.useSession (E := _) (by
        constructor
        · intro e
          exact sourceText_inj (by injection e with _ _ _ _ e; injection e with e; injection e)
        · intro e
          rw [e])).cast (marks_packet_use (by decide)) Iff.rfl⟩
  | .integrity, h2 => ⟨_, _, .integrity, by rw [marks_packet_use (by decide), marks_packet_use (by decide)],
      (Beside.useSession (E := _) (by
        constructor
        · intro e
          exact sourceNote_inj (by injection e with _ _ _ _ e; injection e with e; injection e)
        · intro e
          rw [e])).cast (marks_packet_use (by decide)) Iff.rfl⟩
  | .key ht hv hl hd, h2 => by
    obtain ⟨a, f, q, is, hp, hm⟩ := marks_keyPacket ht hd
    exact ⟨_, _, .key ht hv hl hd, rfl, (Beside.storeKey (four_lt hl)).cast (hm.trans (marks_pubShown hv hp)) (by simp)⟩
  | .keyOther ht hv hd, h2 => by
    obtain ⟨a, f, q, is, hp, hm⟩ := marks_keyPacket ht hd
    exact ⟨_, _, .keyOther ht hv hd, rfl, Beside.skip.cast (hm.trans (mute_pubShown hv hp)) (by simp)⟩
  | .signatureOther hv hd, h2 => ⟨_, _, .signatureOther hv hd, rfl, Beside.skip.cast (mute_signature hv hd) (by simp)⟩
  | .signature (q := q) (is := is) (l := l) (i1 := i1) (i2 := i2) hv hd hu hl hf hl1 hl2, h2 => by
    obtain ⟨l1, k1, f1, m1, s1⟩ := area_twin (by fresh) hd h2
    obtain ⟨l2, k2, f2, m2, s2⟩ := area_twin (by fresh) hu k1
    have key : ∀ (b : Bytes) (v t a h : UInt8) (j1 j2 : List Item),
        marks (packetRow o 2 b (versionRow o 4 (some 5) v :: sigTypeRow o t :: pubRow o a :: hashRow o h :: (j1 ++ j2 ++ left16Row l :: (is ++ unknownRows o q)))) =
          marksAll j1 ++ marksAll j2 := by
      intro b v t a h j1 j2
      have : marksAll (left16Row l :: (is ++ unknownRows o q)) = [] := Mute.cons (marks_left _) ((mute_integers fine_sig hf).append (mute_unknown _))
      rw [marks_packet (by decide)]
      show marks _ ++ (marks _ ++ (marks _ ++ (marks _ ++ _))) = _
      rw [marks_version, marks_sigType, marks_pub, marks_hash, marksAll_append, marksAll_append, this, List.append_nil]
      rfl
    refine ⟨_, _, .signature hv f1 f2 hl hf hl1 hl2, ?_, (s1.comp s2).cast (key ..) ?_⟩
    · rw [key, key, m1, m2]
    · constructor
      · intro e
        injection e with _ _ _ _ e
        injection e with _ e
        injection e with _ e
        injection e with _ e
        injection e with _ e
        have e := List.append_cancel_right e
        exact List.append_inj e (area_length hd f1)
      · rintro ⟨rfl, rfl⟩
        rfl

theorem area_twin {h1 name a l1 h1'} (hn : tracked.contains (String.toList name) = false) : FullArea o X h1 name a l1 h1' → OtherMemory (dateText o X) (fun h l h' => FullArea o X h name a l h') h1 l1 h1'
  | .empty, h2 => ⟨_, _, .empty, rfl, Beside.skip.cast rfl (by simp)⟩
  | .subs h0 hs hd, h2 => by
    obtain ⟨l2, k, f, m, s⟩ := subs_twin hd h2
    refine ⟨_, _, .subs h0 hs f, ?_, Beside.cons (Beside.wrap hn s) Beside.skip'⟩
    rw [marks_all, marks_all, marks_area hn, marks_area hn, m]

theorem subs_twin {h1 subs l1 h1'} : FullSubs o X h1 subs l1 h1' → OtherMemory (dateText o X) (fun h l h' => FullSubs o X h subs l h') h1 l1 h1'
  | .nil, h2 => ⟨_, _, .nil, rfl, Beside.skip.cast rfl (by simp)⟩
  | .plain ht hd hs, h2 => by
    obtain ⟨l2, k, f, m, s⟩ := subs_twin hs h2
    refine ⟨_, _, .plain ht hd f, ?_, s.mute (mute_sub ht hd)⟩
    show _ ++ _ = _ ++ _
    rw [m]
  | .created (t := t) (tm := tm) ht hl hs, h2 => by
    obtain ⟨l2, k, f, m, s⟩ := subs_twin hs { h2 with signature := some (beNat tm) }
    refine ⟨_, _, .created ht hl f, ?_, Beside.cons ((Beside.storeSignature (four_lt hl)).cast (marks_named ((sub_marks t).1 ht)) (by simp)) s⟩
    show _ ++ _ = _ ++ _
    rw [m]
  | .expires (t := t) ht hl hs, h2 => by
    obtain ⟨l2, k, f, m, s⟩ := subs_twin hs { h2 with signature := none }
    refine ⟨_, _, .expires ht hl f, ?_, Beside.cons ((Beside.useSignature period_same fun l b b' e => endDate_inj l b b' (period_inj e)).cast
      (marks_named ((sub_marks t).2.1 ht)) Iff.rfl) s⟩
    show marks (periodRow ..) ++ _ = marks (periodRow ..) ++ _
    unfold periodRow leaf
    rw [m, marks_named ((sub_marks t).2.1 ht), marks_named ((sub_marks t).2.1 ht)]
  | .keyExpires (t := t) ht hl hs, h2 => by
    obtain ⟨l2, k, f, m, s⟩ := subs_twin hs { h2 with key := none }
    refine ⟨_, _, .keyExpires ht hl f, ?_, Beside.cons ((Beside.useKey period_same fun l b b' e => endDate_inj l b b' (period_inj e)).cast
      (marks_named ((sub_marks t).2.2 ht)) Iff.rfl) s⟩
    show marks (periodRow ..) ++ _ = marks (periodRow ..) ++ _
    unfold periodRow leaf
    rw [m, marks_named ((sub_marks t).2.2 ht), marks_named ((sub_marks t).2.2 ht)]
  | .embedded ht hd hs, h2 => by
    obtain ⟨i2, k, f, m, s⟩ := full_twin hd h2
    obtain ⟨l2, k', f', m', s'⟩ := subs_twin hs k
    have hn := sub32_untracked (.inl ht)
    refine ⟨_, _, .embedded ht f f', ?_, Beside.cons (Beside.wrap hn (Beside.cons s Beside.skip')) s'⟩
    show marks (subRow ..) ++ _ = marks (subRow ..) ++ _
    unfold subRow
    rw [marks_untracked hn, marks_untracked hn, m', marks_all, marks_all, m]
  | .keyBlockOther ht hk hs, h2 => by
    obtain ⟨l2, k, f, m, s⟩ := subs_twin hs h2
    have hn := sub32_untracked (.inr ht)
    refine ⟨_, _, .keyBlockOther ht hk f, ?_, s.mute ?_⟩
    · show _ ++ _ = _ ++ _
      rw [m]
    · unfold subRow
      rw [marks_untracked hn]
      exact Mute.cons (marks_num _ _ (by fresh)) (.cons (marks_leaf (by fresh)) rfl)
  | .keyBlock ht ha hb hd hs, h2 => by
    obtain ⟨l2, k, f, m, s⟩ := all_twin hd h2
    obtain ⟨l2', k', f', m', s'⟩ := subs_twin hs k
    have hn := sub32_untracked (.inr ht)
    refine ⟨_, _, .keyBlock ht ha hb f f', ?_, Beside.cons (Beside.wrap hn (Beside.mute (marks_num _ _ (by fresh))
      (Beside.cons (Beside.wrap (by fresh) s) Beside.skip'))) s'⟩
    show marks (subRow ..) ++ _ = marks (subRow ..) ++ _
    unfold subRow
    rw [marks_untracked hn, marks_untracked hn, m']
    show (_ ++ (marks _ ++ _)) ++ _ = (_ ++ (marks _ ++ _)) ++ _
    rw [marks_untracked (by fresh), marks_untracked (by fresh), m]

theorem all_twin {h1 ps l1 h1'} : FullAll o X h1 ps l1 h1' → OtherMemory (dateText o X) (fun h l h' => FullAll o X h ps l h') h1 l1 h1'
  | .nil, h2 => ⟨_, _, .nil, rfl, Beside.skip.cast rfl (by simp)⟩
  | .cons hd hs, h2 => by
    obtain ⟨i2, k, f, m, s⟩ := full_twin hd h2
    obtain ⟨l2, k', f', m', s'⟩ := all_twin hs k
    refine ⟨_, _, .cons f f', ?_, Beside.cons s s'⟩
    show _ ++ _ = _ ++ _
    rw [m, m']
end

theorem top_twin {p i1} (h : FullTop o X h1 p i1 h1') (h2 : History) : ∃ i2 h2', FullTop o X h2 p i2 h2' ∧ marks i1 = marks i2 ∧
    Beside (dateText o X) h1 h2 (marks i1) (i1 = i2) h1' h2' := by
  cases h with
  | plain h8 hd =>
    obtain ⟨i2, k, f, m, s⟩ := full_twin hd h2
    exact ⟨_, _, .plain h8 f, m, s⟩
  | @packed body z ps is _ hz hp hd =>
    obtain ⟨l2, k, f, m, s⟩ := all_twin hd h2
    have key : ∀ js, marks (packetRow o 8 body (packedRows o body false ++ js)) = marksAll js := by
      intro js
      rw [marks_packet (by decide), marksAll_append, mute_packed]
      rfl
    refine ⟨_, _, .packed hz hp f, ?_, s.cast (key _) ?_⟩
    · rw [key, key, m]
    · constructor
      · intro e
        injection e with _ _ _ _ e
        exact List.append_cancel_left e
      · rintro rfl
        rfl
  | huge hz =>
    refine ⟨_, _, .huge hz, rfl, Beside.skip.cast ?_ (by simp)⟩
    rw [marks_packet (by decide), mute_packed]

theorem tops_twin {ps : List (Nat × Bytes)} : ∀ {h1 l1 h1'}, FullTops o X h1 ps l1 h1' →
    OtherMemory (dateText o X) (fun h l h' => FullTops o X h ps l h') h1 l1 h1' := by
  induction ps with
  | nil =>
    intro h1 l1 h1' h h2
    cases h
    exact ⟨_, _, .nil, rfl, Beside.skip.cast rfl (by simp)⟩
  | cons p ps ih =>
    intro h1 l1 h1' h h2
    cases h with
    | cons hd hs =>
      obtain ⟨i2, k, f, m, s⟩ := top_twin hd h2
      obtain ⟨l2, k', f', m', s'⟩ := ih hs k
      refine ⟨_, _, .cons f f', ?_, Beside.cons s s'⟩
      show _ ++ _ = _ ++ _
      rw [m, m']

/-! ## Two contexts -/

theorem hist_bounded (x : Ctx) : Bounded (hist (some x)) := by
  constructor
  · intro n h
    change x.keyTime.map _ = some n at h
    cases hk : x.keyTime with
    | none => rw [hk] at h; cases h
    | some d => rw [hk] at h; cases h; exact d.unix.toNat_lt
  · intro n h
    change x.sigTime.map _ = some n at h
    cases hk : x.sigTime with
    | none => rw [hk] at h; cases h
    | some d => rw [hk] at h; cases h; exact d.unix.toNat_lt

/-- the packets that are displayed do not depend on the context -/
theorem accepted_prefix {P : Nat × Bytes → Prop} : ∀ {qs rs qs' rs' : List (Nat × Bytes)}, qs ++ rs = qs' ++ rs' → (∀ p ∈ qs, P p) → (∀ p ∈ qs', P p) →
    (∀ p ps, rs = p :: ps → ¬ P p) → (∀ p ps, rs' = p :: ps → ¬ P p) → qs = qs' ∧ rs = rs'
  | [], rs, [], rs', e, _, _, _, _ => ⟨rfl, e⟩
  | [], rs, p :: qs', rs', e, _, h', hr, _ => absurd (h' p (List.mem_cons_self ..)) (hr p (qs' ++ rs') e)
  | p :: qs, rs, [], rs', e, h, _, _, hr' => absurd (h p (List.mem_cons_self ..)) (hr' p (qs ++ rs) e.symm)
  | p :: qs, rs, p' :: qs', rs', e, h, h', hr, hr' => by
    injection e with e1 e2
    obtain ⟨a, b⟩ := accepted_prefix e2 (fun p hp => h p (List.mem_cons_of_mem _ hp)) (fun p hp => h' p (List.mem_cons_of_mem _ hp)) hr hr'
    exact ⟨by rw [e1, a], b⟩

/-- two contexts with the same options: the memories before and after, side by side -/
theorem parseSrc_beside (X : Ext) (hX : OwnErrors X) (x y : Ctx) (ho : x.opts = y.opts) (hx : Consistent x) (hy : Consistent y) (s : Source) :
    ∃ h h', marksAll (parseSrc X (some x) s.src).packets = marksAll (parseSrc X (some y) s.src).packets ∧
      Beside (dateText x.opts X) (hist (some x)) (hist (some y)) (marksAll (parseSrc X (some x) s.src).packets)
        ((parseSrc X (some x) s.src).packets = (parseSrc X (some y) s.src).packets) h h' ∧
      ((parseSrc X (some x) s.src).res = .ok () → ∃ x' y', (parseSrc X (some x) s.src).ctx = some x' ∧ (parseSrc X (some y) s.src).ctx = some y' ∧
        x'.opts = x.opts ∧ y'.opts = y.opts ∧ Consistent x' ∧ Consistent y' ∧ hist (some x') = h ∧ hist (some y') = h') := by
  have hgy : Good x.opts y := by rw [ho]; exact hy.good
  obtain ⟨qs, rs, k, e1, f1, n1, r1⟩ := seqPackets_full hX (loopEnd (split s.data) s.src.tail).1 x hx.good
  obtain ⟨qs', rs', k', e2, f2, n2, r2⟩ := seqPackets_full hX (loopEnd (split s.data) s.src.tail).1 y hgy
  obtain ⟨rfl, rfl⟩ := accepted_prefix (P := fun p => AccTop X p.1 p.2) (e1.symm.trans e2) f1.acc f2.acc n1 n2
  obtain ⟨l2, k2, g, m, b⟩ := tops_twin f1 (hist (some y))
  obtain ⟨rfl, rfl⟩ := g.uniq f2
  refine ⟨k, k2, ?_, ?_, ?_⟩
  · rw [parseSrc_packets, parseSrc_packets]
    exact m
  · rw [parseSrc_packets, parseSrc_packets]
    exact b
  · intro hok
    have hok' : (parseSrc X (some y) s.src).res = .ok () := by
      have h1 := (verdict_exact X hX x s .success).mp (by rw [hok]; trivial)
      have h2 := (verdict_exact X hX y s .success).mpr h1
      cases h : (parseSrc X (some y) s.src).res with
      | ok u => rfl
      | err e => rw [h] at h2; exact h2.elim
      | panic c => rw [h] at h2; exact h2.elim
      | stuck => rw [h] at h2; exact h2.elim
    have key : ∀ z : Ctx, (parseSrc X (some z) s.src).res = .ok () →
        (seqPackets (packetsParse X) (loopEnd (split s.data) s.src.tail).1 (some z)).2.1 = .ok () ∧
        (seqPackets (packetsParse X) (loopEnd (split s.data) s.src.tail).1 (some z)).2.2 = (parseSrc X (some z) s.src).ctx := by
      intro z hz
      rw [parseSrc_eq X (some z) _ s.isLazy rfl] at hz ⊢
      have hd : s.src.data = s.data := rfl
      rw [hd] at hz ⊢
      simp only at hz ⊢
      unfold thenErr at hz ⊢
      split at hz
      · cases hz
      · exact ⟨hz, rfl⟩
    obtain ⟨a1, a2⟩ := key x hok
    obtain ⟨b1, b2⟩ := key y hok'
    obtain ⟨-, x', hx1, hx2, hx3⟩ := r1 a1
    obtain ⟨-, y', hy1, hy2, hy3⟩ := r2 b1
    exact ⟨x', y', a2.symm.trans hx1, b2.symm.trans hy1, hx2.1, hy2.1.trans ho, hx2.consistent, hy2.consistent, hx3.symm, hy3.symm⟩

theorem parse_beside (X : Ext) (hX : OwnErrors X) (hA : ∀ t b, X.armor t = .ok b → b.eager = false) (x y : Ctx) (ho : x.opts = y.opts)
    (hx : Consistent x) (hy : Consistent y) (s : Source) :
    ∃ h h', marksAll (parse X (some x) (some s.src)).packets = marksAll (parse X (some y) (some s.src)).packets ∧
      Beside (dateText x.opts X) (hist (some x)) (hist (some y)) (marksAll (parse X (some x) (some s.src)).packets)
        ((parse X (some x) (some s.src)).packets = (parse X (some y) (some s.src)).packets) h h' ∧
      ((parse X (some x) (some s.src)).res = .ok () → ∃ x' y', (parse X (some x) (some s.src)).ctx = some x' ∧
        (parse X (some y) (some s.src)).ctx = some y' ∧ x'.opts = x.opts ∧ y'.opts = y.opts ∧ Consistent x' ∧ Consistent y' ∧
        hist (some x') = h ∧ hist (some y') = h') := by
  rcases refusal_of X hA (x.opts ARMOR) s with ⟨s', hr⟩ | ⟨hf, c, hr⟩
  · rw [parse_reads (x := x) rfl hr, parse_reads (x := y) (congrFun ho _).symm hr]
    exact parseSrc_beside X hX x y ho hx hy s'
  · obtain ⟨e, he, -⟩ := parse_refused (x := x) hf hr
    obtain ⟨e', he', -⟩ := parse_refused (x := y) ((congrFun ho _).symm.trans hf) hr
    rw [he, he']
    exact ⟨_, _, rfl, Beside.skip', fun h => by cases h⟩

/-- dates are printed so that they can be told apart -/
theorem goZone_legible {zone : Zone} (hX : GoZone X zone) (o : OptCode → Bool) : Legible (dateText o X) := by
  have key : ∀ n, dateText o X n = rfc3339 X (UInt32.ofNat n) (o UTC) := by
    intro n
    unfold dateText
    cases ho : o UTC with
    | true => exact (if_pos rfl).trans (rfc3339_true X _).symm
    | false => exact if_neg (by decide)
  constructor
  · intro n hn e
    rw [key] at e
    obtain ⟨z, -, -, hz⟩ := rfc3339_zone hX (UInt32.ofNat n) (o UTC)
    rw [hz] at e
    exact (C79_characters z _).1 e
  · intro n m hn hm e
    rw [key, key] at e
    obtain ⟨z, z1, z2, z3⟩ := rfc3339_zone hX (UInt32.ofNat n) (o UTC)
    obtain ⟨w, w1, w2, w3⟩ := rfc3339_zone hX (UInt32.ofNat m) (o UTC)
    rw [z3, w3] at e
    have := congrArg UInt32.toNat (C79_injective z w _ _ z1 w1 z2 w2 e)
    rwa [UInt32.toNat_ofNat_of_lt' hn, UInt32.toNat_ofNat_of_lt' hm] at this

variable (X : Ext) (hX : OwnErrors X) (hA : ∀ t b, X.armor t = .ok b → b.eager = false)
include hX hA

/-- C80: what a context remembers does not change whether, and with which error, an input is accepted, and not which items are shown in
which order. -/
theorem C80_outcome (x y : Ctx) (ho : x.opts = y.opts) (hx : Consistent x) (hy : Consistent y) (s : Source) :
    (∀ v, ends (parse X (some x) (some s.src)).res v ↔ ends (parse X (some y) (some s.src)).res v) ∧
      marksAll (parse X (some x) (some s.src)).packets = marksAll (parse X (some y) (some s.src)).packets := by
  constructor
  · intro v
    rcases refusal_of X hA (x.opts ARMOR) s with ⟨s', hr⟩ | ⟨hf, c, hr⟩
    · rw [parse_reads (x := x) rfl hr, parse_reads (x := y) (congrFun ho _).symm hr, verdict_exact X hX, verdict_exact X hX]
    · obtain ⟨e, he, h⟩ := parse_refused (x := x) hf hr
      obtain ⟨e', he', h'⟩ := parse_refused (x := y) ((congrFun ho _).symm.trans hf) hr
      rw [he, he']
      cases v with
      | error c => show e.cause = c ↔ e'.cause = c; rw [h, h']
      | success => exact Iff.rfl
      | crash => exact Iff.rfl
  · obtain ⟨_, _, h, -⟩ := parse_beside X hX hA x y ho hx hy s
    exact h

/-- C80: an earlier use of the context changes nothing, if the cells agree whose first item in the result is a use. -/
theorem C80_reuse (x y : Ctx) (ho : x.opts = y.opts) (hx : Consistent x) (hy : Consistent y) (s : Source)
    (h : ∀ c, Exposed c (marksAll (parse X (some x) (some s.src)).packets) → Same (hist (some x)) (hist (some y)) c) :
    (parse X (some x) (some s.src)).packets = (parse X (some y) (some s.src)).packets := by
  obtain ⟨_, _, -, b, -⟩ := parse_beside X hX hA x y ho hx hy s
  exact b.same h

/-- C80: and only then, if dates are printed as Go does. -/
theorem C80_exact {zone : Zone} (hZ : GoZone X zone) (x y : Ctx) (ho : x.opts = y.opts) (hx : Consistent x) (hy : Consistent y) (s : Source) :
    (parse X (some x) (some s.src)).packets = (parse X (some y) (some s.src)).packets ↔
      ∀ c, Exposed c (marksAll (parse X (some x) (some s.src)).packets) → Same (hist (some x)) (hist (some y)) c := by
  obtain ⟨_, _, -, b, -⟩ := parse_beside X hX hA x y ho hx hy s
  exact ⟨fun e => b.needed (goZone_legible hZ _) (hist_bounded x) (hist_bounded y) e, b.same⟩

/-- C80: after an input without an error, the cells that have an item in the result depend on the input only; the others are as before. -/
theorem C80_after (x y : Ctx) (ho : x.opts = y.opts) (hx : Consistent x) (hy : Consistent y) (s : Source) (hok : (parse X (some x) (some s.src)).res = .ok ()) :
    ∃ x' y', (parse X (some x) (some s.src)).ctx = some x' ∧ (parse X (some y) (some s.src)).ctx = some y' ∧ x'.opts = x.opts ∧ y'.opts = y.opts ∧
      Consistent x' ∧ Consistent y' ∧ ∀ c, if first c (marksAll (parse X (some x) (some s.src)).packets) = none
        then EqualAt (hist (some x')) (hist (some x)) c ∧ EqualAt (hist (some y')) (hist (some y)) c else EqualAt (hist (some x')) (hist (some y')) c := by
  obtain ⟨_, _, -, b, h⟩ := parse_beside X hX hA x y ho hx hy s
  obtain ⟨x', y', h1, h2, h3, h4, h5, h6, rfl, rfl⟩ := h hok
  refine ⟨x', y', h1, h2, h3, h4, h5, h6, fun c => ?_⟩
  split
  · next hc => exact b.kept c hc
  · next hc => exact b.after c hc

/-- C80, the exact form of C53: the same input twice with the same context gives the same packets exactly if the first time leaves what was
remembered, in every cell whose first item is a use. -/
theorem C80_twice {zone : Zone} (hZ : GoZone X zone) (x : Ctx) (hx : Consistent x) (s : Source) (hok : (parse X (some x) (some s.src)).res = .ok ()) :
    ∃ x', (parse X (some x) (some s.src)).ctx = some x' ∧ (parse X (some x') (some s.src)).res = .ok () ∧
      ((parse X (some x') (some s.src)).packets = (parse X (some x) (some s.src)).packets ↔
        ∀ c, Exposed c (marksAll (parse X (some x) (some s.src)).packets) → Same (hist (some x)) (hist (some x')) c) := by
  obtain ⟨x', y', h1, h2, h3, -, h5, -, -⟩ := C80_after X hX hA x x rfl hx hx s hok
  refine ⟨x', h1, ?_, ?_⟩
  · have := ((C80_outcome X hX hA x x' h3.symm hx h5 s).1 .success).mp (by rw [hok]; trivial)
    cases h : (parse X (some x') (some s.src)).res with
    | ok u => rfl
    | err e => rw [h] at this; exact this.elim
    | panic c => rw [h] at this; exact this.elim
    | stuck => rw [h] at this; exact this.elim
  · rw [eq_comm]
    exact C80_exact X hX hA hZ x x' h3.symm hx h5 s

/-- C80: from the second time on the same input gives the same packets, whatever the context had been used for. -/
theorem C80_stable (x : Ctx) (hx : Consistent x) (s : Source) (hok : (parse X (some x) (some s.src)).res = .ok ()) :
    ∃ x' x'', (parse X (some x) (some s.src)).ctx = some x' ∧ (parse X (some x') (some s.src)).ctx = some x'' ∧
      (parse X (some x'') (some s.src)).packets = (parse X (some x') (some s.src)).packets := by
  obtain ⟨x', -, h1, -, h3, -, h5, -, -⟩ := C80_after X hX hA x x rfl hx hx s hok
  obtain ⟨x1, x'', g1, g2, -, g4, -, g6, g7⟩ := C80_after X hX hA x x' h3.symm hx h5 s hok
  cases h1.symm.trans g1
  refine ⟨x', x'', h1, g2, ((C80_reuse X hX hA x' x'' g4.symm h5 g6 s ?_)).symm⟩
  intro c hc
  rw [← (C80_outcome X hX hA x x' h3.symm hx h5 s).2] at hc
  have := g7 c
  rw [if_neg (by rw [hc]; exact Option.some_ne_none _)] at this
  exact this.same

/-! ## Examples -/

omit hX hA

theorem tests_own : OwnErrors Tests.X := by
  intro zd
  refine ⟨?_, ?_, ?_, ?_⟩ <;> simp [Tests.X, rawErr]
theorem tests_armor : ∀ t b, Tests.X.armor t = .ok b → b.eager = false := by
  intro t b h
  cases h
  rfl
theorem tests_zone : GoZone Tests.X fun _ => 0 :=
  ⟨funext fun t => (C79_utc _ t rfl).symm, fun _ => ⟨by show (-360000 : Int) < 0; decide, by show (0 : Int) < 360000; decide⟩, fun _ => Int.dvd_zero 60⟩

/-- a password packet, encrypted data, a key and a signature that says when the key expires: nothing shows what was remembered before -/
def ownMemory : Source := ⟨[0xc3, 4, 4, 9, 0, 8] ++ [0xc9, 1, 5] ++ keyAt [0x5e, 0, 0, 0] ++ sigWith [5, 2, 0x5e, 0, 0, 1] [5, 9, 0, 2, 0xa3, 0], rawErr .eof, []⟩
/-- encrypted data, then a password packet -/
def oldMemory : Source := ⟨[0xc9, 1, 5] ++ [0xc3, 4, 4, 9, 0, 8], rawErr .eof, []⟩

theorem ownMemory_marks : (parse Tests.X (some (Ctx.new [])) (some ownMemory.src)).res = .ok () ∧
    marksAll (parse Tests.X (some (Ctx.new [])) (some ownMemory.src)).packets =
      [⟨.session, false⟩, ⟨.session, true⟩, ⟨.key, false⟩, ⟨.signature, false⟩, ⟨.key, true⟩] := by decide +kernel
theorem oldMemory_marks : (parse Tests.X (some (Ctx.new [])) (some oldMemory.src)).res = .ok () ∧
    marksAll (parse Tests.X (some (Ctx.new [])) (some oldMemory.src)).packets = [⟨.session, true⟩, ⟨.session, false⟩] := by decide +kernel

/-- nothing exposed: every context with the same options gives the same packets -/
example (y : Ctx) (ho : (Ctx.new []).opts = y.opts) (hy : Consistent y) :
    (parse Tests.X (some (Ctx.new [])) (some ownMemory.src)).packets = (parse Tests.X (some y) (some ownMemory.src)).packets := by
  refine C80_reuse Tests.X tests_own tests_armor _ y ho (fresh_consistent []) hy ownMemory fun c hc => ?_
  rw [ownMemory_marks.2] at hc
  unfold Exposed at hc
  cases c <;> exact absurd hc (by decide)

/-- the session key exposed: the packets are the same exactly for contexts that remember no session key -/
example (y : Ctx) (ho : (Ctx.new []).opts = y.opts) (hy : Consistent y) :
    (parse Tests.X (some (Ctx.new [])) (some oldMemory.src)).packets = (parse Tests.X (some y) (some oldMemory.src)).packets ↔ y.mode = .notSpecified := by
  rw [C80_exact Tests.X tests_own tests_armor tests_zone _ y ho (fresh_consistent []) hy oldMemory, oldMemory_marks.2]
  constructor
  · intro h
    exact (h .session (by unfold Exposed; decide)).symm
  · intro h c hc
    cases c with
    | session => exact h.symm
    | key => exact absurd (show first .key _ = _ from hc) (by decide)
    | signature => exact absurd (show first .signature _ = _ from hc) (by decide)

/-- so the second time is not like the first; the third is like the second -/
example : ∃ x' x'', (parse Tests.X (some (Ctx.new [])) (some oldMemory.src)).ctx = some x' ∧ (parse Tests.X (some x') (some oldMemory.src)).ctx = some x'' ∧
    (parse Tests.X (some x') (some oldMemory.src)).packets ≠ (parse Tests.X (some (Ctx.new [])) (some oldMemory.src)).packets ∧
    (parse Tests.X (some x'') (some oldMemory.src)).packets = (parse Tests.X (some x') (some oldMemory.src)).packets := by
  obtain ⟨x', h1, -, h2⟩ := C80_twice Tests.X tests_own tests_armor tests_zone (Ctx.new []) (fresh_consistent []) oldMemory oldMemory_marks.1
  obtain ⟨x1, x'', g1, g2, g3⟩ := C80_stable Tests.X tests_own tests_armor (Ctx.new []) (fresh_consistent []) oldMemory oldMemory_marks.1
  cases h1.symm.trans g1
  refine ⟨x', x'', h1, g2, fun e => ?_, g3⟩
  have := h2.mp e .session (by rw [oldMemory_marks.2]; unfold Exposed; decide)
  have hm : (parse Tests.X (some (Ctx.new [])) (some oldMemory.src)).ctx.map (·.mode) = some .symEnc := by decide +kernel
  rw [h1] at hm
  cases hm' : x'.mode <;> rw [Option.map_some, hm'] at hm <;> first | cases hm; done | skip
  change Mode.notSpecified = x'.mode at this
  rw [hm'] at this
  cases this

end Gpgpdump
