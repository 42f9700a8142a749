import Verif.ThmFull

/-!
# C73: which control characters are displayed

`C28_clean_partial` leaves the value of "Literal data format" items open. Here: the control characters in a result are exactly the
format octets of the literal packets it displays that are control characters.
-/

namespace Gpgpdump
open Spec P Src

namespace Spec

mutual
/-- all characters of an item: name, value, dump, note, and those of the items below -/
def charsOf : Item → List Char
  | .mk n v d t is => n ++ v ++ d ++ t ++ charsOfAll is
def charsOfAll : List Item → List Char
  | [] => []
  | i :: is => charsOf i ++ charsOfAll is
end

/-- `q` is displayed with the packet `p` of the input: it is `p`, or a packet inside it at any depth, or one of those `p` unpacks to -/
inductive ShownIn (X : Ext) : Nat × Bytes → Nat × Bytes → Prop
  | plain {p q} (h : Within p q) : ShownIn X p q
  | packed {body z ps p q} (hz : Opens X body (some z)) (hp : PacketSeq ps z) (hm : p ∈ ps) (h : Within p q) : ShownIn X (8, body) q

end Spec

/-! ## The values of the format items -/

def ldf : Str := "Literal data format".toList

mutual
/-- the values of the items named "Literal data format" -/
def raws : Item → List Str
  | .mk n v _ _ is => (if n = ldf then [v] else []) ++ rawsAll is
def rawsAll : List Item → List Str
  | [] => []
  | i :: is => raws i ++ rawsAll is
end

theorem rawsAll_append (a b : List Item) : rawsAll (a ++ b) = rawsAll a ++ rawsAll b := by
  induction a with
  | nil => rfl
  | cons i a ih => simp only [List.cons_append, rawsAll, ih, List.append_assoc]

theorem mem_rawsAll {v : Str} {is : List Item} : v ∈ rawsAll is ↔ ∃ i ∈ is, v ∈ raws i := by
  induction is with
  | nil => simp [rawsAll]
  | cons i is ih => simp [rawsAll, ih]

theorem mem_charsOfAll {c : Char} {is : List Item} : c ∈ charsOfAll is ↔ ∃ i ∈ is, c ∈ charsOf i := by
  induction is with
  | nil => simp [charsOfAll]
  | cons i is ih => simp [charsOfAll, ih]

theorem raws_sub {c : Char} {v : Str} : ∀ (i : Item), v ∈ raws i → c ∈ v → c ∈ charsOf i := by
  intro i
  induction i using Item.rec (motive_2 := fun is => v ∈ rawsAll is → c ∈ v → c ∈ charsOfAll is) with
  | mk n w d t is ih =>
    intro h hc
    simp only [raws, List.mem_append] at h
    simp only [charsOf, List.mem_append]
    rcases h with h | h
    · split at h
      · simp only [List.mem_singleton] at h; subst h; exact .inl (.inl (.inl (.inr hc)))
      · cases h
    · exact .inr (ih h hc)
  | nil h hc => cases h
  | cons i is ih ih' h hc =>
    simp only [rawsAll, List.mem_append] at h
    simp only [charsOfAll, List.mem_append]
    exact h.imp (ih · hc) (ih' · hc)

/-- in a clean tree a control character is in the value of a format item -/
theorem CleanItem.control {i : Item} (h : CleanItem i) {c : Char} (hc : isControl c = true) (hm : c ∈ charsOf i) : [c] ∈ raws i := by
  induction h with
  | @mk n v d t is hn hv hd ht _ ih =>
    simp only [charsOf, List.mem_append] at hm
    simp only [raws, List.mem_append]
    have no : ∀ {s : Str}, Clean s → c ∉ s := fun hs hc' => by rw [hs.mem hc'] at hc; cases hc
    rcases hm with (((hm | hm) | hm) | hm) | hm
    · exact (no hn hm).elim
    · rcases hv with hv | ⟨rfl, hl⟩
      · exact (no hv hm).elim
      · obtain ⟨w, rfl⟩ := List.length_eq_one_iff.mp hl
        simp only [List.mem_singleton] at hm
        subst hm
        exact .inl (by rw [if_pos (show S "Literal data format" = ldf from rfl)]; exact List.mem_singleton.mpr rfl)
    · exact (no hd hm).elim
    · exact (no ht hm).elim
    · obtain ⟨j, hj, hm⟩ := mem_charsOfAll.mp hm
      exact .inr (mem_rawsAll.mpr ⟨j, hj, ih j hj hm⟩)

/-! ## Rows without format items -/

theorem ne_ldf_append {a : Str} : a ++ ")".toList ≠ ldf := by
  intro h
  have := congrArg List.getLast? h
  rw [List.getLast?_append, show ")".toList.getLast? = some ')' from rfl, show ldf.getLast? = some 't' by decide] at this
  cases this

theorem raws_leaf {n v t d : Str} (h : n ≠ ldf) : raws (leaf n v t d) = [] := by
  unfold leaf raws
  rw [if_neg h]; rfl

theorem raws_mk {n v t d : Str} {is} (h : n ≠ ldf) : raws (.mk n v d t is) = rawsAll is := by
  rw [raws, if_neg h]; rfl

/-- a name in the source -/
macro "lit" : term => `((by decide : _ ≠ ldf))

section
variable {o : OptCode → Bool} {X : Ext}

theorem raws_hash (b) : raws (hashRow o b) = [] := raws_leaf lit
theorem raws_pub (b) : raws (pubRow o b) = [] := raws_leaf lit
theorem raws_sym (b) : raws (symRow o b) = [] := raws_leaf lit
theorem raws_aead (b) : raws (aeadRow o b) = [] := raws_leaf lit
theorem raws_comp (b) : raws (compRow o b) = [] := raws_leaf lit
theorem raws_sigType (b) : raws (sigTypeRow o b) = [] := raws_leaf lit
theorem raws_version (c d v) : raws (versionRow o c d v) = [] := raws_leaf lit
theorem raws_keyID (k) : raws (keyIDRow k) = [] := raws_leaf lit
theorem raws_left16 (k) : raws (left16Row k) = [] := raws_leaf lit

theorem raws_text {n : Str} (h : n ≠ ldf) (f b) : raws (textRow n f b) = [] := by
  unfold textRow
  split
  · exact raws_leaf h
  · split <;> exact raws_leaf h

theorem raws_unknown (q) : rawsAll (unknownRows o q) = [] := by
  unfold unknownRows
  split
  · rfl
  · simp (disch := decide) only [rawsAll, raws_leaf, List.append_nil]

theorem raws_kdf (k) : raws (kdfRow o k) = [] := by
  unfold kdfRow
  split
  · rw [raws_mk (by decide)]; simp (disch := decide) only [rawsAll, raws_hash, raws_sym, List.append_nil]
  · exact raws_leaf lit

/-- no integer is labelled like the format item -/
def PlainSlots (ss : List Slot) : Prop := ∀ l, Slot.int l ∈ ss → l.toList ≠ ldf

theorem raws_slots {ss f q is} (h : SlotRows o ss f q is) : PlainSlots ss → rawsAll is = [] := by
  induction h with
  | nil => intro _; rfl
  | int hb hl h ih =>
    intro hp
    simp only [rawsAll, raws_leaf (hp _ List.mem_cons_self), ih fun l hl => hp l (List.mem_cons_of_mem _ hl), List.append_nil]
  | point hb hl h ih =>
    intro hp
    simp only [rawsAll, raws_leaf ne_ldf_append, ih fun l hl => hp l (List.mem_cons_of_mem _ hl), List.append_nil]
  | curve hl h ih =>
    intro hp
    simp (disch := decide) only [rawsAll, raws_leaf, ih fun l hl => hp l (List.mem_cons_of_mem _ hl), List.append_nil]
  | kdf hl h ih =>
    intro hp
    simp only [rawsAll, raws_kdf, ih fun l hl => hp l (List.mem_cons_of_mem _ hl), List.append_nil]
  | wrapped hl h ih =>
    intro hp
    simp (disch := decide) only [rawsAll, raws_leaf, ih fun l hl => hp l (List.mem_cons_of_mem _ hl), List.append_nil]
  | kdfMissing => intro _; simp only [rawsAll, raws_kdf, List.append_nil]
  | wrappedMissing => intro _; simp (disch := decide) only [rawsAll, raws_leaf, List.append_nil]

theorem raws_cut {ss q is} (h : SlotsCut o ss q is) : PlainSlots ss → rawsAll is = [] := by
  induction h with
  | here => intro _; rfl
  | next hb hl h ih =>
    intro hp
    simp only [rawsAll, raws_leaf (hp _ List.mem_cons_self), ih fun l hl => hp l (List.mem_cons_of_mem _ hl), List.append_nil]

theorem plain_all {ss : List Slot} (h : ss.all (fun s => match s with | .int l => decide (l.toList ≠ ldf) | _ => true) = true) : PlainSlots ss :=
  fun _ hl => of_decide_eq_true (List.all_eq_true.mp h _ hl)

/-- a table of slots without such a label -/
macro "slots" : tactic =>
  `(tactic| (intro a ss h
             repeat' split at h
             all_goals first
               | (cases h; done)
               | (cases h; exact plain_all (by decide))))

theorem pub_plain : ∀ a ss, pubSlots a = some ss → PlainSlots ss := by unfold pubSlots; slots
theorem sig_plain : ∀ a ss, sigSlots a = some ss → PlainSlots ss := by unfold sigSlots; slots
theorem ses_plain : ∀ a ss, sesSlots a = some ss → PlainSlots ss := by unfold sesSlots; slots
theorem sec_plain : ∀ a ss, secSlots a = some ss → PlainSlots ss := by unfold secSlots; slots

theorem opaque_ne (a) : opaqueName a ≠ ldf := by
  unfold opaqueName
  repeat' split
  all_goals first | decide | exact ne_ldf_append

theorem encrypted_ne (a) : encryptedName a ≠ ldf := by
  unfold encryptedName
  repeat' split
  all_goals first | decide | exact ne_ldf_append

theorem raws_integers {slots : UInt8 → Option (List Slot)} (hs : ∀ a ss, slots a = some ss → PlainSlots ss) {a f q is} (h : Integers o slots a f q is) :
    rawsAll is = [] := by
  cases h with
  | known ha h => exact raws_slots h (hs _ _ ha)
  | unknown => simp only [rawsAll, raws_leaf (opaque_ne _), List.append_nil]

theorem raws_secretInts {a f q is} (h : SecretInts o a f q is) : rawsAll is = [] := by
  cases h with
  | known ha h => exact raws_slots h (sec_plain _ _ ha)
  | unknown => simp only [rawsAll, raws_leaf ne_ldf_append, List.append_nil]

theorem raws_s2k {iv f q i} (h : S2KShown o iv f q i) : raws i = [] := by
  cases h <;> unfold s2kRow <;> rw [raws_mk (by decide)] <;>
    simp (disch := decide) only [rawsAll, raws_hash, List.append_nil, saltRow, countRow, gnuRow, raws_leaf, raws_mk]

theorem raws_pubShown {v a f q is} (h : PubShown o X v a f q is) : rawsAll is = [] := by
  cases h with
  | v3 ht hd h => simp (disch := decide) only [rawsAll, raws_leaf, raws_pub, raws_integers pub_plain h, List.append_nil]
  | v4 ht h => simp (disch := decide) only [rawsAll, raws_leaf, raws_pub, raws_integers pub_plain h, List.append_nil]
  | v5 ht hl h => simp (disch := decide) only [rawsAll, raws_leaf, raws_pub, raws_integers pub_plain h, List.append_nil]
  | other => rfl

theorem raws_options {u c iv f q is} (h : OptionsShown o u c iv f q is) : rawsAll is = [] := by
  cases h with
  | plain => rfl
  | s2k hu h => simp only [rawsAll, raws_sym, raws_s2k h, List.append_nil]
  | aead h => simp only [rawsAll, raws_sym, raws_aead, raws_s2k h, List.append_nil]
  | cipher => simp only [rawsAll, raws_sym, List.append_nil]

theorem raws_iv {u c iv n is} (h : IVShown u c iv n is) : rawsAll is = [] := by
  cases h with
  | none => rfl
  | iv => simp (disch := decide) only [rawsAll, raws_leaf, List.append_nil]
  | nonce => simp (disch := decide) only [rawsAll, raws_leaf, List.append_nil]

theorem raws_secret {a f q i} (h : SecretShown o a f q i) : raws i = [] := by
  cases h with
  | plain h hc => rw [raws_mk (by decide)]; simp (disch := decide) only [rawsAll_append, rawsAll, raws_secretInts h, checksumRow, raws_leaf, List.append_nil]
  | encrypted hu h hn =>
    rw [raws_mk (by decide)]; simp (disch := decide) only [rawsAll_append, rawsAll, raws_options h, raws_iv hn, raws_leaf (encrypted_ne _), List.append_nil]

theorem raws_options5 {u f is} (h : Options5Shown o u f is) : rawsAll is = [] := by
  cases h with
  | none => rfl
  | plain => exact raws_unknown _
  | some hu hl h hn => simp only [rawsAll_append, raws_options h, raws_iv hn, raws_unknown, List.append_nil]

theorem raws_material {u a f q note is} (h : Material5Shown o u a f q note is) : rawsAll is = [] := by
  cases h with
  | none => rfl
  | encrypted => simp only [rawsAll, raws_leaf (encrypted_ne _), List.append_nil]
  | plain h0 hl h hc => simp (disch := decide) only [rawsAll_append, rawsAll, raws_secretInts h, checksumRow, raws_leaf, raws_unknown, List.append_nil]

theorem raws_secret5 {a f q i} (h : Secret5Shown o a f q i) : raws i = [] := by
  cases h with
  | mk ho hm => rw [raws_mk (by decide)]; simp (disch := decide) only [rawsAll_append, raws_options5 ho, raws_material hm, List.append_nil]

theorem raws_secretEither {v a f q i} (h : if v = (5 : UInt8) then Secret5Shown o a f q i else SecretShown o a f q i) : raws i = [] := by
  split at h
  · exact raws_secret5 h
  · exact raws_secret h

theorem subName_ne (t) : subName t ≠ ldf := ne_ldf_append

theorem raws_subRow (t b is v) : raws (subRow o t b is v) = rawsAll is := raws_mk (subName_ne t)

theorem raws_map {f : UInt8 → Item} (h : ∀ b, raws (f b) = []) (l : Bytes) : rawsAll (l.map f) = [] := by
  induction l with
  | nil => rfl
  | cons b l ih => simp only [List.map_cons, rawsAll, h, ih, List.append_nil]

theorem raws_flags (names n b) : rawsAll (flagRows names n b) = [] := by
  unfold flagRows
  rw [rawsAll_append]
  have h1 : ∀ l : List (UInt8 × String), rawsAll (l.filterMap fun p => if b &&& p.1 ≠ 0 then some (leaf "Flag".toList p.2.toList) else none) = [] := by
    intro l
    induction l with
    | nil => rfl
    | cons p l ih =>
      rw [List.filterMap_cons]
      split
      · exact ih
      · rename_i i hi
        split at hi
        · cases hi; simp (disch := decide) only [rawsAll, raws_leaf, ih, List.append_nil]
        · cases hi
  rw [h1]
  dsimp only
  split
  · simp (disch := decide) only [rawsAll, raws_leaf, List.append_nil]
  · rfl

theorem raws_restFlags (r : Bytes) : ∀ n, rawsAll (restFlagRows n r) = [] := by
  induction r with
  | nil => intro n; rfl
  | cons b r ih => intro n; simp only [restFlagRows, rawsAll_append, raws_flags, ih, List.append_nil]

theorem raws_num {name : String} (h : name.toList ≠ ldf) (b n) : raws (numRow name b n) = [] := raws_leaf h

theorem raws_sub02 {t b i} (h : SubShown o X t b i) : raws i = [] := by
  cases h with
  | created | expires | exportable => exact raws_leaf (subName_ne t)
  | issuer => exact raws_leaf (subName_ne t)
  | text => exact raws_text (subName_ne t) _ _
  | trust => rw [raws_subRow]; simp (disch := decide) only [rawsAll, raws_num, List.append_nil]
  | revocable | primary | other => rw [raws_subRow]; rfl
  | ciphers => rw [raws_subRow, raws_map raws_sym]
  | hashes => rw [raws_subRow, raws_map raws_hash]
  | compressions => rw [raws_subRow, raws_map raws_comp]
  | aeads => rw [raws_subRow, raws_map raws_aead]
  | revoker => rw [raws_subRow]; simp (disch := decide) only [rawsAll, raws_leaf, raws_pub, List.append_nil]
  | «notation» =>
    rw [raws_subRow, rawsAll_append]
    have h1 : ∀ fl, rawsAll (notationRows fl) = [] := by
      intro fl
      unfold notationRows
      split
      · simp only [rawsAll_append, raws_flags, List.append_nil]
      · rfl
    rw [h1]
    simp (disch := decide) only [rawsAll, raws_text, List.append_nil, List.nil_append]
    split
    · exact raws_text lit _ _
    · exact raws_leaf lit
  | server => rw [raws_subRow]; simp only [serverRows, rawsAll_append, raws_flags, raws_restFlags, List.append_nil]
  | keyFlags1 => rw [raws_subRow]; simp only [keyFlagRows, rawsAll_append, raws_flags, List.append_nil]
  | keyFlags => rw [raws_subRow]; simp only [keyFlagRows, keyFlagRows2, rawsAll_append, raws_flags, raws_restFlags, List.append_nil]
  | reason =>
    rw [raws_subRow]
    split
    · rfl
    · simp (disch := decide) only [rawsAll, raws_text, List.append_nil]
  | features => rw [raws_subRow]; simp only [featureRows, rawsAll_append, raws_flags, raws_restFlags, List.append_nil]
  | target => rw [raws_subRow]; simp (disch := decide) only [rawsAll, raws_leaf, raws_pub, raws_hash, List.append_nil]
  | fingerprint => rw [raws_subRow]; simp (disch := decide) only [rawsAll, raws_num, raws_leaf, List.append_nil]
  | attested => rw [raws_subRow]; simp (disch := decide) only [rawsAll, raws_leaf, List.append_nil]

theorem raws_attr {t b i} (h : AttrShown o t b i) : raws i = [] := by
  cases h with
  | image => rw [raws_subRow]; simp (disch := decide) only [rawsAll, raws_num, raws_leaf, List.append_nil]
  | experimental => rw [raws_subRow]; simp (disch := decide) only [rawsAll, raws_num, raws_leaf, List.append_nil]
  | other => rw [raws_subRow]; rfl

theorem raws_packetRow (tag body is) : raws (packetRow o tag body is) = rawsAll is := raws_mk ne_ldf_append

theorem raws_hashed3 {b i} (h : Hashed3Shown o X b i) : raws i = [] := by
  cases h with
  | five => rw [raws_mk (by decide)]; simp (disch := decide) only [rawsAll, raws_sigType, raws_leaf, List.append_nil]
  | other => exact raws_leaf lit

theorem raws_hashed3Cut {b i} (h : Hashed3Cut o b i) : raws i = [] := by
  cases h with
  | kind => rw [raws_mk (by decide)]; rfl
  | time => rw [raws_mk (by decide)]; simp (disch := decide) only [rawsAll, raws_sigType, List.append_nil]
  | other => rw [raws_mk (by decide)]; rfl

theorem raws_sig3 {b is} (h : Sig3Shown o X b is) : rawsAll is = [] := by
  cases h with
  | mk hh hk hl hf =>
    simp only [rawsAll, rawsAll_append, raws_hashed3 hh, raws_keyID, raws_pub, raws_hash, raws_left16, raws_integers sig_plain hf, raws_unknown, List.append_nil]

theorem raws_sig3Cut {b is} (h : Sig3Cut o X b is) : rawsAll is = [] := by
  cases h with
  | size => rfl
  | hashed h => simp only [rawsAll, raws_hashed3Cut h, List.append_nil]
  | keyID hh => simp only [rawsAll, raws_hashed3 hh, List.append_nil]
  | algorithm hh => simp only [rawsAll, raws_hashed3 hh, raws_keyID, List.append_nil]
  | hash hh => simp only [rawsAll, raws_hashed3 hh, raws_keyID, raws_pub, List.append_nil]
  | left hh => simp only [rawsAll, raws_hashed3 hh, raws_keyID, raws_pub, raws_hash, List.append_nil]
  | integers hh hk hl ha hc =>
    simp only [rawsAll, raws_hashed3 hh, raws_keyID, raws_pub, raws_hash, raws_left16, raws_cut hc (sig_plain _ _ ha), List.append_nil]

theorem raws_packed (body b) : rawsAll (packedRows o body b) = [] := by
  unfold packedRows
  split
  · rfl
  · split <;> simp (disch := decide) only [rawsAll, raws_comp, raws_leaf, List.append_nil]

/-- packets without packets inside -/
theorem raws_display {tag body i} (h : Display o X tag body i) (h2 : tag = 2 → ∀ v r, body = v :: r → v ∉ [4, 5]) (h11 : tag ≠ 11) : raws i = [] := by
  cases h with
  | signature hv => exact absurd hv (h2 rfl _ _ rfl)
  | literal => exact absurd rfl h11
  | sessionKey hk h =>
    rw [raws_packetRow]; simp only [rawsAll, rawsAll_append, raws_version, raws_keyID, raws_pub, raws_integers ses_plain h, raws_unknown, List.append_nil]
  | signature3 h => rw [raws_packetRow]; simp only [rawsAll, raws_version, raws_sig3 h, List.append_nil]
  | signature3Cut h => rw [raws_packetRow]; simp only [rawsAll, raws_version, raws_sig3Cut h, List.append_nil]
  | signatureOther => rw [raws_packetRow]; simp only [rawsAll, raws_version, raws_unknown, List.append_nil]
  | password h => rw [raws_packetRow]; simp only [rawsAll, raws_version, raws_sym, raws_s2k h, raws_unknown, List.append_nil]
  | passwordOther => rw [raws_packetRow]; simp only [rawsAll, raws_version, raws_unknown, List.append_nil]
  | onePass =>
    rw [raws_packetRow]
    simp (disch := decide) only [rawsAll, raws_version, raws_sigType, raws_hash, raws_pub, raws_keyID, raws_leaf, raws_unknown, List.append_nil]
  | publicKey ht h => rw [raws_packetRow]; simp only [rawsAll, rawsAll_append, raws_version, raws_pubShown h, raws_unknown, List.append_nil]
  | secretKey ht h hs =>
    rw [raws_packetRow]
    have h1 := raws_secretEither hs
    simp (disch := decide) only [rawsAll, raws_version, raws_mk, raws_pubShown h, h1, raws_unknown, List.append_nil]
  | compressed => rw [raws_packetRow, raws_packed]
  | encrypted | marker | trust | integrity | mdc => rw [raws_packetRow]; simp (disch := decide) only [rawsAll, raws_leaf, List.append_nil]
  | userID => rw [raws_packetRow]; simp (disch := decide) only [rawsAll, raws_text, List.append_nil]
  | userAttribute hs h =>
    rw [raws_packetRow]
    simp (disch := decide) only [rawsAll, areaRow, raws_mk, List.append_nil]
    clear hs
    induction h with
    | nil => rfl
    | cons h _ ih => simp only [rawsAll, raws_attr h, ih, List.append_nil]
  | aead =>
    rw [raws_packetRow]
    simp (disch := decide) only [rawsAll, raws_version, raws_sym, raws_aead, raws_leaf, List.nil_append]
    split
    · rfl
    · simp (disch := decide) only [rawsAll, raws_leaf, List.append_nil]
  | aeadCut => rw [raws_packetRow]; simp (disch := decide) only [rawsAll, raws_version, raws_sym, raws_aead, raws_leaf, List.append_nil]
  | other => rw [raws_packetRow]; rfl

theorem raws_literal {body i} (h : Display o X 11 body i) : ∃ f r, body = f :: r ∧ raws i = [[Char.ofNat f.toNat]] := by
  generalize h11 : 11 = tag at h
  cases h with
  | @literal fmt n tm data hn ht =>
    refine ⟨fmt, _, rfl, ?_⟩
    rw [raws_packetRow]
    simp (disch := decide) only [rawsAll, raws_text, raws_leaf, List.append_nil]
    rfl
  | publicKey ht | secretKey ht => subst h11; exact absurd ht (by decide)
  | other h => subst h11; exact absurd (by decide) h
  | _ => cases h11

/-! ## Packets inside -/

/-- `v` is the format octet of a literal packet inside `p` -/
def Has (p : Nat × Bytes) (v : Str) : Prop := ∃ f r, Within p (11, f :: r) ∧ v = [Char.ofNat f.toNat]

/-- … inside a subpacket -/
def SubHas (s : UInt8 × Bytes) (v : Str) : Prop :=
  (s.1.toNat % 128 = 32 ∧ Has (2, s.2) v) ∨
    (s.1.toNat % 128 = 38 ∧ ∃ ps a rest p, s.2 = 0 :: (a ++ rest) ∧ ClosedSeq ps a ∧ p ∈ ps ∧ Has p v)

theorem has_leaf {tag body v} (h2 : tag ≠ 2) (h11 : tag ≠ 11) : ¬ Has (tag, body) v := by
  rintro ⟨f, r, h, -⟩
  generalize hp : (tag, body) = p at h
  generalize hq : (11, f :: r) = q at h
  cases h with
  | refl => subst hq; cases hp; exact h11 rfl
  | step h _ => cases h <;> cases hp <;> exact h2 rfl

theorem has_literal {f r v} : Has (11, f :: r) v ↔ v = [Char.ofNat f.toNat] := by
  constructor
  · rintro ⟨f', r', h, rfl⟩
    generalize hp : (11, f :: r) = p at h
    generalize hq : (11, f' :: r') = q at h
    cases h with
    | refl => subst hq; cases hp; rfl
    | step h _ => cases h <;> cases hp
  · rintro rfl; exact ⟨f, r, .refl, rfl⟩

theorem has_sig {body v} : Has (2, body) v ↔ ∃ area subs s, SigArea body area ∧ SubSeq subs area ∧ s ∈ subs ∧ SubHas s v := by
  constructor
  · rintro ⟨f, r, h, rfl⟩
    generalize hp : (2, body) = p at h
    generalize hq : (11, f :: r) = q at h
    cases h with
    | refl => subst hq; cases hp
    | step h h' =>
      subst hq
      cases h with
      | embedded ha hs hm ht => cases hp; exact ⟨_, _, _, ha, hs, hm, .inl ⟨ht, f, r, h', rfl⟩⟩
      | keyBlock ha hs hm ht hc hmem => cases hp; exact ⟨_, _, _, ha, hs, hm, .inr ⟨ht, _, _, _, _, rfl, hc, hmem, f, r, h', rfl⟩⟩
  · rintro ⟨area, subs, ⟨t, b⟩, ha, hs, hm, ⟨ht, f, r, h, rfl⟩ | ⟨ht, ps, a, rest, p, rfl, hc, hmem, f, r, h, rfl⟩⟩
    · exact ⟨f, r, .step (.embedded ha hs hm ht) h, rfl⟩
    · exact ⟨f, r, .step (.keyBlock ha hs hm ht hc hmem) h, rfl⟩

theorem sigArea_version {v : UInt8} {r area} (h : SigArea (v :: r) area) : v ∈ [4, 5] := by
  cases h <;> simpa

theorem sigArea_iff {v t a h : UInt8} {a1 a2 r area : Bytes} (hv : v ∈ [4, 5]) (h1 : a1.length < 65536) (h2 : a2.length < 65536) :
    SigArea (v :: t :: a :: h :: (beOctets 2 a1.length ++ (a1 ++ (beOctets 2 a2.length ++ (a2 ++ r))))) area ↔ area = a1 ∨ area = a2 := by
  have hv : v = 4 ∨ v = 5 := by simpa using hv
  constructor
  · intro hs
    generalize hb : v :: t :: a :: h :: (beOctets 2 a1.length ++ (a1 ++ (beOctets 2 a2.length ++ (a2 ++ r)))) = b at hs
    cases hs with
    | hashed _ hl =>
      simp only [List.cons.injEq] at hb
      obtain ⟨-, -, -, -, hb⟩ := hb
      rw [List.append_assoc] at hb
      exact .inl (counted2_inj h1 hl hb).1.symm
    | unhashed _ hl hl' =>
      simp only [List.cons.injEq] at hb
      obtain ⟨-, -, -, -, hb⟩ := hb
      rw [List.append_assoc, List.append_assoc] at hb
      exact .inr (counted2_inj h2 hl' (counted2_inj h1 hl hb).2).1.symm
  · rintro (rfl | rfl)
    · have := SigArea.hashed (v := v) (s := t) (p := a) (h := h) (area := area) (rest := beOctets 2 a2.length ++ (a2 ++ r)) hv h1
      rwa [List.append_assoc] at this
    · have := SigArea.unhashed (v := v) (s := t) (p := a) (h := h) (first := a1) (area := area) (rest := r) hv h1 h2
      rwa [List.append_assoc, List.append_assoc] at this

/-- packets at the front of the octets: the longer list continues the shorter one, and the rest of the longer one is no packet -/
theorem block_front {ps a b} (h : ClosedSeq ps a) : ∀ {ps' a' b'}, KeyEnd X b → ClosedSeq ps' a' → a ++ b = a' ++ b' → ∀ p ∈ ps', p ∈ ps := by
  induction h with
  | nil =>
    intro ps' a' b' hb h' he
    cases h' with
    | nil => intro p hp; cases hp
    | cons h hs =>
      rw [List.append_assoc] at he
      exact (hb.not_packet (by rw [← List.nil_append b, he]; exact decNext_complete h _)).elim
  | @cons tag body ps enc inp h hs ih =>
    intro ps' a' b' hb h' he
    rw [List.append_assoc] at he
    cases h' with
    | nil => intro p hp; cases hp
    | cons h' hs' =>
      rw [List.append_assoc] at he
      have e := (decNext_complete h _).symm.trans ((congrArg decNext he).trans (decNext_complete h' _))
      injection e with e1 e2 e3
      subst e1 e2
      intro p hp
      rcases List.mem_cons.mp hp with rfl | hp
      · exact List.mem_cons_self
      · exact List.mem_cons_of_mem _ (ih hb hs' e3 p hp)

theorem subHas_plain {t b v} (h32 : t.toNat % 128 ≠ 32) (h38 : t.toNat % 128 ≠ 38) : ¬ SubHas (t, b) v := by
  rintro (⟨h, -⟩ | ⟨h, -⟩)
  · exact h32 h
  · exact h38 h

theorem SubShown.types {t b i} (h : SubShown o X t b i) : t.toNat % 128 ≠ 32 ∧ t.toNat % 128 ≠ 38 :=
  ⟨fun e => Spec.SubShown.not_block (by rw [e]; decide) h, fun e => Spec.SubShown.not_block (by rw [e]; decide) h⟩

theorem empty_iff {α} {p : Prop} {v : α} (h : ¬ p) : v ∈ ([] : List α) ↔ p := ⟨fun hv => absurd hv (List.not_mem_nil), fun hp => (h hp).elim⟩

theorem exists_cons {α} {q : α → Prop} {a : α} {l : List α} : (∃ x ∈ a :: l, q x) ↔ q a ∨ ∃ x ∈ l, q x := by simp

theorem raws_full {h tag body i h'} (hf : Full o X h tag body i h') : ∀ v, v ∈ raws i ↔ Has (tag, body) v := by
  have plainTag : ∀ {tag body i}, Display o X tag body i → tag ≠ 2 → ∀ v, v ∈ raws i ↔ Has (tag, body) v := by
    intro tag body i hd h2 v
    by_cases h11 : tag = 11
    · subst h11
      obtain ⟨f, r, rfl, hr⟩ := raws_literal hd
      rw [hr, has_literal, List.mem_singleton]
    · rw [raws_display hd (fun e => absurd e h2) h11]
      exact empty_iff (has_leaf h2 h11)
  refine Full.rec (o := o) (X := X)
    (motive_1 := fun h tag body i h' _ => ∀ v, v ∈ raws i ↔ Has (tag, body) v)
    (motive_2 := fun h name area is h' _ => name.toList ≠ ldf → ∀ v, v ∈ rawsAll is ↔ ∃ subs s, SubSeq subs area ∧ s ∈ subs ∧ SubHas s v)
    (motive_3 := fun h subs is h' _ => ∀ v, v ∈ rawsAll is ↔ ∃ s ∈ subs, SubHas s v)
    (motive_4 := fun h ps is h' _ => ∀ v, v ∈ rawsAll is ↔ ∃ p ∈ ps, Has p v)
    ?_ ?_ ?_ ?_ ?_ ?_ ?_ ?_ ?_ ?_ ?_ ?_ ?_ ?_ ?_ ?_ ?_ ?_ ?_ ?_ ?_ hf
  -- packets
  · intro h tag body i ht hd
    exact plainTag hd (by rintro rfl; exact ht (by decide))
  · intro h body i hd; exact plainTag hd (by decide)
  · intro h body i hd; exact plainTag hd (by decide)
  · intro h body v
    rw [raws_packetRow]
    simp (disch := decide) only [rawsAll, raws_leaf, List.append_nil]
    exact empty_iff (has_leaf (by decide) (by decide))
  · intro h body v
    rw [raws_packetRow]
    simp (disch := decide) only [rawsAll, raws_leaf, List.append_nil]
    exact empty_iff (has_leaf (by decide) (by decide))
  · intro h tag v tm r i ht hv hl hd
    exact plainTag hd (by rintro rfl; exact absurd ht (by decide))
  · intro h tag v r i ht hv hd
    exact plainTag hd (by rintro rfl; exact absurd ht (by decide))
  · intro h v r i hv hd w
    rw [raws_display hd (fun _ v' r' e => by cases e; exact hv) (by decide)]
    refine empty_iff fun hh => ?_
    obtain ⟨area, subs, s, ha, -⟩ := has_sig.mp hh
    exact hv (sigArea_version ha)
  · intro h1 h2 h3 v t a h a1 a2 i1 i2 l f q is hv hd hu hl hf hl1 hl2 ih1 ih2 w
    have ih1 := ih1 (by decide) w
    have ih2 := ih2 (by decide) w
    rw [raws_packetRow, has_sig]
    simp only [rawsAll, rawsAll_append, raws_version, raws_sigType, raws_pub, raws_hash, raws_left16, raws_integers sig_plain hf, raws_unknown,
      List.append_nil, List.nil_append, List.mem_append, ih1, ih2, sigArea_iff hv hl1 hl2]
    constructor
    · rintro (⟨subs, s, h⟩ | ⟨subs, s, h⟩)
      · exact ⟨a1, subs, s, .inl rfl, h⟩
      · exact ⟨a2, subs, s, .inr rfl, h⟩
    · rintro ⟨area, subs, s, rfl | rfl, h⟩
      · exact .inl ⟨subs, s, h⟩
      · exact .inr ⟨subs, s, h⟩
  -- areas
  · intro h name hn v
    refine empty_iff ?_
    rintro ⟨subs, s, hs, hm, -⟩
    cases C24_unique hs .nil
    cases hm
  · intro h name area subs is h' h0 hs hd ih hn v
    simp only [rawsAll, areaRow, raws_mk hn, List.append_nil]
    rw [ih v]
    constructor
    · rintro ⟨s, hm, h⟩; exact ⟨subs, s, hs, hm, h⟩
    · rintro ⟨subs', s, hs', hm, h⟩; cases C24_unique hs hs'; exact ⟨s, hm, h⟩
  -- subpackets
  · intro h v; exact empty_iff (by rintro ⟨s, hm, -⟩; cases hm)
  · intro h t b i subs is h' ht hd hs ih v
    rw [rawsAll, raws_sub02 hd, List.nil_append, ih v, exists_cons, or_iff_right (subHas_plain (SubShown.types hd).1 (SubShown.types hd).2)]
  · intro h t tm r subs is h' ht hl hs ih v
    rw [rawsAll, raws_leaf (subName_ne t), List.nil_append, ih v, exists_cons, or_iff_right (subHas_plain (by omega) (by omega))]
  · intro h t n r subs is h' ht hl hs ih v
    rw [rawsAll, periodRow, raws_leaf (subName_ne t), List.nil_append, ih v, exists_cons, or_iff_right (subHas_plain (by omega) (by omega))]
  · intro h t n r subs is h' ht hl hs ih v
    rw [rawsAll, periodRow, raws_leaf (subName_ne t), List.nil_append, ih v, exists_cons, or_iff_right (subHas_plain (by omega) (by omega))]
  · intro h1 h2 h3 t b i subs is ht hd hs ih ih' v
    rw [rawsAll, raws_subRow, List.mem_append, ih' v, exists_cons]
    simp only [rawsAll, List.append_nil, ih v]
    refine or_congr ⟨fun h => .inl ⟨ht, h⟩, ?_⟩ Iff.rfl
    rintro (⟨-, h⟩ | ⟨h, -⟩)
    · exact h
    · simp only at h; omega
  · intro h t k d subs is h' ht hk hs ih v
    have hno : ¬ SubHas (t, k :: d) v := by
      rintro (⟨h, -⟩ | ⟨-, ps, a, rest, p, he, -⟩)
      · simp only at h; omega
      · exact hk (List.cons.inj he).1
    rw [rawsAll, raws_subRow, exists_cons, or_iff_right hno, ← ih v]
    simp (disch := decide) only [rawsAll, raws_num, raws_leaf, List.append_nil, List.nil_append]
  · intro h1 h2 h3 t a b ps js subs is ht ha hb hd hs ih ih' v
    rw [rawsAll, raws_subRow, List.mem_append, ih' v, exists_cons]
    simp (disch := decide) only [rawsAll, raws_num, raws_mk (lit : "Key data".toList ≠ ldf), List.append_nil, List.nil_append]
    refine or_congr ?_ Iff.rfl
    rw [ih v]
    constructor
    · rintro ⟨p, hm, h⟩; exact .inr ⟨ht, ps, a, b, p, rfl, ha, hm, h⟩
    · rintro (⟨h, -⟩ | ⟨-, ps', a', rest, p, he, hc, hm, h⟩)
      · simp only at h; omega
      · exact ⟨p, block_front ha hb hc (List.cons.inj he).2 p hm, h⟩
  -- packets one after the other
  · intro h v; exact empty_iff (by rintro ⟨s, hm, -⟩; cases hm)
  · intro h1 h2 h3 tag body ps i is hd hs ih ih' v
    rw [rawsAll, List.mem_append, ih v, ih' v, exists_cons]

theorem raws_fullAll {h ps is h'} (hf : FullAll o X h ps is h') (v) : v ∈ rawsAll is ↔ ∃ p ∈ ps, Has p v := by
  induction ps generalizing h is with
  | nil => cases hf; exact empty_iff (by rintro ⟨s, hm, -⟩; cases hm)
  | cons p ps ih =>
    cases hf with
    | cons hd hs => rw [rawsAll, List.mem_append, raws_full hd v, ih hs, exists_cons]

theorem shown_plain {tag body q} (h : tag ≠ 8) : ShownIn X (tag, body) q ↔ Within (tag, body) q := by
  constructor
  · intro hs
    generalize hp : (tag, body) = p at hs
    cases hs with
    | plain h => exact h
    | packed => cases hp; exact absurd rfl h
  · exact .plain

theorem raws_top {h p i h'} (hf : FullTop o X h p i h') (v) : v ∈ raws i ↔ ∃ f r, ShownIn X p (11, f :: r) ∧ v = [Char.ofNat f.toNat] := by
  cases hf with
  | plain h8 hd =>
    rw [raws_full hd v]
    simp only [shown_plain h8]
    exact Iff.rfl
  | packed hz hp hd =>
    rw [raws_packetRow, rawsAll_append, raws_packed, List.nil_append, raws_fullAll hd v]
    constructor
    · rintro ⟨p, hm, f, r, h, hv⟩; exact ⟨f, r, .packed hz hp hm h, hv⟩
    · rintro ⟨f, r, h, hv⟩
      cases h with
      | plain h => exact (has_leaf (by decide) (by decide) ⟨f, r, h, hv⟩).elim
      | packed hz' hp' hm h =>
        cases Spec.Opens.uniq hz hz'
        cases C05_unique hp hp'
        exact ⟨_, hm, f, r, h, hv⟩
  | huge hz =>
    rw [raws_packetRow, raws_packed]
    refine empty_iff ?_
    rintro ⟨f, r, h, hv⟩
    cases h with
    | plain h => exact has_leaf (by decide) (by decide) ⟨f, r, h, hv⟩
    | packed hz' => cases Spec.Opens.uniq hz hz'

theorem raws_tops {h ps is h'} (hf : FullTops o X h ps is h') (v) :
    v ∈ rawsAll is ↔ ∃ p ∈ ps, ∃ f r, ShownIn X p (11, f :: r) ∧ v = [Char.ofNat f.toNat] := by
  induction hf with
  | nil => exact empty_iff (by rintro ⟨s, hm, -⟩; cases hm)
  | cons hd _ ih => rw [rawsAll, List.mem_append, raws_top hd v, ih, exists_cons]

end

/-! ## C73 -/

/-- C73: the control characters in the result are exactly the format octets that are control characters of the literal
packets displayed: those at the front of the input, up to the first packet that is not of the grammar, at any depth inside signatures
and inside compressed packets. Every other octet of the input, the names and texts in particular, never gives a control character. -/
theorem C73_exact (X : Ext) (hX : OwnErrors X) (hC : CleanX X) (x : Ctx) (hc : Consistent x) (s : Source) (ht : s.tail = rawErr .eof)
    (c : Char) (hctl : isControl c = true) :
    (∃ i ∈ (parseSrc X (some x) s.src).packets, c ∈ charsOf i) ↔
      ∃ ps, Front X ps s.data ∧ ∃ p ∈ ps, ∃ f r, ShownIn X p (11, f :: r) ∧ c = Char.ofNat f.toNat := by
  obtain ⟨ps, h', hf, hd⟩ := (C62_front X hX x hc s ht _).mp rfl
  have hcl : ∀ i ∈ (parseSrc X (some x) s.src).packets, CleanItem i := by
    have h := Cmp.parseSrc (k := selfCmp x.opts true true false) (X := X) (src := s.src)
      (r_parseAny X (fun _ => hC) (by simp [selfCmp]) s.src (by simp [selfCmp]) rfl) (selfCmp_ctxs x _ _ _)
    rcases h with ⟨h, -⟩ | ⟨-, -, -, -, h, -⟩
    · cases h
    · exact h rfl
  constructor
  · rintro ⟨i, hi, hm⟩
    obtain ⟨p, hp, f, r, hs, he⟩ := (raws_tops hd [c]).mp (mem_rawsAll.mpr ⟨i, hi, (hcl i hi).control hctl hm⟩)
    exact ⟨ps, hf, p, hp, f, r, hs, (List.cons.inj he).1⟩
  · rintro ⟨qs, hf', p, hp, f, r, hs, rfl⟩
    cases hf.uniq hf'
    obtain ⟨i, hi, hv⟩ := mem_rawsAll.mp ((raws_tops hd _).mpr ⟨p, hp, f, r, hs, rfl⟩)
    exact ⟨i, hi, raws_sub i hv (List.mem_singleton.mpr rfl)⟩

/-! A literal packet with format octet ESC and a file name that is BEL: ESC is displayed, BEL is not. -/

theorem front_nil (X : Ext) : Front X [] [] := by
  have h0 : decNext [] = .atEnd := rfl
  refine .stop ?_ ?_
  · intro tag body enc r he _ h
    rw [h, decNext_complete he] at h0
    cases h0
  · intro tag body he
    rw [decNext_toEnd_complete he] at h0
    cases h0

theorem front_bell (X : Ext) : Front X [(11, [0x1b, 1, 7, 0, 0, 0, 0])] [0xcb, 7, 0x1b, 1, 7, 0, 0, 0, 0] :=
  .cons (enc := [0xcb, 7, 0x1b, 1, 7, 0, 0, 0, 0]) (.new (tag := 11) (by decide) (.last (lenc := [7]) (.one (n := 7) (by decide))))
    (.plain (by decide) (.literal (n := [1, 7]) (tm := [0, 0, 0, 0]) (rest := []) (.mk (x := [7]) (by decide)) rfl)) (front_nil X)

example (X : Ext) (hX : OwnErrors X) (hC : CleanX X) (x : Ctx) (hc : Consistent x) :
    (∃ i ∈ (parseSrc X (some x) (Source.src ⟨[0xcb, 7, 0x1b, 1, 7, 0, 0, 0, 0], rawErr .eof, [2]⟩)).packets, '\x1b' ∈ charsOf i) ∧
      ¬ ∃ i ∈ (parseSrc X (some x) (Source.src ⟨[0xcb, 7, 0x1b, 1, 7, 0, 0, 0, 0], rawErr .eof, [2]⟩)).packets, '\x07' ∈ charsOf i := by
  constructor
  · exact (C73_exact X hX hC x hc ⟨_, rawErr .eof, [2]⟩ rfl _ (by decide)).mpr
      ⟨_, front_bell X, _, List.mem_singleton.mpr rfl, 0x1b, _, .plain .refl, by decide⟩
  · intro h
    obtain ⟨ps, hf, p, hp, f, r, hs, he⟩ := (C73_exact X hX hC x hc ⟨_, rawErr .eof, [2]⟩ rfl _ (by decide)).mp h
    cases hf.uniq (front_bell X)
    cases List.mem_singleton.mp hp
    have h1 := (has_literal (v := [Char.ofNat f.toNat])).mp ⟨f, r, (shown_plain (by decide)).mp hs, rfl⟩
    rw [← he] at h1
    revert h1
    decide

end Gpgpdump
