import Mathlib.Data.List.Induction
import Verif.SpecDisplay
import Verif.ThmAccount

/-!
# The items of the model are those of the display specification
-/

namespace Gpgpdump
open P Spec

variable (o : OptCode → Bool)

/-- a statement about all octets -/
theorem byOctet {p : UInt8 → Prop} (h : ∀ i : Fin 256, p (UInt8.ofNat i.val)) (b : UInt8) : p b := by
  have := h ⟨b.toNat, b.toNat_lt⟩
  simpa using this

theorem hexOctet_eq (b : UInt8) : hex2 b = hexOctet b := byOctet (p := fun b => hex2 b = hexOctet b) (by decide +kernel) b
theorem hex_octet_eq (b : UInt8) : zpad 2 (hex b.toNat) = hexOctet b := byOctet (p := fun b => zpad 2 (hex b.toNat) = hexOctet b) (by decide +kernel) b

theorem hexText_eq (b : Bytes) : Reader.dumpHex b = hexText b := by
  induction b with
  | nil => rfl
  | cons x b ih =>
    cases b with
    | nil => exact hexOctet_eq x
    | cons y b => rw [Reader.dumpHex, hexText, ih, hexOctet_eq]; simp

theorem dumpIf_eq (f : Bool) (b : Bytes) : dumpBytes b f = dumpIf f b := by rw [dumpBytes_eq, hexText_eq]; rfl
theorem dumpTrue_eq (b : Bytes) : dumpBytes b true = hexText b := dumpIf_eq true b
theorem dumpByte_eq (f : Bool) (b : UInt8) : dumpByte b f = dumpIf f [b] := by
  unfold dumpByte dumpIf; rw [hexOctet_eq]; rfl
theorem dumpHexIf_eq (f : Bool) (b : Bytes) : (if f then Reader.dumpHex b else []) = dumpIf f b := by rw [hexText_eq]; rfl

/-! ## Registries -/

theorem hashNames_eq (b : UInt8) : hashIDNames.get b.toNat Unknown = (hashName b.toNat).toList :=
  byOctet (p := fun b => hashIDNames.get b.toNat Unknown = (hashName b.toNat).toList) (by decide +kernel) b
theorem sigNames_eq (b : UInt8) : sigIDNames.get b.toNat Unknown = (sigName b.toNat).toList :=
  byOctet (p := fun b => sigIDNames.get b.toNat Unknown = (sigName b.toNat).toList) (by decide +kernel) b
theorem compNames_eq (b : UInt8) : compIDNames.get b.toNat Unknown = (compName b.toNat).toList :=
  byOctet (p := fun b => compIDNames.get b.toNat Unknown = (compName b.toNat).toList) (by decide +kernel) b
theorem aeadNames_eq (b : UInt8) : aeadIDNames.get b.toNat Unknown = (aeadName b.toNat).toList :=
  byOctet (p := fun b => aeadIDNames.get b.toNat Unknown = (aeadName b.toNat).toList) (by decide +kernel) b
theorem pubNames_eq (b : UInt8) : pubIDNames.get b.toNat Unknown = (pubName b.toNat).toList :=
  byOctet (p := fun b => pubIDNames.get b.toNat Unknown = (pubName b.toNat).toList) (by decide +kernel) b
theorem symNames_eq (b : UInt8) : symIDNames.get b.toNat Unknown = (symName b.toNat).toList :=
  byOctet (p := fun b => symIDNames.get b.toNat Unknown = (symName b.toNat).toList) (by decide +kernel) b
theorem s2kNames_eq (b : UInt8) : s2kIDNames.get b.toNat Unknown = (s2kName b.toNat).toList :=
  byOctet (p := fun b => s2kIDNames.get b.toNat Unknown = (s2kName b.toNat).toList) (by decide +kernel) b
theorem reasonNames_eq (b : UInt8) : reasonNames.get b.toNat (S "Unknown reason") = (reasonName b.toNat).toList :=
  byOctet (p := fun b => reasonNames.get b.toNat (S "Unknown reason") = (reasonName b.toNat).toList) (by decide +kernel) b
theorem literalNames_eq (b : UInt8) : literalFormatNames.get b.toNat (S "unknown") = (literalFormat b).toList :=
  byOctet (p := fun b => literalFormatNames.get b.toNat (S "unknown") = (literalFormat b).toList) (by decide +kernel) b
theorem subNames_eq (b : UInt8) : subStr b = subName b := by
  have h1 : (b &&& 0x80 ≠ 0) ↔ 128 ≤ b.toNat := byOctet (p := fun b => (b &&& 0x80 ≠ 0) ↔ 128 ≤ b.toNat) (by decide +kernel) b
  have h2 : (b &&& 0x7f).toNat = b.toNat % 128 := byOctet (p := fun b => (b &&& 0x7f).toNat = b.toNat % 128) (by decide +kernel) b
  have h3 : subpacketNames.get (b.toNat % 128) Unknown = (subpacketName (b.toNat % 128)).toList :=
    byOctet (p := fun b => subpacketNames.get (b.toNat % 128) Unknown = (subpacketName (b.toNat % 128)).toList) (by decide +kernel) b
  unfold subStr subName
  simp only [h2, h3]
  by_cases hc : 128 ≤ b.toNat
  · rw [if_pos (h1.mpr hc), if_pos hc]; split <;> rfl
  · rw [if_neg (fun h => hc (h1.mp h)), if_neg hc]; split <;> rfl

theorem packetNames_eq (t : Nat) : tagNames.get t Unknown = (packetName t).toList := by
  by_cases h : t < 64
  · have : ∀ i : Fin 64, tagNames.get i.val Unknown = (packetName i.val).toList := by decide +kernel
    exact this ⟨t, h⟩
  · have h1 : packetName t = "Unknown" := by
      unfold packetName
      split <;> first | omega | rfl
    rw [h1]
    unfold Msgs.get
    rw [List.find?_eq_none.mpr]
    · rfl
    · intro kv hk
      have : ∀ kv ∈ tagNames, kv.1 < 64 := by decide +kernel
      have := this kv hk
      simp only [beq_iff_eq]
      omega

theorem algText_eq {m : Msgs} {names : Nat → String} {b : UInt8} (h : m.get b.toNat Unknown = (names b.toNat).toList) (k : String) (s : Str)
    (hs : s = " (".toList ++ k.toList ++ " ".toList) : algName m b ++ s ++ dec b.toNat ++ S ")" = algText names k b := by
  subst hs
  unfold algName algText
  rw [h]
  simp only [List.append_assoc]
  split <;> rfl

theorem hashItem_eq (b : UInt8) : hashItem b (o DEBUG) = hashRow o b := by
  unfold hashItem hashRow hashStr
  rw [algText_eq (hashNames_eq b) "hash" _ (by rfl), dumpByte_eq]; rfl
theorem pubItem_eq (b : UInt8) : pubItem b (o DEBUG) = pubRow o b := by
  unfold pubItem pubRow pubStr
  rw [algText_eq (pubNames_eq b) "pub" _ (by rfl), dumpByte_eq]; rfl
theorem symItem_eq (b : UInt8) : symItem b (o DEBUG) = symRow o b := by
  unfold symItem symRow symStr
  rw [algText_eq (symNames_eq b) "sym" _ (by rfl), dumpByte_eq]; rfl
theorem aeadItem_eq (b : UInt8) : aeadItem b (o DEBUG) = aeadRow o b := by
  unfold aeadItem aeadRow aeadStr
  rw [algText_eq (aeadNames_eq b) "aead" _ (by rfl), dumpByte_eq]; rfl
theorem compItem_eq (b : UInt8) : compItem b (o DEBUG) = compRow o b := by
  unfold compItem compRow compStr
  rw [compNames_eq, dumpByte_eq]; rfl
theorem sigItem_eq (b : UInt8) : sigItem b (o DEBUG) = sigTypeRow o b := by
  unfold sigItem sigTypeRow sigStr hashHex2
  rw [sigNames_eq, dumpByte_eq, hex_octet_eq]
  simp only [List.append_assoc]; rfl
theorem s2kItem_eq (b : UInt8) (l : List Item) : (s2kItem b (o DEBUG)).addAll l = s2kRow o b l := by
  unfold s2kItem s2kRow s2kStr
  rw [algText_eq (s2kNames_eq b) "s2k" _ (by rfl), dumpByte_eq]; rfl

theorem verItem_eq (cur draft v : UInt8) :
    (⟨v, cur, draft⟩ : Version).item (o DEBUG) = versionRow o cur.toNat (if draft = 0 then none else some draft.toNat) v := by
  unfold Version.item versionRow
  rw [dumpByte_eq]
  have h1 : (⟨v, cur, draft⟩ : Version).isOld = true ↔ v.toNat < cur.toNat := by simp [Version.isOld, UInt8.lt_iff_toNat_lt]
  have h2 : (⟨v, cur, draft⟩ : Version).isCurrent = true ↔ v.toNat = cur.toNat := by simp [Version.isCurrent, UInt8.toNat_inj]
  have h3 : (⟨v, cur, draft⟩ : Version).isDraft = true ↔ some v.toNat = (if draft = 0 then none else some draft.toNat) := by
    simp only [Version.isDraft]
    by_cases hd : draft = 0
    · simp [hd]
    · simp [hd, UInt8.toNat_inj]
  simp only [h1, h2, h3]
  rfl

theorem pubVer_eq (v : UInt8) : (pubVer v).item (o DEBUG) = versionRow o 4 (some 5) v := verItem_eq o 4 5 v
theorem sigVer_eq (v : UInt8) : (sigVer v).item (o DEBUG) = versionRow o 4 (some 5) v := verItem_eq o 4 5 v
theorem symVer_eq (v : UInt8) : (symSessKeyVer v).item (o DEBUG) = versionRow o 4 (some 5) v := verItem_eq o 4 5 v
theorem oneVer_eq (v : UInt8) : (oneSigVer v).item (o DEBUG) = versionRow o 3 none v := verItem_eq o 3 0 v
theorem sesVer_eq (v : UInt8) : (pubSessKeyVer v).item (o DEBUG) = versionRow o 3 none v := verItem_eq o 3 0 v
theorem aeadVer_eq (v : UInt8) : (aeadVer v).item (o DEBUG) = versionRow o 1 none v := verItem_eq o 1 0 v

/-! ## Key IDs -/

theorem hexVal_getD (n : Nat) (h : n < 16) : hexVal (("0123456789abcdef".toList).getD n '?') = some n := by
  have : ∀ i : Fin 16, hexVal (("0123456789abcdef".toList).getD i.val '?') = some i.val := by decide +kernel
  exact this ⟨n, h⟩

/-- fixed-width hexadecimal numbers are determined by their value -/
theorem lowerHex_inj {a b : Str} (hl : a.length = b.length) (ha : ∀ c ∈ a, ∃ n < 16, c = digit n) (hb : ∀ c ∈ b, ∃ n < 16, c = digit n)
    (h : hexNat a = hexNat b) : a = b := by
  induction a using List.reverseRecOn generalizing b with
  | nil => exact (List.length_eq_zero_iff.mp hl.symm).symm
  | append_singleton a c ih =>
    rcases List.eq_nil_or_concat b with rfl | ⟨b, d, rfl⟩
    · simp at hl
    rw [List.concat_eq_append] at *
    rw [hexNat_append, hexNat_append] at h
    obtain ⟨m, hm, rfl⟩ := ha c (by simp)
    obtain ⟨n, hn, rfl⟩ := hb d (by simp)
    rw [hexVal_digit m hm, hexVal_digit n hn] at h
    have dig : ∀ (s : Str), (∀ c ∈ s, ∃ n < 16, c = digit n) → ∃ k, hexNat s = some k := by
      intro s
      induction s using List.reverseRecOn with
      | nil => intro _; exact ⟨0, rfl⟩
      | append_singleton s e ih2 =>
        intro hs
        obtain ⟨k, hk⟩ := ih2 fun c hc => hs c (by simp [hc])
        obtain ⟨n, hn, rfl⟩ := hs e (by simp)
        exact ⟨k * 16 + n, by rw [hexNat_append, hk, hexVal_digit n hn]; rfl⟩
    obtain ⟨k, hk⟩ := dig a fun c hc => ha c (by simp [hc])
    obtain ⟨k', hk'⟩ := dig b fun c hc => hb c (by simp [hc])
    rw [hk, hk'] at h
    simp only [Option.map_some, Option.bind_some, Option.some.injEq] at h
    have h1 : k = k' := by omega
    have h2 : m = n := by omega
    rw [ih (by simpa using hl) (fun c hc => ha c (by simp [hc])) (fun c hc => hb c (by simp [hc])) (by rw [hk, hk', h1]), h2]

theorem hexOctet_digits (b : UInt8) : hexOctet b = [digit (b.toNat / 16), digit (b.toNat % 16)] := (hexOctet_eq b).symm

theorem hexNat_flatMap (b : Bytes) : hexNat (b.flatMap hexOctet) = some (beNat b) := by
  induction b using List.reverseRecOn with
  | nil => rfl
  | append_singleton b x ih =>
    have hx := x.toNat_lt
    rw [List.flatMap_append, List.flatMap_singleton, hexOctet_digits, show ([digit (x.toNat / 16), digit (x.toNat % 16)] : Str) = [digit (x.toNat / 16)] ++ [digit (x.toNat % 16)] from rfl,
      ← List.append_assoc, hexNat_append, hexNat_append, ih, hexVal_digit _ (by omega), hexVal_digit _ (by omega)]
    simp only [Option.map_some, Option.bind_some, Option.some.injEq, beNat, List.foldl_append, List.foldl_cons, List.foldl_nil]
    omega

theorem keyID_text (k : Bytes) (h : k.length = 8) : hashHex16 (beNat k) = keyIDText k := by
  have h16 : (zpad 16 (hex (beNat k))).length = 16 := by
    have h1 := beNat_lt k
    rw [h] at h1
    have h2 := (hex_length_le (n := beNat k) (k := 16) (by omega)).mpr (by
      have : (256 : Nat) ^ 8 = 16 ^ 16 := by decide
      omega)
    rw [zpad_length]; omega
  have hk : (k.flatMap hexOctet).length = 16 := by
    rw [List.length_flatMap]
    have : k.map (fun a => (hexOctet a).length) = List.replicate 8 2 := by
      rw [← h, List.eq_replicate_iff]
      refine ⟨by simp, ?_⟩
      intro b hb
      obtain ⟨a, -, rfl⟩ := List.mem_map.mp hb
      rfl
    rw [this]; rfl
  unfold hashHex16 keyIDText
  congr 1
  refine lowerHex_inj (h16.trans hk.symm) ?_ ?_ (by rw [hexNat_zpad, hexNat_hex, hexNat_flatMap])
  · intro c hc
    unfold zpad at hc
    rcases List.mem_append.mp hc with hc | hc
    · exact ⟨0, by omega, (List.eq_of_mem_replicate hc).trans (by decide)⟩
    · obtain ⟨n, hn, rfl⟩ := digitsAux_chars (by omega) _ _ hc
      exact ⟨n, hn, rfl⟩
  · intro c hc
    obtain ⟨b, -, hb⟩ := List.mem_flatMap.mp hc
    have := b.toNat_lt
    rw [hexOctet_digits] at hb
    simp only [List.mem_cons, List.not_mem_nil, or_false] at hb
    rcases hb with rfl | rfl
    · exact ⟨_, by omega, rfl⟩
    · exact ⟨_, by omega, rfl⟩

theorem keyIDItem_eq (k : Bytes) (h : k.length = 8) : keyIDItem k = keyIDRow k := by
  unfold keyIDItem keyIDRow; rw [keyID_text k h]; rfl

/-! ## Texts, times, integers -/

theorem escapeText_rows (cs : Str) : escapeText cs = cs.flatMap fun c => if isControl c then "(".toList ++ fmtU c ++ ")".toList else [c] := by
  induction cs with
  | nil => rfl
  | cons c cs ih => rw [escapeText, ih, List.flatMap_cons]; rfl

theorem textItem_eq (n : Str) (b : Bytes) (f : Bool) : textItem n b f = textRow n f b := by
  unfold textItem textRow
  cases b with
  | nil => rfl
  | cons x b =>
    rw [if_neg (by simp), if_neg (by simp)]
    cases utf8Decode (x :: b) with
    | none => simp only [dumpTrue_eq]; rfl
    | some cs => simp only [dumpIf_eq, escapeText_rows]; rfl

theorem timeItem_eq (X : Ext) (n : Str) (tm : Bytes) :
    dateTimeItem X ⟨tm, o UTC⟩ n (o DEBUG) = leaf n (momentText o X tm) [] (dumpIf (o DEBUG) tm) := by
  unfold dateTimeItem rfc3339 momentText
  rw [dumpIf_eq]; rfl

theorem beNat_zero {tm : Bytes} (h : beNat tm = 0) : tm = List.replicate tm.length 0 := by
  induction tm using List.reverseRecOn with
  | nil => rfl
  | append_singleton b x ih =>
    simp only [beNat, List.foldl_append, List.foldl_cons, List.foldl_nil] at h
    have h1 : beNat b = 0 := by unfold beNat; omega
    have h2 : x = 0 := UInt8.toNat_inj.mp (by simp; omega)
    rw [List.length_append, List.replicate_add, ← ih h1, h2]; rfl

theorem fileTimeItem_eq (X : Ext) (tm : Bytes) (h : tm.length = 4) : fileTimeItem X ⟨tm, o UTC⟩ (o DEBUG) =
    leaf "Creation time".toList (if tm = [0, 0, 0, 0] then "null".toList else momentText o X tm) [] (dumpIf (o DEBUG) tm) := by
  unfold fileTimeItem
  by_cases ht : tm = [0, 0, 0, 0]
  · subst ht
    rw [if_pos (show (⟨[0, 0, 0, 0], o UTC⟩ : DateTime).unix = 0 from (by decide : UInt32.ofNat (beNat [0, 0, 0, 0]) = 0)), if_pos rfl, dumpIf_eq]; rfl
  · rw [if_neg, if_neg ht, timeItem_eq]; rfl
    intro h0
    have hb : beNat tm = 0 := by
      have h1 := beNat_lt tm
      rw [h] at h1
      have h2 : (UInt32.ofNat (beNat tm)).toNat = 0 := by rw [show UInt32.ofNat (beNat tm) = 0 from h0]; rfl
      rw [UInt32.toNat_ofNat_of_lt' (by simpa using h1)] at h2
      exact h2
    have := beNat_zero hb
    rw [h] at this
    exact ht this

theorem oidStr_eq (oid : Bytes) : oidStr oid = (curveName oid).toList := by
  by_cases h : ∃ p ∈ curves, oid = p.1
  · obtain ⟨p, hp, rfl⟩ := h
    have : ∀ p ∈ curves, oidStr p.1 = (curveName p.1).toList := by decide +kernel
    exact this p hp
  · have h1 : curves.lookup oid = none := by
      rw [List.lookup_eq_none_iff]
      intro p hp
      rw [bne_iff_ne]
      intro e; exact h ⟨p, hp, e⟩
    have h2 : oidList.find? (fun kv => oid == kv.2) = none := by
      rw [List.find?_eq_none]
      intro kv hk e
      have : ∀ kv ∈ oidList, ∃ p ∈ curves, kv.2 = p.1 := by decide +kernel
      obtain ⟨p, hp, e'⟩ := this kv hk
      exact h ⟨p, hp, (beq_iff_eq.mp e).trans e'⟩
    unfold oidStr oidStrWith curveName
    rw [h1, h2]; rfl

theorem oidItem_eq (oid : Bytes) : oidItem oid true = leaf "ECC Curve OID".toList (curveName oid).toList [] (hexText oid) := by
  unfold oidItem; rw [oidStr_eq, dumpTrue_eq]; rfl

theorem ecPointName_eq (l : String) (d : Bytes) :
    ecPointName l.toList d = l.toList ++ " EC point (".toList ++ (pointFormat d.head?).toList ++ ")".toList := by
  unfold ecPointName
  cases d with
  | nil => rfl
  | cons b d =>
    have : eccPointNames.get b.toNat Unknown = (pointFormat (some b)).toList :=
      byOctet (p := fun b => eccPointNames.get b.toNat Unknown = (pointFormat (some b)).toList) (by decide +kernel) b
    simp only [this]; rfl

theorem mpiItem_eq (n : Str) (bits : Nat) (d : Bytes) (f : Bool) : mpiItem n bits d f = leaf n [] (dec bits ++ " bits".toList) (dumpIf f d) := by
  unfold mpiItem; rw [dumpIf_eq]; rfl

theorem rawItem_eq (n : Str) (q : Bytes) (f : Bool) : newItem n [] (nBytes q.length) (if f then Reader.dumpHex q else []) = leaf n [] (sizeText q.length) (dumpIf f q) := by
  rw [dumpHexIf_eq]; rfl

theorem stretch_eq (c : UInt8) : stretchItem c = countRow c := by
  have : (stretchCount c).toNat = iterations c := byOctet (p := fun c => (stretchCount c).toNat = iterations c) (by decide +kernel) c
  unfold stretchItem countRow
  rw [this, dumpByte_eq]; rfl

theorem chunk_eq (c : UInt8) : dec (chunkSize c) = chunkText c := by
  have : chunkSize c = if (c.toNat + 6) % 256 < 64 then 2 ^ ((c.toNat + 6) % 256) else 0 :=
    byOctet (p := fun c => chunkSize c = if (c.toNat + 6) % 256 < 64 then 2 ^ ((c.toNat + 6) % 256) else 0) (by decide +kernel) c
  rw [this]; rfl

/-! ## Flags -/

theorem unknownFlag_text (n : Nat) (b : UInt8) : unknownFlag n b = unknownFlagText n b := by
  unfold unknownFlag unknownFlagText hashHex2
  rw [hex_octet_eq]
  simp only [List.append_assoc]; rfl

/-- adding an item if an octet is not 0 -/
theorem addOpt_flag2 (b : UInt8) (t : Str) (st : St) :
    addOpt (flag2Item b t) st = (.ok (), { st with cur := st.cur.addAll (if b ≠ 0 then [leaf "Flag".toList t] else []) }) := by
  unfold flag2Item
  by_cases h : b ≠ 0
  · rw [if_pos h, if_pos h]; rfl
  · rw [if_neg h, if_neg h, Item.addAll_nil]; rfl

theorem restFlags_eq (n : Nat) (bs : Bytes) : laterFlags n bs = restFlagRows n bs := by
  induction bs generalizing n with
  | nil => rfl
  | cons b bs ih =>
    rw [laterFlags, restFlagRows, ih]
    congr 1
    have h : b &&& 0xff = b := byOctet (p := fun b => b &&& 0xff = b) (by decide +kernel) b
    unfold flagItems flagRows
    simp only [h, ← unknownFlag_eq, unknownFlag_text, List.filterMap_cons, List.filterMap_nil, List.foldl_nil, List.nil_append]
    by_cases h0 : b ≠ 0
    · simp [h0, leaf, S]
    · simp at h0; simp [h0]

/-- bits of an octet without the ones cleared before -/
theorem flagRows_cons (m : UInt8) (t : String) (l : List (UInt8 × String)) (n : Nat) (b : UInt8) (h : ∀ p ∈ l, p.1 &&& m = 0) :
    flagRows ((m, t) :: l) n b = (if b &&& m ≠ 0 then [leaf "Flag".toList t.toList] else []) ++ flagRows l n (b &&& ~~~ m) := by
  unfold flagRows
  have e : (l.filterMap fun p => if b &&& ~~~ m &&& p.1 ≠ 0 then some (leaf "Flag".toList p.2.toList) else none) =
      l.filterMap fun p => if b &&& p.1 ≠ 0 then some (leaf "Flag".toList p.2.toList) else none := by
    refine List.filterMap_congr fun p hp => ?_
    have h1 : b &&& ~~~ m &&& p.1 = b &&& p.1 := by
      have h2 : ~~~ m &&& p.1 = p.1 := by
        have := h p hp
        have h3 : ∀ x y : UInt8, y &&& x = 0 → ~~~ x &&& y = y := by
          intro x y hxy
          have : (~~~ x &&& y) ||| (y &&& x) = y := by
            apply UInt8.eq_of_toBitVec_eq
            apply BitVec.eq_of_getLsbD_eq
            intro i hi
            simp only [UInt8.toBitVec_or, UInt8.toBitVec_and, UInt8.toBitVec_not, BitVec.getLsbD_or, BitVec.getLsbD_and, BitVec.getLsbD_not, hi, decide_true, Bool.true_and]
            cases x.toBitVec.getLsbD i <;> cases y.toBitVec.getLsbD i <;> rfl
          rw [hxy] at this
          simpa using this
        exact h3 _ _ this
      rw [UInt8.and_assoc, h2]
    rw [h1]
  rw [e]
  simp only [List.filterMap_cons, List.foldl_cons]
  by_cases hb : b &&& m ≠ 0
  · rw [if_pos hb, if_pos hb]; rfl
  · rw [if_neg hb, if_neg hb]; rfl

end Gpgpdump
