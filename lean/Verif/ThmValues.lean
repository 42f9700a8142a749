import Verif.Run

/-!
# C18, C36–C39, C43, C48, C49, C51: values shown for single fields
-/

namespace Gpgpdump
open P

/-- adding a list of items -/
def Item.addAll (i : Item) (l : List Item) : Item := .mk i.name i.value i.dump i.note (i.items ++ l)

@[simp] theorem Item.addAll_nil (i : Item) : i.addAll [] = i := by cases i; simp [Item.addAll, Item.name, Item.value, Item.dump, Item.note, Item.items]
@[simp] theorem Item.addAll_addAll (i : Item) (a b : List Item) : (i.addAll a).addAll b = i.addAll (a ++ b) := by
  cases i; simp [Item.addAll, Item.name, Item.value, Item.dump, Item.note, Item.items]
theorem Item.add_eq (i a : Item) : i.add a = i.addAll [a] := rfl
@[simp] theorem Item.addAll_items (i : Item) (l : List Item) : (i.addAll l).items = i.items ++ l := rfl

/-! ## C36 Multi-precision integers -/

/-- C36: an MPI with declared bit length `n` (two octets, big-endian) followed by its `⌈n/8⌉` octets: reading it consumes
exactly these `2 + ⌈n/8⌉` octets and adds one item with note `n bits` whose dump is exactly the octets when INTEGER (or
DEBUG) is on and empty otherwise. -/
theorem C36_mpi_consumes (name : Str) (ctx : Option Ctx) (pre post data : Bytes) (cur : Item) (l0 l1 : UInt8)
    (hd : data.length = (l0.toNat * 256 + l1.toNat + 7) / 8) :
    addMPI name (St.at ctx pre (l0 :: l1 :: data ++ post) cur) =
      (.ok (), St.at ctx (pre ++ l0 :: l1 :: data) post
        (cur.add (.mk name [] (if ctxFlag Ctx.integer ctx then Reader.dumpHex data else [])
          (dec (l0.toNat * 256 + l1.toNat) ++ S " bits") []))) := by
  simp only [addMPI, newMPI, bind_run, pure_run]
  have h2 : readBytes 2 (St.at ctx pre (l0 :: l1 :: data ++ post) cur) =
      (.ok [l0, l1], St.at ctx (pre ++ [l0, l1]) (data ++ post) cur) :=
    readBytes_append ctx pre [l0, l1] (data ++ post) cur
  have hbe : beNat [l0, l1] = l0.toNat * 256 + l1.toNat := by simp [beNat]
  rw [h2]
  simp only [hbe, ← hd]
  rw [readBytes_append]
  simp only [flag_run, add_run, mpiItem, newItem, dumpBytes_eq, St.at_ctx, List.append_assoc, List.cons_append, List.nil_append]

/-- C36: if the declared length or the declared octets are not all there, reading the MPI fails and adds nothing. -/
theorem C36_mpi_truncated (name : Str) (ctx : Option Ctx) (pre post : Bytes) (cur : Item)
    (h : ¬ ∃ l0 l1 data post', post = l0 :: l1 :: data ++ post' ∧ data.length = (l0.toNat * 256 + l1.toNat + 7) / 8) :
    ∃ e st', addMPI name (St.at ctx pre post cur) = (.err e, st') ∧ st'.cur = cur := by
  simp only [addMPI, newMPI, bind_run, pure_run]
  match post, h with
  | [], _ =>
    have := readBytes_err ctx pre [] cur 2 (by simp)
    rw [show ((2 : Nat) : Int) = 2 from rfl] at this
    rw [this]; exact ⟨_, _, rfl, rfl⟩
  | [a], _ =>
    have := readBytes_err ctx pre [a] cur 2 (by simp)
    rw [show ((2 : Nat) : Int) = 2 from rfl] at this
    rw [this]; exact ⟨_, _, rfl, rfl⟩
  | l0 :: l1 :: r, h =>
    have h2 : readBytes 2 (St.at ctx pre (l0 :: l1 :: r) cur) = (.ok [l0, l1], St.at ctx (pre ++ [l0, l1]) r cur) :=
      readBytes_append ctx pre [l0, l1] r cur
    have hbe : beNat [l0, l1] = l0.toNat * 256 + l1.toNat := by simp [beNat]
    rw [h2]
    simp only [hbe]
    have hlt : r.length < (l0.toNat * 256 + l1.toNat + 7) / 8 := by
      apply Nat.lt_of_not_le
      intro hle
      exact h ⟨l0, l1, r.take ((l0.toNat * 256 + l1.toNat + 7) / 8), r.drop ((l0.toNat * 256 + l1.toNat + 7) / 8),
        by simp, by rw [List.length_take]; omega⟩
    rw [readBytes_err _ _ _ _ _ hlt]
    exact ⟨_, _, rfl, rfl⟩

/-- a 9-bit integer takes two octets -/
example : addMPI (S "n") (St.at none [] [0, 9, 1, 0xff, 7] default) =
    (.ok (), St.at none [0, 9, 1, 0xff] [7] ((default : Item).add (.mk (S "n") [] [] (S "9 bits") []))) := by
  have := C36_mpi_consumes (S "n") none [] [7] [1, 0xff] default 0 9 (by decide)
  rw [show (dec ((0 : UInt8).toNat * 256 + (9 : UInt8).toNat) ++ S " bits") = S "9 bits" by decide] at this
  exact this

/-! ## C37 Key IDs -/

/-- C37: an eight-octet key ID is shown as `0x` and exactly sixteen hexadecimal digits that denote the octets. -/
theorem C37_keyid_shown (octets : Bytes) (h : octets.length = 8) :
    ∃ ds, (keyIDItem octets).value = S "0x" ++ ds ∧ ds.length = 16 ∧ hexNat ds = some (beNat octets) := by
  refine ⟨zpad 16 (hex (beNat octets)), rfl, ?_, by rw [hexNat_zpad, hexNat_hex]⟩
  have h1 := beNat_lt' octets
  rw [h] at h1
  have h2 := (hex_length_le (n := beNat octets) (k := 16) (by omega)).mpr (by
    have : (256 : Nat) ^ 8 = 16 ^ 16 := by decide
    omega)
  rw [zpad_length]; omega
where
  beNat_lt' (b : Bytes) : beNat b < 256 ^ b.length := by
    have cons : ∀ (b : Bytes) (k : Nat), b.foldl (fun acc x => acc * 256 + x.toNat) k = k * 256 ^ b.length + beNat b := by
      intro b
      induction b with
      | nil => intro k; simp [beNat]
      | cons x b ih =>
        intro k
        simp only [List.foldl_cons, beNat, List.length_cons, Nat.pow_succ]
        rw [ih, ih (0 * 256 + x.toNat)]
        grind
    induction b with
    | nil => decide
    | cons x b ih =>
      have hx := x.toNat_lt
      have := cons b (0 * 256 + x.toNat)
      rw [show beNat (x :: b) = b.foldl (fun acc x => acc * 256 + x.toNat) (0 * 256 + x.toNat) from rfl, this]
      have := Nat.mul_le_mul_right (256 ^ b.length) (show x.toNat ≤ 255 by omega)
      simp only [List.length_cons, Nat.pow_succ, Nat.zero_mul, Nat.zero_add]
      omega

example : (keyIDItem [0, 0, 0, 0, 0, 0, 0xab, 1]).value = S "0x000000000000ab01" := by decide

/-! ## C38 S2K count -/

/-- C38: the count shown for the octet `c` is `(16 + (c mod 16)) * 2^(c/16 + 6)`, in decimal. -/
theorem C38_count (c : UInt8) :
    (stretchItem c).value = ((16 + c.toNat % 16) * 2 ^ (c.toNat / 16 + 6)).repr.toList := by
  have h : ∀ i : Fin 256, (stretchCount (UInt8.ofNat i)).toNat = (16 + i.val % 16) * 2 ^ (i.val / 16 + 6) := by
    decide +kernel
  have hc := h ⟨c.toNat, c.toNat_lt⟩
  simp only [UInt8.ofNat_toNat] at hc
  unfold stretchItem newItem Item.value
  simp only
  rw [dec_eq, hc]

/-- C38: the count is strictly increasing in the octet. -/
theorem C38_count_increasing (a b : UInt8) (h : a < b) : (stretchCount a).toNat < (stretchCount b).toNat := by
  have hs : ∀ i : Fin 256, (stretchCount (UInt8.ofNat i)).toNat = (16 + i.val % 16) * 2 ^ (i.val / 16 + 6) := by
    decide +kernel
  have step : ∀ i : Fin 255, (16 + i.val % 16) * 2 ^ (i.val / 16 + 6) < (16 + (i.val + 1) % 16) * 2 ^ ((i.val + 1) / 16 + 6) := by
    decide +kernel
  have mono : ∀ k n, n + k + 1 < 256 → (16 + n % 16) * 2 ^ (n / 16 + 6) < (16 + (n + k + 1) % 16) * 2 ^ ((n + k + 1) / 16 + 6) := by
    intro k
    induction k with
    | zero => intro n hn; exact step ⟨n, by omega⟩
    | succ k ih => intro n hn; exact Nat.lt_trans (ih n (by omega)) (step ⟨n + k + 1, by omega⟩)
  have ha := hs ⟨a.toNat, a.toNat_lt⟩
  have hb := hs ⟨b.toNat, b.toNat_lt⟩
  simp only [UInt8.ofNat_toNat] at ha hb
  rw [ha, hb]
  have hlt : a.toNat < b.toNat := h
  have := b.toNat_lt
  have := mono (b.toNat - a.toNat - 1) a.toNat (by omega)
  rwa [show a.toNat + (b.toNat - a.toNat - 1) + 1 = b.toNat by omega] at this

example : (stretchItem 96).value = S "65536" := by decide

/-! ## C39 AEAD chunk size -/

/-- the items shown for an AEAD encrypted data packet with the four header octets `v sym aead c` -/
theorem C39_items (X : Ext) (recur : TagParser) (st : St) (v sym aead c : UInt8) (r : Bytes) :
    ∃ i st', tagParse X recur 20 (v :: sym :: aead :: c :: r) st = (.ok i, st') ∧
      ∃ d, i.items[3]? = some (newItem (S "Chunk size") (dec (chunkSize c)) [] d) := by
  simp only [tagParse, tagScope, tagBody_20, tag20, bind_run, flag_run, scope_run, readByte_cons, add_run, St.at_ctx]
  by_cases h : aeadIVLen aead ≤ r.length
  · simp only [failed, bind_run, readBytes_ok _ _ _ _ _ h, add_run, Bool.false_eq_true, if_false, rest_run]
    by_cases hr : ((r.drop (aeadIVLen aead)).length : Int) > 0
    · simp only [hr, if_true, bind_run, flag_run, addRaw_run, getCur_run]
      exact ⟨_, _, rfl, _, rfl⟩
    · simp only [hr, if_false, pure_run, getCur_run]
      exact ⟨_, _, rfl, _, rfl⟩
  · simp only [failed, bind_run, readBytes_err _ _ _ _ _ (Nat.lt_of_not_le h), if_true, getCur_run]
    exact ⟨_, _, rfl, _, rfl⟩

/-- C39 (partial: chunk-size octets up to 57): an AEAD packet is shown with chunk size `2^(c+6)` in decimal. Missing: octets
from 58 on, for which the shown size is wrong (`C39_wrong`). -/
theorem C39_chunk_size_partial (X : Ext) (recur : TagParser) (st : St) (v sym aead c : UInt8) (r : Bytes)
    (hc : c.toNat ≤ 57) :
    ∃ i st', tagParse X recur 20 (v :: sym :: aead :: c :: r) st = (.ok i, st') ∧
      ∃ k, i.items[3]? = some k ∧ k.name = S "Chunk size" ∧ k.value = (2 ^ (c.toNat + 6)).repr.toList := by
  obtain ⟨i, st', h, d, hk⟩ := C39_items X recur st v sym aead c r
  refine ⟨i, st', h, _, hk, rfl, ?_⟩
  have hcs : chunkSize c = 2 ^ (c.toNat + 6) := by
    have : ∀ i : Fin 256, i.val ≤ 57 → chunkSize (UInt8.ofNat i) = 2 ^ (i.val + 6) := by decide +kernel
    have := this ⟨c.toNat, c.toNat_lt⟩ hc
    simpa using this
  show dec (chunkSize c) = _
  rw [dec_eq, hcs]

/-- C39 is false for larger octets: the size shown for any octet from 58 on is not `2^(c+6)` (it is 0, or, after the octet
sum wraps, far too small). -/
theorem C39_wrong (X : Ext) (recur : TagParser) (st : St) (v sym aead c : UInt8) (r : Bytes) (hc : 58 ≤ c.toNat) :
    ∃ i st', tagParse X recur 20 (v :: sym :: aead :: c :: r) st = (.ok i, st') ∧
      ∃ k, i.items[3]? = some k ∧ k.name = S "Chunk size" ∧ k.value ≠ (2 ^ (c.toNat + 6)).repr.toList := by
  obtain ⟨i, st', h, d, hk⟩ := C39_items X recur st v sym aead c r
  refine ⟨i, st', h, _, hk, rfl, ?_⟩
  show dec (chunkSize c) ≠ _
  rw [← dec_eq]
  intro he
  have he := dec_inj he
  have hb : chunkSize c < 2 ^ 64 := by
    unfold chunkSize
    simp only
    split
    · exact Nat.pow_lt_pow_right (by omega) (by assumption)
    · decide
  have : 2 ^ 64 ≤ 2 ^ (c.toNat + 6) := Nat.pow_le_pow_right (by omega) (by omega)
  omega

/-! ## C43 Version labels -/

/-- the label RFC 4880 (current) and the draft call for -/
def versionLabel (ver cur draft : Nat) : Str :=
  if ver < cur then S "old" else if ver = cur then S "current" else if draft ≠ 0 ∧ ver = draft then S "draft" else S "unknown"

/-- C43: the label of a version octet, for every current version and every draft version (0: none). -/
theorem C43_version_label (ver cur draft : UInt8) (f : Bool) :
    ((⟨ver, cur, draft⟩ : Version).item f).note = versionLabel ver.toNat cur.toNat draft.toNat ∧
    ((⟨ver, cur, draft⟩ : Version).item f).value = ver.toNat.repr.toList := by
  refine ⟨?_, by simp [Version.item, newItem, Item.value, dec_eq]⟩
  simp only [Version.item, newItem, Item.note, Version.isOld, Version.isCurrent, Version.isDraft, versionLabel,
    decide_eq_true_eq, beq_iff_eq, bne_iff_ne, Bool.and_eq_true, UInt8.lt_iff_toNat_lt, ← UInt8.toNat_inj, ne_eq,
    UInt8.toNat_zero]

/-- C43: the four labels exclude each other: the label determines how the version compares. -/
theorem C43_exclusive (ver cur draft : Nat) :
    (versionLabel ver cur draft = S "old" ↔ ver < cur) ∧ (versionLabel ver cur draft = S "current" ↔ ver = cur) ∧
    (versionLabel ver cur draft = S "draft" ↔ cur < ver ∧ draft ≠ 0 ∧ ver = draft) ∧
    (versionLabel ver cur draft = S "unknown" ↔ cur < ver ∧ (draft = 0 ∨ ver ≠ draft)) := by
  have h1 : S "old" ≠ S "current" := by decide
  have h2 : S "old" ≠ S "draft" := by decide
  have h3 : S "old" ≠ S "unknown" := by decide
  have h4 : S "current" ≠ S "draft" := by decide
  have h5 : S "current" ≠ S "unknown" := by decide
  have h6 : S "draft" ≠ S "unknown" := by decide
  unfold versionLabel
  split
  · simp only [h1, h2, h3, true_iff, false_iff]; omega
  · split
    · simp only [h1.symm, h4, h5, true_iff, false_iff]; omega
    · split
      · simp only [h2.symm, h4.symm, h6, true_iff, false_iff]; omega
      · simp only [h3.symm, h5.symm, h6.symm, true_iff, false_iff]; omega

/-- the versions used for the packet types -/
example : ((sigVer 4).item false).note = S "current" ∧ ((sigVer 5).item false).note = S "draft" ∧
    ((oneSigVer 2).item false).note = S "old" ∧ ((aeadVer 5).item false).note = S "unknown" := by decide

/-! ## C49 Go map iteration order -/

theorem find?_perm_unique {α} {p : α → Bool} {l l' : List α} (hp : l.Perm l')
    (hu : ∀ a b, a ∈ l → b ∈ l → p a = true → p b = true → a = b) : l.find? p = l'.find? p := by
  cases h : l.find? p with
  | none =>
    symm
    rw [List.find?_eq_none] at h ⊢
    intro x hx
    exact h x (hp.mem_iff.mpr hx)
  | some a =>
    have ha := List.find?_some h
    have hm := List.mem_of_find?_eq_some h
    cases h' : l'.find? p with
    | none =>
      rw [List.find?_eq_none] at h'
      exact absurd ha (h' a (hp.mem_iff.mp hm))
    | some b =>
      have hb := List.find?_some h'
      have hm' := List.mem_of_find?_eq_some h'
      rw [hu a b hm (hp.mem_iff.mpr hm') ha hb]

/-- C49: the curve name does not depend on the order in which the Go map of curves is iterated. -/
theorem C49_curve_names (order : List (Str × Bytes)) (h : order.Perm oidList) (oid : Bytes) :
    oidStrWith order oid = oidStr oid := by
  have hn : ∀ a ∈ oidList, ∀ b ∈ oidList, a.2 = b.2 → a = b := by decide +kernel
  unfold oidStr oidStrWith
  rw [find?_perm_unique h.symm]
  intro a b ha hb h1 h2
  apply hn a ha b hb
  rw [beq_iff_eq] at h1 h2
  rw [← h1, ← h2]

/-- C49: an option name is looked up to the same code whatever the iteration order. -/
theorem C49_option_names (order : List (OptCode × Str)) (h : order.Perm optcodeMap) (s : Str) :
    getOptCodeWith order s = getOptCode s := by
  have hn : ∀ a ∈ optcodeMap, ∀ b ∈ optcodeMap, a.2 = b.2 → a = b := by decide +kernel
  unfold getOptCode getOptCodeWith
  rw [find?_perm_unique h.symm]
  intro a b ha hb h1 h2
  apply hn a ha b hb
  rw [beq_iff_eq] at h1 h2
  rw [← h1, ← h2]

/-- another order really is another list -/
example : oidList.reverse.Perm oidList ∧ oidList.reverse ≠ oidList := ⟨List.reverse_perm _, by decide⟩

/-! ## C51 Image attribute -/

/-- the header length of an image attribute is little-endian (RFC 4880 5.12.1) -/
def imageHeaderLen (l0 l1 : UInt8) : Nat := l0.toNat + 256 * l1.toNat

/-- what is shown: the last item of a version-1 image attribute subpacket -/
theorem C51_items (st : St) (t : UInt8) (ht : t &&& 0x7f = 1) (l0 l1 : UInt8) (r : Bytes) :
    ∃ i st', parseSub17 t (l0 :: l1 :: 1 :: r) st = (.ok i, st') ∧
      i.items[1]? = some (newItem (S "Image data") [] (iBytes ((r.length + 3 : Nat) - (l0.toNat * 256 + l1.toNat : Nat)))) := by
  have hbe : beNat [l0, l1] = l0.toNat * 256 + l1.toNat := by simp [beNat]
  have h2 : ∀ c j, readBytes 2 (St.at c [] (l0 :: l1 :: 1 :: r) j) = (.ok [l0, l1], St.at c [l0, l1] (1 :: r) j) :=
    fun c j => readBytes_append c [] [l0, l1] (1 :: r) j
  simp only [parseSub17, subScope, ht, bind_run, flag_run, scope_run]
  simp only [show (1 : UInt8).toNat = 1 from rfl, sub17Body_1, sub01, bind_run, h2, readByte_cons, hbe, if_true, add_run, reader_run, getCur_run,
    St.at_rd, St.at_cur, Reader.size]
  refine ⟨_, _, rfl, ?_⟩
  simp only [Item.add_eq, Item.addAll_addAll, Item.addAll_items]
  rw [show (subItem t (l0 :: l1 :: 1 :: r) (ctxFlag Ctx.debug st.ctx)).items = [] from rfl]
  rfl

/-- C51 (partial): the number shown is the number of octets after the image header when the two octets of the header length
are equal. Missing: all other headers, for which it is wrong (`C51_wrong`). -/
theorem C51_image_size_partial (st : St) (t : UInt8) (ht : t &&& 0x7f = 1) (l : UInt8) (r : Bytes)
    (hl : imageHeaderLen l l ≤ r.length + 3) :
    ∃ i st' k, parseSub17 t (l :: l :: 1 :: r) st = (.ok i, st') ∧ i.items[1]? = some k ∧ k.name = S "Image data" ∧
      k.note = nBytes (((l :: l :: 1 :: r).drop (imageHeaderLen l l)).length) := by
  obtain ⟨i, st', h, hk⟩ := C51_items st t ht l l r
  refine ⟨i, st', _, h, hk, rfl, ?_⟩
  show iBytes _ = _
  unfold imageHeaderLen at *
  have : ((r.length + 3 : Nat) : Int) - ((l.toNat * 256 + l.toNat : Nat) : Int) =
      (((l :: l :: 1 :: r).drop (l.toNat + 256 * l.toNat)).length : Int) := by
    simp only [List.length_drop, List.length_cons]; omega
  rw [this]
  unfold iBytes nBytes decInt
  rw [if_neg (by omega)]; rfl

theorem decInt_inj {a b : Int} (h : decInt a = decInt b) : a = b := by
  unfold decInt at h
  have hm : ∀ n, '-' ∉ dec n := fun n hn => by simpa using dec_isDigit hn
  split at h <;> split at h
  · have := dec_inj (List.cons.inj h).2; omega
  · exact absurd (h ▸ List.mem_cons_self) (hm _)
  · exact absurd (h ▸ List.mem_cons_self) (hm _)
  · have := dec_inj h; omega

/-- C51 is false: whenever the two octets of the header length differ — as in the standard header, `10 00` — the number shown
for the image data is not the number of octets after the header. -/
theorem C51_wrong (st : St) (t : UInt8) (ht : t &&& 0x7f = 1) (l0 l1 : UInt8) (r : Bytes) (hne : l0 ≠ l1)
    (hl : imageHeaderLen l0 l1 ≤ r.length + 3) :
    ∃ i st' k, parseSub17 t (l0 :: l1 :: 1 :: r) st = (.ok i, st') ∧ i.items[1]? = some k ∧ k.name = S "Image data" ∧
      k.note ≠ nBytes (((l0 :: l1 :: 1 :: r).drop (imageHeaderLen l0 l1)).length) := by
  obtain ⟨i, st', h, hk⟩ := C51_items st t ht l0 l1 r
  refine ⟨i, st', _, h, hk, rfl, ?_⟩
  show iBytes _ ≠ _
  unfold imageHeaderLen at *
  have e : nBytes ((l0 :: l1 :: 1 :: r).drop (l0.toNat + 256 * l1.toNat)).length =
      iBytes (((l0 :: l1 :: 1 :: r).drop (l0.toNat + 256 * l1.toNat)).length : Int) := by
    unfold iBytes nBytes decInt
    rw [if_neg (by omega)]; rfl
  rw [e]
  intro he
  have he := decInt_inj (List.append_cancel_right he)
  simp only [List.length_drop, List.length_cons] at he
  apply hne
  apply UInt8.toNat_inj.mp
  omega

/-- the standard 16-octet JPEG header followed by two octets of image data: shown as -4078 bytes -/
example : (parseSub17 1 [0x10, 0, 1, 1, 0, 0, 0, 0, 0, 0, 0, 0, 0, 0, 0, 0, 0xaa, 0xbb] ⟨some .empty, .new [], default⟩).1.map
    (fun i => i.items.map (fun k => (k.name, k.note))) =
    .ok [(S "Version", []), (S "Image data", S "-4078 bytes")] := by decide +kernel

/-! ## C18 Expiry dates -/

theorem C18_items (X : Ext) (recur : TagParser) (t : UInt8) (ht : t &&& 0x7f = 9) (ctx : Ctx) (rd : Reader) (cur : Item)
    (created : DateTime) (hk : ctx.keyTime = some created) (hpos : 0 < created.unix.toNat) (d0 d1 d2 d3 : UInt8) :
    ∃ i st', parseSub02 X recur t [d0, d1, d2, d3] ⟨some ctx, rd, cur⟩ = (.ok i, st') ∧
      i.note = rfc3339 X (UInt32.ofNat (created.unix.toNat + beNat [d0, d1, d2, d3])) created.utc ∧
      i.value = X.days (UInt32.ofNat (beNat [d0, d1, d2, d3])) ++ S " days after" := by
  have h4 : ∀ c j, readBytes 4 (St.at c [] [d0, d1, d2, d3] j) = (.ok [d0, d1, d2, d3], St.at c [d0, d1, d2, d3] [] j) :=
    fun c j => readBytes_append c [] [d0, d1, d2, d3] [] j
  simp only [parseSub02, subScope, ht, bind_run, flag_run, scope_run]
  simp only [show (9 : UInt8).toNat = 9 from rfl, sub02Body_9, sub09, bind_run, getCur_run, getKeyTime_run, h4, setKeyTime_run, flag_run, pure_run,
    hk]
  refine ⟨_, _, rfl, ?_, rfl⟩
  simp only [expireItem, newItem, Item.note]
  rw [if_pos (by rw [gt_iff_lt, UInt32.lt_iff_toNat_lt]; exact hpos)]
  congr 1
  apply UInt32.toNat_inj.mp
  simp

/-- C18 (partial: the sum must fit in 32 bits): a key expiration subpacket, met when a key with creation time `created > 0`
was seen, shows as its end date the date of the instant (creation time + validity). Missing: sums from 2^32 on, for which it is
false (`C18_wrong`). -/
theorem C18_expiry_partial (X : Ext) (recur : TagParser) (t : UInt8) (ht : t &&& 0x7f = 9) (ctx : Ctx) (rd : Reader) (cur : Item)
    (created : DateTime) (hk : ctx.keyTime = some created) (hpos : 0 < created.unix.toNat) (d0 d1 d2 d3 : UInt8)
    (hfit : created.unix.toNat + beNat [d0, d1, d2, d3] < 2 ^ 32) :
    ∃ i st' instant, parseSub02 X recur t [d0, d1, d2, d3] ⟨some ctx, rd, cur⟩ = (.ok i, st') ∧
      i.note = rfc3339 X instant created.utc ∧
      instant.toNat = created.unix.toNat + beNat [d0, d1, d2, d3] := by
  obtain ⟨i, st', h, hn, _⟩ := C18_items X recur t ht ctx rd cur created hk hpos d0 d1 d2 d3
  exact ⟨i, st', _, h, hn, UInt32.toNat_ofNat_of_lt' hfit⟩

/-- C18 is false in general: with the UTC option, a key created in the last representable second and valid for one second is
shown to expire at 1970-01-01T00:00:00Z. -/
theorem C18_wrong (X : Ext) (recur : TagParser) : ∃ (ctx : Ctx) (created : DateTime) (body : Bytes) (i : Item) (st' : St),
    ctx.keyTime = some created ∧ created.utc = true ∧
    parseSub02 X recur 9 body ⟨some ctx, Reader.new [], default⟩ = (.ok i, st') ∧
    i.note = S "1970-01-01T00:00:00Z" ∧ created.unix.toNat + beNat body = 2 ^ 32 := by
  obtain ⟨i, st', h, hn, _⟩ := C18_items X recur 9 (by decide)
    ⟨fun _ => false, .notSpecified, none, some ⟨[255, 255, 255, 255], true⟩⟩ (Reader.new []) default
    ⟨[255, 255, 255, 255], true⟩ rfl (by decide) 0 0 0 1
  refine ⟨_, _, _, i, st', rfl, rfl, h, ?_, by decide⟩
  rw [hn]
  have : ∀ x : UInt32, x = 0 → rfc3339 X x true = S "1970-01-01T00:00:00Z" := by
    intro x hx; subst hx
    rw [rfc3339, if_pos rfl]
    decide +kernel
  exact this _ (by decide)

/-- hypotheses of `C18_expiry_partial` are satisfiable -/
example : 0 < (⟨[0x5f, 0, 0, 0], true⟩ : DateTime).unix.toNat ∧
    (⟨[0x5f, 0, 0, 0], true⟩ : DateTime).unix.toNat + beNat [0, 1, 0x51, 0x80] < 2 ^ 32 := by decide

/-! ## C48 Flag octets -/

/-- the items of one flag octet: for each table entry (mask, text), in order, an item when a bit of the mask is set -/
def flagItems (table : List (UInt8 × (UInt8 → Str))) (b : UInt8) : List Item :=
  table.filterMap fun e => if b &&& e.1 ≠ 0 then some (.mk (S "Flag") (e.2 (b &&& e.1)) [] [] []) else none

/-- every bit of an octet belongs to exactly one entry of the table -/
def Partition (table : List (UInt8 × (UInt8 → Str))) : Prop :=
  ∀ bit : Fin 8, (table.filter fun e => e.1 &&& (1 <<< UInt8.ofNat bit) ≠ 0).length = 1

/-- text of an unknown flag in octet number `n`: the number and the octet's unknown bits in hex -/
def unknownText (n : Nat) (b : UInt8) : Str := S "Unknown flag" ++ n.repr.toList ++ S "(0x" ++ zpad 2 (hex b.toNat) ++ S ")"

/-- items of the octets after the known ones, the first of them numbered `n` -/
def laterFlags (n : Nat) : Bytes → List Item
  | [] => []
  | b :: bs => flagItems [(0xff, unknownText n)] b ++ laterFlags (n + 1) bs

/-- features (RFC 4880bis 5.2.3.25) -/
def featureTable : List (UInt8 × (UInt8 → Str)) :=
  [(0x01, fun _ => S "Modification Detection (packets 18 and 19)"),
   (0x02, fun _ => S "AEAD Encrypted Data Packet (packet 20) and version 5 Symmetric-Key Encrypted Session Key Packets (packet 3)"),
   (0x04, fun _ => S "Version 5 Public-Key Packet format and corresponding new fingerprint format"),
   (0xf8, unknownText 1)]

/-- key server preferences (RFC 4880 5.2.3.17) -/
def serverTable : List (UInt8 × (UInt8 → Str)) := [(0x80, fun _ => S "No-modify"), (0x7f, unknownText 1)]

/-- key flags, first octet (RFC 4880bis 5.2.3.22) -/
def keyFlagTable1 : List (UInt8 × (UInt8 → Str)) :=
  [(0x01, fun _ => S "This key may be used to certify other keys."),
   (0x02, fun _ => S "This key may be used to sign data."),
   (0x04, fun _ => S "This key may be used to encrypt communications."),
   (0x08, fun _ => S "This key may be used to encrypt storage."),
   (0x10, fun _ => S "The private component of this key may have been split by a secret-sharing mechanism."),
   (0x20, fun _ => S "This key may be used for authentication."),
   (0x40, unknownText 1),
   (0x80, fun _ => S "The private component of this key may be in the possession of more than one person.")]

/-- key flags, second octet -/
def keyFlagTable2 : List (UInt8 × (UInt8 → Str)) :=
  [(0x04, fun _ => S "This key may be used as an additional decryption subkey (ADSK)."),
   (0x08, fun _ => S "This key may be used for timestamping."),
   (0xf3, unknownText 2)]

theorem unknownFlag_eq (n : Nat) (b : UInt8) : unknownFlag n b = unknownText n b := by
  unfold unknownFlag unknownText hashHex2
  rw [dec_eq]
  simp only [List.append_assoc]
  rfl

theorem addOpt_flag (m b : UInt8) (f : UInt8 → Str) (s : Str) (hs : s = f (b &&& m)) (st : St) :
    addOpt (flag2Item (b &&& m) s) st = (.ok (), { st with cur := st.cur.addAll (flagItems [(m, f)] b) }) := by
  subst hs
  unfold flag2Item flagItems
  by_cases h : b &&& m ≠ 0
  · rw [if_pos h]; simp [h]; rfl
  · rw [if_neg h]
    simp at h
    simp [h]; rfl

theorem flagItems_cons (e e' : UInt8 × (UInt8 → Str)) (t : List (UInt8 × (UInt8 → Str))) (b : UInt8) :
    flagItems (e :: e' :: t) b = flagItems [e] b ++ flagItems (e' :: t) b := by
  unfold flagItems
  rw [show e :: e' :: t = [e] ++ (e' :: t) from rfl, List.filterMap_append]

theorem otherFlags_run (n : Nat) (bs : Bytes) (st : St) :
    otherFlags n bs st = (.ok (), { st with cur := st.cur.addAll (laterFlags n bs) }) := by
  induction bs generalizing n st with
  | nil => simp [otherFlags, laterFlags]; rfl
  | cons b bs ih =>
    have h := addOpt_flag 0xff b (unknownText n) (unknownFlag n b) (by
      rw [unknownFlag_eq]; congr 1
      have : ∀ i : Fin 256, UInt8.ofNat i = UInt8.ofNat i &&& 0xff := by decide +kernel
      simpa using this ⟨b.toNat, b.toNat_lt⟩) st
    rw [show b &&& 0xff = b from by
      have : ∀ i : Fin 256, UInt8.ofNat i &&& 0xff = UInt8.ofNat i := by decide +kernel
      simpa using this ⟨b.toNat, b.toNat_lt⟩] at h
    simp only [otherFlags, bind_run, h, ih, laterFlags, Item.addAll_addAll]

theorem trailingFlags_run (c : Option Ctx) (p q : Bytes) (j : Item) :
    ∃ rd, trailingFlags (St.at c p q j) = (.ok (), ⟨c, rd, j.addAll (laterFlags 2 q)⟩) := by
  simp only [trailingFlags, bind_run, rest_run]
  by_cases hq : q = []
  · subst hq
    simp only [List.length_nil, Int.natCast_zero, gt_iff_lt, Int.lt_irrefl, if_false, pure_run, laterFlags, Item.addAll_nil]
    exact ⟨_, rfl⟩
  · have : 0 < q.length := List.length_pos_iff.mpr hq
    rw [if_pos (by omega)]
    obtain ⟨rd, h, _⟩ := read2EOF_ok c p q j hq
    simp only [bind_run, h, otherFlags_run]
    exact ⟨_, rfl⟩

/-- C48 for features: the subpacket's items are exactly the table items of the first octet followed by the unknown flags of
octets 2, 3, …, numbered by position. -/
theorem C48_features (X : Ext) (recur : TagParser) (t : UInt8) (ht : t &&& 0x7f = 30) (b : UInt8) (bs : Bytes) (st : St) :
    ∃ i st', parseSub02 X recur t (b :: bs) st = (.ok i, st') ∧ i.items = flagItems featureTable b ++ laterFlags 2 bs := by
  simp only [parseSub02, subScope, ht, bind_run, flag_run, scope_run]
  simp only [show (30 : UInt8).toNat = 30 from rfl, sub02Body_30, sub30, bind_run, readByte_cons,
    addOpt_flag 0x01 b (fun _ => S "Modification Detection (packets 18 and 19)") _ rfl,
    addOpt_flag 0x02 b (fun _ => S "AEAD Encrypted Data Packet (packet 20) and version 5 Symmetric-Key Encrypted Session Key Packets (packet 3)") _ rfl,
    addOpt_flag 0x04 b (fun _ => S "Version 5 Public-Key Packet format and corresponding new fingerprint format") _ rfl,
    addOpt_flag 0xf8 b (unknownText 1) _ (unknownFlag_eq _ _), St.at_setCur, St.at_cur, Item.addAll_addAll]
  obtain ⟨rd, h⟩ := trailingFlags_run st.ctx ([] ++ [b]) bs _
  rw [h]
  simp only [getCur_run]
  refine ⟨_, _, rfl, ?_⟩
  simp only [Item.addAll_items, featureTable]
  simp only [flagItems_cons]
  simp [subItem, newItem, Item.items]

/-- C48 for key server preferences. -/
theorem C48_server_preferences (X : Ext) (recur : TagParser) (t : UInt8) (ht : t &&& 0x7f = 23) (b : UInt8) (bs : Bytes) (st : St) :
    ∃ i st', parseSub02 X recur t (b :: bs) st = (.ok i, st') ∧ i.items = flagItems serverTable b ++ laterFlags 2 bs := by
  simp only [parseSub02, subScope, ht, bind_run, flag_run, scope_run]
  simp only [show (23 : UInt8).toNat = 23 from rfl, sub02Body_23, sub23, bind_run, readByte_cons,
    addOpt_flag 0x80 b (fun _ => S "No-modify") _ rfl,
    addOpt_flag 0x7f b (unknownText 1) _ (unknownFlag_eq _ _), St.at_setCur, St.at_cur, Item.addAll_addAll]
  obtain ⟨rd, h⟩ := trailingFlags_run st.ctx ([] ++ [b]) bs _
  rw [h]
  simp only [getCur_run]
  refine ⟨_, _, rfl, ?_⟩
  simp only [Item.addAll_items, serverTable]
  simp only [flagItems_cons]
  simp [subItem, newItem, Item.items]

theorem keyFlags1_run (b : UInt8) (st : St) (k : P Item) :
    (do
      addOpt (flag2Item (b &&& 0x01) (S "This key may be used to certify other keys."))
      addOpt (flag2Item (b &&& 0x02) (S "This key may be used to sign data."))
      addOpt (flag2Item (b &&& 0x04) (S "This key may be used to encrypt communications."))
      addOpt (flag2Item (b &&& 0x08) (S "This key may be used to encrypt storage."))
      addOpt (flag2Item (b &&& 0x10) (S "The private component of this key may have been split by a secret-sharing mechanism."))
      addOpt (flag2Item (b &&& 0x20) (S "This key may be used for authentication."))
      addOpt (flag2Item (b &&& 0x40) (unknownFlag 1 (b &&& 0x40)))
      addOpt (flag2Item (b &&& 0x80) (S "The private component of this key may be in the possession of more than one person."))
      k : P Item) st = k { st with cur := st.cur.addAll (flagItems keyFlagTable1 b) } := by
  simp only [bind_run,
    addOpt_flag 0x01 b (fun _ => S "This key may be used to certify other keys.") _ rfl,
    addOpt_flag 0x02 b (fun _ => S "This key may be used to sign data.") _ rfl,
    addOpt_flag 0x04 b (fun _ => S "This key may be used to encrypt communications.") _ rfl,
    addOpt_flag 0x08 b (fun _ => S "This key may be used to encrypt storage.") _ rfl,
    addOpt_flag 0x10 b (fun _ => S "The private component of this key may have been split by a secret-sharing mechanism.") _ rfl,
    addOpt_flag 0x20 b (fun _ => S "This key may be used for authentication.") _ rfl,
    addOpt_flag 0x40 b (unknownText 1) _ (unknownFlag_eq _ _),
    addOpt_flag 0x80 b (fun _ => S "The private component of this key may be in the possession of more than one person.") _ rfl,
    Item.addAll_addAll]
  simp only [keyFlagTable1]
  simp only [flagItems_cons, List.append_assoc]

/-- the items shown for key flags of at least two octets, as they are: octets 3, 4, … are numbered 2, 3, … -/
theorem C48_key_flags_items (X : Ext) (recur : TagParser) (t : UInt8) (ht : t &&& 0x7f = 27) (b g : UInt8) (bs : Bytes) (st : St) :
    ∃ i st', parseSub02 X recur t (b :: g :: bs) st = (.ok i, st') ∧
      i.items = flagItems keyFlagTable1 b ++ flagItems keyFlagTable2 g ++ laterFlags 2 bs := by
  simp only [parseSub02, subScope, ht, bind_run, flag_run, scope_run]
  simp only [show (27 : UInt8).toNat = 27 from rfl, sub02Body_27, sub27]
  rw [bind_run, readByte_cons]
  simp only
  rw [keyFlags1_run]
  simp only [St.at_setCur, St.at_cur]
  rw [bind_run, rest_run]
  simp only
  rw [if_pos (by simp)]
  simp only [bind_run, readByte_cons,
    addOpt_flag 0x04 g (fun _ => S "This key may be used as an additional decryption subkey (ADSK).") _ rfl,
    addOpt_flag 0x08 g (fun _ => S "This key may be used for timestamping.") _ rfl,
    addOpt_flag 0xf3 g (unknownText 2) _ (unknownFlag_eq _ _), St.at_setCur, St.at_cur, Item.addAll_addAll]
  obtain ⟨rd, h⟩ := trailingFlags_run st.ctx ([] ++ [b] ++ [g]) bs
    ((subItem t (b :: g :: bs) (ctxFlag Ctx.debug st.ctx)).addAll (flagItems keyFlagTable1 b ++
      (flagItems [(0x04, fun _ => S "This key may be used as an additional decryption subkey (ADSK).")] g ++
      (flagItems [(0x08, fun _ => S "This key may be used for timestamping.")] g ++ flagItems [(0xf3, unknownText 2)] g))))
  simp only [List.append_assoc] at h ⊢
  rw [h]
  simp only [getCur_run]
  refine ⟨_, _, rfl, ?_⟩
  simp only [Item.addAll_items]
  simp only [keyFlagTable2, flagItems_cons]
  simp [subItem, newItem, Item.items]

/-- C48 for key flags (partial: at most two octets): exactly the table items of the first and second octet. Missing: from the
third octet on the octets are numbered one too low (`C48_key_flags_wrong`). -/
theorem C48_key_flags_partial (X : Ext) (recur : TagParser) (t : UInt8) (ht : t &&& 0x7f = 27) (b : UInt8) (st : St) :
    (∃ i st', parseSub02 X recur t [b] st = (.ok i, st') ∧ i.items = flagItems keyFlagTable1 b) ∧
    (∀ g, ∃ i st', parseSub02 X recur t [b, g] st = (.ok i, st') ∧
      i.items = flagItems keyFlagTable1 b ++ flagItems keyFlagTable2 g) := by
  constructor
  · simp only [parseSub02, subScope, ht, bind_run, flag_run, scope_run]
    simp only [show (27 : UInt8).toNat = 27 from rfl, sub02Body_27, sub27]
    rw [bind_run, readByte_cons]
    simp only
    rw [keyFlags1_run]
    simp only [St.at_setCur, St.at_cur]
    rw [bind_run, rest_run]
    simp only
    rw [if_neg (by simp)]
    obtain ⟨rd, h⟩ := trailingFlags_run st.ctx ([] ++ [b]) []
      ((subItem t [b] (ctxFlag Ctx.debug st.ctx)).addAll (flagItems keyFlagTable1 b))
    simp only [bind_run, pure_run, h, getCur_run]
    refine ⟨_, _, rfl, ?_⟩
    show (Item.addAll _ _).items = _
    rw [Item.addAll_items, Item.addAll_items]
    rw [show (subItem t [b] (ctxFlag Ctx.debug st.ctx)).items = [] from rfl]
    simp [laterFlags]
  · intro g
    obtain ⟨i, st', h, hi⟩ := C48_key_flags_items X recur t ht b g [] st
    exact ⟨i, st', h, by simpa [laterFlags] using hi⟩

/-- C48: the tables cover every bit of the octet exactly once, so every set bit is accounted for by exactly one item and a
clear bit by none. -/
theorem C48_tables_partition : Partition featureTable ∧ Partition serverTable ∧ Partition keyFlagTable1 ∧
    Partition keyFlagTable2 ∧ ∀ n, Partition [(0xff, unknownText n)] := by
  refine ⟨by unfold Partition; decide, by unfold Partition; decide, by unfold Partition; decide, by unfold Partition; decide, ?_⟩
  intro n bit
  have : ∀ bit : Fin 8, ((0xff : UInt8) &&& (1 <<< UInt8.ofNat bit) ≠ 0) := by decide
  rw [List.filter_cons_of_pos (by simpa using this bit)]
  rfl

/-- C48 is false for the numbering of key flag octets: a bit in the third octet is shown as `Unknown flag2`. -/
theorem C48_key_flags_wrong (X : Ext) (recur : TagParser) (st : St) :
    ∃ i st', parseSub02 X recur 27 [0, 0, 1] st = (.ok i, st') ∧ i.items.map Item.value = [S "Unknown flag2(0x01)"] ∧
      i.items ≠ laterFlags 3 [1] := by
  obtain ⟨i, st', h, hi⟩ := C48_key_flags_items X recur 27 (by decide) 0 0 [1] st
  refine ⟨i, st', h, ?_, ?_⟩
  · rw [hi]; decide +kernel
  · rw [hi]
    intro he
    have := congrArg (List.map Item.value) he
    revert this
    decide +kernel

end Gpgpdump
