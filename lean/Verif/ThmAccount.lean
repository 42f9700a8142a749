import Verif.Account
import Verif.ThmUnknownSubs
import Verif.Tests

/-!
# C42: no octet of a packet is dropped silently
-/

namespace Gpgpdump
open P Spec

theorem seek_end (c p q j) : seek 0 2 (St.at c p q j) = (.ok ((p ++ q).length : Int), St.at c (p ++ q) [] j) := by
  simp [seek, Reader.seek, St.at, Reader.size]
  rw [if_neg (by omega)]
  simp
  omega

theorem seek_back3 (c p m q j) (h : m.length = 3) : seek (-3) 1 (St.at c (p ++ m) q j) = (.ok (p.length : Int), St.at c p (m ++ q) j) := by
  simp [seek, Reader.seek, St.at, Reader.size, h]
  rw [if_neg (by omega)]
  simp
  omega

namespace Acc

theorem parseSecEnc (a) : Acc [] (parseSecEnc a) := by
  have key : ∀ (n : Str), (n ∈ sizedNames ∨ ∃ p ∈ sizedPrefixes, ∃ s, n = p ++ s) →
      Acc [] (Gpgpdump.addOpaque n >>= fun _ => seek 0 2 >>= fun _ => Pure.pure ()) := by
    intro n hn c p q j u s hr
    unfold Gpgpdump.addOpaque at hr
    rw [bind_assoc_P] at hr
    obtain ⟨d, s1, h1, h2⟩ := bind_inv hr
    obtain ⟨-, rfl⟩ := flag_inv h1
    rw [bind_run, addRaw_run] at h2
    simp only at h2
    rw [bind_run, seek_end] at h2
    obtain ⟨-, rfl⟩ := pure_inv h2
    refine ⟨c, q, [], [_], by simp, by rw [Item.add_eq], ?_⟩
    refine Cover.one (.sized hn ?_)
    rw [List.nil_append]
    exact rfl
  unfold Gpgpdump.parseSecEnc
  split
  · exact key _ (Or.inl (by decide))
  · exact key _ (Or.inl (by decide))
  · exact key _ (Or.inl (by decide))
  · exact key _ (Or.inl (by decide))
  · exact key _ (Or.inl (by decide))
  · exact key _ (Or.inl (by decide))
  · exact key _ (Or.inr ⟨sizedPrefixes[0], List.getElem_mem _, _, List.append_assoc _ _ _⟩)

theorem numbered1 {n k : String} {d : Str} {b : UInt8} {v dump : Str} (hk : (n.toList, k.toList) ∈ numbered)
    (hv : v = d ++ " (".toList ++ k.toList ++ " ".toList ++ dec b.toNat ++ ")".toList) : Shown (newItem (S n) v [] dump) [b] :=
  .numbered hk rfl hv rfl

theorem hashShown (b d) : Shown (hashItem b d) [b] := numbered1 (k := "hash") (d := algName hashIDNames b) (by decide) (by
  unfold hashStr; simp only [List.append_assoc]; rfl)
theorem symShown (b d) : Shown (symItem b d) [b] := numbered1 (k := "sym") (d := algName symIDNames b) (by decide) (by
  unfold symStr; simp only [List.append_assoc]; rfl)
theorem pubShown (b d) : Shown (pubItem b d) [b] := numbered1 (k := "pub") (d := algName pubIDNames b) (by decide) (by
  unfold pubStr; simp only [List.append_assoc]; rfl)
theorem aeadShown (b d) : Shown (aeadItem b d) [b] := numbered1 (k := "aead") (d := algName aeadIDNames b) (by decide) (by
  unfold aeadStr; simp only [List.append_assoc]; rfl)
theorem sigShown (b d) : Shown (sigItem b d) [b] := .sigType rfl (d := sigIDNames.get b.toNat Unknown) rfl
theorem verShown (v : Version) (d) : Shown (v.item d) [v.ver] := .version rfl rfl
theorem keyShown (k : Bytes) (h : k.length = 8) : Shown (keyIDItem k) k := by
  obtain ⟨ds, h1, h2, h3⟩ := C37_keyid_shown k h
  exact .keyID rfl h h1 h2 h3

theorem s2kParse (d) : Acc [] (s2kParse d) := by
  unfold Gpgpdump.s2kParse
  refine readByte fun ss => ?_
  refine nested' ?_ ?_
  · refine ite (fun _ => ?_) (fun _ => ite (fun _ => ?_) (fun _ => pure _))
    · refine readByte fun h => ?_
      refine bind (add (hashShown h d)) fun _ => ?_
      have tail : Acc [] (if ss = 3 then P.readByte >>= fun ct => P.add (stretchItem ct) >>= fun _ => Pure.pure true else Pure.pure true) := by
        refine ite (fun _ => ?_) (fun _ => pure _)
        exact readByte fun ct => bind (add (.count rfl rfl)) fun _ => pure _
      refine ite (fun _ => ?_) (fun _ => tail)
      exact readBytes 8 fun salt _ => bind (add (.dumped (show S "Salt" ∈ dumpedNames by decide) (dumpBytes_true salt))) fun _ => tail
    · refine rest fun x => ite (fun _ => pure _) (fun _ => ?_)
      intro c p q j a s hr
      obtain ⟨mrk, s1, h1, h2⟩ := bind_inv hr
      obtain ⟨q', rfl, hl, rfl⟩ := readBytes_inv (n := 3) h1
      by_cases hm : mrk = [0x47, 0x4e, 0x55]
      · rw [if_pos hm] at h2
        have : Acc mrk (P.readByte >>= fun n => (P.build (newItem (S "GNU-divert-to-card") (S "Extension Number " ++ dec (1000 + n.toNat))) (do
            if 1000 + n.toNat = 1002 then
              let l ← P.readByte
              let ser ← P.readBytes l.toNat
              P.add (newItem (S "Serial Number") [] [] (dumpBytes ser true))
            else Pure.pure ()) >>= fun gnu => P.add gnu >>= fun _ => Pure.pure false)) := by
          refine readByte fun n => build ?_ ?_
          · refine ite (fun _ => ?_) (fun _ => pure _)
            refine readByte fun l => readBytes _ fun ser hs => add ?_
            rw [List.nil_append, List.singleton_append, ofNat_length l ser hs]
            exact .serial rfl (by rw [hs]; exact l.toNat_lt) (dumpBytes_true ser)
          · intro l g hc
            subst hm
            exact bind (add (.gnu rfl rfl hc)) fun _ => pure _
        obtain ⟨c2, f2, q2, l2, rfl, rfl, hc⟩ := this _ _ _ _ _ _ h2
        exact ⟨c2, mrk ++ f2, q2, l2, by simp, by simp, hc⟩
      · rw [if_neg hm, bind_run, seek_back3 _ _ _ _ _ hl] at h2
        obtain ⟨-, rfl⟩ := pure_inv h2
        exact ⟨c, [], mrk ++ q', [], by simp, by simp, .nil⟩
  · intro l f hc
    refine .s2k rfl (d := algName s2kIDNames ss) ?_ hc
    exact rfl

theorem dateShown (X : Ext) (t : DateTime) (n : String) (d) (hn : n.toList ∈ timeNames) (hl : t.tm.length = 4) :
    Shown (dateTimeItem X t (S n) d) t.tm := .time hn hl

theorem newDateTime {α} {b} {utc} {f : DateTime → P α} (h : ∀ t : DateTime, t.tm.length = 4 → Acc (b ++ t.tm) (f t)) :
    Acc b (newDateTime utc >>= f) := by
  unfold Gpgpdump.newDateTime
  rw [bind_assoc_P]
  exact readBytes 4 fun x hx => h ⟨x, utc⟩ hx

theorem pubkeyTime (X) : Acc [] (pubkeyTime X) := by
  unfold Gpgpdump.pubkeyTime
  exact flag fun _ => newDateTime fun t ht => setKeyTime (flag fun _ => add (dateShown _ _ _ _ (by decide) ht))

theorem pubkeyParse (X) (v : Version) (h5 : v.isDraft = false) : Acc [] (pubkeyParse X v) := by
  unfold Gpgpdump.pubkeyParse
  rw [if_neg (by rw [h5]; decide)]
  refine ite (fun _ => ?_) (fun _ => ite (fun _ => ?_) (fun _ => pure _))
  · refine bind (pubkeyTime X) fun _ => readByte fun a => flag fun d => bind (add (pubShown a d)) fun _ => ?_
    exact bind (parsePub a) fun _ => pure _
  · refine bind (pubkeyTime X) fun _ => readBytes 2 fun days hd => bind (add (.days rfl hd rfl)) fun _ => ?_
    refine readByte fun a => flag fun d => bind (add (pubShown a d)) fun _ => ?_
    exact bind (parsePub a) fun _ => pure _

theorem secOptions (u) : Acc [] (secOptions u) := by
  unfold Gpgpdump.secOptions
  refine flag fun d => bind ?_ fun symid => ?_
  · refine ite (fun _ => ?_) (fun _ => pure _)
    exact readByte fun a => bind (add (symShown a d)) fun _ => pure _
  · have tail : Acc [] (if u = 0 then Pure.pure (symid, false) else
        if u = 253 ∨ u = 254 ∨ u = 255 then Gpgpdump.s2kParse d >>= fun hasIV => Pure.pure (symid, hasIV) else Pure.pure (symid, true)) := by
      refine ite (fun _ => pure _) (fun _ => ite (fun _ => ?_) (fun _ => pure _))
      exact bind (s2kParse d) fun _ => pure _
    exact ite (fun _ => readByte fun a => bind (add (aeadShown a d)) fun _ => tail) (fun _ => tail)

theorem secIV (s b) : Acc [] (secIV s b) := by
  unfold Gpgpdump.secIV
  refine readBytes _ fun iv _ => add (.dumped ?_ (dumpBytes_true iv))
  show (if b = true then S "nonce for the AEAD" else S "IV") ∈ dumpedNames
  cases b <;> decide

theorem secField1 (v : Version) (u) (h5 : v.ver ≠ 5) : Acc [] (secField1 v u) := by
  unfold Gpgpdump.secField1 getField1
  rw [if_neg h5]
  show Acc [] (onField Field.shared (Gpgpdump.secOptions u) >>= _)
  unfold onField
  rw [bind_assoc_P]
  refine bind (secOptions u) fun a => ?_
  exact ite (fun _ => bind (secIV _ _) fun _ => pure _) (fun _ => pure _)

end Acc

theorem setNote_cover {α} {note : Str} {m : Unit → P α} (h : Acc [] (m ())) {c p q j a s} (hr : (setNote note >>= m) (St.at c p q j) = (.ok a, s)) :
    ∃ c' f q' l, q = f ++ q' ∧ s = St.at c' (p ++ f) q' ((j.setNote note).addAll l) ∧ Cover l f := by
  rw [bind_run, setNote_run] at hr
  exact h _ _ _ _ _ _ hr

theorem seckey_shown (v : Version) (a : UInt8) (h5 : v.ver ≠ 5) {c p q x s}
    (hr : seckeyParse v a (St.at c p q (newItem (S "Secret-Key"))) = (.ok x, s)) :
    ∃ c' f q' i, q = f ++ q' ∧ s = St.at c' (p ++ f) q' i ∧ Shown i f := by
  unfold seckeyParse at hr
  ibyte u q1 at hr
  obtain ⟨_, s1, h1, h2⟩ := bind_inv hr
  obtain ⟨c1, f1, q1, l1, rfl, rfl, hc1⟩ := Acc.secField1 v u h5 _ _ _ _ _ _ h1
  unfold secField2 getField2 at h2
  rw [if_neg h5] at h2
  have fin : ∀ (note : Str) (t : Str), note = "s2k usage ".toList ++ dec u.toNat ++ "; ".toList ++ t → ∀ {m : Unit → P Unit}, Acc [] (m ()) →
      (setNote note >>= m) (St.at c1 (p ++ [u] ++ f1) q1 ((newItem (S "Secret-Key")).addAll l1)) = (.ok x, s) →
      ∃ c' f q' i, u :: (f1 ++ q1) = f ++ q' ∧ s = St.at c' (p ++ f) q' i ∧ Shown i f := by
    intro note t hn m hm h
    obtain ⟨c2, f2, q2, l2, rfl, rfl, hc2⟩ := setNote_cover hm h
    refine ⟨c2, u :: (f1 ++ f2), q2, _, by simp, by simp; rfl, ?_⟩
    refine .secretKey (s := t) rfl hn ?_
    simpa [Item.setNote, Item.addAll, newItem, Item.items] using hc1.append hc2
  change (if u = 0 then (_ : P Unit) else (_ : P Unit)) _ = _ at h2
  by_cases hu : u = 0
  · rw [if_pos hu] at h2
    refine fin _ "plain secret-key material".toList (by subst hu; decide) ?_ h2
    show Acc [] (onField Field.shared _ >>= _)
    unfold onField
    rw [bind_assoc_P]
    refine Acc.bind (Acc.parseSecPlain a) fun _ => ?_
    refine Acc.readBytes 2 fun chk _ => Acc.bind (Acc.add (.dumped (show S "2-octet checksum" ∈ dumpedNames by decide) (dumpBytes_true chk))) fun _ => Acc.pure _
  · rw [if_neg hu] at h2
    have hm : Acc [] ((onField Field.shared (parseSecEnc a)) >>= fun r => fieldRest r.2) := by
      unfold onField
      rw [bind_assoc_P]
      exact Acc.bind (Acc.parseSecEnc a) fun _ => Acc.pure _
    by_cases h3 : u = 253
    · rw [if_pos h3] at h2
      exact fin _ "encrypted secret-key material and AEAD authentication tag".toList (by subst h3; decide) hm h2
    · rw [if_neg h3] at h2
      by_cases h4 : u = 254
      · rw [if_pos h4] at h2
        exact fin _ "encrypted secret-key material and 20-octet SHA-1 hash".toList (by subst h4; decide) hm h2
      · rw [if_neg h4] at h2
        exact fin _ "encrypted secret-key material and 2-octet checksum".toList (by
          simp only [List.append_assoc]; rfl) hm h2

/-- like `Acc` for methods that show everything up to the end of the packet -/
def Whole {α} (pend : Bytes) (m : P α) : Prop :=
  ∀ c p q j a s, m (St.at c p q j) = (.ok a, s) → ∃ l, s.cur = j.addAll l ∧ Cover l (pend ++ q)

namespace Whole

theorem bind {α β} {b} {m : P α} {f : α → P β} (h : Acc b m) (h' : ∀ a, Whole [] (f a)) : Whole b (m >>= f) := by
  intro c p q j a s hr
  obtain ⟨_, s1, h1, h2⟩ := bind_inv hr
  obtain ⟨c1, f1, q1, l1, rfl, rfl, hc1⟩ := h _ _ _ _ _ _ h1
  obtain ⟨l2, h3, hc2⟩ := h' _ _ _ _ _ _ _ h2
  refine ⟨l1 ++ l2, by rw [h3]; simp, ?_⟩
  rw [← List.append_assoc]
  exact hc1.append hc2
theorem readByte {α} {b} {f : UInt8 → P α} (h : ∀ x, Whole (b ++ [x]) (f x)) : Whole b (readByte >>= f) := by
  intro c p q j a s hr
  ibyte x q1 at hr
  obtain ⟨l, h1, h2⟩ := h x _ _ _ _ _ _ hr
  exact ⟨l, h1, by simpa using h2⟩
theorem readBytes {α} {b} (n : Nat) {f : Bytes → P α} (h : ∀ x : Bytes, x.length = n → Whole (b ++ x) (f x)) : Whole b (P.readBytes n >>= f) := by
  intro c p q j a s hr
  ibytes x q1 hl at hr
  obtain ⟨l, h1, h2⟩ := h x hl _ _ _ _ _ _ hr
  exact ⟨l, h1, by simpa using h2⟩
theorem flag {α} {b} {g : Ctx → Bool} {f : Bool → P α} (h : ∀ x, Whole b (f x)) : Whole b (flag g >>= f) := by
  intro c p q j a s hr
  iflag at hr
  exact h _ _ _ _ _ _ _ hr
theorem ite {α} {b} {t : Prop} [Decidable t] {m m' : P α} (h : t → Whole b m) (h' : ¬ t → Whole b m') : Whole b (if t then m else m') := by
  split
  · exact h ‹_›
  · exact h' ‹_›
theorem unknownData : Whole [] unknownData := by
  intro c p q j a s hr
  rw [unknownData_run] at hr
  simp only [Prod.mk.injEq] at hr
  rw [← hr.2]
  by_cases hq : q = []
  · subst hq
    exact ⟨[], by simp, .nil⟩
  · rw [if_neg hq, Item.add_eq]
    exact ⟨_, rfl, Cover.one (.sized (Or.inl (show S "Unknown data" ∈ sizedNames by decide)) rfl)⟩

theorem tag01 : Whole [] tag01 := by
  unfold Gpgpdump.tag01
  refine bind (.setMode _) fun _ => readByte fun v => flag fun d => bind (.add (Acc.verShown _ d)) fun _ => ?_
  refine readBytes 8 fun k hk => bind (.add (Acc.keyShown k hk)) fun _ => readByte fun a => flag fun d => bind (.add (Acc.pubShown a d)) fun _ => ?_
  exact bind (.parseSes a) fun _ => unknownData

theorem tag03 : Whole [] tag03 := by
  unfold Gpgpdump.tag03
  refine bind (.setMode _) fun _ => readByte fun v => flag fun d => bind (.add (Acc.verShown (symSessKeyVer v) d)) fun _ => ?_
  refine ite (fun _ => ?_) (fun _ => unknownData)
  refine readByte fun a => bind (.add (Acc.symShown a d)) fun _ => bind (.s2kParse d) fun _ => unknownData

theorem tag04 : Whole [] tag04 := by
  unfold Gpgpdump.tag04
  refine readByte fun v => flag fun d => bind (.add (Acc.verShown _ d)) fun _ => ?_
  refine readByte fun v => flag fun d => bind (.add (Acc.sigShown _ d)) fun _ => ?_
  refine readByte fun v => flag fun d => bind (.add (Acc.hashShown _ d)) fun _ => ?_
  refine readByte fun v => flag fun d => bind (.add (Acc.pubShown _ d)) fun _ => ?_
  refine readBytes 8 fun k hk => bind (.add (Acc.keyShown k hk)) fun _ => ?_
  exact readByte fun v => bind (.add (.flagNote rfl rfl)) fun _ => unknownData

theorem tag05 (X : Ext) {v : UInt8} (hv : v ≠ 5) {c p q j a s} (hr : tag05 X (St.at c p (v :: q) j) = (.ok a, s)) :
    ∃ l, s.cur = j.addAll l ∧ Cover l (v :: q) := by
  have hd : (pubVer v).isDraft = false := by simp [pubVer, Version.isDraft, hv]
  unfold Gpgpdump.tag05 at hr
  rw [bind_run, readByte_cons] at hr
  have : Whole [v] (P.flag Ctx.debug >>= fun d => P.add ((pubVer v).item d) >>= fun _ =>
      nested (newItem (S "Public-Key")) (pubkeyParse X (pubVer v)) >>= fun pubid =>
      nested (newItem (S "Secret-Key")) (seckeyParse (pubVer v) pubid) >>= fun _ => Gpgpdump.unknownData) := by
    refine flag fun d => bind (.add (Acc.verShown (pubVer v) d)) fun _ => ?_
    refine bind (.nested' (.pubkeyParse X (pubVer v) hd) ?_) fun a => ?_
    · intro l f hc
      exact .publicKey rfl hc
    · refine bind (.nested ?_) fun _ => unknownData
      intro c p q x s h
      exact seckey_shown (pubVer v) a hv h
  exact this _ _ _ _ _ _ hr

theorem tag06 (X : Ext) {v : UInt8} (hv : v ≠ 5) {c p q j a s} (hr : tag06 X (St.at c p (v :: q) j) = (.ok a, s)) :
    ∃ l, s.cur = j.addAll l ∧ Cover l (v :: q) := by
  have hd : (pubVer v).isDraft = false := by simp [pubVer, Version.isDraft, hv]
  unfold Gpgpdump.tag06 at hr
  rw [bind_run, readByte_cons] at hr
  have : Whole [v] (P.flag Ctx.debug >>= fun d => P.add ((pubVer v).item d) >>= fun _ =>
      pubkeyParse X (pubVer v) >>= fun _ => Gpgpdump.unknownData) := by
    refine flag fun d => bind (.add (Acc.verShown (pubVer v) d)) fun _ => ?_
    exact bind (.pubkeyParse X (pubVer v) hd) fun _ => unknownData
  exact this _ _ _ _ _ _ hr

theorem tag11 (X : Ext) : Whole [] (tag11 X) := by
  unfold Gpgpdump.tag11
  refine readByte fun f => bind (.add (.format rfl rfl)) fun _ => readByte fun n => ?_
  have fin : Whole [] (P.flag Ctx.literal >>= fun d => Gpgpdump.addRaw (S "Literal data") d) := by
    refine flag fun d => ?_
    intro c p q j a s hr
    rw [addRaw_run] at hr
    simp only [Prod.mk.injEq] at hr
    rw [← hr.2]
    exact ⟨[_], rfl, Cover.one (.sized (Or.inl (show S "Literal data" ∈ sizedNames by decide)) rfl)⟩
  have tail : ∀ fname : Bytes, fname.length = n.toNat → Whole ([n] ++ fname) (P.flag Ctx.literal >>= fun d => P.add (textItem (S "File name") fname d) >>= fun _ =>
      P.flag Ctx.utc >>= fun u => Gpgpdump.newDateTime u >>= fun t => P.flag Ctx.debug >>= fun d => P.add (fileTimeItem X t d) >>= fun _ =>
      P.flag Ctx.literal >>= fun d => Gpgpdump.addRaw (S "Literal data") d) := by
    intro fname hl
    refine flag fun d => ?_
    rw [List.singleton_append, ofNat_length n fname hl]
    refine bind (.add (.fileName (by rw [hl]; exact n.toNat_lt) rfl)) fun _ => flag fun u => ?_
    unfold Gpgpdump.newDateTime
    rw [bind_assoc_P]
    refine readBytes 4 fun t ht => ?_
    refine flag fun d => bind (.add ?_) fun _ => fin
    refine .time ?_ ht
    show (fileTimeItem X ⟨t, u⟩ d).name ∈ timeNames
    unfold fileTimeItem
    split <;> exact (show S "Creation time" ∈ timeNames by decide)
  show Whole [n] ((if n.toNat < 1 then Pure.pure [] else P.readBytes n.toNat) >>= _)
  split
  · exact tail [] (by simp; omega)
  · exact readBytes _ fun fname hl => tail fname hl

theorem tag02_other (X : Ext) (recur) {v : UInt8} (h3 : v ≠ 3) (h4 : v ≠ 4) (h5 : v ≠ 5) {c p q j a s}
    (hr : tag02 X recur (St.at c p (v :: q) j) = (.ok a, s)) : ∃ l, s.cur = j.addAll l ∧ Cover l (v :: q) := by
  unfold Gpgpdump.tag02 at hr
  rw [bind_run, readByte_cons] at hr
  have : Whole [v] (P.flag Ctx.debug >>= fun d => P.add ((sigVer v).item d) >>= fun _ => Gpgpdump.unknownData) :=
    flag fun d => bind (.add (Acc.verShown (sigVer v) d)) fun _ => unknownData
  simp only [sigVer, Version.isDraft, Version.isCurrent, h3, h4, h5, beq_iff_eq, Bool.and_eq_true, if_false, and_false] at hr this
  exact this _ _ _ _ _ _ hr

end Whole

/-! ## Version 3 signatures -/

theorem sigInts_of {a : UInt8} : Spec.sigInts a = match pubAlg a with
    | .rsa => 1
    | .ecdh => 0
    | .unknown => 0
    | _ => 2 := by
  have : ∀ a : Fin 256, Spec.sigInts (UInt8.ofNat a.val) = match pubAlg (UInt8.ofNat a.val) with
    | .rsa => 1
    | .ecdh => 0
    | .unknown => 0
    | _ => 2 := by decide +kernel
  have := this ⟨a.toNat, a.toNat_lt⟩
  simpa using this

theorem addMPI_inv {n : Str} {c p q j u s} (h : addMPI n (St.at c p q j) = (.ok u, s)) :
    ∃ bits data q' j', q = beOctets 2 bits ++ data ++ q' ∧ bits < 65536 ∧ data.length = (bits + 7) / 8 ∧ s = St.at c (p ++ (beOctets 2 bits ++ data)) q' j' := by
  unfold addMPI newMPI at h
  rw [bind_assoc_P] at h
  obtain ⟨l, s1, h1, h⟩ := bind_inv h
  obtain ⟨q1, rfl, hl, rfl⟩ := readBytes2_inv h1
  dsimp only at h
  rw [bind_assoc_P] at h
  obtain ⟨data, s2, h2, h⟩ := bind_inv h
  obtain ⟨q2, rfl, hd, rfl⟩ := readBytes_inv h2
  change (flag Ctx.integer >>= fun d => add _) _ = _ at h
  iflag at h
  have := add_inv h
  subst this
  refine ⟨beNat l, data, q2, j.addAll [mpiItem n (beNat l) data (ctxFlag Ctx.integer c)], ?_, beNat2 l hl, hd, ?_⟩
  · rw [show beOctets 2 (beNat l) = l from hl ▸ beOctets_beNat l, List.append_assoc]
  · rw [show beOctets 2 (beNat l) = l from hl ▸ beOctets_beNat l, ← List.append_assoc]

theorem addMPI_ok (n : Str) (c p q j) (bits : Nat) (data : Bytes) (hb : bits < 65536) (hl : data.length = (bits + 7) / 8) :
    ∃ j', addMPI n (St.at c p (beOctets 2 bits ++ data ++ q) j) = (.ok (), St.at c (p ++ (beOctets 2 bits ++ data)) q j') := by
  have h2 : (beOctets 2 bits).length = 2 := by simp [beOctets]
  have hbe : beNat (beOctets 2 bits) = bits := beNat_beOctets 2 bits (by simpa using hb)
  simp only [addMPI, newMPI, bind_run, pure_run]
  have h3 := readBytes_append c p (beOctets 2 bits) (data ++ q) j
  rw [h2] at h3
  rw [List.append_assoc, show readBytes 2 _ = _ from h3]
  simp only [hbe, ← hl]
  rw [readBytes_append]
  simp only [flag_run, add_run, List.append_assoc]
  exact ⟨_, rfl⟩

theorem parseSig_inv {a : UInt8} {c p q j u s} (h : parseSig a (St.at c p q j) = (.ok u, s)) :
    ∃ ints rest, q = ints ++ rest ∧ MPIs (Spec.sigInts a) ints := by
  rw [sigInts_of]
  have one : ∀ {n : Str}, addMPI n (St.at c p q j) = (.ok u, s) → ∃ ints rest, q = ints ++ rest ∧ MPIs 1 ints := by
    intro n h
    obtain ⟨bits, data, q', j', rfl, hb, hl, -⟩ := addMPI_inv h
    exact ⟨_, q', rfl, by simpa using MPIs.succ hb hl .zero⟩
  have two : ∀ {n m : Str}, (addMPI n >>= fun _ => addMPI m) (St.at c p q j) = (.ok u, s) → ∃ ints rest, q = ints ++ rest ∧ MPIs 2 ints := by
    intro n m h
    obtain ⟨_, s1, h1, h2⟩ := bind_inv h
    obtain ⟨bits, data, q', j', rfl, hb, hl, rfl⟩ := addMPI_inv h1
    obtain ⟨bits', data', q', j', rfl, hb', hl', -⟩ := addMPI_inv h2
    exact ⟨beOctets 2 bits ++ data ++ (beOctets 2 bits' ++ data'), q', by simp, .succ hb hl (by simpa using MPIs.succ hb' hl' .zero)⟩
  unfold parseSig at h
  cases hp : pubAlg a <;> rw [hp] at h <;> dsimp only
  · exact one h
  · exact two h
  · exact two h
  · exact ⟨[], q, rfl, .zero⟩
  · exact two h
  · exact two h
  · exact ⟨[], q, rfl, .zero⟩

theorem Spec.MPIs.inv0 {b} (h : MPIs 0 b) : b = [] := by cases h; rfl
theorem Spec.MPIs.invS {n b} (h : MPIs (n + 1) b) :
    ∃ bits data more, b = beOctets 2 bits ++ data ++ more ∧ bits < 65536 ∧ data.length = (bits + 7) / 8 ∧ MPIs n more := by
  cases h with
  | succ hb hl h => exact ⟨_, _, _, rfl, hb, hl, h⟩

theorem parseSig_ok {a : UInt8} {ints : Bytes} (hi : MPIs (Spec.sigInts a) ints) (c p q j) :
    ∃ s, parseSig a (St.at c p (ints ++ q) j) = (.ok (), s) := by
  rw [sigInts_of] at hi
  have one : ∀ {n : Str}, MPIs 1 ints → ∃ s, addMPI n (St.at c p (ints ++ q) j) = (.ok (), s) := by
    intro n h
    obtain ⟨bits, data, more, rfl, hb, hl, h⟩ := h.invS
    obtain ⟨j', h1⟩ := addMPI_ok n c p (more ++ q) j bits data hb hl
    rw [List.append_assoc (beOctets 2 bits ++ data)]
    exact ⟨_, h1⟩
  have two : ∀ {n m : Str}, MPIs 2 ints → ∃ s, (addMPI n >>= fun _ => addMPI m) (St.at c p (ints ++ q) j) = (.ok (), s) := by
    intro n m h
    obtain ⟨bits, data, more, rfl, hb, hl, h⟩ := h.invS
    obtain ⟨j', h1⟩ := addMPI_ok n c p (more ++ q) j bits data hb hl
    obtain ⟨bits', data', more', rfl, hb', hl', -⟩ := h.invS
    rw [List.append_assoc (beOctets 2 bits ++ data), bind_run, h1]
    obtain ⟨j', h1⟩ := addMPI_ok m c (p ++ (beOctets 2 bits ++ data)) (more' ++ q) j' bits' data' hb' hl'
    rw [List.append_assoc (beOctets 2 bits' ++ data')]
    exact ⟨_, h1⟩
  have opq : ∀ {n : Str}, ∃ s, addOpaque n (St.at c p (ints ++ q) j) = (.ok (), s) := by
    intro n
    unfold addOpaque
    rw [bind_run, flag_run]
    exact ⟨_, addRaw_run _ _ _ _ _ _⟩
  unfold parseSig
  cases hp : pubAlg a <;> rw [hp] at hi <;> dsimp only
  · exact one hi
  · exact two hi
  · exact two hi
  · exact opq
  · exact two hi
  · exact two hi
  · exact opq

theorem Acc.tag02v3 (X : Ext) : Acc [] (tag02v3 X) := by
  unfold Gpgpdump.tag02v3
  refine readByte fun sz => bind (nested ?_) fun _ => ?_
  · intro c p q a s hr
    by_cases h5 : sz ≠ 5
    · rw [if_pos h5, bind_run, setValue_run] at hr
      dsimp only at hr
      ibytes b q1 hl at hr
      iflag at hr
      rw [setDump_run] at hr
      simp only [Prod.mk.injEq] at hr
      rw [← hr.2]
      refine ⟨c, b, q1, _, rfl, rfl, ?_⟩
      have := Shown.hashed3Unknown (f := b) (i := ((newItem (S "Hashed material") [] (nBytes sz.toNat)).setValue Unknown).setDump
        (dumpBytes b (ctxFlag Ctx.debug c))) rfl rfl (by rw [hl]; rfl) (by rw [hl]; exact sz.toNat_lt) rfl
      rw [← ofNat_length sz b hl] at this
      exact this
    · rw [if_neg h5] at hr
      ibyte t q1 at hr; iflag at hr; iadd at hr; iflag at hr
      unfold Gpgpdump.newDateTime at hr
      rw [bind_assoc_P] at hr
      obtain ⟨tm, s1, h1, h2⟩ := bind_inv hr
      obtain ⟨q2, rfl, hl, rfl⟩ := readBytes_inv (n := 4) h1
      change (P.flag Ctx.debug >>= fun d => P.add _) _ = _ at h2
      iflag at h2
      have := add_inv h2
      subst this
      have hsz : sz = 5 := Decidable.not_not.mp h5
      subst hsz
      refine ⟨c, t :: tm, q2, _, rfl, by rw [show p ++ t :: tm = p ++ [t] ++ tm by simp], ?_⟩
      have h5 : (t :: tm).length = 5 := by simp [hl]
      refine (?_ : Shown _ (UInt8.ofNat 5 :: (t :: tm)))
      rw [← h5]
      refine .hashed3 rfl (by rw [h5]; rfl) (by rw [h5]; decide) ?_
      exact .cons (sigShown t _) (Cover.one (dateShown X ⟨tm, _⟩ _ _ (by decide) hl))
  · refine readBytes 8 fun k hk => bind (add (keyShown k hk)) fun _ => readByte fun a => flag fun d => bind (add (pubShown a d)) fun _ => ?_
    refine readByte fun h => flag fun d => bind (add (hashShown h d)) fun _ => readBytes 2 fun hv _ => ?_
    refine bind (add (.dumped (show S "Hash left 2 bytes" ∈ dumpedNames by decide) (dumpBytes_true hv))) fun _ => parseSig a

theorem tag02_3_run (X : Ext) (recur : TagParser) (c p q j) : tag02 X recur (St.at c p (3 :: q) j) =
    (failed (tag02v3 X) >>= fun b => if b then Pure.pure () else unknownData) (St.at c (p ++ [3]) q (j.add ((sigVer 3).item (ctxFlag Ctx.debug c)))) := by
  unfold tag02
  rw [bind_run, readByte_cons]
  rfl

theorem bind_join {α β} {m : P α} {f : α → P β} {st s : St} {a r} (h : m st = (.ok a, s)) (h' : f a s = r) : (m >>= f) st = r := by
  rw [bind_run, h]; exact h'

theorem St.at_mk (c c' p q i j) : (⟨c, (St.at c' p q i).rd, j⟩ : St) = St.at c p q j := rfl

theorem tag02v3_ok (X : Ext) {t a h l0 l1 : UInt8} {tm kid ints : Bytes} (ht : tm.length = 4) (hk : kid.length = 8)
    (hi : MPIs (Spec.sigInts a) ints) (c p rest j) :
    ∃ s, tag02v3 X (St.at c p (5 :: t :: (tm ++ (kid ++ (a :: h :: l0 :: l1 :: (ints ++ rest))))) j) = (.ok (), s) := by
  unfold tag02v3
  rw [bind_run, readByte_cons]
  dsimp only
  rw [if_neg (by decide), bind_run, nested_run]
  have h4 := fun j => readBytes_append c (p ++ [5] ++ [t]) tm (kid ++ (a :: h :: l0 :: l1 :: (ints ++ rest))) j
  rw [ht] at h4
  have h8 := fun j => readBytes_append c (p ++ [5] ++ [t] ++ tm) kid (a :: h :: l0 :: l1 :: (ints ++ rest)) j
  rw [hk] at h8
  have h2 : ∀ p j, readBytes 2 (St.at c p (l0 :: l1 :: (ints ++ rest)) j) = (.ok [l0, l1], St.at c (p ++ [l0, l1]) (ints ++ rest) j) :=
    fun p j => readBytes_append c p [l0, l1] (ints ++ rest) j
  simp only [bind_run, readByte_cons, flag_run, add_run, St.at_ctx, newDateTime, pure_run]
  rw [show readBytes 4 _ = _ from h4 _]
  simp only [add_run, St.at_ctx, St.at_mk]
  rw [show readBytes 8 _ = _ from h8 _]
  simp only [readByte_cons, add_run, St.at_ctx]
  rw [h2]
  exact parseSig_ok hi _ _ _ _

/-! ## C42 -/

/-- C42 for the packets of fixed layout: session keys, one-pass signatures, keys of all versions but 5, literal data, and signatures of
versions the tool does not know. When the packet parses, the items shown for it display the octets of the body one after the
other, without gaps, up to the end. -/
theorem C42_accounted_partial (X : Ext) (c : Option Ctx) {tag : Nat} {body enc : Bytes} (he : Encodes tag body enc) (sched : List Nat)
    (ht : tag ∈ [1, 2, 3, 4, 5, 6, 7, 11, 14]) (h5 : tag ∈ [5, 6, 7, 14] → body.head? ≠ some 5)
    (h2 : tag = 2 → ∀ v ∈ body.head?, v ≠ 3 ∧ v ≠ 4 ∧ v ≠ 5)
    (hok : (parseSrc X c (Source.src ⟨enc, rawErr .eof, sched⟩)).res = .ok ()) :
    ∃ i, (parseSrc X c (Source.src ⟨enc, rawErr .eof, sched⟩)).packets = [i] ∧ Cover i.items body := by
  obtain ⟨u, s, h1, hp, -⟩ := parseSrc_one_inv he (by rintro rfl; revert ht; decide) hok
  refine ⟨s.cur, hp, ?_⟩
  have fin : (∃ l, s.cur = (tagItem tag body (ctxFlag (tagDumpFlag tag) c)).addAll l ∧ Cover l body) → Cover s.cur.items body := by
    rintro ⟨l, h, hc⟩
    rw [h]
    exact hc
  apply fin
  have key : ∀ {m : P Unit}, (∀ v q, body = v :: q → v ≠ 5) → m (St.at c [] body (tagItem tag body (ctxFlag (tagDumpFlag tag) c))) = (.ok u, s) →
      (m = tag05 X ∨ m = tag06 X) → ∃ l, s.cur = (tagItem tag body (ctxFlag (tagDumpFlag tag) c)).addAll l ∧ Cover l body := by
    intro m hv hr hm
    cases body with
    | nil =>
      exfalso
      rcases hm with rfl | rfl
      · unfold tag05 at hr
        obtain ⟨_, _, h, -⟩ := bind_inv hr
        rw [readByte_nil] at h; simp at h
      · unfold tag06 at hr
        obtain ⟨_, _, h, -⟩ := bind_inv hr
        rw [readByte_nil] at h; simp at h
    | cons v q =>
      rcases hm with rfl | rfl
      · exact Whole.tag05 X (hv v q rfl) hr
      · exact Whole.tag06 X (hv v q rfl) hr
  simp only [List.mem_cons, List.not_mem_nil, or_false] at ht
  rcases ht with rfl | rfl | rfl | rfl | rfl | rfl | rfl | rfl | rfl
  · exact Whole.tag01 _ _ _ _ _ _ h1
  · rw [tagBody_2] at h1
    cases body with
    | nil =>
      unfold tag02 at h1
      obtain ⟨_, _, h, -⟩ := bind_inv h1
      rw [readByte_nil] at h; simp at h
    | cons v q =>
      obtain ⟨h3, h4, h5⟩ := h2 rfl v (by simp)
      exact Whole.tag02_other X _ h3 h4 h5 h1
  · exact Whole.tag03 _ _ _ _ _ _ h1
  · exact Whole.tag04 _ _ _ _ _ _ h1
  · exact key (by rintro v q rfl rfl; exact h5 (by decide) rfl) h1 (.inl rfl)
  · exact key (by rintro v q rfl rfl; exact h5 (by decide) rfl) h1 (.inr rfl)
  · exact key (by rintro v q rfl rfl; exact h5 (by decide) rfl) h1 (.inl rfl)
  · exact Whole.tag11 X _ _ _ _ _ _ h1
  · exact key (by rintro v q rfl rfl; exact h5 (by decide) rfl) h1 (.inr rfl)

/-- C42 for signatures of versions 4 and 5: the items before, between and after the two subpacket areas account for all octets outside
the areas, and a non-empty area is shown by one item with its size. -/
theorem C42_signature (X : Ext) (c : Option Ctx) {v : UInt8} {q enc : Bytes} (hv : v = 4 ∨ v = 5) (he : Encodes 2 (v :: q) enc)
    (sched : List Nat) (hok : (parseSrc X c (Source.src ⟨enc, rawErr .eof, sched⟩)).res = .ok ()) :
    ∃ t a h a1 a2 rest subs1 subs2 head is1 is2 more i,
      q = t :: a :: h :: (beOctets 2 a1.length ++ a1 ++ (beOctets 2 a2.length ++ a2 ++ rest)) ∧ 2 ≤ rest.length ∧
      a1.length < 65536 ∧ a2.length < 65536 ∧
      (parseSrc X c (Source.src ⟨enc, rawErr .eof, sched⟩)).packets = [i] ∧ i.items = head ++ is1 ++ is2 ++ more ∧
      Cover head [v, t, a, h] ∧ AreaShown "Hashed Subpacket".toList a1 subs1 is1 ∧ AreaShown "Unhashed Subpacket".toList a2 subs2 is2 ∧
      Cover more rest := by
  obtain ⟨u, s, h1, h2, -⟩ := parseSrc_one_inv he (by omega) hok
  rw [tagBody_2] at h1
  unfold tag02 at h1
  ibyte b q1 at h1; iflag at h1; iadd at h1
  have key : (tag02v4 X (parseTagF X (v :: q).length) >>= fun _ => unknownData) (St.at c ([] ++ [v]) q
      ((tagItem 2 (v :: q) (ctxFlag (tagDumpFlag 2) c)).addAll [(sigVer v).item (ctxFlag Ctx.debug c)])) = (.ok u, s) := by
    rcases hv with rfl | rfl
    · exact h1
    · exact h1
  clear h1
  obtain ⟨_, s1, h, h3⟩ := bind_inv key
  unfold tag02v4 at h
  ibyte t q1 at h; iflag at h; iadd at h
  ibyte a q2 at h; iflag at h; iadd at h
  ibyte b q3 at h; iflag at h; iadd at h
  obtain ⟨_, s2, h1, h'⟩ := bind_inv h
  obtain ⟨a1, subs1, q4, is1, c1, rfl, hl1, hs1, hsh1, rfl⟩ := subArea_inv (parseTagF_keeps X _) h1
  obtain ⟨_, s3, h4, h⟩ := bind_inv h'
  obtain ⟨a2, subs2, q5, is2, c2, rfl, hl2, hs2, hsh2, rfl⟩ := subArea_inv (parseTagF_keeps X _) h4
  have tail : Whole [] (readBytes 2 >>= fun hv => add (hashLeft2 hv) >>= fun _ => parseSig a >>= fun _ => unknownData) :=
    Whole.readBytes 2 fun hv _ => Whole.bind (.add (.dumped (show S "Hash left 2 bytes" ∈ dumpedNames by decide) (dumpBytes_true hv))) fun _ =>
      Whole.bind (.parseSig a) fun _ => Whole.unknownData
  have hall := bind_join (f := fun _ => unknownData) h h3
  simp only [bind_assoc_P] at hall
  have hlen : 2 ≤ q5.length := by
    obtain ⟨x, _, h5, -⟩ := bind_inv hall
    obtain ⟨q6, rfl, hl, -⟩ := readBytes2_inv h5
    simp [hl]
  obtain ⟨more, hm, hc⟩ := tail _ _ _ _ _ _ hall
  refine ⟨t, a, b, a1, a2, q5, subs1, subs2, [(sigVer v).item (ctxFlag Ctx.debug c), sigItem t (ctxFlag Ctx.debug c),
    pubItem a (ctxFlag Ctx.debug c), hashItem b (ctxFlag Ctx.debug c)], is1, is2, more, s.cur, rfl, hlen, hl1, hl2, h2, ?_, ?_, hsh1, hsh2, hc⟩
  · rw [hm]
    simp only [Item.addAll_addAll, Item.addAll_items, List.append_assoc]
    rfl
  · exact .cons (Acc.verShown (sigVer v) _) (.cons (Acc.sigShown t _) (.cons (Acc.pubShown a _) (Cover.one (Acc.hashShown b _))))

/-- C42 for complete version 3 signatures. (An incomplete one is accepted, too, and its octets after the last complete field are not
shown: `C40_v3_accepted`.) -/
theorem C42_signature_v3 (X : Ext) (c : Option Ctx) {t a h l0 l1 : UInt8} {tm kid ints rest enc : Bytes} (ht : tm.length = 4) (hk : kid.length = 8)
    (hi : MPIs (Spec.sigInts a) ints)
    (he : Encodes 2 (3 :: 5 :: t :: (tm ++ (kid ++ (a :: h :: l0 :: l1 :: (ints ++ rest))))) enc) (sched : List Nat)
    (hok : (parseSrc X c (Source.src ⟨enc, rawErr .eof, sched⟩)).res = .ok ()) :
    ∃ i, (parseSrc X c (Source.src ⟨enc, rawErr .eof, sched⟩)).packets = [i] ∧
      Cover i.items (3 :: 5 :: t :: (tm ++ (kid ++ (a :: h :: l0 :: l1 :: (ints ++ rest))))) := by
  obtain ⟨u, s, h1, h2, -⟩ := parseSrc_one_inv he (by omega) hok
  rw [tagBody_2, tag02_3_run] at h1
  refine ⟨s.cur, h2, ?_⟩
  generalize hb : 3 :: 5 :: t :: (tm ++ (kid ++ (a :: h :: l0 :: l1 :: (ints ++ rest)))) = body at *
  generalize hv : (sigVer 3).item (ctxFlag Ctx.debug c) = vi at *
  obtain ⟨s1, h3⟩ := tag02v3_ok X (h := h) (l0 := l0) (l1 := l1) (t := t) ht hk hi c ([] ++ [3]) rest
    ((tagItem 2 body (ctxFlag (tagDumpFlag 2) c)).add vi)
  obtain ⟨_, s2, h4, h5⟩ := bind_inv h1
  unfold failed at h4
  rw [h3] at h4
  simp only [Prod.mk.injEq, Res.ok.injEq] at h4
  obtain ⟨rfl, rfl⟩ := h4
  rw [if_neg (by decide)] at h5
  have : (tag02v3 X >>= fun _ => unknownData) (St.at c ([] ++ [3]) (5 :: t :: (tm ++ (kid ++ (a :: h :: l0 :: l1 :: (ints ++ rest)))))
      ((tagItem 2 body (ctxFlag (tagDumpFlag 2) c)).add vi)) = (.ok u, s) := by
    rw [bind_run, h3]
    exact h5
  obtain ⟨l, h6, hc⟩ := Whole.bind (.tag02v3 X) (fun _ => Whole.unknownData) _ _ _ _ _ _ this
  rw [h6, ← hb, Item.add_eq, Item.addAll_addAll]
  exact .cons (hv ▸ Acc.verShown (sigVer 3) _) hc

/-- C42 fails for version 5 keys: octets after the integers of the public-key material (its length says that they belong to it) are
not shown anywhere. Both packets give the same fields, though one has two more octets of key material. -/
theorem C42_version_5_dropped :
    (parseSrc Tests.X (some Ctx.empty) (Src.ofBytes [0xc6, 18, 5, 0, 0, 0, 0, 1, 0, 0, 0, 8, 0, 9, 1, 255, 0, 1, 3, 3])).res = .ok () ∧
    (parseSrc Tests.X (some Ctx.empty) (Src.ofBytes [0xc6, 18, 5, 0, 0, 0, 0, 1, 0, 0, 0, 8, 0, 9, 1, 255, 0, 1, 3, 3])).packets.map Item.items =
    (parseSrc Tests.X (some Ctx.empty) (Src.ofBytes [0xc6, 17, 5, 0, 0, 0, 0, 1, 0, 0, 0, 7, 0, 9, 1, 255, 0, 1, 3])).packets.map Item.items := by
  decide +kernel

/-- a one-pass signature with a trailing octet: version 3, binary document, SHA-1, DSA, key ID, flag 1; then 0x77 -/
example : ∃ i, (parseSrc Tests.X (some Ctx.empty) (Source.src ⟨0x90 :: 14 :: [3, 0, 2, 17, 1, 2, 3, 4, 5, 6, 7, 8, 1, 0x77], rawErr .eof, []⟩)).packets = [i] ∧
    Cover i.items [3, 0, 2, 17, 1, 2, 3, 4, 5, 6, 7, 8, 1, 0x77] ∧ (i.items.map Item.name).getLast? = some (S "Unknown data") := by
  have he : Encodes 4 [3, 0, 2, 17, 1, 2, 3, 4, 5, 6, 7, 8, 1, 0x77] (0x90 :: 14 :: [3, 0, 2, 17, 1, 2, 3, 4, 5, 6, 7, 8, 1, 0x77]) :=
    .old (lt := 0) (by decide) (by decide) (by decide)
  obtain ⟨i, h1, h2⟩ := C42_accounted_partial Tests.X (some Ctx.empty) he [] (by decide) (by decide) (by decide) (by decide +kernel)
  refine ⟨i, h1, h2, ?_⟩
  have : (parseSrc Tests.X (some Ctx.empty) (Source.src ⟨0x90 :: 14 :: [3, 0, 2, 17, 1, 2, 3, 4, 5, 6, 7, 8, 1, 0x77], rawErr .eof, []⟩)).packets.map
      (fun i => (i.items.map Item.name).getLast?) = [some (S "Unknown data")] := by decide +kernel
  rw [h1] at this
  simpa using this

end Gpgpdump
