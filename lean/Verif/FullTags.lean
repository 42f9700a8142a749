import Verif.Full

/-!
# What is displayed, with what is remembered: subpackets and packets
-/

namespace Gpgpdump
open P Spec Src

set_option linter.unusedSimpArgs false

variable {o : OptCode → Bool} {h : History} (X : Ext)

/-! ## Subpackets -/

theorem Moves.sub02Body_plain {O : CtxOrder} {recur : TagParser} {t : Nat} (ht : t ∉ [2, 3, 9, 32, 38]) : Moves O (Gpgpdump.sub02Body X recur t) := by
  have := Moves.rest (O := O)
  unfold Gpgpdump.sub02Body
  split
  · exact (ht (by simp)).elim
  · exact (ht (by simp)).elim
  · unfold Gpgpdump.sub04; moves
  · unfold Gpgpdump.sub05; moves
  · exact subText
  · unfold Gpgpdump.sub07; moves
  · exact (ht (by simp)).elim
  · moves
  · exact subList _
  · unfold Gpgpdump.sub12; moves; apply Moves.addRaw
  · unfold Gpgpdump.sub16; moves
  · unfold Gpgpdump.sub20; moves <;> apply Moves.addOpt
  · exact subList _
  · exact subList _
  · unfold Gpgpdump.sub23; moves <;> first | apply Moves.addOpt | apply Moves.trailingFlags
  · exact subText
  · unfold Gpgpdump.sub25; moves
  · exact subText
  · unfold Gpgpdump.sub27; moves <;> first | apply Moves.addOpt | apply Moves.trailingFlags
  · exact subText
  · unfold Gpgpdump.sub29; moves
  · unfold Gpgpdump.sub30; moves <;> first | apply Moves.addOpt | apply Moves.trailingFlags
  · unfold Gpgpdump.sub31; moves; apply Moves.addRaw
  · exact (ht (by simp)).elim
  · unfold Gpgpdump.subFingerprint; moves; apply Moves.addRaw
  · exact subList _
  · unfold Gpgpdump.subFingerprint; moves; apply Moves.addRaw
  · unfold Gpgpdump.sub37; moves; apply Moves.addRaw
  · exact (ht (by simp)).elim
  · moves

theorem Tells.sub {recur : TagParser} {t : UInt8} {b : Bytes} {R : Item → History → Prop}
    (hm : RetH o h (sub02Body X recur (t.toNat % 128)) (rdAt [] b) (subHead o t b) (fun i _ h' => R i h')) : Tells o h (parseSub02 X recur t b) R := by
  unfold parseSub02 subScope
  rw [and_7f]
  refine Tell.debug ?_
  rw [subItem_eq]
  exact Tells.scope hm

theorem Tells.plain {recur : TagParser} {t : UInt8} {b : Bytes} (ht : t.toNat % 128 ∉ [2, 3, 9, 32, 38]) :
    Tells o h (parseSub02 X recur t b) (fun i h' => SubShown o X t b i ∧ h' = h) := by
  simp only [List.mem_cons, List.not_mem_nil, or_false, not_or] at ht
  refine (Tell.same (Yields.plain X recur ht.2.2.2.1 ht.2.2.2.2) ?_).mono fun i f q l h' hi => ⟨hi.1.1, hi.1.2.1, hi.1.2.2, hi.2⟩
  unfold parseSub02 subScope
  rw [and_7f]
  exact .bind (.flag _) fun _ => .scope _ _ (.sub02Body_plain X (by simp [ht]))

theorem timeText_eq : timeText X (o UTC) = dateText o X := by
  funext n
  unfold timeText dateText rfc3339
  cases o UTC <;> rfl

theorem expire_row {t : UInt8} {b day : Bytes} {v : Option Nat} {st : Option DateTime} (hs : RetH.Stored o v st) :
    expireItem X (subHead o t b).name day st (o DEBUG) = periodRow o X t day v := by
  have h1 := endDate_eq (X := X) (u := o UTC) (subHead o t b).name day (o DEBUG) st hs.2
  rw [← hs.1, timeText_eq] at h1
  unfold periodRow
  rw [← h1]
  unfold expireItem
  rw [dumpIf_eq]
  rfl

theorem Tells.sub02 {recur : TagParser} {t : UInt8} {b : Bytes} (ht : t.toNat % 128 = 2) :
    Tells o h (parseSub02 X recur t b) (fun i h' => ∃ tm r, b = tm ++ r ∧ tm.length = 4 ∧
      i = leaf (subName t) (momentText o X tm) [] (dumpIf (o DEBUG) tm) ∧ h' = { h with signature := some (beNat tm) }) := by
  refine Tells.sub X ?_
  rw [ht]
  show RetH o h (Gpgpdump.sub02 X) _ _ _
  unfold Gpgpdump.sub02
  refine RetH.getCur' (RetH.time fun tm q' hq hl => RetH.debug (RetH.setSigTime hl (RetH.pure ?_)))
  rw [timeItem_eq]
  exact ⟨tm, q', hq, hl, rfl, rfl⟩

theorem Tells.sub03 {recur : TagParser} {t : UInt8} {b : Bytes} (ht : t.toNat % 128 = 3) :
    Tells o h (parseSub02 X recur t b) (fun i h' => ∃ n r, b = n ++ r ∧ n.length = 4 ∧ i = periodRow o X t n h.signature ∧ h' = { h with signature := none }) := by
  refine Tells.sub X ?_
  rw [ht]
  show RetH o h (Gpgpdump.sub03 X) _ _ _
  unfold Gpgpdump.sub03
  refine RetH.getCur' (RetH.getSigTime fun st hs => RetH.bytes 4 fun day q' hq hl => RetH.dropSigTime (RetH.debug (RetH.pure ?_)))
  exact ⟨day, q', hq, hl, expire_row X hs, rfl⟩

theorem Tells.sub09 {recur : TagParser} {t : UInt8} {b : Bytes} (ht : t.toNat % 128 = 9) :
    Tells o h (parseSub02 X recur t b) (fun i h' => ∃ n r, b = n ++ r ∧ n.length = 4 ∧ i = periodRow o X t n h.key ∧ h' = { h with key := none }) := by
  refine Tells.sub X ?_
  rw [ht]
  show RetH o h (Gpgpdump.sub09 X) _ _ _
  unfold Gpgpdump.sub09
  refine RetH.getCur' (RetH.getKeyTime fun st hs => RetH.bytes 4 fun day q' hq hl => RetH.dropKeyTime (RetH.debug (RetH.pure ?_)))
  exact ⟨day, q', hq, hl, expire_row X hs, rfl⟩

/-! ## Packets in packets -/

section
variable {recur : TagParser} (hrec : ∀ h tag body, Tells o h (recur tag body) (fun i h' => Full o X h tag body i h'))
include hrec

theorem Tell.block {f : Nat} {src : Src} (hs : src.strict = true) : Tell o h (forPackets X recur f src)
    (fun _ g _ l h' => g = [] ∧ ∃ ps a b, src.data = a ++ b ∧ ClosedSeq ps a ∧ KeyEnd X b ∧ FullAll o X h ps l h') := by
  induction f generalizing src h with
  | zero => intro x p q j a s hx hh hr; simp [forPackets, P.stuck] at hr
  | succ f ih =>
    obtain ⟨hk, hm⟩ := nextPacket_spec (X := X) (s := src) (.inl hs)
    have hq := nextPacket_quiet (X := X) hs
    unfold forPackets
    rcases hn : nextPacket X src with ⟨r, src'⟩
    rw [hn] at hk hm hq
    cases r with
    | error e =>
      have hq' : e.isEOF = true ↔ KeyEnd X src.data := by rw [← hq]; simp
      simp only
      by_cases he : e.isEOF = true
      · rw [if_pos he]
        exact pure fun q => ⟨rfl, [], [], src.data, rfl, .nil, hq'.mp he, .nil⟩
      · rw [if_neg he]; exact fail
    | ok tb =>
      obtain ⟨tag, body⟩ := tb
      simp only at hm ⊢
      cases hdec : decNext src.data with
      | packet t b rest =>
        rw [hdec] at hm
        simp only at hm
        obtain ⟨h1, h2⟩ := hm
        cases h1
        obtain ⟨enc, he, hd⟩ := decNext_sound hdec
        refine (hrec h tag body).bind fun i f1 l1 h1 => add ((ih (hk.strict.trans hs)).mono fun _ f2 q l2 h3 h3' h4 => ?_)
        obtain ⟨rfl, rfl, hi⟩ := h4
        obtain ⟨rfl, ps, a, b, h5, h6, h7, h8⟩ := h3'
        refine ⟨rfl, (tag, body) :: ps, enc ++ a, b, ?_, .cons he h6, h7, .cons hi h8⟩
        rw [hd, ← h2, h5, List.append_assoc]
      | _ => rw [hdec] at hm; simp [hs] at hm

theorem Tell.seq {f : Nat} {src : Src} (hl : Lazy src) (hs : src.strict = false) (ht : src.tail = rawErr .eof) (hf : src.data.length < f) :
    Tell o h (forPackets X recur f src) (fun _ g _ l h' => g = [] ∧ ∃ ps, PacketSeq ps src.data ∧ FullAll o X h ps l h') := by
  induction f generalizing src h with
  | zero => omega
  | succ f ih =>
    obtain ⟨hk, hm⟩ := nextPacket_spec (X := X) hl
    rcases hn : nextPacket X src with ⟨r, src'⟩
    rw [hn] at hk hm
    unfold forPackets
    rw [hn]
    cases hd : decNext src.data with
    | packet t b rest =>
      rw [hd] at hm
      obtain ⟨rfl, h2⟩ := hm
      have hlt := decNext_shorter hd
      simp only at h2 ⊢
      refine (hrec h t b).bind fun i f1 l1 h1 => add ((ih (hk.isLazy hl) (hk.strict.trans hs) (hk.tail.trans ht) (by rw [h2]; omega)).mono fun _ f2 q l2 h3' h3 h4 => ?_)
      obtain ⟨rfl, rfl, hi⟩ := h4
      obtain ⟨rfl, ps, h5, h8⟩ := h3
      rw [h2] at h5
      exact ⟨rfl, (t, b) :: ps, (packetSeq_cons hd).mpr ⟨ps, rfl, h5⟩, .cons hi h8⟩
    | toEnd t b =>
      rw [hd] at hm
      obtain ⟨h1, h2⟩ := (hm.1 hs).1 (by rw [ht]; rfl)
      simp only at h1 h2
      subst h1
      have hlt : src'.data.length < f := by
        rw [h2]
        have hne : src.data ≠ [] := by intro h; rw [h] at hd; simp [decNext] at hd
        have := List.length_pos_iff.mpr hne
        simp; omega
      simp only
      refine (hrec h t b).bind fun i f1 l1 h1 => add ((ih (hk.isLazy hl) (hk.strict.trans hs) (hk.tail.trans ht) hlt).mono fun _ f2 q l2 h3' h3 h4 => ?_)
      obtain ⟨rfl, rfl, hi⟩ := h4
      obtain ⟨rfl, ps, h5, h8⟩ := h3
      rw [h2] at h5
      have hps : ps = [] := by
        rcases packetSeq_iff.mp h5 with h | ⟨qs, t', b', h, rfl⟩
        · exact (congrArg Prod.fst h).symm.trans rfl
        · cases (congrArg Prod.snd h : (Stop.clean : Stop) = _)
      subst hps
      cases h8
      exact ⟨rfl, [(t, b)], .toEnd (decNext_toEnd hd), .cons hi .nil⟩
    | noMSB =>
      rw [hd] at hm
      simp only at hm
      subst hm
      simp only
      exact fail
    | truncated =>
      rw [hd] at hm
      obtain ⟨e, h1, h2⟩ := hm
      simp only at h1
      subst h1
      simp only
      have he : ¬ e.isEOF = true := by
        rcases h2 with ⟨-, rfl⟩ | ⟨h3, -⟩
        · rw [ht]; decide
        · rw [hs] at h3; cases h3
      rw [if_neg he]
      exact fail
    | atEnd =>
      rw [hd] at hm
      obtain ⟨e, h1, h2⟩ := hm
      simp only at h1
      subst h1
      simp only
      have h0 := decNext_atEnd.mp hd
      by_cases he : e.isEOF = true
      · rw [if_pos he, h0]
        exact pure fun q => ⟨rfl, [], .nil, .nil⟩
      · rw [if_neg he]; exact fail

/-! ## Subpacket areas -/

theorem Tells.sub32 {t : UInt8} {b : Bytes} (ht : t.toNat % 128 = 32) :
    Tells o h (parseSub02 X recur t b) (fun i h' => ∃ k, i = subRow o t b [k] ∧ Full o X h 2 b k h') := by
  refine Tells.sub X ?_
  rw [ht, sub02Body_32]
  unfold Gpgpdump.sub32
  refine RetH.getBody (RetH.tell (hrec h 2 ([] ++ b)) fun i f q' l h1 hq hi => RetH.add (RetH.getCur ?_))
  obtain ⟨rfl, rfl, hi⟩ := hi
  exact ⟨i, by rw [Item.addAll_nil, subHead_add], hi⟩

theorem Tells.sub38 {t : UInt8} {b : Bytes} (ht : t.toNat % 128 = 38) :
    Tells o h (parseSub02 X recur t b) (fun i h' => (∃ k d, b = k :: d ∧ k ≠ 0 ∧
        i = subRow o t (k :: d) [numRow "Type" k, leaf "Key data".toList [] (sizeText d.length) (dumpIf (o DEBUG) d)] ∧ h' = h) ∨
      ∃ ps c d js, b = 0 :: (c ++ d) ∧ ClosedSeq ps c ∧ KeyEnd X d ∧ FullAll o X h ps js h' ∧
        i = subRow o t (0 :: (c ++ d)) [numRow "Type" 0, .mk "Key data".toList [] (dumpIf (o DEBUG) (c ++ d)) (sizeText (c ++ d).length) js]) := by
  refine Tells.sub X ?_
  rw [ht, sub02Body_38]
  unfold Gpgpdump.sub38
  refine RetH.byte fun k d hb => RetH.add (RetH.reader (RetH.debug ?_))
  subst hb
  dsimp only
  rw [rawData_row]
  by_cases hk : k = 0
  · subst hk
    rw [if_pos rfl, ofReader_at]
    refine RetH.tell (Tell.build (Tell.block X hrec rfl)) fun i f q' l h1 hq hi => RetH.add (RetH.getCur (.inr ?_))
    obtain ⟨rfl, js, rfl, rfl, ps, c, e, h1, h2, h3, h4⟩ := hi
    simp only at h1
    subst h1
    exact ⟨ps, c, e, js, rfl, h2, h3, h4, by rw [Item.addAll_nil, Item.addAll_addAll, subHead_add]; rfl⟩
  · rw [if_neg hk]
    refine RetH.add (RetH.getCur (.inl ⟨k, d, rfl, hk, ?_, rfl⟩))
    rw [Item.addAll_addAll, subHead_add]; rfl

theorem Tell.subs (l : List (UInt8 × Bytes)) : Tell o h (subLoop (parseSub02 X recur) l) (fun _ f _ is h' => f = [] ∧ FullSubs o X h l is h') := by
  induction l generalizing h with
  | nil => exact pure fun q => ⟨rfl, .nil⟩
  | cons s l ih =>
    obtain ⟨t, b⟩ := s
    have hnil : ∀ {R : Item → History → Prop}, Tells o h (parseSub02 X recur t b) R →
        (∀ i is h1 h2, R i h1 → FullSubs o X h1 l is h2 → FullSubs o X h ((t, b) :: l) (i :: is) h2) →
        Tell o h (subLoop (parseSub02 X recur) ((t, b) :: l)) (fun _ f _ is h' => f = [] ∧ FullSubs o X h ((t, b) :: l) is h') := by
      intro R hg h'
      unfold subLoop
      refine Tell.bind hg fun i f1 l1 h1 => add (ih.mono fun _ f2 q l2 h2 hs hi => ?_)
      obtain ⟨rfl, rfl, hi⟩ := hi
      obtain ⟨rfl, hs⟩ := hs
      exact ⟨rfl, h' i l2 h1 h2 hi hs⟩
    by_cases h32 : t.toNat % 128 = 32
    · refine hnil (Tells.sub32 X hrec h32) ?_
      rintro i is h1 h2 ⟨k, rfl, hk⟩ hs
      exact .embedded h32 hk hs
    by_cases h38 : t.toNat % 128 = 38
    · refine hnil (Tells.sub38 X hrec h38) ?_
      rintro i is h1 h2 (⟨k, d, rfl, hk, rfl, rfl⟩ | ⟨ps, c, d, js, rfl, g1, g2, g3, rfl⟩) hs
      · exact .keyBlockOther h38 hk hs
      · exact .keyBlock h38 g1 g2 g3 hs
    by_cases h2 : t.toNat % 128 = 2
    · refine hnil (Tells.sub02 X h2) ?_
      rintro i is h1 h2 ⟨tm, r, rfl, hl, rfl, rfl⟩ hs
      exact .created ‹_› hl hs
    by_cases h3 : t.toNat % 128 = 3
    · refine hnil (Tells.sub03 X h3) ?_
      rintro i is h1 h2 ⟨n, r, rfl, hl, rfl, rfl⟩ hs
      exact .expires h3 hl hs
    by_cases h9 : t.toNat % 128 = 9
    · refine hnil (Tells.sub09 X h9) ?_
      rintro i is h1 h2 ⟨n, r, rfl, hl, rfl, rfl⟩ hs
      exact .keyExpires h9 hl hs
    · refine hnil (Tells.plain X (by simp only [List.mem_cons, List.not_mem_nil, or_false]; omega)) ?_
      rintro i is h1 h2 ⟨hi, rfl⟩ hs
      exact .plain (by simp only [List.mem_cons, List.not_mem_nil, or_false]; omega) hi hs

theorem Tell.subArea (name : String) : Tell o h (subArea X recur (S name)) (fun _ f _ is h' => ∃ area, area.length < 65536 ∧
    f = beOctets 2 area.length ++ area ∧ FullArea o X h name area is h') := by
  unfold Gpgpdump.subArea
  refine bytes 2 fun sz hz => ?_
  dsimp only
  by_cases hs : beNat sz > 0
  · rw [if_pos hs]
    refine bytes _ fun a ha => ?_
    unfold addSubpackets
    refine debug ?_
    cases ho : opaqueSubpackets a with
    | error e => exact fail
    | ok l =>
      simp only
      refine Tell.bind (build (subs X hrec l)) fun i f1 l1 h1 => lastAdd fun q hi => ?_
      obtain ⟨rfl, k, rfl, rfl, hk⟩ := hi
      obtain ⟨h3, h4⟩ := beOctets2_eq hz ha
      refine ⟨a, h3, by rw [← h4, List.append_nil, List.append_nil], ?_⟩
      have := FullArea.subs (name := name) (by rintro rfl; simp at ha; omega) (opaqueSubpackets_ok.mp ho) hk
      rw [dumpIf_eq]
      exact this
  · rw [if_neg hs]
    refine pure fun q => ⟨[], by decide, ?_, .empty⟩
    have := beOctets_beNat sz
    rw [hz, show beNat sz = 0 by omega] at this
    rw [List.append_nil, List.append_nil, ← this]; rfl

end

/-! ## Packets -/

theorem RetH.tag02 {recur : TagParser} (hrec : ∀ h tag body, Tells o h (recur tag body) (fun i h' => Full o X h tag body i h')) (b : Bytes) :
    RetH o h (tag02 X recur) (rdAt [] b) (packetRow o 2 b []) (fun _ i h' => Full o X h 2 b i h') := by
  have h4 : ∀ (v : UInt8) (q : Bytes) p, v ∈ [4, 5] → RetH o h (do Gpgpdump.tag02v4 X recur; unknownData) (rdAt p q)
      (packetRow o 2 (v :: q) [versionRow o 4 (some 5) v]) (fun _ i h' => Full o X h 2 (v :: q) i h') := by
    intro v q p hv
    have : Tell o h (do Gpgpdump.tag02v4 X recur; unknownData) (fun _ f q l h' => Full o X h 2 (v :: (f ++ q)) (packetRow o 2 (v :: (f ++ q)) (versionRow o 4 (some 5) v :: l)) h') := by
      unfold Gpgpdump.tag02v4
      simp only [bind_assoc_P]
      refine Tell.byte fun t => Tell.debug (Tell.add (Tell.byte fun a => Tell.debug (Tell.add (Tell.byte fun hs => Tell.debug (Tell.add
        (Tell.bind (Tell.subArea X hrec _) fun _ f1 l1 h1 => Tell.bind (Tell.subArea X hrec _) fun _ f2 l2 h2 => Tell.bytes 2 fun l2h hl => Tell.add
          ((Tell.same (E := fun _ f q l => ∃ f3 l3, f = f3 ∧ l = l3 ++ unknownRows o q ∧ Integers o sigSlots a f3 q l3)
            (Shows.bind (Shows.parseSig a) fun _ f3 l3 => Shows.unknownData fun q hi => ⟨f3, l3, by simp, rfl, hi⟩)
            (.bind (.parseSig a) fun _ => .unknownData)).mono fun _ f q l h3 hi e2 e1 => ?_)))))))
      obtain ⟨⟨f3, l3, rfl, rfl, hi⟩, rfl⟩ := hi
      obtain ⟨a1, hl1, rfl, e1⟩ := e1
      obtain ⟨a2, hl2, rfl, e2⟩ := e2
      rw [sigItem_eq, pubItem_eq, hashItem_eq, hashLeft2_eq]
      have := Full.signature (o := o) (v := v) (t := t) (h := hs) hv e1 e2 hl hi hl1 hl2
      simp only [List.append_assoc, List.cons_append, List.nil_append, List.append_nil] at this ⊢
      exact this
    refine RetH.ofTell this fun _ f q' l h1 hq hd => ?_
    rw [hq]; exact hd
  unfold Gpgpdump.tag02
  refine RetH.byte fun v q hb => RetH.debug (RetH.add ?_)
  subst hb
  rw [sigVer_eq, packetRow_add]
  rcases sigVer_cases v with ⟨rfl, h1⟩ | ⟨rfl, h1, h2⟩ | ⟨rfl, h1, h2, h3⟩ | ⟨hv, h1, h2, h3⟩
  · rw [if_pos h1]; exact h4 5 q _ (by decide)
  · rw [if_neg (by simp [h1]), if_pos h2]; exact h4 4 q _ (by decide)
  · rw [if_neg (by simp [h1]), if_neg (by simp [h2]), if_pos (by simp [h3])]
    refine (RetH.same (R := fun _ i => Display o X 2 (3 :: q) i) (Ret.failed (Shows.tag02v3 X) (Cuts.tag02v3 X) (fun _ f q' l hq h => ?_) fun l rd h => ?_) ?_).mono
      fun _ i h' hi => by rw [hi.2]; exact .signatureOther (by decide) hi.1
    · rw [if_neg (by decide)]
      subst hq
      refine Ret.ofShows (Shows.unknownData (E := fun _ f q k => f = [] ∧ k = unknownRows o q) fun q => ⟨rfl, rfl⟩) fun _ f' q2 k hq hk => ?_
      obtain ⟨rfl, rfl⟩ := hk
      rw [List.nil_append] at hq
      subst hq
      rw [Item.addAll_addAll]
      exact .signature3 h
    · rw [if_pos rfl]
      exact Ret.pure (.signature3Cut h)
    · have := Moves.tag02v3 (O := sameCtx) X
      have := Moves.unknownData (O := sameCtx)
      moves
  · rw [if_neg (by simp [h1]), if_neg (by simp [h2]), if_neg (by simp [h3])]
    refine RetH.ofTell (Tell.same (Shows.unknownData (E := fun _ f q k => f = [] ∧ k = unknownRows o q) fun q => ⟨rfl, rfl⟩) .unknownData) fun _ f' q2 k h1 hq hk => ?_
    obtain ⟨⟨rfl, rfl⟩, rfl⟩ := hk
    rw [List.nil_append] at hq
    subst hq
    exact .signatureOther (fun hh => hv (List.mem_cons_of_mem _ hh)) (.signatureOther hv)

theorem RetH.tag09 (b : Bytes) : RetH o h tag09 (rdAt [] b) (packetRow o 9 b []) (fun _ i h' => Full o X h 9 b i h') := by
  unfold Gpgpdump.tag09
  refine RetH.reader (RetH.debug (RetH.getMode (RetH.add (RetH.last (RetH.setMode (RetH.pure ?_))))))
  rw [rawData_row]
  have := Full.encrypted (o := o) (X := X) (h := h) (body := b)
  rcases h with ⟨m, k, s⟩
  cases m <;> exact this

theorem RetH.tag18 (b : Bytes) : RetH o h tag18 (rdAt [] b) (packetRow o 18 b []) (fun _ i h' => Full o X h 18 b i h') := by
  unfold Gpgpdump.tag18
  refine RetH.reader (RetH.debug (RetH.getMode (RetH.add (RetH.last (RetH.setMode (RetH.pure ?_))))))
  rw [rawData_row]
  have := Full.integrity (o := o) (X := X) (h := h) (body := b)
  rcases h with ⟨m, k, s⟩
  cases m <;> exact this

/-- a packet the display of which does not depend on the memory -/
theorem RetH.packet {tag : Nat} {m : P Unit} {b : Bytes} {T : Bytes → History → Prop} (hm : Shows o m (Shown2 o X tag))
    (hc : Tell o h m (fun _ f q _ h' => T (f ++ q) h')) :
    RetH o h m (rdAt [] b) (packetRow o tag b []) (fun _ i h' => Display o X tag b i ∧ T b h') :=
  RetH.ofTell (Tell.also hm hc) fun _ f q l h' hq hd => by rw [packetRow_add, hq]; exact hd

theorem Tell.any {α} {m : P α} {E : α → Bytes → Bytes → List Item → Prop} (hm : Shows o m E) (hc : Moves sameCtx m) :
    Tell o h m (fun _ _ _ _ h' => h' = h) := (same hm hc).mono fun _ _ _ _ _ hh => hh.2

theorem Tell.tag01 : Tell o h tag01 (fun _ _ _ _ h' => h' = { h with session := .pubEnc }) := by
  unfold Gpgpdump.tag01
  refine setMode (any (E := fun _ _ _ _ => True) ?_ ?_)
  · exact Shows.byte fun v => Shows.debug (Shows.add (Shows.bytes 8 fun kid hk => Shows.add (Shows.byte fun a => Shows.debug (Shows.add ((Shows.parseSes a).bind fun _ f l =>
      Shows.unknownData fun q h => trivial)))))
  · have := Moves.unknownData (O := sameCtx)
    moves; apply Moves.parseSes

theorem Tell.tag03 : Tell o h tag03 (fun _ _ _ _ h' => h' = { h with session := .symEnc }) := by
  unfold Gpgpdump.tag03
  refine setMode (any (E := fun _ _ _ _ => True) ?_ ?_)
  · refine Shows.byte fun v => Shows.debug (Shows.add (Shows.ite (fun _ => ?_) fun _ => ?_))
    · exact Shows.byte fun c => Shows.add (Shows.s2kParse.bind fun iv f l => Shows.unknownData fun q h => trivial)
    · exact Shows.unknownData fun q => trivial
  · have := Moves.unknownData (O := sameCtx)
    moves; apply Moves.s2kParse

/-- what a key packet with this version and these octets behind it leaves remembered -/
def KeyMemory (h : History) (v : UInt8) (f : Bytes) (h' : History) : Prop :=
  if v ∈ [3, 4, 5] then ∃ tm r, f = tm ++ r ∧ tm.length = 4 ∧ h' = { h with key := some (beNat tm) } else h' = h

theorem Tell.pubkeyTime : Tell o h (pubkeyTime X) (fun _ f _ _ h' => f.length = 4 ∧ h' = { h with key := some (beNat f) }) := by
  unfold Gpgpdump.pubkeyTime newDateTime
  refine utc ?_
  rw [bind_assoc_P]
  refine bytes 4 fun tm ht => setKeyTime ht (debug (lastAdd fun q => ?_))
  rw [List.append_nil]
  exact ⟨ht, rfl⟩

theorem Tell.pubkeyParse (v : UInt8) : Tell o h (pubkeyParse X (pubVer v)) (fun _ f _ _ h' => KeyMemory h v f h') := by
  have key : ∀ {β} {g : Unit → P β} (hv : v ∈ [3, 4, 5]) (hs : ∀ a, Shows o (g a) (fun _ _ _ _ => True)) (hm : ∀ a, Moves sameCtx (g a)),
      Tell o h (Gpgpdump.pubkeyTime X >>= g) (fun _ f _ _ h' => KeyMemory h v f h') := by
    intro β g hv hs hm
    refine (pubkeyTime X).bind fun a f1 l1 h1 => (any (hs a) (hm a)).mono fun _ f2 q l2 h2 e2 e1 => ?_
    subst e2
    unfold KeyMemory
    rw [if_pos hv]
    exact ⟨f1, f2, rfl, e1⟩
  unfold Gpgpdump.pubkeyParse
  rcases Lang.ver_cases v with ⟨rfl, h⟩ | ⟨rfl, h, h'⟩ | ⟨rfl, h, h', h''⟩ | ⟨hv, h, h', h''⟩ <;> simp only [h]
  · rw [if_pos trivial]
    refine key (by decide) (fun _ => ?_) fun _ => ?_
    · exact Shows.byte fun a => Shows.debug (Shows.add (Shows.bytes 4 fun sz hz => Shows.bytes _ fun b hb =>
        (Shows.onReader b (Shows.parsePub a)).bind fun _ f2 l2 => Shows.pure fun q _ => trivial))
    · moves; apply Moves.parsePub
  · rw [if_neg (by decide), h', if_pos rfl]
    refine key (by decide) (fun _ => ?_) fun _ => ?_
    · exact Shows.byte fun a => Shows.debug (Shows.add ((Shows.parsePub a).bind fun _ f2 l2 => Shows.pure fun q _ => trivial))
    · moves; apply Moves.parsePub
  · rw [if_neg (by decide), h', if_neg (by decide), if_pos (by decide)]
    refine key (by decide) (fun _ => ?_) fun _ => ?_
    · exact Shows.bytes 2 fun d hd => Shows.add (Shows.byte fun a => Shows.debug (Shows.add ((Shows.parsePub a).bind fun _ f2 l2 => Shows.pure fun q _ => trivial)))
    · moves; apply Moves.parsePub
  · rw [if_neg (by decide), h', if_neg (by decide), h'', if_neg (by decide)]
    refine pure fun q => ?_
    unfold KeyMemory
    rw [if_neg hv]

theorem KeyMemory.app {h h' : History} {v : UInt8} {f g : Bytes} (hk : KeyMemory h v f h') : KeyMemory h v (f ++ g) h' := by
  unfold KeyMemory at hk ⊢
  split
  · rename_i hv
    rw [if_pos hv] at hk
    obtain ⟨tm, r, rfl, hl, hh⟩ := hk
    exact ⟨tm, r ++ g, List.append_assoc .., hl, hh⟩
  · rename_i hv
    rwa [if_neg hv] at hk

theorem Tell.tag06 : Tell o h (tag06 X) (fun _ f q _ h' => ∃ v r, f ++ q = v :: r ∧ KeyMemory h v r h') := by
  unfold Gpgpdump.tag06
  refine byte fun v => debug (add ((pubkeyParse X v).bind fun a f l h1 => (any (Shows.unknownData (E := fun _ _ _ _ => True) fun q => trivial) .unknownData).mono
    fun _ f2 q l2 h2 e2 e1 => ?_))
  subst e2
  exact ⟨v, _, rfl, e1.app.app⟩

theorem Tell.tag05 : Tell o h (tag05 X) (fun _ f q _ h' => ∃ v r, f ++ q = v :: r ∧ KeyMemory h v r h') := by
  unfold Gpgpdump.tag05
  refine byte fun v => debug (add (Tell.bind (nested (pubkeyParse X v)) fun a f l h1 => (any (E := fun _ _ _ _ => True)
    (Shows.bind (Shows.seckey v a) fun _ f2 l2 => Shows.unknownData fun q _ => trivial) ?_).mono fun _ f2 q l2 h2 e2 e1 => ?_))
  · have := Moves.unknownData (O := sameCtx)
    moves; apply Moves.seckeyParse
  · subst e2
    obtain ⟨k, -, e1⟩ := e1
    exact ⟨v, _, rfl, e1.app.app⟩

theorem Full.ofKey {tag : Nat} (ht : tag ∈ [5, 6, 7, 14]) {h h' : History} {b : Bytes} {i : Item} (hd : Display o X tag b i) (hk : ∃ v r, b = v :: r ∧ KeyMemory h v r h') :
    Full o X h tag b i h' := by
  obtain ⟨v, r, rfl, hk⟩ := hk
  unfold KeyMemory at hk
  split at hk
  · rename_i hv
    obtain ⟨tm, r, rfl, hl, rfl⟩ := hk
    exact .key ht hv hl hd
  · rename_i hv
    subst hk
    exact .keyOther ht hv hd

theorem RetH.tagBody (hX : OwnErrors X) {recur : TagParser} (hrec : ∀ h tag body, Tells o h (recur tag body) (fun i h' => Full o X h tag body i h'))
    (hrec' : ∀ tag body, Yields o (recur tag body) (Display o X tag body)) (tag : Nat) (b : Bytes) :
    RetH o h (tagBody X recur tag) (rdAt [] b) (packetRow o tag b []) (fun _ i h' => Full o X h tag b i h') := by
  by_cases ht : tag ∈ [1, 2, 3, 5, 6, 7, 9, 14, 18]
  · simp only [List.mem_cons, List.not_mem_nil, or_false] at ht
    rcases ht with rfl | rfl | rfl | rfl | rfl | rfl | rfl | rfl | rfl
    · exact (RetH.packet X (T := fun _ h' => h' = { h with session := .pubEnc }) (Shows.tag01 X) Tell.tag01).mono fun _ i h' hi => by
        rw [hi.2]; exact .sessionKey hi.1
    · exact RetH.tag02 X hrec b
    · exact (RetH.packet X (T := fun _ h' => h' = { h with session := .symEnc }) (Shows.tag03 X) Tell.tag03).mono fun _ i h' hi => by
        rw [hi.2]; exact .password hi.1
    · exact (RetH.packet X (T := fun b h' => ∃ v r, b = v :: r ∧ KeyMemory h v r h') (Shows.tag05 X (by decide)) (Tell.tag05 X)).mono fun _ i h' hi =>
        Full.ofKey X (by decide) hi.1 hi.2
    · exact (RetH.packet X (T := fun b h' => ∃ v r, b = v :: r ∧ KeyMemory h v r h') (Shows.tag06 X (by decide)) (Tell.tag06 X)).mono fun _ i h' hi =>
        Full.ofKey X (by decide) hi.1 hi.2
    · exact (RetH.packet X (T := fun b h' => ∃ v r, b = v :: r ∧ KeyMemory h v r h') (Shows.tag05 X (by decide)) (Tell.tag05 X)).mono fun _ i h' hi =>
        Full.ofKey X (by decide) hi.1 hi.2
    · exact RetH.tag09 X b
    · exact (RetH.packet X (T := fun b h' => ∃ v r, b = v :: r ∧ KeyMemory h v r h') (Shows.tag06 X (by decide)) (Tell.tag06 X)).mono fun _ i h' hi =>
        Full.ofKey X (by decide) hi.1 hi.2
    · exact RetH.tag18 X b
  · refine (RetH.same (Ret.tagBody X hX hrec' tag b) ?_).mono fun _ i h' hi => by rw [hi.2]; exact .plain ht hi.1
    refine Moves.tagBody X tag ?_ ?_ ?_ ?_ ?_ <;> intro h0 <;> (exfalso; apply ht; simp only [List.mem_cons, List.not_mem_nil, or_false]; omega)

theorem Tells.tagParse (hX : OwnErrors X) {recur : TagParser} (hrec : ∀ h tag body, Tells o h (recur tag body) (fun i h' => Full o X h tag body i h'))
    (hrec' : ∀ tag body, Yields o (recur tag body) (Display o X tag body)) (tag : Nat) (b : Bytes) :
    Tells o h (tagParse X recur tag b) (fun i h' => Full o X h tag b i h') := by
  unfold Gpgpdump.tagParse Gpgpdump.tagScope
  intro x p q j a s hx hh hr
  rw [bind_run, flag_run] at hr
  simp only [St.at_ctx, ctxFlag, tagHead_eq tag b x hx.1] at hr
  refine Tells.scope (h := h) ?_ x p q j a s hx hh hr
  intro x a s hx hh hr
  obtain ⟨u, s1, h1, h2⟩ := bind_inv hr
  obtain ⟨x', hc, hg, hd⟩ := RetH.tagBody X hX hrec hrec' tag b x u s1 hx hh h1
  rw [getCur_run] at h2
  cases h2
  exact ⟨x', hc, hg, hd⟩

theorem Tells.parseTagF (hX : OwnErrors X) (f : Nat) (h : History) (tag : Nat) (b : Bytes) : Tells o h (parseTagF X f tag b) (fun i h' => Full o X h tag b i h') := by
  induction f generalizing h tag b with
  | zero => intro x p q j a s hx hh hr; simp [Gpgpdump.parseTagF, P.stuck] at hr
  | succ f ih => exact Tells.tagParse X hX ih (Yields.parseTagF X hX f) tag b

theorem Tells.parseTag (hX : OwnErrors X) (h : History) (tag : Nat) (b : Bytes) : Tells o h (parseTag X tag b) (fun i h' => Full o X h tag b i h') :=
  Tells.parseTagF X hX _ h tag b

theorem Tells.packetsParse (hX : OwnErrors X) (tag : Nat) (b : Bytes) : Tells o h (packetsParse X tag b) (fun i h' => FullTop o X h (tag, b) i h') := by
  by_cases h8 : tag = 8
  · subst h8
    have hd : Gpgpdump.packetsParse X 8 b = (do
        let (item, data) ← compressed X b
        match data with
        | none => return item
        | some z => P.build item (packetLoop X (Gpgpdump.parseTag X) (Src.ofBytes z))) := by
      unfold Gpgpdump.packetsParse; rw [if_pos rfl]; rfl
    rw [hd]
    intro x p q j a s hx hh hr
    obtain ⟨⟨i, z⟩, s1, h1, h2⟩ := bind_inv hr
    obtain ⟨-, rfl⟩ := compressed_sound h1
    have hi : Opens X b z ∧ i = packetRow o 8 b (packedRows o b z.isNone) := by
      have hr : compressed X b (St.at (some x) p q j) = (((do
        let data ← tag08 X
        return (← getCur, data) : P (Item × Option Bytes)) (St.at (some x) [] b (tagItem 8 b (tagDumpFlag 8 x)))).1,
        { ((do
        let data ← tag08 X
        return (← getCur, data) : P (Item × Option Bytes)) (St.at (some x) [] b (tagItem 8 b (tagDumpFlag 8 x)))).2 with rd := ⟨p ++ q, p.length⟩, cur := j }) := rfl
      rw [hr, tagHead_eq 8 b x hx.1] at h1
      rcases hm : (do
        let data ← tag08 X
        return (← getCur, data) : P (Item × Option Bytes)) (St.at (some x) [] b (packetRow o 8 b [])) with ⟨r, s'⟩
      rw [hm] at h1
      simp only [Prod.mk.injEq] at h1
      obtain ⟨rfl, -⟩ := h1
      obtain ⟨z', s2, h3, h4⟩ := bind_inv hm
      obtain ⟨-, h5, h6⟩ := Ret.tag08 X hX b x z' s2 hx.1 h3
      cases h4
      exact ⟨h5, h6⟩
    obtain ⟨ho, rfl⟩ := hi
    cases z with
    | none =>
      simp only at h2
      cases h2
      exact ⟨x, [], q, [], hx, rfl, by simp, rfl, rfl, by rw [hh]; exact .huge ho⟩
    | some z =>
      simp only at h2
      obtain ⟨x', f, q', l, hx', hq, rfl, rfl, k, rfl, rfl, ps, h3, h4⟩ :=
        Tell.build (Tell.seq X (Tells.parseTag X hX) (ofBytes_lazy z) rfl rfl (Nat.lt_succ_self _)) x p q j a s hx hh h2
      exact ⟨x', [], q', [], hx', hq, rfl, rfl, rfl, .packed ho h3 h4⟩
  · unfold Gpgpdump.packetsParse
    rw [if_neg h8]
    exact (Tells.parseTag X hX h tag b).mono fun i h' hi => .plain h8 hi

end Gpgpdump
