import Verif.DisplayTags
import Verif.Tests

/-!
# C57 to C59: what is displayed of the packets
-/

namespace Gpgpdump
open P Spec Src

variable {X : Ext}

theorem onePacket_display (hX : OwnErrors X) {tag : Nat} {body : Bytes} {x : Ctx} {i : Item} {c : Option Ctx}
    (h : onePacket (packetsParse X) tag body (some x) = (.ok i, c)) : TopDisplay x.opts X (tag, body) i ∧ ∃ x', c = some x' ∧ x'.opts = x.opts := by
  unfold onePacket at h
  simp only [Prod.mk.injEq] at h
  rcases hm : packetsParse X tag body ⟨some x, Reader.new [], newItem []⟩ with ⟨r, s⟩
  rw [hm] at h
  obtain ⟨rfl, rfl⟩ := h
  obtain ⟨x', f, q', l, h1, -, rfl, -, -, h2⟩ := Yields.packetsParse X hX tag body x [] [] (newItem []) i s rfl hm
  exact ⟨h2, x', rfl, h1⟩

theorem seqPackets_display (hX : OwnErrors X) (ps : List (Nat × Bytes)) (x : Ctx) :
    ∃ qs rs, ps = qs ++ rs ∧ List.Forall₂ (TopDisplay x.opts X) qs (seqPackets (packetsParse X) ps (some x)).1 ∧
      ((seqPackets (packetsParse X) ps (some x)).2.1 = .ok () → rs = []) := by
  induction ps generalizing x with
  | nil => exact ⟨[], [], rfl, .nil, fun _ => rfl⟩
  | cons p ps ih =>
    obtain ⟨tag, body⟩ := p
    simp only [seqPackets]
    rcases ho : onePacket (packetsParse X) tag body (some x) with ⟨r, c⟩
    cases r with
    | ok i =>
      obtain ⟨h1, x', rfl, h2⟩ := onePacket_display hX ho
      obtain ⟨qs, rs, rfl, h3, h4⟩ := ih x'
      rw [h2] at h3
      exact ⟨(tag, body) :: qs, rs, rfl, .cons h1 h3, h4⟩
    | err e => exact ⟨[], (tag, body) :: ps, rfl, .nil, fun h => by simp at h⟩
    | panic e => exact ⟨[], (tag, body) :: ps, rfl, .nil, fun h => by simp at h⟩
    | stuck => exact ⟨[], (tag, body) :: ps, rfl, .nil, fun h => by simp at h⟩

theorem closed_front {qs rs : List (Nat × Bytes)} {a : Bytes} (h : ClosedSeq (qs ++ rs) a) : ∃ b c, a = b ++ c ∧ ClosedSeq qs b := by
  induction qs generalizing a with
  | nil => exact ⟨[], a, rfl, .nil⟩
  | cons q qs ih =>
    cases h with
    | cons he hs =>
      obtain ⟨b, c, rfl, h'⟩ := ih hs
      exact ⟨_, c, by rw [List.append_assoc], .cons he h'⟩

/-- the first packets the loop comes to -/
theorem front_packets {s : Source} {qs rs : List (Nat × Bytes)} (hq : (loopEnd (split s.data) s.src.tail).1 = qs ++ rs) :
    PacketSeq qs s.data ∨ ∃ a b, s.data = a ++ b ∧ ClosedSeq qs a := by
  obtain ⟨a, b, hc, hab, -, -⟩ := split_spec s.data
  have closed : ∀ rs, (split s.data).1 = qs ++ rs → ∃ a b, s.data = a ++ b ∧ ClosedSeq qs a := by
    intro rs h
    rw [h] at hc
    obtain ⟨c, d, rfl, h'⟩ := closed_front hc
    exact ⟨c, d ++ b, by rw [hab, List.append_assoc], h'⟩
  rcases hsp : split s.data with ⟨ps, stop⟩
  rw [hsp] at hq closed
  cases stop with
  | clean => exact .inr (closed rs hq)
  | truncated => exact .inr (closed rs hq)
  | noMSB => exact .inr (closed rs hq)
  | toEnd t b' =>
    unfold loopEnd at hq
    simp only at hq
    split at hq
    · simp only at hq
      rcases List.append_eq_append_iff.mp hq with ⟨as, h2, h3⟩ | ⟨bs, h2, h3⟩
      · cases as with
        | nil => exact .inr (closed [] (by rw [h2]; simp))
        | cons p as =>
          have : as = [] := by
            have := congrArg List.length h3
            simp at this
            exact this.1
          subst this
          simp only [List.cons_append, List.nil_append, List.cons.injEq] at h3
          left
          refine packetSeq_iff.mpr (.inr ⟨ps, t, b', hsp, ?_⟩)
          rw [h2, h3.1]
      · exact .inr (closed bs h2)
    · exact .inr (closed rs hq)

/-! ## C57 -/

/-- C57: an input that is parsed without an error is a sequence of packets, and the result displays them one by one, in order. What
is displayed of a packet is laid down in `TopDisplay`: every field, in the order of the octets, under its own label, with its
value; dumps are there exactly if the options ask for them. -/
theorem C57_displayed (X : Ext) (hX : OwnErrors X) (x : Ctx) (s : Source) (ht : s.tail = rawErr .eof) (h : (parseSrc X (some x) s.src).res = .ok ()) :
    ∃ ps, PacketSeq ps s.data ∧ List.Forall₂ (TopDisplay x.opts X) ps (parseSrc X (some x) s.src).packets := by
  obtain ⟨ps, hps, hs⟩ := parseSrc_ok X (some x) ht h
  obtain ⟨qs, rs, rfl, h1, h2⟩ := seqPackets_display hX ps x
  rw [hs] at h1 h2
  have := h2 rfl
  subst this
  rw [List.append_nil] at hps
  exact ⟨qs, hps, h1⟩

/-- C57 for all inputs, with or without an error: what is in the result are the displays of the first packets. -/
theorem C57_prefix (X : Ext) (hX : OwnErrors X) (x : Ctx) (s : Source) :
    ∃ ps, (PacketSeq ps s.data ∨ ∃ a b, s.data = a ++ b ∧ ClosedSeq ps a) ∧ List.Forall₂ (TopDisplay x.opts X) ps (parseSrc X (some x) s.src).packets := by
  rw [parseSrc_eq X (some x) _ s.isLazy rfl]
  have hd : s.src.data = s.data := rfl
  rw [hd]
  simp only
  have ht : ∀ (o : List Item × Res Unit × Option Ctx) e, (thenErr o e).1 = o.1 := by
    intro o e
    unfold thenErr
    split <;> rfl
  rw [ht]
  obtain ⟨qs, rs, hq, h1, -⟩ := seqPackets_display hX (loopEnd (split s.data) s.src.tail).1 x
  exact ⟨qs, front_packets hq, h1⟩

/-- C57 at `New` and `Parse`: for input without an armor block and without an overlong line. -/
theorem C57_new (X : Ext) (hX : OwnErrors X) (x : Ctx) (ha : x.armor = false) (d : Bytes) (sched : List Nat) {ls} (h : Lines d ls false d)
    (hb : ¬ ∃ block, ArmorBlock ls block) (hok : (parse X (some x) (some (Source.src ⟨d, rawErr .eof, sched⟩))).res = .ok ()) :
    ∃ ps, PacketSeq ps d ∧ List.Forall₂ (TopDisplay x.opts X) ps (parse X (some x) (some (Source.src ⟨d, rawErr .eof, sched⟩))).packets := by
  rw [C34_verbatim_partial X (some x) ha d sched h hb] at hok ⊢
  exact C57_displayed X hX x ⟨d, rawErr .eof, []⟩ rfl hok

/-! A user ID and a one-pass signature: by C56 the input is accepted for all options, and by C57 exactly these rows are displayed. -/

example (X : Ext) (hX : OwnErrors X) (x : Ctx) : ∃ r,
    parseSrc X (some x) (Source.src ⟨[0xcd, 2, 65, 7, 0xc4, 13, 3, 1, 10, 22, 1, 2, 3, 4, 5, 6, 0xab, 0xcd, 1], rawErr .eof, []⟩) = r ∧ r.res = .ok () ∧ r.packets =
      [.mk "User ID Packet (tag 13)".toList [] (dumpIf (x.opts DEBUG) [65, 7]) "2 bytes".toList
        [.mk "User ID".toList "A(U+0007)".toList (dumpIf (x.opts DEBUG) [65, 7]) [] []],
       .mk "One-Pass Signature Packet (tag 4)".toList [] (dumpIf (x.opts DEBUG) [3, 1, 10, 22, 1, 2, 3, 4, 5, 6, 0xab, 0xcd, 1]) "13 bytes".toList
        [.mk "Version".toList "3".toList (dumpIf (x.opts DEBUG) [3]) "current".toList [],
         .mk "Signiture Type".toList "Signature of a canonical text document (0x01)".toList (dumpIf (x.opts DEBUG) [1]) [] [],
         .mk "Hash Algorithm".toList "SHA2-512 (hash 10)".toList (dumpIf (x.opts DEBUG) [10]) [] [],
         .mk "Public-key Algorithm".toList "EdDSA (pub 22)".toList (dumpIf (x.opts DEBUG) [22]) [] [],
         .mk "Key ID".toList "0x010203040506abcd".toList [] [] [],
         .mk "Encrypted session key".toList "other than one pass signature".toList [] "flag 0x01".toList []]] := by
  have hsp : split [0xcd, 2, 65, 7, 0xc4, 13, 3, 1, 10, 22, 1, 2, 3, 4, 5, 6, 0xab, 0xcd, 1] =
    ([(13, [65, 7]), (4, [3, 1, 10, 22, 1, 2, 3, 4, 5, 6, 0xab, 0xcd, 1])], .clean) := by decide +kernel
  refine ⟨_, rfl, ?_⟩
  have hok : (parseSrc X (some x) (Source.src ⟨[0xcd, 2, 65, 7, 0xc4, 13, 3, 1, 10, 22, 1, 2, 3, 4, 5, 6, 0xab, 0xcd, 1], rawErr .eof, []⟩)).res = .ok () := by
    refine C56_accepted X x _ rfl (packetSeq_iff.mpr (.inl hsp)) ?_
    intro p hp
    simp only [List.mem_cons, List.not_mem_nil, or_false] at hp
    rcases hp with rfl | rfl
    · exact .plain (by decide) (.other (by decide))
    · exact .plain (by decide) (.onePass (by decide))
  refine ⟨hok, ?_⟩
  obtain ⟨ps, hps, hd⟩ := C57_displayed X hX x _ rfl hok
  have hps : PacketSeq ps [0xcd, 2, 65, 7, 0xc4, 13, 3, 1, 10, 22, 1, 2, 3, 4, 5, 6, 0xab, 0xcd, 1] := hps
  rcases packetSeq_iff.mp hps with h | ⟨qs, t, b, h, -⟩
  rotate_left
  · rw [hsp] at h
    simp at h
  rw [hsp] at h
  obtain rfl : _ = ps := congrArg Prod.fst h
  generalize (parseSrc X (some x) (Source.src ⟨[0xcd, 2, 65, 7, 0xc4, 13, 3, 1, 10, 22, 1, 2, 3, 4, 5, 6, 0xab, 0xcd, 1], rawErr .eof, []⟩)).packets = l at hd
  rcases hd with _ | ⟨h1, h2⟩
  rcases h2 with _ | ⟨h2, h3⟩
  rcases h3
  congr 1
  · cases h1 with
    | plain _ h =>
      generalize hb : ([65, 7] : Bytes) = b at h
      cases h with
      | userID =>
        subst hb
        have : utf8Decode [65, 7] = some ['A', Char.ofNat 7] := by decide +kernel
        unfold textRow
        rw [if_neg (by simp), this]
        rfl
      | publicKey ht => simp at ht
      | secretKey ht => simp at ht
      | other h => simp at h
  · congr 1
    cases h2 with
    | plain _ h =>
      generalize hb : ([3, 1, 10, 22, 1, 2, 3, 4, 5, 6, 0xab, 0xcd, 1] : Bytes) = b at h
      cases h with
      | @onePass v t h a kid last q hk =>
        simp only [List.cons.injEq] at hb
        obtain ⟨rfl, rfl, rfl, rfl, hb⟩ := hb
        obtain ⟨rfl, hb⟩ := List.append_inj (s₁ := [1, 2, 3, 4, 5, 6, 0xab, 0xcd]) (t₁ := [1]) hb (by rw [hk]; rfl)
        cases hb
        rfl
      | publicKey ht => simp at ht
      | secretKey ht => simp at ht
      | other h => simp at h

/-- C57 for the subpackets of signatures, on their own and in any state: a subpacket without packets inside it that is read without
an error is displayed as `SubShown` lays down, and nothing else changes but times kept in the context. -/
theorem C57_subpacket (X : Ext) (recur : TagParser) (t : UInt8) (h32 : t.toNat % 128 ≠ 32) (h38 : t.toNat % 128 ≠ 38) (b : Bytes) (x : Ctx) (p q : Bytes)
    (j i : Item) (s : St) (h : parseSub02 X recur t b (St.at (some x) p q j) = (.ok i, s)) :
    SubShown x.opts X t b i ∧ ∃ x', x'.opts = x.opts ∧ s = St.at (some x') p q j := by
  obtain ⟨x', f, q', l, h1, rfl, rfl, rfl, rfl, h2⟩ := Yields.plain X recur h32 h38 x p q j i s rfl h
  exact ⟨h2, x', h1, by simp only [List.append_nil, List.nil_append, Item.addAll_nil]⟩

/-- The same for user attributes. -/
theorem C57_attribute (t : UInt8) (b : Bytes) (x : Ctx) (p q : Bytes) (j i : Item) (s : St) (h : parseSub17 t b (St.at (some x) p q j) = (.ok i, s)) :
    AttrShown x.opts t b i ∧ ∃ x', x'.opts = x.opts ∧ s = St.at (some x') p q j := by
  obtain ⟨x', f, q', l, h1, rfl, rfl, rfl, rfl, h2⟩ := Yields.attr x p q j i s rfl h
  exact ⟨h2, x', h1, by simp only [List.append_nil, List.nil_append, Item.addAll_nil]⟩

example (recur : TagParser) (x : Ctx) : ∃ i s, parseSub02 Tests.X recur 0x8c [0x80, 17, 1, 2, 3] (St.at (some x) [] [] (newItem [])) = (.ok i, s) := ⟨_, _, rfl⟩
example (x : Ctx) : ∃ i s, parseSub17 1 [16, 0, 1, 1, 0xff, 0xd8] (St.at (some x) [] [] (newItem [])) = (.ok i, s) := ⟨_, _, rfl⟩

/-! ## C58: the names of the registries

The items of package `values` for all identifiers. -/

/-- C58 for the algorithm registries: every octet has the name the registry gives it, the numbers 100 to 110 are private, all others
unknown, and the number itself is displayed. -/
theorem C58_algorithms (o : OptCode → Bool) (b : UInt8) :
    pubItem b (o DEBUG) = leaf "Public-key Algorithm".toList (algText pubName "pub" b) [] (dumpIf (o DEBUG) [b]) ∧
    symItem b (o DEBUG) = leaf "Symmetric Algorithm".toList (algText symName "sym" b) [] (dumpIf (o DEBUG) [b]) ∧
    hashItem b (o DEBUG) = leaf "Hash Algorithm".toList (algText hashName "hash" b) [] (dumpIf (o DEBUG) [b]) ∧
    aeadItem b (o DEBUG) = leaf "AEAD Algorithm".toList (algText aeadName "aead" b) [] (dumpIf (o DEBUG) [b]) ∧
    compItem b (o DEBUG) =
      leaf "Compression Algorithm".toList ((compName b.toNat).toList ++ " (comp ".toList ++ dec b.toNat ++ ")".toList) [] (dumpIf (o DEBUG) [b]) ∧
    s2kItem b (o DEBUG) = .mk "String-to-Key (S2K) Algorithm".toList (algText s2kName "s2k" b) (dumpIf (o DEBUG) [b]) [] [] :=
  ⟨pubItem_eq o b, symItem_eq o b, hashItem_eq o b, aeadItem_eq o b, compItem_eq o b, by
    have := s2kItem_eq o b []
    rwa [Item.addAll_nil] at this⟩

/-- C58 for signature types, packet types, subpacket types, curves and literal data formats. -/
theorem C58_types (o : OptCode → Bool) (b : UInt8) (tag : Nat) (oid : Bytes) :
    sigItem b (o DEBUG) =
      leaf "Signiture Type".toList ((sigName b.toNat).toList ++ " (0x".toList ++ hexOctet b ++ ")".toList) [] (dumpIf (o DEBUG) [b]) ∧
    tagStr tag = (packetName tag).toList ++ " (tag ".toList ++ dec tag ++ ")".toList ∧
    subStr b = subName b ∧
    oidItem oid true = leaf "ECC Curve OID".toList (curveName oid).toList [] (hexText oid) ∧
    literalFormatItem b = leaf "Literal data format".toList [Char.ofNat b.toNat] (literalFormat b).toList :=
  ⟨sigItem_eq o b, by unfold tagStr; rw [packetNames_eq]; rfl, subNames_eq b, oidItem_eq oid, by unfold literalFormatItem; rw [literalNames_eq]; rfl⟩

theorem number_last {a b : Str} {m n : Nat} (h : a ++ " ".toList ++ dec m ++ ")".toList = b ++ " ".toList ++ dec n ++ ")".toList) : m = n := by
  have h := List.append_cancel_right h
  have key : ∀ (a : Str) (m : Nat), ((a ++ " ".toList ++ dec m).reverse.takeWhile Char.isDigit).reverse = dec m := by
    intro a m
    rw [List.reverse_append, List.takeWhile_append_of_pos (by intro c hc; exact dec_isDigit (List.mem_reverse.mp hc))]
    have : (a ++ " ".toList).reverse.takeWhile Char.isDigit = [] := by rw [List.reverse_append]; rfl
    rw [this, List.append_nil, List.reverse_reverse]
  have h1 := key a m
  rw [h, key] at h1
  exact (dec_inj h1).symm

theorem algText_inj {names : Nat → String} {kind : String} {a b : UInt8} (h : algText names kind a = algText names kind b) : a = b :=
  UInt8.toNat_inj.mp (number_last h)

theorem hexOctet_inj {a b : UInt8} (h : hexOctet a = hexOctet b) : a = b := by
  have := hexNat_flatMap [a]
  simp only [List.flatMap_cons, List.flatMap_nil, h] at this
  have h2 := hexNat_flatMap [b]
  simp only [List.flatMap_cons, List.flatMap_nil] at h2
  rw [h2] at this
  simp only [beNat, List.foldl_cons, List.foldl_nil, Option.some.injEq] at this
  exact UInt8.toNat_inj.mp (by omega)

theorem subName_inj {a b : UInt8} (h : subName a = subName b) : a = b := by
  have hm : a.toNat % 128 = b.toNat % 128 := by
    unfold subName at h
    have key : ∀ (A B : Str) m n, A ++ " (sub ".toList ++ dec m ++ ")".toList = B ++ " (sub ".toList ++ dec n ++ ")".toList → m = n := by
      intro A B m n h
      refine number_last (a := A ++ " (sub".toList) (b := B ++ " (sub".toList) ?_
      simp only [List.append_assoc] at h ⊢
      exact h
    exact key _ _ _ _ h
  unfold subName at h
  rw [hm] at h
  have hl := congrArg List.length h
  simp only [List.length_append] at hl
  have ha := a.toNat_lt
  have hb := b.toNat_lt
  refine UInt8.toNat_inj.mp ?_
  by_cases h1 : 128 ≤ a.toNat <;> by_cases h2 : 128 ≤ b.toNat
  · omega
  · rw [if_pos h1, if_neg h2] at hl
    exfalso
    simp only [List.length_nil, show " <critical>".toList.length = 11 from rfl] at hl
    omega
  · rw [if_neg h1, if_pos h2] at hl
    exfalso
    simp only [List.length_nil, show " <critical>".toList.length = 11 from rfl] at hl
    omega
  · omega

/-- C58: identifiers that are not the same are displayed differently, whatever their names: the display determines the identifier. -/
theorem C58_distinct (o : OptCode → Bool) (a b : UInt8) (hab : a ≠ b) :
    (pubItem a (o DEBUG)).value ≠ (pubItem b (o DEBUG)).value ∧ (symItem a (o DEBUG)).value ≠ (symItem b (o DEBUG)).value ∧
    (hashItem a (o DEBUG)).value ≠ (hashItem b (o DEBUG)).value ∧ (aeadItem a (o DEBUG)).value ≠ (aeadItem b (o DEBUG)).value ∧
    (compItem a (o DEBUG)).value ≠ (compItem b (o DEBUG)).value ∧ (s2kItem a (o DEBUG)).value ≠ (s2kItem b (o DEBUG)).value ∧
    (sigItem a (o DEBUG)).value ≠ (sigItem b (o DEBUG)).value ∧ subStr a ≠ subStr b := by
  obtain ⟨p1, p2, p3, p4, p5, p6⟩ := C58_algorithms o a
  obtain ⟨q1, q2, q3, q4, q5, q6⟩ := C58_algorithms o b
  rw [p1, p2, p3, p4, p5, p6, q1, q2, q3, q4, q5, q6, sigItem_eq, sigItem_eq, subNames_eq, subNames_eq]
  refine ⟨fun h => hab (algText_inj h), fun h => hab (algText_inj h), fun h => hab (algText_inj h), fun h => hab (algText_inj h), ?_,
    fun h => hab (algText_inj h), ?_, fun h => hab (subName_inj h)⟩
  · intro h
    refine hab (UInt8.toNat_inj.mp (number_last (a := (compName a.toNat).toList ++ " (comp".toList) (b := (compName b.toNat).toList ++ " (comp".toList) ?_))
    simp only [List.append_assoc] at h ⊢
    exact h
  · intro h
    have h : (sigName a.toNat).toList ++ " (0x".toList ++ hexOctet a ++ ")".toList = (sigName b.toNat).toList ++ " (0x".toList ++ hexOctet b ++ ")".toList := h
    exact hab (hexOctet_inj (List.append_inj_right' (List.append_cancel_right h) rfl))

end Gpgpdump
