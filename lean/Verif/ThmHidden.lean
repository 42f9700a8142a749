import Verif.TwoTags
import Verif.Tests

/-!
# C13, C14, C15: contents that are not shown without their option
-/

namespace Gpgpdump
open P Spec

namespace Spec

/-- the packets agree except in the octets of multi-precision integers (of curve points: except their first octet) -/
inductive SameButIntegers : Nat × Bytes → Nat × Bytes → Prop
  | same {p} : SameButIntegers p p
  | publicKey {tag a b} (ht : tag = 6 ∨ tag = 14) (h : Agree1 (PubKey true fun _ => SameLength) a b) : SameButIntegers (tag, a) (tag, b)
  | secretKey {tag a b} (ht : tag = 5 ∨ tag = 7)
      (h : Agree1 (fun v => if v = 5 then fun _ _ => False else PubKey true (SecKey true) v) a b) : SameButIntegers (tag, a) (tag, b)
  | signature {a b} (h : Agree1 (Signature true false) a b) : SameButIntegers (2, a) (2, b)
  | sessionKey {a b} (h : Agree1 (fun _ => Agree 8 fun _ => Agree1 fun alg => Parts true SameLength (sesParts alg)) a b) :
      SameButIntegers (1, a) (1, b)

/-- the packets agree except in literal data -/
inductive SameButLiteral : Nat × Bytes → Nat × Bytes → Prop
  | same {p} : SameButLiteral p p
  | literal {f n : UInt8} {name time a b : Bytes} (hn : name.length = n.toNat) (ht : time.length = 4) (h : a.length = b.length) :
      SameButLiteral (11, f :: n :: (name ++ (time ++ a))) (11, f :: n :: (name ++ (time ++ b)))

/-- the packets agree except in the contents of markers (`m`), private packets (`p`), attested-certification subpackets (`c`) and
encrypted data including encrypted secret-key material (`e`) -/
inductive SameBut (m p c e : Bool) : Nat × Bytes → Nat × Bytes → Prop
  | same {x} : SameBut m p c e x x
  | marker {a b : Bytes} (hm : m = true) (h : a.length = b.length) : SameBut m p c e (10, a) (10, b)
  | priv {tag} {a b : Bytes} (hp : p = true) (ht : 60 ≤ tag ∧ tag ≤ 63) (h : a.length = b.length) : SameBut m p c e (tag, a) (tag, b)
  | attested {a b} (hc : c = true) (h : Agree1 (Signature false true) a b) : SameBut m p c e (2, a) (2, b)
  | encrypted {tag} {a b : Bytes} (he : e = true) (ht : tag = 9 ∨ tag = 18 ∨ tag = 19) (h : a.length = b.length) : SameBut m p c e (tag, a) (tag, b)
  | aead {a b} (he : e = true)
      (h : Agree1 (fun _ => Agree1 fun _ => Agree1 fun alg => Agree1 fun _ => Agree (aeadIVLength alg) fun _ => SameLength) a b) :
      SameBut m p c e (20, a) (20, b)
  | secretKey {tag a b} (he : e = true) (ht : tag = 5 ∨ tag = 7)
      (h : Agree1 (fun v => if v = 5 then fun _ _ => False else PubKey false (SecKey false) v) a b) : SameBut m p c e (tag, a) (tag, b)

end Spec

/-! ## Sequences of packets -/

theorem seqPackets_alike (X : Ext) {o} {ps ps' : List (Nat × Bytes)} (h : List.Forall₂ (Alike o) ps ps') {c : Option Ctx} (hc : OptsAre o c) :
    seqPackets (packetsParse X) ps c = seqPackets (packetsParse X) ps' c := by
  induction h generalizing c with
  | nil => rfl
  | @cons p p' l l' hp _ ih =>
    obtain ⟨t, b⟩ := p
    obtain ⟨t', b'⟩ := p'
    have e := onePacket_alike X hp hc
    have h1 : OptsAre o (onePacket (packetsParse X) t' b' c).2 :=
      OptsAre.of_moves (packetsParse_opts X t' b') (st := ⟨c, Reader.new [], newItem []⟩) hc
    unfold seqPackets
    simp only at e
    rw [e]
    rcases he : onePacket (packetsParse X) t' b' c with ⟨r, c'⟩
    rw [he] at h1
    cases r with
    | ok i => simp only; rw [ih h1]
    | _ => rfl

theorem parseSrc_packetSeq (X : Ext) (ctx : Option Ctx) {ps a} (h : PacketSeq ps a) (sched : List Nat) :
    parseSrc X ctx (Source.src ⟨a, rawErr .eof, sched⟩) =
      let o := seqPackets (packetsParse X) ps ctx
      ⟨o.1, o.2.1, o.2.2⟩ := by
  rw [parseSrc_eq X ctx _ (Source.isLazy _) rfl]
  simp only [Source.src, loopEnd_packetSeq h]
  unfold thenErr
  rcases seqPackets (packetsParse X) ps ctx with ⟨is, r, c⟩
  cases r <;> rfl

/-- Inputs whose packets are pairwise alike under the options give the same outcome: items, error and context. -/
theorem parseSrc_alike (X : Ext) (x : Ctx) {ps ps' : List (Nat × Bytes)} {a a' : Bytes} (h : PacketSeq ps a) (h' : PacketSeq ps' a')
    (hp : List.Forall₂ (Alike x.opts) ps ps') (sched sched' : List Nat) :
    parseSrc X (some x) (Source.src ⟨a, rawErr .eof, sched⟩) = parseSrc X (some x) (Source.src ⟨a', rawErr .eof, sched'⟩) := by
  rw [parseSrc_packetSeq X _ h, parseSrc_packetSeq X _ h', seqPackets_alike X hp rfl]

/-- C13: without INTEGER and DEBUG the outcome does not depend on the octets of multi-precision integers beyond their bit lengths
(and the first octet of a curve point), in any number of public-key, secret-key, signature and session-key packets of the input.
Of secret-key packets, plain keys of unknown algorithms and version 5 keys are not covered. -/
theorem C13_integers_hidden (X : Ext) (x : Ctx) (hi : x.opts INTEGER = false) (hd : x.opts DEBUG = false) {ps ps' : List (Nat × Bytes)} {a a' : Bytes}
    (h : PacketSeq ps a) (h' : PacketSeq ps' a') (hp : List.Forall₂ SameButIntegers ps ps') (sched sched' : List Nat) :
    parseSrc X (some x) (Source.src ⟨a, rawErr .eof, sched⟩) = parseSrc X (some x) (Source.src ⟨a', rawErr .eof, sched'⟩) := by
  refine parseSrc_alike X x h h' (hp.imp fun p p' hp => ?_) sched sched'
  cases hp with
  | same => exact .same
  | publicKey ht h => exact .publicKey ht hi hd h
  | secretKey ht h => exact .secretKey ht (fun _ => hi) hd h
  | signature h => exact .signature (fun _ => hi) (fun h => by cases h) hd h
  | sessionKey h => exact .sessionKey hi hd h

/-- C14: without LITERAL and DEBUG the outcome depends on the literal data of literal data packets only through its length. -/
theorem C14_literal_hidden (X : Ext) (x : Ctx) (hi : x.opts LITERAL = false) (hd : x.opts DEBUG = false) {ps ps' : List (Nat × Bytes)} {a a' : Bytes}
    (h : PacketSeq ps a) (h' : PacketSeq ps' a') (hp : List.Forall₂ SameButLiteral ps ps') (sched sched' : List Nat) :
    parseSrc X (some x) (Source.src ⟨a, rawErr .eof, sched⟩) = parseSrc X (some x) (Source.src ⟨a', rawErr .eof, sched'⟩) := by
  refine parseSrc_alike X x h h' (hp.imp fun p p' hp => ?_) sched sched'
  cases hp with
  | same => exact .same
  | literal hn ht h => exact .literal hi hd (.read (.read (.read hn (.read ht h))))

/-- C15: the outcome depends on the contents of markers, private packets, attested certifications and encrypted data only through
their lengths, as long as the respective option (and DEBUG) is off. The missing case are secret keys of version 5, for which
the claim is false: see `C15_version_5_shown`. -/
theorem C15_contents_hidden_partial (X : Ext) (x : Ctx) {m p c e : Bool} (hm : m = true → x.opts MARKER = false) (hp : p = true → x.opts PRIVATE = false)
    (hc : c = true → x.opts CERT = false) (hd : x.opts DEBUG = false) {ps ps' : List (Nat × Bytes)} {a a' : Bytes}
    (h : PacketSeq ps a) (h' : PacketSeq ps' a') (hs : List.Forall₂ (SameBut m p c e) ps ps') (sched sched' : List Nat) :
    parseSrc X (some x) (Source.src ⟨a, rawErr .eof, sched⟩) = parseSrc X (some x) (Source.src ⟨a', rawErr .eof, sched'⟩) := by
  refine parseSrc_alike X x h h' (hs.imp fun y y' hs => ?_) sched sched'
  cases hs with
  | same => exact .same
  | marker hx h => exact .marker (hm hx) hd h
  | priv hx ht h => exact .priv ht (hp hx) hd h
  | attested hx h => exact .signature (fun h => by cases h) (fun _ => hc hx) hd h
  | encrypted hx ht h => exact .encrypted ht hd h
  | aead hx h => exact .aead hd h
  | secretKey hx ht h => exact .secretKey ht (fun h => by cases h) hd h

/-! ## Concrete cases -/

/-- two RSA keys (version 4) with different 8-bit moduli; a different modulus size is not related -/
theorem C13_example : SameButIntegers (6, [4, 0, 0, 0, 0, 1, 0, 8, 0x81, 0, 1, 1]) (6, [4, 0, 0, 0, 0, 1, 0, 8, 0x95, 0, 1, 1]) := by
  refine .publicKey (.inl rfl) (.read ?_)
  refine Agree.read (h := [0, 0, 0, 0]) rfl (.read ?_)
  show Parts true SameLength [.int, .int] _ _
  refine Agree.read (h := [0, 8]) rfl (Block.read (d := [0x81]) (d' := [0x95]) rfl rfl (.inl rfl) ?_)
  exact Agree.read (h := [0, 1]) rfl (Block.read (d := [1]) (d' := [1]) rfl rfl (.inl rfl) rfl)

/-- both keys encoded -/
theorem C13_example_encoded (X : Ext) (x : Ctx) (hi : x.opts INTEGER = false) (hd : x.opts DEBUG = false) :
    parseSrc X (some x) (Source.src ⟨[0xc6, 12, 4, 0, 0, 0, 0, 1, 0, 8, 0x81, 0, 1, 1], rawErr .eof, []⟩) =
      parseSrc X (some x) (Source.src ⟨[0xc6, 12, 4, 0, 0, 0, 0, 1, 0, 8, 0x95, 0, 1, 1], rawErr .eof, []⟩) :=
  C13_integers_hidden X x hi hd
    (.cons (tag := 6) (enc := [0xc6, 12, 4, 0, 0, 0, 0, 1, 0, 8, 0x81, 0, 1, 1]) (.new (by decide) (.last (lenc := [12]) (.one (by decide)))) .nil)
    (.cons (tag := 6) (enc := [0xc6, 12, 4, 0, 0, 0, 0, 1, 0, 8, 0x95, 0, 1, 1]) (.new (by decide) (.last (lenc := [12]) (.one (by decide)))) .nil)
    (.cons C13_example .nil) [] []

/-- with INTEGER the same keys are told apart -/
theorem C13_example_shown :
    (parseSrc Tests.X (some ⟨fun o => o == INTEGER, .notSpecified, none, none⟩) (Source.src ⟨[0xc6, 12, 4, 0, 0, 0, 0, 1, 0, 8, 0x81, 0, 1, 1], rawErr .eof, []⟩)).packets ≠
      (parseSrc Tests.X (some ⟨fun o => o == INTEGER, .notSpecified, none, none⟩) (Source.src ⟨[0xc6, 12, 4, 0, 0, 0, 0, 1, 0, 8, 0x95, 0, 1, 1], rawErr .eof, []⟩)).packets := by
  decide +kernel

/-- two signatures with different r and s values -/
theorem C13_example_signature :
    SameButIntegers (2, [4, 0, 17, 8, 0, 0, 0, 0, 0xaa, 0xbb, 0, 2, 2, 0, 3, 5]) (2, [4, 0, 17, 8, 0, 0, 0, 0, 0xaa, 0xbb, 0, 2, 3, 0, 3, 7]) := by
  refine .signature (.read (.read (.read (.read ?_))))
  refine Area.same (Agree.read (h := [0, 0]) rfl (Agree.read (h := []) rfl ?_))
  refine Area.same (Agree.read (h := [0, 0]) rfl (Agree.read (h := []) rfl ?_))
  refine Agree.read (h := [0xaa, 0xbb]) rfl ?_
  show Parts true SameLength [.int, .int] _ _
  exact Agree.read (h := [0, 2]) rfl (Block.read (d := [2]) (d' := [3]) rfl rfl (.inl rfl)
    (Agree.read (h := [0, 3]) rfl (Block.read (d := [5]) (d' := [7]) rfl rfl (.inl rfl) rfl)))

/-- two literal data packets -/
theorem C14_example : SameButLiteral (11, [0x62, 1, 0x66, 0, 0, 0, 0, 1, 2, 3]) (11, [0x62, 1, 0x66, 0, 0, 0, 0, 9, 9, 9]) :=
  .literal (name := [0x66]) (time := [0, 0, 0, 0]) (a := [1, 2, 3]) (b := [9, 9, 9]) rfl rfl rfl

/-- a signature with an attested-certifications subpacket (type 37) of two octets in its hashed area -/
theorem C15_example_attested :
    SameBut false false true false (2, [4, 22, 1, 8, 0, 4, 3, 37, 1, 2, 0, 0, 0xaa, 0xbb, 0, 1, 1]) (2, [4, 22, 1, 8, 0, 4, 3, 37, 7, 7, 0, 0, 0xaa, 0xbb, 0, 1, 1]) := by
  refine .attested rfl (.read (.read (.read (.read ?_))))
  refine Area.attested (subs := [(37, [1, 2])]) (subs' := [(37, [7, 7])]) (a := [3, 37, 1, 2]) (a' := [3, 37, 7, 7]) rfl ?_ ?_ ?_ (by decide) rfl ?_
  · exact .cons (lenc := [3]) (.one (by decide)) .nil
  · exact .cons (lenc := [3]) (.one (by decide)) .nil
  · exact .cons ⟨rfl, .inr ⟨rfl, rfl⟩⟩ .nil
  refine Area.same (Agree.read (h := [0, 0]) rfl (Agree.read (h := []) rfl ?_))
  refine Agree.read (h := [0xaa, 0xbb]) rfl ?_
  show Parts false SameLength [.int] _ _
  exact Agree.read (h := [0, 1]) rfl (Block.read (d := [1]) (d' := [1]) rfl rfl (.inr rfl) rfl)

/-- a secret key (RSA, version 4) encrypted with AES-128 (7) and an iterated and salted string-to-key -/
theorem C15_example_secret :
    SameBut false false false true
      (5, [4, 0, 0, 0, 0, 1, 0, 1, 1, 0, 1, 1, 254, 7, 3, 2, 1, 2, 3, 4, 5, 6, 7, 8, 96] ++ List.replicate 16 0 ++ [1, 2, 3])
      (5, [4, 0, 0, 0, 0, 1, 0, 1, 1, 0, 1, 1, 254, 7, 3, 2, 1, 2, 3, 4, 5, 6, 7, 8, 96] ++ List.replicate 16 0 ++ [9, 9, 9]) := by
  refine .secretKey rfl (.inl rfl) (.read ?_)
  show PubKey false (SecKey false) 4 _ _
  refine Agree.read (h := [0, 0, 0, 0]) rfl (.read ?_)
  show Parts false (SecKey false 1) [.int, .int] _ _
  refine Agree.read (h := [0, 1]) rfl (Block.read (d := [1]) (d' := [1]) rfl rfl (.inr rfl) ?_)
  refine Agree.read (h := [0, 1]) rfl (Block.read (d := [1]) (d' := [1]) rfl rfl (.inr rfl) ?_)
  refine .read (.read ?_)
  refine Agree1.read (.read (Agree.read (h := [1, 2, 3, 4, 5, 6, 7, 8]) rfl (.read ?_)))
  exact Agree.read (h := List.replicate 16 0) rfl rfl

/-- a secret-key packet of version 5 (RFC 4880bis section 5.5.3): RSA, usage 254, AES-128, iterated and salted string-to-key, an
initialization vector of 16 octets, 16 encrypted octets -/
def secretV5 (encrypted : Bytes) : Bytes :=
  [5, 0, 0, 0, 0, 1, 0, 0, 0, 6, 0, 1, 1, 0, 1, 1] ++ [254, 28, 7, 3, 2, 1, 2, 3, 4, 5, 6, 7, 8, 96] ++ List.replicate 16 0xee ++
    (beOctets 4 encrypted.length ++ encrypted)

/-- C15 is false for version 5 keys: without any option, two packets that differ only in an encrypted octet give different items,
because the initialization vector is read from behind the field that contains it. -/
theorem C15_version_5_shown :
    (parseSrc Tests.X (some (Ctx.new [])) (Source.src ⟨[0xc5, 66] ++ secretV5 (1 :: List.replicate 15 0), rawErr .eof, []⟩)).res = .ok () ∧
    (parseSrc Tests.X (some (Ctx.new [])) (Source.src ⟨[0xc5, 66] ++ secretV5 (2 :: List.replicate 15 0), rawErr .eof, []⟩)).res = .ok () ∧
    (parseSrc Tests.X (some (Ctx.new [])) (Source.src ⟨[0xc5, 66] ++ secretV5 (1 :: List.replicate 15 0), rawErr .eof, []⟩)).packets ≠
      (parseSrc Tests.X (some (Ctx.new [])) (Source.src ⟨[0xc5, 66] ++ secretV5 (2 :: List.replicate 15 0), rawErr .eof, []⟩)).packets := by
  decide +kernel

/-! ## With the option -/

theorem parseSrc_body (X : Ext) (x : Ctx) {tag : Nat} {body enc : Bytes} (he : Encodes tag body enc) (h8 : tag ≠ 8) (sched : List Nat) {j : Item} {c2 p2 q2}
    (h : tagBody X (parseTagF X body.length) tag (St.at (some x) [] body (tagItem tag body (ctxFlag (tagDumpFlag tag) (some x)))) = (.ok (), St.at c2 p2 q2 j)) :
    parseSrc X (some x) (Source.src ⟨enc, rawErr .eof, sched⟩) = ⟨[j], .ok (), c2⟩ := by
  have : onePacket (packetsParse X) tag body (some x) = (.ok j, c2) := by
    unfold onePacket
    rw [packetsParse_other X tag body h8, parseTag_run, scope_run]
    simp only [bind_run, h, getCur_run]
    rfl
  rw [parseSrc_closed X _ (closed_single he)]
  simp only [seqPackets, this]

/-- C14: the last child of a literal data packet has the data as its dump if LITERAL or DEBUG is set, and an empty dump otherwise. -/
theorem C14_shown (X : Ext) (x : Ctx) {f n : UInt8} {name time data enc : Bytes} (hn : name.length = n.toNat) (ht : time.length = 4)
    (he : Encodes 11 (f :: n :: (name ++ (time ++ data))) enc) (sched : List Nat) :
    ∃ i l, parseSrc X (some x) (Source.src ⟨enc, rawErr .eof, sched⟩) = ⟨[i], .ok (), some x⟩ ∧
      i.items = l ++ [.mk "Literal data".toList [] (if x.opts LITERAL || x.opts DEBUG then Reader.dumpHex data else []) (dec data.length ++ " bytes".toList) []] := by
  have hlit : ctxFlag Ctx.literal (some x) = (x.opts LITERAL || x.opts DEBUG) := rfl
  have key : ∃ l, ∀ j, tag11 X (St.at (some x) [] (f :: n :: (name ++ (time ++ data))) j) = (.ok (), St.at (some x) (f :: n :: (name ++ time)) data
      (j.addAll (l ++ [newItem (S "Literal data") [] (nBytes data.length) (if x.opts LITERAL || x.opts DEBUG then Reader.dumpHex data else [])]))) := by
    refine ⟨[literalFormatItem f, textItem (S "File name") name (ctxFlag Ctx.literal (some x)),
      fileTimeItem X ⟨time, ctxFlag Ctx.utc (some x)⟩ (ctxFlag Ctx.debug (some x))], fun j => ?_⟩
    have hname : ∀ p j, (if n.toNat < 1 then Pure.pure [] else P.readBytes n.toNat : P Bytes) (St.at (some x) p (name ++ (time ++ data)) j) =
        (.ok name, St.at (some x) (p ++ name) (time ++ data) j) := by
      intro p j
      by_cases h : n.toNat < 1
      · rw [if_pos h]
        have : name = [] := List.length_eq_zero_iff.mp (by omega)
        subst this
        simp [pure_run]
      · rw [if_neg h, ← hn, readBytes_append]
    have htime : ∀ u p j, newDateTime u (St.at (some x) p (time ++ data) j) = (.ok ⟨time, u⟩, St.at (some x) (p ++ time) data j) := by
      intro u p j
      unfold newDateTime
      have := readBytes_append (some x) p time data j
      rw [ht] at this
      rw [bind_run, show (4 : Int) = ((4 : Nat) : Int) from rfl, this]
      rfl
    unfold tag11
    simp only [bind_run, readByte_cons, add_run, hname, flag_run, St.at_ctx, htime, addRaw_run, hlit]
    congr 2
    all_goals simp [Item.add_eq, Item.addAll_addAll, List.cons_append, List.nil_append]
  obtain ⟨l, hl⟩ := key
  have := parseSrc_body X x he (by decide) sched (by rw [tagBody_11]; exact hl _)
  exact ⟨_, l, this, rfl⟩

/-- the only child of a packet -/
theorem shown_whole (X : Ext) (x : Ctx) {tag : Nat} {body enc : Bytes} (he : Encodes tag body enc) (sched : List Nat) (h : tag = 9 ∨ tag = 10 ∨ tag = 18 ∨ tag = 19) :
    ∃ i k, (parseSrc X (some x) (Source.src ⟨enc, rawErr .eof, sched⟩)).packets = [i] ∧ (parseSrc X (some x) (Source.src ⟨enc, rawErr .eof, sched⟩)).res = .ok () ∧
      i.items = [k] ∧ k.dump = if (if tag = 10 then x.opts MARKER || x.opts DEBUG else x.opts DEBUG) then Reader.dumpHex body else [] := by
  rcases h with rfl | rfl | rfl | rfl
  · have := parseSrc_body X x he (by decide) sched (j := (tagItem 9 body (ctxFlag (tagDumpFlag 9) (some x))).add
      ((newItem (S "Encrypted data") [] (nBytes body.length) (if x.opts DEBUG then Reader.dumpHex body else [])).setValue (match x.mode with
      | .symEnc => S "sym alg is specified in sym-key encrypted session key"
      | .pubEnc => S "sym alg is specified in pub-key encrypted session key"
      | .notSpecified => S "sym alg is IDEA, simple string-to-key"))) (c2 := some { x with mode := .notSpecified }) (p2 := []) (q2 := body) (by
        rw [tagBody_9]
        have hr := rawData_at [] body (S "Encrypted data") (x.opts DEBUG)
        have e : tag09 (St.at (some x) [] body (tagItem 9 body (ctxFlag (tagDumpFlag 9) (some x)))) = (.ok (), St.at (some { x with mode := .notSpecified }) [] body
          ((tagItem 9 body (ctxFlag (tagDumpFlag 9) (some x))).add ((rawData ⟨[] ++ body, 0⟩ (S "Encrypted data") (x.opts DEBUG)).setValue (match x.mode with
            | .symEnc => S "sym alg is specified in sym-key encrypted session key"
            | .pubEnc => S "sym alg is specified in pub-key encrypted session key"
            | .notSpecified => S "sym alg is IDEA, simple string-to-key")))) := rfl
        rw [e]
        simp only [List.length_nil] at hr
        rw [hr])
    rw [this]
    exact ⟨_, _, rfl, rfl, rfl, rfl⟩
  · have := parseSrc_body X x he (by decide) sched (by rw [tagBody_10]; unfold tag10; rw [bind_run, flag_run]; exact addRaw_run _ _ _ _ _ _)
    rw [this]
    exact ⟨_, _, rfl, rfl, rfl, rfl⟩
  · have := parseSrc_body X x he (by decide) sched (j := (tagItem 18 body (ctxFlag (tagDumpFlag 18) (some x))).add (match x.mode with
      | .symEnc => (newItem (S "Encrypted data") [] (nBytes body.length) (if x.opts DEBUG then Reader.dumpHex body else [])).setNote (S "plain text + MDC SHA1(20 bytes); sym alg is specified in sym-key encrypted session key")
      | .pubEnc => (newItem (S "Encrypted data") [] (nBytes body.length) (if x.opts DEBUG then Reader.dumpHex body else [])).setNote (S "plain text + MDC SHA1(20 bytes); sym alg is specified in pub-key encrypted session key")
      | .notSpecified => (newItem (S "Encrypted data") [] (nBytes body.length) (if x.opts DEBUG then Reader.dumpHex body else []))))
      (c2 := some { x with mode := .notSpecified }) (p2 := []) (q2 := body) (by
        rw [tagBody_18]
        have hr := rawData_at [] body (S "Encrypted data") (x.opts DEBUG)
        have e : tag18 (St.at (some x) [] body (tagItem 18 body (ctxFlag (tagDumpFlag 18) (some x)))) = (.ok (), St.at (some { x with mode := .notSpecified }) [] body
          ((tagItem 18 body (ctxFlag (tagDumpFlag 18) (some x))).add (match x.mode with
            | .symEnc => (rawData ⟨[] ++ body, 0⟩ (S "Encrypted data") (x.opts DEBUG)).setNote (S "plain text + MDC SHA1(20 bytes); sym alg is specified in sym-key encrypted session key")
            | .pubEnc => (rawData ⟨[] ++ body, 0⟩ (S "Encrypted data") (x.opts DEBUG)).setNote (S "plain text + MDC SHA1(20 bytes); sym alg is specified in pub-key encrypted session key")
            | .notSpecified => rawData ⟨[] ++ body, 0⟩ (S "Encrypted data") (x.opts DEBUG)))) := rfl
        rw [e]
        simp only [List.length_nil] at hr
        rw [hr])
    rw [this]
    refine ⟨_, _, rfl, rfl, rfl, ?_⟩
    cases x.mode <;> rfl
  · have := parseSrc_body X x he (by decide) sched (j := (tagItem 19 body (ctxFlag (tagDumpFlag 19) (some x))).add
      ((newItem (S "MDC") [] (nBytes body.length) (if x.opts DEBUG then Reader.dumpHex body else [])).setNote (S "SHA-1 (20 bytes)")))
      (c2 := some x) (p2 := []) (q2 := body) (by
        rw [tagBody_19]
        have hr := rawData_at [] body (S "MDC") (x.opts DEBUG)
        have e : tag19 (St.at (some x) [] body (tagItem 19 body (ctxFlag (tagDumpFlag 19) (some x)))) = (.ok (), St.at (some x) [] body
          ((tagItem 19 body (ctxFlag (tagDumpFlag 19) (some x))).add ((rawData ⟨[] ++ body, 0⟩ (S "MDC") (x.opts DEBUG)).setNote (S "SHA-1 (20 bytes)")))) := rfl
        rw [e]
        simp only [List.length_nil] at hr
        rw [hr])
    rw [this]
    exact ⟨_, _, rfl, rfl, rfl, rfl⟩

/-- C15: a marker packet has one child with its contents as dump exactly if MARKER or DEBUG is set. -/
theorem C15_marker_shown (X : Ext) (x : Ctx) {body enc : Bytes} (he : Encodes 10 body enc) (sched : List Nat) :
    ∃ i k, (parseSrc X (some x) (Source.src ⟨enc, rawErr .eof, sched⟩)).packets = [i] ∧ (parseSrc X (some x) (Source.src ⟨enc, rawErr .eof, sched⟩)).res = .ok () ∧
      i.items = [k] ∧ k.dump = if x.opts MARKER || x.opts DEBUG then Reader.dumpHex body else [] :=
  shown_whole X x he sched (by simp)

/-- C15: packets 9, 18 and 19 have one child with their contents as dump exactly if DEBUG is set. -/
theorem C15_encrypted_shown (X : Ext) (x : Ctx) {tag : Nat} (ht : tag = 9 ∨ tag = 18 ∨ tag = 19) {body enc : Bytes} (he : Encodes tag body enc) (sched : List Nat) :
    ∃ i k, (parseSrc X (some x) (Source.src ⟨enc, rawErr .eof, sched⟩)).packets = [i] ∧ (parseSrc X (some x) (Source.src ⟨enc, rawErr .eof, sched⟩)).res = .ok () ∧
      i.items = [k] ∧ k.dump = if x.opts DEBUG then Reader.dumpHex body else [] := by
  have := shown_whole X x he sched (by omega)
  have h10 : tag ≠ 10 := by omega
  simpa only [if_neg h10] using this

/-- C15: a private packet is an item without children that has the contents as dump exactly if PRIVATE or DEBUG is set. -/
theorem C15_private_shown (X : Ext) (x : Ctx) {tag : Nat} (ht : 60 ≤ tag ∧ tag ≤ 63) {body enc : Bytes} (he : Encodes tag body enc) (sched : List Nat) :
    ∃ i, parseSrc X (some x) (Source.src ⟨enc, rawErr .eof, sched⟩) = ⟨[i], .ok (), some x⟩ ∧ i.items = [] ∧
      i.dump = if x.opts PRIVATE || x.opts DEBUG then Reader.dumpHex body else [] := by
  have := parseSrc_body X x he (by omega) sched (by rw [tagBody_unknown X _ tag (by omega) (by omega)]; exact pure_run () _)
  refine ⟨_, this, rfl, ?_⟩
  show dumpRest (Reader.new body) _ = _
  rw [dumpRest_new]
  unfold tagDumpFlag
  rw [if_pos ht]
  rfl

/-- C15: an attested-certifications subpacket (type 37) has one child with its contents as dump exactly if CERT or DEBUG is set. -/
theorem C15_attested_shown (X : Ext) (recur : TagParser) (x : Ctx) {t : UInt8} (ht : t.toNat % 128 = 37) (body : Bytes) (rd : Reader) (cur : Item) :
    ∃ i k, parseSub02 X recur t body ⟨some x, rd, cur⟩ = (.ok i, ⟨some x, rd, cur⟩) ∧ i.items = [k] ∧
      k.dump = if x.opts CERT || x.opts DEBUG then Reader.dumpHex body else [] := by
  have hs : ∀ j, sub37 (St.at (some x) [] body j) = (.ok (j.add (newItem (S "certification digests") [] (nBytes body.length) (if x.opts CERT || x.opts DEBUG then Reader.dumpHex body else []))),
      St.at (some x) [] body (j.add (newItem (S "certification digests") [] (nBytes body.length) (if x.opts CERT || x.opts DEBUG then Reader.dumpHex body else [])))) := by
    intro j
    unfold sub37
    rw [bind_run, flag_run]
    simp only [St.at_ctx]
    rw [bind_run, addRaw_run]
    rfl
  have : parseSub02 X recur t body ⟨some x, rd, cur⟩ = scope body (subItem t body (ctxFlag Ctx.debug (some x))) sub37 ⟨some x, rd, cur⟩ := by
    unfold parseSub02 subScope
    rw [bind_run, flag_run, and_7f, ht]
    rfl
  rw [this, scope_run]
  simp only [hs]
  exact ⟨_, _, rfl, rfl, rfl⟩

end Gpgpdump
