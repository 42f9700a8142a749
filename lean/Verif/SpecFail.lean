import Verif.SpecPanic

/-!
# Specification: the error that is reported

A grammar, in octets, of the packets on which a parse method returns an error, and of the root cause of that error. It does not refer to
the parse methods of the model; of the model only `Ext` (the external decompressors) and `Cause` (the names of the errors) are used.

The rule behind almost all of it is `Short`: a field that is read from an exhausted reader gives `io.EOF`, one that is read from a reader
with some but not enough octets gives `io.ErrUnexpectedEOF`. The rest says which fields are read, from which octets, in which order, and
up to where.
-/

namespace Gpgpdump.Spec

/-- a field of `n` octets cannot be read from the octets `q` -/
inductive Short : Nat → Cause → Bytes → Prop
  | none {n} (h : n ≠ 0) : Short n .eof []
  | some {n q} (h0 : q ≠ []) (h : q.length < n) : Short n .unexpectedEOF q

/-- one of the fields of these sizes, read in this order, cannot be read -/
inductive ShortIn : List Nat → Cause → Bytes → Prop
  | here {n ns c q} (h : Short n c q) : ShortIn (n :: ns) c q
  | later {n ns c f q} (hf : f.length = n) (h : ShortIn ns c q) : ShortIn (n :: ns) c (f ++ q)

/-- a multi-precision integer: two octets with the number of bits, then the number -/
inductive IntegerCut : Cause → Bytes → Prop
  | length {c q} (h : Short 2 c q) : IntegerCut c q
  | number {c l q} (hl : l.length = 2) (h : Short ((beNat l + 7) / 8) c q) : IntegerCut c (l ++ q)

/-- one of `n` multi-precision integers -/
inductive IntegersCut : Nat → Cause → Bytes → Prop
  | here {n c q} (h : IntegerCut c q) : IntegersCut (n + 1) c q
  | later {n c f q} (hf : MPIs 1 f) (h : IntegersCut n c q) : IntegersCut (n + 1) c (f ++ q)

/-- an octet with a length, then so many octets -/
inductive CountedCut : Cause → Bytes → Prop
  | length : CountedCut .eof []
  | data {c n q} (h : Short (UInt8.toNat n) c q) : CountedCut c (n :: q)

/-- the fields of a public key -/
inductive PubCut : UInt8 → Cause → Bytes → Prop
  | rsa {a c q} (ha : a ∈ [1, 2, 3]) (h : IntegersCut 2 c q) : PubCut a c q
  | dsa {c q} (h : IntegersCut 4 c q) : PubCut 17 c q
  | elgamal {a c q} (ha : a ∈ [16, 20]) (h : IntegersCut 3 c q) : PubCut a c q
  | oid {a c q} (ha : a ∈ [18, 19, 22]) (h : CountedCut c q) : PubCut a c q
  | point {a c o q} (ha : a ∈ [18, 19, 22]) (ho : Counted o) (h : IntegerCut c q) : PubCut a c (o ++ q)
  /-- that the key ends before the length of the KDF parameters is no error -/
  | kdf {c o m n q} (ho : Counted o) (hm : MPIs 1 m) (h : Short (UInt8.toNat n) c q) : PubCut 18 c (o ++ (m ++ n :: q))

/-- an encrypted session key -/
inductive SesCut : UInt8 → Cause → Bytes → Prop
  | rsa {a c q} (ha : a ∈ [1, 2, 3]) (h : IntegersCut 1 c q) : SesCut a c q
  | elgamal {a c q} (ha : a ∈ [16, 20]) (h : IntegersCut 2 c q) : SesCut a c q
  | point {c q} (h : IntegerCut c q) : SesCut 18 c q
  | key {c m n q} (hm : MPIs 1 m) (h : Short (UInt8.toNat n) c q) : SesCut 18 c (m ++ n :: q)

/-- unencrypted secret key material; that of an unknown algorithm has at least the two octets of the checksum behind it (if there is only
one the tool crashes, see `Pan`) -/
inductive SecCut : UInt8 → Cause → Bytes → Prop
  | rsa {a c q} (ha : a ∈ [1, 2, 3]) (h : IntegersCut 4 c q) : SecCut a c q
  | one {a c q} (ha : a ∈ [16, 17, 18, 19, 20, 22]) (h : IntegersCut 1 c q) : SecCut a c q
  | other {a} (ha : a ∉ [1, 2, 3, 16, 17, 18, 19, 20, 22]) : SecCut a .eof []

/-- a string-to-key specifier -/
inductive S2KCut : Cause → Bytes → Prop
  | type : S2KCut .eof []
  | simple : S2KCut .eof [0]
  | salted {c q} (h : ShortIn [1, 8] c q) : S2KCut c (1 :: q)
  | iterated {c q} (h : ShortIn [1, 8, 1] c q) : S2KCut c (3 :: q)
  | card {c q} (h : CountedCut c q) : S2KCut c (101 :: 0x47 :: 0x4e :: 0x55 :: 2 :: q)

/-- the fields of a secret key between the usage octet and the initialization vector -/
inductive SecOptionsCut : UInt8 → Cause → Bytes → Prop
  | cipher {u} (hu : u ≠ 0) : SecOptionsCut u .eof []
  | mode {k} : SecOptionsCut 253 .eof [k]
  | s2k {u k c q} (hu : u = 254 ∨ u = 255) (h : S2KCut c q) : SecOptionsCut u c (k :: q)
  | aead {k m c q} (h : S2KCut c q) : SecOptionsCut 253 c (k :: m :: q)

/-- the part of a secret key behind the public key, versions other than 5 -/
inductive SecretCut : UInt8 → Cause → Bytes → Prop
  | usage {a} : SecretCut a .eof []
  | options {a u c q} (h : SecOptionsCut u c q) : SecretCut a c (u :: q)
  | iv {a u k f c q} (hu : u ≠ 0) (ho : SecOptions u k true f q) (h : Short (blockSize k) c q) : SecretCut a c (u :: (f ++ q))
  | material {a c q} (h : SecCut a c q) : SecretCut a c (0 :: q)
  | checksum {a f c q} (hf : SecFields a f q) (h : Short 2 c q) : SecretCut a c (0 :: (f ++ q))

/-- the options of a version 5 secret key: a length, so many octets that start with the options, and the initialization vector behind them -/
inductive Options5Cut : UInt8 → Cause → Bytes → Prop
  | counted {u c q} (h : CountedCut c q) : Options5Cut u c q
  | options {u c b q} (hl : b.length < 256) (h0 : b ≠ []) (h : SecOptionsCut u c b) : Options5Cut u c (UInt8.ofNat b.length :: (b ++ q))
  | iv {u k f g c q} (hl : (f ++ g).length < 256) (h0 : f ++ g ≠ []) (hu : u ≠ 0) (ho : SecOptions u k true f g) (h : Short (blockSize k) c q) :
      Options5Cut u c (UInt8.ofNat (f ++ g).length :: (f ++ (g ++ q)))

/-- the key material of a version 5 secret key (with less than four octets for its length the tool crashes, see `Pan`) -/
inductive Material5Cut : UInt8 → UInt8 → Cause → Bytes → Prop
  | data {u a l c q} (hl : l.length = 4) (h : Short (beNat l) c q) : Material5Cut u a c (l ++ q)
  | material {a b c q} (h0 : b ≠ []) (hl : b.length < 2 ^ 32) (h : SecCut a c b) : Material5Cut 0 a c (beOctets 4 b.length ++ (b ++ q))
  | checksum {a f g c q} (h0 : f ++ g ≠ []) (hl : (f ++ g).length < 2 ^ 32) (hf : SecFields a f g) (h : Short 2 c q) :
      Material5Cut 0 a c (beOctets 4 (f ++ g).length ++ (f ++ (g ++ q)))

/-- the same as `SecretCut` for version 5 -/
inductive Secret5Cut : UInt8 → Cause → Bytes → Prop
  | usage {a} : Secret5Cut a .eof []
  | options {a u c q} (h : Options5Cut u c q) : Secret5Cut a c (u :: q)
  | material {a u o c q} (ho : Options5 u o) (h : Material5Cut u a c q) : Secret5Cut a c (u :: (o ++ q))

/-- the public key behind the version octet -/
inductive PubPartCut : UInt8 → Cause → Bytes → Prop
  | v3 {c q} (h : ShortIn [4, 2, 1] c q) : PubPartCut 3 c q
  | v3key {tm days a c q} (ht : tm.length = 4) (hd : days.length = 2) (h : PubCut a c q) : PubPartCut 3 c (tm ++ (days ++ a :: q))
  | v4 {c q} (h : ShortIn [4, 1] c q) : PubPartCut 4 c q
  | v4key {tm a c q} (ht : tm.length = 4) (h : PubCut a c q) : PubPartCut 4 c (tm ++ a :: q)
  | v5 {c q} (h : ShortIn [4, 1, 4] c q) : PubPartCut 5 c q
  | v5data {tm a l c q} (ht : tm.length = 4) (hl : l.length = 4) (h : Short (beNat l) c q) : PubPartCut 5 c (tm ++ a :: (l ++ q))
  | v5key {tm a b c q} (ht : tm.length = 4) (hl : b.length < 2 ^ 32) (h : PubCut a c b) :
      PubPartCut 5 c (tm ++ a :: (beOctets 4 b.length ++ (b ++ q)))

/-- the fields of a signature subpacket of this type, in the order they are read -/
def subFields (t : Nat) : List Nat :=
  if t ∈ [2, 3, 9] then [4] else if t ∈ [4, 7, 23, 25, 27, 29, 30, 33, 35, 38] then [1] else if t ∈ [5, 12, 31] then [1, 1] else if t = 16 then [8]
  else if t = 20 then [4, 2, 2] else []

/-- a subpacket of a user attribute -/
inductive AttrCut : Cause → UInt8 → Bytes → Prop
  | header {t c b} (h : t.toNat % 128 = 1) (hb : ShortIn [2, 1] c b) : AttrCut c t b
  | encoding {t l0 l1 v} (h : t.toNat % 128 = 1) (hv : 100 ≤ v.toNat) (hv' : v.toNat ≤ 110) : AttrCut .eof t [l0, l1, v]

/-- the octets do not start with a complete packet -/
def NoPacket (d : Bytes) : Prop := ¬ ∃ tag body enc rest, d = enc ++ rest ∧ Encodes tag body enc

/-- the error at the end of a key block, where no complete packet follows -/
inductive BlockEnd (X : Ext) : Cause → Bytes → Prop
  | tag {h : UInt8} {d} (hh : h.toNat < 128) : BlockEnd X .noMSB (h :: d)
  | cut {h : UInt8} {d} (hh : 128 ≤ h.toNat) (hn : NoPacket (h :: d)) (hk : ¬ KeyEnd X (h :: d)) : BlockEnd X .unexpectedEOF (h :: d)

mutual
/-- Parsing the packet with this tag and body ends with an error of this cause. -/
inductive Fails (X : Ext) : Cause → Nat → Bytes → Prop
  | version {tag} (ht : tag ∈ [2, 3, 5, 6, 7, 8, 14]) : Fails X .eof tag []
  | session {c q} (h : ShortIn [1, 8, 1] c q) : Fails X c 1 q
  | sessionKey {v kid a c q} (hk : kid.length = 8) (h : SesCut a c q) : Fails X c 1 (v :: (kid ++ a :: q))
  | signature {v c q} (hv : v ∈ [4, 5]) (h : ShortIn [1, 1, 1] c q) : Fails X c 2 (v :: q)
  | hashed {v t a h c q} (hv : v ∈ [4, 5]) (hq : FailArea X c q) : Fails X c 2 (v :: t :: a :: h :: q)
  | unhashed {v t a h a1 s1 c q} (hv : v ∈ [4, 5]) (hl1 : a1.length < 65536) (hs1 : SubSeq s1 a1) (h1 : ∀ s ∈ s1, AccSub X s.1 s.2)
      (hq : FailArea X c q) : Fails X c 2 (v :: t :: a :: h :: (beOctets 2 a1.length ++ (a1 ++ q)))
  | left2 {v t a h a1 a2 s1 s2 c q} (hv : v ∈ [4, 5]) (hl1 : a1.length < 65536) (hl2 : a2.length < 65536)
      (hs1 : SubSeq s1 a1) (hs2 : SubSeq s2 a2) (h1 : ∀ s ∈ s1, AccSub X s.1 s.2) (h2 : ∀ s ∈ s2, AccSub X s.1 s.2) (hq : Short 2 c q) :
      Fails X c 2 (v :: t :: a :: h :: (beOctets 2 a1.length ++ (a1 ++ (beOctets 2 a2.length ++ (a2 ++ q)))))
  | value {v t a h a1 a2 s1 s2 l0 l1 c q} (hv : v ∈ [4, 5]) (hl1 : a1.length < 65536) (hl2 : a2.length < 65536)
      (hs1 : SubSeq s1 a1) (hs2 : SubSeq s2 a2) (h1 : ∀ s ∈ s1, AccSub X s.1 s.2) (h2 : ∀ s ∈ s2, AccSub X s.1 s.2)
      (hq : IntegersCut (sigInts a) c q) :
      Fails X c 2 (v :: t :: a :: h :: (beOctets 2 a1.length ++ (a1 ++ (beOctets 2 a2.length ++ (a2 ++ l0 :: l1 :: q)))))
  | cipher : Fails X .eof 3 [4]
  | password {k c q} (h : S2KCut c q) : Fails X c 3 (4 :: k :: q)
  | onePass {c q} (h : ShortIn [1, 1, 1, 1, 8, 1] c q) : Fails X c 4 q
  | publicKey {tag v c q} (ht : tag ∈ [5, 6, 7, 14]) (h : PubPartCut v c q) : Fails X c tag (v :: q)
  | secretKey {tag v a f c s} (ht : tag ∈ [5, 7]) (hv : v ≠ 5) (h : PubPart v a f s) (hs : SecretCut a c s) : Fails X c tag (v :: (f ++ s))
  | secretKey5 {tag a f c s} (ht : tag ∈ [5, 7]) (h : PubPart 5 a f s) (hs : Secret5Cut a c s) : Fails X c tag (5 :: (f ++ s))
  /-- the error of the decompressor, if it ends in less than 1 GiB -/
  | zip {zd} (h0 : zd ≠ []) (hl : (X.flate zd).data.length < 2 ^ 30) (he : (X.flate zd).tail.isEOF = false) :
      Fails X (X.flate zd).tail.cause 8 (1 :: zd)
  | zlibHeader {zd e} (h0 : zd ≠ []) (hz : X.zlib zd = .error e) : Fails X e.cause 8 (2 :: zd)
  | zlib {zd z} (h0 : zd ≠ []) (hz : X.zlib zd = .ok z) (hl : z.data.length < 2 ^ 30) (he : z.tail.isEOF = false) : Fails X z.tail.cause 8 (2 :: zd)
  | bzip2 {zd} (h0 : zd ≠ []) (hl : (X.bzip2 zd).data.length < 2 ^ 30) (he : (X.bzip2 zd).tail.isEOF = false) :
      Fails X (X.bzip2 zd).tail.cause 8 (3 :: zd)
  | literal : Fails X .eof 11 []
  | fileName {fmt c q} (h : CountedCut c q) : Fails X c 11 (fmt :: q)
  | fileTime {fmt n c q} (hn : Counted n) (h : Short 4 c q) : Fails X c 11 (fmt :: (n ++ q))
  | userAttributes {body} (h : ¬ ∃ subs, SubSeq subs body) : Fails X .subTruncated 17 body
  | userAttribute {body s1 p s2 c} (hs : SubSeq (s1 ++ p :: s2) body) (h1 : ∀ s ∈ s1, AttrSub s.1 s.2) (hp : AttrCut c p.1 p.2) : Fails X c 17 body
  | aead {c q} (h : ShortIn [1, 1, 1, 1] c q) : Fails X c 20 q
/-- Parsing a subpacket area at the start of these octets ends with an error of this cause. -/
inductive FailArea (X : Ext) : Cause → Bytes → Prop
  | length {c q} (h : Short 2 c q) : FailArea X c q
  | data {l c q} (hl : l.length = 2) (h : Short (beNat l) c q) : FailArea X c (l ++ q)
  | split {area q} (hl : area.length < 65536) (h : ¬ ∃ subs, SubSeq subs area) : FailArea X .subTruncated (beOctets 2 area.length ++ (area ++ q))
  | subpacket {area s1 p s2 c q} (hl : area.length < 65536) (hs : SubSeq (s1 ++ p :: s2) area) (h1 : ∀ s ∈ s1, AccSub X s.1 s.2)
      (hp : FailSub X c p.1 p.2) : FailArea X c (beOctets 2 area.length ++ (area ++ q))
/-- Parsing the signature subpacket with this type octet and content ends with an error of this cause. -/
inductive FailSub (X : Ext) : Cause → UInt8 → Bytes → Prop
  | fields {t c b} (h : ShortIn (subFields (t.toNat % 128)) c b) : FailSub X c t b
  /-- four octets of flags, the lengths of name and value -/
  | notation {t fl nl vl c q} (h : t.toNat % 128 = 20) (hf : fl.length = 4) (hn : nl.length = 2) (hv : vl.length = 2)
      (hq : ShortIn [beNat nl, beNat vl] c q) : FailSub X c t (fl ++ (nl ++ (vl ++ q)))
  | embedded {t c b} (h : t.toNat % 128 = 32) (hb : Fails X c 2 b) : FailSub X c t b
  /-- packets in a key block before this one are complete and accepted; what is behind it does not matter -/
  | keyBlock {t a b ps p c} (h : t.toNat % 128 = 38) (ha : ClosedSeq (ps ++ [p]) a) (hps : ∀ q ∈ ps, Acc X q.1 q.2)
      (hp : Fails X c p.1 p.2) : FailSub X c t (0 :: (a ++ b))
  | keyBlockEnd {t a b ps c} (h : t.toNat % 128 = 38) (ha : ClosedSeq ps a) (hps : ∀ q ∈ ps, Acc X q.1 q.2)
      (hb : BlockEnd X c b) : FailSub X c t (0 :: (a ++ b))
end

/-- Reading the packets of the octets `d` ends with an error of the cause `c`, if parsing accepts the packets `A` and ends with the cause `c`
on the packets `F c`: at a packet, at an octet that cannot start a packet, or inside a packet that is not complete. -/
inductive StreamFails (A : Nat → Bytes → Prop) (F : Cause → Nat → Bytes → Prop) : Cause → Bytes → Prop
  | packet {ps p c d} (h : Starts (ps ++ [p]) d) (hps : ∀ q ∈ ps, A q.1 q.2) (hp : F c p.1 p.2) : StreamFails A F c d
  | tag {ps a h d} (ha : ClosedSeq ps a) (hps : ∀ q ∈ ps, A q.1 q.2) (hh : UInt8.toNat h < 128) : StreamFails A F .noMSB (a ++ h :: d)
  | cut {ps a h d} (ha : ClosedSeq ps a) (hps : ∀ q ∈ ps, A q.1 q.2) (hh : 128 ≤ UInt8.toNat h) (hn : NoPacket (h :: d))
      (he : ¬ ∃ tag body, EncodesToEnd tag body (h :: d)) : StreamFails A F .unexpectedEOF (a ++ h :: d)

/-- Parsing the packet at the top level, where a compressed packet is expanded, ends with an error of this cause. -/
inductive FailTop (X : Ext) : Cause → Nat → Bytes → Prop
  | plain {c tag body} (h : Fails X c tag body) : FailTop X c tag body
  | packed {c body z} (h : Opens X body (some z)) (hz : StreamFails (Acc X) (Fails X) c z) : FailTop X c 8 body

end Gpgpdump.Spec
