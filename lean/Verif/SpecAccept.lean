import Verif.SpecPackets

/-!
# Specification: the packets the tool accepts

A grammar of packet bodies, in octets. It does not refer to the parse methods of the model; of the model only `Ext` (the external
decompressors) is used.

The fields follow RFC 4880 and the draft rfc4880bis where the tool does; the places where the tool accepts something else say so.
Relations with two octet strings (`f`, `q`) describe fields `f` whose extent depends on the octets `q` behind them.
-/

namespace Gpgpdump.Spec

/-- one octet with a length, then so many octets -/
inductive Counted : Bytes → Prop
  | mk {x : Bytes} (h : x.length < 256) : Counted (UInt8.ofNat x.length :: x)

/-- the fields of a public key (RFC 4880 5.5.2, RFC 6637 section 9); those of unknown algorithms are not looked at.
The tool accepts an ECDH key that ends before the length of the KDF parameters. -/
inductive PubFields : UInt8 → Bytes → Bytes → Prop
  | rsa {a f q} (ha : a ∈ [1, 2, 3]) (h : MPIs 2 f) : PubFields a f q
  | dsa {f q} (h : MPIs 4 f) : PubFields 17 f q
  | elgamal {a f q} (ha : a ∈ [16, 20]) (h : MPIs 3 f) : PubFields a f q
  | curve {a o m q} (ha : a ∈ [19, 22]) (ho : Counted o) (hm : MPIs 1 m) : PubFields a (o ++ m) q
  | ecdh {o m k q} (ho : Counted o) (hm : MPIs 1 m) (hk : Counted k ∨ (k = [] ∧ q = [])) : PubFields 18 (o ++ (m ++ k)) q
  | other {a q} (ha : a ∉ [1, 2, 3, 16, 17, 18, 19, 20, 22]) : PubFields a [] q

/-- an encrypted session key (RFC 4880 5.1, RFC 6637 section 10) -/
inductive SesFields : UInt8 → Bytes → Bytes → Prop
  | rsa {a f q} (ha : a ∈ [1, 2, 3]) (h : MPIs 1 f) : SesFields a f q
  | elgamal {a f q} (ha : a ∈ [16, 20]) (h : MPIs 2 f) : SesFields a f q
  | ecdh {m k q} (hm : MPIs 1 m) (hk : Counted k ∨ (k = [] ∧ q = [])) : SesFields 18 (m ++ k) q
  | other {a q} (ha : a ∉ [1, 2, 3, 16, 18, 20]) : SesFields a [] q

/-- unencrypted secret key material (RFC 4880 5.5.3); for an unknown algorithm everything but the last two octets -/
inductive SecFields : UInt8 → Bytes → Bytes → Prop
  | rsa {a f q} (ha : a ∈ [1, 2, 3]) (h : MPIs 4 f) : SecFields a f q
  | one {a f q} (ha : a ∈ [16, 17, 18, 19, 20, 22]) (h : MPIs 1 f) : SecFields a f q
  | other {a f q} (ha : a ∉ [1, 2, 3, 16, 17, 18, 19, 20, 22]) (hq : q.length = 2) : SecFields a f q

/-- A string-to-key specifier (RFC 4880 3.7.1; type 101 is the GnuPG extension). The first argument says whether an
initialization vector belongs to it. Unknown types have no further fields. -/
inductive S2KSpec : Bool → Bytes → Bytes → Prop
  | simple {h q} : S2KSpec true [0, h] q
  | salted {h s q} (hs : s.length = 8) : S2KSpec true (1 :: h :: s) q
  | iterated {h s c q} (hs : s.length = 8) : S2KSpec true (3 :: h :: (s ++ [c])) q
  | gnu {n q} (hn : n ≠ 2) : S2KSpec false [101, 0x47, 0x4e, 0x55, n] q
  | card {f q} (h : Counted f) : S2KSpec false (101 :: 0x47 :: 0x4e :: 0x55 :: 2 :: f) q
  | notGnu {q} (h : ¬ ∃ n r, q = 0x47 :: 0x4e :: 0x55 :: n :: r) : S2KSpec true [101] q
  | other {t q} (h : t ∉ [0, 1, 3, 101]) : S2KSpec true [t] q

/-- size of the initialization vector: the block size of the cipher (RFC 4880 9.2; 8 for the unused numbers up to 6, none for
numbers above 13) -/
def blockSize (c : UInt8) : Nat := if c.toNat ≤ 6 then 8 else if c.toNat ≤ 13 then 16 else 0

/-- The fields of a secret key between the usage octet and the initialization vector: usage, cipher, whether an initialization vector
follows, the octets, and the octets behind them. -/
inductive SecOptions : UInt8 → UInt8 → Bool → Bytes → Bytes → Prop
  | plain {q} : SecOptions 0 0 false [] q
  | s2k {u c iv f q} (hu : u = 254 ∨ u = 255) (h : S2KSpec iv f q) : SecOptions u c iv (c :: f) q
  | aead {c a iv f q} (h : S2KSpec iv f q) : SecOptions 253 c iv (c :: a :: f) q
  | cipher {u c q} (hu : u ∉ [0, 253, 254, 255]) : SecOptions u c true [c] q

/-- the part of a secret key behind the public key, versions other than 5: usage octet, options, initialization vector, key material;
unencrypted material is followed by a checksum -/
inductive SecretPart : UInt8 → Bytes → Prop
  | plain {a f c0 c1 rest} (h : SecFields a f (c0 :: c1 :: rest)) : SecretPart a (0 :: (f ++ c0 :: c1 :: rest))
  | encrypted {a u c iv f n rest} (hu : u ≠ 0) (h : SecOptions u c iv f (n ++ rest))
      (hn : n.length = if iv then blockSize c else 0) : SecretPart a (u :: (f ++ (n ++ rest)))

/-- the options of a version 5 secret key: counted octets that start with the options, then the initialization vector (which the
tool expects behind the counted octets); nothing at all if the count is 0 -/
inductive Options5 : UInt8 → Bytes → Prop
  | none {u} : Options5 u [0]
  | some {u c iv f g n} (hl : (f ++ g).length < 256) (h0 : f ++ g ≠ []) (h : SecOptions u c iv f g)
      (hn : n.length = if u ≠ 0 ∧ iv = true then blockSize c else 0) :
      Options5 u (UInt8.ofNat (f ++ g).length :: (f ++ (g ++ n)))

/-- the key material of a version 5 secret key: four octets with the length, then the material; the tool expects the checksum of
unencrypted material behind it -/
inductive Material5 : UInt8 → UInt8 → Bytes → Prop
  | none {u a rest} : Material5 u a (0 :: 0 :: 0 :: 0 :: rest)
  | encrypted {u a b rest} (hu : u ≠ 0) (h0 : b ≠ []) (hl : b.length < 2 ^ 32) : Material5 u a (beOctets 4 b.length ++ (b ++ rest))
  | plain {a f g c0 c1 rest} (h0 : f ++ g ≠ []) (hl : (f ++ g).length < 2 ^ 32) (h : SecFields a f g) :
      Material5 0 a (beOctets 4 (f ++ g).length ++ (f ++ (g ++ c0 :: c1 :: rest)))

/-- the same as `SecretPart` for version 5 -/
inductive SecretPart5 : UInt8 → Bytes → Prop
  | mk {a u o m} (ho : Options5 u o) (hm : Material5 u a m) : SecretPart5 a (u :: (o ++ m))

/-- the public key behind the version octet: version, algorithm (0 if the version is unknown), octets, and the octets behind them -/
inductive PubPart : UInt8 → UInt8 → Bytes → Bytes → Prop
  | v3 {tm days a f q} (ht : tm.length = 4) (hd : days.length = 2) (h : PubFields a f q) : PubPart 3 a (tm ++ (days ++ a :: f)) q
  | v4 {tm a f q} (ht : tm.length = 4) (h : PubFields a f q) : PubPart 4 a (tm ++ a :: f) q
  | v5 {tm a f g q} (ht : tm.length = 4) (hl : (f ++ g).length < 2 ^ 32) (h : PubFields a f g) :
      PubPart 5 a (tm ++ a :: (beOctets 4 (f ++ g).length ++ (f ++ g))) q
  | other {v q} (hv : v ∉ [3, 4, 5]) : PubPart v 0 [] q

/-- the octets a compressed packet stands for; `none` if there are 1 GiB or more -/
inductive Opens (X : Ext) : Bytes → Option Bytes → Prop
  | data {body z} (h : Unpacks X body z) : Opens X body (some z)
  | empty {a} : Opens X [a] (some [])
  | unknown {a zd} (h : a.toNat > 3) : Opens X (a :: zd) (some [])
  | zip {zd} (h0 : zd ≠ []) (h : 2 ^ 30 ≤ (X.flate zd).data.length) : Opens X (1 :: zd) none
  | zlib {zd z} (h0 : zd ≠ []) (hz : X.zlib zd = .ok z) (h : 2 ^ 30 ≤ z.data.length) : Opens X (2 :: zd) none
  | bzip2 {zd} (h0 : zd ≠ []) (h : 2 ^ 30 ≤ (X.bzip2 zd).data.length) : Opens X (3 :: zd) none

/-- the least size of a signature subpacket of this type (those without fields of their own: 0) -/
def subSize (t : Nat) : Nat :=
  if t ∈ [2, 3, 9] then 4 else if t ∈ [4, 7, 23, 25, 27, 29, 30, 33, 35] then 1 else if t ∈ [5, 12, 31] then 2 else if t = 16 then 8 else 0

/-- a subpacket of a user attribute: an image has a two-octet header length and a version; versions 100 to 110 have an encoding -/
inductive AttrSub : UInt8 → Bytes → Prop
  | other {t b} (h : t.toNat % 128 ≠ 1) : AttrSub t b
  | image {t l0 l1 v r} (h : t.toNat % 128 = 1) (hv : 100 ≤ v.toNat → v.toNat ≤ 110 → r ≠ []) : AttrSub t (l0 :: l1 :: v :: r)

/-! ## The end of a key block

The packets of a key block (subpacket 38) are read from a `reader.Reader`, whose reads deliver all octets asked for or none. The tool
takes the end of a key block for its proper end whenever a read finds no octet left. -/

/-- the sizes `io.ReadAll` gives its buffer -/
def capacity (X : Ext) : Nat → Nat
  | 0 => 512
  | k + 1 => max (capacity X k + 1) (X.grow (capacity X k))

/-- after `n` octets of a body, the buffer is full behind the octets `d` (or there are none) -/
def Boundary (X : Ext) (n : Nat) (d : Bytes) : Prop := d = [] ∨ ∃ k, n + d.length = capacity X k

/-- a length in new format that ends before its first or second read -/
inductive LengthCut : Bytes → Prop
  | nil : LengthCut []
  | two {b : UInt8} (h : 192 ≤ b.toNat) (h' : b.toNat < 224) : LengthCut [b]
  | five : LengthCut [255]

/-- lengths and chunks that end unnoticed, after `n` octets of the body -/
inductive ChunkEnd (X : Ext) : Nat → Bytes → Prop
  | length {n d} (h : LengthCut d) : ChunkEnd X n d
  | last {n m lenc d} (hl : NewLength m lenc) (h : d.length < m) (hb : Boundary X n d) : ChunkEnd X n (lenc ++ d)
  | part {n k d} (hk : k ≤ 30) (h : d.length < 2 ^ k) (hb : Boundary X n d) : ChunkEnd X n (UInt8.ofNat (224 + k) :: d)
  | more {n k c d} (hk : k ≤ 30) (hc : c.length = 2 ^ k) (h : ChunkEnd X (n + 2 ^ k) d) : ChunkEnd X n (UInt8.ofNat (224 + k) :: (c ++ d))

/-- what may be left behind the last complete packet of a key block: nothing, or a packet that ends unnoticed -/
inductive KeyEnd (X : Ext) : Bytes → Prop
  | nil : KeyEnd X []
  | header {h : UInt8} (h1 : 128 ≤ h.toNat) (h2 : h.toNat < 192) (h3 : h.toNat % 4 ≠ 3) : KeyEnd X [h]
  | old {h : UInt8} {lenc d} (h1 : 128 ≤ h.toNat) (h2 : h.toNat < 192) (h3 : h.toNat % 4 ≠ 3) (hl : lenc.length = 2 ^ (h.toNat % 4))
      (hd : d.length < beNat lenc) (hb : Boundary X 0 d) : KeyEnd X (h :: (lenc ++ d))
  | indeterminate {h : UInt8} {d} (h1 : 128 ≤ h.toNat) (h2 : h.toNat < 192) (h3 : h.toNat % 4 = 3) (hb : Boundary X 0 d) : KeyEnd X (h :: d)
  | new {h : UInt8} {d} (h1 : 192 ≤ h.toNat) (hd : ChunkEnd X 0 d) : KeyEnd X (h :: d)

mutual
/-- The tool accepts the packet with this tag and body. -/
inductive Acc (X : Ext) : Nat → Bytes → Prop
  | sessionKey {v kid a f rest} (hk : kid.length = 8) (h : SesFields a f rest) : Acc X 1 (v :: (kid ++ a :: (f ++ rest)))
  /-- signatures of other versions; in particular any octets after the version 3 (see C40) -/
  | signatureOther {v rest} (hv : v ∉ [4, 5]) : Acc X 2 (v :: rest)
  | signature {v t a h a1 a2 s1 s2 l0 l1 f rest} (hv : v ∈ [4, 5]) (hl1 : a1.length < 65536) (hl2 : a2.length < 65536)
      (hs1 : SubSeq s1 a1) (hs2 : SubSeq s2 a2) (h1 : ∀ s ∈ s1, AccSub X s.1 s.2) (h2 : ∀ s ∈ s2, AccSub X s.1 s.2)
      (hf : MPIs (sigInts a) f) :
      Acc X 2 (v :: t :: a :: h :: (beOctets 2 a1.length ++ (a1 ++ (beOctets 2 a2.length ++ (a2 ++ l0 :: l1 :: (f ++ rest))))))
  | password {c iv f rest} (h : S2KSpec iv f rest) : Acc X 3 (4 :: c :: (f ++ rest))
  | passwordOther {v rest} (hv : v ≠ 4) : Acc X 3 (v :: rest)
  | onePass {body} (h : 13 ≤ body.length) : Acc X 4 body
  | publicKey {tag v a f rest} (ht : tag ∈ [6, 14]) (h : PubPart v a f rest) : Acc X tag (v :: (f ++ rest))
  | secretKey {tag v a f s} (ht : tag ∈ [5, 7]) (hv : v ≠ 5) (h : PubPart v a f s) (hs : SecretPart a s) : Acc X tag (v :: (f ++ s))
  | secretKey5 {tag a f s} (ht : tag ∈ [5, 7]) (h : PubPart 5 a f s) (hs : SecretPart5 a s) : Acc X tag (5 :: (f ++ s))
  | compressed {body o} (h : Opens X body o) : Acc X 8 body
  | literal {fmt n tm rest} (hn : Counted n) (ht : tm.length = 4) : Acc X 11 (fmt :: (n ++ (tm ++ rest)))
  | userAttribute {body subs} (hs : SubSeq subs body) (h : ∀ s ∈ subs, AttrSub s.1 s.2) : Acc X 17 body
  | aead {body} (h : 4 ≤ body.length) : Acc X 20 body
  | other {tag body} (h : tag ∉ [1, 2, 3, 4, 5, 6, 7, 8, 11, 14, 17, 20]) : Acc X tag body
/-- The tool accepts the signature subpacket with this type octet and content. -/
inductive AccSub (X : Ext) : UInt8 → Bytes → Prop
  | plain {t b} (h : t.toNat % 128 ∉ [20, 32, 38]) (hl : subSize (t.toNat % 128) ≤ b.length) : AccSub X t b
  /-- four octets of flags, the lengths of name and value, name, value -/
  | notation {t fl name value rest} (h : t.toNat % 128 = 20) (hf : fl.length = 4) (hn : name.length < 65536) (hv : value.length < 65536) :
      AccSub X t (fl ++ (beOctets 2 name.length ++ (beOctets 2 value.length ++ (name ++ (value ++ rest)))))
  | embedded {t b} (h : t.toNat % 128 = 32) (hb : Acc X 2 b) : AccSub X t b
  | keyBlockOther {t k d} (h : t.toNat % 128 = 38) (hk : k ≠ 0) : AccSub X t (k :: d)
  | keyBlock {t a b ps} (h : t.toNat % 128 = 38) (ha : ClosedSeq ps a) (hp : ∀ p ∈ ps, Acc X p.1 p.2) (hb : KeyEnd X b) :
      AccSub X t (0 :: (a ++ b))
end

/-- The tool accepts the packet at the top level, where a compressed packet is expanded. -/
inductive AccTop (X : Ext) : Nat → Bytes → Prop
  | plain {tag body} (h8 : tag ≠ 8) (h : Acc X tag body) : AccTop X tag body
  | packed {body z ps} (h : Opens X body (some z)) (hz : PacketSeq ps z) (hp : ∀ p ∈ ps, Acc X p.1 p.2) : AccTop X 8 body
  | huge {body} (h : Opens X body none) : AccTop X 8 body

/-- The errors of the external decompressors are not the error value the tool itself uses for too large data. -/
def OwnErrors (X : Ext) : Prop := ∀ zd, (X.flate zd).tail.cause ≠ .tooLarge ∧ (X.bzip2 zd).tail.cause ≠ .tooLarge ∧
  (∀ e, X.zlib zd = .error e → e.cause ≠ .tooLarge) ∧ (∀ z, X.zlib zd = .ok z → z.tail.cause ≠ .tooLarge)

end Gpgpdump.Spec
