import Verif.SpecPacket

/-!
# Specification: signature packets, subpackets and the packets inside them

RFC 4880 sections 5.2.3 and 5.2.3.1. This file does not refer to the model of the parser.
-/

namespace Gpgpdump.Spec

/-- RFC 4880 5.2.3.1: a subpacket length `n` (type octet included) is encoded by `enc`: one, two or five octets. -/
inductive SubLength : Nat → Bytes → Prop
  | one {n} (h : n < 192) : SubLength n [UInt8.ofNat n]
  | two {n} (h : 192 ≤ n) (h' : n < 16320) : SubLength n [UInt8.ofNat ((n - 192) / 256 + 192), UInt8.ofNat ((n - 192) % 256)]
  | five {n} (h : n < 2 ^ 32) : SubLength n (0xff :: beOctets 4 n)

/-- The octets are exactly the given subpackets (type octet, content), one after the other. -/
inductive SubSeq : List (UInt8 × Bytes) → Bytes → Prop
  | nil : SubSeq [] []
  | cons {t body lenc subs area} (h : SubLength (body.length + 1) lenc) (hs : SubSeq subs area) :
      SubSeq ((t, body) :: subs) (lenc ++ (t :: (body ++ area)))

/-- `area` is the hashed or the unhashed subpacket area of the version 4 or 5 signature `body`. -/
inductive SigArea : Bytes → Bytes → Prop
  | hashed {v s p h : UInt8} {area rest} (hv : v = 4 ∨ v = 5) (hl : area.length < 65536) :
      SigArea (v :: s :: p :: h :: (beOctets 2 area.length ++ area ++ rest)) area
  | unhashed {v s p h : UInt8} {first area rest} (hv : v = 4 ∨ v = 5) (hl : first.length < 65536) (hl' : area.length < 65536) :
      SigArea (v :: s :: p :: h :: (beOctets 2 first.length ++ first ++ (beOctets 2 area.length ++ area ++ rest))) area

/-- `n` multi-precision integers, one after the other (RFC 4880 section 3.2) -/
inductive MPIs : Nat → Bytes → Prop
  | zero : MPIs 0 []
  | succ {n bits data more} (hb : bits < 65536) (hl : data.length = (bits + 7) / 8) (h : MPIs n more) :
      MPIs (n + 1) (beOctets 2 bits ++ data ++ more)

/-- The number of integers of a signature: one for RSA; two for Elgamal, DSA, ECDSA and EdDSA. -/
def sigInts (alg : UInt8) : Nat := if alg ∈ [1, 2, 3] then 1 else if alg ∈ [16, 17, 19, 20, 22] then 2 else 0

/-- A signature packet that ends with its last field (RFC 4880 sections 5.2.2 and 5.2.3). -/
inductive SigExact : Bytes → Prop
  | v3 {t a h l0 l1 : UInt8} {tm kid ints} (ht : tm.length = 4) (hk : kid.length = 8) (hi : MPIs (sigInts a) ints) :
      SigExact (3 :: 5 :: t :: (tm ++ (kid ++ (a :: h :: l0 :: l1 :: ints))))
  | v45 {v t a h l0 l1 : UInt8} {a1 a2 ints} (hv : v = 4 ∨ v = 5) (h1 : a1.length < 65536) (h2 : a2.length < 65536) (hi : MPIs (sigInts a) ints) :
      SigExact (v :: t :: a :: h :: (beOctets 2 a1.length ++ a1 ++ (beOctets 2 a2.length ++ a2 ++ (l0 :: l1 :: ints))))

/-- `(t, b)` is a packet contained in the packet `(tag, body)`: the signature in an embedded-signature subpacket (type 32), or
a packet in the key data of a key-block subpacket (type 38, first octet 0). Bit 7 of a subpacket type is the critical flag. -/
inductive Inside : Nat × Bytes → Nat × Bytes → Prop
  | embedded {body area subs st sb} (ha : SigArea body area) (hs : SubSeq subs area) (hm : (st, sb) ∈ subs)
      (ht : st.toNat % 128 = 32) : Inside (2, body) (2, sb)
  | keyBlock {body area subs st ps a rest p} (ha : SigArea body area) (hs : SubSeq subs area) (hm : (st, 0 :: (a ++ rest)) ∈ subs)
      (ht : st.toNat % 128 = 38) (hp : ClosedSeq ps a) (hmem : p ∈ ps) : Inside (2, body) p

/-- `q` is `p` or a packet somewhere inside `p`, at any depth. -/
inductive Within : Nat × Bytes → Nat × Bytes → Prop
  | refl {p} : Within p p
  | step {p q r} (h : Inside p q) (h' : Within q r) : Within p r

end Gpgpdump.Spec
