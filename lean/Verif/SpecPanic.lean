import Verif.SpecAccept
import Verif.Basic

/-!
# Specification: the inputs the tool crashes on

A grammar, in octets, of the packets on which a parse method ends with a run-time error of Go. It does not refer to the parse methods
of the model; of the model only `Ext` (the external decompressors) and `Site` (the kinds of run-time errors) are used.

There are three places, all of them in secret keys: unencrypted material of an unknown algorithm with exactly one octet left
(`ReadBytes` is asked for a negative number of octets), which may happen in version 5 and in any other version, known or not, and the
four-octet length of the material of a version 5 key when less than four octets are left. Everything else says where such a key may stand.
-/

namespace Gpgpdump.Spec

mutual
/-- The tool crashes in this way on the packet with this tag and body. -/
inductive Pan (X : Ext) : Site → Nat → Bytes → Prop
  | secretKey {tag v a f b} (ht : tag ∈ [5, 7]) (hv : v ≠ 5) (h : PubPart v a f [0, b]) (ha : a ∉ [1, 2, 3, 16, 17, 18, 19, 20, 22]) :
      Pan X .sliceRange tag (v :: (f ++ [0, b]))
  | short5 {tag a f u o m} (ht : tag ∈ [5, 7]) (h : PubPart 5 a f (u :: (o ++ m))) (ho : Options5 u o) (hm : m.length < 4) :
      Pan X .beShort tag (5 :: (f ++ u :: (o ++ m)))
  | secretKey5 {tag a f o b rest} (ht : tag ∈ [5, 7]) (h : PubPart 5 a f (0 :: (o ++ 0 :: 0 :: 0 :: 1 :: b :: rest))) (ho : Options5 0 o)
      (ha : a ∉ [1, 2, 3, 16, 17, 18, 19, 20, 22]) : Pan X .sliceRange tag (5 :: (f ++ 0 :: (o ++ 0 :: 0 :: 0 :: 1 :: b :: rest)))
  /-- in the hashed subpackets of a signature; the rest of the signature does not matter -/
  | hashed {site v t a h area s1 p s2 rest} (hv : v ∈ [4, 5]) (hl : area.length < 65536) (hs : SubSeq (s1 ++ p :: s2) area)
      (h1 : ∀ s ∈ s1, AccSub X s.1 s.2) (hp : PanSub X site p.1 p.2) :
      Pan X site 2 (v :: t :: a :: h :: (beOctets 2 area.length ++ (area ++ rest)))
  | unhashed {site v t a h a1 s0 area s1 p s2 rest} (hv : v ∈ [4, 5]) (hl1 : a1.length < 65536) (hs1 : SubSeq s0 a1) (h0 : ∀ s ∈ s0, AccSub X s.1 s.2)
      (hl : area.length < 65536) (hs : SubSeq (s1 ++ p :: s2) area) (h1 : ∀ s ∈ s1, AccSub X s.1 s.2) (hp : PanSub X site p.1 p.2) :
      Pan X site 2 (v :: t :: a :: h :: (beOctets 2 a1.length ++ (a1 ++ (beOctets 2 area.length ++ (area ++ rest)))))
/-- The tool crashes on the signature subpacket with this type octet and content. -/
inductive PanSub (X : Ext) : Site → UInt8 → Bytes → Prop
  | embedded {site t b} (h : t.toNat % 128 = 32) (hb : Pan X site 2 b) : PanSub X site t b
  /-- packets in a key block before this one are complete and accepted; what is behind it does not matter -/
  | keyBlock {site t a b ps p} (h : t.toNat % 128 = 38) (ha : ClosedSeq (ps ++ [p]) a) (hps : ∀ q ∈ ps, Acc X q.1 q.2)
      (hp : Pan X site p.1 p.2) : PanSub X site t (0 :: (a ++ b))
end

/-- the octets start with these packets -/
inductive Starts : List (Nat × Bytes) → Bytes → Prop
  | closed {ps a b} (h : ClosedSeq ps a) : Starts ps (a ++ b)
  | whole {ps d} (h : PacketSeq ps d) : Starts ps d

/-- The tool crashes on the packet at the top level, where a compressed packet is expanded. -/
inductive PanTop (X : Ext) : Site → Nat → Bytes → Prop
  | plain {site tag body} (h : Pan X site tag body) : PanTop X site tag body
  | packed {site body z ps p} (h : Opens X body (some z)) (hz : Starts (ps ++ [p]) z) (hps : ∀ q ∈ ps, Acc X q.1 q.2)
      (hp : Pan X site p.1 p.2) : PanTop X site 8 body

end Gpgpdump.Spec
