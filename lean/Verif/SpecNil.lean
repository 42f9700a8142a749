import Verif.SpecPanic

/-!
# Specification: the packets that need a context

A grammar of the packets on which a parse without a context (a nil `*context.Context`) ends with a nil pointer dereference. It does not
refer to the parse methods of the model.

A context is needed for the encryption mode (session keys and encrypted data, tags 1, 3, 9, 18), the creation time of a key (as soon as
its four octets have been read) and the creation and expiration times in the subpackets of a signature.
-/

namespace Gpgpdump.Spec

mutual
/-- The packet with this tag and body needs a context. -/
inductive Needs (X : Ext) : Nat → Bytes → Prop
  | mode {tag body} (ht : tag ∈ [1, 3, 9, 18]) : Needs X tag body
  | key {tag v rest} (ht : tag ∈ [5, 6, 7, 14]) (hv : v ∈ [3, 4, 5]) (h : 4 ≤ rest.length) : Needs X tag (v :: rest)
  /-- in the hashed subpackets of a signature; the rest of the signature does not matter -/
  | hashed {v t a h area s1 p s2 rest} (hv : v ∈ [4, 5]) (hl : area.length < 65536) (hs : SubSeq (s1 ++ p :: s2) area)
      (h1 : ∀ s ∈ s1, AccSub X s.1 s.2) (hp : NeedsSub X p.1 p.2) :
      Needs X 2 (v :: t :: a :: h :: (beOctets 2 area.length ++ (area ++ rest)))
  | unhashed {v t a h a1 s0 area s1 p s2 rest} (hv : v ∈ [4, 5]) (hl1 : a1.length < 65536) (hs1 : SubSeq s0 a1) (h0 : ∀ s ∈ s0, AccSub X s.1 s.2)
      (hl : area.length < 65536) (hs : SubSeq (s1 ++ p :: s2) area) (h1 : ∀ s ∈ s1, AccSub X s.1 s.2) (hp : NeedsSub X p.1 p.2) :
      Needs X 2 (v :: t :: a :: h :: (beOctets 2 a1.length ++ (a1 ++ (beOctets 2 area.length ++ (area ++ rest)))))
/-- The signature subpacket with this type octet and content needs a context. -/
inductive NeedsSub (X : Ext) : UInt8 → Bytes → Prop
  | created {t b} (h : t.toNat % 128 = 2) (hb : 4 ≤ b.length) : NeedsSub X t b
  | expires {t b} (h : t.toNat % 128 ∈ [3, 9]) : NeedsSub X t b
  | embedded {t b} (h : t.toNat % 128 = 32) (hb : Needs X 2 b) : NeedsSub X t b
  /-- packets in a key block before this one are complete and accepted; what is behind it does not matter -/
  | keyBlock {t a b ps p} (h : t.toNat % 128 = 38) (ha : ClosedSeq (ps ++ [p]) a) (hps : ∀ q ∈ ps, Acc X q.1 q.2)
      (hp : Needs X p.1 p.2) : NeedsSub X t (0 :: (a ++ b))
end

/-- The packet needs a context at the top level, where a compressed packet is expanded. -/
inductive NeedsTop (X : Ext) : Nat → Bytes → Prop
  | plain {tag body} (h : Needs X tag body) : NeedsTop X tag body
  | packed {body z ps p} (h : Opens X body (some z)) (hz : Starts (ps ++ [p]) z) (hps : ∀ q ∈ ps, Acc X q.1 q.2)
      (hp : Needs X p.1 p.2) : NeedsTop X 8 body

end Gpgpdump.Spec
