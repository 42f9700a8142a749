import Verif.SpecSig
import Verif.Tags

/-!
# Specification: the packets of an input

Which packets an octet string starts with, what a compressed packet unpacks to, and all packets the parser can meet. Only the
declarations `Ext` (external decompressors) and `Stream` of the model are referred to.
-/

namespace Gpgpdump.Spec

/-- `d` starts with a sequence of complete packets that contains `p`, or whose rest is the packet `p` of indeterminate length -/
def Contains (d : Bytes) (p : Nat × Bytes) : Prop :=
  ∃ ps a rest, d = a ++ rest ∧ ClosedSeq ps a ∧ (p ∈ ps ∨ EncodesToEnd p.1 p.2 rest)

/-- The compressed packet with this body unpacks to `z`, which is shorter than 1 GiB unless stored uncompressed (RFC 4880 5.6;
algorithms 0 to 3 as in 9.3). -/
inductive Unpacks (X : Ext) : Bytes → Bytes → Prop
  | stored {z} : z ≠ [] → Unpacks X (0 :: z) z
  | zip {zd} : zd ≠ [] → (X.flate zd).data.length < 2 ^ 30 → (X.flate zd).tail.isEOF = true → Unpacks X (1 :: zd) (X.flate zd).data
  | zlib {zd z} : zd ≠ [] → X.zlib zd = .ok z → z.data.length < 2 ^ 30 → z.tail.isEOF = true → Unpacks X (2 :: zd) z.data
  | bzip2 {zd} : zd ≠ [] → (X.bzip2 zd).data.length < 2 ^ 30 → (X.bzip2 zd).tail.isEOF = true → Unpacks X (3 :: zd) (X.bzip2 zd).data

/-- `p` is one of the packets of `d`, a packet inside one of them, or such a packet of an unpacked compressed packet -/
inductive Somewhere (X : Ext) (d : Bytes) (p : Nat × Bytes) : Prop
  | plain {q} (h : Contains d q) (h' : Within q p)
  | packed {body z q} (h : Contains d (8, body)) (hu : Unpacks X body z) (h' : Contains z q) (hw : Within q p)

end Gpgpdump.Spec
