import Verif.Basic

/-!
# Specification: the packet grammar of RFC 4880 section 4.2

`Encodes tag body enc`: the octets `enc` are one legal encoding of the packet `(tag, body)`. This file does not refer to the
model of the parser.
-/

namespace Gpgpdump.Spec

/-- `n` as a big-endian number in `k` octets -/
def beOctets : Nat → Nat → Bytes
  | 0, _ => []
  | k + 1, n => beOctets k (n / 256) ++ [UInt8.ofNat n]

/-- RFC 4880 4.2.2: a definite new-format length of `n` octets is encoded by `enc` (one, two or five octets). -/
inductive NewLength : Nat → Bytes → Prop
  | one {n} (h : n < 192) : NewLength n [UInt8.ofNat n]
  | two {n} (h : 192 ≤ n) (h' : n < 8384) : NewLength n [UInt8.ofNat ((n - 192) / 256 + 192), UInt8.ofNat ((n - 192) % 256)]
  | five {n} (h : n < 2 ^ 32) : NewLength n (0xff :: beOctets 4 n)

/-- RFC 4880 4.2.2.4: the lengths and data after the tag octet of a new-format packet: any number of partial chunks (each of
a power-of-two length), then a definite chunk. -/
inductive NewBody : Bytes → Bytes → Prop
  | last {body lenc} (h : NewLength body.length lenc) : NewBody body (lenc ++ body)
  | part {body enc chunk k} (hk : k ≤ 30) (hc : chunk.length = 2 ^ k) (h : NewBody body enc) :
      NewBody (chunk ++ body) (UInt8.ofNat (224 + k) :: (chunk ++ enc))

/-- One legal self-delimiting encoding of the packet `(tag, body)`. -/
inductive Encodes : Nat → Bytes → Bytes → Prop
  /-- old format, 1-, 2- or 4-octet length (length type 0, 1, 2) -/
  | old {tag body lt} (ht : tag < 16) (hl : lt ≤ 2) (hb : body.length < 256 ^ (2 ^ lt)) :
      Encodes tag body (UInt8.ofNat (128 + tag * 4 + lt) :: (beOctets (2 ^ lt) body.length ++ body))
  /-- new format -/
  | new {tag body enc} (ht : tag < 64) (h : NewBody body enc) : Encodes tag body (UInt8.ofNat (192 + tag) :: enc)

/-- Old format with indeterminate length: the body is everything up to the end of the input. -/
inductive EncodesToEnd : Nat → Bytes → Bytes → Prop
  | mk {tag body} (ht : tag < 16) : EncodesToEnd tag body (UInt8.ofNat (128 + tag * 4 + 3) :: body)

/-- The octets `inp` are exactly the packet sequence `ps`. -/
inductive PacketSeq : List (Nat × Bytes) → Bytes → Prop
  | nil : PacketSeq [] []
  | cons {tag body ps enc inp} (h : Encodes tag body enc) (hs : PacketSeq ps inp) :
      PacketSeq ((tag, body) :: ps) (enc ++ inp)
  | toEnd {tag body enc} (h : EncodesToEnd tag body enc) : PacketSeq [(tag, body)] enc

/-- A sequence of self-delimiting packets (no packet of indeterminate length). -/
inductive ClosedSeq : List (Nat × Bytes) → Bytes → Prop
  | nil : ClosedSeq [] []
  | cons {tag body ps enc inp} (h : Encodes tag body enc) (hs : ClosedSeq ps inp) :
      ClosedSeq ((tag, body) :: ps) (enc ++ inp)

theorem ClosedSeq.packetSeq {ps inp} (h : ClosedSeq ps inp) : PacketSeq ps inp := by
  induction h with
  | nil => exact .nil
  | cons h _ ih => exact .cons h ih

end Gpgpdump.Spec
