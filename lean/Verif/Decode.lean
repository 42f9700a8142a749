import Verif.SpecPacket
import Verif.Packet

/-!
# A reference decoder for the packet grammar

Pure (no sources, no schedules); proved sound and complete for `Spec.Encodes`. The connection to the modelled reader is in
`SrcLemmas`.
-/

namespace Gpgpdump

/-- Result of decoding a length: value, partial?, rest -/
def decLength : Bytes → Option (Nat × Bool × Bytes)
  | [] => none
  | b0 :: r =>
    if b0.toNat < 192 then some (b0.toNat, false, r)
    else if b0.toNat < 224 then
      match r with
      | [] => none
      | b1 :: r => some ((b0.toNat - 192) * 256 + b1.toNat + 192, false, r)
    else if b0.toNat < 255 then some (2 ^ (b0.toNat % 32), true, r)
    else if r.length < 4 then none
    else some (beNat (r.take 4), false, r.drop 4)

/-- Chunks: `remaining` octets of the current chunk, then more chunks if `isPartial`. `none`: truncated. -/
def decChunks : Nat → Nat → Bool → Bytes → Option (Bytes × Bytes)
  | 0, _, _, _ => none
  | f + 1, remaining, isPartial, data =>
    if data.length < remaining then none
    else if isPartial then
      match decLength (data.drop remaining) with
      | none => none
      | some (n, p, r) =>
        match decChunks f n p r with
        | none => none
        | some (b, r) => some (data.take remaining ++ b, r)
    else some (data.take remaining, data.drop remaining)

inductive Dec
  | atEnd
  | truncated
  | noMSB
  | toEnd (tag : Nat) (body : Bytes)
  | packet (tag : Nat) (body rest : Bytes)
  deriving DecidableEq, Repr

def decNext (data : Bytes) : Dec :=
  match data with
  | [] => .atEnd
  | h :: r =>
    if h.toNat < 128 then .noMSB
    else if h.toNat < 192 then
      if h.toNat % 4 = 3 then .toEnd (h.toNat % 64 / 4) r
      else if r.length < 2 ^ (h.toNat % 4) then .truncated
      else
        let n := beNat (r.take (2 ^ (h.toNat % 4)))
        let r := r.drop (2 ^ (h.toNat % 4))
        if r.length < n then .truncated else .packet (h.toNat % 64 / 4) (r.take n) (r.drop n)
    else
      match decLength r with
      | none => .truncated
      | some (n, p, r') =>
        match decChunks (r.length + 1) n p r' with
        | none => .truncated
        | some (b, rest) => .packet (h.toNat % 64) b rest

end Gpgpdump
