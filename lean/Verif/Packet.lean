import Verif.Values

/-!
# Byte sources and the x/crypto packet and subpacket splitters

`golang.org/x/crypto/openpgp/packet` (pinned version v0.0.0-20210220033148) is not in /repo; its header, length and body
reading and `OpaqueSubpackets` are modelled from the published source, because gpgpdump's behaviour on truncated or
partially delivered input depends on its details.
-/

namespace Gpgpdump

/-! ## Readers -/

/-- An `io.Reader` with finite content.
* `strict = false`: a byte stream that may deliver short reads; `sched` gives, for the successive non-empty reads, how many
  extra octets beyond the first are delivered at most (an empty schedule means "as many as asked"); after `data`, every read
  reports `tail`; when `eager` is set the read that delivers the last octets reports `tail` along with them (both are
  allowed by the `io.Reader` contract). Buffers, files, the armor decoder are of this kind.
* `strict = true`: `parse/reader.Reader` used as an `io.Reader` (reader.go:24-32): all or nothing, wrapped errors. -/
structure Src where
  data : Bytes
  tail : GoErr
  sched : List Nat
  eager : Bool
  strict : Bool
  deriving Repr, DecidableEq

namespace Src

/-- `r.Read(p)` with `len(p) = n > 0`: octets, error, new source. -/
def read (s : Src) (n : Nat) : Bytes × Option GoErr × Src :=
  if s.strict then
    if s.data.isEmpty then ([], some (wrapErr .eof), s)
    else if n > s.data.length then ([], some (wrapErr .unexpectedEOF), s)
    else (s.data.take n, none, { s with data := s.data.drop n })
  else if s.data.isEmpty then ([], some s.tail, s)
  else
    let k := match s.sched with
      | [] => n
      | d :: _ => min n (d + 1)
    (s.data.take k, if s.eager && (s.data.drop k).isEmpty then some s.tail else none,
      { s with data := s.data.drop k, sched := s.sched.tail })

/-- A `bytes.Reader`/`bytes.Buffer` over `data` -/
def ofBytes (data : Bytes) : Src := ⟨data, rawErr .eof, [], false, false⟩

/-- a reader produced by an external component -/
def ofStream (s : Stream) : Src := ⟨s.data, s.tail, s.sched, s.eager, false⟩

/-- `parse/reader.Reader` as an `io.Reader`, over its unread octets -/
def ofReader (r : Reader) : Src := ⟨r.remaining, rawErr .eof, [], false, true⟩

/-- io.ReadAtLeast loop: read until `want` octets are there or an error occurs. `fuel` bounds the number of reads. -/
def fill : Nat → Src → Nat → Bytes × Option GoErr × Src
  | 0, s, _ => ([], some (rawErr .fuel), s)
  | _ + 1, s, 0 => ([], none, s)
  | f + 1, s, want + 1 =>
    match s.read (want + 1) with
    | (b, some e, s') => (b, some e, s')
    | (b, none, s') =>
      match fill f s' (want + 1 - b.length) with
      | (b', e, s'') => (b ++ b', e, s'')

/-- `io.ReadFull(r, buf)` with `len(buf) = n`: an EOF after at least one octet becomes `io.ErrUnexpectedEOF`. -/
def readFullIO (s : Src) (n : Nat) : Except GoErr Bytes × Src :=
  match fill (n + 1) s n with
  | (b, e, s') =>
    if b.length ≥ n then (.ok b, s')
    else match e with
      | none => (.ok b, s')
      | some e => (.error (if b.length > 0 ∧ e.eqEOF then rawErr .unexpectedEOF else e), s')

/-- x/crypto packet.readFull: `io.ReadFull` with EOF turned into `io.ErrUnexpectedEOF` (compared with `==`). -/
def readFull (s : Src) (n : Nat) : Except GoErr Bytes × Src :=
  match s.readFullIO n with
  | (.ok b, s') => (.ok b, s')
  | (.error e, s') => (.error (if e.eqEOF then rawErr .unexpectedEOF else e), s')

end Src

/-! ## Packet headers -/

/-- How the body of a packet is delimited: `spanReader{n}`, `partialLengthReader{remaining, isPartial}`, or the rest of the
input (old format, indeterminate length). -/
inductive Body
  | span (n : Nat)
  | partialLen (remaining : Nat) (isPartial : Bool)
  | indeterminate
  deriving Repr, DecidableEq

/-- x/crypto packet.readLength: (length, isPartial) -/
def readLength (s : Src) : Except GoErr (Nat × Bool) × Src :=
  match s.readFull 1 with
  | (.error e, s1) => (.error e, s1)
  | (.ok b, s1) =>
    let b0 := beNat b
    if b0 < 192 then (.ok (b0, false), s1)
    else if b0 < 224 then
      match s1.readFull 1 with
      | (.error e, s2) => (.error e, s2)
      | (.ok b', s2) => (.ok ((b0 - 192) * 256 + beNat b' + 192, false), s2)
    else if b0 < 255 then (.ok (2 ^ (b0 % 32), true), s1)
    else
      match s1.readFull 4 with
      | (.error e, s2) => (.error e, s2)
      | (.ok b', s2) => (.ok (beNat b', false), s2)

/-- x/crypto packet.readHeader: (tag, body delimiter) -/
def readHeader (s : Src) : Except GoErr (Nat × Body) × Src :=
  match s.readFullIO 1 with
  | (.error e, s1) => (.error e, s1)
  | (.ok b, s1) =>
    let h := beNat b
    if h < 128 then (.error (rawErr .noMSB), s1)
    else if h < 192 then
      -- old format: bits 5-2 are the tag, bits 1-0 the length type
      let tag := h % 64 / 4
      let lt := h % 4
      if lt = 3 then (.ok (tag, .indeterminate), s1)
      else
        match s1.readFull (2 ^ lt) with
        | (.error e, s2) => (.error e, s2)
        | (.ok lb, s2) => (.ok (tag, .span (beNat lb)), s2)
    else
      match readLength s1 with
      | (.error e, s2) => (.error e, s2)
      | (.ok (len, true), s2) => (.ok (h % 64, .partialLen len true), s2)
      | (.ok (len, false), s2) => (.ok (h % 64, .span len), s2)

/-- `Read` on the body reader with `len(p) = n > 0` (spanReader.Read, partialLengthReader.Read, or the source itself). -/
def Body.read (c : Body) (s : Src) (n : Nat) : Bytes × Option GoErr × Body × Src :=
  match c with
  | .indeterminate =>
    match s.read n with
    | (b, e, s') => (b, e, .indeterminate, s')
  | .span 0 => ([], some (rawErr .eof), .span 0, s)
  | .span (m + 1) =>
    match s.read (min n (m + 1)) with
    | (b, e, s') =>
      let left := m + 1 - b.length
      let e' := e.map fun e => if left > 0 ∧ e.eqEOF then rawErr .unexpectedEOF else e
      (b, e', .span left, s')
  | .partialLen remaining isPartial =>
    -- `for r.remaining == 0 { … }`: a partial chunk has a length of at least 1, so the loop body runs at most twice
    let start : Except GoErr (Nat × Bool) × Src :=
      if remaining > 0 then (.ok (remaining, isPartial), s)
      else if isPartial then readLength s
      else (.error (rawErr .eof), s)
    match start with
    | (.error e, s1) => ([], some e, .partialLen remaining isPartial, s1)
    | (.ok (0, p), s1) => ([], some (rawErr .eof), .partialLen 0 p, s1)
    | (.ok (m + 1, p), s1) =>
      let ask := min n (m + 1)
      match s1.read ask with
      | (b, e, s2) =>
        let e' := e.map fun e => if b.length < ask ∧ e.eqEOF then rawErr .unexpectedEOF else e
        (b, e', .partialLen (m + 1 - b.length) p, s2)

/-- `io.ReadAll`: the buffer starts with capacity 512 and is grown by `append` when full; `len`, `cap` are its length and
capacity. `fuel` bounds the number of reads. -/
def readAllLoop (X : Ext) : Nat → Body → Src → Nat → Nat → Bytes × Option GoErr × Body × Src
  | 0, c, s, _, _ => ([], some (rawErr .fuel), c, s)
  | f + 1, c, s, len, cap =>
    let cap' := if len ≥ cap then max (cap + 1) (X.grow cap) else cap
    match c.read s (cap' - len) with
    | (b, some e, c', s') => (b, if e.eqEOF then none else some e, c', s')
    | (b, none, c', s') =>
      match readAllLoop X f c' s' (len + b.length) cap' with
      | (b', e, c'', s'') => (b ++ b', e, c'', s'')

/-- `io.ReadAll(contents)` -/
def readAll (X : Ext) (c : Body) (s : Src) : Except GoErr Bytes × Src :=
  match readAllLoop X (s.data.length + 2) c s 0 512 with
  | (b, none, _, s') => (.ok b, s')
  | (_, some e, _, s') => (.error e, s')

/-- x/crypto packet.OpaqueReader.Next: (tag, contents). After an error the source is left wherever it is; gpgpdump stops
reading after the first error. -/
def nextPacket (X : Ext) (s : Src) : Except GoErr (Nat × Bytes) × Src :=
  match readHeader s with
  | (.error e, s1) => (.error e, s1)
  | (.ok (tag, c), s1) =>
    match readAll X c s1 with
    | (.error e, s2) => (.error e, s2)
    | (.ok b, s2) => (.ok (tag, b), s2)

/-! ## Subpackets -/

/-- x/crypto packet.nextSubpacket: type octet, contents, rest of the area -/
def nextSubpacket (contents : Bytes) : Except GoErr (UInt8 × Bytes × Bytes) :=
  let finish (subLen : Nat) (body : Bytes) : Except GoErr (UInt8 × Bytes × Bytes) :=
    match body with
    | [] => .error (rawErr .subTruncated)
    | t :: bs =>
      if subLen > body.length ∨ subLen = 0 then .error (rawErr .subTruncated)
      else .ok (t, bs.take (subLen - 1), bs.drop (subLen - 1))
  match contents with
  | [] => .error (rawErr .subTruncated)
  | b0 :: r0 =>
    if b0.toNat < 192 then finish b0.toNat r0
    else if b0.toNat < 255 then
      match r0 with
      | [] => .error (rawErr .subTruncated)
      | b1 :: r1 => finish ((b0.toNat - 192) * 256 + b1.toNat + 192) r1
    else
      match r0 with
      | b1 :: b2 :: b3 :: b4 :: r4 => finish (beNat [b1, b2, b3, b4]) r4
      | _ => .error (rawErr .subTruncated)

/-- x/crypto packet.OpaqueSubpackets; `fuel` bounds the number of subpackets -/
def opaqueSubpacketsLoop : Nat → Bytes → Except GoErr (List (UInt8 × Bytes))
  | _, [] => .ok []
  | 0, _ :: _ => .error (rawErr .fuel)
  | f + 1, b :: bs =>
    match nextSubpacket (b :: bs) with
    | .error e => .error e
    | .ok (t, c, r) =>
      match opaqueSubpacketsLoop f r with
      | .error e => .error e
      | .ok l => .ok ((t, c) :: l)

/-- x/crypto packet.OpaqueSubpackets -/
def opaqueSubpackets (contents : Bytes) : Except GoErr (List (UInt8 × Bytes)) :=
  opaqueSubpacketsLoop contents.length contents

end Gpgpdump
