import Verif.Armtext

/-!
# golang.org/x/crypto/openpgp/armor and encoding/base64

`parse.New` hands the armor block to `armor.Decode` (parser.go:64) and reads the packets from `block.Body` (parser.go:68). Both
packages are outside /repo; they are modelled from their published sources (x/crypto v0.0.0-20210220033148-5ea612d1eb83 of
/repo/go.mod, Go 1.16). Everywhere else the decoder is the field `Ext.armor`; `armorStream` below is the value of that field for
this decoder.

Simplifications: the block type and the header values, which gpgpdump does not use, are not kept.
-/

namespace Gpgpdump
namespace Armor

/-- armor.go `ArmorCorrupt` -/
def corrupt : GoErr := rawErr (.other 24)

/-- encoding/base64 `CorruptInputError` (the position is not kept) -/
def badBase64 : GoErr := rawErr (.other 64)

/-! ## Lines -/

/-- `bufio.Reader.ReadLine` of a reader with a buffer of 100 octets (armor.go `bufio.NewReaderSize(in, 100)`): the line and
`isPrefix`, `none` at the end; and the octets left. -/
def readLine (rest : Bytes) : Option (Bytes × Bool) × Bytes :=
  match indexNL (rest.take 100) with
  | some i => (some (dropCR (rest.take i), false), rest.drop (i + 1))
  | none =>
    if rest.length ≥ 100 then
      if (rest.take 100).getLast? = some 0x0d then (some (rest.take 99, true), rest.drop 99)
      else (some (rest.take 100, true), rest.drop 100)
    else if rest.isEmpty then (none, [])
    else (some (rest, false), [])

/-- the length of the white-space character (`unicode.IsSpace`) the octets start with, 0 if they start with none -/
def spaceLen : Bytes → Nat
  | [] => 0
  | x :: xs =>
    if (0x09 ≤ x ∧ x ≤ 0x0d) ∨ x = 0x20 then 1
    else if x = 0xc2 then (if xs.head? = some 0x85 ∨ xs.head? = some 0xa0 then 2 else 0)
    else if x = 0xe1 then (if xs.take 2 = [0x9a, 0x80] then 3 else 0)
    else if x = 0xe2 then
      match xs with
      | 0x80 :: y :: _ => if (0x80 ≤ y ∧ y ≤ 0x8a) ∨ y = 0xa8 ∨ y = 0xa9 ∨ y = 0xaf then 3 else 0
      | 0x81 :: 0x9f :: _ => 3
      | _ => 0
    else if x = 0xe3 then (if xs.take 2 = [0x80, 0x80] then 3 else 0)
    else 0

/-- the same for the end of the octets, given in reverse -/
def spaceLenRev : Bytes → Nat
  | [] => 0
  | x :: xs =>
    if (0x09 ≤ x ∧ x ≤ 0x0d) ∨ x = 0x20 then 1
    else
      match xs with
      | 0xc2 :: _ => if x = 0x85 ∨ x = 0xa0 then 2 else 0
      | 0x9a :: 0xe1 :: _ => if x = 0x80 then 3 else 0
      | 0x80 :: 0xe2 :: _ => if (0x80 ≤ x ∧ x ≤ 0x8a) ∨ x = 0xa8 ∨ x = 0xa9 ∨ x = 0xaf then 3 else 0
      | 0x81 :: 0xe2 :: _ => if x = 0x9f then 3 else 0
      | 0x80 :: 0xe3 :: _ => if x = 0x80 then 3 else 0
      | _ => 0

/-- remove white space at the front; `fuel` bounds the number of characters -/
def trimWith (len : Bytes → Nat) : Nat → Bytes → Bytes
  | 0, b => b
  | f + 1, b => if len b = 0 then b else trimWith len f (b.drop (len b))

/-- `bytes.TrimSpace` -/
def trimSpace (b : Bytes) : Bytes :=
  let l := trimWith spaceLen b.length b
  (trimWith spaceLenRev l.length l.reverse).reverse

/-- armor.go `armorStart` -/
def armorStart : Bytes := ascii "-----BEGIN "
/-- armor.go `armorEnd` -/
def armorEnd : Bytes := ascii "-----END "
/-- armor.go `armorEndOfLine` -/
def armorEndOfLine : Bytes := ascii "-----"

/-- `bytes.Contains(line, ": ")` -/
def hasColon : Bytes → Bool
  | [] => false
  | x :: xs => (x == 0x3a && xs.head? == some 0x20) || hasColon xs

/-- how the headers of a block end -/
inductive Headers
  | eof                    -- end of the input
  | again (rest : Bytes)   -- a line that is no header: `goto TryNextBlock`
  | body (rest : Bytes)    -- an empty line

/-- armor.go `Decode`, the loop that reads the headers -/
def headers : Nat → Bool → Bytes → Headers
  | 0, _, _ => .eof
  | f + 1, isContinuation, rest =>
    match readLine rest with
    | (none, _) => .eof
    | (some (line, next), rest') =>
      if isContinuation then headers f next rest'
      else
        let line := trimSpace line
        if line.isEmpty then .body rest'
        else if hasColon line then headers f next rest'
        else .again rest'

/-- armor.go `Decode`: the octets behind the headers of the first block. `ignore`: the line read before was not complete. -/
def findBody : Nat → Bool → Bytes → Except GoErr Bytes
  | 0, _, _ => .error (rawErr .fuel)
  | f + 1, ignore, rest =>
    match readLine rest with
    | (none, _) => .error (rawErr .eof)
    | (some (line, ignoreNext), rest') =>
      if ignore then findBody f ignoreNext rest'
      else
        let line := trimSpace line
        if line.length > armorStart.length + armorEndOfLine.length && armorStart.isPrefixOf line then
          match headers (rest'.length + 1) false rest' with
          | .eof => .error (rawErr .eof)
          | .again rest'' => findBody f ignoreNext rest''
          | .body rest'' => .ok rest''
        else findBody f ignoreNext rest'

/-! ## Base64 -/

/-- base64.go `decodeMap` of `StdEncoding` -/
def value (x : UInt8) : Option Nat :=
  if 0x41 ≤ x ∧ x ≤ 0x5a then some (x.toNat - 0x41)
  else if 0x61 ≤ x ∧ x ≤ 0x7a then some (x.toNat - 0x61 + 26)
  else if 0x30 ≤ x ∧ x ≤ 0x39 then some (x.toNat - 0x30 + 52)
  else if x = 0x2b then some 62
  else if x = 0x2f then some 63
  else none

/-- base64.go `Decode`, `decodeQuantum` on octets without line ends: what was decoded and the error -/
def decodeQ : Bytes → Bytes × Option GoErr
  | [] => ([], none)
  | a :: b :: c :: d :: rest =>
    match value a, value b with
    | some x, some y =>
      match value c with
      | some z =>
        match value d with
        | some w =>
          let v := x * 2 ^ 18 + y * 2 ^ 12 + z * 2 ^ 6 + w
          match decodeQ rest with
          | (o, e) => (UInt8.ofNat (v / 65536) :: UInt8.ofNat (v / 256 % 256) :: UInt8.ofNat (v % 256) :: o, e)
        | none =>
          if d = 0x3d then
            let v := x * 2 ^ 18 + y * 2 ^ 12 + z * 2 ^ 6
            ([UInt8.ofNat (v / 65536), UInt8.ofNat (v / 256 % 256)], if rest.isEmpty then none else some badBase64)
          else ([], some badBase64)
      | none =>
        if c = 0x3d ∧ d = 0x3d then
          ([UInt8.ofNat ((x * 2 ^ 18 + y * 2 ^ 12) / 65536)], if rest.isEmpty then none else some badBase64)
        else ([], some badBase64)
    | _, _ => ([], some badBase64)
  | _ => ([], some badBase64)

/-- line ends, which are skipped -/
def notNL (x : UInt8) : Bool := x != 0x0a && x != 0x0d

/-- base64.go `StdEncoding.Decode` -/
def decode64 (b : Bytes) : Bytes × Option GoErr := decodeQ (b.filter notNL)

/-! ## The body -/

/-- armor.go `lineReader` -/
structure LineReader where
  rest : Bytes
  buf : Bytes
  eof : Bool
  crc : Option Nat   -- `crc` when `crcSet`

/-- armor.go `(*lineReader).Read` with `len(p) = n` -/
def LineReader.read (n : Nat) (l : LineReader) : Bytes × Option GoErr × LineReader :=
  if l.eof then ([], some (rawErr .eof), l)
  else if !l.buf.isEmpty then (l.buf.take n, none, { l with buf := l.buf.drop n })
  else
    match readLine l.rest with
    | (none, r) => ([], some (rawErr .eof), { l with rest := r })
    | (some (line, isPrefix), r) =>
      if isPrefix then ([], some corrupt, { l with rest := r })
      else if armorEnd.isPrefixOf line then ([], some (rawErr .eof), { l with rest := r, eof := true })
      else if line.length = 5 ∧ line.head? = some 0x3d then
        match decode64 (line.drop 1) with
        | (o, e) =>
          if o.length ≠ 3 ∨ e ≠ none then ([], e, { l with rest := r })
          else
            match readLine r with
            | (none, r') => ([], some corrupt, { l with rest := r' })
            | (some (line', _), r') =>
              if armorEnd.isPrefixOf line' then ([], some (rawErr .eof), { l with rest := r', eof := true, crc := some (beNat o) })
              else ([], some corrupt, { l with rest := r' })
      else if line.length > 96 then ([], some corrupt, { l with rest := r })
      else (line.take n, none, { l with rest := r, buf := line.drop n })

/-- base64.go `(*newlineFilteringReader).Read` -/
def readFiltered (n : Nat) : Nat → LineReader → Bytes × Option GoErr × LineReader
  | 0, l => ([], some (rawErr .fuel), l)
  | f + 1, l =>
    match l.read n with
    | (b, e, l') =>
      if b.isEmpty then ([], e, l')
      else if (b.filter notNL).isEmpty then readFiltered n f l'
      else (b.filter notNL, e, l')

/-- base64.go `decoder` -/
structure Decoder where
  lr : LineReader
  err : Option GoErr
  readErr : Option GoErr
  buf : Bytes
  out : Bytes

/-- base64.go `(*decoder).Read`: refill the buffer with at most `nn` octets until there are four -/
def refill (nn : Nat) : Nat → Decoder → Decoder
  | 0, d => d
  | f + 1, d =>
    if d.buf.length < 4 ∧ d.readErr = none then
      match readFiltered (nn - d.buf.length) (d.lr.rest.length + d.lr.buf.length + 2) d.lr with
      | (b, e, l) => refill nn f { d with lr := l, readErr := e, buf := d.buf ++ b }
    else d

/-- base64.go `(*decoder).Read` with `len(p) = n` -/
def Decoder.read (n : Nat) (d : Decoder) : Bytes × Option GoErr × Decoder :=
  if !d.out.isEmpty then (d.out.take n, none, { d with out := d.out.drop n })
  else
    match d.err with
    | some e => ([], some e, d)
    | none =>
      let d := refill (min 1024 (max 4 (n / 3 * 4))) (d.lr.rest.length + d.lr.buf.length + 6) d
      if d.buf.length < 4 then
        let e := if d.readErr = some (rawErr .eof) ∧ !d.buf.isEmpty then some (rawErr .unexpectedEOF) else d.readErr
        ([], e, { d with err := e })
      else
        let nr := d.buf.length / 4 * 4
        match decode64 (d.buf.take nr) with
        | (o, e) =>
          if d.buf.length / 4 * 3 > n then (o.take n, e, { d with err := e, out := o.drop n, buf := d.buf.drop nr })
          else (o, e, { d with err := e, buf := d.buf.drop nr })

/-- armor.go `crc24Init` -/
def crcInit : Nat := 0xb704ce
/-- armor.go `crc24Poly` -/
def crcPoly : Nat := 0x1864cfb

/-- armor.go `crc24`, the inner loop body: `crc <<= 1; if crc&0x1000000 != 0 { crc ^= crc24Poly }` (below 2^24 a uint32 does not
overflow) -/
def crcBit (crc : Nat) : Nat := if (2 * crc).testBit 24 then 2 * crc ^^^ crcPoly else 2 * crc

/-- armor.go `crc24` for one octet -/
def crcOctet (crc : Nat) (b : UInt8) : Nat :=
  crcBit (crcBit (crcBit (crcBit (crcBit (crcBit (crcBit (crcBit (crc ^^^ b.toNat * 2 ^ 16))))))))

/-- armor.go `crc24` -/
def crc24 (crc : Nat) (d : Bytes) : Nat := d.foldl crcOctet crc

/-- armor.go `openpgpReader` -/
structure Body where
  dec : Decoder
  crc : Nat

/-- armor.go `(*openpgpReader).Read` with `len(p) = n` -/
def Body.read (n : Nat) (r : Body) : Bytes × Option GoErr × Body :=
  match r.dec.read n with
  | (b, e, d) =>
    let crc := crc24 r.crc b
    match d.lr.crc with
    | some c => if e = some (rawErr .eof) ∧ c ≠ crc % 2 ^ 24 then ([], some corrupt, ⟨d, crc⟩) else (b, e, ⟨d, crc⟩)
    | none => (b, e, ⟨d, crc⟩)

/-- armor.go `Decode`: the body of the first block -/
def decode (text : Bytes) : Except GoErr Body :=
  match findBody (text.length + 1) false text with
  | .error e => .error e
  | .ok rest => .ok ⟨⟨⟨rest, [], false, none⟩, none, none, [], []⟩, crcInit⟩

/-- all octets a body delivers and the final error, read one octet at a time -/
def drain : Nat → Body → Bytes × GoErr
  | 0, _ => ([], rawErr .fuel)
  | f + 1, r =>
    match r.read 1 with
    | (b, some e, _) => (b, e)
    | (b, none, r') =>
      match drain f r' with
      | (c, e) => (b ++ c, e)

end Armor

/-- The field `Ext.armor` for this decoder. What the body delivers is independent of the sizes of the reads for texts in the armor
format (proved); for others (padding inside the base64 lines) it is what reads of one octet deliver. -/
def armorStream (text : Bytes) : Except GoErr Stream :=
  match Armor.decode text with
  | .error e => .error e
  | .ok r =>
    match Armor.drain (text.length + 1) r with
    | (d, e) => .ok ⟨d, e, [], false⟩

end Gpgpdump
