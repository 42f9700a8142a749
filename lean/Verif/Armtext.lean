import Verif.Packet

/-!
# `armtext/armtext.go` and `bufio.Scanner`

`bufio.Scanner` (standard library, not in /repo) is modelled at the level of its buffer because its fixed maximum token size
and its reading pattern are observable: `parse.New` tees everything the scanner reads.
-/

namespace Gpgpdump

/-- bufio.MaxScanTokenSize -/
def maxTokenSize : Nat := 64 * 1024

/-- bufio `startBufSize` -/
def startBufSize : Nat := 4096

/-- State of a `bufio.Scanner`: source, unprocessed octets `buf[start:end]`, `start`, `len(buf)`, pending error. -/
structure Scanner where
  src : Src
  held : Bytes
  start : Nat
  cap : Nat
  err : Option GoErr

/-- bufio `dropCR` -/
def dropCR (l : Bytes) : Bytes := if l.getLast? = some 0x0d then l.dropLast else l

/-- `bytes.IndexByte(data, '\n')` -/
def indexNL (b : Bytes) : Option Nat := b.findIdx? (· == 0x0a)

/-- `Scanner.Scan` called until it returns false, with `bufio.ScanLines`: the lines, `Scanner.Err()` and the octets taken from
the source. `fuel` bounds the number of loop rounds. -/
def scanLoop : Nat → Scanner → List Bytes × Option GoErr × Bytes
  | 0, _ => ([], some (rawErr .fuel), [])
  | f + 1, s =>
    match indexNL s.held with
    | some i =>
      match scanLoop f { s with held := s.held.drop (i + 1), start := s.start + i + 1 } with
      | (ls, e, c) => (dropCR (s.held.take i) :: ls, e, c)
    | none =>
      match s.err with
      | some e =>
        if s.held.isEmpty then ([], if e.eqEOF then none else some e, [])
        else ([dropCR s.held], if e.eqEOF then none else some e, [])
      | none =>
        let start := if s.start > 0 ∧ (s.start + s.held.length = s.cap ∨ s.start > s.cap / 2) then 0 else s.start
        if start + s.held.length = s.cap ∧ s.cap ≥ maxTokenSize then ([], some (rawErr .tooLong), [])
        else
          let full := start + s.held.length = s.cap
          let cap := if full then min maxTokenSize (if s.cap = 0 then startBufSize else s.cap * 2) else s.cap
          let start := if full then 0 else start
          match s.src.read (cap - (start + s.held.length)) with
          | (b, e, src) =>
            match scanLoop f { src := src, held := s.held ++ b, start := start, cap := cap, err := e } with
            | (ls, e, c) => (ls, e, b ++ c)

/-- all lines of a source: lines, `scn.Err()`, octets consumed -/
def scanAll (src : Src) : List Bytes × Option GoErr × Bytes :=
  scanLoop (2 * src.data.length + 3) ⟨src, [], 0, 0, none⟩

/-- ASCII octets of a literal -/
def ascii (s : String) : Bytes := s.toList.map (fun c => UInt8.ofNat c.toNat)

/-- armtext.go:15 -/
def armorBoundery : Bytes := ascii "-----BEGIN PGP"
/-- armtext.go:16 -/
def armorBounderyExcept : Bytes := ascii "-----BEGIN PGP SIGNED"
/-- armtext.go:17 -/
def armorBounderyTerminate : Bytes := ascii "-----END PGP"

/-- the loop armtext.go:25-38: (buffer, armorFlag, armorEndFlag) over the lines -/
def armLoop : List Bytes → Bytes × Bool × Bool → Bytes × Bool × Bool
  | [], st => st
  | str :: ls, (buf, armorFlag, armorEndFlag) =>
    let armorFlag :=
      if !armorFlag then armorBoundery.isPrefixOf str && !armorBounderyExcept.isPrefixOf str else armorFlag
    if armorFlag && !armorEndFlag then
      armLoop ls (buf ++ str ++ [0x0a], armorFlag, armorBounderyTerminate.isPrefixOf str)
    else armLoop ls (buf, armorFlag, armorEndFlag)

/-- armtext.go:20-46 `Get`; also returns the octets taken from the source -/
def armtextGet (src : Src) : Except GoErr Bytes × Bytes :=
  match scanAll src with
  | (ls, err, consumed) =>
    match err with
    | some e => (.error e.wrap, consumed)
    | none =>
      match armLoop ls ([], false, false) with
      | (buf, armorFlag, armorEndFlag) =>
        if !armorFlag || !armorEndFlag then (.error (wrapErr .armorText), consumed)
        else (.ok buf, consumed)

end Gpgpdump
