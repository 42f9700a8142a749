import Verif.Basic

/-!
# `parse/reader/reader.go`

The offset is a natural number: every Go code path keeps it non-negative (`Seek` rejects negative targets, reads only add).
Offsets and sizes are mathematical integers here; `readBytes64` below models the 64-bit wrap-around of the public method
for completeness.
-/

namespace Gpgpdump

/-- reader.go:13-16 `type Reader struct` -/
structure Reader where
  buf : Bytes
  off : Nat
  deriving DecidableEq, Repr

namespace Reader

/-- reader.go:19-21 `New` -/
def new (data : Bytes) : Reader := ⟨data, 0⟩

/-- reader.go:92-99 `Len`, `Size` -/
def size (r : Reader) : Nat := r.buf.length

/-- reader.go:102-104 `Rest` (negative after `Read2EOF` from a non-zero offset) -/
def rest (r : Reader) : Int := (r.size : Int) - (r.off : Int)

/-- The unread octets (specification helper; `r.buffer[r.offset:]`). -/
def remaining (r : Reader) : Bytes := r.buf.drop r.off

/-- reader.go:107-121 `ReadBytes`. A negative size slices backwards and panics (reader.go:118). -/
def readBytes (r : Reader) (size : Int) : Res Bytes × Reader :=
  if size = 0 then (.ok [], r)
  else if r.off ≥ r.size then (.err (wrapErr .eof), r)
  else if (r.off : Int) + size > (r.size : Int) then (.err (wrapErr .unexpectedEOF), r)
  else if size < 0 then (.panic .sliceRange, r)
  else (.ok ((r.buf.drop r.off).take size.toNat), { r with off := r.off + size.toNat })

/-- 64-bit two's complement wrap-around of Go `int64` arithmetic. -/
def wrap64 (i : Int) : Int := (i + 2 ^ 63) % 2 ^ 64 - 2 ^ 63

/-- reader.go:107-121 `ReadBytes` including the wrap-around of `r.offset+size` (lines 115 and 118). -/
def readBytes64 (r : Reader) (size : Int) : Res Bytes × Reader :=
  if size = 0 then (.ok [], r)
  else if r.off ≥ r.size then (.err (wrapErr .eof), r)
  else if wrap64 ((r.off : Int) + size) > (r.size : Int) then (.err (wrapErr .unexpectedEOF), r)
  else if wrap64 ((r.off : Int) + size) < (r.off : Int) then (.panic .sliceRange, r)
  else (.ok ((r.buf.drop r.off).take size.toNat), { r with off := r.off + size.toNat })

/-- reader.go:44-50 `ReadByte` (ReadBytes(1) never returns an empty slice without an error) -/
def readByte (r : Reader) : Res UInt8 × Reader :=
  match r.readBytes 1 with
  | (.ok (b :: _), r') => (.ok b, r')
  | (.ok [], r') => (.ok 0, r')
  | (.err e, r') => (.err e.wrap, r')
  | (.panic s, r') => (.panic s, r')
  | (.stuck, r') => (.stuck, r')

/-- reader.go:24-32 `Read(p)` with `len(p) = n`: all or nothing, errors wrapped. -/
def read (r : Reader) (n : Nat) : Res Bytes × Reader :=
  match r.readBytes n with
  | (.ok b, r') => (.ok b, r')
  | (.err e, r') => (.err e.wrap, r')
  | (.panic s, r') => (.panic s, r')
  | (.stuck, r') => (.stuck, r')

/-- reader.go:124-132 `Read2EOF` (the offset grows by the *whole* size, line 130) -/
def read2EOF (r : Reader) : Res Bytes × Reader :=
  if r.off ≥ r.size then (.err (wrapErr .eof), r)
  else (.ok (r.buf.drop r.off), { r with off := r.off + r.size })

/-- `io.SeekStart` = 0, `io.SeekCurrent` = 1, `io.SeekEnd` = 2; reader.go:62-89 `Seek` -/
def seek (r : Reader) (offset : Int) (whence : Int) : Res Int × Reader :=
  let go (origin : Int) : Res Int × Reader :=
    let target := origin + offset
    if target < 0 ∨ target > (r.size : Int) then (.err (wrapErr .invalidOffset), r)
    else (.ok target, { r with off := target.toNat })
  if whence = 0 then go 0
  else if whence = 1 then go r.off
  else if whence = 2 then go r.size
  else (.err (wrapErr .invalidWhence), r)

/-- reader.go:35-41 `ReadAt(p, off)` with `len(p) = n` (moves the offset) -/
def readAt (r : Reader) (n : Nat) (off : Int) : Res Bytes × Reader :=
  match r.seek off 0 with
  | (.ok _, r') => r'.read n
  | (.err e, r') => (.err e.wrap, r')
  | (.panic s, r') => (.panic s, r')
  | (.stuck, r') => (.stuck, r')

/-- reader.go:53-59 `WriteTo` a writer that accepts everything: the whole buffer is written, offset goes to the end. -/
def writeTo (r : Reader) : Bytes × Reader := (r.buf, { r with off := r.size })

/-- Hex dump of a byte string: lower-case `%02x` separated by single spaces (reader.go:144-152). -/
def dumpHex : Bytes → Str
  | [] => []
  | [b] => hex2 b
  | b :: b' :: bs => hex2 b ++ ' ' :: dumpHex (b' :: bs)

/-- reader.go:140-153 `DumpString(off)` for a non-negative offset -/
def dumpString (r : Reader) (off : Nat) : Str :=
  if off ≥ r.size then [] else dumpHex (r.buf.drop off)

end Reader
end Gpgpdump
