import Verif.ThmReader

/-!
# The complete method set of `reader.Reader` in int64 arithmetic

`Reader.lean` models the methods the parsers call. Here every exported method is a call with its arguments, so that a caller
may use them in any order with any argument. `Len`/`Size` are one call. A call that panics leaves the reader as it is (a
caller may recover). Not modelled: a nil receiver, aliasing of the returned slices with the buffer.
-/

namespace Gpgpdump
open Reader

/-- What the writer given to `WriteTo` does with the octets offered: the count and the error it returns. -/
abbrev Writer := Bytes → Int × Option GoErr

/-- A method call. -/
inductive RCall
  | read (n : Nat)                     -- `Read(p)` with `len(p) = n`
  | readAt (n : Nat) (off : Int)       -- `ReadAt(p, off)` with `len(p) = n`
  | readByte
  | readBytes (size : Int)
  | read2EOF
  | seek (off whence : Int)
  | writeTo (w : Writer)
  | len                                -- `Len()`, `Size()`
  | rest
  | getBody
  | dumpString (off : Int)

/-- The arguments are int64 values. -/
def RCall.Int64 : RCall → Prop
  | .read n => (n : Int) < 2 ^ 63
  | .readAt n o => (n : Int) < 2 ^ 63 ∧ -2 ^ 63 ≤ o ∧ o < 2 ^ 63
  | .readBytes n => -2 ^ 63 ≤ n ∧ n < 2 ^ 63
  | .seek o _ => -2 ^ 63 ≤ o ∧ o < 2 ^ 63
  | .dumpString o => -2 ^ 63 ≤ o ∧ o < 2 ^ 63
  | _ => True

/-- What a caller gets back. -/
inductive ROut
  | bytes (b : Bytes)                          -- octets, no error
  | num (i : Int)                              -- a number, no error
  | text (s : Str)
  | fail (e : GoErr)                           -- no octets, an error
  | seekFail (pos : Int) (e : GoErr)           -- `Seek`: a position and an error
  | writeFail (n : Int) (e : Option GoErr)     -- `WriteTo`: a count and the writer's error, or `io.ErrShortWrite` (`none`)
  | crash
  deriving DecidableEq, Repr

namespace Reader

/-- reader.go:62-89 `Seek`; the sum in line 79 wraps around -/
def seek64 (r : Reader) (offset whence : Int) : ROut × Reader :=
  let go (origin : Int) : ROut × Reader :=
    let origin := wrap64 (origin + offset)
    if origin < 0 ∨ origin > (r.size : Int) then (.seekFail r.off (wrapErr .invalidOffset), r)
    else (.num origin, { r with off := origin.toNat })
  if whence = 0 then go 0
  else if whence = 1 then go r.off
  else if whence = 2 then go r.size
  else (.seekFail r.off (wrapErr .invalidWhence), r)

/-- outcome of `ReadBytes` as seen by a caller -/
def outOf : Res Bytes × Reader → ROut × Reader
  | (.ok b, r) => (.bytes b, r)
  | (.err e, r) => (.fail e, r)
  | (.panic _, r) => (.crash, r)
  | (.stuck, r) => (.crash, r)

/-- reader.go:24-32 `Read` -/
def read64 (r : Reader) (n : Nat) : ROut × Reader :=
  match r.readBytes64 n with
  | (.err e, r') => (.fail e.wrap, r')
  | x => outOf x

/-- reader.go:35-41 `ReadAt` -/
def readAt64 (r : Reader) (n : Nat) (off : Int) : ROut × Reader :=
  match r.seek64 off 0 with
  | (.num _, r') => r'.read64 n
  | (.seekFail _ e, r') => (.fail e.wrap, r')
  | (_, r') => (.crash, r')

/-- reader.go:44-50 `ReadByte` -/
def readByte64 (r : Reader) : ROut × Reader :=
  match r.readBytes64 1 with
  | (.ok b, r') => (.bytes (b.take 1), r')
  | (.err e, r') => (.fail e.wrap, r')
  | x => outOf x

/-- reader.go:53-59 `WriteTo` with `bytes.(*Reader).WriteTo`: nothing is offered when the buffer is empty; a count above the
number of octets offered panics; a smaller count without an error is `io.ErrShortWrite`. -/
def writeTo64 (r : Reader) (w : Writer) : ROut × Reader :=
  if r.buf = [] then (.num 0, { r with off := r.size })
  else
    let (m, e) := w r.buf
    if m > (r.buf.length : Int) then (.crash, r)
    else match e with
      | some e => (.writeFail m (some e.wrap), r)
      | none =>
        if m ≠ (r.buf.length : Int) then (.writeFail m none, r)
        else (.num m, { r with off := r.size })

/-- reader.go:140-153 `DumpString`: a negative offset is out of range in line 144 -/
def dumpString64 (r : Reader) (off : Int) : ROut × Reader :=
  if off ≥ (r.size : Int) then (.text [], r)
  else if off < 0 then (.crash, r)
  else (.text (dumpHex (r.buf.drop off.toNat)), r)

end Reader

/-- One call. `rest` is reader.go:102-104, `len` reader.go:92-99, `getBody` reader.go:135-137. -/
def RCall.run : RCall → Reader → ROut × Reader
  | .read n, r => r.read64 n
  | .readAt n o, r => r.readAt64 n o
  | .readByte, r => r.readByte64
  | .readBytes n, r => outOf (r.readBytes64 n)
  | .read2EOF, r => outOf r.read2EOF
  | .seek o w, r => r.seek64 o w
  | .writeTo w, r => r.writeTo64 w
  | .len, r => (.num r.size, r)
  | .rest, r => (.num r.rest, r)
  | .getBody, r => (.bytes r.buf, r)
  | .dumpString o, r => r.dumpString64 o

/-- The outcomes of a sequence of calls. -/
def RCall.runAll : List RCall → Reader → List ROut × Reader
  | [], r => ([], r)
  | c :: cs, r =>
    let (o, r') := c.run r
    let (os, r'') := RCall.runAll cs r'
    (o :: os, r'')

end Gpgpdump
