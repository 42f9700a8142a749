/-!
# Basic types and formatting verbs

Octet strings, Go strings, the `fmt` verbs used by gpgpdump, big-endian decoding, errors and outcomes.
-/

namespace Gpgpdump

/-- Go `[]byte`. Slices with length 0 and `nil` are both `[]`; the code never distinguishes them observably. -/
abbrev Bytes := List UInt8

/-- Go `string`. Every string that reaches an item is valid UTF-8 (the only conversion from raw octets is guarded by
`utf8.Valid`, values/literal.go:76), so a list of code points loses nothing. -/
abbrev Str := List Char

/-- A Go string literal. -/
def S (s : String) : Str := s.toList

/-- One digit (`0`-`9`, `a`-`f`), as printed by `%d` and `%x`. -/
def digit (n : Nat) : Char := if n < 10 then Char.ofNat (48 + n) else Char.ofNat (87 + n)

/-- One upper-case digit (`0`-`9`, `A`-`F`), as printed by `%X` and `%U`. -/
def digitU (n : Nat) : Char := if n < 10 then Char.ofNat (48 + n) else Char.ofNat (55 + n)

/-- Digits of `n` in base `b` (most significant first), `fuel` bounds the number of digits. -/
def digitsAux (b : Nat) (f : Nat → Char) : Nat → Nat → Str
  | 0, n => [f (n % b)]
  | fuel + 1, n => if n < b then [f n] else digitsAux b f fuel (n / b) ++ [f (n % b)]

/-- `%d` of a non-negative integer, `strconv.Itoa`. -/
def dec (n : Nat) : Str := digitsAux 10 digit n.log2 n

/-- `%d` of an integer. -/
def decInt (i : Int) : Str := if i < 0 then '-' :: dec i.natAbs else dec i.natAbs

/-- `%x` of a non-negative integer. -/
def hex (n : Nat) : Str := digitsAux 16 digit n.log2 n

/-- Left padding with zeros to width `w`. -/
def zpad (w : Nat) (s : Str) : Str := List.replicate (w - s.length) '0' ++ s

/-- `%02x` of an octet. -/
def hex2 (b : UInt8) : Str := [digit (b.toNat / 16), digit (b.toNat % 16)]

/-- `%#02x`: `0x` followed by at least two hex digits. -/
def hashHex2 (n : Nat) : Str := S "0x" ++ zpad 2 (hex n)

/-- `%#016x`: `0x` followed by at least sixteen hex digits. -/
def hashHex16 (n : Nat) : Str := S "0x" ++ zpad 16 (hex n)

/-- `%U` of a rune: `U+` followed by at least four upper-case hex digits. -/
def fmtU (c : Char) : Str := S "U+" ++ zpad 4 (digitsAux 16 digitU c.toNat.log2 c.toNat)

/-- Big-endian value of an octet string (`binary.BigEndian.Uint16/Uint32/Uint64` on strings of the right length). -/
def beNat (b : Bytes) : Nat := b.foldl (fun acc x => acc * 256 + x.toNat) 0

/-- `"%d bytes"` -/
def nBytes (n : Nat) : Str := dec n ++ S " bytes"

/-- `"%d bytes"` for a possibly negative Go `int`. -/
def iBytes (n : Int) : Str := decInt n ++ S " bytes"

/-! ## Errors -/

/-- The root cause of an error. -/
inductive Cause
  | eof                 -- io.EOF
  | unexpectedEOF       -- io.ErrUnexpectedEOF
  | nullPointer         -- ecode.ErrNullPointer
  | armorText           -- ecode.ErrArmorText
  | invalidWhence       -- ecode.ErrInvalidWhence
  | invalidOffset       -- ecode.ErrInvalidOffset
  | tooLarge            -- ecode.ErrTooLarge
  | tooLong             -- bufio.ErrTooLong
  | noMSB               -- x/crypto StructuralError("tag byte does not have MSB set")
  | subTruncated        -- x/crypto StructuralError("subpacket truncated")
  | other (code : Nat)  -- any other error (I/O, decompression, armor, ...)
  | fuel                -- artefact of the model: a loop bound was hit (proved unreachable)
  deriving DecidableEq, Repr

/-- A Go error: its root cause and whether it was wrapped by the `errs` package. The standard library and x/crypto
compare errors with `==` (only unwrapped errors match), gpgpdump uses `errs.Is` (which looks through wrapping). -/
structure GoErr where
  cause : Cause
  wrapped : Bool
  deriving DecidableEq, Repr

/-- `err == io.EOF` -/
def GoErr.eqEOF (e : GoErr) : Bool := e.cause == .eof && !e.wrapped

/-- `errs.Is(err, io.EOF)` -/
def GoErr.isEOF (e : GoErr) : Bool := e.cause == .eof

/-- `errs.Wrap(err)` / `errs.New(msg, errs.WithCause(err))` for a non-nil `err`. -/
def GoErr.wrap (e : GoErr) : GoErr := { e with wrapped := true }

/-- An unwrapped error. -/
def rawErr (c : Cause) : GoErr := ⟨c, false⟩

/-- A wrapped error. -/
def wrapErr (c : Cause) : GoErr := ⟨c, true⟩

/-- The places where the modelled code can panic. -/
inductive Site
  | nilCtx       -- dereference of a nil *Context (SetAlgPubEnc, SigCreationTime, …)
  | sliceRange   -- slice bounds out of range in ReadBytes with a negative size (reader.go:118)
  | beShort      -- binary.BigEndian.Uint32 on a short slice (tags/seckey.go:178)
  | nilDeref     -- any other nil pointer dereference
  deriving DecidableEq, Repr

/-- Outcome of a Go call: normal return, non-nil error, panic. `stuck` is an artefact of the model (recursion bound
hit); it is proved unreachable. -/
inductive Res (α : Type) where
  | ok (a : α)
  | err (e : GoErr)
  | panic (s : Site)
  | stuck
  deriving Repr, DecidableEq

namespace Res
def map {α β} (f : α → β) : Res α → Res β
  | ok a => ok (f a)
  | err e => err e
  | panic s => panic s
  | stuck => stuck

def isPanic {α} : Res α → Bool
  | panic _ => true
  | _ => false

def isOk {α} : Res α → Bool
  | ok _ => true
  | _ => false

def isErr {α} : Res α → Bool
  | err _ => true
  | _ => false
end Res

end Gpgpdump
