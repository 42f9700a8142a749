import Verif.Basic

/-!
# `parse/context`: options, session-key mode and remembered creation times
-/

namespace Gpgpdump

/-- symalgmode.go:6-13 -/
inductive Mode
  | notSpecified
  | symEnc
  | pubEnc
  deriving DecidableEq, Repr

/-- values/datetime.go:13-16: raw octets and UTC flag; the octets are always the 4 read by `NewDateTime`
(datetime.go:19-25), represented by the value they encode together with the octets themselves. -/
structure DateTime where
  tm : Bytes
  utc : Bool
  deriving DecidableEq, Repr

/-- datetime.go:40-45 `UnixTime` -/
def DateTime.unix (d : DateTime) : UInt32 := UInt32.ofNat (beNat d.tm)

/-- options.go:10-21; option codes are Go `int`s. -/
abbrev OptCode := Int

def ARMOR : OptCode := 1
def CERT : OptCode := 2
def DEBUG : OptCode := 3
def GDUMP : OptCode := 4
def INTEGER : OptCode := 5
def LITERAL : OptCode := 6
def MARKER : OptCode := 7
def PRIVATE : OptCode := 8
def UTC : OptCode := 9

/-- options.go:23-33 `optcodeMap`. Go iterates over the map in unspecified order; see `getOptCodeWith`. -/
def optcodeMap : List (OptCode × Str) :=
  [(ARMOR, S "armor"), (CERT, S "cert"), (DEBUG, S "debug"), (GDUMP, S "gdump"), (INTEGER, S "int"),
   (LITERAL, S "literal"), (MARKER, S "marker"), (PRIVATE, S "private"), (UTC, S "utc")]

/-- `strings.ToLower` restricted to ASCII letters, plus the one non-ASCII rune whose lower-case mapping is an ASCII letter
(U+212A KELVIN SIGN → `k`; U+0130 maps to U+0069 `i`). Other runes map to non-ASCII runes and cannot occur in an option
name; they are left alone (simplification without effect on comparisons with ASCII names). -/
def toLower (c : Char) : Char :=
  if 'A' ≤ c ∧ c ≤ 'Z' then Char.ofNat (c.toNat + 32)
  else if c.toNat = 0x212A then 'k'
  else if c.toNat = 0x0130 then 'i'
  else c

/-- options.go:36-43 `GetOptCode`, with the iteration order of the map given explicitly. -/
def getOptCodeWith (order : List (OptCode × Str)) (s : Str) : OptCode :=
  match order.find? (fun kv => s.map toLower == kv.2) with
  | some kv => kv.1
  | none => 0

/-- options.go:36-43 `GetOptCode` -/
def getOptCode (s : Str) : OptCode := getOptCodeWith optcodeMap s

/-- options.go:45-50 `OptCode.String` -/
def optName (c : OptCode) : Str :=
  match optcodeMap.find? (fun kv => kv.1 == c) with
  | some kv => kv.2
  | none => S "unknown"

/-- context.go:11-16 `type Context struct`. The option map is a total function (missing keys read as false,
context.go:55-58). -/
structure Ctx where
  opts : OptCode → Bool
  mode : Mode
  sigTime : Option DateTime
  keyTime : Option DateTime

namespace Ctx

/-- context.go:22-28 `New()` without options -/
def empty : Ctx := ⟨fun _ => false, .notSpecified, none, none⟩

/-- context.go:41-48 `Set` -/
def set (c : Ctx) (code : OptCode) (f : Bool) : Ctx :=
  if code > 0 then { c with opts := fun k => if k = code then f else c.opts k } else c

/-- context.go:22-33 `New(Set(k1,f1), Set(k2,f2), …)` -/
def new (sets : List (OptCode × Bool)) : Ctx := sets.foldl (fun c p => c.set p.1 p.2) empty

/-- context.go:35-38 `New(SetByString(n1,f1), …)` -/
def newByString (sets : List (Str × Bool)) : Ctx :=
  sets.foldl (fun c p => c.set (getOptCode p.1) p.2) empty

/-- context.go:51-59 `Get` -/
def get (c : Ctx) (code : OptCode) : Bool := c.opts code

/-- context.go:62 -/
def armor (c : Ctx) : Bool := c.get ARMOR
/-- context.go:65 -/
def cert (c : Ctx) : Bool := c.get CERT || c.get DEBUG
/-- context.go:68 -/
def debug (c : Ctx) : Bool := c.get DEBUG
/-- context.go:71 -/
def gdump (c : Ctx) : Bool := c.get GDUMP || c.get DEBUG
/-- context.go:74 -/
def integer (c : Ctx) : Bool := c.get INTEGER || c.get DEBUG
/-- context.go:77 -/
def literal (c : Ctx) : Bool := c.get LITERAL || c.get DEBUG
/-- context.go:80 -/
def marker (c : Ctx) : Bool := c.get MARKER || c.get DEBUG
/-- context.go:83 -/
def priv (c : Ctx) : Bool := c.get PRIVATE || c.get DEBUG
/-- context.go:86 -/
def utc (c : Ctx) : Bool := c.get UTC

end Ctx

/-- A getter on a possibly nil `*Context` (context.go:52-54: nil reads as false). -/
def ctxFlag (f : Ctx → Bool) : Option Ctx → Bool
  | none => false
  | some c => f c

end Gpgpdump
