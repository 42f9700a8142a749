import Verif.ThmContext

/-!
# The complete method set of `context.Context`

A variable of type `*Context` is nil, points to a zero value (`&Context{}`, whose option map is nil), or was made by `New`.
The methods of the embedded `SymAlgMode` dereference the pointer. A call that panics changes nothing (a caller may recover).
-/

namespace Gpgpdump

/-- A `*Context`: `none` is nil; otherwise the option map (`none`: a nil map) and the mode. -/
abbrev CVar := Option (Option (OptCode → Bool) × Mode)

/-- `&Context{}` -/
def CVar.zero : CVar := some (none, .notSpecified)

/-- context.go:22-28 `New()` -/
def CVar.new : CVar := some (some fun _ => false, .notSpecified)

/-- A method call. The functional options `Set`, `SetByString` given to `New` are these calls as well (context.go:25-38). -/
inductive CCall
  | set (code : OptCode) (f : Bool)
  | setByString (name : Str) (f : Bool)
  | get (code : OptCode)
  | armor | cert | debug | gdump | integer | literal | marker | priv | utc
  | string
  | resetAlg | setAlgSymEnc | setAlgPubEnc
  | algMode | isSymEnc | isPubEnc | modeString

/-- What a caller gets back. -/
inductive COut
  | done
  | flag (b : Bool)
  | text (s : Str)
  | mode (m : Mode)
  | crash
  deriving DecidableEq, Repr

namespace CVar

/-- context.go:41-48 `Set`: writing to a nil map panics -/
def set (c : CVar) (code : OptCode) (f : Bool) : COut × CVar :=
  match c with
  | none => (.done, none)
  | some (opts, m) =>
    if code > 0 then
      match opts with
      | none => (.crash, some (none, m))
      | some o => (.done, some (some fun k => if k = code then f else o k, m))
    else (.done, some (opts, m))

/-- context.go:51-59 `Get` -/
def get (c : CVar) (code : OptCode) : Bool :=
  match c with
  | some (some o, _) => o code
  | _ => false

/-- context.go:65-83 the getters that DEBUG turns on -/
def orDebug (c : CVar) (code : OptCode) : Bool := c.get code || c.get DEBUG

/-- context.go:89-116 `String` -/
def string (c : CVar) : Str :=
  let flag (cd : OptCode) : Bool :=
    if cd = ARMOR then c.get ARMOR
    else if cd = CERT then c.orDebug CERT
    else if cd = DEBUG then c.get DEBUG
    else if cd = GDUMP then c.orDebug GDUMP
    else if cd = INTEGER then c.orDebug INTEGER
    else if cd = LITERAL then c.orDebug LITERAL
    else if cd = MARKER then c.orDebug MARKER
    else if cd = PRIVATE then c.orDebug PRIVATE
    else if cd = UTC then c.get UTC
    else false
  let strs := (List.range optcodeMap.length).map fun i =>
    optName (i + 1 : Nat) ++ ':' :: (if flag (i + 1 : Nat) then S "true" else S "false")
  List.intercalate [','] strs

/-- symalgmode.go:44-56: methods with a pointer receiver -/
def setMode (c : CVar) (m : Mode) : COut × CVar :=
  match c with
  | none => (.crash, none)
  | some (o, _) => (.done, some (o, m))

/-- symalgmode.go:15-41: methods with a value receiver -/
def withMode (c : CVar) (f : Mode → COut) : COut :=
  match c with
  | none => .crash
  | some (_, m) => f m

end CVar

/-- symalgmode.go:15-26 -/
def Mode.string : Mode → Str
  | .notSpecified => S "Mode not Specified"
  | .symEnc => S "Sym. Encryption Mode"
  | .pubEnc => S "Pubkey Encryption Mode"

/-- One call. -/
def CCall.run : CCall → CVar → COut × CVar
  | .set code f, c => c.set code f
  | .setByString n f, c => c.set (getOptCode n) f
  | .get code, c => (.flag (c.get code), c)
  | .armor, c => (.flag (c.get ARMOR), c)
  | .cert, c => (.flag (c.orDebug CERT), c)
  | .debug, c => (.flag (c.get DEBUG), c)
  | .gdump, c => (.flag (c.orDebug GDUMP), c)
  | .integer, c => (.flag (c.orDebug INTEGER), c)
  | .literal, c => (.flag (c.orDebug LITERAL), c)
  | .marker, c => (.flag (c.orDebug MARKER), c)
  | .priv, c => (.flag (c.orDebug PRIVATE), c)
  | .utc, c => (.flag (c.get UTC), c)
  | .string, c => (.text c.string, c)
  | .resetAlg, c => c.setMode .notSpecified
  | .setAlgSymEnc, c => c.setMode .symEnc
  | .setAlgPubEnc, c => c.setMode .pubEnc
  | .algMode, c => (c.withMode .mode, c)
  | .isSymEnc, c => (c.withMode fun m => .flag (decide (m = .symEnc)), c)
  | .isPubEnc, c => (c.withMode fun m => .flag (decide (m = .pubEnc)), c)
  | .modeString, c => (c.withMode fun m => .text m.string, c)

/-- The variable after a sequence of calls. -/
def CCall.after (cs : List CCall) (c : CVar) : CVar := cs.foldl (fun c call => (call.run c).2) c

end Gpgpdump
