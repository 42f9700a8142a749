import Verif.ReaderApi
import Verif.Values

/-!
# The functions of the package `values` that take pointers

`Values.lean` models what the parsers call, where no pointer is nil and every value was made by its constructor. Here the pointers
may be nil and the values zero (`&DateTime{}`), as a caller outside may have them. The fields are not exported, so there are no other
values. Nothing is changed by these functions except the reader that a constructor reads. Not modelled: what happens if the caller
changes the octets of a slice it gave to a reader.
-/

namespace Gpgpdump
open Reader

/-- `*DateTime` -/
abbrev DatePtr := Option DateTime
/-- `&DateTime{}` -/
def DatePtr.zero : DatePtr := some ⟨[], false⟩

/-- expire.go:12-16 `Expire` -/
structure ExpireVal where
  start : DatePtr
  day : Bytes
  deriving DecidableEq, Repr
/-- `*Expire` -/
abbrev ExpirePtr := Option ExpireVal
/-- `&Expire{}` -/
def ExpirePtr.zero : ExpirePtr := some ⟨none, []⟩

/-- `*Version`; all of them can be had, by `NewVersion` -/
abbrev VersionPtr := Option Version

/-- mpi.go:12-16 `MPI` -/
structure MPIVal where
  bits : Nat
  data : Bytes
  deriving DecidableEq, Repr
/-- `*MPI` -/
abbrev MPIPtr := Option MPIVal
/-- `&MPI{}` -/
def MPIPtr.zero : MPIPtr := some ⟨0, []⟩

/-- literal.go:38-41 `Text`, as a pointer; all of them can be had, by `NewText` (lines 44-46) (a nil slice is like an empty one, line 70) -/
abbrev TextPtr := Option (Str × Bytes)

/-- dump.go:10-13 `Dumpdata`, as a pointer; all of them can be had, by `Dump` -/
abbrev DumpPtr := Option (Option Reader × Bool)

/-- What a caller gets back; `item none` is a nil item. -/
inductive VOut
  | num (n : Nat)
  | flag (b : Bool)
  | text (s : Str)
  | bytes (b : Bytes)
  | item (i : Option Item)
  | crash
  deriving DecidableEq, Repr

section
variable (X : Ext)

/-- encoding/binary `BigEndian.Uint32`: needs four octets -/
def uint32 (b : Bytes) : Option UInt32 := if b.length < 4 then none else some (UInt32.ofNat (beNat (b.take 4)))

/-- datetime.go:40-45 `UnixTime`; `none`: it panics -/
def DatePtr.unixTime : DatePtr → Option UInt32
  | none => some 0
  | some d => uint32 d.tm

/-- datetime.go:48-53 `IsZero` -/
def DatePtr.isZero : DatePtr → Option Bool
  | none => some true
  | some d => (DatePtr.unixTime (some d)).map (· == 0)

/-- datetime.go:56-61 `RFC3339` -/
def DatePtr.rfc3339 : DatePtr → Option Str
  | none => some []
  | some d => (DatePtr.unixTime (some d)).map fun t => Gpgpdump.rfc3339 X t d.utc

/-- dump.go:15-20 `Dumpdata.String` -/
def DumpPtr.string : DumpPtr → Option Str
  | none => none
  | some (_, false) => some []
  | some (none, true) => none
  | some (some r, true) =>
    match r.dumpString64 (r.size - r.rest) with
    | (.text s, _) => some s
    | _ => none

/-- dump.go:28-30 `DumpBytes(data, f).String()` -/
def dumpOf (b : Bytes) (f : Bool) : Option Str := DumpPtr.string (some (some (Reader.new b), f))

/-- datetime.go:28-37 `ToItem`; lines 84-91 call it with the names of the two times -/
def DatePtr.toItem (p : DatePtr) (name : Str) (f : Bool) : VOut :=
  match p with
  | none => .item none
  | some d =>
    match DatePtr.rfc3339 X (some d), dumpOf d.tm f with
    | some s, some t => .item (some (newItem name s [] t))
    | _, _ => .crash

/-- datetime.go:71-81 `FileTimeItem`: line 77 is reached with a nil pointer -/
def DatePtr.fileTimeItem (p : DatePtr) (f : Bool) : VOut :=
  match p.isZero with
  | none => .crash
  | some true =>
    match p with
    | none => .crash
    | some d =>
      match dumpOf d.tm f with
      | some t => .item (some (newItem (S "Creation time") (S "null") [] t))
      | none => .crash
  | some false => p.toItem X (S "Creation time") f

/-- expire.go:28-44 `ToItem`; lines 47-54 call it with the names of the two durations -/
def ExpirePtr.toItem (e : ExpirePtr) (name : Str) (f : Bool) : VOut :=
  match e with
  | none => .item none
  | some e =>
    match uint32 e.day, e.start.unixTime, dumpOf e.day f with
    | some exp, some start, some t =>
      if start > 0 then
        match e.start with
        | some d => .item (some (newItem name (X.days exp ++ S " days after") (Gpgpdump.rfc3339 X (start + exp) d.utc) t))
        | none => .crash
      else .item (some (newItem name (X.days exp ++ S " days after") [] t))
    | _, _, _ => .crash

/-- version.go:30-59 `IsOld`, `IsCurrent`, `IsDraft`, `IsUnknown` -/
def VersionPtr.isOld (p : VersionPtr) : Bool := p.any Version.isOld
def VersionPtr.isCurrent (p : VersionPtr) : Bool := p.any Version.isCurrent
def VersionPtr.isDraft (p : VersionPtr) : Bool := p.any Version.isDraft
def VersionPtr.isUnknown (p : VersionPtr) : Bool := !p.isOld && !p.isCurrent && !p.isDraft

/-- A call. (A `TagID` is an int; those of packets, and here all, are not negative.) -/
inductive VCall
  | unixTime (p : DatePtr) | isZero (p : DatePtr) | rfc3339 (p : DatePtr)
  | dateItem (p : DatePtr) (name : Str) (f : Bool)
  | fileTimeItem (p : DatePtr) (f : Bool) | pubKeyTimeItem (p : DatePtr) (f : Bool) | sigTimeItem (p : DatePtr) (f : Bool)
  | expireItem (p : ExpirePtr) (name : Str) (f : Bool) | sigExpireItem (p : ExpirePtr) (f : Bool) | keyExpireItem (p : ExpirePtr) (f : Bool)
  | number (p : VersionPtr) | isOld (p : VersionPtr) | isCurrent (p : VersionPtr) | isDraft (p : VersionPtr) | isUnknown (p : VersionPtr)
  | versionItem (p : VersionPtr) (f : Bool) | versionString (p : VersionPtr)
  | rawdata (p : MPIPtr) | mpiItem (p : MPIPtr) (name : Str) (f : Bool)
  | textItem (p : TextPtr) (f : Bool)
  | dumpString (p : DumpPtr)
  | rawDataItem (r : Option Reader) (name : Str) (f : Bool)
  | tagItem (t : Nat) (r : Option Reader) (f : Bool) | subItem (t : UInt8) (r : Option Reader) (f : Bool)
  | newKeyID (octets : Bytes)

/-- tagid.go:40-46, subpacketid.go:56-62 `ToItem` with the name -/
def lenItem (name : Str) (r : Option Reader) (f : Bool) : VOut :=
  match r with
  | none => .crash
  | some r =>
    match DumpPtr.string (some (some r, f)) with
    | some t => .item (some (newItem name [] (nBytes r.size) t))
    | none => .crash

/-- One call. `number`, `versionItem`, `versionString`: version.go:17-27, 62-87; `rawdata`, `mpiItem`: mpi.go:34-54; `textItem`:
literal.go:64-97; `rawDataItem`: literal.go:100-107; `newKeyID`: keyid.go:14-16 (`BigEndian.Uint64` needs eight octets). -/
def VCall.run : VCall → VOut
  | .unixTime p => match p.unixTime with | some t => .num t.toNat | none => .crash
  | .isZero p => match p.isZero with | some b => .flag b | none => .crash
  | .rfc3339 p => match p.rfc3339 X with | some s => .text s | none => .crash
  | .dateItem p name f => p.toItem X name f
  | .fileTimeItem p f => p.fileTimeItem X f
  | .pubKeyTimeItem p f => p.toItem X (S "Public key creation time") f
  | .sigTimeItem p f => p.toItem X (S "Signature creation time") f
  | .expireItem p name f => p.toItem X name f
  | .sigExpireItem p f => p.toItem X (S "Signature Expiration Time") f
  | .keyExpireItem p f => p.toItem X (S "Key Expiration Time") f
  | .number p => .num (match p with | none => 0 | some v => v.ver.toNat)
  | .isOld p => .flag p.isOld
  | .isCurrent p => .flag p.isCurrent
  | .isDraft p => .flag p.isDraft
  | .isUnknown p => .flag p.isUnknown
  | .versionItem p f => .item (p.map fun v => v.item f)
  | .versionString p => match p with | none => .crash | some v => .text (dec v.ver.toNat)
  | .rawdata p => .bytes (match p with | none => [] | some m => m.data)
  | .mpiItem p name f =>
    match p with
    | none => .item none
    | some m =>
      match dumpOf m.data f with
      | some t => .item (some (newItem (if name.isEmpty then S "Multi-precision integer" else name) [] (dec m.bits ++ S " bits") t))
      | none => .crash
  | .textItem p f =>
    match p with
    | none => .item (some (newItem [] [] (S "null")))
    | some (name, body) => .item (some (Gpgpdump.textItem name body f))
  | .dumpString p => match p.string with | some s => .text s | none => .crash
  | .rawDataItem r name f =>
    match r with
    | none => .crash
    | some r =>
      match DumpPtr.string (some (some r, f)) with
      | some t => .item (some (newItem name [] (iBytes r.rest) t))
      | none => .crash
  | .tagItem t r f => lenItem (tagStr t) r f
  | .subItem t r f => lenItem (subStr t) r f
  | .newKeyID b => if b.length < 8 then .crash else .num (beNat (b.take 8))

/-- What a constructor returns: the value, an error, or it panics; and the reader afterwards. -/
inductive Made (α : Type) | val (a : α) | fail (e : GoErr) | crash

/-- datetime.go:19-25 `NewDateTime`, expire.go:19-25 `NewExpire`: four octets -/
def fourOctets (r : Option Reader) : Made Bytes × Option Reader :=
  match r with
  | none => (.crash, none)
  | some r =>
    match r.readBytes64 4 with
    | (.ok b, r') => (.val b, some r')
    | (.err e, r') => (.fail e.wrap, some r')
    | (_, r') => (.crash, some r')
def DatePtr.new (r : Option Reader) (utc : Bool) : Made DatePtr × Option Reader :=
  match fourOctets r with
  | (.val b, r') => (.val (some ⟨b, utc⟩), r')
  | (.fail e, r') => (.fail e, r')
  | (.crash, r') => (.crash, r')
def ExpirePtr.new (r : Option Reader) (start : DatePtr) : Made ExpirePtr × Option Reader :=
  match fourOctets r with
  | (.val b, r') => (.val (some ⟨start, b⟩), r')
  | (.fail e, r') => (.fail e, r')
  | (.crash, r') => (.crash, r')

/-- mpi.go:19-31 `NewMPI` -/
def MPIPtr.new (r : Option Reader) : Made MPIPtr × Option Reader :=
  match r with
  | none => (.crash, none)
  | some r =>
    match r.readBytes64 2 with
    | (.ok l, r1) =>
      match r1.readBytes64 (((beNat l : Int) + 7) / 8) with
      | (.ok b, r2) => (.val (some ⟨beNat l, b⟩), some r2)
      | (.err e, r2) => (.fail e.wrap, some r2)
      | (_, r2) => (.crash, some r2)
    | (.err e, r1) => (.fail e.wrap, some r1)
    | (_, r1) => (.crash, some r1)

/-- literal.go:49-62 `NewLiteralFname`: a nil reader and a length below one give an empty name -/
def TextPtr.newFname (r : Option Reader) (l : Int) : Made TextPtr × Option Reader :=
  match r with
  | none => (.val (some (S "File name", [])), none)
  | some r =>
    if l < 1 then (.val (some (S "File name", [])), some r)
    else match r.readBytes64 l with
      | (.ok b, r') => (.val (some (S "File name", b)), some r')
      | (.err e, r') => (.fail e.wrap, some r')
      | (_, r') => (.crash, some r')

end

/-! ## The values there are -/

/-- a reader that fits into memory, or nil -/
def Fits (r : Option Reader) : Prop := ∀ x, r = some x → x.size < 2 ^ 62

/-- a `*DateTime` that a caller can have -/
inductive DatePtr.Reached : DatePtr → Prop
  | nil : Reached none
  | zero : Reached DatePtr.zero
  | new {r utc p r'} (hr : Fits r) (h : DatePtr.new r utc = (.val p, r')) : Reached p

/-- a `*Expire` that a caller can have -/
inductive ExpirePtr.Reached : ExpirePtr → Prop
  | nil : Reached none
  | zero : Reached ExpirePtr.zero
  | new {r start p r'} (hs : start.Reached) (hr : Fits r) (h : ExpirePtr.new r start = (.val p, r')) : Reached p

/-- a `*MPI` that a caller can have -/
inductive MPIPtr.Reached : MPIPtr → Prop
  | nil : Reached none
  | zero : Reached MPIPtr.zero
  | new {r p r'} (hr : Fits r) (h : MPIPtr.new r = (.val p, r')) : Reached p

end Gpgpdump
