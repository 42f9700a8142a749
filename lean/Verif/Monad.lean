import Verif.Values

/-!
# The parsing monad

A Go parse method works on a shared context, its own reader and an item under construction. `P α` threads these three pieces
of state; they survive errors (Go mutations are not undone by returning an error).
-/

namespace Gpgpdump

/-- State of a parse method: the context (possibly nil), the reader it reads from (`t.reader`), the item it adds to
(`rootInfo` / `parent`). -/
structure St where
  ctx : Option Ctx
  rd : Reader
  cur : Item

/-- A Go function body: returns a value, an error, or panics, and leaves a state. -/
def P (α : Type) := St → Res α × St

namespace P

def pure {α} (a : α) : P α := fun st => (.ok a, st)

def bind {α β} (m : P α) (f : α → P β) : P β := fun st =>
  match m st with
  | (.ok a, st') => f a st'
  | (.err e, st') => (.err e, st')
  | (.panic s, st') => (.panic s, st')
  | (.stuck, st') => (.stuck, st')

instance : Monad P where
  pure := P.pure
  bind := P.bind

/-- `return …, err` -/
def fail {α} (e : GoErr) : P α := fun st => (.err e, st)

/-- run-time panic -/
def panic {α} (s : Site) : P α := fun st => (.panic s, st)

/-- artefact: recursion bound hit -/
def stuck {α} : P α := fun st => (.stuck, st)

/-- `t.reader.ReadByte()`; the error is wrapped again by every caller -/
def readByte : P UInt8 := fun st =>
  let (r, rd) := st.rd.readByte
  (r, { st with rd := rd })

/-- `t.reader.ReadBytes(n)` -/
def readBytes (n : Int) : P Bytes := fun st =>
  let (r, rd) := st.rd.readBytes n
  (r, { st with rd := rd })

/-- `t.reader.Read2EOF()` -/
def read2EOF : P Bytes := fun st =>
  let (r, rd) := st.rd.read2EOF
  (r, { st with rd := rd })

/-- `t.reader.Seek(offset, whence)` -/
def seek (offset whence : Int) : P Int := fun st =>
  let (r, rd) := st.rd.seek offset whence
  (r, { st with rd := rd })

/-- look at the reader (`Rest()`, `Len()`, `GetBody()`, dumps) -/
def reader : P Reader := fun st => (.ok st.rd, st)

/-- `t.cxt.Debug()` and the other nil-safe getters -/
def flag (f : Ctx → Bool) : P Bool := fun st => (.ok (ctxFlag f st.ctx), st)

/-- read a field of the context; panics on a nil context -/
def getCtx {α} (f : Ctx → α) : P α := fun st =>
  match st.ctx with
  | none => (.panic .nilCtx, st)
  | some c => (.ok (f c), st)

/-- `t.cxt.AlgMode()` (IsSymEnc, IsPubEnc) -/
def getMode : P Mode := getCtx (·.mode)
/-- `t.cxt.SigCreationTime` -/
def getSigTime : P (Option DateTime) := getCtx (·.sigTime)
/-- `t.cxt.KeyCreationTime` -/
def getKeyTime : P (Option DateTime) := getCtx (·.keyTime)

/-- `t.cxt.SetAlgPubEnc()`, `SetAlgSymEnc()`, `ResetAlg()` -/
def setMode (m : Mode) : P Unit := fun st =>
  match st.ctx with
  | none => (.panic .nilCtx, st)
  | some c => (.ok (), { st with ctx := some { c with mode := m } })

/-- `t.cxt.SigCreationTime = …` -/
def setSigTime (t : Option DateTime) : P Unit := fun st =>
  match st.ctx with
  | none => (.panic .nilCtx, st)
  | some c => (.ok (), { st with ctx := some { c with sigTime := t } })

/-- `t.cxt.KeyCreationTime = …` -/
def setKeyTime (t : Option DateTime) : P Unit := fun st =>
  match st.ctx with
  | none => (.panic .nilCtx, st)
  | some c => (.ok (), { st with ctx := some { c with keyTime := t } })

/-- `rootInfo.Add(i)` -/
def add (i : Item) : P Unit := fun st => (.ok (), { st with cur := st.cur.add i })

/-- the item built so far -/
def getCur : P Item := fun st => (.ok st.cur, st)

/-- `rootInfo.Value = v` -/
def setValue (v : Str) : P Unit := fun st => (.ok (), { st with cur := st.cur.setValue v })
/-- `rootInfo.Note = v` -/
def setNote (v : Str) : P Unit := fun st => (.ok (), { st with cur := st.cur.setNote v })
/-- `rootInfo.Dump = v` -/
def setDump (v : Str) : P Unit := fun st => (.ok (), { st with cur := st.cur.setDump v })

/-- `child := …; rootInfo.Add(child)` followed by code that fills `child` through its pointer: the child is attached with
whatever was added to it, also when the filling code returns an error. -/
def nested {α} (child : Item) (m : P α) : P α := fun st =>
  let (r, st') := m { st with cur := child }
  (r, { st' with cur := st.cur.add st'.cur })

/-- A parse method of its own: fresh reader over `body`, header item `hdr`; the caller's reader and item are untouched. -/
def scope {α} (body : Bytes) (hdr : Item) (m : P α) : P α := fun st =>
  let (r, st') := m { st with rd := Reader.new body, cur := hdr }
  (r, { st' with rd := st.rd, cur := st.cur })

/-- Build an item separately and return it (`itm := …; fill(itm)`): same reader. -/
def build (hdr : Item) (m : P Unit) : P Item := fun st =>
  let (r, st') := m { st with cur := hdr }
  (r.map (fun _ => st'.cur), { st' with cur := st.cur })

/-- Run `m` on another reader, keeping the current one; returns the other reader's final state. -/
def onReader {α} (r : Reader) (m : P α) : P (α × Reader) := fun st =>
  let (res, st') := m { st with rd := r }
  (res.map (fun a => (a, st'.rd)), { st' with rd := st.rd })

/-- `_, err := m(); if err != nil { … }` with the error itself discarded: true when `m` failed. -/
def failed {α} (m : P α) : P Bool := fun st =>
  match m st with
  | (.ok _, st') => (.ok false, st')
  | (.err _, st') => (.ok true, st')
  | (.panic s, st') => (.panic s, st')
  | (.stuck, st') => (.stuck, st')

/-- `rootInfo.Add(i)` where `i` may be nil -/
def addOpt : Option Item → P Unit
  | none => pure ()
  | some i => add i

/-- `for _, x := range xs { … }` -/
def forEach {α} (xs : List α) (f : α → P Unit) : P Unit :=
  match xs with
  | [] => pure ()
  | x :: xs => bind (f x) fun _ => forEach xs f

end P

export P (readByte readBytes read2EOF seek reader flag getMode getSigTime getKeyTime setMode setSigTime setKeyTime add getCur
  setValue setNote setDump nested scope build onReader failed addOpt forEach)

/-- `t.reader.Rest()` -/
def rest : P Int := do return (← reader).rest

/-- `t.reader.GetBody()` -/
def getBody : P Bytes := do return (← reader).buf

/-- `rootInfo.Add(values.RawData(t.reader, name, f))` -/
def addRaw (name : Str) (f : Bool) : P Unit := do
  let r ← reader
  add (rawData r name f)

/-- `if t.reader.Rest() > 0 { rootInfo.Add(values.RawData(t.reader, "Unknown data", t.cxt.Debug())) }` -/
def unknownData : P Unit := do
  if (← rest) > 0 then addRaw (S "Unknown data") (← flag Ctx.debug) else pure ()

/-- values/mpi.go:19-31 `NewMPI`: bit length and data -/
def newMPI : P (Nat × Bytes) := do
  let l ← readBytes 2
  let bits := beNat l
  let data ← readBytes ((bits + 7) / 8 : Nat)
  return (bits, data)

/-- values/ecc.go:28-41 `NewOID` -/
def newOID : P Bytes := do
  let l ← readByte
  if l = 0 then return [] else readBytes l.toNat

/-- values/ecc.go:66-79 `NewECParm`: a missing length octet is not an error (line 69) -/
def newECParm : P Bytes := do
  if (← rest) ≤ 0 then return []
  else
    let l ← readByte
    if l = 0 then return [] else readBytes l.toNat

/-- values/datetime.go:19-25 `NewDateTime` -/
def newDateTime (utc : Bool) : P DateTime := do
  let tm ← readBytes 4
  return ⟨tm, utc⟩

end Gpgpdump
