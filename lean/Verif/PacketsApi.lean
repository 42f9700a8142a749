import Verif.ParserApi

/-!
# `parse/tags/packets.go`: a `Packets` and every call of `Next` and `Parse` on it

`parse.Parser` calls `Next` before every `Parse`. Other callers need not: a `Packets` keeps the packet last delivered by `Next`
with the reader over its contents, and `Parse` goes on with that reader.
-/

namespace Gpgpdump

section
variable (X : Ext)

/-- tags.go:12-16 `tagInfo` of the current packet: tag and reader over the contents. `Tag08.data` is left out: it is assigned in
the same call in which it is used, or still the empty reader of `newTag08`. -/
structure TagObj where
  tag : Nat
  rd : Reader

/-- the reader of one call of `Parse`: tag07.go:23 and tag14.go:23 make a new packet over the whole contents every time -/
def TagObj.start (o : TagObj) : Reader := if o.tag = 7 ∨ o.tag = 14 then Reader.new o.rd.buf else o.rd

/-- tags.go:19-21 `ToItem`: the size of the contents, and a dump of what is not yet read (tagid.go:40-46) -/
def TagObj.header (o : TagObj) (c : Option Ctx) : Item :=
  newItem (tagStr o.tag) [] (nBytes o.start.size) (dumpRest o.start (ctxFlag (tagDumpFlag o.tag) c))

/-- `tag.Parse()` after the header item: the item and, for `Tag08`, what `Reader()` returns afterwards -/
def TagObj.body (o : TagObj) : P (Item × Option Bytes) :=
  if o.tag = 8 then do
    let data ← tag08 X
    return (← getCur, data)
  else do
    tagBody X (parseTagF X o.start.remaining.length) o.tag
    return (← getCur, none)

/-- `tag.Parse()`: outcome, context and packet afterwards -/
def TagObj.parse (o : TagObj) (c : Option Ctx) : Res (Item × Option Bytes) × Option Ctx × TagObj :=
  match o.body X ⟨c, o.start, o.header c⟩ with
  | (r, st) => (r, st.ctx, if o.tag = 7 ∨ o.tag = 14 then o else { o with rd := st.rd })

/-- what a call of `Packets.Parse` does: it returns an item (or nil) and an error (or nil), or it panics -/
inductive Returned
  | ret (item : Option Item) (err : Option GoErr)
  | panic (s : Site)
  | stuck

/-- packets.go:14-19 `type Packets struct` -/
structure PacketsObj where
  src : Src
  ctx : Option Ctx
  tag : Option TagObj

/-- packets.go:21-26 `NewPackets(cxt, reader)` (`none`: nil reader) -/
def PacketsObj.new (c : Option Ctx) : Option Src → Except GoErr PacketsObj
  | none => .error (wrapErr .nullPointer)
  | some s => .ok ⟨s, c, none⟩

/-- packets.go:28-38 `Next`: the error, if any. A failing call leaves the current packet in place. -/
def PacketsObj.next (p : PacketsObj) : Option GoErr × PacketsObj :=
  match opaqueNext X p.src with
  | (.error e, s) => (some e.wrap, { p with src := s })
  | (.ok (tag, body), s) => (none, { p with src := s, tag := some ⟨tag, Reader.new body⟩ })

/-- packets.go:52-80: `Parse` with a current packet. An error inside a compressed packet is returned together with the item
(lines 60, 67, 73). -/
def PacketsObj.show (p : PacketsObj) (o : TagObj) : Returned × PacketsObj :=
  match o.parse X p.ctx with
  | (.ok (i, data), c, o') =>
    match data with
    | none => (.ret (some i) none, { p with ctx := c, tag := some o' })
    | some z =>
      match packetLoop X (parseTag X) (Src.ofBytes z) ⟨c, o'.rd, i⟩ with
      | (.ok _, st) => (.ret (some st.cur) none, { p with ctx := st.ctx, tag := some o' })
      | (.err e, st) => (.ret (some st.cur) (some e.wrap), { p with ctx := st.ctx, tag := some o' })
      | (.panic s, st) => (.panic s, { p with ctx := st.ctx, tag := some o' })
      | (.stuck, st) => (.stuck, { p with ctx := st.ctx, tag := some o' })
  | (.err e, c, o') => (.ret none (some e.wrap), { p with ctx := c, tag := some o' })
  | (.panic s, c, o') => (.panic s, { p with ctx := c, tag := some o' })
  | (.stuck, c, o') => (.stuck, { p with ctx := c, tag := some o' })

/-- packets.go:40-80 `Parse`: without a current packet it calls `Next` first, and the end of the input is no error -/
def PacketsObj.parse (p : PacketsObj) : Returned × PacketsObj :=
  match p.tag with
  | some o => p.show X o
  | none =>
    match p.next X with
    | (some e, p') => (.ret none (if e.isEOF then none else some e.wrap), p')
    | (none, p') =>
      match p'.tag with
      | some o => p'.show X o
      | none => (.panic .nilDeref, p')  -- not reached: `Next` has set the packet

/-- a call of one of the two methods -/
inductive PacketsCall
  | next
  | parse

/-- what the caller sees -/
inductive PacketsAnswer
  | next (err : Option GoErr)
  | parse (r : Returned)

def PacketsObj.call (p : PacketsObj) : PacketsCall → PacketsAnswer × PacketsObj
  | .next => (.next (p.next X).1, (p.next X).2)
  | .parse => (.parse (p.parse X).1, (p.parse X).2)

/-- the answers to a sequence of calls, and the context at the end -/
def PacketsObj.calls : List PacketsCall → PacketsObj → List PacketsAnswer × Option Ctx
  | [], p => ([], p.ctx)
  | k :: ks, p => ((p.call X k).1 :: (PacketsObj.calls ks (p.call X k).2).1, (PacketsObj.calls ks (p.call X k).2).2)

/-- the loop `for { if err := p.Next(); err != nil { … }; item, err := p.Parse(); … }` of a caller (as in parse.go:15-27): items,
outcome, context. `fuel` bounds the number of packets. -/
def PacketsObj.drain : Nat → PacketsObj → List Item × Res Unit × Option Ctx
  | 0, p => ([], .stuck, p.ctx)
  | f + 1, p =>
    match p.next X with
    | (some e, p') => ([], if e.isEOF then .ok () else .err e, p'.ctx)
    | (none, p') =>
      match p'.parse X with
      | (.ret (some i) none, p2) => (i :: (PacketsObj.drain f p2).1, (PacketsObj.drain f p2).2)
      | (.ret none none, p2) => PacketsObj.drain f p2  -- parse.go:25: `info.Add(nil)`
      | (.ret _ (some e), p2) => ([], .err e.wrap, p2.ctx)
      | (.panic s, p2) => ([], .panic s, p2.ctx)
      | (.stuck, p2) => ([], .stuck, p2.ctx)

end

end Gpgpdump
