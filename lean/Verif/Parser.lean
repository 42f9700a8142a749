import Verif.Tags
import Verif.Armtext

/-!
# `parse/parser.go`, `parse/parse.go`
-/

namespace Gpgpdump

section
variable (X : Ext)

/-- parser.go:59-69 `newReaderArmor`; also returns the octets taken from the source -/
def newReaderArmor (src : Src) : Except GoErr Src × Bytes :=
  match armtextGet src with
  | (.error e, c) => (.error e.wrap, c)
  | (.ok buf, c) =>
    match X.armor buf with
    | .error e => (.error e.wrap, c)
    | .ok body => (.ok (Src.ofStream body), c)

/-- parser.go:24-44 `New(cxt, reader)` (`none`: nil reader): the source the packets are read from. Without the ARMOR option
any error of the armor path is dropped and the octets read so far (teed into a buffer) are used (lines 34-38). -/
def parserNew (ctx : Option Ctx) (reader : Option Src) : Except GoErr Src :=
  match reader with
  | none => .error (wrapErr .nullPointer)
  | some src =>
    match newReaderArmor X src with
    | (.ok body, _) => .ok body
    | (.error e, consumed) =>
      if ctxFlag Ctx.armor ctx then .error e
      else .ok (Src.ofBytes consumed)

/-- What a call of `Parse` leaves behind: result packets, outcome, context. -/
structure Outcome where
  packets : List Item
  res : Res Unit
  ctx : Option Ctx

/-- parse.go:11-28 `(*Parser).Parse` on the source of the packets -/
def parseSrc (ctx : Option Ctx) (src : Src) : Outcome :=
  match forPackets X (packetsParse X) (src.data.length + 1) src ⟨ctx, Reader.new [], newItem []⟩ with
  | (r, st) => ⟨st.cur.items, r, st.ctx⟩

/-- `parse.New(cxt, reader)` followed by `Parse()` -/
def parse (ctx : Option Ctx) (reader : Option Src) : Outcome :=
  match parserNew X ctx reader with
  | .error e => ⟨[], .err e, ctx⟩
  | .ok src => parseSrc X ctx src

/-- parser.go:47-49 `NewBytes` followed by `Parse()` -/
def parseBytes (ctx : Option Ctx) (data : Bytes) : Outcome := parse X ctx (some (Src.ofBytes data))

end

end Gpgpdump
