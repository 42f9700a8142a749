import Verif.Parser

/-!
# `parse/parse.go`: a `Parser` and every call of `Parse` on it

`parseSrc` is the first call. A `Parser` keeps the source, the context and the result from one call to the next; here they are
explicit.
-/

namespace Gpgpdump

section
variable (X : Ext)

/-- x/crypto packet.consumeAll: reads up to 1024 octets until there is an error. `fuel` bounds the number of reads. -/
def consumeAll : Nat → Body → Src → Src
  | 0, _, s => s
  | f + 1, c, s =>
    match c.read s 1024 with
    | (_, some _, _, s') => s'
    | (_, none, c', s') => consumeAll f c' s'

/-- x/crypto packet.OpaqueReader.Next, with what is left of the source after an error: `consumeAll(contents)` is called if the
contents could not be read. -/
def opaqueNext (s : Src) : Except GoErr (Nat × Bytes) × Src :=
  match readHeader s with
  | (.error e, s1) => (.error e, s1)
  | (.ok (tag, c), s1) =>
    match readAllLoop X (s1.data.length + 2) c s1 0 512 with
    | (b, none, _, s2) => (.ok (tag, b), s2)
    | (_, some e, c', s2) => (.error e, consumeAll (s2.data.length + 1) c' s2)

/-- parser.go:18-21 `type Parser struct` with the source and the context inside `pct` (packets.go:14-19); `pct.tag` is set
by `Next` before it is used. -/
structure ParserObj where
  src : Src
  ctx : Option Ctx
  info : List Item

/-- the loop of parse.go:15-27 -/
def ParserObj.loop : Nat → ParserObj → Res Unit × ParserObj
  | 0, p => (.stuck, p)
  | f + 1, p =>
    match opaqueNext X p.src with
    | (.error e, s') => (if e.isEOF then .ok () else .err e.wrap, { p with src := s' })
    | (.ok (tag, body), s') =>
      match packetsParse X tag body ⟨p.ctx, Reader.new [], newItem []⟩ with
      | (.ok i, st) => ParserObj.loop f ⟨s', st.ctx, p.info ++ [i]⟩
      | (.err e, st) => (.err e, ⟨s', st.ctx, p.info⟩)
      | (.panic x, st) => (.panic x, ⟨s', st.ctx, p.info⟩)
      | (.stuck, st) => (.stuck, ⟨s', st.ctx, p.info⟩)

/-- parse.go:11-28 `(*Parser).Parse`: the outcome and the parser afterwards. The returned `*result.Info` is that of the parser.
A panic that is recovered leaves the parser as it is then. -/
def ParserObj.call (p : ParserObj) : Res Unit × ParserObj := p.loop X (p.src.data.length + 1)

/-- the outcomes and results of the first `n` calls -/
def ParserObj.calls : Nat → ParserObj → List (Res Unit × List Item)
  | 0, _ => []
  | n + 1, p => ((p.call X).1, (p.call X).2.info) :: (p.call X).2.calls n

end

end Gpgpdump
