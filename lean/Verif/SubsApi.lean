import Verif.PacketsApi

/-!
# `parse/tags/subs.go`: `NewSubs` and every call of `Parse` on what it returns

Inside a packet a subpacket is made and parsed once, and with an error its item is dropped (subParser.go:34-45). Other callers of
`NewSubs` get the item also with an error, and can call `Parse` again: the reader stays where it was.
-/

namespace Gpgpdump

section
variable (X : Ext)

/-- subs.go:12-16 `subInfo`: of a signature (`sig`) or of a user attribute; type octet and reader over the contents. The context is an
argument of `parse`, since it is shared and others can change it between two calls. -/
structure SubObj where
  sig : Bool
  typ : UInt8
  rd : Reader

/-- subs.go:79-96 `NewSubs(cxt, osp, tagID)`; `none`: nil -/
def SubObj.new (tagID : UInt8) (typ : UInt8) (body : Bytes) : Option SubObj :=
  if tagID = 2 then some ⟨true, typ, Reader.new body⟩
  else if tagID = 17 then some ⟨false, typ, Reader.new body⟩
  else none

/-- subs.go:19-21 `ToItem`: the size of the contents, and a dump of what is not yet read (subpacketid.go:56-62) -/
def SubObj.header (o : SubObj) (c : Option Ctx) : Item :=
  newItem (subStr o.typ) [] (nBytes o.rd.size) (dumpRest o.rd (ctxFlag Ctx.debug c))

/-- `Parse` after the header item -/
def SubObj.body (o : SubObj) : P Item :=
  if o.sig then sub02Body X (parseTag X) (o.typ &&& 0x7f).toNat else sub17Body (o.typ &&& 0x7f).toNat

/-- `Parse()`: what it returns, the context and the subpacket afterwards. Every method returns `rootInfo` with an error. The reader
after a key block (type 38) of type 0 is not modelled: the packets are read from it (sub38.go:48-49), here it stays behind the type octet. -/
def SubObj.parse (o : SubObj) (c : Option Ctx) : Returned × Option Ctx × SubObj :=
  match o.body X ⟨c, o.rd, o.header c⟩ with
  | (.ok i, st) => (.ret (some i) none, st.ctx, { o with rd := st.rd })
  | (.err e, st) => (.ret (some st.cur) (some e), st.ctx, { o with rd := st.rd })
  | (.panic s, st) => (.panic s, st.ctx, { o with rd := st.rd })
  | (.stuck, st) => (.stuck, st.ctx, { o with rd := st.rd })

/-- calls of `Parse`, with the context as it is before each call: what they return, and the context after each -/
def SubObj.parses : List (Option Ctx) → SubObj → List (Returned × Option Ctx)
  | [], _ => []
  | c :: cs, o => ((o.parse X c).1, (o.parse X c).2.1) :: SubObj.parses cs (o.parse X c).2.2

end

end Gpgpdump
