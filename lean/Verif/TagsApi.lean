import Verif.PacketsApi

/-!
# `parse/tags/tags.go`: `NewTag` and every call of `Parse` on what it returns

`Packets.Parse` drops the item that comes with an error (packets.go:54-56). A caller of `NewTag` gets it.
-/

namespace Gpgpdump

section
variable (X : Ext)

/-- tags.go:68-74 `NewTag(op, cxt)`; the context is an argument of `full`, since it is shared and others can change it -/
def TagObj.new (tag : Nat) (body : Bytes) : TagObj := ⟨tag, Reader.new body⟩

/-- `Parse()` with the item that comes with an error: every method returns `rootInfo` then. What it returns, the context and the packet
afterwards. -/
def TagObj.full (o : TagObj) (c : Option Ctx) : Returned × Option Ctx × TagObj :=
  match o.body X ⟨c, o.start, o.header c⟩ with
  | (.ok (i, _), st) => (.ret (some i) none, st.ctx, (o.parse X c).2.2)
  | (.err e, st) => (.ret (some st.cur) (some e), st.ctx, (o.parse X c).2.2)
  | (.panic s, st) => (.panic s, st.ctx, (o.parse X c).2.2)
  | (.stuck, st) => (.stuck, st.ctx, (o.parse X c).2.2)

/-- calls of `Parse`, with the context as it is before each call: what they return, and the context after each -/
def TagObj.fulls : List (Option Ctx) → TagObj → List (Returned × Option Ctx)
  | [], _ => []
  | c :: cs, o => ((o.full X c).1, (o.full X c).2.1) :: TagObj.fulls cs (o.full X c).2.2

end

end Gpgpdump
