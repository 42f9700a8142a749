import Verif.Result

/-!
# `parse/result/result.go` with pointers

In Go an `Item` is shared, not copied: `Add` stores a pointer, and what is added to an item later is seen through every item that holds
the pointer. This model keeps the items on a heap. The tree of `Result.lean` is what can be reached from an item.
-/

namespace Gpgpdump

/-- result.go:67-73 `type Item struct`: `Items` holds pointers, which may be nil -/
structure ItemObj where
  name : Str := []
  value : Str := []
  dump : Str := []
  note : Str := []
  items : List (Option Nat) := []
  deriving DecidableEq

/-- the items allocated so far; a pointer is a position -/
abbrev Heap := List ItemObj

/-- result.go:76 `ItemOpt` and result.go:100-126: the four options -/
inductive ItemOpt
  | name (s : Str)
  | value (s : Str)
  | dump (s : Str)
  | note (s : Str)

/-- the closures of result.go:100-126 -/
def ItemOpt.on (o : ItemObj) : ItemOpt → ItemObj
  | .name s => { o with name := s }
  | .value s => { o with value := s }
  | .dump s => { o with dump := s }
  | .note s => { o with note := s }

/-- result.go:79-91 `NewItem(opts...)`: the new item is the last of the heap -/
def Heap.newItem (h : Heap) (opts : List ItemOpt) : Heap := h ++ [opts.foldl ItemOpt.on {}]

/-- result.go:94-98 `i.Add(a)`: nothing happens if one of them is nil -/
def Heap.add (h : Heap) : Option Nat → Option Nat → Heap
  | some i, some a => h.modify i fun o => { o with items := o.items ++ [some a] }
  | _, _ => h

/-- result.go:128-148 `i.toString(indent, lvl, buf)`: the text written, `none` if there are more than `fuel` nested calls -/
def Heap.toStr (h : Heap) (indent : Str) : Nat → Nat → Option Nat → Option Str
  | _, _, none => some []
  | 0, _, some _ => none
  | f + 1, lvl, some i =>
    match h[i]? with
    | none => some []  -- not reached: there are no pointers to elsewhere
    | some o =>
      (o.items.mapM (Heap.toStr h indent f (lvl + 1))).map fun ts =>
        repeatStr indent lvl ++ headLine (.mk o.name o.value o.dump o.note []) ++ ['\n'] ++
          (if o.dump.length > 0 then repeatStr indent (lvl + 1) ++ o.dump ++ ['\n'] else []) ++ ts.flatten

/-- result.go:19-22 `New()`, result.go:14-16: the pointers in `Packets`; `none` is a nil `*Info` -/
abbrev InfoObj := Option (List (Option Nat))

/-- result.go:24-32 `(*Info).Add(a)` -/
def InfoObj.add : InfoObj → Option Nat → InfoObj
  | some l, some a => some (l ++ [some a])
  | i, _ => i

/-- result.go:47-60 `(*Info).ToString(indent)` -/
def InfoObj.toStr (h : Heap) (indent : Str) (fuel : Nat) : InfoObj → Option Str
  | none => some []
  | some l => (l.mapM (h.toStr indent fuel 0)).map List.flatten

/-- a call of the package: it gives a new item, or changes one (`o` applied to an item, or `Add`) -/
inductive ItemCall
  | new (opts : List ItemOpt)
  | set (i : Nat) (opt : ItemOpt)
  | add (i a : Option Nat)

def Heap.call (h : Heap) : ItemCall → Heap
  | .new opts => h.newItem opts
  | .set i opt => h.modify i fun o => opt.on o
  | .add i a => h.add i a

/-- the heap after a sequence of calls -/
def Heap.calls (h : Heap) (ks : List ItemCall) : Heap := ks.foldl Heap.call h

end Gpgpdump
