import Verif.ResultApi
import Verif.Json
import Verif.ThmText

/-!
# `parse/result/result.go:34-44` with pointers: `(*Info).JSON` of shared items

`encoding/json` (Go 1.16, modelled from its source) follows the pointers. It counts how deep it is (`ptrLevel`) and, from the 1001st level
on, remembers the pointers it is inside of (`ptrSeen`): a pointer met again inside itself is an error. Newer versions count and remember
slices too; `sl` says whether they do. The slice of an item is taken to be its own (as `Add` leaves it), so that it is remembered under the
item. The text is `Json.lean`'s; the strings of the items are valid UTF-8.
-/

namespace Gpgpdump

/-- encoding/json `startDetectCyclesAfter` -/
def startDetectCyclesAfter : Nat := 1000

/-- the elements of an array separated by commas (`arrayEncoder`) -/
def jsonElems : List Str → Str
  | [] => []
  | [t] => t
  | t :: u :: ts => t ++ [','] ++ jsonElems (u :: ts)

/-- the fields of an item in front of `Item` (`structEncoder`, result.go:67-73) -/
def ItemObj.fields (o : ItemObj) : Str :=
  ['{'] ++ jsonKey (S "name") ++ jsonString (Spec.utf8 o.name) ++ jsonOpt (S "value") (Spec.utf8 o.value) ++ jsonOpt (S "dump") (Spec.utf8 o.dump) ++
    jsonOpt (S "note") (Spec.utf8 o.note)

/-- `ptrEncoder.encode` for a `*Item` with `structEncoder` and `sliceEncoder` inside: `lvl` is `ptrLevel`, `seen` and `sls` are the pointers
and slices in `ptrSeen`. The outer `none`: there are more than `fuel` nested calls; the inner `none`: `UnsupportedValueError`, which ends
`Marshal`. -/
def Heap.marshal (h : Heap) (sl : Bool) : (fuel lvl : Nat) → (seen sls : List Nat) → Option Nat → Option (Option Str)
  | _, _, _, _, none => some (some (S "null"))
  | 0, _, _, _, some _ => none
  | f + 1, lvl, seen, sls, some i =>
    if lvl + 1 > startDetectCyclesAfter ∧ i ∈ seen then some none
    else
      match h[i]? with
      | none => some (some (S "null"))  -- not reached: there are no pointers to elsewhere
      | some o =>
        if o.items = [] then some (some (o.fields ++ ['}']))
        else if sl = true ∧ lvl + 2 > startDetectCyclesAfter ∧ i ∈ sls then some none
        else
          (o.items.mapM (Heap.marshal h sl f (if sl then lvl + 2 else lvl + 1) (if lvl + 1 > startDetectCyclesAfter then i :: seen else seen)
            (if sl = true ∧ lvl + 2 > startDetectCyclesAfter then i :: sls else sls))).map fun rs =>
              (rs.mapM id).map fun ts => o.fields ++ [','] ++ jsonKey (S "Item") ++ ['['] ++ jsonElems ts ++ [']', '}']

/-- `json.Marshal(i)` for a `*Info` that is not nil: the pointer is level 1, the slice level 2 -/
def Heap.marshalInfo (h : Heap) (sl : Bool) (fuel : Nat) (l : List (Option Nat)) : Option (Option Str) :=
  if l = [] then some (some (S "{}"))
  else
    (l.mapM (h.marshal sl fuel (if sl then 2 else 1) [] [])).map fun rs =>
      (rs.mapM id).map fun ts => ['{'] ++ jsonKey (S "Packet") ++ ['['] ++ jsonElems ts ++ [']', '}']

/-- result.go:34-44 `(*Info).JSON(indent)`: the text, or `none` inside for an error -/
def InfoObj.json (h : Heap) (sl : Bool) (indent : Int) (fuel : Nat) : InfoObj → Option (Option Str)
  | none => some (some [])
  | some l =>
    (h.marshalInfo sl fuel l).map fun r =>
      if indent > 0 then r.bind (jsonIndent (repeatStr [' '] indent.toNat)) else r

#guard InfoObj.json [{ name := S "a", items := [some 1, none, some 1] }, { name := S "b", note := S "n" }] true 0 3 (some [some 0, some 1]) =
  some (some (S "{\"Packet\":[{\"name\":\"a\",\"Item\":[{\"name\":\"b\",\"note\":\"n\"},null,{\"name\":\"b\",\"note\":\"n\"}]},{\"name\":\"b\",\"note\":\"n\"}]}"))
#guard InfoObj.json [{ items := [some 0] }] true 0 2000 (some [some 0]) = some none
#guard InfoObj.json [{ items := [some 0] }] false 0 2000 (some [some 0]) = some none

end Gpgpdump
