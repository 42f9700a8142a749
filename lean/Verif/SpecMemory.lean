import Verif.SpecHistory

/-!
# Specification: which part of a context's memory a result depends on

A context remembers the kind of the last session key, the creation time of the last key and that of the last signature. The items of a
result that store or use one of them are recognised by their names, in the order they are printed.
-/

namespace Gpgpdump.Spec

/-- what a context remembers -/
inductive Cell
  | session
  | key
  | signature
  deriving DecidableEq

/-- an item that stores something into a cell, or uses what is in it -/
structure Mark where
  cell : Cell
  use : Bool
  deriving DecidableEq

/-- items that store or use something -/
def markOf (name : Str) : Option Mark :=
  if name ∈ [S "Public-Key Encrypted Session Key Packet (tag 1)", S "Symmetric-Key Encrypted Session Key Packet (tag 3)"] then some ⟨.session, false⟩
  else if name ∈ [S "Symmetrically Encrypted Data Packet (tag 9)", S "Sym. Encrypted Integrity Protected Data Packet (tag 18)"] then some ⟨.session, true⟩
  else if name = S "Public key creation time" then some ⟨.key, false⟩
  else if name ∈ keyExpirationNames then some ⟨.key, true⟩
  else if name ∈ sigTimeNames then some ⟨.signature, false⟩
  else if name ∈ sigExpirationNames then some ⟨.signature, true⟩
  else none

mutual
/-- the stores and uses in an item; nothing in user attributes counts -/
def marks : Item → List Mark
  | .mk name _ _ _ is =>
    match markOf name with
    | some m => [m]
    | none => if name = S "User Attribute Packet (tag 17)" then [] else marksAll is
/-- the stores and uses in the order they are printed -/
def marksAll : List Item → List Mark
  | [] => []
  | i :: is => marks i ++ marksAll is
end

/-- the first item for this cell -/
def first (c : Cell) (l : List Mark) : Option Mark := l.find? fun m => m.cell == c

/-- the first item for the cell uses it: what was remembered before shows -/
def Exposed (c : Cell) (l : List Mark) : Prop := first c l = some ⟨c, true⟩

/-- the start of a validity period; the creation time 0 counts as none -/
def start : Option Nat → Option Nat
  | some 0 => none
  | s => s

/-- two memories with the same effect, as far as this cell is concerned -/
def Same (h h' : History) : Cell → Prop
  | .session => h.session = h'.session
  | .key => start h.key = start h'.key
  | .signature => start h.signature = start h'.signature

/-- two memories that are equal in this cell -/
def EqualAt (h h' : History) : Cell → Prop
  | .session => h.session = h'.session
  | .key => h.key = h'.key
  | .signature => h.signature = h'.signature

end Gpgpdump.Spec
