import Verif.Result

/-!
# Specification: the lines of the text output

The text output is a list of lines with depths, in pre-order: the line of an item (its name, value and note), then, if there is
one, the line of its dump one level deeper, then the lines of its children one level deeper.
-/

namespace Gpgpdump.Spec

/-- the line of an item -/
def itemLine (i : Item) : Str :=
  i.name ++ (if i.value = [] then [] else S ": " ++ i.value) ++ (if i.note = [] then [] else S " (" ++ i.note ++ S ")")

mutual
/-- the lines of an item at depth `d` -/
def lines (d : Nat) : Item → List (Nat × Str)
  | .mk n v dm t is => (d, itemLine (.mk n v dm t is)) :: (if dm = [] then [] else [(d + 1, dm)]) ++ linesAll (d + 1) is
def linesAll (d : Nat) : List Item → List (Nat × Str)
  | [] => []
  | i :: is => lines d i ++ linesAll d is
end

mutual
/-- the number of items -/
def items : Item → Nat
  | .mk _ _ _ _ is => 1 + itemsAll is
def itemsAll : List Item → Nat
  | [] => 0
  | i :: is => items i + itemsAll is
end

mutual
/-- the number of dumps -/
def dumps : Item → Nat
  | .mk _ _ dm _ is => (if dm = [] then 0 else 1) + dumpsAll is
def dumpsAll : List Item → Nat
  | [] => 0
  | i :: is => dumps i + dumpsAll is
end

/-- `p` holds for the item and everything below it -/
inductive Each (p : Item → Prop) : Item → Prop
  | mk {i} (h : p i) (hi : ∀ k ∈ i.items, Each p k) : Each p i

/-- no line breaks, and no line that starts with the indentation -/
def OneLine (indent : Str) (i : Item) : Prop :=
  '\n' ∉ i.name ∧ '\n' ∉ i.value ∧ '\n' ∉ i.note ∧ '\n' ∉ i.dump ∧ ¬ indent <+: itemLine i ∧ ¬ indent <+: i.dump

end Gpgpdump.Spec
