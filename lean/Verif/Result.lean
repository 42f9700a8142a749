import Verif.Basic

/-!
# `parse/result/result.go`: the result tree and its text rendering
-/

namespace Gpgpdump

/-- result.go:67-73 `type Item struct`.
Children are never nil: `Add` drops nil items (result.go:94-98). -/
inductive Item where
  | mk (name value dump note : Str) (items : List Item)
  deriving Repr

instance : Inhabited Item := ⟨.mk [] [] [] [] []⟩

mutual
def Item.decEq : (a b : Item) → Decidable (a = b)
  | .mk n v d t is, .mk n' v' d' t' is' =>
    match Item.decEqs is is' with
    | isFalse h => isFalse (by rintro ⟨⟩; exact h rfl)
    | isTrue h =>
      if h' : n = n' ∧ v = v' ∧ d = d' ∧ t = t' then isTrue (by rw [h, h'.1, h'.2.1, h'.2.2.1, h'.2.2.2])
      else isFalse (by rintro ⟨⟩; exact h' ⟨rfl, rfl, rfl, rfl⟩)
def Item.decEqs : (a b : List Item) → Decidable (a = b)
  | [], [] => isTrue rfl
  | [], _ :: _ => isFalse (by simp)
  | _ :: _, [] => isFalse (by simp)
  | a :: as, b :: bs =>
    match Item.decEq a b, Item.decEqs as bs with
    | isTrue h, isTrue h' => isTrue (by rw [h, h'])
    | isFalse h, _ => isFalse (by rintro ⟨⟩; exact h rfl)
    | _, isFalse h => isFalse (by rintro ⟨⟩; exact h rfl)
end

instance : DecidableEq Item := Item.decEq

namespace Item
def name : Item → Str | mk n _ _ _ _ => n
def value : Item → Str | mk _ v _ _ _ => v
def dump : Item → Str | mk _ _ d _ _ => d
def note : Item → Str | mk _ _ _ t _ => t
def items : Item → List Item | mk _ _ _ _ is => is

/-- `i.Name = …` -/
def setName (i : Item) (n : Str) : Item := mk n i.value i.dump i.note i.items
/-- `i.Value = …` -/
def setValue (i : Item) (v : Str) : Item := mk i.name v i.dump i.note i.items
/-- `i.Dump = …` -/
def setDump (i : Item) (d : Str) : Item := mk i.name i.value d i.note i.items
/-- `i.Note = …` -/
def setNote (i : Item) (n : Str) : Item := mk i.name i.value i.dump n i.items
/-- result.go `(*Item).Add` for non-nil arguments -/
def add (i : Item) (a : Item) : Item := mk i.name i.value i.dump i.note (i.items ++ [a])
end Item

/-- `result.NewItem` with the functional options used in the code. -/
def newItem (name : Str) (value : Str := []) (note : Str := []) (dump : Str := []) : Item :=
  .mk name value dump note []

/-- The first line of an item: name, value, note (result.go:132-139). -/
def headLine (i : Item) : Str :=
  i.name ++ (if i.value.length > 0 then S ": " ++ i.value else []) ++
    (if i.note.length > 0 then S " (" ++ i.note ++ S ")" else [])

/-- `strings.Repeat(indent, lvl)` -/
def repeatStr (s : Str) (n : Nat) : Str := (List.replicate n s).flatten

mutual
/-- result.go:128-148 `(*Item).toString(indent, lvl, buf)` -/
def Item.toStr (indent : Str) (lvl : Nat) : Item → Str
  | .mk n v d t is =>
    repeatStr indent lvl ++ headLine (.mk n v d t []) ++ ['\n'] ++
      (if d.length > 0 then repeatStr indent (lvl + 1) ++ d ++ ['\n'] else []) ++
      itemsToStr indent (lvl + 1) is

/-- The loops over sub-items (result.go, `for _, itm := range i.Items`) and over packets (`ToString`). -/
def itemsToStr (indent : Str) (lvl : Nat) : List Item → Str
  | [] => []
  | i :: is => i.toStr indent lvl ++ itemsToStr indent lvl is
end

/-- result.go `(*Info).ToString(indent)` for an `Info` with the given packets -/
def infoToString (indent : Str) (packets : List Item) : Str := itemsToStr indent 0 packets

end Gpgpdump
