import Verif.Basic

/-!
# Specification: splitting a text into lines, with a limit on the length of a line

This file does not refer to the model of `bufio.Scanner`.
-/

namespace Gpgpdump.Spec

/-- a line without a carriage return at its end -/
def chomp (l : Bytes) : Bytes := if l.getLast? = some 0x0d then l.dropLast else l

/-- a line (its end excluded) must be shorter than this -/
def lineLimit : Nat := 65536

/-- `Lines d ls stop taken`: the octets `d` are the lines `ls`; `stop` says that the next line reaches the limit, and `taken` are
the octets looked at: everything, or with `stop` up to the limit of that line. -/
inductive Lines : Bytes → List Bytes → Bool → Bytes → Prop
  | done : Lines [] [] false []
  | last {d} (h : d ≠ []) (hn : 0x0a ∉ d) (hl : d.length < lineLimit) : Lines d [chomp d] false d
  | line {l r ls stop taken} (hn : 0x0a ∉ l) (hl : l.length < lineLimit) (h : Lines r ls stop taken) :
      Lines (l ++ 0x0a :: r) (chomp l :: ls) stop (l ++ 0x0a :: taken)
  | long {d} (hl : lineLimit ≤ d.length) (hn : 0x0a ∉ d.take lineLimit) : Lines d [] true (d.take lineLimit)

end Gpgpdump.Spec
