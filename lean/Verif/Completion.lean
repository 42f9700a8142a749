import Verif.Facade

/-!
# `facade/completion.go`: the command `completion`

The scripts themselves are made by cobra: here any four strings. `strings.EqualFold` and `unicode.SimpleFold` (Go 1.16) are modelled
from the source of the standard library; of the table behind `SimpleFold` only the code points that are reached from ASCII are given,
the rest is any function.
-/

namespace Gpgpdump

inductive Shell
  | bash
  | zsh
  | fish
  | powershell
  deriving DecidableEq, Repr

/-- `unicode.SimpleFold`: the next code point of the orbit -/
def simpleFold (other : Nat → Nat) (r : Nat) : Nat :=
  if r = 0x6b then 0x212a
  else if r = 0x212a then 0x4b
  else if r = 0x73 then 0x17f
  else if r = 0x17f then 0x53
  else if 0x41 ≤ r ∧ r ≤ 0x5a then r + 32
  else if 0x61 ≤ r ∧ r ≤ 0x7a then r - 32
  else if r < 0x80 then r
  else other r

/-- the loop `for r != sr && r < tr { r = unicode.SimpleFold(r) }` of `strings.EqualFold`; no orbit has more than four code points -/
def foldLoop (other : Nat → Nat) (sr tr : Nat) : Nat → Nat → Nat
  | 0, r => r
  | n + 1, r => if r ≠ sr ∧ r < tr then foldLoop other sr tr n (simpleFold other r) else r

/-- `strings.EqualFold`: one code point of each string -/
def runesFold (other : Nat → Nat) (a b : Nat) : Bool :=
  if a = b then true
  else
    let sr := if b < a then b else a
    let tr := if b < a then a else b
    if tr < 0x80 then decide (0x41 ≤ sr ∧ sr ≤ 0x5a ∧ tr = sr + 32)
    else foldLoop other sr tr 4 (simpleFold other sr) == tr

/-- the first code point of a string that is not empty, and the rest -/
def nextRune (x : UInt8) (r : Bytes) : Nat × Bytes :=
  if x < 0x80 then (x.toNat, r)
  else match runeStep (x :: r) with
    | some (c, r') => (c.toNat, r')
    | none => (0xfffd, r)

/-- `strings.EqualFold`; every round takes an octet of the second string at least -/
def equalFold (other : Nat → Nat) : Nat → Bytes → Bytes → Bool
  | n + 1, x :: s, y :: t =>
    let a := nextRune x s
    let b := nextRune y t
    if runesFold other a.1 b.1 then equalFold other n a.2 b.2 else false
  | _, s, t => s == t

/-- a string of ASCII letters in Go -/
def asciiOctets (s : String) : Bytes := s.toList.map fun c => UInt8.ofNat c.toNat

/-- completion.go:60-75 the switch: which script is asked for; `none`: `os.ErrInvalid` -/
def completionShell (other : Nat → Nat) (args : List Bytes) : Option Shell :=
  match args with
  | [] => some .bash
  | [a] =>
    let eq (name : String) : Bool := equalFold other (asciiOctets name).length a (asciiOctets name)
    if eq "bash" then some .bash
    else if eq "zsh" then some .zsh
    else if eq "fish" then some .fish
    else if eq "powershell" then some .powershell
    else none
  | _ => none

/-- facade.go:157-179 `Execute` with this command. It does not call `parseContext`, so `debugFlag` has the value an earlier `Execute` of
the process has left. The generators of cobra write the script to standard output (`bytes.Buffer.WriteTo`). -/
def executeCompletion (other : Nat → Nat) (W : World) (script : Shell → Bytes) (stale : Bool) (args : List Bytes) : Run :=
  match completionShell other args with
  | some s =>
    let w := writeFrom W (script s) none
    let d := debugPrint W stale w.2
    ⟨some (exitOf d.2), w.1 ++ d.1, stale⟩
  | none =>
    let d := debugPrint W stale (some .args)
    ⟨some (exitOf d.2), d.1, stale⟩

end Gpgpdump
