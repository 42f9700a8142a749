import Verif.CmdLine

/-!
# Vocabulary for C83 and C84: the syntax of the command line

Stated without the functions of the model: how numbers, switches and flags are written, which argument is the word for the command,
which value a flag ends up with. Only the types `Flag`, `FlagType` and `CmdName` are shared with it.
-/

namespace Gpgpdump.Spec.CL

/-- the octets of a text in ASCII -/
def text (s : String) : Bytes := s.toList.map fun c => UInt8.ofNat c.toNat

/-! ## Numbers and switches -/

/-- a digit and its value; letters count from ten -/
def Digit (c : UInt8) (d : Nat) : Prop :=
  (0x30 ≤ c.toNat ∧ c.toNat ≤ 0x39 ∧ c.toNat = 0x30 + d) ∨ (0x61 ≤ c.toNat ∧ c.toNat ≤ 0x7a ∧ c.toNat + 10 = 0x61 + d) ∨
  (0x41 ≤ c.toNat ∧ c.toNat ≤ 0x5a ∧ c.toNat + 10 = 0x41 + d)

/-- `t` has `k` digits in base `b`, with single underscores between digits at will, and the value `n` -/
inductive Digits (b : Nat) : Bytes → Nat → Nat → Prop
  | one {c d} : Digit c d → d < b → Digits b [c] 1 d
  | more {c d t k n} : Digit c d → d < b → Digits b t k n → Digits b (c :: t) (k + 1) (d * b ^ k + n)
  | sep {c d t k n} : Digit c d → d < b → Digits b t k n → Digits b (c :: 0x5f :: t) (k + 1) (d * b ^ k + n)

/-- the letters that announce a base behind a zero -/
def bases : List (Char × Nat) := [('b', 2), ('B', 2), ('o', 8), ('O', 8), ('x', 16), ('X', 16)]

/-- a number without sign as in Go programs -/
inductive Natural : Bytes → Nat → Prop
  | zero : Natural (text "0") 0
  | dec {t k n} : t.head? ≠ some 0x30 → Digits 10 t k n → Natural t n
  | oct {t k n} : Digits 8 t k n → Natural (text "0" ++ t) n
  | octSep {t k n} : Digits 8 t k n → Natural (text "0_" ++ t) n
  | base {p b t k n} : (p, b) ∈ bases → Digits b t k n → Natural (text "0" ++ UInt8.ofNat p.toNat :: t) n
  | baseSep {p b t k n} : (p, b) ∈ bases → Digits b t k n → Natural (text "0" ++ UInt8.ofNat p.toNat :: 0x5f :: t) n

inductive Integer : Bytes → Int → Prop
  | plain {t n} : Natural t n → n < 2 ^ 63 → Integer t n
  | plus {t n} : Natural t n → n < 2 ^ 63 → Integer (text "+" ++ t) n
  | minus {t n} : Natural t n → n ≤ 2 ^ 63 → Integer (text "-" ++ t) (-(n : Int))

def Switch (t : Bytes) (b : Bool) : Prop :=
  (b = true ∧ t ∈ ["1", "t", "T", "true", "TRUE", "True"].map text) ∨ (b = false ∧ t ∈ ["0", "f", "F", "false", "FALSE", "False"].map text)

/-- the value can be given to a flag of this type -/
def Fits : FlagType → Bytes → Prop
  | .bool, v => ∃ b, Switch v b
  | .int, v => ∃ n, Integer v n
  | .string, _ => True

/-! ## Flags -/

section
variable (F : List Flag)

/-- letters behind one hyphen: with the arguments `r` behind them they make the assignments and leave the arguments `r'` -/
inductive Letters : Bytes → List Bytes → List (Flag × Bytes) → List Bytes → Prop
  | done {r} : Letters [] r [] r
  | test {t r} : Letters (text "test." ++ t) r [] r
  | switch {f c t r s r'} : f ∈ F → f.short = some c → f.type = .bool → Letters t r s r' → Letters (c :: t) r ((f, text "true") :: s) r'
  | equals {f c v r} : f ∈ F → f.short = some c → v ≠ [] → Letters (c :: 0x3d :: v) r [(f, v)] r
  | joined {f c v r} : f ∈ F → f.short = some c → f.type ≠ .bool → v ≠ [] → (v.head? = some 0x3d → v = [0x3d]) → Letters (c :: v) r [(f, v)] r
  | next {f c v r} : f ∈ F → f.short = some c → f.type ≠ .bool → Letters [c] (v :: r) [(f, v)] r

/-- the arguments make the assignments, in this order, and the others are `pos` -/
inductive Line : List Bytes → List (Flag × Bytes) → List Bytes → Prop
  | nil : Line [] [] []
  | rest {r} : Line (text "--" :: r) [] r
  | word {a r s p} : a.head? ≠ some 0x2d ∨ a = text "-" → Line r s p → Line (a :: r) s (a :: p)
  | long {f r s p} : f ∈ F → f.type = .bool → Line r s p → Line ((text "--" ++ f.name) :: r) ((f, text "true") :: s) p
  | longEq {f v r s p} : f ∈ F → Line r s p → Line ((text "--" ++ f.name ++ text "=" ++ v) :: r) ((f, v) :: s) p
  | longNext {f v r s p} : f ∈ F → f.type ≠ .bool → Line r s p → Line ((text "--" ++ f.name) :: v :: r) ((f, v) :: s) p
  | letters {t r s r' s' p} : t ≠ [] → t.head? ≠ some 0x2d → Letters F t r s r' → Line r' s' p → Line ((text "-" ++ t) :: r) (s ++ s') p

/-- a line with values that fit -/
def Given (args : List Bytes) (s : List (Flag × Bytes)) (p : List Bytes) : Prop := Line F args s p ∧ ∀ x ∈ s, Fits x.1.type x.2
end

/-- the last assignment to a name -/
def Last (s : List (Flag × Bytes)) (name : String) (v : Bytes) : Prop :=
  ∃ a f b, s = a ++ (f, v) :: b ∧ f.name = text name ∧ ∀ x ∈ b, x.1.name ≠ text name

def Unset (s : List (Flag × Bytes)) (name : String) : Prop := ∀ x ∈ s, x.1.name ≠ text name

def On (s : List (Flag × Bytes)) (name : String) (b : Bool) : Prop := (∃ v, Last s name v ∧ Switch v b) ∨ (Unset s name ∧ b = false)
def Num (s : List (Flag × Bytes)) (name : String) (dflt n : Int) : Prop := (∃ v, Last s name v ∧ Integer v n) ∨ (Unset s name ∧ n = dflt)
def Txt (s : List (Flag × Bytes)) (name : String) (dflt v : Bytes) : Prop := Last s name v ∨ (Unset s name ∧ v = dflt)

/-! ## The flags and commands of the tool -/

def switch (name : String) (c : Char) : Flag := ⟨text name, some (UInt8.ofNat c.toNat), .bool⟩
def long (name : String) (t : FlagType) : Flag := ⟨text name, none, t⟩

/-- flags for all commands -/
def general : List Flag :=
  [switch "armor" 'a', switch "cert" 'c', long "debug" .bool, long "indent" .int, switch "int" 'i', switch "json" 'j', switch "literal" 'l',
    switch "marker" 'm', switch "private" 'p', switch "utc" 'u']

/-- further flags of a command; `-h` belongs to all -/
def special : CmdName → List Flag
  | .root => [long "clipboard" .bool, ⟨text "file", some 0x66, .string⟩, switch "version" 'v']
  | .hkp => [long "keyserver" .string, long "port" .int, long "raw" .bool, long "secure" .bool]
  | .github => [long "keyid" .string, long "raw" .bool]
  | .fetch => [long "raw" .bool]
  | _ => []

def flags (c : CmdName) : List Flag := switch "help" 'h' :: special c ++ general

def names : CmdName → List String
  | .root => []
  | .version => ["v", "ver", "version"]
  | .hkp => ["h", "hkp"]
  | .github => ["g", "gh", "github"]
  | .fetch => ["f", "fch", "fetch"]
  | .completion => ["cmp", "compl", "completion"]
  | .help => ["help"]
  | .complete => ["__complete", "__completeNoDesc"]

/-- a flag behind which an argument is passed over in the search for the command: written alone and not known as a switch of the root
command (`--help` and `-h` are not known then) -/
def Takes (a : Bytes) : Prop :=
  0x3d ∉ a ∧
  ((∃ n, n ≠ [] ∧ a = text "--" ++ n ∧ ∀ f ∈ special .root ++ general, f.name = n → f.type ≠ .bool) ∨
   (∃ c, c ≠ 0x2d ∧ a = text "-" ++ [c] ∧ ∀ f ∈ special .root ++ general, f.short = some c → f.type ≠ .bool))

/-- the word for the command -/
inductive Word : List Bytes → Option Bytes → Prop
  | nil : Word [] none
  | rest {r} : Word (text "--" :: r) none
  | here {w r} : w ≠ [] → w.head? ≠ some 0x2d → Word (w :: r) (some w)
  | pass {a r o} : a = [] ∨ a.head? = some 0x2d → a ≠ text "--" → ¬ Takes a → Word r o → Word (a :: r) o
  | pair {a x b r o} : Takes a → Word (b :: r) o → Word (a :: x :: b :: r) o
  | last {a r} : Takes a → r.length ≤ 1 → Word (a :: r) none

/-- the command and the arguments it gets: the first argument equal to the word is left out -/
def Selected (args : List Bytes) (c : CmdName) (rest : List Bytes) : Prop :=
  (Word args none ∧ c = .root ∧ rest = args) ∨
  ∃ w a b, Word args (some w) ∧ w ∈ (names c).map text ∧ args = a ++ w :: b ∧ w ∉ a ∧ rest = a ++ b

/-- the flags for all commands have these values -/
def Options (s : List (Flag × Bytes)) (f : Flags) : Prop :=
  On s "json" f.json ∧ Num s "indent" 0 f.indent ∧ On s "armor" f.armor ∧ On s "cert" f.cert ∧ On s "debug" f.debug ∧ On s "int" f.integer ∧
  On s "literal" f.literal ∧ On s "marker" f.marker ∧ On s "private" f.priv ∧ On s "utc" f.utc

end Gpgpdump.Spec.CL
