import Verif.Completion

/-!
# From the arguments of the process to a command (`facade/*.go` and cobra v1.1.3 with pflag v1.0.5)

The commands, their names and their flags are those that `newRootCmd` and the other functions of `facade/` declare. How cobra finds
the command among the arguments (`Find`, `stripFlags`, `argsMinusFirstX`, `legacyArgs`, `execute`) and how pflag reads flags
(`parseArgs`, `parseLongArg`, `parseSingleShortArg`, the `Set` methods) is modelled from the source of these modules, which are not in
/repo. Arguments are strings of octets. Not modelled: the texts of help and of errors (they go to standard error, facade.go:107-108),
the output of the hidden command for shell completion (it goes there too), the check for a start from the Windows explorer.

Simplification: `Set` is called during the parse in pflag; here the assignments are collected, and a value that `Set` refuses ends the
parse as it does there. After an error nothing is run, so the values set until then have no effect.
-/

namespace Gpgpdump

inductive FlagType
  | bool
  | int
  | string
  deriving DecidableEq

structure Flag where
  name : Bytes
  short : Option UInt8
  type : FlagType
  deriving DecidableEq

/-- an octet string written as text -/
abbrev O (s : String) : Bytes := asciiOctets s

/-! ## `strconv.ParseInt(s, 0, 64)` and `strconv.ParseBool` -/

/-- strconv `lower`: sets bit 0x20 -/
def scLower (c : UInt8) : UInt8 := c ||| 0x20

/-- the digits of `ParseUint`; `none`: not a digit -/
def scDigit (c : UInt8) : Option Nat :=
  if 0x30 ≤ c && c ≤ 0x39 then some (c.toNat - 0x30)
  else if 0x61 ≤ scLower c && scLower c ≤ 0x7a then some ((scLower c).toNat - 0x61 + 10)
  else none

/-- the loop of `ParseUint` with base 0: underscores are passed over. Its overflow is the same error as a value out of range. -/
def scLoop (base : Nat) (n : Nat) : Bytes → Option Nat
  | [] => some n
  | c :: r =>
    if c = 0x5f then scLoop base n r
    else match scDigit c with
      | none => none
      | some d => if base ≤ d then none else scLoop base (n * base + d) r

/-- `underscoreOK`: the loop, where `saw` is true behind a digit (or prefix) and false at the front or behind an underscore; a third
kind of octet cannot occur in texts that `scLoop` has accepted, because its digits are the digits here -/
def scUnder (saw : Bool) (start : Bool) : Bytes → Bool
  | [] => saw || start
  | c :: r => if c = 0x5f then saw && scUnder false false r else scUnder true false r

/-- `ParseUint` behind the prefix, and its check of underscores -/
def uintEnd (b : Nat) (t : Bytes) (f : Bool) : Option Nat :=
  match scLoop b 0 t with
  | none => none
  | some n => if t.contains 0x5f && !scUnder f (!f) t then none else some n

/-- `ParseUint(s, 0, 64)` up to the check of the range -/
def scUint (s : Bytes) : Option Nat :=
  if s = [] then none
  else
    let p : Nat × Bytes × Bool :=
      match s with
      | a :: b :: c :: r =>
        if a = 0x30 then
          if scLower b = 0x62 then (2, c :: r, true)
          else if scLower b = 0x6f then (8, c :: r, true)
          else if scLower b = 0x78 then (16, c :: r, true)
          else (8, b :: c :: r, true)
        else (10, s, false)
      | a :: r => if a = 0x30 then (8, r, true) else (10, s, false)
      | [] => (10, s, false)
    uintEnd p.1 p.2.1 p.2.2

/-- `ParseInt(s, 0, 64)` -/
def scInt (s : Bytes) : Option Int :=
  match s with
  | [] => none
  | c :: r =>
    if c = 0x2d then (scUint r).bind fun n => if n ≤ 2 ^ 63 then some (-(n : Int)) else none
    else (scUint (if c = 0x2b then r else s)).bind fun n => if n < 2 ^ 63 then some (n : Int) else none

/-- `ParseBool` -/
def scBool (s : Bytes) : Option Bool :=
  if s ∈ [O "1", O "t", O "T", O "true", O "TRUE", O "True"] then some true
  else if s ∈ [O "0", O "f", O "F", O "false", O "FALSE", O "False"] then some false
  else none

/-! ## pflag -/

/-- `FlagSet.Set`: whether the value is taken -/
def pfSet (f : Flag) (v : Bytes) : Bool :=
  match f.type with
  | .bool => (scBool v).isSome
  | .int => (scInt v).isSome
  | .string => true

/-- an assignment made by the parse, and the arguments that are left -/
def pfAssign (f : Flag) (v : Bytes) (rest : List Bytes) : Option ((Flag × Bytes) × List Bytes) := if pfSet f v then some ((f, v), rest) else none

/-- `parseLongArg`, on what stands behind the two hyphens -/
def pfLong (F : List Flag) (name : Bytes) (args : List Bytes) : Option ((Flag × Bytes) × List Bytes) :=
  if name = [] ∨ name.head? = some 0x2d ∨ name.head? = some 0x3d then none
  else
    let n := name.takeWhile (· ≠ 0x3d)
    match F.find? (fun f => f.name == n) with
    | none => none
    | some f =>
      if name.contains 0x3d then pfAssign f (name.drop (n.length + 1)) args
      else if f.type = .bool then pfAssign f (O "true") args
      else
        match args with
        | v :: r => pfAssign f v r
        | [] => none

/-- `parseShortArg` with `parseSingleShortArg`, on what stands behind the hyphen -/
def pfShort (F : List Flag) : Bytes → List Bytes → Option (List (Flag × Bytes) × List Bytes)
  | [], args => some ([], args)
  | c :: r, args =>
    if O "test." <+: c :: r then some ([], args)
    else
      match F.find? (fun f => f.short == some c) with
      | none => none
      | some f =>
        if 2 ≤ r.length ∧ r.head? = some 0x3d then (pfAssign f (r.drop 1) args).map fun x => ([x.1], x.2)
        else if f.type = .bool then
          (pfAssign f (O "true") args).bind fun x => (pfShort F r args).map fun y => (x.1 :: y.1, y.2)
        else if r ≠ [] then (pfAssign f r args).map fun x => ([x.1], x.2)
        else
          match args with
          | v :: a => (pfAssign f v a).map fun x => ([x.1], x.2)
          | [] => none

/-- `parseArgs`: the assignments and the arguments that are no flags. Every round takes an argument. -/
def pfParse (F : List Flag) : Nat → List Bytes → Option (List (Flag × Bytes) × List Bytes)
  | 0, _ => none
  | _, [] => some ([], [])
  | fuel + 1, s :: args =>
    if s = [] ∨ s.head? ≠ some 0x2d ∨ s.length = 1 then (pfParse F fuel args).map fun x => (x.1, s :: x.2)
    else if (s.drop 1).head? = some 0x2d then
      if s.length = 2 then some ([], args)
      else (pfLong F (s.drop 2) args).bind fun x => (pfParse F fuel x.2).map fun y => (x.1 :: y.1, y.2)
    else (pfShort F (s.drop 1) args).bind fun x => (pfParse F fuel x.2).map fun y => (x.1 ++ y.1, y.2)

/-- the value of a flag after the parse -/
def pfValue (sets : List (Flag × Bytes)) (name : Bytes) : Option Bytes := (sets.reverse.find? (fun x => x.1.name == name)).map (·.2)

def pfBool (sets : List (Flag × Bytes)) (name : String) : Bool := ((pfValue sets (O name)).bind scBool).getD false
def pfInt (sets : List (Flag × Bytes)) (name : String) (dflt : Int) : Int := ((pfValue sets (O name)).bind scInt).getD dflt
def pfString (sets : List (Flag × Bytes)) (name : String) (dflt : Bytes) : Bytes := (pfValue sets (O name)).getD dflt

/-! ## The commands -/

inductive CmdName
  | root
  | version
  | hkp
  | github
  | fetch
  | completion
  | help      -- cobra `InitDefaultHelpCmd`
  | complete  -- cobra `initCompleteCmd`
  deriving DecidableEq

def sw (name : String) (short : Option Char) : Flag := ⟨O name, short.map fun c => UInt8.ofNat c.toNat, .bool⟩

/-- facade.go:93-103 the persistent flags -/
def persistentFlags : List Flag :=
  [sw "json" 'j', ⟨O "indent", none, .int⟩, sw "armor" 'a', sw "cert" 'c', sw "debug" none, sw "int" 'i', sw "literal" 'l', sw "marker" 'm',
    sw "private" 'p', sw "utc" 'u']

/-- facade.go:89-92, hkp.go:93-96, github.go:74-75, fetch.go:68 the flags of each command -/
def localFlags : CmdName → List Flag
  | .root => [sw "version" 'v', ⟨O "file", some 0x66, .string⟩, sw "clipboard" none]
  | .hkp => [⟨O "keyserver", none, .string⟩, ⟨O "port", none, .int⟩, sw "secure" none, sw "raw" none]
  | .github => [⟨O "keyid", none, .string⟩, sw "raw" none]
  | .fetch => [sw "raw" none]
  | _ => []

/-- the flags when a command is looked for -/
def rootFlags : List Flag := localFlags .root ++ persistentFlags

/-- cobra `InitDefaultHelpFlag`: the flags when a command is executed -/
def flagsOf (c : CmdName) : List Flag := localFlags c ++ persistentFlags ++ [sw "help" 'h']

/-- the names and aliases: version.go:22-23, hkp.go:21-22, github.go:21-22, fetch.go:18-19, completion.go:55-56, and cobra -/
def cmdNames : List (CmdName × List Bytes) :=
  [(.version, [O "version", O "ver", O "v"]), (.hkp, [O "hkp", O "h"]), (.github, [O "github", O "gh", O "g"]),
    (.fetch, [O "fetch", O "fch", O "f"]), (.completion, [O "completion", O "compl", O "cmp"]), (.help, [O "help"]),
    (.complete, [O "__complete", O "__completeNoDesc"])]

/-- cobra `findNext` -/
def cbNext (w : Bytes) : Option CmdName := (cmdNames.find? (fun x => x.2.contains w)).map (·.1)

/-- cobra `stripFlags`: the cases in which the argument behind a flag is passed over -/
def cbTakesNext (s : Bytes) : Bool :=
  (O "--" <+: s && !s.contains 0x3d && !(rootFlags.find? (fun f => f.name == s.drop 2)).any fun f => f.type = .bool) ||
  (O "-" <+: s && !s.contains 0x3d && s.length == 2 && !(rootFlags.find? (fun f => f.short == (s.drop 1).head?)).any fun f => f.type = .bool)

/-- cobra `stripFlags` with the flags of the root command -/
def cbStrip : List Bytes → List Bytes
  | [] => []
  | s :: args =>
    if s = O "--" then []
    else if cbTakesNext s then
      match args with
      | _ :: b :: r => cbStrip (b :: r)
      | _ => []
    else if s ≠ [] ∧ s.head? ≠ some 0x2d then s :: cbStrip args
    else cbStrip args

/-- cobra `Find` with `argsMinusFirstX` and `legacyArgs`. The commands below the root have no commands, so the search ends there. -/
def cbFind (args : List Bytes) : Option (CmdName × List Bytes) :=
  match cbStrip args with
  | [] => some (.root, args)
  | w :: _ =>
    match cbNext w with
    | some c => some (c, args.erase w)
    | none => none

/-- an octet string as code points, as package strings goes through it -/
def goRunes : Nat → Bytes → Str
  | 0, _ => []
  | _, [] => []
  | f + 1, b :: r =>
    match runeStep (b :: r) with
    | some (c, q) => c :: goRunes f q
    | none => Char.ofNat 0xfffd :: goRunes f r

/-- an octet string that is handed to the network or the file system: one code point for each octet -/
def octetStr (b : Bytes) : Str := b.map fun x => Char.ofNat x.toNat

/-- what `Execute` comes to -/
inductive Invoked
  | command (f : Flags) (c : Command)
  | completion (args : List Bytes)

def flagsFrom (sets : List (Flag × Bytes)) : Flags :=
  ⟨pfBool sets "json", pfInt sets "indent" 0, pfBool sets "armor", pfBool sets "cert", pfBool sets "debug", pfBool sets "int",
    pfBool sets "literal", pfBool sets "marker", pfBool sets "private", pfBool sets "utc"⟩

/-- the `RunE` functions as called by cobra `execute` -/
def cbRun (c : CmdName) (sets : List (Flag × Bytes)) (args : List Bytes) : Invoked :=
  let f := flagsFrom sets
  match c with
  | .root => .command f (.root (pfBool sets "version") (pfBool sets "clipboard") (octetStr (pfString sets "file" [])))
  | .version => .command f .version
  | .hkp => .command f (.hkp args (pfString sets "keyserver" (O "keys.gnupg.net")) (pfInt sets "port" 11371) (pfBool sets "secure") (pfBool sets "raw"))
  | .github =>
    let id := pfString sets "keyid" []
    .command f (.github (args.map octetStr) (goRunes id.length id) (pfBool sets "raw"))
  | .fetch => .command f (.fetch (args.map octetStr) (pfBool sets "raw"))
  | .completion => .completion args
  | .help => .command f (.usage false)
  | .complete => .command f (.usage false)

/-- cobra `ExecuteC` and `execute` -/
def cbExecute (args : List Bytes) : Invoked :=
  match cbFind args with
  | none => .command (flagsFrom []) (.usage true)
  | some (c, rest) =>
    if c = .complete then .command (flagsFrom []) (.usage (rest = []))
    else
      match pfParse (flagsOf c) (rest.length + 1) rest with
      | none => .command (flagsFrom []) (.usage true)
      | some (sets, pos) => if pfBool sets "help" then .command (flagsFrom sets) (.usage false) else cbRun c sets pos

/-- facade.go:157-179 `Execute(ui, args)` -/
def executeArgs (X : Ext) (W : World) (other : Nat → Nat) (script : Shell → Bytes) (stale : Bool) (args : List Bytes) : Run :=
  match cbExecute args with
  | .command f c => execute X W stale f c
  | .completion a => executeCompletion other W script stale a

end Gpgpdump
