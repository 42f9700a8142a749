import Verif.Result
import Verif.Utf8

/-!
# `parse/result/result.go:34-44`: `(*Info).JSON`

Go strings are octets, so the tree is taken here with octet strings (`GItem`); `Item.go` turns a tree of the parser model, whose
strings are code points, into one. The output is written as code points: what `encoding/json` copies is valid UTF-8 (it replaces
the rest by `�`) and everything else it writes is ASCII.

`json.Marshal`, `json.MarshalIndent` and `json.Indent` belong to the standard library (Go 1.16) and are modelled from its source:
`encodeState.string` with `escapeHTML`, `structEncoder`, `arrayEncoder`, `Indent`, and of the scanner what `Indent` sees of it
(which octets are inside strings, what is skipped as space, and the nesting limit). The syntax errors of the scanner are not
modelled: its input is the output of `Marshal`.
-/

namespace Gpgpdump

/-- result.go:67-73 `Item` with Go strings. Children are never nil (`Add` drops nil). -/
inductive GItem where
  | mk (name value dump note : Bytes) (items : List GItem)
  deriving Repr

/-- `utf8.DecodeRuneInString(s)`: the code point at the front and what follows it, `none` for `(RuneError, 1)` -/
def runeStep (b : Bytes) : Option (Char × Bytes) :=
  [1, 2, 3, 4].findSome? (fun k => match utf8Decode (b.take k) with
    | some [c] => some (c, b.drop k)
    | _ => none)

/-- `encodeState.string` (escapeHTML): one valid code point -/
def jsonChar (c : Char) : Str :=
  if c = '\\' then ['\\', '\\']
  else if c = '"' then ['\\', '"']
  else if c = '\n' then ['\\', 'n']
  else if c = '\r' then ['\\', 'r']
  else if c = '\t' then ['\\', 't']
  else if c.toNat < 0x20 ∨ c = '<' ∨ c = '>' ∨ c = '&' then
    S "\\u00" ++ [digit (c.toNat / 16), digit (c.toNat % 16)]
  else if c.toNat = 0x2028 ∨ c.toNat = 0x2029 then S "\\u202" ++ [digit (c.toNat % 16)]
  else [c]

/-- the loop of `encodeState.string`; every round consumes at least one octet -/
def jsonChars : Nat → Bytes → Str
  | 0, _ => []
  | _ + 1, [] => []
  | n + 1, b :: bs =>
    match runeStep (b :: bs) with
    | some (c, r) => jsonChar c ++ jsonChars n r
    | none => S "\\ufffd" ++ jsonChars n bs

/-- `encodeState.string` -/
def jsonString (b : Bytes) : Str := ['"'] ++ jsonChars b.length b ++ ['"']

/-- `"key":` in front of a field value (`structEncoder`, `nameEscHTML`) -/
def jsonKey (k : Str) : Str := ['"'] ++ k ++ ['"', ':']

/-- a string field with `omitempty`: preceded by a comma because `name` is always written -/
def jsonOpt (k : Str) (b : Bytes) : Str :=
  if b.length = 0 then [] else [','] ++ jsonKey k ++ jsonString b

mutual
/-- `structEncoder` for `Item` (result.go:67-73) -/
def GItem.marshal : GItem → Str
  | .mk n v d t is =>
    ['{'] ++ jsonKey (S "name") ++ jsonString n ++ jsonOpt (S "value") v ++ jsonOpt (S "dump") d ++ jsonOpt (S "note") t ++
      (match is with
       | [] => []
       | i :: is => [','] ++ jsonKey (S "Item") ++ ['['] ++ i.marshal ++ marshalMore is ++ [']']) ++ ['}']
/-- `arrayEncoder`: the elements after the first one -/
def marshalMore : List GItem → Str
  | [] => []
  | i :: is => [','] ++ i.marshal ++ marshalMore is
end

/-- `json.Marshal(info)` (result.go:12-14, `Packet` with `omitempty`) -/
def marshalInfo : List GItem → Str
  | [] => S "{}"
  | i :: is => ['{'] ++ jsonKey (S "Packet") ++ ['['] ++ i.marshal ++ marshalMore is ++ [']', '}']

/-- encoding/json `newline(dst, prefix = "", indent, depth)` -/
def jsonNewline (indent : Str) (depth : Nat) : Str := ['\n'] ++ repeatStr indent depth

/-- `maxNestingDepth` of the encoding/json scanner -/
def jsonMaxNesting : Nat := 10000

/-- The loop of `json.Indent`. `str`: the scanner is inside a string, `esc`: just after a backslash there;
`need`, `depth`: the variables `needIndent` and `depth` of `Indent`. At an opening bracket the scanner has as many brackets open
as `depth` says (after the delayed increment). The result is `none` when the scanner reports an error. -/
def indentRun (indent : Str) : (str esc need : Bool) → (depth : Nat) → Str → Option Str
  | _, _, _, _, [] => some []
  | true, esc, need, depth, c :: cs =>
    (indentRun indent (esc || c != '"') (!esc && c == '\\') need depth cs).map ([c] ++ ·)
  | false, _, need, depth, c :: cs =>
    if c = ' ' ∨ c = '\t' ∨ c = '\n' ∨ c = '\r' then indentRun indent false false need depth cs
    else if c = '}' ∨ c = ']' then
      if need then (indentRun indent false false false depth cs).map ([c] ++ ·)
      else (indentRun indent false false false (depth - 1) cs).map (jsonNewline indent (depth - 1) ++ [c] ++ ·)
    else
      let pre := if need then jsonNewline indent (depth + 1) else []
      let depth := if need then depth + 1 else depth
      if c = '{' ∨ c = '[' then
        if depth + 1 > jsonMaxNesting then none
        else (indentRun indent false false true depth cs).map (pre ++ [c] ++ ·)
      else if c = ',' then (indentRun indent false false false depth cs).map (pre ++ [c] ++ jsonNewline indent depth ++ ·)
      else if c = ':' then (indentRun indent false false false depth cs).map (pre ++ [c, ' '] ++ ·)
      else (indentRun indent (c == '"') false false depth cs).map (pre ++ [c] ++ ·)

/-- `json.Indent(dst, src, "", indent)` -/
def jsonIndent (indent src : Str) : Option Str := indentRun indent false false false 0 src

/-- result.go:34-44 `(*Info).JSON(indent)` for a non-nil `Info`: the text, or `none` with an error -/
def infoJSON (indent : Int) (packets : List GItem) : Option Str :=
  if indent > 0 then jsonIndent (repeatStr [' '] indent.toNat) (marshalInfo packets)
  else some (marshalInfo packets)

#guard infoJSON 0 [.mk [110] [] [0, 255, 60] [] [.mk [109] [34] [] [] []]] =
  some (S "{\"Packet\":[{\"name\":\"n\",\"dump\":\"\\u0000\\ufffd\\u003c\",\"Item\":[{\"name\":\"m\",\"value\":\"\\\"\"}]}]}")
#guard infoJSON 2 [.mk [110] [] [] [] [.mk [109] [34] [] [] []]] =
  some (S "{\n  \"Packet\": [\n    {\n      \"name\": \"n\",\n      \"Item\": [\n        {\n          \"name\": \"m\",\n          \"value\": \"\\\"\"\n        }\n      ]\n    }\n  ]\n}")
#guard infoJSON 2 [] = some (S "{}")

end Gpgpdump
