import Verif.Github
import Verif.Json
import Verif.ThmText

/-!
# `github/structs.go` and the decoding of a page in `github/github.go:63-83`

`json.NewDecoder(resp.Body()).Decode(&keys)` with `keys []*OpenPGPKey`. The decoder belongs to the standard library (Go 1.16) and is
modelled from its source: the scanner (as a parser by recursive descent of the same language), `unquoteBytes`, and of `decodeState`
what is needed for the types in structs.go (`array`, `object`, `literalStore`, `indirect`). Every error of the decoder becomes
`ErrInvalidRequest`, so errors are not told apart: `none`. The decoder stops reading at the end of the first value, so what the server
sends after it, or an error of the connection there, has no effect; within a value, the end of the body and an error of the connection
are errors alike. Hence a body is here the octets that arrive before the end or error.

Of the decoded keys only `KeyID` and `RawKey` are kept, the others are not used in the program. Which octets `time.Time.UnmarshalJSON`
accepts is a parameter (`GithubTime.lean` has it).
-/

namespace Gpgpdump

/-- a JSON value as the scanner delimits it; numbers are kept as they are written, strings as the octets between the quotes -/
inductive JVal where
  | null
  | bool (b : Bool)
  | num (t : Bytes)
  | str (raw : Bytes)
  | arr (l : List JVal)
  | obj (l : List (Bytes × JVal))

/-! ## scanner.go -/

/-- scanner.go `isSpace` -/
def jsSpace (b : UInt8) : Bool := b = 0x20 || b = 0x09 || b = 0x0d || b = 0x0a

def jsSkip (d : Bytes) : Bytes := d.dropWhile jsSpace

def jsDigit (b : UInt8) : Bool := 0x30 ≤ b && b ≤ 0x39

/-- scanner.go `stateInStringEscU`: a hexadecimal digit -/
def jsHex (b : UInt8) : Bool := 0x30 ≤ b && b ≤ 0x39 || 0x61 ≤ b && b ≤ 0x66 || 0x41 ≤ b && b ≤ 0x46

/-- scanner.go `stateInStringEsc`: what may follow a backslash, except `u` -/
def jsEsc (b : UInt8) : Bool :=
  b = 0x62 || b = 0x66 || b = 0x6e || b = 0x72 || b = 0x74 || b = 0x5c || b = 0x2f || b = 0x22

/-- scanner.go `stateInString` to `stateInStringEscU123`: after the quote, the octets up to the next quote and what follows it -/
def jsString : Bytes → Option (Bytes × Bytes)
  | [] => none
  | [c] => if c = 0x22 then some ([], []) else none
  | c :: e :: r =>
    if c = 0x22 then some ([], e :: r)
    else if c = 0x5c then
      if e = 0x75 then
        match r with
        | h1 :: h2 :: h3 :: h4 :: r' =>
          if jsHex h1 && jsHex h2 && jsHex h3 && jsHex h4 then (jsString r').map fun x => (c :: e :: h1 :: h2 :: h3 :: h4 :: x.1, x.2) else none
        | _ => none
      else if jsEsc e then (jsString r).map fun x => (c :: e :: x.1, x.2)
      else none
    else if c < 0x20 then none
    else (jsString (e :: r)).map fun x => (c :: x.1, x.2)

/-- the digits at the front -/
def jsDigits (d : Bytes) : Bytes × Bytes := (d.takeWhile jsDigit, d.dropWhile jsDigit)

/-- scanner.go `stateE`, `stateESign`, `stateE0`: the exponent, if there is one -/
def jsExp (d : Bytes) : Option (Bytes × Bytes) :=
  match d with
  | [] => some ([], [])
  | e :: r =>
    if e = 0x65 || e = 0x45 then
      let s : Bytes × Bytes := match r with
        | x :: r' => if x = 0x2b || x = 0x2d then ([x], r') else ([], r)
        | [] => ([], [])
      let n := jsDigits s.2
      if n.1 = [] then none else some (e :: s.1 ++ n.1, n.2)
    else some ([], d)

/-- scanner.go `stateDot`, `stateDot0`: the fraction, if there is one -/
def jsFrac (d : Bytes) : Option (Bytes × Bytes) :=
  match d with
  | [] => some ([], [])
  | p :: r =>
    if p = 0x2e then
      let n := jsDigits r
      if n.1 = [] then none else some (p :: n.1, n.2)
    else some ([], d)

/-- scanner.go `stateNeg`, `state0`, `state1`: the digits in front of the fraction -/
def jsInt (d : Bytes) : Option (Bytes × Bytes) :=
  match d with
  | [] => none
  | c :: r =>
    if c = 0x30 then some ([c], r)
    else if jsDigit c then some (jsDigits d)
    else none

/-- scanner.go: a number -/
def jsNumber (d : Bytes) : Option (Bytes × Bytes) :=
  let s : Bytes × Bytes := if d.head? = some 0x2d then ([0x2d], d.drop 1) else ([], d)
  (jsInt s.2).bind fun i =>
  (jsFrac i.2).bind fun f =>
  (jsExp f.2).map fun e => (s.1 ++ i.1 ++ f.1 ++ e.1, e.2)

/-- `true`, `false`, `null` (scanner.go `stateT` to `stateNul`) -/
def jsWord (w : Bytes) (v : JVal) (d : Bytes) : Option (JVal × Bytes) := if w <+: d then some (v, d.drop w.length) else none

mutual
/-- scanner.go `stateBeginValue`: the value at the front and what follows it. Every call has less octets before it than `fuel`. -/
def jsValue : Nat → Bytes → Option (JVal × Bytes)
  | 0, _ => none
  | _, [] => none
  | f + 1, c :: r =>
    if c = 0x6e then jsWord [0x75, 0x6c, 0x6c] .null r
    else if c = 0x74 then jsWord [0x72, 0x75, 0x65] (.bool true) r
    else if c = 0x66 then jsWord [0x61, 0x6c, 0x73, 0x65] (.bool false) r
    else if c = 0x22 then (jsString r).map fun x => (.str x.1, x.2)
    else if c = 0x5b then
      match jsSkip r with
      | 0x5d :: r' => some (.arr [], r')
      | _ => (jsElems f r).map fun x => (.arr x.1, x.2)
    else if c = 0x7b then
      match jsSkip r with
      | 0x7d :: r' => some (.obj [], r')
      | _ => (jsMembers f r).map fun x => (.obj x.1, x.2)
    else (jsNumber (c :: r)).map fun x => (.num x.1, x.2)
/-- scanner.go `stateEndValue` in an array: elements up to the closing bracket -/
def jsElems : Nat → Bytes → Option (List JVal × Bytes)
  | 0, _ => none
  | f + 1, d =>
    (jsValue f (jsSkip d)).bind fun x =>
      match jsSkip x.2 with
      | 0x2c :: r => (jsElems f r).map fun y => (x.1 :: y.1, y.2)
      | 0x5d :: r => some ([x.1], r)
      | _ => none
/-- scanner.go `stateBeginString` and `stateEndValue` in an object: members up to the closing brace -/
def jsMembers : Nat → Bytes → Option (List (Bytes × JVal) × Bytes)
  | 0, _ => none
  | f + 1, d =>
    match jsSkip d with
    | 0x22 :: r =>
      (jsString r).bind fun k =>
        match jsSkip k.2 with
        | 0x3a :: r' =>
          (jsValue f (jsSkip r')).bind fun x =>
            match jsSkip x.2 with
            | 0x2c :: r'' => (jsMembers f r'').map fun y => ((k.1, x.1) :: y.1, y.2)
            | 0x7d :: r'' => some ([(k.1, x.1)], r'')
            | _ => none
        | _ => none
    | _ => none
end

mutual
/-- how deep arrays and objects are nested (scanner.go `pushParseState`) -/
def JVal.depth : JVal → Nat
  | .arr l => JVal.depths l + 1
  | .obj l => JVal.memberDepths l + 1
  | _ => 0
def JVal.depths : List JVal → Nat
  | [] => 0
  | v :: l => max v.depth (JVal.depths l)
def JVal.memberDepths : List (Bytes × JVal) → Nat
  | [] => 0
  | m :: l => max m.2.depth (JVal.memberDepths l)
end

/-- stream.go `readValue`: the first value of a body; `jsonMaxNesting` is the limit of the scanner -/
def jsFirst (body : Bytes) : Option JVal :=
  match jsValue (body.length + 1) (jsSkip body) with
  | some (v, _) => if v.depth ≤ jsonMaxNesting then some v else none
  | none => none

/-! ## decode.go -/

/-- the value of a hexadecimal digit (`getu4`) -/
def jsHexVal (b : UInt8) : Nat := if b ≤ 0x39 then b.toNat - 0x30 else if b ≤ 0x46 then b.toNat - 0x37 else b.toNat - 0x57

def jsHex4 (a b c d : UInt8) : Nat := jsHexVal a * 4096 + jsHexVal b * 256 + jsHexVal c * 16 + jsHexVal d

/-- decode.go `unquoteBytes`: the two-character escapes -/
def jsEscChar (e : UInt8) : Char :=
  if e = 0x62 then Char.ofNat 8 else if e = 0x66 then Char.ofNat 12 else if e = 0x6e then '\n' else if e = 0x72 then '\r'
  else if e = 0x74 then '\t' else Char.ofNat e.toNat

/-- `utf16.DecodeRune(rr, rr1)`, where what follows the first escape is `d`: the code point and the rest behind the second escape -/
def jsPair (n : Nat) (d : Bytes) : Option (Char × Bytes) :=
  match d with
  | 0x5c :: 0x75 :: h1 :: h2 :: h3 :: h4 :: r =>
    if jsHex h1 && jsHex h2 && jsHex h3 && jsHex h4 then
      let m := jsHex4 h1 h2 h3 h4
      if 0xd800 ≤ n ∧ n < 0xdc00 ∧ 0xdc00 ≤ m ∧ m < 0xe000 then some (Char.ofNat ((n - 0xd800) * 1024 + (m - 0xdc00) + 0x10000), r) else none
    else none
  | _ => none

/-- decode.go `unquoteBytes` on octets that the scanner has accepted: the string as code points. Every round takes an octet. -/
def jsUnquote : Nat → Bytes → Str
  | 0, _ => []
  | _, [] => []
  | f + 1, c :: r =>
    if c = 0x5c then
      match r with
      | [] => []
      | e :: r' =>
        if e = 0x75 then
          match r' with
          | h1 :: h2 :: h3 :: h4 :: r'' =>
            let n := jsHex4 h1 h2 h3 h4
            if 0xd800 ≤ n ∧ n < 0xe000 then
              match jsPair n r'' with
              | some (x, q) => x :: jsUnquote f q
              | none => Char.ofNat 0xfffd :: jsUnquote f r''
            else Char.ofNat n :: jsUnquote f r''
          | _ => []
        else jsEscChar e :: jsUnquote f r'
    else
      match runeStep (c :: r) with
      | some (x, q) => x :: jsUnquote f q
      | none => Char.ofNat 0xfffd :: jsUnquote f r

def unquote (raw : Bytes) : Str := jsUnquote raw.length raw

/-- the Go types of the fields in structs.go -/
inductive GHType
  | int64      -- int64, *int64
  | string
  | stringPtr  -- *string
  | bool
  | time       -- *time.Time
  | emails     -- []*EMailInfo
  | keys       -- []*OpenPGPKey
  deriving DecidableEq

/-- structs.go:5-19 `OpenPGPKey` -/
def keyFields : List (String × GHType) :=
  [("id", .int64), ("primary_key_id", .int64), ("key_id", .string), ("raw_key", .stringPtr), ("public_key", .string), ("emails", .emails),
    ("subkeys", .keys), ("can_sign", .bool), ("can_encrypt_comms", .bool), ("can_encrypt_storage", .bool), ("can_certify", .bool),
    ("created_at", .time), ("expires_at", .time)]

/-- structs.go:21-24 `EMailInfo` -/
def emailFields : List (String × GHType) := [("email", .string), ("verified", .bool)]

/-- fold.go `equalFoldRight`, for one character of a field name; `asciiEqualFold` and `simpleLetterEqualFold` are the same for names
without `k` and `s` -/
def jsFoldChar (s t : Char) : Bool :=
  if t.toNat < 0x80 then
    s == t || (s.isAlpha && (t.toNat == s.toNat + 32 || t.toNat + 32 == s.toNat) && t.isAlpha)
  else (s == 's' || s == 'S') && t.toNat == 0x17f || (s == 'k' || s == 'K') && t.toNat == 0x212a

def jsFold : Str → Str → Bool
  | [], [] => true
  | s :: ss, t :: ts => jsFoldChar s t && jsFold ss ts
  | _, _ => false

/-- decode.go `object`: the field for a key, first by its exact name, then by the first name that is equal under folding -/
def jsField (fields : List (String × GHType)) (key : Str) : Option (String × GHType) :=
  match fields.find? (fun f => f.1.toList == key) with
  | some f => some f
  | none => fields.find? (fun f => jsFold f.1.toList key)

/-- `strconv.ParseInt(s, 10, 64)` on a number of the scanner -/
def jsInt64 (t : Bytes) : Bool :=
  let neg := t.head? == some 0x2d
  let ds := if neg then t.drop 1 else t
  let n := ds.foldl (fun n b => n * 10 + (b.toNat - 0x30)) 0
  ds.all jsDigit && ds ≠ [] && (if neg then n ≤ 2 ^ 63 else n < 2 ^ 63)

section
variable (T : Bytes → Bool)

/-- decode.go `literalStore` for the types without structure; `null` is accepted by all -/
def jsLiteral (t : GHType) (v : JVal) : Bool :=
  match t, v with
  | _, .null => true
  | .int64, .num x => jsInt64 x
  | .string, .str _ => true
  | .stringPtr, .str _ => true
  | .bool, .bool _ => true
  | .time, .str raw => T raw
  | _, _ => false

/-- an `*EMailInfo`: every member with a known name has the right type -/
def jsEmail : JVal → Bool
  | .null => true
  | .obj l => l.all fun m => match jsField emailFields (unquote m.1) with
    | none => true
    | some f => jsLiteral T f.2 m.2
  | _ => false

/-- a member of an `OpenPGPKey` that has no structure: `KeyID` keeps its value for `null`, `RawKey` becomes nil -/
def GHKey.store (k : GHKey) (name : String) (v : JVal) : GHKey :=
  if name = "key_id" then
    match v with
    | .str raw => { k with keyID := unquote raw }
    | _ => k
  else if name = "raw_key" then
    match v with
    | .str raw => { k with rawKey := some (Spec.utf8 (unquote raw)) }
    | .null => { k with rawKey := none }
    | _ => k
  else k

mutual
/-- decode.go `object` into an `*OpenPGPKey` -/
def jsKey : JVal → Option (Option GHKey)
  | .null => some none
  | .obj l => (jsStore ⟨[], none⟩ l).map some
  | _ => none
/-- decode.go `array` into a `[]*OpenPGPKey` -/
def jsKeys : List JVal → Option (List (Option GHKey))
  | [] => some []
  | v :: l => (jsKey v).bind fun k => (jsKeys l).map fun ks => k :: ks
/-- the members of an object one after the other -/
def jsStore (k : GHKey) : List (Bytes × JVal) → Option GHKey
  | [] => some k
  | (key, v) :: l =>
    match jsField keyFields (unquote key) with
    | none => jsStore k l
    | some (name, t) =>
      if jsMember t v then jsStore (k.store name v) l else none
/-- whether a value fits the type of a field -/
def jsMember (t : GHType) (v : JVal) : Bool :=
  match t, v with
  | .emails, .arr l => l.all (jsEmail T)
  | .keys, .arr l => (jsKeys l).isSome
  | t, v => jsLiteral T t v
end

/-- github.go:78-82 the decoded body; `null` gives a nil slice -/
def pageKeys (body : Bytes) : Option (List (Option GHKey)) :=
  match jsFirst body with
  | some .null => some []
  | some (.arr l) => jsKeys T l
  | _ => none

/-- github.go:63-83 `getInPage`, where the client gives an error or a body -/
def getInPage : Except GHErr Bytes → GHPage
  | .error e => .error e
  | .ok body =>
    match pageKeys T body with
    | some ks => .ok ks
    | none => .error (.request 0)
end

end Gpgpdump
