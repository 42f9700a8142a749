import Verif.Basic

/-!
# `hkp/hkp.go`

Strings are octets. `net/url` (`QueryEscape`, `Values.Encode`, `URL.String`) belongs to the standard library and is modelled from its
source; sending the request (package fetch) is not modelled.
-/

namespace Gpgpdump

/-- net/url `ishex`-style upper case digit (`"0123456789ABCDEF"[n]`) -/
def upperHex (n : Nat) : Char := if n < 10 then Char.ofNat (48 + n) else Char.ofNat (55 + n)

/-- `a-z`, `A-Z`, `0-9` -/
def isAlnum (b : UInt8) : Bool :=
  (97 ≤ b.toNat && b.toNat ≤ 122) || (65 ≤ b.toNat && b.toNat ≤ 90) || (48 ≤ b.toNat && b.toNat ≤ 57)

/-- `-`, `_`, `.`, `~` -/
def isMark (b : UInt8) : Bool := b = 45 || b = 95 || b = 46 || b = 126

/-- net/url `escape`, an octet that must be escaped -/
def pctEscape (b : UInt8) : Str := ['%', upperHex (b.toNat / 16), upperHex (b.toNat % 16)]

/-- net/url `QueryEscape` (mode encodeQueryComponent), one octet -/
def queryEscapeByte (b : UInt8) : Str :=
  if b = 32 then ['+'] else if isAlnum b || isMark b then [Char.ofNat b.toNat] else pctEscape b

/-- net/url `QueryEscape` -/
def queryEscape (b : Bytes) : Str := b.flatMap queryEscapeByte

/-- net/url `escape(s, encodeHost)`, one octet: also keeps `! $ & ' ( ) * + , ; = : [ ] < > "` -/
def hostEscapeByte (b : UInt8) : Str :=
  if isAlnum b || isMark b || [33, 36, 38, 39, 40, 41, 42, 43, 44, 59, 61, 58, 91, 93, 60, 62, 34].contains b.toNat then
    [Char.ofNat b.toNat]
  else pctEscape b

def hostEscape (b : Bytes) : Str := b.flatMap hostEscapeByte

/-- order of Go strings -/
def bytesLt : Bytes → Bytes → Bool
  | [], [] => false
  | [], _ :: _ => true
  | _ :: _, [] => false
  | a :: as, b :: bs => a.toNat < b.toNat || (a = b && bytesLt as bs)

def insertKey (kv : Bytes × Bytes) : List (Bytes × Bytes) → List (Bytes × Bytes)
  | [] => [kv]
  | x :: l => if bytesLt x.1 kv.1 then x :: insertKey kv l else kv :: x :: l

/-- `sort.Strings(keys)` -/
def sortKeys : List (Bytes × Bytes) → List (Bytes × Bytes)
  | [] => []
  | kv :: l => insertKey kv (sortKeys l)

def encodePairs : List (Bytes × Bytes) → Str
  | [] => []
  | [(k, v)] => queryEscape k ++ ['='] ++ queryEscape v
  | (k, v) :: l => queryEscape k ++ ['='] ++ queryEscape v ++ ['&'] ++ encodePairs l

/-- net/url `Values.Encode` for values with one string for each key -/
def valuesEncode (vs : List (Bytes × Bytes)) : Str := encodePairs (sortKeys vs)

/-- net/url `URL`, the fields used here -/
structure URL where
  scheme : Str
  host : Bytes
  path : Str
  rawQuery : Str
  deriving DecidableEq

/-- net/url `(*URL).String()` when scheme and host are not empty and the path is empty or starts with a slash and needs no escaping -/
def URL.text (u : URL) : Str :=
  u.scheme ++ S "://" ++ hostEscape u.host ++ u.path ++ (if u.rawQuery = [] then [] else ['?'] ++ u.rawQuery)

/-- hkp.go:15-20 `Protocol` -/
abbrev Protocol := Int

/-- hkp.go:22-32 `Protocol.String` -/
def Protocol.str (p : Protocol) : Str := if p = 1 then S "http" else if p = 2 then S "https" else S "http"

/-- hkp.go:35-39 `Server` -/
structure Server where
  prt : Protocol
  host : Bytes
  port : Int

/-- hkp.go:41-65 the options of `New` -/
inductive ServerOpt where
  | protocol (p : Protocol)
  | port (n : Int)

/-- hkp.go:53-65 -/
def ServerOpt.apply (s : Server) : ServerOpt → Server
  | .protocol p => { s with prt := p }
  | .port n => { s with port := n }

/-- hkp.go:45-51 `New` -/
def serverNew (host : Bytes) (opts : List ServerOpt) : Server := opts.foldl ServerOpt.apply ⟨1, host, 11371⟩

def asciiBytes (s : Str) : Bytes := s.map (fun c => UInt8.ofNat c.toNat)

/-- hkp.go:76-81 `(*Server).URL`; the assignment in `if s == nil { s = nil }` does nothing, so a nil receiver panics -/
def serverURL : Option Server → Res URL
  | none => .panic .nilDeref
  | some s => .ok ⟨s.prt.str, s.host ++ asciiBytes (S ":") ++ asciiBytes (decInt s.port), [], []⟩

/-- hkp.go:67-73 `(*Server).String` -/
def serverString (s : Option Server) : Res Str := (serverURL s).map URL.text

/-- hkp.go:83-97 `Fetch`: the URL passed to the client -/
def serverFetch (s : Option Server) (userID : Bytes) : Res URL :=
  (serverURL s).map (fun u => { u with
    path := S "/pks/lookup",
    rawQuery := valuesEncode [(asciiBytes (S "search"), userID), (asciiBytes (S "op"), asciiBytes (S "get"))] })

#guard (serverFetch (some (serverNew (asciiBytes (S "keys.gnupg.net")) [.protocol 2, .port 443])) (asciiBytes (S "a b&c=\n"))).map URL.text =
  .ok (S "https://keys.gnupg.net:443/pks/lookup?op=get&search=a+b%26c%3D%0A")

end Gpgpdump
