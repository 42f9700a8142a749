import Verif.Github

/-!
# URLs that are made from arguments (`github/github.go`, `facade/fetch.go` and net/url)

net/url of Go 1.16 is modelled from its source: `Parse`, `URL.String`, `ParseQuery`, `Values.Set`, `Values.Encode`. Strings are
octets; `none` stands for an error, whose text is not modelled. `fetch.URL` is `url.Parse` with the error wrapped.
-/

namespace Gpgpdump

/-- net/url `encoding` -/
inductive UrlMode
  | path
  | userPassword
  | host
  | zone
  | query
  | fragment
  deriving DecidableEq

def isOneOf (s : String) (c : UInt8) : Bool := (asciiBytes s.toList).contains c

/-- net/url `shouldEscape` -/
def shouldEscape (c : UInt8) (m : UrlMode) : Bool :=
  if isAlnum c then false
  else if (m = .host || m = .zone) && isOneOf "!$&'()*+,;=:[]<>\"" c then false
  else if isMark c then false
  else if isOneOf "$&+,/:;=?@" c && decide (m ≠ .host) && decide (m ≠ .zone) then
    match m with
    | .path => c = 0x3f
    | .userPassword => isOneOf "@/?:" c
    | .query => true
    | _ => false
  else if m = .fragment && isOneOf "!()*" c then false
  else true

/-- net/url `ishex` and `unhex` -/
def unhex (c : UInt8) : Option Nat :=
  if 48 ≤ c.toNat ∧ c.toNat ≤ 57 then some (c.toNat - 48)
  else if 97 ≤ c.toNat ∧ c.toNat ≤ 102 then some (c.toNat - 97 + 10)
  else if 65 ≤ c.toNat ∧ c.toNat ≤ 70 then some (c.toNat - 65 + 10)
  else none

/-- net/url `unescape`: an escape sequence that is refused in this part -/
def badTriple (m : UrlMode) (x y : Nat) : Bool :=
  (decide (m = .host) && decide (x < 8) && !(decide (x = 2) && decide (y = 5))) ||
  (decide (m = .zone) && !(decide (x = 2) && decide (y = 5)) && decide (x * 16 + y ≠ 32) && shouldEscape (UInt8.ofNat (x * 16 + y)) .host)

/-- net/url `unescape` -/
def urlUnescape (m : UrlMode) : Bytes → Option Bytes
  | [] => some []
  | c :: r =>
    if c = 0x25 then
      match r with
      | a :: b :: r =>
        match unhex a, unhex b with
        | some x, some y => if badTriple m x y then none else (urlUnescape m r).map (UInt8.ofNat (x * 16 + y) :: ·)
        | _, _ => none
      | _ => none
    else if c = 0x2b then (urlUnescape m r).map ((if m = .query then 32 else c) :: ·)
    else if (m = .host || m = .zone) && decide (c.toNat < 128) && shouldEscape c m then none
    else (urlUnescape m r).map (c :: ·)

/-- net/url `escape` -/
def urlEscape (m : UrlMode) (s : Bytes) : Bytes :=
  s.flatMap fun c =>
    if shouldEscape c m then
      if c = 32 && m = .query then [0x2b] else asciiBytes (pctEscape c)
    else [c]

/-- net/url `validEncoded` -/
def validEncoded (s : Bytes) (m : UrlMode) : Bool := s.all fun c => isOneOf "!$&'()*+,;=:@[]%" c || !shouldEscape c m

/-- before the first separator, and what is behind it if there is one -/
def cutByte (sep : UInt8) : Bytes → Bytes × Option Bytes
  | [] => ([], none)
  | c :: r => if c = sep then ([], some r) else (c :: (cutByte sep r).1, (cutByte sep r).2)

/-- before the last separator and behind it (`strings.LastIndex`) -/
def cutLast (sep : UInt8) (s : Bytes) : Option (Bytes × Bytes) :=
  match cutByte sep s.reverse with
  | (b, some a) => some (a.reverse, b.reverse)
  | (_, none) => none

/-- net/url `URL`; `user` is a name with an optional password, `rootless` the field `Opaque` -/
structure GoURL where
  scheme : Bytes := []
  rootless : Bytes := []
  user : Option (Bytes × Option Bytes) := none
  host : Bytes := []
  path : Bytes := []
  rawPath : Bytes := []
  forceQuery : Bool := false
  rawQuery : Bytes := []
  fragment : Bytes := []
  rawFragment : Bytes := []
  deriving DecidableEq

/-- net/url `getscheme` at index `i`: the scheme and the rest; the outer `none` is the error -/
def getScheme (all : Bytes) : Nat → Bytes → Option (Bytes × Bytes)
  | _, [] => some ([], all)
  | i, c :: r =>
    if (97 ≤ c.toNat && c.toNat ≤ 122) || (65 ≤ c.toNat && c.toNat ≤ 90) then getScheme all (i + 1) r
    else if (48 ≤ c.toNat && c.toNat ≤ 57) || c = 0x2b || c = 0x2d || c = 0x2e then
      if i = 0 then some ([], all) else getScheme all (i + 1) r
    else if c = 0x3a then
      if i = 0 then none else some (all.take i, r)
    else some ([], all)

/-- `strings.ToLower` on a scheme, which is ASCII -/
def lowerByte (c : UInt8) : UInt8 := if 65 ≤ c.toNat ∧ c.toNat ≤ 90 then c + 32 else c

/-- net/url `validOptionalPort` -/
def validOptionalPort : Bytes → Bool
  | [] => true
  | c :: r => c = 0x3a && r.all fun b => 48 ≤ b.toNat && b.toNat ≤ 57

/-- `strings.Index(s, "%25")`: before the first such sequence, and the rest from there -/
def cutZone : Bytes → Option (Bytes × Bytes)
  | [] => none
  | c :: r =>
    if asciiBytes (S "%25") <+: c :: r then some ([], c :: r)
    else (cutZone r).map fun p => (c :: p.1, p.2)

/-- net/url `parseHost` -/
def parseHost (host : Bytes) : Option Bytes :=
  if host.head? = some 0x5b then
    match cutLast 0x5d host with
    | none => none
    | some (before, port) =>
      if validOptionalPort port then
        match cutZone before with
        | some (h1, h2) => do
          let h1 ← urlUnescape .host h1
          let h2 ← urlUnescape .zone h2
          let h3 ← urlUnescape .host (0x5d :: port)
          some (h1 ++ h2 ++ h3)
        | none => urlUnescape .host host
      else none
  else
    match cutLast 0x3a host with
    | some (_, port) => if validOptionalPort (0x3a :: port) then urlUnescape .host host else none
    | none => urlUnescape .host host

/-- net/url `validUserinfo` -/
def validUserinfo (s : Bytes) : Bool := s.all fun c => isAlnum c || isOneOf "-._:~!$&'()*+,;=%@" c

/-- net/url `parseAuthority` -/
def parseAuthority (a : Bytes) : Option (Option (Bytes × Option Bytes) × Bytes) :=
  match cutLast 0x40 a with
  | none => (parseHost a).map fun h => (none, h)
  | some (info, host) => do
    let h ← parseHost host
    if validUserinfo info then
      match cutByte 0x3a info with
      | (n, none) => do
        let n ← urlUnescape .userPassword n
        some (some (n, none), h)
      | (n, some p) => do
        let n ← urlUnescape .userPassword n
        let p ← urlUnescape .userPassword p
        some (some (n, some p), h)
    else none

/-- net/url `(*URL).setPath` -/
def GoURL.setPath (u : GoURL) (p : Bytes) : Option GoURL :=
  (urlUnescape .path p).map fun d => { u with path := d, rawPath := if urlEscape .path d = p then [] else p }

/-- net/url `(*URL).setFragment` -/
def GoURL.setFragment (u : GoURL) (f : Bytes) : Option GoURL :=
  (urlUnescape .fragment f).map fun d => { u with fragment := d, rawFragment := if urlEscape .fragment d = f then [] else f }

/-- net/url `stringContainsCTLByte` -/
def hasCTL (s : Bytes) : Bool := s.any fun c => c.toNat < 32 || c = 0x7f

/-- net/url `parse`: behind the scheme and the query -/
def parseRest (u : GoURL) (rest : Bytes) : Option GoURL :=
  if rest.head? ≠ some 0x2f && u.scheme ≠ [] then some { u with rootless := rest }
  else if rest.head? ≠ some 0x2f && (cutByte 0x2f rest).1.contains 0x3a then none
  else if (u.scheme ≠ [] || !decide (asciiBytes (S "///") <+: rest)) && decide (asciiBytes (S "//") <+: rest) then
    let c := cutByte 0x2f (rest.drop 2)
    match parseAuthority c.1 with
    | none => none
    | some (user, host) => GoURL.setPath { u with user := user, host := host } (match c.2 with | some r => 0x2f :: r | none => [])
  else u.setPath rest

/-- net/url `parse` with `viaRequest` false -/
def urlParse1 (s : Bytes) : Option GoURL :=
  if hasCTL s then none
  else if s = [0x2a] then some { path := [0x2a] }
  else
    match getScheme s 0 s with
    | none => none
    | some (scheme, rest) =>
      let scheme := scheme.map lowerByte
      match cutByte 0x3f rest with
      | (rest, none) => parseRest { scheme := scheme } rest
      | (rest, some []) => parseRest { scheme := scheme, forceQuery := true } rest
      | (rest, some q) => parseRest { scheme := scheme, rawQuery := q } rest

/-- net/url `Parse` -/
def urlParse (s : Bytes) : Option GoURL :=
  match cutByte 0x23 s with
  | (t, none) => urlParse1 t
  | (t, some f) => do
    let u ← urlParse1 t
    if f = [] then some u else u.setFragment f

/-- net/url `EscapedPath` and `EscapedFragment` -/
def escapedPart (m : UrlMode) (raw d : Bytes) : Bytes :=
  if raw ≠ [] && validEncoded raw m && decide (urlUnescape m raw = some d) then raw
  else if d = [0x2a] && m = .path then [0x2a]
  else urlEscape m d

/-- net/url `(*Userinfo).String` -/
def userText : Bytes × Option Bytes → Bytes
  | (n, none) => urlEscape .userPassword n
  | (n, some p) => urlEscape .userPassword n ++ 0x3a :: urlEscape .userPassword p

/-- net/url `(*URL).String`: scheme, user and host -/
def GoURL.front (u : GoURL) : Bytes :=
  (if u.scheme ≠ [] then u.scheme ++ [0x3a] else []) ++
  (if u.scheme ≠ [] || u.host ≠ [] || u.user ≠ none then
    (if u.host ≠ [] || u.path ≠ [] || u.user ≠ none then asciiBytes (S "//") else []) ++
    (match u.user with | some x => userText x ++ [0x40] | none => []) ++ urlEscape .host u.host
   else [])

/-- net/url `(*URL).String` -/
def GoURL.text (u : GoURL) : Bytes :=
  (if u.rootless ≠ [] then (if u.scheme ≠ [] then u.scheme ++ [0x3a] else []) ++ u.rootless
   else
    let path := escapedPart .path u.rawPath u.path
    u.front ++ (if path ≠ [] && path.head? ≠ some 0x2f && u.host ≠ [] then [0x2f] else []) ++
      (if u.front = [] && path.contains 0x3a && !(cutByte 0x3a path).1.contains 0x2f then
        asciiBytes (S "./") else []) ++ path) ++
  (if u.forceQuery || u.rawQuery ≠ [] then 0x3f :: u.rawQuery else []) ++
  (if u.fragment ≠ [] then 0x23 :: escapedPart .fragment u.rawFragment u.fragment else [])

/-- before the first `&` or `;`, and what is behind it -/
def cutPair : Bytes → Bytes × Option Bytes
  | [] => ([], none)
  | c :: r => if c = 0x26 || c = 0x3b then ([], some r) else (c :: (cutPair r).1, (cutPair r).2)

/-- net/url `parseQuery` (Go 1.16: `;` separates too), one pair; malformed ones are left out -/
def parsePair (t : Bytes) : List (Bytes × Bytes) :=
  if t = [] then []
  else
    match urlUnescape .query (cutByte 0x3d t).1, urlUnescape .query ((cutByte 0x3d t).2.getD []) with
    | some k, some v => [(k, v)]
    | _, _ => []

theorem cutPair_length (q r : Bytes) (h : (cutPair q).2 = some r) : r.length < q.length := by
  induction q with
  | nil => cases h
  | cons c q ih =>
    rw [cutPair] at h
    split at h
    · cases h; simp
    · exact Nat.lt_succ_of_lt (ih h)

/-- `(*URL).Query`: the pairs in order; the value of a key in the map is the list of its values -/
def parseQuery (q : Bytes) : List (Bytes × Bytes) :=
  match h : (cutPair q).2 with
  | none => parsePair (cutPair q).1
  | some r => parsePair (cutPair q).1 ++ parseQuery r
termination_by q.length
decreasing_by exact cutPair_length q r h

/-- `Values.Set` -/
def valuesSet (vs : List (Bytes × Bytes)) (k v : Bytes) : List (Bytes × Bytes) := vs.filter (fun x => x.1 ≠ k) ++ [(k, v)]

/-- github.go:34-37 `makeURL`; a nil URL if it cannot be parsed -/
def makeURL (username : Bytes) : Option GoURL := urlParse (asciiBytes (S "https://github.com/") ++ username ++ asciiBytes (S ".gpg"))

/-- github.go:85-98 `makeURLAPI` -/
def makeURLAPI (username : Bytes) (page : Int) : Option GoURL :=
  let page := if page < 1 then 1 else page
  (urlParse (asciiBytes (S "https://api.github.com/users/") ++ username ++ asciiBytes (S "/gpg_keys"))).map fun u =>
    let q := parseQuery u.rawQuery
    let q := valuesSet q (asciiBytes (S "page")) (asciiBytes (decInt page))
    let q := valuesSet q (asciiBytes (S "per_page")) (asciiBytes (S "100"))
    { u with rawQuery := asciiBytes (valuesEncode q) }

end Gpgpdump
