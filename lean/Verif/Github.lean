import Verif.Hkp

/-!
# `github/github.go`

The client is described by its answers: what the profile page gives and what each page of the API gives (each page is asked for at
most once, so this is any behaviour of a server). Here a page is an error or a list of keys, where `null` elements give nil
pointers; `GithubJson.lean` has the decoding of bodies to such pages. The page counter is an unbounded number (in Go it would wrap after 2^63 pages).
-/

namespace Gpgpdump

/-- what `strings.ToLower` and `strings.EqualFold` do with single code points (tables of package unicode); `fold` chooses one code
point of every `SimpleFold` orbit -/
structure Unicode where
  lower : Char → Char
  fold : Char → Char

/-- structs.go:5-19, the fields used -/
structure GHKey where
  keyID : Str
  rawKey : Option Bytes

inductive GHErr
  | noKey                 -- ecode.ErrNoKey
  | request (code : Nat)  -- ecode.ErrInvalidRequest with its cause (network, status, JSON)
  deriving DecidableEq

/-- a page of the API: the decoded array (`none`: a `null` element) -/
abbrev GHPage := Except GHErr (List (Option GHKey))

structure GHServer where
  profile : Except GHErr Bytes
  page : Nat → GHPage

inductive GHRes
  | ok (text : Bytes)
  | err (e : GHErr)
  | panic
  | running -- the number of rounds given to the model is used up
  deriving DecidableEq

inductive GHReq
  | profile
  | page (n : Nat)
  deriving DecidableEq

/-- `strings.TrimPrefix(s, "0x")` -/
def trim0x : Str → Str
  | '0' :: 'x' :: r => r
  | s => s

/-- github.go:49 `strings.EqualFold(k.KeyID, strings.TrimPrefix(strings.ToLower(keyID), "0x"))` -/
def sameKeyID (U : Unicode) (kid keyID : Str) : Bool := kid.map U.fold == (trim0x (keyID.map U.lower)).map U.fold

/-- github.go:48-55 the loop over the keys of a page; `none`: no return -/
def findKey (U : Unicode) (keyID : Str) : List (Option GHKey) → Option GHRes
  | [] => none
  | none :: _ => some .panic
  | some k :: ks =>
    if sameKeyID U k.keyID keyID then
      match k.rawKey with
      | none => some (.err .noKey)
      | some t => some (.ok t)
    else findKey U keyID ks

/-- github.go:43-60 the loop over the pages, with the requests made -/
def getKeyLoop (U : Unicode) (srv : GHServer) (keyID : Str) : Nat → Nat → GHRes × List GHReq
  | 0, _ => (.running, [])
  | fuel + 1, i =>
    match srv.page i with
    | .error e => (.err e, [.page i])
    | .ok keys =>
      match findKey U keyID keys with
      | some r => (r, [.page i])
      | none =>
        if keys.length < 100 then (.err .noKey, [.page i])
        else
          let r := getKeyLoop U srv keyID fuel (i + 1)
          (r.1, .page i :: r.2)

/-- github.go:39-61 `GetKey` -/
def getKey (U : Unicode) (srv : GHServer) (keyID : Str) (fuel : Nat) : GHRes × List GHReq :=
  if keyID.length = 0 then
    (match srv.profile with
     | .ok b => .ok b
     | .error e => .err e, [.profile])
  else getKeyLoop U srv keyID fuel 1

/-- github.go:85-98 `makeURLAPI` for a user name that needs no escaping in a path (the name is put into the URL as it is) -/
def apiURL (username : Str) (page : Nat) : URL :=
  ⟨S "https", asciiBytes (S "api.github.com"), S "/users/" ++ username ++ S "/gpg_keys",
    valuesEncode [(asciiBytes (S "page"), asciiBytes (decInt (if page < 1 then 1 else page))), (asciiBytes (S "per_page"), asciiBytes (S "100"))]⟩

end Gpgpdump
