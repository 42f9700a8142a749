import Verif.Basic

/-!
# Specification: URI references (RFC 3986 appendix B) and form data (application/x-www-form-urlencoded)
-/

namespace Gpgpdump.Spec

/-- the value of a hexadecimal digit -/
def hexValue (c : Char) : Option Nat :=
  if 48 ≤ c.toNat ∧ c.toNat ≤ 57 then some (c.toNat - 48)
  else if 65 ≤ c.toNat ∧ c.toNat ≤ 70 then some (c.toNat - 55)
  else if 97 ≤ c.toNat ∧ c.toNat ≤ 102 then some (c.toNat - 87)
  else none

/-- percent-decoding of ASCII text; in form data (`plus`) a plus sign is a space -/
def percentDecode (plus : Bool) : Str → Option Bytes
  | [] => some []
  | c :: r =>
    if c = '%' then
      match r with
      | a :: b :: r => do
        let x ← hexValue a
        let y ← hexValue b
        let s ← percentDecode plus r
        some (UInt8.ofNat (x * 16 + y) :: s)
      | _ => none
    else if c = '+' ∧ plus = true then (percentDecode plus r).map (32 :: ·)
    else if c.toNat < 128 then (percentDecode plus r).map (UInt8.ofNat c.toNat :: ·)
    else none

/-- the pieces between the separators -/
def splitAt (sep : Char) : Str → List Str
  | [] => [[]]
  | c :: r =>
    if c = sep then [] :: splitAt sep r
    else match splitAt sep r with
      | [] => [[c]]
      | x :: l => (c :: x) :: l

/-- before and after the first separator -/
def cutAt (sep : Char) : Str → Str × Str
  | [] => ([], [])
  | c :: r => if c = sep then ([], r) else ((cutAt sep r).1.cons c, (cutAt sep r).2)

/-- one `key=value` -/
def formPair (t : Str) : Option (Bytes × Bytes) := do
  let k ← percentDecode true (cutAt '=' t).1
  let v ← percentDecode true (cutAt '=' t).2
  some (k, v)

/-- the pairs of form data -/
def formPairs (q : Str) : Option (List (Bytes × Bytes)) := (splitAt '&' q).mapM formPair

structure URI where
  scheme : Str
  authority : Str
  path : Str
  query : Option Str
  fragment : Option Str
  deriving DecidableEq

def untilAny (stops : List Char) (t : Str) : Str × Str := (t.takeWhile (fun c => !stops.contains c), t.dropWhile (fun c => !stops.contains c))

/-- RFC 3986 appendix B, for references with scheme and authority -/
def uri (t : Str) : Option URI :=
  let (scheme, t) := untilAny [':', '/', '?', '#'] t
  match t with
  | ':' :: '/' :: '/' :: t =>
    let (authority, t) := untilAny ['/', '?', '#'] t
    let (path, t) := untilAny ['?', '#'] t
    match t with
    | '?' :: t =>
      let (query, t) := untilAny ['#'] t
      match t with
      | '#' :: f => some ⟨scheme, authority, path, some query, some f⟩
      | _ => some ⟨scheme, authority, path, some query, none⟩
    | '#' :: f => some ⟨scheme, authority, path, none, some f⟩
    | _ => some ⟨scheme, authority, path, none, none⟩
  | _ => none

/-- RFC 3986 section 3.4, without percent sign: the characters of a query -/
def queryChar (c : Char) : Bool :=
  c.isAlphanum || "-._~!$&'()*+,;=:@/?".toList.contains c

/-- a query in the syntax of RFC 3986 -/
inductive IsQuery : Str → Prop
  | nil : IsQuery []
  | char {r} (c : Char) (h : queryChar c = true) (hr : IsQuery r) : IsQuery (c :: r)
  | pct {r a b} (ha : (hexValue a).isSome) (hb : (hexValue b).isSome) (hr : IsQuery r) : IsQuery ('%' :: a :: b :: r)

end Gpgpdump.Spec
