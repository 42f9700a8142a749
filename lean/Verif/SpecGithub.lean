import Mathlib.Data.List.Forall2
import Verif.GithubJson

/-!
# Specification: JSON texts as octets, and what a page of the GitHub API holds

The grammar is that of RFC 8259, on octets and without a demand on the encoding: a string is any octets from 0x20 on with its escapes.
`Denotes` tells the code points of a string; octets that are not UTF-8 and surrogates without partner stand for U+FFFD.
-/

namespace Gpgpdump.Spec.GJ

/-- white space -/
def Ws (w : Bytes) : Prop := ∀ b ∈ w, b = 0x20 ∨ b = 0x09 ∨ b = 0x0a ∨ b = 0x0d

def Digit (b : UInt8) : Prop := 0x30 ≤ b.toNat ∧ b.toNat ≤ 0x39

/-- decimal digits, at least one -/
def Digits (t : Bytes) : Prop := t ≠ [] ∧ ∀ b ∈ t, Digit b

/-- RFC 8259 section 6 -/
def Number (t : Bytes) : Prop :=
  ∃ sign int frac exp, t = sign ++ int ++ frac ++ exp ∧ (sign = [] ∨ sign = [0x2d]) ∧
    Digits int ∧ (int = [0x30] ∨ int.head? ≠ some 0x30) ∧
    (frac = [] ∨ ∃ d, Digits d ∧ frac = 0x2e :: d) ∧
    (exp = [] ∨ ∃ e s d, (e = 0x65 ∨ e = 0x45) ∧ (s = [] ∨ s = [0x2b] ∨ s = [0x2d]) ∧ Digits d ∧ exp = e :: s ++ d)

/-- a hexadecimal digit and its value -/
def Hex (b : UInt8) (n : Nat) : Prop :=
  (0x30 ≤ b.toNat ∧ b.toNat ≤ 0x39 ∧ n + 0x30 = b.toNat) ∨ (0x41 ≤ b.toNat ∧ b.toNat ≤ 0x46 ∧ n + 0x37 = b.toNat) ∨
  (0x61 ≤ b.toNat ∧ b.toNat ≤ 0x66 ∧ n + 0x57 = b.toNat)

/-- four hexadecimal digits -/
inductive Hex4 : Bytes → Nat → Prop
  | mk {a b c d i j k l} (ha : Hex a i) (hb : Hex b j) (hc : Hex c k) (hd : Hex d l) : Hex4 [a, b, c, d] (i * 4096 + j * 256 + k * 16 + l)

/-- the two-character escapes -/
inductive Escape : UInt8 → Char → Prop
  | quote : Escape 0x22 '"'
  | backslash : Escape 0x5c '\\'
  | slash : Escape 0x2f '/'
  | b : Escape 0x62 (Char.ofNat 8)
  | f : Escape 0x66 (Char.ofNat 12)
  | n : Escape 0x6e '\n'
  | r : Escape 0x72 '\r'
  | t : Escape 0x74 '\t'

/-- the octets between the quotes of a string -/
inductive Raw : Bytes → Prop
  | nil : Raw []
  | plain {b r} (h : 0x20 ≤ b.toNat) (h1 : b ≠ 0x22) (h2 : b ≠ 0x5c) (hr : Raw r) : Raw (b :: r)
  | escape {e c r} (h : Escape e c) (hr : Raw r) : Raw (0x5c :: e :: r)
  | unicode {x n r} (h : Hex4 x n) (hr : Raw r) : Raw (0x5c :: 0x75 :: x ++ r)

mutual
/-- `Val v t`: `t`, without white space around it, is the value `v` -/
inductive Val : JVal → Bytes → Prop
  | null : Val .null [0x6e, 0x75, 0x6c, 0x6c]
  | true : Val (.bool true) [0x74, 0x72, 0x75, 0x65]
  | false : Val (.bool false) [0x66, 0x61, 0x6c, 0x73, 0x65]
  | num {t} (h : Number t) : Val (.num t) t
  | str {t} (h : Raw t) : Val (.str t) (0x22 :: t ++ [0x22])
  | arr0 {w} (h : Ws w) : Val (.arr []) (0x5b :: w ++ [0x5d])
  | arr {l t} (h : Elems l t) : Val (.arr l) (0x5b :: t ++ [0x5d])
  | obj0 {w} (h : Ws w) : Val (.obj []) (0x7b :: w ++ [0x7d])
  | obj {l t} (h : Members l t) : Val (.obj l) (0x7b :: t ++ [0x7d])
/-- one or more values separated by commas -/
inductive Elems : List JVal → Bytes → Prop
  | one {v t a b} (ha : Ws a) (h : Val v t) (hb : Ws b) : Elems [v] (a ++ t ++ b)
  | more {v t a b l u} (ha : Ws a) (h : Val v t) (hb : Ws b) (hl : Elems l u) : Elems (v :: l) (a ++ t ++ b ++ 0x2c :: u)
/-- one or more `key: value` separated by commas -/
inductive Members : List (Bytes × JVal) → Bytes → Prop
  | one {k v t a b c d} (ha : Ws a) (hk : Raw k) (hb : Ws b) (hc : Ws c) (h : Val v t) (hd : Ws d) :
      Members [(k, v)] (a ++ 0x22 :: k ++ 0x22 :: b ++ 0x3a :: c ++ t ++ d)
  | more {k v t a b c d l u} (ha : Ws a) (hk : Raw k) (hb : Ws b) (hc : Ws c) (h : Val v t) (hd : Ws d) (hl : Members l u) :
      Members ((k, v) :: l) (a ++ 0x22 :: k ++ 0x22 :: b ++ 0x3a :: c ++ t ++ d ++ 0x2c :: u)
end

/-- at most `n` arrays and objects around each other -/
inductive Nested : Nat → JVal → Prop
  | null {n} : Nested n .null
  | bool {n b} : Nested n (.bool b)
  | num {n t} : Nested n (.num t)
  | str {n t} : Nested n (.str t)
  | arr {n l} (h : ∀ v ∈ l, Nested n v) : Nested (n + 1) (.arr l)
  | obj {n l} (h : ∀ m ∈ l, Nested n m.2) : Nested (n + 1) (.obj l)

/-! ## Strings -/

/-- a surrogate (first or second of a pair) -/
def Surrogate (n : Nat) : Prop := 0xd800 ≤ n ∧ n < 0xe000

/-- the escapes of a surrogate pair and the code point -/
inductive Pair : Nat → Bytes → Char → Prop
  | mk {n m x} (hn : 0xd800 ≤ n ∧ n < 0xdc00) (hx : Hex4 x m) (hm : 0xdc00 ≤ m ∧ m < 0xe000) :
      Pair n (0x5c :: 0x75 :: x) (Char.ofNat (0x10000 + (n - 0xd800) * 1024 + (m - 0xdc00)))

/-- `Denotes raw s`: between quotes, the octets `raw` stand for the string `s` -/
inductive Denotes : Bytes → Str → Prop
  | nil : Denotes [] []
  | char {c r s} (h : 0x20 ≤ c.toNat) (h1 : c ≠ '"') (h2 : c ≠ '\\') (hr : Denotes r s) : Denotes (utf8Char c ++ r) (c :: s)
  | bad {b r s} (h : ∀ c, ¬ utf8Char c <+: b :: r) (hr : Denotes r s) : Denotes (b :: r) (Char.ofNat 0xfffd :: s)
  | escape {e c r s} (h : Escape e c) (hr : Denotes r s) : Denotes (0x5c :: e :: r) (c :: s)
  | unicode {x n r s} (h : Hex4 x n) (hn : ¬ Surrogate n) (hr : Denotes r s) : Denotes (0x5c :: 0x75 :: x ++ r) (Char.ofNat n :: s)
  | pair {x n y c r s} (h : Hex4 x n) (hy : Pair n y c) (hr : Denotes r s) : Denotes (0x5c :: 0x75 :: x ++ y ++ r) (c :: s)
  | lone {x n r s} (h : Hex4 x n) (hn : Surrogate n) (hy : ∀ y c, Pair n y c → ¬ y <+: r) (hr : Denotes r s) :
      Denotes (0x5c :: 0x75 :: x ++ r) (Char.ofNat 0xfffd :: s)

/-! ## Keys -/

/-- the same character up to case, where U+017F counts as `s` and U+212A (kelvin sign) as `k` -/
inductive SameChar : Char → Char → Prop
  | refl {c} : SameChar c c
  | upper {c d} (h : 97 ≤ c.toNat ∧ c.toNat ≤ 122) (hd : d.toNat + 32 = c.toNat) : SameChar c d
  | longS : SameChar 's' (Char.ofNat 0x17f)
  | kelvin : SameChar 'k' (Char.ofNat 0x212a)

/-- a member whose key is this name (in small letters) -/
def HasName (name : String) (m : Bytes × JVal) : Prop := ∃ s, Denotes m.1 s ∧ List.Forall₂ SameChar name.toList s

/-- an integer of 64 bits with sign, written without fraction and exponent -/
inductive Int64 : Bytes → Prop
  | pos {t n} (h : Digits t) (hn : n = t.foldl (fun n b => n * 10 + (b.toNat - 0x30)) 0) (h1 : n < 2 ^ 63) : Int64 t
  | neg {t n} (h : Digits t) (hn : n = t.foldl (fun n b => n * 10 + (b.toNat - 0x30)) 0) (h1 : n ≤ 2 ^ 63) : Int64 (0x2d :: t)

/-- the fields of a key and of an e-mail address, with their types -/
def keyTypes : List (String × GHType) :=
  [("can_certify", .bool), ("can_encrypt_comms", .bool), ("can_encrypt_storage", .bool), ("can_sign", .bool), ("created_at", .time),
    ("emails", .emails), ("expires_at", .time), ("id", .int64), ("key_id", .string), ("primary_key_id", .int64), ("public_key", .string),
    ("raw_key", .stringPtr), ("subkeys", .keys)]

def emailTypes : List (String × GHType) := [("email", .string), ("verified", .bool)]

section
variable (T : Bytes → Bool)

mutual
/-- the value fits a field of this type -/
inductive Fits : GHType → JVal → Prop
  | null {t} : Fits t .null
  | int {x} (h : Int64 x) : Fits .int64 (.num x)
  | string {x} : Fits .string (.str x)
  | stringPtr {x} : Fits .stringPtr (.str x)
  | bool {b} : Fits .bool (.bool b)
  | time {x} (h : T x = true) : Fits .time (.str x)
  | emails {l} (h : ∀ v ∈ l, EmailOK v) : Fits .emails (.arr l)
  | keys {l} (h : ∀ v ∈ l, KeyOK v) : Fits .keys (.arr l)
/-- null, or an object whose members fit the fields of `EMailInfo` with their names -/
inductive EmailOK : JVal → Prop
  | null : EmailOK .null
  | obj {l} (h : ∀ m ∈ l, ∀ f ∈ emailTypes, HasName f.1 m → Fits f.2 m.2) : EmailOK (.obj l)
/-- null, or an object whose members fit the fields of `OpenPGPKey` with their names -/
inductive KeyOK : JVal → Prop
  | null : KeyOK .null
  | obj {l} (h : ∀ m ∈ l, ∀ f ∈ keyTypes, HasName f.1 m → Fits f.2 m.2) : KeyOK (.obj l)
end

/-- the value of the last member with this name and a value with the property; `none` if there is none -/
inductive Last (name : String) (p : JVal → Prop) (l : List (Bytes × JVal)) : Option JVal → Prop
  | some {pre k v post} (h : l = pre ++ (k, v) :: post) (hn : HasName name (k, v)) (hp : p v) (hl : ∀ m ∈ post, HasName name m → ¬ p m.2) : Last name p l (some v)
  | none (h : ∀ m ∈ l, HasName name m → ¬ p m.2) : Last name p l none

/-- the ID: the last one that is not null; absent means empty -/
def HasID (l : List (Bytes × JVal)) (id : Str) : Prop :=
  (Last "key_id" (· ≠ .null) l none ∧ id = []) ∨ ∃ raw, Last "key_id" (· ≠ .null) l (some (.str raw)) ∧ Denotes raw id

/-- the key itself: the last one; nil if it is null or absent -/
def HasText (l : List (Bytes × JVal)) (text : Option Bytes) : Prop :=
  ((Last "raw_key" (fun _ => True) l none ∨ Last "raw_key" (fun _ => True) l (some .null)) ∧ text = none) ∨
  ∃ raw s, Last "raw_key" (fun _ => True) l (some (.str raw)) ∧ Denotes raw s ∧ text = some (utf8 s)

/-- the element of a page and the key -/
inductive Holds : JVal → Option GHKey → Prop
  | null : Holds .null none
  | key {l k} (h : KeyOK T (.obj l)) (hi : HasID l k.keyID) (ht : HasText l k.rawKey) : Holds (.obj l) (some k)

/-- the body is white space, `null` or an array that is not nested too deeply, and anything -/
inductive Page : Bytes → List (Option GHKey) → Prop
  | null {w rest} (hw : Ws w) : Page (w ++ [0x6e, 0x75, 0x6c, 0x6c] ++ rest) []
  | keys {w t rest l ks} (hw : Ws w) (h : Val (.arr l) t) (hd : Nested 10000 (.arr l)) (hk : List.Forall₂ (Holds T) l ks) : Page (w ++ t ++ rest) ks
end

end Gpgpdump.Spec.GJ
