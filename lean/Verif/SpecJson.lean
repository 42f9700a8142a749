import Verif.Result

/-!
# Specification: JSON texts (RFC 8259) and the trees they hold

`Text v t`: `t` is a JSON text with the value `v`. The grammar is the one of RFC 8259 in full: white space, literals, numbers (kept
as their text), strings with all escapes (including surrogate pairs), arrays, objects. `Holds v is`: reading `v` the way the
struct tags of `Info` and `Item` say gives the packets `is` (an absent field is empty).
-/

namespace Gpgpdump.Spec.Json

inductive Value where
  | null | true | false
  | num (t : Str)
  | str (s : Str)
  | arr (l : List Value)
  | obj (l : List (Str × Value))

def isWs (c : Char) : Bool := c = ' ' || c = '\t' || c = '\n' || c = '\r'

/-- white space -/
def Ws (w : Str) : Prop := ∀ c ∈ w, isWs c = .true

/-- a hexadecimal digit and its value -/
inductive HexDigit : Char → Nat → Prop
  | dec (n : Nat) (h : n < 10) : HexDigit (Char.ofNat (48 + n)) n
  | lower (n : Nat) (h : n < 6) : HexDigit (Char.ofNat (97 + n)) (10 + n)
  | upper (n : Nat) (h : n < 6) : HexDigit (Char.ofNat (65 + n)) (10 + n)

/-- four hexadecimal digits -/
inductive Hex4 : Str → Nat → Prop
  | mk {a b c d i j k l} (ha : HexDigit a i) (hb : HexDigit b j) (hc : HexDigit c k) (hd : HexDigit d l) :
      Hex4 [a, b, c, d] (i * 4096 + j * 256 + k * 16 + l)

/-- the two-character escapes -/
inductive Escape : Char → Char → Prop
  | quote : Escape '"' '"'
  | backslash : Escape '\\' '\\'
  | slash : Escape '/' '/'
  | b : Escape 'b' (Char.ofNat 8)
  | f : Escape 'f' (Char.ofNat 12)
  | n : Escape 'n' '\n'
  | r : Escape 'r' '\r'
  | t : Escape 't' '\t'

/-- `Chars s t`: between quotes, the text `t` denotes the string `s` -/
inductive Chars : Str → Str → Prop
  | nil : Chars [] []
  | plain {s t} (c : Char) (h0 : 0x20 ≤ c.toNat) (h1 : c ≠ '"') (h2 : c ≠ '\\') (h : Chars s t) : Chars (c :: s) (c :: t)
  | escape {s t e c} (he : Escape e c) (h : Chars s t) : Chars (c :: s) ('\\' :: e :: t)
  | unicode {s t x n} (hx : Hex4 x n) (hn : n < 0xD800 ∨ 0xDFFF < n) (h : Chars s t) :
      Chars (Char.ofNat n :: s) ('\\' :: 'u' :: x ++ t)
  | pair {s t x y n m} (hx : Hex4 x n) (hn : 0xD800 ≤ n ∧ n ≤ 0xDBFF) (hy : Hex4 y m) (hm : 0xDC00 ≤ m ∧ m ≤ 0xDFFF)
      (h : Chars s t) :
      Chars (Char.ofNat (0x10000 + (n - 0xD800) * 1024 + (m - 0xDC00)) :: s) ('\\' :: 'u' :: x ++ '\\' :: 'u' :: y ++ t)

/-- decimal digits, at least one -/
def Digits (t : Str) : Prop := t ≠ [] ∧ ∀ c ∈ t, 48 ≤ c.toNat ∧ c.toNat ≤ 57

/-- RFC 8259 section 6 -/
def Number (t : Str) : Prop :=
  ∃ sign int frac exp, t = sign ++ int ++ frac ++ exp ∧ (sign = [] ∨ sign = ['-']) ∧
    Digits int ∧ (int = ['0'] ∨ int.head? ≠ some '0') ∧
    (frac = [] ∨ ∃ d, Digits d ∧ frac = '.' :: d) ∧
    (exp = [] ∨ ∃ e s d, (e = 'e' ∨ e = 'E') ∧ (s = [] ∨ s = ['+'] ∨ s = ['-']) ∧ Digits d ∧ exp = e :: s ++ d)

mutual
/-- `Val v t`: `t`, without white space around it, is the value `v` -/
inductive Val : Value → Str → Prop
  | null : Val .null ['n', 'u', 'l', 'l']
  | true : Val .true ['t', 'r', 'u', 'e']
  | false : Val .false ['f', 'a', 'l', 's', 'e']
  | num {t} (h : Number t) : Val (.num t) t
  | str {s t} (h : Chars s t) : Val (.str s) ('"' :: t ++ ['"'])
  | arr0 {w} (h : Ws w) : Val (.arr []) ('[' :: w ++ [']'])
  | arr {l t} (h : Elems l t) : Val (.arr l) ('[' :: t ++ [']'])
  | obj0 {w} (h : Ws w) : Val (.obj []) ('{' :: w ++ ['}'])
  | obj {l t} (h : Members l t) : Val (.obj l) ('{' :: t ++ ['}'])
/-- one or more values separated by commas -/
inductive Elems : List Value → Str → Prop
  | one {v t a b} (ha : Ws a) (h : Val v t) (hb : Ws b) : Elems [v] (a ++ t ++ b)
  | more {v t a b l u} (ha : Ws a) (h : Val v t) (hb : Ws b) (hl : Elems l u) : Elems (v :: l) (a ++ t ++ b ++ ',' :: u)
/-- one or more `key: value` separated by commas -/
inductive Members : List (Str × Value) → Str → Prop
  | one {k x v t a b c d} (ha : Ws a) (hk : Chars k x) (hb : Ws b) (hc : Ws c) (h : Val v t) (hd : Ws d) :
      Members [(k, v)] (a ++ '"' :: x ++ '"' :: b ++ ':' :: c ++ t ++ d)
  | more {k x v t a b c d l u} (ha : Ws a) (hk : Chars k x) (hb : Ws b) (hc : Ws c) (h : Val v t) (hd : Ws d) (hl : Members l u) :
      Members ((k, v) :: l) (a ++ '"' :: x ++ '"' :: b ++ ':' :: c ++ t ++ d ++ ',' :: u)
end

/-- a JSON text -/
def Text (v : Value) (t : Str) : Prop := ∃ a u b, Ws a ∧ Val v u ∧ Ws b ∧ t = a ++ u ++ b

/-- the member with the given key -/
def get (k : String) (ms : List (Str × Value)) : Option Value := ms.lookup k.toList

/-- a string field; absent means empty -/
def Field (k : String) (ms : List (Str × Value)) (s : Str) : Prop :=
  get k ms = some (.str s) ∨ (get k ms = none ∧ s = [])

mutual
/-- `v` holds the item (result.go:67-73) -/
inductive HoldsItem : Value → Item → Prop
  | mk {ms n v d t is} (hn : Field "name" ms n) (hv : Field "value" ms v) (hd : Field "dump" ms d) (ht : Field "note" ms t)
      (hi : HoldsItems (get "Item" ms) is) : HoldsItem (.obj ms) (.mk n v d t is)
/-- the field holds the list of items; absent means empty -/
inductive HoldsItems : Option Value → List Item → Prop
  | none : HoldsItems .none []
  | nil : HoldsItems (some (.arr [])) []
  | cons {v i l is} (h : HoldsItem v i) (hl : HoldsItems (some (.arr l)) is) : HoldsItems (some (.arr (v :: l))) (i :: is)
end

/-- `v` holds the packets (result.go:12-14) -/
def Holds (v : Value) (is : List Item) : Prop := ∃ ms, v = .obj ms ∧ HoldsItems (get "Packet" ms) is

/-- the text decodes to the packets -/
def Decodes (t : Str) (is : List Item) : Prop := ∃ v, Text v t ∧ Holds v is

mutual
/-- how many levels of arrays and objects -/
def nesting : Value → Nat
  | .arr l => 1 + nestingAll l
  | .obj l => 1 + nestingMembers l
  | _ => 0
def nestingAll : List Value → Nat
  | [] => 0
  | v :: l => max (nesting v) (nestingAll l)
def nestingMembers : List (Str × Value) → Nat
  | [] => 0
  | (_, v) :: l => max (nesting v) (nestingMembers l)
end

mutual
/-- how many levels of items -/
def levels : Item → Nat
  | .mk _ _ _ _ is => 1 + levelsAll is
def levelsAll : List Item → Nat
  | [] => 0
  | i :: is => max (levels i) (levelsAll is)
end

end Gpgpdump.Spec.Json
