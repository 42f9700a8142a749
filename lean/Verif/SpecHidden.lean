import Mathlib.Data.List.Forall2
import Verif.SpecSig
import Verif.Context

/-!
# Specification: packets that differ only in contents the options keep hidden

`Alike o p p'`: the packets `p` and `p'` have the same length and structure and agree in everything except payloads that are not
shown under the options `o`. Nothing here refers to the model of the parser.
-/

namespace Gpgpdump.Spec

def SameLength (a b : Bytes) : Prop := a.length = b.length

/-- The first `n` octets agree; `R` relates what follows them. Or there are fewer than `n` octets, all of which agree. -/
inductive Agree (n : Nat) (R : Bytes → Bytes → Bytes → Prop) : Bytes → Bytes → Prop
  | read {h r r'} (hn : h.length = n) (hr : R h r r') : Agree n R (h ++ r) (h ++ r')
  | short {q} (h : q.length < n) : Agree n R q q

/-- one octet that agrees -/
inductive Agree1 (R : UInt8 → Bytes → Bytes → Prop) : Bytes → Bytes → Prop
  | read {b r r'} (hr : R b r r') : Agree1 R (b :: r) (b :: r')
  | short : Agree1 R [] []

/-- two blocks of `n` octets related by `B`, then `R`; or both end inside the block -/
inductive Block (n : Nat) (B R : Bytes → Bytes → Prop) : Bytes → Bytes → Prop
  | read {d d' r r'} (hd : d.length = n) (hd' : d'.length = n) (hb : B d d') (hr : R r r') : Block n B R (d ++ r) (d' ++ r')
  | cut {q q'} (h : q.length < n) (hl : SameLength q q') : Block n B R q q'

/-- parts of key material: an integer; a curve point (its first octet is the format); an object identifier; the parameters of a
key derivation; an encrypted session key -/
inductive Part
  | int | point | oid | parameters | key

/-- the octets of an integer: hidden, or equal -/
def IntData (hide : Bool) (d d' : Bytes) : Prop := hide = true ∨ d = d'
/-- the octets of a curve point: hidden except for the first, or equal -/
def PointData (hide : Bool) (d d' : Bytes) : Prop := (hide = true ∧ d.head? = d'.head?) ∨ d = d'

/-- Key material made of the given parts, then `R`. -/
def Parts (hide : Bool) (R : Bytes → Bytes → Prop) : List Part → Bytes → Bytes → Prop
  | [] => R
  | .int :: ps => Agree 2 fun l => Block ((beNat l + 7) / 8) (IntData hide) (Parts hide R ps)
  | .point :: ps => Agree 2 fun l => Block ((beNat l + 7) / 8) (PointData hide) (Parts hide R ps)
  | .oid :: ps => Agree1 fun n => Agree n.toNat fun _ => Parts hide R ps
  | .parameters :: ps => fun q q' =>
      Agree1 (fun n => Agree n.toNat fun _ => Parts hide R ps) q q' ∧ (q = [] → q' = [] → Parts hide R ps [] [])
  | .key :: ps => fun q q' =>
      Agree1 (fun n => Block n.toNat (IntData hide) (Parts hide R ps)) q q' ∧ (q = [] → q' = [] → Parts hide R ps [] [])

/-- RFC 4880 section 5.5.2, RFC 6637 section 9: the parts of a public key -/
def pubParts (alg : UInt8) : List Part :=
  if alg ∈ [1, 2, 3] then [.int, .int]
  else if alg = 17 then [.int, .int, .int, .int]
  else if alg = 16 ∨ alg = 20 then [.int, .int, .int]
  else if alg = 18 then [.oid, .point, .parameters]
  else if alg = 19 ∨ alg = 22 then [.oid, .point]
  else []

/-- RFC 4880 section 5.2.2: the parts of a signature value -/
def sigParts (alg : UInt8) : List Part :=
  if alg ∈ [1, 2, 3] then [.int] else if alg ∈ [16, 17, 19, 20, 22] then [.int, .int] else []

/-- RFC 4880 section 5.1, RFC 6637 section 10: the parts of an encrypted session key -/
def sesParts (alg : UInt8) : List Part :=
  if alg ∈ [1, 2, 3] then [.int] else if alg = 16 ∨ alg = 20 then [.int, .int] else if alg = 18 then [.point, .key] else []

/-- RFC 4880 section 5.5.3: the parts of an unencrypted secret key -/
def secParts (alg : UInt8) : List Part :=
  if alg ∈ [1, 2, 3] then [.int, .int, .int, .int] else if alg ∈ [16, 17, 18, 19, 20, 22] then [.int] else []

/-- a public key after its version octet `v`, then `R` (which may depend on the algorithm) -/
def PubKey (hide : Bool) (R : UInt8 → Bytes → Bytes → Prop) (v : UInt8) : Bytes → Bytes → Prop :=
  if v = 5 then
    Agree 4 fun _ => Agree1 fun alg => Agree 4 fun n => Block (beNat n) (Parts hide SameLength (pubParts alg)) (R alg)
  else if v = 4 then Agree 4 fun _ => Agree1 fun alg => Parts hide (R alg) (pubParts alg)
  else if v = 3 then Agree 4 fun _ => Agree 2 fun _ => Agree1 fun alg => Parts hide (R alg) (pubParts alg)
  else R 0

/-- size of the initialization vector of a cipher -/
def ivLength (sym : UInt8) : Nat := if sym.toNat ≤ 6 then 8 else if sym.toNat ≤ 13 then 16 else 0

/-- The GNU extension of string-to-key specifiers: the marker "GNU" and an extension number (for 2: a serial number follows), then
no initialization vector: `N`. Without the marker the octets are `R`. -/
inductive GnuS2K (R N : Bytes → Bytes → Prop) : Bytes → Bytes → Prop
  | short {q q'} (h : q.length < 4) (hr : R q q') : GnuS2K R N q q'
  | other {m r r'} (hm : m.length = 3) (h : m ≠ [0x47, 0x4e, 0x55]) (h1 : r ≠ []) (hr : R (m ++ r) (m ++ r')) : GnuS2K R N (m ++ r) (m ++ r')
  | gnu {n r r'} (h : if n = 2 then Agree1 (fun l => Agree l.toNat fun _ => N) r r' else N r r') :
      GnuS2K R N ([0x47, 0x4e, 0x55] ++ n :: r) ([0x47, 0x4e, 0x55] ++ n :: r')

/-- string-to-key specifiers (RFC 4880 section 3.7.1), then `R`; after a GNU extension `N` -/
def S2K (R N : Bytes → Bytes → Prop) : Bytes → Bytes → Prop :=
  Agree1 fun t =>
    if t = 0 then Agree1 fun _ => R
    else if t = 1 then Agree1 fun _ => Agree 8 fun _ => R
    else if t = 3 then Agree1 fun _ => Agree 8 fun _ => Agree1 fun _ => R
    else if t = 101 then GnuS2K R N
    else R

/-- encrypted secret-key material of versions 3 and 4, from the usage octet on: everything up to and including the initialization
vector agrees, the rest may differ; unencrypted material is as in a public key. -/
def SecKey (hide : Bool) (alg : UInt8) : Bytes → Bytes → Prop :=
  Agree1 fun usage =>
    if usage = 0 then (if alg ∈ [1, 2, 3, 16, 17, 18, 19, 20, 22] then Parts hide (Agree 2 fun _ => SameLength) (secParts alg) else fun _ _ => False)
    else Agree1 fun sym =>
      let iv := Agree (ivLength sym) fun _ => SameLength
      if usage = 253 then Agree1 fun _ => S2K iv SameLength
      else if usage = 254 ∨ usage = 255 then S2K iv SameLength
      else iv

/-- an area of subpackets: two octets with the size, then the subpackets, then `R`. With `hide`, the contents of
attested-certification subpackets (type 37) may differ. -/
inductive Area (hide : Bool) (R : Bytes → Bytes → Prop) : Bytes → Bytes → Prop
  | same {q q'} (h : Agree 2 (fun n => Agree (beNat n) fun _ => R) q q') : Area hide R q q'
  | attested {subs subs' a a' r r'} (hh : hide = true) (hs : SubSeq subs a) (hs' : SubSeq subs' a')
      (h : List.Forall₂ (fun s s' => s.1 = s'.1 ∧ (s.2 = s'.2 ∨ s.1.toNat % 128 = 37 ∧ SameLength s.2 s'.2)) subs subs')
      (hl : a.length < 65536) (hl' : SameLength a a') (hr : R r r') :
      Area hide R (beOctets 2 a.length ++ a ++ r) (beOctets 2 a'.length ++ a' ++ r')

/-- a signature after its version octet -/
def Signature (hide hideCert : Bool) (v : UInt8) : Bytes → Bytes → Prop :=
  if v = 4 ∨ v = 5 then
    Agree1 fun _ => Agree1 fun alg => Agree1 fun _ => Area hideCert (Area hideCert (Agree 2 fun _ => Parts hide SameLength (sigParts alg)))
  else if v = 3 then
    Agree1 fun n => Agree n.toNat fun _ => Agree 8 fun _ => Agree1 fun alg => Agree1 fun _ => Agree 2 fun _ =>
      Parts hide SameLength (sigParts alg)
  else SameLength

/-- size of what the tool shows as initialization vector of an AEAD algorithm (for OCB one octet more than the nonce) -/
def aeadIVLength (a : UInt8) : Nat := if a = 1 ∨ a = 2 then 16 else 0

inductive Alike (o : OptCode → Bool) : Nat × Bytes → Nat × Bytes → Prop
  | same {p} : Alike o p p
  | marker {a b} (h : o MARKER = false) (hd : o DEBUG = false) (hl : SameLength a b) : Alike o (10, a) (10, b)
  | priv {tag a b} (ht : 60 ≤ tag ∧ tag ≤ 63) (h : o PRIVATE = false) (hd : o DEBUG = false) (hl : SameLength a b) :
      Alike o (tag, a) (tag, b)
  | encrypted {tag a b} (ht : tag = 9 ∨ tag = 18 ∨ tag = 19) (hd : o DEBUG = false) (hl : SameLength a b) : Alike o (tag, a) (tag, b)
  /-- version, cipher, AEAD algorithm, chunk size, initialization vector, data -/
  | aead {a b} (hd : o DEBUG = false)
      (h : Agree1 (fun _ => Agree1 fun _ => Agree1 fun alg => Agree1 fun _ => Agree (aeadIVLength alg) fun _ => SameLength) a b) :
      Alike o (20, a) (20, b)
  /-- format, file name with its length, time, data -/
  | literal {a b} (h : o LITERAL = false) (hd : o DEBUG = false)
      (h : Agree1 (fun _ => Agree1 fun n => Agree n.toNat fun _ => Agree 4 fun _ => SameLength) a b) : Alike o (11, a) (11, b)
  | publicKey {tag a b} (ht : tag = 6 ∨ tag = 14) (h : o INTEGER = false) (hd : o DEBUG = false)
      (h : Agree1 (PubKey true fun _ => SameLength) a b) : Alike o (tag, a) (tag, b)
  | secretKey {tag hide a b} (ht : tag = 5 ∨ tag = 7) (h : hide = true → o INTEGER = false) (hd : o DEBUG = false)
      (h : Agree1 (fun v => if v = 5 then fun _ _ => False else PubKey hide (SecKey hide) v) a b) : Alike o (tag, a) (tag, b)
  | signature {hide hideCert a b} (h : hide = true → o INTEGER = false) (h' : hideCert = true → o CERT = false) (hd : o DEBUG = false)
      (h : Agree1 (Signature hide hideCert) a b) : Alike o (2, a) (2, b)
  /-- version, key ID, algorithm, session key -/
  | sessionKey {a b} (h : o INTEGER = false) (hd : o DEBUG = false)
      (h : Agree1 (fun _ => Agree 8 fun _ => Agree1 fun alg => Parts true SameLength (sesParts alg)) a b) : Alike o (1, a) (1, b)

end Gpgpdump.Spec
