import Mathlib.Data.List.Forall2
import Verif.SpecAccept
import Verif.Calendar
import Verif.Utf8
import Verif.Context
import Verif.Result

/-!
# Specification: what is displayed for a packet

For every packet type the fields in the order of RFC 4880 and the draft rfc4880bis, with the label, the value, the note and the dump
under which each of them has to appear. The relations are given in terms of octets and items; they do not refer to the parse methods or
the item constructors of the model. Of the model only the types, the options, `dec` (decimal numbers), `beNat`, the calendar
(`rfc3339UTC`, see C50), the UTF-8 decoder (`utf8Decode`, `isControl` and `fmtU`, see C27) and `Ext` (local time, durations in days,
decompressors) are used.

Labels are spelled as the tool spells them. What depends on earlier packets (the end of a validity period, the source of the session
key) is left open here; C17, C19 and C53 are about it.
-/

namespace Gpgpdump.Spec

/-! ## Numbers and octets as text -/

/-- one octet as two hexadecimal digits -/
def hexOctet (b : UInt8) : Str :=
  [("0123456789abcdef".toList).getD (b.toNat / 16) '?', ("0123456789abcdef".toList).getD (b.toNat % 16) '?']

/-- octets as hexadecimal numbers, separated by spaces -/
def hexText : Bytes → Str
  | [] => []
  | [b] => hexOctet b
  | b :: bs => hexOctet b ++ ' ' :: hexText bs

def sizeText (n : Nat) : Str := dec n ++ " bytes".toList

/-- a dump that depends on an option -/
def dumpIf (f : Bool) (b : Bytes) : Str := if f then hexText b else []

/-- an item without parts -/
def leaf (name : Str) (value note dump : Str := []) : Item := .mk name value dump note []

/-! ## Registries (RFC 4880 sections 3.7.1, 4.3, 5.2.1, 5.2.3.1, 9 and the draft rfc4880bis) -/

def hashName : Nat → String
  | 1 => "MD5" | 2 => "SHA-1" | 3 => "RIPE-MD/160"
  | 4 => "Reserved" | 5 => "Reserved" | 6 => "Reserved" | 7 => "Reserved"
  | 8 => "SHA2-256" | 9 => "SHA2-384" | 10 => "SHA2-512" | 11 => "SHA2-224" | 12 => "SHA3-256" | 13 => "Reserved" | 14 => "SHA3-512"
  | _ => "Unknown"

def sigName : Nat → String
  | 0x00 => "Signature of a binary document"
  | 0x01 => "Signature of a canonical text document"
  | 0x02 => "Standalone signature"
  | 0x10 => "Generic certification of a User ID and Public-Key packet"
  | 0x11 => "Persona certification of a User ID and Public-Key packet"
  | 0x12 => "Casual certification of a User ID and Public-Key packet"
  | 0x13 => "Positive certification of a User ID and Public-Key packet"
  | 0x16 => "Attested Key Signature"
  | 0x18 => "Subkey Binding Signature"
  | 0x19 => "Primary Key Binding Signature"
  | 0x1f => "Signature directly on a key"
  | 0x20 => "Key revocation signature"
  | 0x28 => "Subkey revocation signature"
  | 0x30 => "Certification revocation signature"
  | 0x40 => "Timestamp signature"
  | 0x50 => "Third-Party Confirmation signature"
  | _ => "Unknown"

def compName : Nat → String
  | 0 => "Uncompressed" | 1 => "ZIP <RFC1951>" | 2 => "ZLIB <RFC1950>" | 3 => "BZip2"
  | _ => "Unknown"

def aeadName : Nat → String
  | 1 => "EAX mode" | 2 => "OCB mode <RFC7253>"
  | _ => "Unknown"

def pubName : Nat → String
  | 1 => "RSA (Encrypt or Sign)" | 2 => "RSA Encrypt-Only" | 3 => "RSA Sign-Only"
  | 16 => "Elgamal (Encrypt-Only)" | 17 => "DSA (Digital Signature Algorithm)" | 18 => "ECDH public key algorithm"
  | 19 => "ECDSA public key algorithm" | 20 => "Reserved (formerly Elgamal Encrypt or Sign)" | 21 => "Reserved for Diffie-Hellman"
  | 22 => "EdDSA"
  | _ => "Unknown"

def symName : Nat → String
  | 0 => "Plaintext or unencrypted data" | 1 => "IDEA" | 2 => "TripleDES (168 bit key derived from 192)" | 3 => "CAST5 (128 bit key, as per)"
  | 4 => "Blowfish (128 bit key, 16 rounds)" | 5 => "Reserved" | 6 => "Reserved"
  | 7 => "AES with 128-bit key" | 8 => "AES with 192-bit key" | 9 => "AES with 256-bit key" | 10 => "Twofish with 256-bit key"
  | 11 => "Camellia with 128-bit key" | 12 => "Camellia with 192-bit key" | 13 => "Camellia with 256-bit key"
  | _ => "Unknown"

def s2kName : Nat → String
  | 0 => "Simple S2K" | 1 => "Salted S2K" | 2 => "Reserved" | 3 => "Iterated and Salted S2K"
  | _ => "Unknown"

def packetName : Nat → String
  | 0 => "Reserved"
  | 1 => "Public-Key Encrypted Session Key Packet"
  | 2 => "Signature Packet"
  | 3 => "Symmetric-Key Encrypted Session Key Packet"
  | 4 => "One-Pass Signature Packet"
  | 5 => "Secret-Key Packet"
  | 6 => "Public-Key Packet"
  | 7 => "Secret-Subkey Packet"
  | 8 => "Compressed Data Packet"
  | 9 => "Symmetrically Encrypted Data Packet"
  | 10 => "Marker Packet (Obsolete Literal Packet)"
  | 11 => "Literal Data Packet"
  | 12 => "Trust Packet"
  | 13 => "User ID Packet"
  | 14 => "Public-Subkey Packet"
  | 17 => "User Attribute Packet"
  | 18 => "Sym. Encrypted Integrity Protected Data Packet"
  | 19 => "Modification Detection Code Packet"
  | 20 => "AEAD Encrypted Data Packet"
  | 60 => "Private or Experimental Values" | 61 => "Private or Experimental Values" | 62 => "Private or Experimental Values"
  | 63 => "Private or Experimental Values"
  | _ => "Unknown"

/-- numbers 100 to 110 are set aside below -/
def subpacketName : Nat → String
  | 0 => "Reserved"
  | 1 => "Image Attribute"
  | 2 => "Signature Creation Time"
  | 3 => "Signature Expiration Time"
  | 4 => "Exportable Certification"
  | 5 => "Trust Signature"
  | 6 => "Regular Expression"
  | 7 => "Revocable"
  | 8 => "Reserved"
  | 9 => "Key Expiration Time"
  | 10 => "Placeholder for backward compatibility"
  | 11 => "Preferred Symmetric Algorithms"
  | 12 => "Revocation Key"
  | 13 => "Reserved" | 14 => "Reserved" | 15 => "Reserved"
  | 16 => "Issuer"
  | 17 => "Reserved" | 18 => "Reserved" | 19 => "Reserved"
  | 20 => "Notation Data"
  | 21 => "Preferred Hash Algorithms"
  | 22 => "Preferred Compression Algorithms"
  | 23 => "Key Server Preferences"
  | 24 => "Preferred Key Server"
  | 25 => "Primary User ID"
  | 26 => "Policy URI"
  | 27 => "Key Flags"
  | 28 => "Signer's User ID"
  | 29 => "Reason for Revocation"
  | 30 => "Features"
  | 31 => "Signature Target"
  | 32 => "Embedded Signature"
  | 33 => "Issuer Fingerprint"
  | 34 => "Preferred AEAD Algorithms"
  | 35 => "Intended Recipient Fingerprint"
  | 36 => "Reserved"
  | 37 => "Attested Certifications"
  | 38 => "Key Block"
  | _ => "Unknown"

def reasonName : Nat → String
  | 0 => "No reason specified (key revocations or cert revocations)"
  | 1 => "Key is superseded (key revocations)"
  | 2 => "Key material has been compromised (key revocations)"
  | 3 => "Key is retired and no longer used (key revocations)"
  | 32 => "User ID resultrmation is no longer valid (cert revocations)"
  | _ => "Unknown reason"

/-- RFC 6637 section 11, RFC 5639, and the curves of GnuPG, by object identifier -/
def curves : List (Bytes × String) :=
  [([0x2a, 0x86, 0x48, 0xce, 0x3d, 0x03, 0x01, 0x07], "nistp256 (256bits key size)"),
   ([0x2b, 0x81, 0x04, 0x00, 0x22], "nistp384 (384bits key size)"),
   ([0x2b, 0x81, 0x04, 0x00, 0x23], "nistp521 (521bits key size)"),
   ([0x2b, 0x81, 0x04, 0x00, 0x0a], "secp256k1 (256bits key size)"),
   ([0x2b, 0x24, 0x03, 0x03, 0x02, 0x08, 0x01, 0x01, 0x07], "brainpoolP256r1 (256bits key size)"),
   ([0x2b, 0x24, 0x03, 0x03, 0x02, 0x08, 0x01, 0x01, 0x0b], "brainpoolP384r1 (384bits key size)"),
   ([0x2b, 0x24, 0x03, 0x03, 0x02, 0x08, 0x01, 0x01, 0x0d], "brainpoolP512r1 (512bits key size)"),
   ([0x2b, 0x06, 0x01, 0x04, 0x01, 0xda, 0x47, 0x0f, 0x01], "ed25519 (256bits key size)"),
   ([0x2b, 0x06, 0x01, 0x04, 0x01, 0x97, 0x55, 0x01, 0x05, 0x01], "cv25519 (256bits key size)")]

def curveName (oid : Bytes) : String := (curves.lookup oid).getD "Unknown"

/-- the first octet of a point -/
def pointFormat : Option UInt8 → String
  | some 0x04 => "uncompressed format"
  | some 0x40 => "Native point format of the curve follows"
  | some 0x41 => "Only X coordinate follows"
  | some 0x42 => "Only Y coordinate follows"
  | _ => "Unknown"

/-- `<name> (<kind> <number>)`; the numbers 100 to 110 are for private use -/
def algText (names : Nat → String) (kind : String) (b : UInt8) : Str :=
  (if 100 ≤ b.toNat ∧ b.toNat ≤ 110 then "Private/Experimental algorithm" else names b.toNat).toList ++ " (".toList ++ kind.toList ++ " ".toList ++
    dec b.toNat ++ ")".toList

/-! ## Fields -/

section
variable (o : OptCode → Bool)

def hashRow (b : UInt8) : Item := leaf "Hash Algorithm".toList (algText hashName "hash" b) [] (dumpIf (o DEBUG) [b])
def pubRow (b : UInt8) : Item := leaf "Public-key Algorithm".toList (algText pubName "pub" b) [] (dumpIf (o DEBUG) [b])
def symRow (b : UInt8) : Item := leaf "Symmetric Algorithm".toList (algText symName "sym" b) [] (dumpIf (o DEBUG) [b])
def aeadRow (b : UInt8) : Item := leaf "AEAD Algorithm".toList (algText aeadName "aead" b) [] (dumpIf (o DEBUG) [b])
def compRow (b : UInt8) : Item :=
  leaf "Compression Algorithm".toList ((compName b.toNat).toList ++ " (comp ".toList ++ dec b.toNat ++ ")".toList) [] (dumpIf (o DEBUG) [b])
def sigTypeRow (b : UInt8) : Item :=
  leaf "Signiture Type".toList ((sigName b.toNat).toList ++ " (0x".toList ++ hexOctet b ++ ")".toList) [] (dumpIf (o DEBUG) [b])

/-- `current` is the version of RFC 4880, `draft` that of the draft (if there is one) -/
def versionRow (current : Nat) (draft : Option Nat) (v : UInt8) : Item :=
  leaf "Version".toList (dec v.toNat)
    (if v.toNat < current then "old".toList else if v.toNat = current then "current".toList
      else if some v.toNat = draft then "draft".toList else "unknown".toList) (dumpIf (o DEBUG) [v])

def keyIDText (kid : Bytes) : Str := "0x".toList ++ kid.flatMap hexOctet

/-- a point in time (seconds since 1970) -/
def momentText (X : Ext) (tm : Bytes) : Str :=
  if o UTC then rfc3339UTC (UInt32.ofNat (beNat tm)) else X.localTime (UInt32.ofNat (beNat tm))

/-- a text: empty, not UTF-8, or UTF-8 with control characters made visible -/
def textRow (name : Str) (f : Bool) (b : Bytes) : Item :=
  if b = [] then leaf name [] "0 byte".toList
  else match utf8Decode b with
    | none => leaf name [] "invalid text string".toList (hexText b)
    | some cs => leaf name (cs.flatMap fun c => if isControl c then "(".toList ++ fmtU c ++ ")".toList else [c]) [] (dumpIf f b)

/-- the octets no field is known for -/
def unknownRows (q : Bytes) : List Item :=
  if q = [] then [] else [leaf "Unknown data".toList [] (sizeText q.length) (dumpIf (o DEBUG) q)]

/-! ## Integers of the public-key algorithms -/

/-- a part of the algorithm-specific fields -/
inductive Slot
  /-- multi-precision integer -/
  | int (label : String)
  /-- point of an elliptic curve, as a multi-precision integer -/
  | point (label : String)
  /-- object identifier of a curve -/
  | curve
  /-- KDF parameters -/
  | kdf
  /-- encrypted session key -/
  | wrapped

/-- RFC 4880 5.5.2, RFC 6637 section 9 -/
def pubSlots (a : UInt8) : Option (List Slot) :=
  if a ∈ [1, 2, 3] then some [.int "RSA public modulus n", .int "RSA public encryption exponent e"]
  else if a = 17 then
    some [.int "DSA p", .int "DSA q (q is a prime divisor of p-1)", .int "DSA g", .int "DSA y (= g^x mod p where x is secret)"]
  else if a ∈ [16, 20] then
    some [.int "ElGamal prime p", .int "ElGamal group generator g", .int "ElGamal public key value y (= g^x mod p where x is secret)"]
  else if a = 18 then some [.curve, .point "ECDH", .kdf]
  else if a = 19 then some [.curve, .point "ECDSA"]
  else if a = 22 then some [.curve, .point "EdDSA"]
  else none

/-- RFC 4880 5.2.2, RFC 6637 section 4 -/
def sigSlots (a : UInt8) : Option (List Slot) :=
  if a ∈ [1, 2, 3] then some [.int "RSA signature value m^d mod n"]
  else if a = 17 then some [.int "DSA value r", .int "DSA value s"]
  else if a ∈ [16, 20] then some [.int "ElGamal a = g^k mod p", .int "ElGamal b = (h - a*x)/k mod p - 1"]
  else if a = 19 then some [.int "ECDSA value r", .int "ECDSA value s"]
  else if a = 22 then some [.int "EC point r", .int "EdDSA value s in the little endian representation"]
  else none

/-- RFC 4880 5.1, RFC 6637 section 10 -/
def sesSlots (a : UInt8) : Option (List Slot) :=
  if a ∈ [1, 2, 3] then
    some [.int "RSA m^e mod n; m = sym alg(1 byte) + checksum(2 bytes) + PKCS#1 block encoding EME-PKCS1-v1_5"]
  else if a ∈ [16, 20] then
    some [.int "ElGamal g^k mod p",
      .int "ElGamal m * y^k mod p; m = sym alg(1 byte) + checksum(2 bytes) + PKCS#1 block encoding EME-PKCS1-v1_5"]
  else if a = 18 then some [.point "ECDH", .wrapped]
  else none

/-- RFC 4880 5.5.3 -/
def secSlots (a : UInt8) : Option (List Slot) :=
  if a ∈ [1, 2, 3] then
    some [.int "RSA secret exponent d", .int "RSA secret prime value p", .int "RSA secret prime value q (p < q)",
      .int "RSA u, the multiplicative inverse of p, mod q"]
  else if a = 17 then some [.int "DSA secret exponent x"]
  else if a ∈ [16, 20] then some [.int "ElGamal secret exponent x"]
  else if a = 18 then some [.int "ECDH secret key"]
  else if a = 19 then some [.int "ECDSA secret key"]
  else if a = 22 then some [.int "EdDSA secret key"]
  else none

/-- the KDF parameters of RFC 6637: reserved octet 1, hash algorithm, cipher -/
def kdfRow (k : Bytes) : Item :=
  match k with
  | 1 :: h :: s :: _ => .mk "KDF parameters".toList [] (dumpIf (o INTEGER || o DEBUG) k) (sizeText k.length) [hashRow o h, symRow o s]
  | _ => leaf "KDF parameters".toList "Unknown".toList (sizeText k.length) (dumpIf (o INTEGER || o DEBUG) k)

/-- the octets `f` are the given parts, displayed as `is`; `q` are the octets behind them -/
inductive SlotRows : List Slot → Bytes → Bytes → List Item → Prop
  | nil {q} : SlotRows [] [] q []
  | int {l ss bits data f q is} (hb : bits < 65536) (hl : data.length = (bits + 7) / 8) (h : SlotRows ss f q is) :
      SlotRows (.int l :: ss) (beOctets 2 bits ++ (data ++ f)) q
        (leaf l.toList [] (dec bits ++ " bits".toList) (dumpIf (o INTEGER || o DEBUG) data) :: is)
  | point {l ss bits data f q is} (hb : bits < 65536) (hl : data.length = (bits + 7) / 8) (h : SlotRows ss f q is) :
      SlotRows (.point l :: ss) (beOctets 2 bits ++ (data ++ f)) q
        (leaf (l.toList ++ " EC point (".toList ++ (pointFormat data.head?).toList ++ ")".toList) [] (dec bits ++ " bits".toList)
          (dumpIf (o INTEGER || o DEBUG) data) :: is)
  | curve {ss oid f q is} (hl : oid.length < 256) (h : SlotRows ss f q is) :
      SlotRows (.curve :: ss) (UInt8.ofNat oid.length :: (oid ++ f)) q (leaf "ECC Curve OID".toList (curveName oid).toList [] (hexText oid) :: is)
  | kdf {ss k f q is} (hl : k.length < 256) (h : SlotRows ss f q is) : SlotRows (.kdf :: ss) (UInt8.ofNat k.length :: (k ++ f)) q (kdfRow o k :: is)
  | wrapped {ss k f q is} (hl : k.length < 256) (h : SlotRows ss f q is) :
      SlotRows (.wrapped :: ss) (UInt8.ofNat k.length :: (k ++ f)) q
        (leaf "symmetric key (encoded)".toList [] (sizeText k.length) (dumpIf (o INTEGER || o DEBUG) k) :: is)
  /-- the tool accepts that these two are missing at the end -/
  | kdfMissing : SlotRows [.kdf] [] [] [kdfRow o []]
  | wrappedMissing : SlotRows [.wrapped] [] [] [leaf "symmetric key (encoded)".toList [] (sizeText 0) []]

/-- fields that are not looked at: `q` is all that is left, and shown again as unknown data -/
def opaqueName (a : UInt8) : Str :=
  if a = 17 then "Multi-precision integers of DSA".toList
  else if a = 18 then "Multi-precision integers of ECDH".toList
  else if a = 19 then "Multi-precision integers of ECDSA".toList
  else if a = 22 then "Multi-precision integers of EdDSA".toList
  else "Multi-precision integers of Unknown (pub ".toList ++ dec a.toNat ++ ")".toList

inductive Integers (slots : UInt8 → Option (List Slot)) : UInt8 → Bytes → Bytes → List Item → Prop
  | known {a ss f q is} (ha : slots a = some ss) (h : SlotRows o ss f q is) : Integers slots a f q is
  | unknown {a q} (ha : slots a = none) : Integers slots a [] q [leaf (opaqueName a) [] (sizeText q.length) (dumpIf (o DEBUG) q)]

/-- unencrypted secret key material -/
inductive SecretInts : UInt8 → Bytes → Bytes → List Item → Prop
  | known {a ss f q is} (ha : secSlots a = some ss) (h : SlotRows o ss f q is) : SecretInts a f q is
  | unknown {a f q} (ha : secSlots a = none) (hq : q.length = 2) :
      SecretInts a f q [leaf ("Multi-precision integers of unknown secret key (pub ".toList ++ dec a.toNat ++ ")".toList) []
        (sizeText f.length) (dumpIf (o DEBUG) f)]

def encryptedName (a : UInt8) : Str :=
  if a ∈ [1, 2, 3] then "RSA encrypted key (d, p, q, u)".toList
  else if a = 17 then "DSA encrypted key".toList
  else if a ∈ [16, 20] then "Elgamal encrypted key".toList
  else if a = 18 then "ECDH encrypted key".toList
  else if a = 19 then "ECDSA encrypted key".toList
  else if a = 22 then "EdDSA encrypted key".toList
  else "Multi-precision integers of unknown encrypted key (pub ".toList ++ dec a.toNat ++ ")".toList

/-! ## String-to-key specifiers -/

def s2kRow (t : UInt8) (is : List Item) : Item :=
  .mk "String-to-Key (S2K) Algorithm".toList (algText s2kName "s2k" t) (dumpIf (o DEBUG) [t]) [] is

def gnuRow (n : UInt8) (is : List Item) : Item :=
  .mk "GNU-divert-to-card".toList ("Extension Number ".toList ++ dec (1000 + n.toNat)) [] [] is

/-- number of octets that are hashed (RFC 4880 3.7.1.3) -/
def iterations (c : UInt8) : Nat := (16 + c.toNat % 16) * 2 ^ (c.toNat / 16 + 6)

def saltRow (s : Bytes) : Item := leaf "Salt".toList [] [] (hexText s)
def countRow (c : UInt8) : Item := leaf "Count".toList (dec (iterations c)) [] (hexText [c])

/-- whether an initialization vector belongs to the specifier, its octets, the octets behind it, how it is displayed -/
inductive S2KShown : Bool → Bytes → Bytes → Item → Prop
  | simple {h q} : S2KShown true [0, h] q (s2kRow o 0 [hashRow o h])
  | salted {h s q} (hs : s.length = 8) : S2KShown true (1 :: h :: s) q (s2kRow o 1 [hashRow o h, saltRow s])
  | iterated {h s c q} (hs : s.length = 8) :
      S2KShown true (3 :: h :: (s ++ [c])) q (s2kRow o 3 [hashRow o h, saltRow s, countRow c])
  | gnu {n q} (hn : n ≠ 2) : S2KShown false [101, 0x47, 0x4e, 0x55, n] q (s2kRow o 101 [gnuRow n []])
  | card {s q} (hs : s.length < 256) :
      S2KShown false (101 :: 0x47 :: 0x4e :: 0x55 :: 2 :: UInt8.ofNat s.length :: s) q
        (s2kRow o 101 [gnuRow 2 [leaf "Serial Number".toList [] [] (hexText s)]])
  | notGnu {q} (h : ¬ ∃ n r, q = 0x47 :: 0x4e :: 0x55 :: n :: r) : S2KShown true [101] q (s2kRow o 101 [])
  | other {t q} (h : t ∉ [0, 1, 3, 101]) : S2KShown true [t] q (s2kRow o t [])

/-! ## Keys -/

/-- the public key behind the version octet: version, algorithm (0 if the version is unknown), octets, and the octets behind them -/
inductive PubShown (X : Ext) : UInt8 → UInt8 → Bytes → Bytes → List Item → Prop
  | v3 {tm days a f q is} (ht : tm.length = 4) (hd : days.length = 2) (h : Integers o pubSlots a f q is) :
      PubShown X 3 a (tm ++ (days ++ a :: f)) q
        (leaf "Public key creation time".toList (momentText o X tm) [] (dumpIf (o DEBUG) tm) ::
          leaf "Valid days".toList (dec (beNat days)) "0 is forever".toList [] :: pubRow o a :: is)
  | v4 {tm a f q is} (ht : tm.length = 4) (h : Integers o pubSlots a f q is) :
      PubShown X 4 a (tm ++ a :: f) q (leaf "Public key creation time".toList (momentText o X tm) [] (dumpIf (o DEBUG) tm) :: pubRow o a :: is)
  /-- four octets with the size of the integers; octets behind the integers are not displayed (see C42) -/
  | v5 {tm a f g q is} (ht : tm.length = 4) (hl : (f ++ g).length < 2 ^ 32) (h : Integers o pubSlots a f g is) :
      PubShown X 5 a (tm ++ a :: (beOctets 4 (f ++ g).length ++ (f ++ g))) q
        (leaf "Public key creation time".toList (momentText o X tm) [] (dumpIf (o DEBUG) tm) :: pubRow o a :: is)
  | other {v q} (hv : v ∉ [3, 4, 5]) : PubShown X v 0 [] q []

/-- what is between the usage octet of a secret key and the initialization vector -/
inductive OptionsShown : UInt8 → UInt8 → Bool → Bytes → Bytes → List Item → Prop
  | plain {q} : OptionsShown 0 0 false [] q []
  | s2k {u c iv f q i} (hu : u = 254 ∨ u = 255) (h : S2KShown o iv f q i) : OptionsShown u c iv (c :: f) q [symRow o c, i]
  | aead {c a iv f q i} (h : S2KShown o iv f q i) : OptionsShown 253 c iv (c :: a :: f) q [symRow o c, aeadRow o a, i]
  | cipher {u c q} (hu : u ∉ [0, 253, 254, 255]) : OptionsShown u c true [c] q [symRow o c]

/-- the initialization vector, if there is one: as many octets as a block of the cipher -/
inductive IVShown : UInt8 → UInt8 → Bool → Bytes → List Item → Prop
  | none {u c} : IVShown u c false [] []
  | iv {u c n} (hu : u ≠ 253) (hn : n.length = blockSize c) : IVShown u c true n [leaf "IV".toList [] [] (hexText n)]
  | nonce {c n} (hn : n.length = blockSize c) : IVShown 253 c true n [leaf "nonce for the AEAD".toList [] [] (hexText n)]

def usageNote (u : UInt8) : Str :=
  if u = 0 then "s2k usage 0; plain secret-key material".toList
  else if u = 253 then "s2k usage 253; encrypted secret-key material and AEAD authentication tag".toList
  else if u = 254 then "s2k usage 254; encrypted secret-key material and 20-octet SHA-1 hash".toList
  else "s2k usage ".toList ++ dec u.toNat ++ "; encrypted secret-key material and 2-octet checksum".toList

def checksumRow (c : Bytes) : Item := leaf "2-octet checksum".toList [] [] (hexText c)

/-- the part of a secret key behind the public key, versions other than 5; the octets behind it; how it is displayed -/
inductive SecretShown : UInt8 → Bytes → Bytes → Item → Prop
  | plain {a f c q is} (h : SecretInts o a f (c ++ q) is) (hc : c.length = 2) :
      SecretShown a (0 :: (f ++ c)) q (.mk "Secret-Key".toList [] [] (usageNote 0) (is ++ [checksumRow c]))
  | encrypted {a u c iv f n m is ivs} (hu : u ≠ 0) (h : OptionsShown o u c iv f (n ++ m) is) (hn : IVShown u c iv n ivs) :
      SecretShown a (u :: (f ++ (n ++ m))) [] (.mk "Secret-Key".toList [] [] (usageNote u)
        (is ++ ivs ++ [leaf (encryptedName a) [] (sizeText m.length) (dumpIf (o DEBUG) m)]))

/-- the options of a version 5 secret key: a count, the options with octets `g` nothing is known about, the initialization vector -/
inductive Options5Shown : UInt8 → Bytes → List Item → Prop
  | none {u} : Options5Shown u [0] []
  | plain {g} (hl : g.length < 256) (h0 : g ≠ []) : Options5Shown 0 (UInt8.ofNat g.length :: g) (unknownRows o g)
  | some {u c iv f g n is ivs} (hu : u ≠ 0) (hl : (f ++ g).length < 256) (h : OptionsShown o u c iv f g is) (hn : IVShown u c iv n ivs) :
      Options5Shown u (UInt8.ofNat (f ++ g).length :: (f ++ (g ++ n))) (is ++ ivs ++ unknownRows o g)

/-- the key material of a version 5 secret key, with the octets behind it: note of the item and its parts -/
inductive Material5Shown : UInt8 → UInt8 → Bytes → Bytes → Str → List Item → Prop
  | none {u a q} : Material5Shown u a [0, 0, 0, 0] q [] []
  | encrypted {u a m q} (hu : u ≠ 0) (h0 : m ≠ []) (hl : m.length < 2 ^ 32) :
      Material5Shown u a (beOctets 4 m.length ++ m) q (usageNote u) [leaf (encryptedName a) [] (sizeText m.length) (dumpIf (o DEBUG) m)]
  | plain {a f g c q is} (h0 : f ++ g ≠ []) (hl : (f ++ g).length < 2 ^ 32) (h : SecretInts o a f g is) (hc : c.length = 2) :
      Material5Shown 0 a (beOctets 4 (f ++ g).length ++ (f ++ (g ++ c))) q (usageNote 0) (is ++ [checksumRow c] ++ unknownRows o g)

/-- the same as `SecretShown` for version 5 -/
inductive Secret5Shown : UInt8 → Bytes → Bytes → Item → Prop
  | mk {a u f m q note is ms} (ho : Options5Shown o u f is) (hm : Material5Shown o u a m q note ms) :
      Secret5Shown a (u :: (f ++ m)) q (.mk "Secret-Key".toList [] [] note (is ++ ms))

/-! ## Subpackets -/

def subName (t : UInt8) : Str :=
  (if 100 ≤ t.toNat % 128 ∧ t.toNat % 128 ≤ 110 then "Private or experimental" else subpacketName (t.toNat % 128)).toList ++
    (if 128 ≤ t.toNat then " <critical>".toList else []) ++ " (sub ".toList ++ dec (t.toNat % 128) ++ ")".toList

/-- a subpacket of which the parts are displayed -/
def subRow (t : UInt8) (b : Bytes) (is : List Item) (value : Str := []) : Item :=
  .mk (subName t) value (dumpIf (o DEBUG) b) (sizeText b.length) is

def unknownFlagText (n : Nat) (b : UInt8) : Str := "Unknown flag".toList ++ dec n ++ "(0x".toList ++ hexOctet b ++ ")".toList

/-- the named bits, then the remaining bits of the octet if there are any (octet number `n`) -/
def flagRows (names : List (UInt8 × String)) (n : Nat) (b : UInt8) : List Item :=
  (names.filterMap fun p => if b &&& p.1 ≠ 0 then some (leaf "Flag".toList p.2.toList) else none) ++
    (let r := names.foldl (fun r p => r &&& ~~~ p.1) b; if r ≠ 0 then [leaf "Flag".toList (unknownFlagText n r)] else [])

/-- octets without named bits, numbered from `n` -/
def restFlagRows (n : Nat) : Bytes → List Item
  | [] => []
  | b :: bs => flagRows [] n b ++ restFlagRows (n + 1) bs

/-- the flags of key flags: the unknown bit 0x40 of the first octet is displayed before the bit 0x80 -/
def keyFlagRows (b : UInt8) : List Item :=
  flagRows [(0x01, "This key may be used to certify other keys."), (0x02, "This key may be used to sign data."),
    (0x04, "This key may be used to encrypt communications."), (0x08, "This key may be used to encrypt storage."),
    (0x10, "The private component of this key may have been split by a secret-sharing mechanism."),
    (0x20, "This key may be used for authentication.")] 1 (b &&& 0x7f) ++
  flagRows [(0x80, "The private component of this key may be in the possession of more than one person.")] 1 (b &&& 0x80)

def keyFlagRows2 (b : UInt8) : List Item :=
  flagRows [(0x04, "This key may be used as an additional decryption subkey (ADSK)."), (0x08, "This key may be used for timestamping.")] 2 b

def featureRows (b : UInt8) : List Item :=
  flagRows [(0x01, "Modification Detection (packets 18 and 19)"),
    (0x02, "AEAD Encrypted Data Packet (packet 20) and version 5 Symmetric-Key Encrypted Session Key Packets (packet 3)"),
    (0x04, "Version 5 Public-Key Packet format and corresponding new fingerprint format")] 1 b

def serverRows (b : UInt8) : List Item := flagRows [(0x80, "No-modify")] 1 b

/-- the flags of a notation -/
def notationRows (fl : Bytes) : List Item :=
  match fl with
  | [a, b, c, d] => flagRows [(0x80, "Human-readable")] 1 a ++ flagRows [] 2 b ++ flagRows [] 3 c ++ flagRows [] 4 d
  | _ => []

def numRow (name : String) (b : UInt8) (note : Str := []) : Item := leaf name.toList (dec b.toNat) note

def classText (c : UInt8) : String :=
  if c.toNat < 128 then "Unknown" else if c.toNat < 192 then "Normal" else "Sensitive"

def fingerprintNote (v : UInt8) : String :=
  if v = 4 then "need 20 octets length" else if v = 5 then "need 32 octets length" else "Unknown"

/-- Subpackets of signatures without packets inside them. `note` stands for the end of a validity period (C17, C19).
The tool does not display octets behind the last field of the types 2, 3, 5, 7, 9, 16, 20 and 25 separately. -/
inductive SubShown (X : Ext) : UInt8 → Bytes → Item → Prop
  | created {t tm r} (h : t.toNat % 128 = 2) (hl : tm.length = 4) :
      SubShown X t (tm ++ r) (leaf (subName t) (momentText o X tm) [] (dumpIf (o DEBUG) tm))
  | expires {t n r note} (h : t.toNat % 128 = 3 ∨ t.toNat % 128 = 9) (hl : n.length = 4) :
      SubShown X t (n ++ r) (leaf (subName t) (X.days (UInt32.ofNat (beNat n)) ++ " days after".toList) note (dumpIf (o DEBUG) n))
  /-- the dump is that of the octets behind the flag -/
  | exportable {t b r} (h : t.toNat % 128 = 4) :
      SubShown X t (b :: r) (leaf (subName t) (if b = 0 then "Not exportable".toList else "Exportable".toList) (sizeText (b :: r).length) (hexText r))
  | trust {t level amount r} (h : t.toNat % 128 = 5) :
      SubShown X t (level :: amount :: r) (subRow o t (level :: amount :: r) [numRow "Level" level, numRow "Trust amount" amount])
  | text {t b} (h : t.toNat % 128 ∈ [6, 24, 26, 28]) : SubShown X t b (textRow (subName t) (o DEBUG) b)
  | revocable {t b r} (h : t.toNat % 128 = 7) :
      SubShown X t (b :: r) (subRow o t (b :: r) [] (if b = 0 then "Not revocable".toList else "Revocablee".toList))
  | ciphers {t b} (h : t.toNat % 128 = 11) : SubShown X t b (subRow o t b (b.map (symRow o)))
  | revoker {t c a fp} (h : t.toNat % 128 = 12) :
      SubShown X t (c :: a :: fp) (subRow o t (c :: a :: fp) [leaf "Class".toList (classText c).toList [] (hexText [c]), pubRow o a,
        leaf "Fingerprint".toList [] (sizeText fp.length) (hexText fp)])
  | issuer {t kid r} (h : t.toNat % 128 = 16) (hl : kid.length = 8) : SubShown X t (kid ++ r) (leaf (subName t) (keyIDText kid))
  | notation {t fl name value r} (h : t.toNat % 128 = 20) (hf : fl.length = 4) (hn : name.length < 65536) (hv : value.length < 65536) :
      SubShown X t (fl ++ (beOctets 2 name.length ++ (beOctets 2 value.length ++ (name ++ (value ++ r)))))
        (subRow o t (fl ++ (beOctets 2 name.length ++ (beOctets 2 value.length ++ (name ++ (value ++ r)))))
          (notationRows fl ++ [textRow "Name".toList (o DEBUG) name,
            if 128 ≤ (fl.headD 0).toNat then textRow "Value".toList (o DEBUG) value else leaf "Value".toList [] [] (hexText value)]))
  | hashes {t b} (h : t.toNat % 128 = 21) : SubShown X t b (subRow o t b (b.map (hashRow o)))
  | compressions {t b} (h : t.toNat % 128 = 22) : SubShown X t b (subRow o t b (b.map (compRow o)))
  | server {t b r} (h : t.toNat % 128 = 23) : SubShown X t (b :: r) (subRow o t (b :: r) (serverRows b ++ restFlagRows 2 r))
  | primary {t b r} (h : t.toNat % 128 = 25) :
      SubShown X t (b :: r) (subRow o t (b :: r) [] (if b = 0 then "Not primary".toList else "Primary".toList))
  | keyFlags1 {t b} (h : t.toNat % 128 = 27) : SubShown X t [b] (subRow o t [b] (keyFlagRows b))
  /-- the third octet is numbered 2 again (see C48) -/
  | keyFlags {t b c r} (h : t.toNat % 128 = 27) :
      SubShown X t (b :: c :: r) (subRow o t (b :: c :: r) (keyFlagRows b ++ keyFlagRows2 c ++ restFlagRows 2 r))
  | reason {t c r} (h : t.toNat % 128 = 29) :
      SubShown X t (c :: r) (subRow o t (c :: r) (if r = [] then [] else [textRow "Additional resultrmation".toList (o DEBUG) r])
        ((if 100 ≤ c.toNat ∧ c.toNat ≤ 110 then "(Private Use)" else reasonName c.toNat).toList ++ " (".toList ++ dec c.toNat ++ ")".toList))
  | features {t b r} (h : t.toNat % 128 = 30) : SubShown X t (b :: r) (subRow o t (b :: r) (featureRows b ++ restFlagRows 2 r))
  | target {t a hsh d} (h : t.toNat % 128 = 31) :
      SubShown X t (a :: hsh :: d) (subRow o t (a :: hsh :: d) [pubRow o a, hashRow o hsh, leaf "Hash".toList [] (sizeText d.length) (hexText d)])
  | fingerprint {t v fp} (h : t.toNat % 128 = 33 ∨ t.toNat % 128 = 35) :
      SubShown X t (v :: fp) (subRow o t (v :: fp) [numRow "Version" v (fingerprintNote v).toList,
        leaf "Fingerprint".toList [] (sizeText fp.length) (hexText fp)])
  | aeads {t b} (h : t.toNat % 128 = 34) : SubShown X t b (subRow o t b (b.map (aeadRow o)))
  | attested {t b} (h : t.toNat % 128 = 37) :
      SubShown X t b (subRow o t b [leaf "certification digests".toList [] (sizeText b.length) (dumpIf (o CERT || o DEBUG) b)])
  | other {t b} (h : t.toNat % 128 ∉ [2, 3, 4, 5, 6, 7, 9, 11, 12, 16, 20, 21, 22, 23, 24, 25, 26, 27, 28, 29, 30, 31, 32, 33, 34, 35, 37, 38]) :
      SubShown X t b (subRow o t b [])

/-- Subpackets of user attributes. The tool takes the header length of an image big-endian and says how many octets are behind it
(a negative number if there are fewer). -/
inductive AttrShown : UInt8 → Bytes → Item → Prop
  | image {t l0 l1 v r} (h : t.toNat % 128 = 1) (hv : v.toNat < 100 ∨ 110 < v.toNat) :
      AttrShown t (l0 :: l1 :: v :: r) (subRow o t (l0 :: l1 :: v :: r)
        [numRow "Version" v (if v = 1 then [] else "Unknown".toList),
         leaf "Image data".toList [] (decInt (((l0 :: l1 :: v :: r).length : Int) - (l0.toNat * 256 + l1.toNat : Nat)) ++ " bytes".toList)])
  | experimental {t l0 l1 v e r} (h : t.toNat % 128 = 1) (h1 : 100 ≤ v.toNat) (h2 : v.toNat ≤ 110) :
      AttrShown t (l0 :: l1 :: v :: e :: r) (subRow o t (l0 :: l1 :: v :: e :: r)
        [numRow "Version" v "private or experimental use".toList,
         leaf "Encoding".toList (if e = 1 then "JPEG".toList else "Unknown".toList) ("(enc ".toList ++ dec e.toNat ++ ")".toList),
         leaf "Image data".toList [] (decInt (((l0 :: l1 :: v :: e :: r).length : Int) - (l0.toNat * 256 + l1.toNat : Nat)) ++ " bytes".toList)])
  | other {t b} (h : t.toNat % 128 ≠ 1) : AttrShown t b (subRow o t b [])

/-- one item per subpacket -/
def areaRow (name : String) (area : Bytes) (is : List Item) : Item :=
  .mk name.toList [] (dumpIf (o DEBUG) area) (sizeText area.length) is

/-! ## Packets -/

def packetRow (tag : Nat) (body : Bytes) (is : List Item) : Item :=
  .mk ((packetName tag).toList ++ " (tag ".toList ++ dec tag ++ ")".toList) []
    (dumpIf ((60 ≤ tag && tag ≤ 63 && o PRIVATE) || o DEBUG) body) (sizeText body.length) is

def keyIDRow (kid : Bytes) : Item := leaf "Key ID".toList (keyIDText kid)
def left16Row (l : Bytes) : Item := leaf "Hash left 2 bytes".toList [] [] (hexText l)

/-- the hashed part of a version 3 signature -/
inductive Hashed3Shown (X : Ext) : Bytes → Item → Prop
  | five {t tm} (h : tm.length = 4) :
      Hashed3Shown X (5 :: t :: tm) (.mk "Hashed material".toList [] [] (sizeText 5)
        [sigTypeRow o t, leaf "Signature creation time".toList (momentText o X tm) [] (dumpIf (o DEBUG) tm)])
  | other {b : Bytes} (hl : b.length < 256) (h : b.length ≠ 5) :
      Hashed3Shown X (UInt8.ofNat b.length :: b)
        (leaf "Hashed material".toList "Unknown".toList (sizeText b.length) (dumpIf (o DEBUG) b))

/-- a version 3 signature behind the version octet (RFC 4880 5.2.2) -/
inductive Sig3Shown (X : Ext) : Bytes → List Item → Prop
  | mk {hd hi kid a h l f q is} (hh : Hashed3Shown o X hd hi) (hk : kid.length = 8) (hl : l.length = 2) (hf : Integers o sigSlots a f q is) :
      Sig3Shown X (hd ++ (kid ++ a :: h :: (l ++ (f ++ q))))
        (hi :: keyIDRow kid :: pubRow o a :: hashRow o h :: left16Row l :: (is ++ unknownRows o q))

/-- an integer that is cut off -/
inductive IntCut : Bytes → Prop
  | size {q} (h : q.length < 2) : IntCut q
  | data {bits q} (hb : bits < 65536) (h : q.length < (bits + 7) / 8) : IntCut (beOctets 2 bits ++ q)

/-- integers, the last of them cut off -/
inductive SlotsCut : List Slot → Bytes → List Item → Prop
  | here {l ss q} (h : IntCut q) : SlotsCut (.int l :: ss) q []
  | next {l ss bits data q is} (hb : bits < 65536) (hl : data.length = (bits + 7) / 8) (h : SlotsCut ss q is) :
      SlotsCut (.int l :: ss) (beOctets 2 bits ++ (data ++ q))
        (leaf l.toList [] (dec bits ++ " bits".toList) (dumpIf (o INTEGER || o DEBUG) data) :: is)

inductive Hashed3Cut : Bytes → Item → Prop
  | kind : Hashed3Cut [5] (.mk "Hashed material".toList [] [] (sizeText 5) [])
  | time {t tm} (h : tm.length < 4) : Hashed3Cut (5 :: t :: tm) (.mk "Hashed material".toList [] [] (sizeText 5) [sigTypeRow o t])
  | other {n : UInt8} {b : Bytes} (hn : n ≠ 5) (h : b.length < n.toNat) :
      Hashed3Cut (n :: b) (.mk "Hashed material".toList "Unknown".toList [] (sizeText n.toNat) [])

/-- a version 3 signature that is cut off, behind the version octet: the complete fields are displayed -/
inductive Sig3Cut (X : Ext) : Bytes → List Item → Prop
  | size : Sig3Cut X [] []
  | hashed {hd hi} (h : Hashed3Cut o hd hi) : Sig3Cut X hd [hi]
  | keyID {hd hi k} (hh : Hashed3Shown o X hd hi) (hk : k.length < 8) : Sig3Cut X (hd ++ k) [hi]
  | algorithm {hd hi kid} (hh : Hashed3Shown o X hd hi) (hk : kid.length = 8) : Sig3Cut X (hd ++ kid) [hi, keyIDRow kid]
  | hash {hd hi kid a} (hh : Hashed3Shown o X hd hi) (hk : kid.length = 8) : Sig3Cut X (hd ++ (kid ++ [a])) [hi, keyIDRow kid, pubRow o a]
  | left {hd hi kid a h l} (hh : Hashed3Shown o X hd hi) (hk : kid.length = 8) (hl : l.length < 2) :
      Sig3Cut X (hd ++ (kid ++ a :: h :: l)) [hi, keyIDRow kid, pubRow o a, hashRow o h]
  | integers {hd hi kid a h l ss q is} (hh : Hashed3Shown o X hd hi) (hk : kid.length = 8) (hl : l.length = 2) (ha : sigSlots a = some ss)
      (hc : SlotsCut o ss q is) :
      Sig3Cut X (hd ++ (kid ++ a :: h :: (l ++ q))) (hi :: keyIDRow kid :: pubRow o a :: hashRow o h :: left16Row l :: is)

def literalFormat : UInt8 → String
  | 0x62 => "binary" | 0x74 => "text" | 0x75 => "UTF-8 text" | 0x31 => "local" | 0x6c => "local"
  | _ => "unknown"

/-- size of a chunk (draft rfc4880bis 5.16); the tool computes the exponent in one octet and the size in 64 bits -/
def chunkText (c : UInt8) : Str := dec (if (c.toNat + 6) % 256 < 64 then 2 ^ ((c.toNat + 6) % 256) else 0)

/-- size of the nonce the tool expects -/
def aeadNonce (a : UInt8) : Nat := if a = 1 ∨ a = 2 then 16 else 0

/-- the fields of a compressed packet as such; `none` stands for 1 GiB or more -/
def packedRows (body : Bytes) (huge : Bool) : List Item :=
  match body with
  | [] => []
  | a :: z => compRow o a :: (if z = [] then [] else
      [leaf "Compressed data".toList (if huge then "<too laege decompressed data>".toList else []) (sizeText z.length) (dumpIf (o DEBUG) z)])

mutual
/-- the packet with this tag and body is displayed as this item -/
inductive Display (X : Ext) : Nat → Bytes → Item → Prop
  | sessionKey {v kid a f q is} (hk : kid.length = 8) (h : Integers o sesSlots a f q is) :
      Display X 1 (v :: (kid ++ a :: (f ++ q))) (packetRow o 1 (v :: (kid ++ a :: (f ++ q)))
        (versionRow o 3 none v :: keyIDRow kid :: pubRow o a :: (is ++ unknownRows o q)))
  | signature {v t a h a1 a2 i1 i2 l f q is} (hv : v ∈ [4, 5]) (h1 : AreaRows X "Hashed Subpacket" a1 i1) (h2 : AreaRows X "Unhashed Subpacket" a2 i2)
      (hl : l.length = 2) (hf : Integers o sigSlots a f q is) (hl1 : a1.length < 65536) (hl2 : a2.length < 65536) :
      Display X 2 (v :: t :: a :: h :: (beOctets 2 a1.length ++ (a1 ++ (beOctets 2 a2.length ++ (a2 ++ (l ++ (f ++ q)))))))
        (packetRow o 2 (v :: t :: a :: h :: (beOctets 2 a1.length ++ (a1 ++ (beOctets 2 a2.length ++ (a2 ++ (l ++ (f ++ q)))))))
          (versionRow o 4 (some 5) v :: sigTypeRow o t :: pubRow o a :: hashRow o h :: (i1 ++ i2 ++ left16Row l :: (is ++ unknownRows o q))))
  | signature3 {b is} (h : Sig3Shown o X b is) : Display X 2 (3 :: b) (packetRow o 2 (3 :: b) (versionRow o 4 (some 5) 3 :: is))
  /-- the tool does not report that the packet is cut off (see C40) -/
  | signature3Cut {b is} (h : Sig3Cut o X b is) : Display X 2 (3 :: b) (packetRow o 2 (3 :: b) (versionRow o 4 (some 5) 3 :: is))
  | signatureOther {v q} (hv : v ∉ [3, 4, 5]) : Display X 2 (v :: q) (packetRow o 2 (v :: q) (versionRow o 4 (some 5) v :: unknownRows o q))
  | password {c iv f q i} (h : S2KShown o iv f q i) :
      Display X 3 (4 :: c :: (f ++ q)) (packetRow o 3 (4 :: c :: (f ++ q)) (versionRow o 4 (some 5) 4 :: symRow o c :: i :: unknownRows o q))
  | passwordOther {v q} (hv : v ≠ 4) : Display X 3 (v :: q) (packetRow o 3 (v :: q) (versionRow o 4 (some 5) v :: unknownRows o q))
  | onePass {v t h a kid last q} (hk : kid.length = 8) :
      Display X 4 (v :: t :: h :: a :: (kid ++ last :: q)) (packetRow o 4 (v :: t :: h :: a :: (kid ++ last :: q))
        (versionRow o 3 none v :: sigTypeRow o t :: hashRow o h :: pubRow o a :: keyIDRow kid ::
          leaf "Encrypted session key".toList (if last = 0 then "another one pass signature".toList else "other than one pass signature".toList)
            ("flag 0x".toList ++ hexOctet last) :: unknownRows o q))
  | publicKey {tag v a f q is} (ht : tag ∈ [6, 14]) (h : PubShown o X v a f q is) :
      Display X tag (v :: (f ++ q)) (packetRow o tag (v :: (f ++ q)) (versionRow o 4 (some 5) v :: (is ++ unknownRows o q)))
  | secretKey {tag v a f s q is i} (ht : tag ∈ [5, 7]) (h : PubShown o X v a f (s ++ q) is)
      (hs : if v = 5 then Secret5Shown o a s q i else SecretShown o a s q i) :
      Display X tag (v :: (f ++ (s ++ q))) (packetRow o tag (v :: (f ++ (s ++ q)))
        (versionRow o 4 (some 5) v :: .mk "Public-Key".toList [] [] [] is :: i :: unknownRows o q))
  | compressed {body z} (h : Opens X body z) : Display X 8 body (packetRow o 8 body (packedRows o body z.isNone))
  /-- `source` says where the session key comes from (C53) -/
  | encrypted {body source} (hs : source ∈ ["sym alg is specified in sym-key encrypted session key", "sym alg is specified in pub-key encrypted session key",
        "sym alg is IDEA, simple string-to-key"].map String.toList) :
      Display X 9 body (packetRow o 9 body [leaf "Encrypted data".toList source (sizeText body.length) (dumpIf (o DEBUG) body)])
  | marker {body} :
      Display X 10 body (packetRow o 10 body [leaf "Literal data".toList [] (sizeText body.length) (dumpIf (o MARKER || o DEBUG) body)])
  | literal {fmt : UInt8} {n tm data : Bytes} (hn : n.length < 256) (ht : tm.length = 4) :
      Display X 11 (fmt :: UInt8.ofNat n.length :: (n ++ (tm ++ data))) (packetRow o 11 (fmt :: UInt8.ofNat n.length :: (n ++ (tm ++ data)))
        [leaf "Literal data format".toList [Char.ofNat fmt.toNat] (literalFormat fmt).toList, textRow "File name".toList (o LITERAL || o DEBUG) n,
         leaf "Creation time".toList (if tm = [0, 0, 0, 0] then "null".toList else momentText o X tm) [] (dumpIf (o DEBUG) tm),
         leaf "Literal data".toList [] (sizeText data.length) (dumpIf (o LITERAL || o DEBUG) data)])
  | trust {body} : Display X 12 body (packetRow o 12 body [leaf "Trust".toList [] (sizeText body.length) (hexText body)])
  | userID {body} : Display X 13 body (packetRow o 13 body [textRow "User ID".toList (o DEBUG) body])
  | userAttribute {body subs is} (hs : SubSeq subs body) (h : List.Forall₂ (fun s i => AttrShown o s.1 s.2 i) subs is) :
      Display X 17 body (packetRow o 17 body [areaRow o "Subpacket" body is])
  /-- `note` is the size or says where the session key comes from (C53) -/
  | integrity {body note} (hn : note ∈ [sizeText body.length,
        "plain text + MDC SHA1(20 bytes); sym alg is specified in sym-key encrypted session key".toList,
        "plain text + MDC SHA1(20 bytes); sym alg is specified in pub-key encrypted session key".toList]) :
      Display X 18 body (packetRow o 18 body [leaf "Encrypted data".toList [] note (dumpIf (o DEBUG) body)])
  | mdc {body} : Display X 19 body (packetRow o 19 body [leaf "MDC".toList [] "SHA-1 (20 bytes)".toList (dumpIf (o DEBUG) body)])
  | aead {v c a k n d} (hn : n.length = aeadNonce a) :
      Display X 20 (v :: c :: a :: k :: (n ++ d)) (packetRow o 20 (v :: c :: a :: k :: (n ++ d))
        (versionRow o 1 none v :: symRow o c :: aeadRow o a :: leaf "Chunk size".toList (chunkText k) [] (hexText [k]) ::
          leaf "IV".toList [] [] (hexText n) ::
          (if d = [] then [] else [leaf "Encrypted data and authentication tag".toList [] (sizeText d.length) (dumpIf (o DEBUG) d)])))
  /-- a cut nonce is not displayed -/
  | aeadCut {v c a k d} (hn : d.length < aeadNonce a) :
      Display X 20 (v :: c :: a :: k :: d) (packetRow o 20 (v :: c :: a :: k :: d)
        [versionRow o 1 none v, symRow o c, aeadRow o a, leaf "Chunk size".toList (chunkText k) [] (hexText [k])])
  | other {tag body} (h : tag ∉ [1, 2, 3, 4, 5, 6, 7, 8, 9, 10, 11, 12, 13, 14, 17, 18, 19, 20]) : Display X tag body (packetRow o tag body [])

/-- a subpacket area, named so; an empty one is not displayed -/
inductive AreaRows (X : Ext) : String → Bytes → List Item → Prop
  | empty {name} : AreaRows X name [] []
  | subs {name area subs is} (h0 : area ≠ []) (hs : SubSeq subs area) (h : SubsShown X subs is) : AreaRows X name area [areaRow o name area is]

inductive SubsShown (X : Ext) : List (UInt8 × Bytes) → List Item → Prop
  | nil : SubsShown X [] []
  | plain {t b i subs is} (h : SubShown o X t b i) (hs : SubsShown X subs is) : SubsShown X ((t, b) :: subs) (i :: is)
  | embedded {t b i subs is} (ht : t.toNat % 128 = 32) (h : Display X 2 b i) (hs : SubsShown X subs is) :
      SubsShown X ((t, b) :: subs) (subRow o t b [i] :: is)
  | keyBlockOther {t k d subs is} (ht : t.toNat % 128 = 38) (hk : k ≠ 0) (hs : SubsShown X subs is) :
      SubsShown X ((t, k :: d) :: subs)
        (subRow o t (k :: d) [numRow "Type" k, leaf "Key data".toList [] (sizeText d.length) (dumpIf (o DEBUG) d)] :: is)
  /-- complete packets, then nothing or a packet that ends unnoticed (see C26) -/
  | keyBlock {t a b ps js subs is} (ht : t.toNat % 128 = 38) (ha : ClosedSeq ps a) (hb : KeyEnd X b) (h : DisplayAll X ps js)
      (hs : SubsShown X subs is) :
      SubsShown X ((t, 0 :: (a ++ b)) :: subs)
        (subRow o t (0 :: (a ++ b)) [numRow "Type" 0,
          .mk "Key data".toList [] (dumpIf (o DEBUG) (a ++ b)) (sizeText (a ++ b).length) js] :: is)

/-- one item per packet -/
inductive DisplayAll (X : Ext) : List (Nat × Bytes) → List Item → Prop
  | nil : DisplayAll X [] []
  | cons {tag body ps i is} (h : Display X tag body i) (hs : DisplayAll X ps is) : DisplayAll X ((tag, body) :: ps) (i :: is)
end

/-- a packet at the top level: the packets in a compressed packet are displayed in it -/
inductive TopDisplay (X : Ext) : Nat × Bytes → Item → Prop
  | plain {tag body i} (h8 : tag ≠ 8) (h : Display o X tag body i) : TopDisplay X (tag, body) i
  | packed {body z ps is} (h : Opens X body (some z)) (hz : PacketSeq ps z) (hp : DisplayAll o X ps is) :
      TopDisplay X (8, body) (packetRow o 8 body (packedRows o body false ++ is))
  | huge {body} (h : Opens X body none) : TopDisplay X (8, body) (packetRow o 8 body (packedRows o body true))

end

end Gpgpdump.Spec
