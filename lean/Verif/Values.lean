import Verif.Reader
import Verif.Result
import Verif.Utf8
import Verif.Calendar
import Verif.Context

/-!
# `parse/values`: numeric identifiers, texts, times, multi-precision integers as result items

Conversions with a `dumpFlag` parameter take it as a `Bool`. Parts of the environment that are not modelled concretely are
parameters (`Ext`).
-/

namespace Gpgpdump

/-- An `io.Reader` produced by one of the external components. -/
structure Stream where
  /-- octets delivered before the end or the failure -/
  data : Bytes
  /-- what the reader reports after `data`: `io.EOF` or another error -/
  tail : GoErr
  /-- short reads, see `Src` -/
  sched : List Nat := []
  /-- whether `tail` comes together with the last octets, see `Src` -/
  eager : Bool := false
  deriving DecidableEq, Repr

/-- The environment: time zone, float formatting, decompressors, armor decoder, slice growth. Everything proved holds for
every choice. -/
structure Ext where
  /-- `time.Unix(t,0).Format(time.RFC3339)` in the local zone (datetime.go:62-68) -/
  localTime : UInt32 → Str
  /-- `fmt.Sprintf("%v", float64(exp)/86400.0)` (expire.go:40) -/
  days : UInt32 → Str
  /-- `flate.NewReader` (raw DEFLATE) -/
  flate : Bytes → Stream
  /-- `zlib.NewReader`; the constructor can fail -/
  zlib : Bytes → Except GoErr Stream
  /-- `bzip2.NewReader` -/
  bzip2 : Bytes → Stream
  /-- `armor.Decode(r)` and its body -/
  armor : Bytes → Except GoErr Stream
  /-- capacity chosen by `append` when a slice of the given capacity is full (io.ReadAll) -/
  grow : Nat → Nat

/-! ## Tables -/

/-- msgs.go:4 `type Msgs map[int]string` -/
abbrev Msgs := List (Nat × Str)

/-- msgs.go:7-12 `Get` -/
def Msgs.get (m : Msgs) (i : Nat) (dflt : Str) : Str :=
  match m.find? (fun kv => kv.1 == i) with
  | some kv => kv.2
  | none => dflt

/-- misc.go:7 -/
def Unknown : Str := S "Unknown"

/-- misc.go:12 -/
def PrivateAlgName : Str := S "Private/Experimental algorithm"

/-- hashid.go:9-25 `hashIDNames` -/
def hashIDNames : Msgs :=
  [(0, S "Unknown"),
   (1, S "MD5"),
   (2, S "SHA-1"),
   (3, S "RIPE-MD/160"),
   (4, S "Reserved"),
   (5, S "Reserved"),
   (6, S "Reserved"),
   (7, S "Reserved"),
   (8, S "SHA2-256"),
   (9, S "SHA2-384"),
   (10, S "SHA2-512"),
   (11, S "SHA2-224"),
   (12, S "SHA3-256"),
   (13, S "Reserved"),
   (14, S "SHA3-512")]

/-- sigid.go:9-26 `sigIDNames` -/
def sigIDNames : Msgs :=
  [(0, S "Signature of a binary document"),
   (1, S "Signature of a canonical text document"),
   (2, S "Standalone signature"),
   (16, S "Generic certification of a User ID and Public-Key packet"),
   (17, S "Persona certification of a User ID and Public-Key packet"),
   (18, S "Casual certification of a User ID and Public-Key packet"),
   (19, S "Positive certification of a User ID and Public-Key packet"),
   (22, S "Attested Key Signature"),
   (24, S "Subkey Binding Signature"),
   (25, S "Primary Key Binding Signature"),
   (31, S "Signature directly on a key"),
   (32, S "Key revocation signature"),
   (40, S "Subkey revocation signature"),
   (48, S "Certification revocation signature"),
   (64, S "Timestamp signature"),
   (80, S "Third-Party Confirmation signature")]

/-- compid.go:9-14 `compIDNames` -/
def compIDNames : Msgs :=
  [(0, S "Uncompressed"),
   (1, S "ZIP <RFC1951>"),
   (2, S "ZLIB <RFC1950>"),
   (3, S "BZip2")]

/-- aeadid.go:9-12 `aeadIDNames` -/
def aeadIDNames : Msgs :=
  [(1, S "EAX mode"),
   (2, S "OCB mode <RFC7253>")]

/-- pubid.go:9-20 `pubIDNames` -/
def pubIDNames : Msgs :=
  [(1, S "RSA (Encrypt or Sign)"),
   (2, S "RSA Encrypt-Only"),
   (3, S "RSA Sign-Only"),
   (16, S "Elgamal (Encrypt-Only)"),
   (17, S "DSA (Digital Signature Algorithm)"),
   (18, S "ECDH public key algorithm"),
   (19, S "ECDSA public key algorithm"),
   (20, S "Reserved (formerly Elgamal Encrypt or Sign)"),
   (21, S "Reserved for Diffie-Hellman"),
   (22, S "EdDSA")]

/-- symid.go:9-24 `symIDNames` -/
def symIDNames : Msgs :=
  [(0, S "Plaintext or unencrypted data"),
   (1, S "IDEA"),
   (2, S "TripleDES (168 bit key derived from 192)"),
   (3, S "CAST5 (128 bit key, as per)"),
   (4, S "Blowfish (128 bit key, 16 rounds)"),
   (5, S "Reserved"),
   (6, S "Reserved"),
   (7, S "AES with 128-bit key"),
   (8, S "AES with 192-bit key"),
   (9, S "AES with 256-bit key"),
   (10, S "Twofish with 256-bit key"),
   (11, S "Camellia with 128-bit key"),
   (12, S "Camellia with 192-bit key"),
   (13, S "Camellia with 256-bit key")]

/-- s2kid.go:10-15 `s2kIDNames` -/
def s2kIDNames : Msgs :=
  [(0, S "Simple S2K"),
   (1, S "Salted S2K"),
   (2, S "Reserved"),
   (3, S "Iterated and Salted S2K")]

/-- subpacketid.go:10-50 `subpacketNames` -/
def subpacketNames : Msgs :=
  [(0, S "Reserved"),
   (1, S "Image Attribute"),
   (2, S "Signature Creation Time"),
   (3, S "Signature Expiration Time"),
   (4, S "Exportable Certification"),
   (5, S "Trust Signature"),
   (6, S "Regular Expression"),
   (7, S "Revocable"),
   (8, S "Reserved"),
   (9, S "Key Expiration Time"),
   (10, S "Placeholder for backward compatibility"),
   (11, S "Preferred Symmetric Algorithms"),
   (12, S "Revocation Key"),
   (13, S "Reserved"),
   (14, S "Reserved"),
   (15, S "Reserved"),
   (16, S "Issuer"),
   (17, S "Reserved"),
   (18, S "Reserved"),
   (19, S "Reserved"),
   (20, S "Notation Data"),
   (21, S "Preferred Hash Algorithms"),
   (22, S "Preferred Compression Algorithms"),
   (23, S "Key Server Preferences"),
   (24, S "Preferred Key Server"),
   (25, S "Primary User ID"),
   (26, S "Policy URI"),
   (27, S "Key Flags"),
   (28, S "Signer's User ID"),
   (29, S "Reason for Revocation"),
   (30, S "Features"),
   (31, S "Signature Target"),
   (32, S "Embedded Signature"),
   (33, S "Issuer Fingerprint"),
   (34, S "Preferred AEAD Algorithms"),
   (35, S "Intended Recipient Fingerprint"),
   (36, S "Reserved"),
   (37, S "Attested Certifications"),
   (38, S "Key Block")]

/-- tagid.go:10-34 `tagNames` -/
def tagNames : Msgs :=
  [(0, S "Reserved"),
   (1, S "Public-Key Encrypted Session Key Packet"),
   (2, S "Signature Packet"),
   (3, S "Symmetric-Key Encrypted Session Key Packet"),
   (4, S "One-Pass Signature Packet"),
   (5, S "Secret-Key Packet"),
   (6, S "Public-Key Packet"),
   (7, S "Secret-Subkey Packet"),
   (8, S "Compressed Data Packet"),
   (9, S "Symmetrically Encrypted Data Packet"),
   (10, S "Marker Packet (Obsolete Literal Packet)"),
   (11, S "Literal Data Packet"),
   (12, S "Trust Packet"),
   (13, S "User ID Packet"),
   (14, S "Public-Subkey Packet"),
   (17, S "User Attribute Packet"),
   (18, S "Sym. Encrypted Integrity Protected Data Packet"),
   (19, S "Modification Detection Code Packet"),
   (20, S "AEAD Encrypted Data Packet"),
   (60, S "Private or Experimental Values"),
   (61, S "Private or Experimental Values"),
   (62, S "Private or Experimental Values"),
   (63, S "Private or Experimental Values")]

/-- ecc.go:90-95 `eccPointCompFlagNames` -/
def eccPointNames : Msgs :=
  [(4, S "uncompressed format"),
   (64, S "Native point format of the curve follows"),
   (65, S "Only X coordinate follows"),
   (66, S "Only Y coordinate follows")]

/-- literal.go:13-19 `literalFormatNames` -/
def literalFormatNames : Msgs :=
  [(98, S "binary"),
   (116, S "text"),
   (117, S "UTF-8 text"),
   (49, S "local"),
   (108, S "local")]

/-- ecc.go:15-25 `oidList` -/
def oidList : List (Str × Bytes) :=
  [(S "nistp256 (256bits key size)", [0x2a, 0x86, 0x48, 0xce, 0x3d, 0x03, 0x01, 0x07]),
   (S "secp256k1 (256bits key size)", [0x2b, 0x81, 0x04, 0x00, 0x0a]),
   (S "nistp384 (384bits key size)", [0x2b, 0x81, 0x04, 0x00, 0x22]),
   (S "nistp521 (521bits key size)", [0x2b, 0x81, 0x04, 0x00, 0x23]),
   (S "brainpoolP256r1 (256bits key size)", [0x2b, 0x24, 0x03, 0x03, 0x02, 0x08, 0x01, 0x01, 0x07]),
   (S "brainpoolP384r1 (384bits key size)", [0x2b, 0x24, 0x03, 0x03, 0x02, 0x08, 0x01, 0x01, 0x0b]),
   (S "brainpoolP512r1 (512bits key size)", [0x2b, 0x24, 0x03, 0x03, 0x02, 0x08, 0x01, 0x01, 0x0d]),
   (S "ed25519 (256bits key size)", [0x2b, 0x06, 0x01, 0x04, 0x01, 0xda, 0x47, 0x0f, 0x01]),
   (S "cv25519 (256bits key size)", [0x2b, 0x06, 0x01, 0x04, 0x01, 0x97, 0x55, 0x01, 0x05, 0x01])]

/-! ## Dumps -/

/-- dump.go:28-30 `DumpBytes(data, f).String()` -/
def dumpBytes (data : Bytes) (f : Bool) : Str := if f then (Reader.new data).dumpString 0 else []

/-- dump.go:15-25 `Dump(r, f).String()`: from the current offset (`Size - Rest`) to the end -/
def dumpRest (r : Reader) (f : Bool) : Str := if f then r.dumpString r.off else []

/-- dump.go:33-38 `DumpByteString` -/
def dumpByte (b : UInt8) (f : Bool) : Str := if f then hex2 b else []

/-! ## Identifiers -/

/-- name for identifiers that reserve 100-110 for private use -/
def algName (t : Msgs) (b : UInt8) : Str :=
  if 100 ≤ b.toNat ∧ b.toNat ≤ 110 then PrivateAlgName else t.get b.toNat Unknown

/-- hashid.go:40-48 -/
def hashStr (b : UInt8) : Str := algName hashIDNames b ++ S " (hash " ++ dec b.toNat ++ S ")"
/-- hashid.go:31-37 -/
def hashItem (b : UInt8) (f : Bool) : Item := newItem (S "Hash Algorithm") (hashStr b) [] (dumpByte b f)

/-- sigid.go:41-43 -/
def sigStr (b : UInt8) : Str := sigIDNames.get b.toNat Unknown ++ S " (" ++ hashHex2 b.toNat ++ S ")"
/-- sigid.go:32-38 -/
def sigItem (b : UInt8) (f : Bool) : Item := newItem (S "Signiture Type") (sigStr b) [] (dumpByte b f)

/-- compid.go:28-30 -/
def compStr (b : UInt8) : Str := compIDNames.get b.toNat Unknown ++ S " (comp " ++ dec b.toNat ++ S ")"
/-- compid.go:20-26 -/
def compItem (b : UInt8) (f : Bool) : Item := newItem (S "Compression Algorithm") (compStr b) [] (dumpByte b f)

/-- aeadid.go:36-44 -/
def aeadStr (b : UInt8) : Str := algName aeadIDNames b ++ S " (aead " ++ dec b.toNat ++ S ")"
/-- aeadid.go:28-34 -/
def aeadItem (b : UInt8) (f : Bool) : Item := newItem (S "AEAD Algorithm") (aeadStr b) [] (dumpByte b f)
/-- aeadid.go:47-52 `IVLen` -/
def aeadIVLen (b : UInt8) : Nat := if b = 1 ∨ b = 2 then 16 else 0

/-- pubid.go:35-43 -/
def pubStr (b : UInt8) : Str := algName pubIDNames b ++ S " (pub " ++ dec b.toNat ++ S ")"
/-- pubid.go:26-32 -/
def pubItem (b : UInt8) (f : Bool) : Item := newItem (S "Public-key Algorithm") (pubStr b) [] (dumpByte b f)

/-- pubid.go:45-73: the classification by `IsRSA`, `IsDSA`, `IsElgamal`, `IsECDH`, `IsECDSA`, `IsEdDSA`
(the predicates are mutually exclusive). -/
inductive PubAlg
  | rsa | dsa | elgamal | ecdh | ecdsa | eddsa | unknown
  deriving DecidableEq, Repr

def pubAlg (b : UInt8) : PubAlg :=
  if 1 ≤ b.toNat ∧ b.toNat ≤ 3 then .rsa
  else if b = 17 then .dsa
  else if b = 16 ∨ b = 20 then .elgamal
  else if b = 18 then .ecdh
  else if b = 19 then .ecdsa
  else if b = 22 then .eddsa
  else .unknown

/-- symid.go:64-72 -/
def symStr (b : UInt8) : Str := algName symIDNames b ++ S " (sym " ++ dec b.toNat ++ S ")"
/-- symid.go:47-53 -/
def symItem (b : UInt8) (f : Bool) : Item := newItem (S "Symmetric Algorithm") (symStr b) [] (dumpByte b f)
/-- symid.go:26-61 `IVLen` -/
def symIVLen (b : UInt8) : Nat := if b.toNat ≤ 6 then 8 else if b.toNat ≤ 13 then 16 else 0

/-- s2kid.go:29-37 -/
def s2kStr (b : UInt8) : Str := algName s2kIDNames b ++ S " (s2k " ++ dec b.toNat ++ S ")"
/-- s2kid.go:21-27 -/
def s2kItem (b : UInt8) (f : Bool) : Item := newItem (S "String-to-Key (S2K) Algorithm") (s2kStr b) [] (dumpByte b f)
/-- s2kid.go:43-48 -/
def saltItem (b : Bytes) (f : Bool) : Item := newItem (S "Salt") [] [] (dumpBytes b f)
/-- s2kid.go:57-58: `(16 + (c & 15)) << ((c >> 4) + 6)` in uint32 -/
def stretchCount (c : UInt8) : UInt32 := (16 + (c.toUInt32 &&& 0x0f)) <<< ((c.toUInt32 >>> 4) + 6)
/-- s2kid.go:57-64 -/
def stretchItem (c : UInt8) : Item := newItem (S "Count") (dec (stretchCount c).toNat) [] (dumpByte c true)

/-- subpacketid.go:64-77 -/
def subStr (b : UInt8) : Str :=
  let c := if b &&& 0x80 ≠ 0 then S " <critical>" else []
  let s := (b &&& 0x7f).toNat
  (if 100 ≤ s ∧ s ≤ 110 then S "Private or experimental" else subpacketNames.get s Unknown) ++ c ++ S " (sub " ++ dec s ++ S ")"
/-- subpacketid.go:56-62 on a fresh reader over `body` -/
def subItem (b : UInt8) (body : Bytes) (f : Bool) : Item :=
  newItem (subStr b) [] (nBytes body.length) (dumpRest (Reader.new body) f)

/-- tagid.go:48-50 -/
def tagStr (t : Nat) : Str := tagNames.get t Unknown ++ S " (tag " ++ dec t ++ S ")"
/-- tagid.go:40-46 on a fresh reader over `body` -/
def tagItem (t : Nat) (body : Bytes) (f : Bool) : Item :=
  newItem (tagStr t) [] (nBytes body.length) (dumpRest (Reader.new body) f)

/-! ## Versions -/

/-- version.go:10-14 -/
structure Version where
  ver : UInt8
  cur : UInt8
  draft : UInt8

/-- version.go:30-35 -/
def Version.isOld (v : Version) : Bool := v.ver < v.cur
/-- version.go:38-43 -/
def Version.isCurrent (v : Version) : Bool := v.ver == v.cur
/-- version.go:46-54 -/
def Version.isDraft (v : Version) : Bool := v.draft != 0 && v.ver == v.draft

/-- version.go:62-83 -/
def Version.item (v : Version) (f : Bool) : Item :=
  newItem (S "Version") (dec v.ver.toNat)
    (if v.isOld then S "old" else if v.isCurrent then S "current" else if v.isDraft then S "draft" else S "unknown")
    (dumpByte v.ver f)

/-- version.go:90-92 -/
def pubVer (b : UInt8) : Version := ⟨b, 4, 5⟩
/-- version.go:95-97 -/
def sigVer (b : UInt8) : Version := ⟨b, 4, 5⟩
/-- version.go:100-102 -/
def oneSigVer (b : UInt8) : Version := ⟨b, 3, 0⟩
/-- version.go:105-107 -/
def pubSessKeyVer (b : UInt8) : Version := ⟨b, 3, 0⟩
/-- version.go:110-112 -/
def symSessKeyVer (b : UInt8) : Version := ⟨b, 4, 5⟩
/-- version.go:115-117 -/
def aeadVer (b : UInt8) : Version := ⟨b, 1, 0⟩

/-! ## Elliptic curve parameters -/

/-- ecc.go:53-60 `OID.String`, with the iteration order of the map given explicitly -/
def oidStrWith (order : List (Str × Bytes)) (oid : Bytes) : Str :=
  match order.find? (fun kv => oid == kv.2) with
  | some kv => kv.1
  | none => Unknown
/-- ecc.go:53-60 -/
def oidStr (oid : Bytes) : Str := oidStrWith oidList oid
/-- ecc.go:44-50 -/
def oidItem (oid : Bytes) (f : Bool) : Item := newItem (S "ECC Curve OID") (oidStr oid) [] (dumpBytes oid f)
/-- ecc.go:82-88 -/
def ecParmItem (ep : Bytes) (name : Str) (f : Bool) : Item := newItem name [] (nBytes ep.length) (dumpBytes ep f)
/-- ecc.go:100-106, with the selection of the flag in parse_pub.go:106-109 (0xff for an empty integer) -/
def ecPointName (alg : Str) (body : Bytes) : Str :=
  let flag := match body with
    | [] => 0xff
    | b :: _ => b.toNat
  alg ++ S " EC point (" ++ eccPointNames.get flag Unknown ++ S ")"

/-! ## Multi-precision integers -/

/-- mpi.go:42-54 (the name is never empty in the code) -/
def mpiItem (name : Str) (bits : Nat) (data : Bytes) (f : Bool) : Item :=
  newItem name [] (dec bits ++ S " bits") (dumpBytes data f)

/-! ## Texts -/

/-- literal.go:25-35: the value is the rune with the number of the octet -/
def literalFormatItem (b : UInt8) : Item :=
  newItem (S "Literal data format") [Char.ofNat b.toNat] (literalFormatNames.get b.toNat (S "unknown"))

/-- literal.go:83-91: control characters are replaced by `(U+XXXX)` -/
def escapeText : Str → Str
  | [] => []
  | c :: cs => (if isControl c then '(' :: fmtU c ++ [')'] else [c]) ++ escapeText cs

/-- literal.go:64-97 for a non-nil text -/
def textItem (name : Str) (body : Bytes) (f : Bool) : Item :=
  if body.isEmpty then newItem name [] (S "0 byte")
  else match utf8Decode body with
    | none => newItem name [] (S "invalid text string") (dumpBytes body true)
    | some cs => newItem name (escapeText cs) [] (dumpBytes body f)

/-- literal.go:100-107 -/
def rawData (r : Reader) (name : Str) (f : Bool) : Item := newItem name [] (iBytes r.rest) (dumpRest r f)

/-! ## Times -/

/-- datetime.go:62-68 -/
def rfc3339 (X : Ext) (t : UInt32) (utc : Bool) : Str := if utc then rfc3339UTC t else X.localTime t

/-- datetime.go:28-37 for a non-nil time -/
def dateTimeItem (X : Ext) (d : DateTime) (name : Str) (f : Bool) : Item :=
  newItem name (rfc3339 X d.unix d.utc) [] (dumpBytes d.tm f)

/-- datetime.go:71-81 for a non-nil time -/
def fileTimeItem (X : Ext) (d : DateTime) (f : Bool) : Item :=
  if d.unix = 0 then newItem (S "Creation time") (S "null") [] (dumpBytes d.tm f)
  else dateTimeItem X d (S "Creation time") f

/-- expire.go:28-44; `start + exp` wraps modulo 2^32 (line 36) -/
def expireItem (X : Ext) (name : Str) (day : Bytes) (start : Option DateTime) (f : Bool) : Item :=
  let exp : UInt32 := UInt32.ofNat (beNat day)
  let endDay := match start with
    | none => []
    | some s => if s.unix > 0 then rfc3339 X (s.unix + exp) s.utc else []
  newItem name (X.days exp ++ S " days after") endDay (dumpBytes day f)

/-! ## Key IDs and flags -/

/-- keyid.go:14-28 -/
def keyIDItem (octets : Bytes) : Item := newItem (S "Key ID") (hashHex16 (beNat octets))

/-- misc.go:16-24: nil (no item) when the masked flag is zero -/
def flag2Item (flag : UInt8) (value : Str) : Option Item :=
  if flag ≠ 0 then some (newItem (S "Flag") value) else none

end Gpgpdump
