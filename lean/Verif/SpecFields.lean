import Verif.SpecSig
import Verif.Values
import Verif.NumLemmas

/-!
# Specification: which octets of a packet an item stands for

`Shown i f`: the item `i` displays the octets `f`. `Cover is f`: the items display the octets `f`, in this order, without gaps or
overlaps. The relation is given by what is visible in the item (name, value, note, dump), not by how it was built.
-/

namespace Gpgpdump.Spec

/-- the fields of one octet that are shown as `<description> (<kind> <number>)` -/
def numbered : List (Str × Str) :=
  [("Public-key Algorithm".toList, "pub".toList), ("Hash Algorithm".toList, "hash".toList), ("Symmetric Algorithm".toList, "sym".toList),
   ("AEAD Algorithm".toList, "aead".toList), ("String-to-Key (S2K) Algorithm".toList, "s2k".toList)]

/-- time stamps: four octets -/
def timeNames : List Str := ["Public key creation time".toList, "Signature creation time".toList, "Creation time".toList]

/-- data that is always dumped -/
def dumpedNames : List Str := ["Salt".toList, "IV".toList, "nonce for the AEAD".toList, "2-octet checksum".toList, "Hash left 2 bytes".toList]

/-- data whose size is in the note -/
def sizedNames : List Str :=
  ["Unknown data".toList, "Literal data".toList, "RSA encrypted key (d, p, q, u)".toList, "DSA encrypted key".toList,
   "Elgamal encrypted key".toList, "ECDH encrypted key".toList, "ECDSA encrypted key".toList, "EdDSA encrypted key".toList]

/-- the key material of algorithms the tool does not know -/
def sizedPrefixes : List Str :=
  ["Multi-precision integers of unknown encrypted key (pub ".toList, "Multi-precision integers of unknown secret key (pub ".toList]

/-- the integers of algorithms the tool does not know, or that cannot be used for the purpose; their octets are not read and show up
again as "Unknown data" -/
def opaquePrefixes : List Str :=
  ["Multi-precision integers of Unknown (pub ".toList, "Multi-precision integers of ECDH".toList, "Multi-precision integers of DSA".toList,
   "Multi-precision integers of ECDSA".toList, "Multi-precision integers of EdDSA".toList]

def bytesNote (n : Nat) : Str := dec n ++ " bytes".toList

mutual
inductive Shown : Item → Bytes → Prop
  | version {i b} (hn : i.name = "Version".toList) (hv : i.value = dec b.toNat) : Shown i [b]
  | numbered {i b n k d} (hk : (n, k) ∈ numbered) (hn : i.name = n) (hv : i.value = d ++ " (".toList ++ k ++ " ".toList ++ dec b.toNat ++ ")".toList)
      (hi : i.items = []) : Shown i [b]
  | sigType {i b d} (hn : i.name = "Signiture Type".toList) (hv : i.value = d ++ " (".toList ++ hashHex2 b.toNat ++ ")".toList) : Shown i [b]
  | flagNote {i b} (hn : i.name = "Encrypted session key".toList) (ht : i.note = "flag ".toList ++ hashHex2 b.toNat) : Shown i [b]
  | count {i b} (hn : i.name = "Count".toList) (hd : i.dump = hex2 b) : Shown i [b]
  | format {i b} (hn : i.name = "Literal data format".toList) (hv : i.value = [Char.ofNat b.toNat]) : Shown i [b]
  | keyID {i ds f} (hn : i.name = "Key ID".toList) (hf : f.length = 8) (hv : i.value = "0x".toList ++ ds) (hd : ds.length = 16)
      (hx : hexNat ds = some (beNat f)) : Shown i f
  | time {i f} (hn : i.name ∈ timeNames) (hf : f.length = 4) : Shown i f
  | days {i f} (hn : i.name = "Valid days".toList) (hf : f.length = 2) (hv : i.value = dec (beNat f)) : Shown i f
  | dumped {i f} (hn : i.name ∈ dumpedNames) (hd : i.dump = Reader.dumpHex f) : Shown i f
  /-- two octets with the number of bits, then the integer -/
  | mpi {i bits data} (ht : i.note = dec bits ++ " bits".toList) (hb : bits < 65536) (hl : data.length = (bits + 7) / 8)
      (hd : i.dump = Reader.dumpHex data ∨ i.dump = []) : Shown i (beOctets 2 bits ++ data)
  /-- one octet with the length, then the object identifier -/
  | oid {i f} (hn : i.name = "ECC Curve OID".toList) (hl : f.length < 256) (hd : i.dump = Reader.dumpHex f) : Shown i (UInt8.ofNat f.length :: f)
  /-- one octet with the length, then the parameters -/
  | ecParm {i f} (hn : i.name = "KDF parameters".toList ∨ i.name = "symmetric key (encoded)".toList) (hl : f.length < 256)
      (ht : i.note = bytesNote f.length) : Shown i (UInt8.ofNat f.length :: f)
  /-- the packet ends before the length -/
  | ecParmMissing {i} (hn : i.name = "KDF parameters".toList ∨ i.name = "symmetric key (encoded)".toList) (ht : i.note = bytesNote 0) : Shown i []
  /-- one octet with the length, then the name (C27 says how the text is shown) -/
  | fileName {i f d} (hl : f.length < 256) (hi : i = textItem "File name".toList f d) : Shown i (UInt8.ofNat f.length :: f)
  | sized {i f} (hn : i.name ∈ sizedNames ∨ ∃ p ∈ sizedPrefixes, ∃ s, i.name = p ++ s) (ht : i.note = bytesNote f.length) : Shown i f
  | unread {i} (hn : ∃ p ∈ opaquePrefixes, ∃ s, i.name = p ++ s) : Shown i []
  /-- one octet with the specifier's type, then its parts -/
  | s2k {i b d f} (hn : i.name = "String-to-Key (S2K) Algorithm".toList) (hv : i.value = d ++ " (s2k ".toList ++ dec b.toNat ++ ")".toList)
      (hi : Cover i.items f) : Shown i (b :: f)
  /-- "GNU" and the extension number, then its parts -/
  | gnu {i b f} (hn : i.name = "GNU-divert-to-card".toList) (hv : i.value = "Extension Number ".toList ++ dec (1000 + b.toNat)) (hi : Cover i.items f) :
      Shown i ([0x47, 0x4e, 0x55, b] ++ f)
  /-- one octet with the length, then the number -/
  | serial {i f} (hn : i.name = "Serial Number".toList) (hl : f.length < 256) (hd : i.dump = Reader.dumpHex f) : Shown i (UInt8.ofNat f.length :: f)
  | publicKey {i f} (hn : i.name = "Public-Key".toList) (hi : Cover i.items f) : Shown i f
  /-- one octet with the usage, shown in the note, then the parts -/
  | secretKey {i b f s} (hn : i.name = "Secret-Key".toList) (ht : i.note = "s2k usage ".toList ++ dec b.toNat ++ "; ".toList ++ s) (hi : Cover i.items f) :
      Shown i (b :: f)
  /-- hashed part of a version 3 signature: one octet with its size, then its parts -/
  | hashed3 {i f} (hn : i.name = "Hashed material".toList) (ht : i.note = bytesNote f.length) (hl : f.length < 256)
      (hi : Cover i.items f) : Shown i (UInt8.ofNat f.length :: f)
  /-- hashed part with a size the tool does not know: shown as a whole -/
  | hashed3Unknown {i f} (hn : i.name = "Hashed material".toList) (hv : i.value = "Unknown".toList) (ht : i.note = bytesNote f.length)
      (hl : f.length < 256) (hi : i.items = []) : Shown i (UInt8.ofNat f.length :: f)

inductive Cover : List Item → Bytes → Prop
  | nil : Cover [] []
  | cons {i f is g} (h : Shown i f) (hs : Cover is g) : Cover (i :: is) (f ++ g)
end

end Gpgpdump.Spec
