import Verif.S2K
import Verif.Pubkey
import Verif.Packet

/-!
# `parse/tags`: packets and subpackets

Every parse method is a `P` program run in its own `scope` (fresh reader over the body, header item). The recursion
signature → embedded signature / key block → packet is open: the functions take `recur` (parse a packet with the given tag and
body) and `parseTag` closes it with fuel; `parseTag` with `body.length + 1` never runs out (proved).
-/

namespace Gpgpdump

/-- parse a packet with the given tag and body: `NewTag(op, cxt).Parse()` -/
abbrev TagParser := Nat → Bytes → P Item

section
variable (X : Ext)

/-! ## Subpackets -/

/-- header item of a subpacket (subs.go:19-21) and a fresh reader over its body -/
def subScope (st : UInt8) (body : Bytes) (m : P Item) : P Item := do
  scope body (subItem st body (← flag Ctx.debug)) m

/-- `result.NewItem(result.Name(name), result.Value(strconv.Itoa(int(b))))` -/
def numItem (name : Str) (b : UInt8) : Item := newItem name (dec b.toNat)

/-- sub01.go:26-72 Image Attribute. The header length is read big-endian (line 32) and the data size printed is
`Len - length` (line 68). -/
def sub01 : P Item := do
  let l ← readBytes 2
  let length := beNat l
  let ver ← readByte
  if ver = 1 then
    add (numItem (S "Version") ver)
  else if 100 ≤ ver.toNat ∧ ver.toNat ≤ 110 then
    add ((numItem (S "Version") ver).setNote (S "private or experimental use"))
    let enc ← readByte
    add (newItem (S "Encoding") (if enc = 0x01 then S "JPEG" else Unknown) (S "(enc " ++ dec enc.toNat ++ S ")"))
  else
    add ((numItem (S "Version") ver).setNote Unknown)
  let r ← reader
  add (newItem (S "Image data") [] (iBytes ((r.size : Int) - (length : Int))))
  getCur

/-- sub02.go:22-32 Signature Creation Time -/
def sub02 : P Item := do
  let root ← getCur
  let tm ← newDateTime (← flag Ctx.utc)
  let i := dateTimeItem X tm root.name (← flag Ctx.debug)
  setSigTime (some tm)
  return i

/-- sub03.go:22-30 Signature Expiration Time (consumes the remembered creation time, line 28) -/
def sub03 : P Item := do
  let root ← getCur
  let start ← getSigTime
  let day ← readBytes 4
  setSigTime none
  return expireItem X root.name day start (← flag Ctx.debug)

/-- sub04.go:22-35 Exportable Certification (the dump starts after the consumed octet, line 33) -/
def sub04 : P Item := do
  let b ← readByte
  setValue (if b = 0x00 then S "Not exportable" else S "Exportable")
  let r ← reader
  setDump (dumpRest r true)
  getCur

/-- sub05.go:24-43 Trust Signature -/
def sub05 : P Item := do
  let b ← readByte
  add (numItem (S "Level") b)
  let b ← readByte
  add (numItem (S "Trust amount") b)
  getCur

/-- sub06.go, sub24.go, sub26.go, sub28.go:21-23: the whole body as a text -/
def subText : P Item := do
  let root ← getCur
  return textItem root.name (← getBody) (← flag Ctx.debug)

/-- sub07.go:22-34 Revocable (spelling as in the source) -/
def sub07 : P Item := do
  let b ← readByte
  setValue (if b = 0x00 then S "Not revocable" else S "Revocablee")
  getCur

/-- sub09.go:22-30 Key Expiration Time (consumes the remembered key creation time, line 28) -/
def sub09 : P Item := do
  let root ← getCur
  let start ← getKeyTime
  let day ← readBytes 4
  setKeyTime none
  return expireItem X root.name day start (← flag Ctx.debug)

/-- sub11.go, sub21.go, sub22.go, sub34.go:21-27: one item per octet of the body -/
def subList (f : UInt8 → Bool → Item) : P Item := do
  let body ← getBody
  let d ← flag Ctx.debug
  forEach body fun b => add (f b d)
  getCur

/-- sub12.go:24-53 Revocation Key -/
def sub12 : P Item := do
  let cls ← readByte
  add (newItem (S "Class")
    (if cls &&& 0x80 ≠ 0 then (if cls &&& 0x40 ≠ 0 then S "Sensitive" else S "Normal") else S "Unknown") [] (hex2 cls))
  let pubid ← readByte
  add (pubItem pubid (← flag Ctx.debug))
  addRaw (S "Fingerprint") true
  getCur

/-- sub16.go:22-31 Issuer -/
def sub16 : P Item := do
  let root ← getCur
  let keyid ← readBytes 8
  return (keyIDItem keyid).setName root.name

/-- `fmt.Sprintf("Unknown flag%d(%#02x)", n, flag)` -/
def unknownFlag (n : Nat) (flag : UInt8) : Str := S "Unknown flag" ++ dec n ++ S "(" ++ hashHex2 flag.toNat ++ S ")"

/-- sub20.go:25-66 Notation Data. `flags` has four octets after a successful `ReadBytes(4)`. -/
def sub20 : P Item := do
  let flags ← readBytes 4
  let f0 := flags.getD 0 0
  let f1 := flags.getD 1 0
  let f2 := flags.getD 2 0
  let f3 := flags.getD 3 0
  let human := f0 &&& 0x80
  addOpt (flag2Item human (S "Human-readable"))
  addOpt (flag2Item (f0 &&& 0x7f) (unknownFlag 1 (f0 &&& 0x7f)))
  addOpt (flag2Item f1 (unknownFlag 2 f1))
  addOpt (flag2Item f2 (unknownFlag 3 f2))
  addOpt (flag2Item f3 (unknownFlag 4 f3))
  let nl ← readBytes 2
  let vl ← readBytes 2
  let name ← readBytes (beNat nl)
  add (textItem (S "Name") name (← flag Ctx.debug))
  let value ← readBytes (beNat vl)
  if human ≠ 0x00 then
    add (textItem (S "Value") value (← flag Ctx.debug))
  else
    add (newItem (S "Value") [] [] (dumpBytes value true))
  getCur

/-- `for i, flag := range flags { rootInfo.Add(values.Flag2Item(flag, fmt.Sprintf("Unknown flag%d(%#02x)", i+2, flag))) }`
(sub23.go:34-36, sub27.go:54-56, sub30.go:36-38), starting at number `i` -/
def otherFlags (i : Nat) : Bytes → P Unit
  | [] => pure ()
  | b :: bs => do
    addOpt (flag2Item b (unknownFlag i b))
    otherFlags (i + 1) bs

/-- `if s.reader.Rest() > 0 { flags, _ := s.reader.Read2EOF(); … }` -/
def trailingFlags : P Unit := do
  if (← rest) > 0 then
    let flags ← read2EOF
    otherFlags 2 flags
  else pure ()

/-- sub23.go:24-39 Key Server Preferences -/
def sub23 : P Item := do
  let f ← readByte
  addOpt (flag2Item (f &&& 0x80) (S "No-modify"))
  addOpt (flag2Item (f &&& 0x7f) (unknownFlag 1 (f &&& 0x7f)))
  trailingFlags
  getCur

/-- sub25.go:22-34 Primary User ID -/
def sub25 : P Item := do
  let b ← readByte
  setValue (if b = 0x00 then S "Not primary" else S "Primary")
  getCur

/-- sub27.go:24-59 Key Flags (the octets from the third on are numbered from 2, line 55) -/
def sub27 : P Item := do
  let f ← readByte
  addOpt (flag2Item (f &&& 0x01) (S "This key may be used to certify other keys."))
  addOpt (flag2Item (f &&& 0x02) (S "This key may be used to sign data."))
  addOpt (flag2Item (f &&& 0x04) (S "This key may be used to encrypt communications."))
  addOpt (flag2Item (f &&& 0x08) (S "This key may be used to encrypt storage."))
  addOpt (flag2Item (f &&& 0x10) (S "The private component of this key may have been split by a secret-sharing mechanism."))
  addOpt (flag2Item (f &&& 0x20) (S "This key may be used for authentication."))
  addOpt (flag2Item (f &&& 0x40) (unknownFlag 1 (f &&& 0x40)))
  addOpt (flag2Item (f &&& 0x80) (S "The private component of this key may be in the possession of more than one person."))
  if (← rest) > 0 then
    let g ← readByte
    addOpt (flag2Item (g &&& 0x04) (S "This key may be used as an additional decryption subkey (ADSK)."))
    addOpt (flag2Item (g &&& 0x08) (S "This key may be used for timestamping."))
    addOpt (flag2Item (g &&& 0xf3) (unknownFlag 2 (g &&& 0xf3)))
  else pure ()
  trailingFlags
  getCur

/-- sub29.go:18-24 `reasonNames` -/
def reasonNames : Msgs :=
  [(0, S "No reason specified (key revocations or cert revocations)"),
   (1, S "Key is superseded (key revocations)"),
   (2, S "Key material has been compromised (key revocations)"),
   (3, S "Key is retired and no longer used (key revocations)"),
   (32, S "User ID resultrmation is no longer valid (cert revocations)")]

/-- sub29.go:32-51 Reason for Revocation -/
def sub29 : P Item := do
  let code ← readByte
  let name := if 100 ≤ code.toNat ∧ code.toNat ≤ 110 then S "(Private Use)" else reasonNames.get code.toNat (S "Unknown reason")
  setValue (name ++ S " (" ++ dec code.toNat ++ S ")")
  if (← rest) > 0 then
    let b ← read2EOF
    add (textItem (S "Additional resultrmation") b (← flag Ctx.debug))
  else pure ()
  getCur

/-- sub30.go:24-41 Features -/
def sub30 : P Item := do
  let f ← readByte
  addOpt (flag2Item (f &&& 0x01) (S "Modification Detection (packets 18 and 19)"))
  addOpt (flag2Item (f &&& 0x02)
    (S "AEAD Encrypted Data Packet (packet 20) and version 5 Symmetric-Key Encrypted Session Key Packets (packet 3)"))
  addOpt (flag2Item (f &&& 0x04) (S "Version 5 Public-Key Packet format and corresponding new fingerprint format"))
  addOpt (flag2Item (f &&& 0xf8) (unknownFlag 1 (f &&& 0xf8)))
  trailingFlags
  getCur

/-- sub31.go:22-36 Signature Target -/
def sub31 : P Item := do
  let pubid ← readByte
  add (pubItem pubid (← flag Ctx.debug))
  let hashid ← readByte
  add (hashItem hashid (← flag Ctx.debug))
  addRaw (S "Hash") true
  getCur

/-- sub32.go:22-30 Embedded Signature -/
def sub32 (recur : TagParser) : P Item := do
  let itm ← recur 2 (← getBody)
  add itm
  getCur

/-- sub33.go:24-45 Issuer Fingerprint, sub35.go:24-45 Intended Recipient Fingerprint -/
def subFingerprint : P Item := do
  let ver ← readByte
  add ((numItem (S "Version") ver).setNote
    (if ver = 4 then S "need 20 octets length" else if ver = 5 then S "need 32 octets length" else Unknown))
  addRaw (S "Fingerprint") true
  getCur

/-- sub37.go:21-25 Attested Certifications -/
def sub37 : P Item := do
  addRaw (S "certification digests") (← flag Ctx.cert)
  getCur

/-- The loop `for { Next(); …; itm := tag.Parse(); Add(itm) }` of sub38.go:54-66, packets.go:63-75 and parse.go:15-27.
A `Next` error that is (or wraps) `io.EOF` ends the loop normally. `fuel` bounds the number of packets. -/
def forPackets (recur : TagParser) : Nat → Src → P Unit
  | 0, _ => P.stuck
  | f + 1, src =>
    match nextPacket X src with
    | (.error e, _) => if e.isEOF then pure () else P.fail e.wrap
    | (.ok (tag, body), src') => do
      let itm ← recur tag body
      add itm
      forPackets recur f src'

/-- all packets of a source -/
def packetLoop (recur : TagParser) (src : Src) : P Unit := forPackets X recur (src.data.length + 1) src

/-- sub38.go:25-68 Key Block -/
def sub38 (recur : TagParser) : P Item := do
  let v ← readByte
  add (numItem (S "Type") v)
  let r ← reader
  let d ← flag Ctx.debug
  let item := rawData r (S "Key data") d
  if v = 0x00 then
    let item ← build item (packetLoop X recur (Src.ofReader r))
    add item
  else add item
  getCur

/-- subs.go:42-72 newFunctionsSub02: the `Parse` method of each subpacket type of signature packets (tag 2) -/
def sub02Body (recur : TagParser) : Nat → P Item
  | 2 => sub02 X
  | 3 => sub03 X
  | 4 => sub04
  | 5 => sub05
  | 6 => subText
  | 7 => sub07
  | 9 => sub09 X
  | 10 => getCur
  | 11 => subList symItem
  | 12 => sub12
  | 16 => sub16
  | 20 => sub20
  | 21 => subList hashItem
  | 22 => subList compItem
  | 23 => sub23
  | 24 => subText
  | 25 => sub25
  | 26 => subText
  | 27 => sub27
  | 28 => subText
  | 29 => sub29
  | 30 => sub30
  | 31 => sub31
  | 32 => sub32 recur
  | 33 => subFingerprint
  | 34 => subList aeadItem
  | 35 => subFingerprint
  | 37 => sub37
  | 38 => sub38 X recur
  | _ => getCur

/-- subs.go:79-96 `NewSubs(...).Parse()` for signature packets -/
def parseSub02 (recur : TagParser) (st : UInt8) (body : Bytes) : P Item :=
  subScope st body (sub02Body X recur (st &&& 0x7f).toNat)

/-- subs.go:74-76 newFunctionsSub17: the `Parse` method of each subpacket type of user attribute packets (tag 17) -/
def sub17Body : Nat → P Item
  | 1 => sub01
  | _ => getCur

/-- subs.go:79-96 `NewSubs(...).Parse()` for user attribute packets -/
def parseSub17 (st : UInt8) (body : Bytes) : P Item := subScope st body (sub17Body (st &&& 0x7f).toNat)

/-- subParser.go:34-45 `Parse`: one item per subpacket, stops at the first error -/
def subLoop (p : UInt8 → Bytes → P Item) : List (UInt8 × Bytes) → P Unit
  | [] => pure ()
  | (t, b) :: l => do
    let i ← p t b
    add i
    subLoop p l

/-- subParser.go:23-31 `newSubparser` followed by `Parse` and `rootInfo.Add(itm)` (tag02.go:159-167, tag17.go:24-32) -/
def addSubpackets (p : UInt8 → Bytes → P Item) (name : Str) (area : Bytes) : P Unit := do
  let d ← flag Ctx.debug
  match opaqueSubpackets area with
  | .error e => P.fail e.wrap
  | .ok l => do
    let itm ← build (newItem name [] (nBytes area.length) (dumpBytes area d)) (subLoop p l)
    add itm

/-! ## Packets -/

/-- tag01.go:27-53 Public-Key Encrypted Session Key (the mode is set before the header item is built, line 25) -/
def tag01 : P Unit := do
  setMode .pubEnc
  let ver ← readByte
  add ((pubSessKeyVer ver).item (← flag Ctx.debug))
  let keyid ← readBytes 8
  add (keyIDItem keyid)
  let pubid ← readByte
  add (pubItem pubid (← flag Ctx.debug))
  parseSes pubid
  unknownData

/-- tag02.go:208-213 -/
def hashLeft2 (hv : Bytes) : Item := newItem (S "Hash left 2 bytes") [] [] (dumpBytes hv true)

/-- tag02.go:62-125 `parseV3` -/
def tag02v3 : P Unit := do
  let sz ← readByte
  nested (newItem (S "Hashed material") [] (nBytes sz.toNat)) do
    if sz ≠ 5 then
      setValue Unknown
      let b ← readBytes sz.toNat
      setDump (dumpBytes b (← flag Ctx.debug))
    else
      let sig ← readByte
      add (sigItem sig (← flag Ctx.debug))
      let tm ← newDateTime (← flag Ctx.utc)
      add (dateTimeItem X tm (S "Signature creation time") (← flag Ctx.debug))
  let keyid ← readBytes 8
  add (keyIDItem keyid)
  let pubid ← readByte
  add (pubItem pubid (← flag Ctx.debug))
  let hashid ← readByte
  add (hashItem hashid (← flag Ctx.debug))
  let hv ← readBytes 2
  add (hashLeft2 hv)
  parseSig pubid

/-- one subpacket area of a version 4 signature: two-octet size, then the area (tag02.go:148-168, 170-190) -/
def subArea (recur : TagParser) (name : Str) : P Unit := do
  let s ← readBytes 2
  let size := beNat s
  if size > 0 then
    let sp ← readBytes size
    addSubpackets (parseSub02 X recur) name sp
  else pure ()

/-- tag02.go:127-206 `parseV4`, `parseV5` -/
def tag02v4 (recur : TagParser) : P Unit := do
  let sig ← readByte
  add (sigItem sig (← flag Ctx.debug))
  let pubid ← readByte
  add (pubItem pubid (← flag Ctx.debug))
  let hashid ← readByte
  add (hashItem hashid (← flag Ctx.debug))
  subArea X recur (S "Hashed Subpacket")
  subArea X recur (S "Unhashed Subpacket")
  let hv ← readBytes 2
  add (hashLeft2 hv)
  parseSig pubid

/-- tag02.go:26-60 Signature. Line 51 wraps the outer (nil) error: a version 3 signature that cannot be parsed completely
is returned as it is, without an error and without "Unknown data". -/
def tag02 (recur : TagParser) : P Unit := do
  let v ← readByte
  let version := sigVer v
  add (version.item (← flag Ctx.debug))
  if version.isDraft then
    tag02v4 X recur
    unknownData
  else if version.isCurrent then
    tag02v4 X recur
    unknownData
  else if version.isOld && v == 3 then
    if ← failed (tag02v3 X) then pure () else unknownData
  else unknownData

/-- tag03.go:23-77 Symmetric-Key Encrypted Session Key (version 5 is not parsed, lines 68-77) -/
def tag03 : P Unit := do
  setMode .symEnc
  let v ← readByte
  let version := symSessKeyVer v
  let d ← flag Ctx.debug
  add (version.item d)
  if version.isCurrent then
    let symid ← readByte
    add (symItem symid d)
    let _ ← s2kParse d
    pure ()
  else pure ()
  unknownData

/-- tag04.go:24-76 One-Pass Signature -/
def tag04 : P Unit := do
  let v ← readByte
  add ((oneSigVer v).item (← flag Ctx.debug))
  let sig ← readByte
  add (sigItem sig (← flag Ctx.debug))
  let hashid ← readByte
  add (hashItem hashid (← flag Ctx.debug))
  let pubid ← readByte
  add (pubItem pubid (← flag Ctx.debug))
  let keyid ← readBytes 8
  add (keyIDItem keyid)
  let f ← readByte
  add (newItem (S "Encrypted session key")
    (if f = 0 then S "another one pass signature" else S "other than one pass signature")
    (S "flag " ++ hashHex2 f.toNat))
  unknownData

/-- pubkey.go:51-56, 82-87, 103-108: creation time, remembered in the context -/
def pubkeyTime : P Unit := do
  let tm ← newDateTime (← flag Ctx.utc)
  setKeyTime (some tm)
  add (dateTimeItem X tm (S "Public key creation time") (← flag Ctx.debug))

/-- tags/pubkey.go:30-133 `pubkeyInfo.Parse`; returns `PubID()` (0 when the version is not parsed) -/
def pubkeyParse (version : Version) : P UInt8 := do
  if version.isDraft then
    pubkeyTime X
    let pubid ← readByte
    add (pubItem pubid (← flag Ctx.debug))
    let sz ← readBytes 4
    let b ← readBytes (beNat sz)
    let _ ← onReader (Reader.new b) (parsePub pubid)
    return pubid
  else if version.isCurrent then
    pubkeyTime X
    let pubid ← readByte
    add (pubItem pubid (← flag Ctx.debug))
    parsePub pubid
    return pubid
  else if version.isOld && version.ver == 3 then
    pubkeyTime X
    let days ← readBytes 2
    add (newItem (S "Valid days") (dec (beNat days)) (S "0 is forever"))
    let pubid ← readByte
    add (pubItem pubid (← flag Ctx.debug))
    parsePub pubid
    return pubid
  else return 0

/-- A field of a secret-key packet (seckey.go:155-192): absent (nil), a reader of its own (version 5), or the reader of the
packet itself (other versions, lines 171 and 191). -/
inductive Field
  | absent
  | own (r : Reader)
  | shared

/-- seckey.go:156-172 `getField1` -/
def getField1 (version : Version) : P Field := do
  if version.ver = 5 then
    let l ← readByte
    if l = 0 then return .absent
    else
      let b ← readBytes l.toNat
      return .own (Reader.new b)
  else return .shared

/-- seckey.go:175-192 `getField2`: with fewer than four octets left, line 178 decodes a nil slice before the error is
checked, which panics. -/
def getField2 (version : Version) : P Field := do
  if version.ver = 5 then
    if (← rest) < 4 then P.panic .beShort
    else
      let l ← readBytes 4
      let ll := beNat l
      if ll = 0 then return .absent
      else
        let b ← readBytes ll
        return .own (Reader.new b)
  else return .shared

/-- Run `m` on the field's reader; when the field has a reader of its own its final state is returned. -/
def onField {α} (f : Field) (m : P α) : P (α × Option Reader) :=
  match f with
  | .own r => do
    let (a, r') ← onReader r m
    return (a, some r')
  | _ => do
    let a ← m
    return (a, none)

/-- seckey.go:195-212 `iv` (always reads the packet's reader) -/
def secIV (symid : UInt8) (isAEAD : Bool) : P Unit := do
  let iv ← readBytes (symIVLen symid)
  add (newItem (if isAEAD then S "nonce for the AEAD" else S "IV") [] [] (dumpBytes iv true))

/-- seckey.go:91-95, 146-150: unread octets of a version 5 field -/
def fieldRest : Option Reader → P Unit
  | none => pure ()
  | some r => do if r.rest > 0 then add (rawData r (S "Unknown data") (← flag Ctx.debug)) else pure ()

/-- seckey.go:40-81: the optional fields; returns the cipher and whether an IV follows -/
def secOptions (usage : UInt8) : P (UInt8 × Bool) := do
  let d ← flag Ctx.debug
  let symid ← (if usage ≠ 0 then do
    let alg ← readByte
    add (symItem alg d)
    return alg
  else return 0 : P UInt8)
  if usage = 253 then
    let alg ← readByte
    add (aeadItem alg d)
  else pure ()
  if usage = 0 then return (symid, false)
  else if usage = 253 ∨ usage = 254 ∨ usage = 255 then
    let hasIV ← s2kParse d
    return (symid, hasIV)
  else return (symid, true)

/-- seckey.go:36-96 first field -/
def secField1 (version : Version) (usage : UInt8) : P Unit := do
  match ← getField1 version with
  | .absent => pure ()
  | f => do
    let ((symid, hasIV), r) ← onField f (secOptions usage)
    if usage ≠ 0 ∧ hasIV = true then secIV symid (usage == 253) else pure ()
    fieldRest r

/-- seckey.go:98-151 second field -/
def secField2 (version : Version) (usage pubID : UInt8) : P Unit := do
  match ← getField2 version with
  | .absent => pure ()
  | f => do
    if usage = 0 then
      setNote (S "s2k usage 0; plain secret-key material")
      let (_, r) ← onField f (parseSecPlain pubID)
      let chk ← readBytes 2
      add (newItem (S "2-octet checksum") [] [] (dumpBytes chk true))
      fieldRest r
    else
      setNote (if usage = 253 then S "s2k usage 253; encrypted secret-key material and AEAD authentication tag"
        else if usage = 254 then S "s2k usage 254; encrypted secret-key material and 20-octet SHA-1 hash"
        else S "s2k usage " ++ dec usage.toNat ++ S "; encrypted secret-key material and 2-octet checksum")
      let (_, r) ← onField f (parseSecEnc pubID)
      fieldRest r

/-- seckey.go:30-153 `seckeyInfo.Parse` -/
def seckeyParse (version : Version) (pubID : UInt8) : P Unit := do
  let usage ← readByte
  secField1 version usage
  secField2 version usage pubID

/-- tag05.go:22-49 Secret-Key, tag07.go:22-25 Secret-Subkey -/
def tag05 : P Unit := do
  let v ← readByte
  let version := pubVer v
  add (version.item (← flag Ctx.debug))
  let pubid ← nested (newItem (S "Public-Key")) (pubkeyParse X version)
  nested (newItem (S "Secret-Key")) (seckeyParse version pubid)
  unknownData

/-- tag06.go:22-40 Public-Key, tag14.go:22-25 Public-Subkey -/
def tag06 : P Unit := do
  let v ← readByte
  let version := pubVer v
  add (version.item (← flag Ctx.debug))
  let _ ← pubkeyParse X version
  unknownData

/-- Tag08.go:75 -/
def maxDecompressionDataSize : Nat := 1024 * 1024 * 1024

/-- Tag08.go:108-117 `copyFrom`: `io.CopyN` of 1 GiB succeeds exactly when that many octets are delivered. -/
def copyFrom (z : Stream) : Except GoErr Bytes :=
  if z.data.length ≥ maxDecompressionDataSize then .error (wrapErr .tooLarge)
  else if z.tail.isEOF then .ok z.data
  else .error z.tail.wrap

/-- Tag08.go:31-68 Compressed Data; returns `Reader()` (line 71): `none` for nil -/
def tag08 : P (Option Bytes) := do
  let compID ← readByte
  let d ← flag Ctx.debug
  add (compItem compID d)
  let r ← reader
  if r.rest > 0 then
    let item := rawData r (S "Compressed data") d
    let zd ← (if compID.toNat ≤ 3 then read2EOF else return [] : P Bytes)
    let res : Except GoErr Bytes :=
      match compID.toNat with
      | 0 => .ok zd
      | 1 => copyFrom (X.flate zd)
      | 2 => match X.zlib zd with
        | .error e => .error e.wrap
        | .ok z => copyFrom z
      | 3 => copyFrom (X.bzip2 zd)
      | _ => .ok []
    match res with
    | .ok data => do
      add item
      return some data
    | .error e =>
      if e.cause = .tooLarge then do
        add (item.setValue (S "<too laege decompressed data>"))
        return none
      else do
        add item
        P.fail e.wrap
  else return some []

/-- tag09.go:21-36 Symmetrically Encrypted Data -/
def tag09 : P Unit := do
  let r ← reader
  let d ← flag Ctx.debug
  let m ← getMode
  add ((rawData r (S "Encrypted data") d).setValue (match m with
    | .symEnc => S "sym alg is specified in sym-key encrypted session key"
    | .pubEnc => S "sym alg is specified in pub-key encrypted session key"
    | .notSpecified => S "sym alg is IDEA, simple string-to-key"))
  setMode .notSpecified

/-- tag10.go:21-25 Marker -/
def tag10 : P Unit := do
  addRaw (S "Literal data") (← flag Ctx.marker)

/-- tag11.go:24-47 Literal Data; the file name is read by literal.go:49-62 -/
def tag11 : P Unit := do
  let f ← readByte
  add (literalFormatItem f)
  let flen ← readByte
  let fname ← (if flen.toNat < 1 then return [] else readBytes flen.toNat : P Bytes)
  add (textItem (S "File name") fname (← flag Ctx.literal))
  let ftime ← newDateTime (← flag Ctx.utc)
  add (fileTimeItem X ftime (← flag Ctx.debug))
  addRaw (S "Literal data") (← flag Ctx.literal)

/-- tag12.go:21-25 Trust -/
def tag12 : P Unit := addRaw (S "Trust") true

/-- tag13.go:21-25 User ID -/
def tag13 : P Unit := do
  add (textItem (S "User ID") (← getBody) (← flag Ctx.debug))

/-- tag17.go:22-34 User Attribute -/
def tag17 : P Unit := do
  addSubpackets parseSub17 (S "Subpacket") (← getBody)

/-- tag18.go:21-35 Sym. Encrypted Integrity Protected Data -/
def tag18 : P Unit := do
  let r ← reader
  let d ← flag Ctx.debug
  let m ← getMode
  let itm := rawData r (S "Encrypted data") d
  add (match m with
    | .symEnc => itm.setNote (S "plain text + MDC SHA1(20 bytes); sym alg is specified in sym-key encrypted session key")
    | .pubEnc => itm.setNote (S "plain text + MDC SHA1(20 bytes); sym alg is specified in pub-key encrypted session key")
    | .notSpecified => itm)
  setMode .notSpecified

/-- tag19.go:21-27 Modification Detection Code -/
def tag19 : P Unit := do
  let r ← reader
  add ((rawData r (S "MDC") (← flag Ctx.debug)).setNote (S "SHA-1 (20 bytes)"))

/-- tag20.go:53 `uint64(1) << (c + 6)`: `c + 6` is computed in a byte; shifts of 64 or more give 0 -/
def chunkSize (c : UInt8) : Nat := let s := (c + 6).toNat; if s < 64 then 2 ^ s else 0

/-- tag20.go:25-82 AEAD Encrypted Data; an IV that cannot be read is silently dropped (line 62) -/
def tag20 : P Unit := do
  let v ← readByte
  add ((aeadVer v).item (← flag Ctx.debug))
  let symid ← readByte
  add (symItem symid (← flag Ctx.debug))
  let aeadid ← readByte
  add (aeadItem aeadid (← flag Ctx.debug))
  let c ← readByte
  add (newItem (S "Chunk size") (dec (chunkSize c)) [] (dumpByte c true))
  let err ← failed (do
    let iv ← readBytes (aeadIVLen aeadid)
    add (newItem (S "IV") [] [] (dumpBytes iv true)))
  if err then pure ()
  else if (← rest) > 0 then addRaw (S "Encrypted data and authentication tag") (← flag Ctx.debug)
  else pure ()

/-- header flag: tags 60-63 dump with the Private option (tagPrivate.go:21-23), all others with Debug (tags.go:19-21) -/
def tagDumpFlag (tag : Nat) : Ctx → Bool := if 60 ≤ tag ∧ tag ≤ 63 then Ctx.priv else Ctx.debug

/-- header item and fresh reader of a packet (tags.go:19-21) -/
def tagScope {α} (tag : Nat) (body : Bytes) (m : P α) : P α := do
  scope body (tagItem tag body (← flag (tagDumpFlag tag))) m

/-- tags.go:42-65 newFunctions: the `Parse` method of each tag after its header item -/
def tagBody (recur : TagParser) : Nat → P Unit
  | 1 => tag01
  | 2 => tag02 X recur
  | 3 => tag03
  | 4 => tag04
  | 5 => tag05 X
  | 6 => tag06 X
  | 7 => tag05 X
  | 8 => do let _ ← tag08 X
  | 9 => tag09
  | 10 => tag10
  | 11 => tag11 X
  | 12 => tag12
  | 13 => tag13
  | 14 => tag06 X
  | 17 => tag17
  | 18 => tag18
  | 19 => tag19
  | 20 => tag20
  | _ => pure ()

/-- tags.go:68-74 `NewTag(op, cxt).Parse()` -/
def tagParse (recur : TagParser) (tag : Nat) (body : Bytes) : P Item :=
  tagScope tag body do
    tagBody X recur tag
    getCur

/-- Closing the recursion: `fuel` bounds the nesting depth of embedded signatures and key blocks. -/
def parseTagF : Nat → TagParser
  | 0 => fun _ _ => P.stuck
  | f + 1 => fun tag body => tagParse X (parseTagF f) tag body

/-- `NewTag(op, cxt).Parse()` -/
def parseTag : TagParser := fun tag body => parseTagF X (body.length + 1) tag body

/-- packets.go:40-80 `Packets.Parse` on the packet just read by `Next` (`p.tag` is never nil here): a compressed packet is
expanded one level, with the same context. -/
def packetsParse (tag : Nat) (body : Bytes) : P Item := do
  if tag = 8 then
    let (item, data) ← tagScope tag body (do
      let data ← tag08 X
      return (← getCur, data))
    match data with
    | none => return item
    | some z => build item (packetLoop X (parseTag X) (Src.ofBytes z))
  else parseTag X tag body

end

end Gpgpdump
