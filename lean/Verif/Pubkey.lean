import Verif.Monad

/-!
# `parse/pubkey`: multi-precision integers of the public-key algorithms

`pubkey.New` (pubkey.go:18-20) records `size = r.Rest()`; the branches that print `size` have not read anything since, so
`addRaw` prints the same number.
-/

namespace Gpgpdump

/-- `mpi, err := values.NewMPI(p.reader); …; item.Add(mpi.ToItem(name, p.cxt.Integer()))` -/
def addMPI (name : Str) : P Unit := do
  let (bits, data) ← newMPI
  add (mpiItem name bits data (← flag Ctx.integer))

/-- an elliptic curve point: the name depends on the first octet of the integer (parse_pub.go:102-110) -/
def addECPoint (alg : Str) : P Unit := do
  let (bits, data) ← newMPI
  add (mpiItem (ecPointName alg data) bits data (← flag Ctx.integer))

/-- "Multi-precision integers of … " with the rest of the data, shown only in debug mode; nothing is consumed -/
def addOpaque (name : Str) : P Unit := do
  addRaw name (← flag Ctx.debug)

/-- parse_sig.go:12-38 `ParseSig` and the per-algorithm functions (40-103) -/
def parseSig (pubID : UInt8) : P Unit :=
  match pubAlg pubID with
  | .rsa => addMPI (S "RSA signature value m^d mod n")
  | .dsa => do
    addMPI (S "DSA value r")
    addMPI (S "DSA value s")
  | .elgamal => do
    addMPI (S "ElGamal a = g^k mod p")
    addMPI (S "ElGamal b = (h - a*x)/k mod p - 1")
  | .ecdh => addOpaque (S "Multi-precision integers of ECDH")
  | .ecdsa => do
    addMPI (S "ECDSA value r")
    addMPI (S "ECDSA value s")
  | .eddsa => do
    addMPI (S "EC point r")
    addMPI (S "EdDSA value s in the little endian representation")
  | .unknown => addOpaque (S "Multi-precision integers of Unknown (pub " ++ dec pubID.toNat ++ S ")")

/-- parse_pub.go:95-136 `ecdhPub` -/
def ecdhPub : P Unit := do
  let oid ← newOID
  add (oidItem oid true)
  addECPoint (S "ECDH")
  let ep ← newECParm
  let i := ecParmItem ep (S "KDF parameters") (← flag Ctx.integer)
  match ep with
  | 0x01 :: h :: s :: _ => do
    let d ← flag Ctx.debug
    add ((i.add (hashItem h d)).add (symItem s d))
  | _ => add (i.setValue Unknown)

/-- parse_pub.go:12-34 `ParsePub` and the per-algorithm functions (36-174) -/
def parsePub (pubID : UInt8) : P Unit :=
  match pubAlg pubID with
  | .rsa => do
    addMPI (S "RSA public modulus n")
    addMPI (S "RSA public encryption exponent e")
  | .dsa => do
    addMPI (S "DSA p")
    addMPI (S "DSA q (q is a prime divisor of p-1)")
    addMPI (S "DSA g")
    addMPI (S "DSA y (= g^x mod p where x is secret)")
  | .elgamal => do
    addMPI (S "ElGamal prime p")
    addMPI (S "ElGamal group generator g")
    addMPI (S "ElGamal public key value y (= g^x mod p where x is secret)")
  | .ecdh => ecdhPub
  | .ecdsa => do
    let oid ← newOID
    add (oidItem oid true)
    addECPoint (S "ECDSA")
  | .eddsa => do
    let oid ← newOID
    add (oidItem oid true)
    addECPoint (S "EdDSA")
  | .unknown => addOpaque (S "Multi-precision integers of Unknown (pub " ++ dec pubID.toNat ++ S ")")

/-- parse_ses.go:12-46 `ParseSes` and the per-algorithm functions (48-88) -/
def parseSes (pubID : UInt8) : P Unit :=
  match pubAlg pubID with
  | .rsa =>
    addMPI (S "RSA m^e mod n; m = sym alg(1 byte) + checksum(2 bytes) + PKCS#1 block encoding EME-PKCS1-v1_5")
  | .dsa => addOpaque (S "Multi-precision integers of DSA")
  | .elgamal => do
    addMPI (S "ElGamal g^k mod p")
    addMPI (S "ElGamal m * y^k mod p; m = sym alg(1 byte) + checksum(2 bytes) + PKCS#1 block encoding EME-PKCS1-v1_5")
  | .ecdh => do
    addECPoint (S "ECDH")
    let ep ← newECParm
    add (ecParmItem ep (S "symmetric key (encoded)") (← flag Ctx.integer))
  | .ecdsa => addOpaque (S "Multi-precision integers of ECDSA")
  | .eddsa => addOpaque (S "Multi-precision integers of EdDSA")
  | .unknown => addOpaque (S "Multi-precision integers of Unknown (pub " ++ dec pubID.toNat ++ S ")")

/-- parse_secplain.go:12-51 `ParseSecPlain` and the per-algorithm functions (53-120). For unknown algorithms the length
`size - 2` (line 39) is negative when fewer than two octets are left. -/
def parseSecPlain (pubID : UInt8) : P Unit :=
  match pubAlg pubID with
  | .rsa => do
    addMPI (S "RSA secret exponent d")
    addMPI (S "RSA secret prime value p")
    addMPI (S "RSA secret prime value q (p < q)")
    addMPI (S "RSA u, the multiplicative inverse of p, mod q")
  | .dsa => addMPI (S "DSA secret exponent x")
  | .elgamal => addMPI (S "ElGamal secret exponent x")
  | .ecdh => addMPI (S "ECDH secret key")
  | .ecdsa => addMPI (S "ECDSA secret key")
  | .eddsa => addMPI (S "EdDSA secret key")
  | .unknown => do
    let len := (← rest) - 2
    let b ← readBytes len
    add (newItem (S "Multi-precision integers of unknown secret key (pub " ++ dec pubID.toNat ++ S ")") [] (iBytes len)
      (dumpBytes b (← flag Ctx.debug)))

/-- parse_secenc.go:13-62 `ParseSecEnc` -/
def parseSecEnc (pubID : UInt8) : P Unit := do
  match pubAlg pubID with
  | .rsa => addOpaque (S "RSA encrypted key (d, p, q, u)")
  | .dsa => addOpaque (S "DSA encrypted key")
  | .elgamal => addOpaque (S "Elgamal encrypted key")
  | .ecdh => addOpaque (S "ECDH encrypted key")
  | .ecdsa => addOpaque (S "ECDSA encrypted key")
  | .eddsa => addOpaque (S "EdDSA encrypted key")
  | .unknown => addOpaque (S "Multi-precision integers of unknown encrypted key (pub " ++ dec pubID.toNat ++ S ")")
  let _ ← seek 0 2
  pure ()

end Gpgpdump
