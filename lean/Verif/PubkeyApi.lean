import Verif.Tags

/-!
# `Pubkey` and `S2K` as objects

`Pubkey.lean` and `S2K.lean` model one call on an object that was just made, which is what the parsers of packets do. Here a caller
keeps the object and calls its methods in any order. A `Pubkey` remembers how many octets were left when it was made; an `S2K`
remembers that it met a GNU extension. The objects and the reader are not nil, except where said.
-/

namespace Gpgpdump

/-- the methods of a `Pubkey` -/
inductive PKMethod | sig | pub | ses | secPlain | secEnc
  deriving DecidableEq, Repr

/-- `parent.Add(result.NewItem(Name(name), Note("%d bytes" of p.size), DumpStr(Dump(p.reader, p.cxt.Debug()))))` -/
def pkSized (size : Int) (name : Str) : P Unit := do
  let r ← P.reader
  let d ← P.flag Ctx.debug
  P.add (newItem name [] (iBytes size) (dumpRest r d))

def pkUnknown (a : UInt8) : Str := S "Multi-precision integers of Unknown (pub " ++ dec a.toNat ++ S ")"

/-- parse_sig.go:12-38 `ParseSig`; the algorithms that are known do not use the size -/
def pkSig (size : Int) (a : UInt8) : P Unit :=
  match pubAlg a with
  | .ecdh => pkSized size (S "Multi-precision integers of ECDH")
  | .unknown => pkSized size (pkUnknown a)
  | _ => parseSig a

/-- parse_pub.go:12-34 `ParsePub` -/
def pkPub (size : Int) (a : UInt8) : P Unit :=
  match pubAlg a with
  | .unknown => pkSized size (pkUnknown a)
  | _ => parsePub a

/-- parse_ses.go:12-46 `ParseSes` -/
def pkSes (size : Int) (a : UInt8) : P Unit :=
  match pubAlg a with
  | .dsa => pkSized size (S "Multi-precision integers of DSA")
  | .ecdsa => pkSized size (S "Multi-precision integers of ECDSA")
  | .eddsa => pkSized size (S "Multi-precision integers of EdDSA")
  | .unknown => pkSized size (pkUnknown a)
  | _ => parseSes a

/-- parse_secplain.go:12-51 `ParseSecPlain`; line 39: the length is two less than the size -/
def pkSecPlain (size : Int) (a : UInt8) : P Unit :=
  match pubAlg a with
  | .unknown => do
    let b ← P.readBytes (size - 2)
    let d ← P.flag Ctx.debug
    P.add (newItem (S "Multi-precision integers of unknown secret key (pub " ++ dec a.toNat ++ S ")") [] (iBytes (size - 2)) (dumpBytes b d))
  | _ => parseSecPlain a

/-- parse_secenc.go:13-62 `ParseSecEnc` -/
def pkSecEnc (size : Int) (a : UInt8) : P Unit := do
  match pubAlg a with
  | .rsa => pkSized size (S "RSA encrypted key (d, p, q, u)")
  | .dsa => pkSized size (S "DSA encrypted key")
  | .elgamal => pkSized size (S "Elgamal encrypted key")
  | .ecdh => pkSized size (S "ECDH encrypted key")
  | .ecdsa => pkSized size (S "ECDSA encrypted key")
  | .eddsa => pkSized size (S "EdDSA encrypted key")
  | .unknown => pkSized size (S "Multi-precision integers of unknown encrypted key (pub " ++ dec a.toNat ++ S ")")
  let _ ← P.seek 0 2
  pure ()

/-- one call on a `Pubkey` of the algorithm `a` that was made when `size` octets were left -/
def pkCall (size : Int) (a : UInt8) : PKMethod → P Unit
  | .sig => pkSig size a
  | .pub => pkPub size a
  | .ses => pkSes size a
  | .secPlain => pkSecPlain size a
  | .secEnc => pkSecEnc size a

/-- Calls one after the other with the same parent, whatever errors they return; a panic ends it. The results, and the state. -/
def pkCalls (size : Int) (a : UInt8) : List PKMethod → St → List (Res Unit) × St
  | [], st => ([], st)
  | m :: ms, st =>
    match pkCall size a m st with
    | (.panic s, st') => ([.panic s], st')
    | (r, st') =>
      let (rs, st'') := pkCalls size a ms st'
      (r :: rs, st'')

/-- pubkey.go:18-20 `New`, then calls -/
def pkHistory (a : UInt8) (ms : List PKMethod) (st : St) : List (Res Unit) × St := pkCalls st.rd.rest a ms st

/-! ## S2K -/

/-- Go on after an error, with the error as a value. -/
def P.caught (m : P Unit) : P (Option GoErr) := fun st =>
  match m st with
  | (.ok _, st') => (.ok none, st')
  | (.err e, st') => (.ok (some e), st')
  | (.panic s, st') => (.panic s, st')
  | (.stuck, st') => (.stuck, st')

/-- s2k.go:26-106 `Parse`, as in `s2kParse`, but with the value of `hasIV` (line 74) also if there is an error after it is set:
returns whether the GNU marker was met, and the error of what follows it. -/
def s2kMarked (d : Bool) : P (Bool × Option GoErr) := do
  let ss ← P.readByte
  P.nested (s2kItem ss d) do
    if ss = 0x00 ∨ ss = 0x01 ∨ ss = 0x03 then
      let hashid ← P.readByte
      P.add (hashItem hashid d)
      if ss ≠ 0x00 then
        let salt ← P.readBytes 8
        P.add (saltItem salt true)
      else pure ()
      if ss = 0x03 then
        let ct ← P.readByte
        P.add (stretchItem ct)
      else pure ()
      return (false, none)
    else if ss = 101 then
      if (← rest) < 4 then return (false, none)
      else
        let mrk ← P.readBytes 3
        if mrk = [0x47, 0x4e, 0x55] then
          let e ← P.caught (do
            let n ← P.readByte
            let enum := 1000 + n.toNat
            let gnu ← P.build (newItem (S "GNU-divert-to-card") (S "Extension Number " ++ dec enum)) (do
              if enum = 1002 then
                let l ← P.readByte
                let ser ← P.readBytes l.toNat
                P.add (newItem (S "Serial Number") [] [] (dumpBytes ser true))
              else pure ())
            P.add gnu)
          return (true, e)
        else
          let _ ← P.seek (-3) 1
          return (false, none)
    else return (false, none)

/-- `*S2K`: nil, or `hasIV` -/
abbrev S2KPtr := Option Bool

/-- s2k.go:21-23 `New` -/
def S2KPtr.new : S2KPtr := some true

/-- one call of `Parse` (s2k.go:27-29: on nil nothing happens): its error, the object, and the state of reader and parent -/
def S2KPtr.parse (d : Bool) : S2KPtr → St → Res Unit × S2KPtr × St
  | none, st => (.ok (), none, st)
  | some iv, st =>
    match s2kMarked d st with
    | (.ok (gnu, e), st') => (match e with | none => .ok () | some e => .err e, some (iv && !gnu), st')
    | (.err e, st') => (.err e, some iv, st')
    | (.panic s, st') => (.panic s, some iv, st')
    | (.stuck, st') => (.stuck, some iv, st')

/-- s2k.go:109-111 `HasIV`; `none`: it panics -/
def S2KPtr.hasIV (p : S2KPtr) : Option Bool := p

/-- calls of `Parse` one after the other -/
def S2KPtr.parses : List Bool → S2KPtr → St → S2KPtr × St
  | [], p, st => (p, st)
  | d :: ds, p, st => S2KPtr.parses ds (p.parse d st).2.1 (p.parse d st).2.2

end Gpgpdump
