import Verif.Context
import Verif.Result

/-!
# What the packets seen so far imply for later items

A reading of the output tree in the order it is printed. It does not refer to the parser; `Mode` and `Item` are the only model types
used. `time t` is the text of the instant `t` (seconds since 1970), `days n` the text of a duration of `n` seconds in days.
-/

namespace Gpgpdump.Spec

/-- What is remembered while reading the output: the kind of the last session-key packet since the last encrypted data packet; the
creation time of the last key, until a key expiration is shown; the creation time of the last signature, until a signature
expiration is shown. -/
structure History where
  session : Mode := .notSpecified
  key : Option Nat := none
  signature : Option Nat := none

/-- the end of a validity period of `n` seconds (32-bit arithmetic; nothing for the creation time 0) -/
def endDate (time : Nat → Str) (start : Option Nat) (n : Nat) : Str :=
  match start with
  | none => []
  | some t => if 0 < t then time ((t + n) % 2 ^ 32) else []

def keyExpirationNames : List Str := [S "Key Expiration Time (sub 9)", S "Key Expiration Time <critical> (sub 9)"]
def sigTimeNames : List Str := [S "Signature Creation Time (sub 2)", S "Signature Creation Time <critical> (sub 2)"]
def sigExpirationNames : List Str := [S "Signature Expiration Time (sub 3)", S "Signature Expiration Time <critical> (sub 3)"]

/-- the items that are read as a whole -/
def tracked : List Str :=
  [S "Public-Key Encrypted Session Key Packet (tag 1)", S "Symmetric-Key Encrypted Session Key Packet (tag 3)",
   S "Symmetrically Encrypted Data Packet (tag 9)", S "Sym. Encrypted Integrity Protected Data Packet (tag 18)",
   S "Public key creation time", S "User Attribute Packet (tag 17)"] ++ keyExpirationNames ++ sigTimeNames ++ sigExpirationNames

/-- what an encrypted data packet (tag 9) says about the session key -/
def sourceText : Mode → Str
  | .symEnc => S "sym alg is specified in sym-key encrypted session key"
  | .pubEnc => S "sym alg is specified in pub-key encrypted session key"
  | .notSpecified => S "sym alg is IDEA, simple string-to-key"

/-- what an integrity protected encrypted data packet (tag 18) says about the session key; `size` is its size in octets -/
def sourceNote (size : Str) : Mode → Str
  | .symEnc => S "plain text + MDC SHA1(20 bytes); sym alg is specified in sym-key encrypted session key"
  | .pubEnc => S "plain text + MDC SHA1(20 bytes); sym alg is specified in pub-key encrypted session key"
  | .notSpecified => size ++ S " bytes"

mutual
/-- the item `i`, read after `h`, is as it should be, and what is remembered after it is `h'` -/
inductive Seen (time days : Nat → Str) : History → Item → History → Prop
  /-- public-key encrypted session key -/
  | pubKey {h i} (hn : i.name = S "Public-Key Encrypted Session Key Packet (tag 1)") : Seen time days h i { h with session := .pubEnc }
  /-- symmetric-key encrypted session key -/
  | symKey {h i} (hn : i.name = S "Symmetric-Key Encrypted Session Key Packet (tag 3)") : Seen time days h i { h with session := .symEnc }
  | encrypted {h i k} (hn : i.name = S "Symmetrically Encrypted Data Packet (tag 9)") (hi : i.items = [k])
      (hk : k.value = sourceText h.session) : Seen time days h i { h with session := .notSpecified }
  | protectedData {h i k n} (hn : i.name = S "Sym. Encrypted Integrity Protected Data Packet (tag 18)") (hi : i.items = [k])
      (hk : k.note = sourceNote (dec n) h.session) : Seen time days h i { h with session := .notSpecified }
  | keyTime {h i t} (hn : i.name = S "Public key creation time") (hv : i.value = time t) : Seen time days h i { h with key := some t }
  | keyExpiration {h i n} (hn : i.name ∈ keyExpirationNames) (hv : i.value = days n ++ S " days after")
      (hd : i.note = endDate time h.key n) : Seen time days h i { h with key := none }
  | sigTime {h i t} (hn : i.name ∈ sigTimeNames) (hv : i.value = time t) : Seen time days h i { h with signature := some t }
  | sigExpiration {h i n} (hn : i.name ∈ sigExpirationNames) (hv : i.value = days n ++ S " days after")
      (hd : i.note = endDate time h.signature n) : Seen time days h i { h with signature := none }
  /-- the subpackets of user attributes are something else -/
  | attribute {h i} (hn : i.name = S "User Attribute Packet (tag 17)") : Seen time days h i h
  | other {h i h'} (hn : i.name ∉ tracked) (hi : SeenAll time days h i.items h') : Seen time days h i h'
/-- one item after the other -/
inductive SeenAll (time days : Nat → Str) : History → List Item → History → Prop
  | nil {h} : SeenAll time days h [] h
  | cons {h i h' l h''} (hi : Seen time days h i h') (hl : SeenAll time days h' l h'') : SeenAll time days h (i :: l) h''
end

end Gpgpdump.Spec
