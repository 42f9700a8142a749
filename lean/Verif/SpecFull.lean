import Verif.SpecDisplay
import Verif.SpecHistory

/-!
# Specification: everything that is displayed

`SpecDisplay` leaves two things open, because they depend on what was read before: the date in the note of an expiration time and
what encrypted data say about the session key. Here the packets are read in order, with what has to be remembered (`History`) before
and after each of them. Nothing is left open: C62 shows that the table allows exactly one list of items.
-/

namespace Gpgpdump.Spec

section
variable (o : OptCode → Bool)

/-- the text of an instant (seconds since 1970) -/
def dateText (X : Ext) (n : Nat) : Str := if o UTC then rfc3339UTC (UInt32.ofNat n) else X.localTime (UInt32.ofNat n)

/-- a validity period of `n` (four octets) that starts at `start` -/
def periodRow (X : Ext) (t : UInt8) (n : Bytes) (start : Option Nat) : Item :=
  leaf (subName t) (X.days (UInt32.ofNat (beNat n)) ++ " days after".toList) (endDate (dateText o X) start (beNat n)) (dumpIf (o DEBUG) n)

mutual
/-- the packet with this tag and body, read after `h`, is displayed as this item; what is remembered afterwards -/
inductive Full (X : Ext) : History → Nat → Bytes → Item → History → Prop
  | plain {h tag body i} (ht : tag ∉ [1, 2, 3, 5, 6, 7, 9, 14, 18]) (hd : Display o X tag body i) : Full X h tag body i h
  | sessionKey {h body i} (hd : Display o X 1 body i) : Full X h 1 body i { h with session := .pubEnc }
  | password {h body i} (hd : Display o X 3 body i) : Full X h 3 body i { h with session := .symEnc }
  | encrypted {h body} :
      Full X h 9 body (packetRow o 9 body [leaf "Encrypted data".toList (sourceText h.session) (sizeText body.length) (dumpIf (o DEBUG) body)])
        { h with session := .notSpecified }
  | integrity {h body} :
      Full X h 18 body (packetRow o 18 body [leaf "Encrypted data".toList [] (sourceNote (dec body.length) h.session) (dumpIf (o DEBUG) body)])
        { h with session := .notSpecified }
  /-- a key of a known version: its creation time is remembered -/
  | key {h tag v tm r i} (ht : tag ∈ [5, 6, 7, 14]) (hv : v ∈ [3, 4, 5]) (hl : tm.length = 4) (hd : Display o X tag (v :: (tm ++ r)) i) :
      Full X h tag (v :: (tm ++ r)) i { h with key := some (beNat tm) }
  | keyOther {h tag v r i} (ht : tag ∈ [5, 6, 7, 14]) (hv : v ∉ [3, 4, 5]) (hd : Display o X tag (v :: r) i) : Full X h tag (v :: r) i h
  /-- version 3 signatures do not count -/
  | signatureOther {h v r i} (hv : v ∉ [4, 5]) (hd : Display o X 2 (v :: r) i) : Full X h 2 (v :: r) i h
  | signature {h1 h2 h3 v t a h a1 a2 i1 i2 l f q is} (hv : v ∈ [4, 5]) (hd : FullArea X h1 "Hashed Subpacket" a1 i1 h2)
      (hu : FullArea X h2 "Unhashed Subpacket" a2 i2 h3) (hl : l.length = 2) (hf : Integers o sigSlots a f q is)
      (hl1 : a1.length < 65536) (hl2 : a2.length < 65536) :
      Full X h1 2 (v :: t :: a :: h :: (beOctets 2 a1.length ++ (a1 ++ (beOctets 2 a2.length ++ (a2 ++ (l ++ (f ++ q)))))))
        (packetRow o 2 (v :: t :: a :: h :: (beOctets 2 a1.length ++ (a1 ++ (beOctets 2 a2.length ++ (a2 ++ (l ++ (f ++ q)))))))
          (versionRow o 4 (some 5) v :: sigTypeRow o t :: pubRow o a :: hashRow o h :: (i1 ++ i2 ++ left16Row l :: (is ++ unknownRows o q)))) h3

/-- a subpacket area -/
inductive FullArea (X : Ext) : History → String → Bytes → List Item → History → Prop
  | empty {h name} : FullArea X h name [] [] h
  | subs {h name area subs is h'} (h0 : area ≠ []) (hs : SubSeq subs area) (hd : FullSubs X h subs is h') :
      FullArea X h name area [areaRow o name area is] h'

/-- subpackets one after the other -/
inductive FullSubs (X : Ext) : History → List (UInt8 × Bytes) → List Item → History → Prop
  | nil {h} : FullSubs X h [] [] h
  | plain {h t b i subs is h'} (ht : t.toNat % 128 ∉ [2, 3, 9]) (hd : SubShown o X t b i) (hs : FullSubs X h subs is h') :
      FullSubs X h ((t, b) :: subs) (i :: is) h'
  /-- creation time of the signature -/
  | created {h t tm r subs is h'} (ht : t.toNat % 128 = 2) (hl : tm.length = 4) (hs : FullSubs X { h with signature := some (beNat tm) } subs is h') :
      FullSubs X h ((t, tm ++ r) :: subs) (leaf (subName t) (momentText o X tm) [] (dumpIf (o DEBUG) tm) :: is) h'
  /-- validity of the signature -/
  | expires {h t n r subs is h'} (ht : t.toNat % 128 = 3) (hl : n.length = 4) (hs : FullSubs X { h with signature := none } subs is h') :
      FullSubs X h ((t, n ++ r) :: subs) (periodRow o X t n h.signature :: is) h'
  /-- validity of the key -/
  | keyExpires {h t n r subs is h'} (ht : t.toNat % 128 = 9) (hl : n.length = 4) (hs : FullSubs X { h with key := none } subs is h') :
      FullSubs X h ((t, n ++ r) :: subs) (periodRow o X t n h.key :: is) h'
  | embedded {h1 h2 h3 t b i subs is} (ht : t.toNat % 128 = 32) (hd : Full X h1 2 b i h2) (hs : FullSubs X h2 subs is h3) :
      FullSubs X h1 ((t, b) :: subs) (subRow o t b [i] :: is) h3
  | keyBlockOther {h t k d subs is h'} (ht : t.toNat % 128 = 38) (hk : k ≠ 0) (hs : FullSubs X h subs is h') :
      FullSubs X h ((t, k :: d) :: subs)
        (subRow o t (k :: d) [numRow "Type" k, leaf "Key data".toList [] (sizeText d.length) (dumpIf (o DEBUG) d)] :: is) h'
  | keyBlock {h1 h2 h3 t a b ps js subs is} (ht : t.toNat % 128 = 38) (ha : ClosedSeq ps a) (hb : KeyEnd X b) (hd : FullAll X h1 ps js h2)
      (hs : FullSubs X h2 subs is h3) :
      FullSubs X h1 ((t, 0 :: (a ++ b)) :: subs)
        (subRow o t (0 :: (a ++ b)) [numRow "Type" 0,
          .mk "Key data".toList [] (dumpIf (o DEBUG) (a ++ b)) (sizeText (a ++ b).length) js] :: is) h3

/-- packets one after the other -/
inductive FullAll (X : Ext) : History → List (Nat × Bytes) → List Item → History → Prop
  | nil {h} : FullAll X h [] [] h
  | cons {h1 h2 h3 tag body ps i is} (hd : Full X h1 tag body i h2) (hs : FullAll X h2 ps is h3) : FullAll X h1 ((tag, body) :: ps) (i :: is) h3
end

/-- a packet at the top level -/
inductive FullTop (X : Ext) : History → Nat × Bytes → Item → History → Prop
  | plain {h tag body i h'} (h8 : tag ≠ 8) (hd : Full o X h tag body i h') : FullTop X h (tag, body) i h'
  | packed {h body z ps is h'} (hz : Opens X body (some z)) (hp : PacketSeq ps z) (hd : FullAll o X h ps is h') :
      FullTop X h (8, body) (packetRow o 8 body (packedRows o body false ++ is)) h'
  | huge {h body} (hz : Opens X body none) : FullTop X h (8, body) (packetRow o 8 body (packedRows o body true)) h

/-- the packets of an input -/
inductive FullTops (X : Ext) : History → List (Nat × Bytes) → List Item → History → Prop
  | nil {h} : FullTops X h [] [] h
  | cons {h1 h2 h3 p ps i is} (hd : FullTop o X h1 p i h2) (hs : FullTops X h2 ps is h3) : FullTops X h1 (p :: ps) (i :: is) h3

end

/-- `ps` are the packets at the front of the octets, up to the first that is not of the grammar -/
inductive Front (X : Ext) : List (Nat × Bytes) → Bytes → Prop
  | stop {b} (h : ∀ tag body enc r, Encodes tag body enc → AccTop X tag body → b ≠ enc ++ r)
      (hb : ∀ tag body, EncodesToEnd tag body b → ¬ AccTop X tag body) : Front X [] b
  | cons {tag body enc ps r} (he : Encodes tag body enc) (ha : AccTop X tag body) (hs : Front X ps r) : Front X ((tag, body) :: ps) (enc ++ r)
  | toEnd {tag body b} (he : EncodesToEnd tag body b) (ha : AccTop X tag body) : Front X [(tag, body)] b

end Gpgpdump.Spec
