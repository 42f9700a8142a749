import Verif.ThmPackets
import Verif.ThmHeader
import Verif.ThmTrunc
import Verif.ThmSubs
import Verif.ThmAccount
import Verif.ThmCompressed
import Verif.ThmCount
import Verif.ThmUnknownSubs
import Verif.ThmEmbed
import Verif.ThmMemory

/-!
# Cases: streams of packets, signatures and compressed packets

For theorems with hypotheses whose own file shows no applied case: each `example` below applies the theorem to concrete octets, so
that its hypotheses are met there. The cases are illustrations; the theorems are the claims.
-/

namespace Gpgpdump

open Spec

namespace Case

/-- a marker packet in new format, `PGP` -/
def marker : Bytes := [0xca, 3, 0x50, 0x47, 0x50]
/-- a user ID packet in old format, `Alice` -/
def user : Bytes := [0xb4, 5, 0x41, 0x6c, 0x69, 0x63, 0x65]
/-- the body of a version 4 signature: a creation time and an unknown critical subpacket, an issuer key ID, one integer -/
def sig : Bytes := [4, 0x13, 1, 8, 0, 9, 5, 2, 0x5f, 0, 0, 0, 2, 0xe4, 1, 0, 10, 9, 16, 1, 2, 3, 4, 5, 6, 7, 8, 0xab, 0xcd, 0, 9, 1, 0x55]
/-- that signature as a packet in old format -/
def sigEnc : Bytes := 0x88 :: 33 :: sig

theorem marker_enc : Encodes 10 [0x50, 0x47, 0x50] marker := .new (by decide) (.last (.one (by decide)))
theorem user_enc : Encodes 13 [0x41, 0x6c, 0x69, 0x63, 0x65] user := .old (lt := 0) (by decide) (by decide) (by decide)
theorem sig_enc : Encodes 2 sig sigEnc := .old (lt := 0) (by decide) (by decide) (by decide)

/-- the two packets -/
def two : List (Nat × Bytes) := [(10, [0x50, 0x47, 0x50]), (13, [0x41, 0x6c, 0x69, 0x63, 0x65])]
theorem two_closed : ClosedSeq two (marker ++ (user ++ [])) := .cons marker_enc (.cons user_enc .nil)
theorem two_seq : PacketSeq two (marker ++ (user ++ [])) := two_closed.packetSeq

theorem sig_ok : (parseSrc Tests.X (some Ctx.empty) (Source.src ⟨sigEnc, rawErr .eof, []⟩)).res = .ok () := by decide +kernel
theorem two_ok : (parseSrc Tests.X (some Ctx.empty) (Source.src ⟨marker ++ (user ++ []), rawErr .eof, []⟩)).res = .ok () := by decide +kernel

end Case

open Case

/-! ## C03, C04, C05, C06, C22 -/

/-- two packets, then a truncated third one -/
example := C03_append Tests.X (some Ctx.empty) two_closed [0xcd, 9, 0x41] (rawErr .eof) [] [1] [2, 3] two_ok
/-- a signature that is cut off inside its body fails, whatever follows it -/
example : ClosedSeq [(2, [4, 0x13])] ([0x88, 2, 4, 0x13] ++ []) ∧
    (parseSrc Tests.X (some Ctx.empty) (Source.src ⟨[0x88, 2, 4, 0x13] ++ [], rawErr .eof, []⟩)).res ≠ .ok () :=
  ⟨.cons (.old (lt := 0) (by decide) (by decide) (by decide)) .nil, by decide +kernel⟩
example := C03_append_fail Tests.X (some Ctx.empty) (ps := [(2, [4, 0x13])]) (a := [0x88, 2, 4, 0x13] ++ [])
  (.cons (.old (lt := 0) (by decide) (by decide) (by decide)) .nil) user (rawErr (.other 3)) [] [5] (by decide +kernel)
example := C03_prefix_kept Tests.X none two_closed [0xcd, 9, 0x41] (rawErr .eof) [] [1]
/-- the user ID packet is cut after three of its seven octets -/
example := C04_truncated Tests.X (some Ctx.empty) (ClosedSeq.cons marker_enc .nil) (p := [0xb4, 5, 0x41]) (s := [0x6c, 0x69, 0x63, 0x65])
  user_enc (by simp) (by simp) (rawErr .eof) (.inl rfl) []
example := C04_truncated Tests.X none (ClosedSeq.cons marker_enc .nil) (p := [0xb4]) (s := [5, 0x41, 0x6c, 0x69, 0x63, 0x65])
  user_enc (by simp) (by simp) (rawErr (.other 9)) (.inr rfl) [1, 1]
/-- a letter follows the packets -/
example := C04_bad_header Tests.X (some Ctx.empty) two_closed 0x41 (by decide) [1, 2] (rawErr .eof) []
example := C05_success Tests.X (some Ctx.empty) (marker ++ (user ++ [])) [] two_ok
example := C05_unique two_seq two_seq
/-- the user ID in old format with four length octets, and with indeterminate length -/
example := C06_encoding Tests.X (some Ctx.empty) (ps := [(13, [0x41])]) (a := [0xb6, 0, 0, 0, 1, 0x41] ++ []) (a' := [0xb7, 0x41])
  (.cons (.old (lt := 2) (by decide) (by decide) (by decide)) .nil) (.toEnd (.mk (by decide))) [] [7]
example := C22_unknown_tag Tests.X (some Ctx.empty) 40 [1, 2, 3] [0xe8, 3, 1, 2, 3] (.new (by decide) (.last (.one (by decide))))
  (by unfold KnownTag; omega) []

/-! ## C02 -/

/-- a signature with an embedded signature: two hashed subpackets, the second of type 32 -/
theorem Case.inside : Inside (2, [4, 0, 1, 8, 0, 6, 5, 32, 3, 5, 0, 1, 0, 0, 1, 2, 0, 1, 1]) (2, [3, 5, 0, 1]) :=
  .embedded (st := 32) (subs := [(32, [3, 5, 0, 1])]) (.hashed (v := 4) (s := 0) (p := 1) (h := 8) (area := [5, 32, 3, 5, 0, 1]) (rest := [0, 0, 1, 2, 0, 1, 1]) (.inl rfl) (by decide))
    (.cons (lenc := [5]) (.one (by decide)) .nil) List.mem_cons_self (by decide)

example := C02_shorter Case.inside
example := C02_depth (chain := [(2, [3, 5, 0, 1])]) (.cons_cons Case.inside (.singleton _))
example := C02_bound Tests.X 2 sig 34 1000 (by decide) (by decide) Ctx.empty

/-! ## C20, C21, C54 -/

/-- a compressed packet that stores a marker and a user ID packet -/
theorem Case.packed_enc : Encodes 8 (0 :: (marker ++ (user ++ []))) (0xa0 :: 13 :: 0 :: (marker ++ (user ++ []))) :=
  .old (lt := 0) (by decide) (by decide) (by decide)
theorem Case.packed_opens (X : Ext) : Unpacks X (0 :: (marker ++ (user ++ []))) (marker ++ (user ++ [])) := .stored (by simp [marker])

example (X : Ext) := C20_expand X (some Ctx.empty) Case.packed_enc (Case.packed_opens X) two_seq []
example (X : Ext) := C20_same_as_unpacked X (some Ctx.empty) Case.packed_enc (Case.packed_opens X) two_seq (by decide) [] [3]
example (X : Ext) := C20_inner_item X (some Ctx.empty) user_enc (by decide) [(10, [0x50, 0x47, 0x50])] []
example := C54_compressed Tests.X (some Ctx.empty) Case.packed_enc (Case.packed_opens Tests.X) two_seq [] (by decide +kernel)

/-- decompressors that yield 1 GiB of zeros, and 1 GiB of zeros followed by an error -/
def Case.bomb : Ext := { Tests.X with flate := fun _ => { (Tests.X.flate []) with data := List.replicate (2 ^ 30) 0 } }
def Case.bomb' : Ext := { Tests.X with flate := fun _ => { (Tests.X.flate []) with data := List.replicate (2 ^ 30) 0 ++ [1, 2, 3], tail := rawErr (.other 2) } }

example := C21_flagged Case.bomb (some Ctx.empty) (body := [1, 0]) (enc := [0xc8, 2, 1, 0]) (.new (by decide) (.last (.one (by decide))))
  (.zip (by simp) (by show _ ≤ (List.replicate (2 ^ 30) (0 : UInt8)).length; rw [List.length_replicate])) user (rawErr .eof) []
example := C21_rest_ignored Case.bomb Case.bomb'
  (fun _ => .inr ⟨by
    show (List.replicate (2 ^ 30) (0 : UInt8)).take (2 ^ 30) = (List.replicate (2 ^ 30) (0 : UInt8) ++ [1, 2, 3]).take (2 ^ 30)
    rw [List.take_append_of_le_length (by rw [List.length_replicate])],
    by show _ ≤ (List.replicate (2 ^ 30) (0 : UInt8)).length; rw [List.length_replicate]⟩)
  (fun _ => .inl rfl) (fun _ => .inl rfl)

example := C54_result Tests.X (some Ctx.empty) (Source.src ⟨sigEnc, rawErr .eof, []⟩) (by decide +kernel)

/-! ## C16, C23, C24, C26, C40, C41, C42 -/

example := C16_dumps Tests.X (Ctx.new [(DEBUG, true)]) rfl sigEnc [] (by decide +kernel)
example := C24_signature Tests.X (some Ctx.empty) (v := 4) (q := sig.tail) (.inl rfl) sig_enc [] sig_ok
example := C40_complete Tests.X (some Ctx.empty) (v := 4) (q := sig.tail) (.inl rfl) sig_enc [] sig_ok
example := C42_signature Tests.X (some Ctx.empty) (v := 4) (q := sig.tail) (.inl rfl) sig_enc [] sig_ok

/-- a hashed area that ends inside a subpacket -/
example := C24_rejected Tests.X (some Ctx.empty) (area := [5, 2, 0x5f]) (enc := 0x88 :: 14 :: [4, 0, 1, 8, 0, 3, 5, 2, 0x5f, 0, 0, 1, 2, 0])
  (.hashed (v := 4) (s := 0) (p := 1) (h := 8) (area := [5, 2, 0x5f]) (rest := [0, 0, 1, 2, 0]) (.inl rfl) (by decide))
  (by
    intro subs h
    have := opaqueSubpackets_ok.mpr h
    have hn : (opaqueSubpackets [5, 2, 0x5f]).toOption = none := by decide +kernel
    rw [this] at hn; cases hn) (.old (lt := 0) (by decide) (by decide) (by decide)) []
theorem Case.subs : SubSeq [(2, [0x5f, 0, 0, 0])] [5, 2, 0x5f, 0, 0, 0] := .cons (lenc := [5]) (.one (by decide)) .nil
example := C24_unique Case.subs Case.subs

/-- a version 3 signature by DSA -/
example := C42_signature_v3 Tests.X (some Ctx.empty) (t := 0) (a := 17) (h := 2) (l0 := 9) (l1 := 8) (tm := [0x5f, 0, 0, 0])
  (kid := [1, 2, 3, 4, 5, 6, 7, 8]) (ints := [0, 1, 1, 0, 9, 1, 0x55]) (rest := [7]) rfl rfl
  (.succ (bits := 1) (data := [1]) (by decide) rfl (.succ (bits := 9) (data := [1, 0x55]) (by decide) rfl .zero))
  (.old (lt := 0) (by decide) (by decide) (by decide)) [] (by decide +kernel)

theorem Case.exact : SigExact [4, 0, 17, 8, 0, 0, 0, 0, 1, 2, 0, 1, 1, 0, 1, 1] :=
  SigExact.v45 (v := 4) (t := 0) (a := 17) (h := 8) (l0 := 1) (l1 := 2) (a1 := []) (a2 := []) (.inl rfl) (by decide) (by decide)
    (MPIs.succ (bits := 1) (data := [1]) (by decide) rfl (MPIs.succ (bits := 1) (data := [1]) (by decide) rfl .zero))
example := C40_truncated_partial Tests.X (some Ctx.empty) Case.exact (by decide) (body := [4, 0, 17, 8, 0, 0, 0, 0, 1, 2, 0, 1, 1]) (cut := [0, 1, 1])
  rfl (by simp) (.old (lt := 0) (by decide) (by decide) (by decide)) []
example := C41_header_cut_partial Tests.X (some Ctx.empty) (body := [1, 9]) (.new (by decide) (.last (.one (by decide)))) (by decide) []

/-- a key block whose second packet is cut inside its body -/
example := C26_reported_partial Tests.X (some Ctx.empty) (area := [8, 38, 0, 0xcd, 1, 0x41, 0xcd, 5, 0x42]) (subs := [(38, 0 :: ([0xcd, 1, 0x41] ++ ([0xcd, 5] ++ [0x42])))])
  (SigArea.unhashed (v := 4) (s := 0) (p := 1) (h := 8) (first := []) (area := [8, 38, 0, 0xcd, 1, 0x41, 0xcd, 5, 0x42]) (rest := [0xa0, 0xff, 0, 1, 1]) (.inl rfl) (by decide) (by decide))
  (SubSeq.cons (t := 38) (body := 0 :: ([0xcd, 1, 0x41] ++ ([0xcd, 5] ++ [0x42]))) (lenc := [8]) (.one (by decide)) .nil)
  (.old (lt := 0) (by decide) (by decide) (by decide)) (st := 38) (by decide) (ps := [(13, [0x41])]) (a := [0xcd, 1, 0x41] ++ []) (hdr := [0xcd, 5]) (part := [0x42])
  List.mem_cons_self (.cons (.new (by decide) (.last (.one (by decide)))) .nil) (.new (tag := 13) (n := 5) (by decide) (.one (by decide)))
  (by simp) (by decide) (by decide) []

/-- one area with the unknown subpacket of `Case.sig`, one without it -/
example := C23_signature Tests.X Ctx.empty (v := 4) (t := 0x13) (a := 1) (h := 8) (.inl rfl) (a1 := [5, 2, 0x5f, 0, 0, 0, 2, 0xe4, 1]) (a2 := [])
  (b1 := [5, 2, 0x5f, 0, 0, 0]) (b2 := []) (rest := [0xab, 0xcd, 0, 9, 1, 0x55]) (all1 := [(2, [0x5f, 0, 0, 0]), (0xe4, [1])]) (some1 := [(2, [0x5f, 0, 0, 0])])
  (.cons (lenc := [5]) (.one (by decide)) (.cons (lenc := [2]) (.one (by decide)) .nil)) .nil (.cons (lenc := [5]) (.one (by decide)) .nil) .nil
  (by decide) (by decide) (by decide) (by decide) (.keep (.drop (by unfold UnknownSigSub; decide) .nil)) .nil
  (.old (lt := 0) (by decide) (by decide) (by decide)) (.old (lt := 0) (by decide) (by decide) (by decide)) []

end Gpgpdump
