import Verif.CasePackets
import Verif.ThmArmor
import Verif.ThmDeep
import Verif.ThmReadBack
import Verif.ThmNil
import Verif.ThmParserApi
import Verif.ThmPacketsApi
import Verif.ThmCompletion
import Verif.ThmHidden

/-!
# Cases: inputs, outcomes and runs of the tool

For theorems with hypotheses whose own file shows no applied case: each `example` below applies the theorem to concrete inputs, so
that its hypotheses are met there. The cases are illustrations; the theorems are the claims.
-/

namespace Gpgpdump

open Spec Spec.CLI Case

namespace Case

/-- an environment without an armor decoder -/
def plainX : Ext := { Tests.X with armor := fun _ => .error (rawErr (.other 5)) }
/-- an environment with the armor decoder of the tool -/
def armorX : Ext := { Tests.X with armor := armorStream }

theorem tests_real : RealX Tests.X := by constructor <;> simp [Tests.X, rawErr, GoErr.real]
theorem plainX_own : OwnErrors plainX := tests_own
theorem plainX_lazy : ∀ t b, plainX.armor t = .ok b → b.eager = false := by intro t b h; cases h
theorem armorX_own : OwnErrors armorX := tests_own
theorem empty_consistent : Consistent Ctx.empty := ⟨fun d h => (by cases h), fun d h => (by cases h)⟩
theorem tests_clean : CleanX Tests.X := ⟨fun t => Clean.rfc3339UTC t, fun _ => Clean.dec _⟩

/-- the user ID packet `A` -/
def letter : Source := ⟨[0xcd, 1, 65], rawErr .eof, [2]⟩
theorem letter_reads (X : Ext) : Reads X false letter ⟨[0xcd, 1, 65], rawErr .eof, []⟩ := .binary rfl userIdLines (.none userIdNoBlock)

/-- `Contains` is decided by splitting the octets into packets -/
theorem contains_split {d : Bytes} {p : Nat × Bytes} (h : Contains d p) : p ∈ (split d).1 ∨ (split d).2 = .toEnd p.1 p.2 := by
  obtain ⟨ps, a, rest, rfl, hc, hp⟩ := h
  rw [split_closed hc]
  rcases hp with hp | hp
  · exact .inl (List.mem_append_left _ hp)
  · rw [split_toEnd hp]; exact .inr rfl

theorem within_other {p q : Nat × Bytes} (h : Within p q) (hp : p.1 ≠ 2) : q = p := by
  cases h with
  | refl => rfl
  | step h => cases h <;> exact absurd rfl hp

/-- no start of the user ID packet contains a secret key -/
theorem letter_safe (X : Ext) (n : Nat) (p : Nat × Bytes) (h : Somewhere X (letter.data.take n) p) : SafeSecret p := by
  have hs : ∀ q, Contains (letter.data.take n) q → q.1 = 13 := by
    intro q hq
    have := contains_split hq
    match n with
    | 0 => exact absurd this (by rw [show split (letter.data.take 0) = ([], .clean) by decide +kernel]; simp)
    | 1 => exact absurd this (by rw [show split (letter.data.take 1) = ([], .truncated) by decide +kernel]; simp)
    | 2 => exact absurd this (by rw [show split (letter.data.take 2) = ([], .truncated) by decide +kernel]; simp)
    | n + 3 =>
      rw [show letter.data.take (n + 3) = [0xcd, 1, 65] by simp [letter], show split [0xcd, 1, 65] = ([(13, [65])], .clean) by decide +kernel] at this
      simp at this
      rw [this]
  cases h with
  | plain h hw =>
    have := hs _ h
    rw [within_other hw (by rw [this]; decide)]
    intro h'
    rw [this] at h'
    simp at h'
  | packed h => exact absurd (hs _ h) (by simp)

end Case

/-! ## C01, C02, C28, C54, C56, C57 -/

example := C01_no_panic_partial Tests.X Ctx.empty (Src.ofBytes [0xcd, 1, 65]) (.inr rfl) (letter_safe Tests.X 3)
example := C01_new_partial plainX Ctx.empty letter (letter_safe plainX) (fun t b h => by cases h)
example := C02_packets Tests.X tests_real none (Source.src ⟨sigEnc, rawErr (.other 4), [1]⟩) (by simp [Source.src, rawErr, GoErr.real])
example := C02_new Tests.X tests_real none ⟨sigEnc, rawErr (.other 4), [1]⟩ (by simp [rawErr, GoErr.real])
example := C28_clean_partial Tests.X tests_clean (some Ctx.empty) (some (Src.ofBytes user)) (fun h => by cases h)
/-- without a context, on input that does not panic -/
example := C28_clean_partial Tests.X tests_clean none (some (Src.ofBytes user)) (fun _ s => by
  have : (parse Tests.X none (some (Src.ofBytes user))).res = .ok () := by decide +kernel
  rw [this]; simp)
example := C54_new plainX (some Ctx.empty) letter 0 (fun t b h => by cases h) (by decide +kernel)
example := C56_new Tests.X tests_own Ctx.empty rfl [0xcd, 1, 65] [2] userIdLines userIdNoBlock
example := C57_prefix Tests.X tests_own Ctx.empty ⟨sigEnc ++ [5], rawErr .eof, []⟩
/-- an issuer key ID subpacket -/
example := C57_subpacket Tests.X (parseTagF Tests.X 3) 16 (by decide) (by decide) [1, 2, 3, 4, 5, 6, 7, 8] Ctx.empty [] [] default _ _ rfl

/-! ## C08, C33, C34, C35 -/

/-- the source fails: an error that is not `io.EOF` -/
example := C08_armor Tests.X (some (Ctx.new [(ARMOR, true)])) rfl ⟨marker, rawErr (.other 7), [2]⟩ rfl
example := C08_packets_partial Tests.X none ⟨marker, rawErr (.other 7), [2]⟩ rfl

namespace Case
def letterText : Bytes := ascii "Hi!\n-----BEGIN PGP MESSAGE-----\r\n\nyg==\n-----END PGP MESSAGE-----\nbye"
def letterLines : List Bytes :=
  [ascii "Hi!", ascii "-----BEGIN PGP MESSAGE-----", ascii "", ascii "yg==", ascii "-----END PGP MESSAGE-----", ascii "bye"]
def letterBlock : List Bytes := [ascii "-----BEGIN PGP MESSAGE-----", ascii "", ascii "yg==", ascii "-----END PGP MESSAGE-----"]
theorem letter_lines : Lines letterText letterLines false letterText := by
  refine Lines.line (l := ascii "Hi!") (by decide) (by decide) ?_
  refine Lines.line (l := ascii "-----BEGIN PGP MESSAGE-----\r") (by decide) (by decide) ?_
  refine Lines.line (l := []) (by decide) (by decide) ?_
  refine Lines.line (l := ascii "yg==") (by decide) (by decide) ?_
  refine Lines.line (l := ascii "-----END PGP MESSAGE-----") (by decide) (by decide) ?_
  exact Lines.last (d := ascii "bye") (by decide) (by decide) (by decide)
theorem letter_block : ArmorBlock letterLines letterBlock := by
  refine ⟨[ascii "Hi!"], ascii "-----BEGIN PGP MESSAGE-----", [ascii "", ascii "yg=="], ascii "-----END PGP MESSAGE-----",
    [ascii "bye"], by decide, rfl, ?_, ?_, ?_, ?_⟩ <;> simp only [BeginLine, EndLine] <;> decide

/-- a line that reaches the limit -/
theorem long_line : Lines (List.replicate 70000 0x41) [] true ((List.replicate 70000 0x41).take lineLimit) := by
  refine .long (by rw [List.length_replicate]; decide) fun h => ?_
  have := (List.mem_replicate.mp (List.mem_of_mem_take h)).2
  exact absurd this (by decide)
end Case

example := C33_get_partial ⟨letterText, rawErr .eof, [1]⟩ rfl letter_lines
example : (armtextGet (Source.src ⟨letterText, rawErr .eof, [1]⟩)).1 = .ok (unlines letterBlock) :=
  (C33_get_partial ⟨letterText, rawErr .eof, [1]⟩ rfl letter_lines).1 _ letter_block
example := C33_unique letterLines letterBlock letterBlock letter_block letter_block
example := C33_found (Src.ofBytes letterText) letterLines (scanAll (Src.ofBytes letterText)).2.2 (by decide +kernel) letterBlock letter_block
example := C33_not_found (Src.ofBytes [0xcd, 1, 65]) [[0xcd, 1, 65]] (scanAll (Src.ofBytes [0xcd, 1, 65])).2.2 (by decide +kernel) userIdNoBlock
example := C33_long_line ⟨List.replicate 70000 0x41, rawErr .eof, []⟩ long_line
example := C34_verbatim_partial Tests.X (some Ctx.empty) rfl [0xcd, 1, 65] [2] userIdLines userIdNoBlock
example := C34_undecodable plainX (some Ctx.empty) rfl letterText [] letter_lines letter_block rfl
example := C34_long_line Tests.X (some Ctx.empty) rfl (List.replicate 70000 0x41) [] long_line
example := C35_armored Tests.X none letterText [] letter_lines letter_block (unlines letterBlock) [] rfl

/-! ## C59, C61, C62, C63, C64, C65 -/

example := C59_error Tests.X tests_own tests_real Ctx.empty ⟨sigEnc, rawErr .eof, []⟩ rfl
/-- a user ID packet needs no context -/
example := C61_else Tests.X tests_own ⟨[0xcd, 1, 65], rawErr .eof, []⟩ rfl (by
  intro h
  have := (C61_exact Tests.X tests_own ⟨[0xcd, 1, 65], rawErr .eof, []⟩ rfl).mpr h
  have h' : (parseSrc Tests.X none (Source.src ⟨[0xcd, 1, 65], rawErr .eof, []⟩)).res = .ok () := by decide +kernel
  rw [h'] at this
  cases this)
example := C62_displayed Tests.X tests_own Ctx.empty empty_consistent ⟨sigEnc, rawErr .eof, []⟩ rfl sig_ok
/-- the rows of a public key and of a signature that says when it expires -/
example (o : OptCode → Bool) (X : Ext) := C62_unique o X _ _ (keyThenSignature o X) (keyThenSignature o X)
example := C62_exact Tests.X tests_own Ctx.empty empty_consistent ⟨sigEnc, rawErr .eof, []⟩ rfl
example := C62_new Tests.X tests_own Ctx.empty empty_consistent rfl [0xcd, 1, 65] [2] userIdLines userIdNoBlock
example := C62_prefix Tests.X tests_own Ctx.empty empty_consistent ⟨sigEnc ++ [5], rawErr .eof, []⟩
/-- an octet that starts no packet -/
theorem Case.fails : StreamFails (AccTop Tests.X) (FailTop Tests.X) .noMSB ([] ++ 5 :: [1, 2]) := .tag .nil (by simp) (by decide)
example := C63_cause Tests.X tests_own _ _ _ Case.fails Case.fails
example := C63_every Tests.X tests_own tests_real sigEnc
example := C64_failing Tests.X none ⟨[0xcd, 1, 65, 0xcd, 5, 66], rawErr (.other 7), [1]⟩ rfl cutExample
example := C64_displayed Tests.X tests_own Ctx.empty empty_consistent ⟨[0xcd, 1, 65, 0xcd, 5, 66], rawErr (.other 7), [1]⟩ rfl cutExample
example := C65_exact Tests.X tests_own tests_armor Ctx.empty empty_consistent letter
example := C65_function Tests.X tests_own tests_real tests_armor Ctx.empty empty_consistent letter (by simp [letter, rawErr, GoErr.real])

/-! ## C67, C68 -/

theorem Case.damaged : ¬ Intact [0xcd, 1, 0x40] (some 8879132) := by
  intro h
  have h1 := (crc24_iff _ _).mp (h _ rfl)
  exact absurd h1 (by decide +kernel)
example := C67_same (X := armorX) rfl none (.inl rfl) (.inr rfl) (sampleText (ascii "zQFB") ⟨by decide, by decide, by decide⟩)
  (sampleText (ascii "zQFB") ⟨by decide, by decide, by decide⟩) (sampleMessage sampleBody (by decide)) (sampleMessage sampleBody (by decide))
  (fun c h => by cases h; exact sampleCrc) (fun c h => by cases h; exact sampleCrc) [] [3]
example := C68_reported (X := armorX) rfl none (.inl rfl) (sampleText (ascii "zQFA") ⟨by decide, by decide, by decide⟩)
  (sampleMessage damagedBody (by decide)) Case.damaged []
/-- the damaged message is a complete packet -/
example := C68_exact (X := armorX) rfl (some Ctx.empty) (.inl rfl) (sampleText (ascii "zQFA") ⟨by decide, by decide, by decide⟩)
  (sampleMessage damagedBody (by decide)) Case.damaged [] (ps := [(13, [0x40])]) (a := [0xcd, 1, 0x40] ++ []) (b := [])
  ⟨rfl, .cons (.new (by decide) (.last (.one (by decide)))) .nil, noPacket_iff.mpr (by intro t b r h; cases h)⟩
example := C67_every [0xcd, 1, 0x40] 8879132 (by decide)
example := C67_outcome (X := armorX) rfl tests_real.flate tests_real.bzip2 tests_real.zlib tests_real.zlibErr armorX_own Ctx.empty empty_consistent
  ⟨text [0x0a] (sampleLines (ascii "zQFA")), rawErr .eof, []⟩ (by simp [rawErr, GoErr.real])

/-! ## C45, C60, C75 -/

namespace Case
/-- a world that reads the octets as a source of its own -/
def world (s : Source) : World := { Tests.world [] with stdin := s.src }
theorem dumps (s : Source) : Dumps (world s) (.root false false []) s.src false := .stdin
end Case

example := C45_failure Tests.X (Tests.world [0, 1]) false Tests.flags rfl _ _ _ .stdin (wrapErr .noMSB) (by decide +kernel)
example := C45_no_input Tests.X (Tests.world []) false Tests.flags rfl _ _ (.file (name := ['f']) (by simp) rfl)
example := C45_panic Tests.X (Tests.world [0xc5, 8, 4, 0, 0, 0, 0, 99, 0, 7]) false Tests.flags _ _ _ .stdin .sliceRange (by decide +kernel)
example := C45_github_panic Tests.X { Tests.world [] with github := fun _ _ => .panic } false Tests.flags ['a'] ['1'] false rfl
example := C45_success_partial Tests.X (Tests.world marker) false Tests.flags _ _ _ .stdin (by decide +kernel) _ (.tab rfl (by decide)) rfl
example := C45_rendered { Tests.flags with json := true, indent := 2 } [newItem (S "a")] (.inr (.inr (by decide)))
example := C45_normal_means_dumped Tests.X (Tests.world marker) false Tests.flags rfl _ _ _ .stdin (by rw [marker, C45_example_success])
/-- standard output takes four octets only -/
example := C45_write_fails Tests.X { Tests.world marker with write := fun _ => (4, none) } false Tests.flags rfl _ _ _ .stdin
  (by decide +kernel) _ (.tab rfl (by decide)) (.inr (by decide +kernel))
example := C45_raw Tests.X { Tests.world [] with fetch := fun _ => .ok (Source.src ⟨user, rawErr (.other 2), []⟩) } false Tests.flags rfl _ _ _
  (.fetch (url := S "https://example.org/") rfl)
example := C45_debug Tests.X (Tests.world [0, 1]) false { Tests.flags with debug := true } rfl _ _ _ .stdin (wrapErr .noMSB) (by decide +kernel) rfl
example := C45_stale Tests.X { Tests.world [] with stderrOk := false } Tests.flags false [] rfl rfl
/-- 1700 nested signatures -/
example := C30_nested Tests.X Ctx.empty 1700 (by decide) []
example := C30_unwritable Tests.X Ctx.empty 2 (by decide) 1700 (by decide) (by decide) []
example := C45_unwritable plainX (fun _ => ⟨_, rfl⟩) (Case.world ⟨nestPacket 1700, rawErr .eof, []⟩) 1700 (by decide) (by decide) rfl false
example := C60_every Tests.X tests_armor false letter
/-- the armored packet of `C60_corrupt` with an error after it -/
example := C60_corrupt { Tests.X with armor := fun _ => .ok ⟨[0xcd, 1, 65], rawErr (.other 6), [], false⟩ }
  (by constructor <;> simp [Tests.X, rawErr, GoErr.real]) (Case.world ⟨letterText, rawErr .eof, []⟩) false Tests.flags rfl (.root false false []) false
  ⟨letterText, rawErr .eof, []⟩ ⟨[0xcd, 1, 65], rawErr (.other 6), []⟩ (dumps _) (.armored letter_lines rfl letter_block rfl) rfl
example := C60_exit Tests.X tests_own tests_real (Case.world letter) false Tests.flags rfl (.root false false []) false letter _ (dumps _)
  (letter_reads Tests.X) rfl (fun _ => rfl) (.inl rfl)
example := C74_output (fun _ => 0) (Tests.world []) (fun _ => [1, 2, 3]) [ascii "bash"]
example := C75_text ReadBack.utcX Tests.X ReadBack.utcX_ok.1 tests_own ReadBack.utcX_ok.2.1 tests_clean ReadBack.utcX_ok.2.2 ⟨ReadBack.utcX_ok.2.2.1, ReadBack.utcX_ok.2.2.2, ReadBack.utcX_ok.2.2.3⟩
  Ctx.empty Ctx.empty empty_consistent empty_consistent letter ⟨[0xb4, 1, 65], rawErr .eof, []⟩ ['\t'] ⟨by decide, by decide⟩ (by decide +kernel)
theorem Case.letter_out (d : Bytes) (hd : d = [0xcd, 1, 65] ∨ d = [0xb4, 1, 65]) :
    execute ReadBack.utcX (Case.world ⟨d, rawErr .eof, []⟩) false Tests.flags (.root false false []) =
      ⟨some .normal, utf8 (S "User ID Packet (tag 13) (1 bytes)\n\tUser ID: A\n"), false⟩ := by
  rcases hd with rfl | rfl <;> decide +kernel

example := C75_tool ReadBack.utcX ReadBack.utcX ReadBack.utcX_ok.1 ReadBack.utcX_ok.1 ReadBack.utcX_ok.2.1 ReadBack.utcX_ok.2.1 ReadBack.utcX_ok.2.2
  ReadBack.utcX_ok.2.2 (Case.world ⟨[0xcd, 1, 65], rawErr .eof, []⟩) (Case.world ⟨[0xb4, 1, 65], rawErr .eof, []⟩) false false Tests.flags Tests.flags
  rfl rfl rfl rfl (.root false false []) (.root false false []) false false _ _ ⟨[0xcd, 1, 65], rawErr .eof, []⟩ ⟨[0xb4, 1, 65], rawErr .eof, []⟩ (dumps _) (dumps _)
  (.binary rfl userIdLines (.none userIdNoBlock))
  (.binary rfl (.last (by simp) (by decide) (by decide)) (.none (by
    rintro ⟨block, before, b, mid, e, after, h1, -⟩
    have := congrArg List.length h1
    simp at this
    omega))) _ (Case.letter_out _ (.inl rfl)) (Case.letter_out _ (.inr rfl))

/-! ## C72, C76 -/

example := C72_success Tests.X (some Ctx.empty) sigEnc [] 3 sig_ok
/-- a packet, then one that is not complete -/
example := C72_reported_once Tests.X (some Ctx.empty) (a := [0xcd, 1, 65]) (b := [0xcd, 5, 66]) ⟨⟨_, cutExample.packets⟩, by decide +kernel⟩
  ⟨fun tag body enc rest h e => cutExample.stop ⟨tag, body, enc, rest, e, h⟩, fun x r h => by cases h; decide⟩ [1] 2
/-- three letters before a packet -/
example := C72_skips Tests.X (some Ctx.empty) [65, 66, 67] [0xcd, 1, 65] (by decide) [] 1
example := C76_used_up Tests.X Ctx.empty (tag := 2) (by decide)

end Gpgpdump
