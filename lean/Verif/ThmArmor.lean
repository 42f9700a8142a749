import Verif.ArmorReal
import Verif.ThmOutcome

/-!
# C67, C68: armored input, with the decoder of golang.org/x/crypto

C35 takes the armor decoder as given. Here it is the one modelled in `Armor.lean`, and armored text is defined by RFC 4880
(`SpecArmor.lean`).
-/

namespace Gpgpdump

open Spec Spec.CLI

namespace Spec

/-- every line followed by the end of line `eol` -/
def text (eol : Bytes) (ls : List Bytes) : Bytes := ls.flatMap (· ++ eol)

/-- a line feed, or carriage return and line feed -/
def EndOfLine (eol : Bytes) : Prop := eol = [0x0a] ∨ eol = [0x0d, 0x0a]

/-- a line gpgpdump can read: shorter than 65535 octets, without line feed in it and carriage return at its end -/
def TextLine (l : Bytes) : Prop := l.length < 65535 ∧ 0x0a ∉ l ∧ l.getLast? ≠ some 0x0d

/-- The lines hold an armored block with these data and this checksum among other text: the first line that starts an OpenPGP
block starts it, and the next that ends one ends it. -/
def Message (ls : List Bytes) (data : Bytes) (crc : Option Nat) : Prop :=
  ∃ before start mid stop after, ls = before ++ start :: mid ++ stop :: after ∧ (∀ l ∈ before, ¬ BeginLine l) ∧ BeginLine start ∧
    (∀ l ∈ mid, ¬ EndLine l) ∧ EndLine stop ∧ Armored (start :: mid ++ [stop]) data crc

/-- the checksum, if there is one, is that of the data -/
def Intact (data : Bytes) (crc : Option Nat) : Prop := ∀ c, crc = some c → Crc24 data c

end Spec

theorem ending_iff (data : Bytes) (crc : Option Nat) :
    (Armor.ending crc data = rawErr .eof ↔ Intact data crc) ∧ (Armor.ending crc data = Armor.corrupt ↔ ¬ Intact data crc) := by
  have hne : Armor.corrupt ≠ rawErr .eof := by decide
  unfold Armor.ending Intact
  cases crc with
  | none => exact ⟨⟨fun _ c h => (by cases h), fun _ => rfl⟩, ⟨fun h => absurd h.symm hne, fun h => absurd (fun c h => (by cases h)) h⟩⟩
  | some c =>
    have hi : (∀ c', some c = some c' → Crc24 data c') ↔ c = Armor.crc24 Armor.crcInit data :=
      ⟨fun h => (crc24_iff data c).mp (h c rfl), fun h c' hc => by cases hc; exact (crc24_iff data c).mpr h⟩
    rw [hi]
    simp only
    by_cases hc : c = Armor.crc24 Armor.crcInit data
    · rw [if_neg (by simpa using hc)]
      exact ⟨⟨fun _ => hc, fun _ => rfl⟩, ⟨fun h => absurd h.symm hne, fun h => absurd hc h⟩⟩
    · rw [if_pos hc]
      exact ⟨⟨fun h => absurd h hne, fun h => absurd h hc⟩, ⟨fun _ => hc, fun _ => rfl⟩⟩

/-- C67: an armored block opens, and whatever the sizes of the reads its body serves exactly the data; then `io.EOF`, or, exactly if
there is a checksum and it is not that of the data, the error of a corrupt armor. -/
theorem C67_reads {ls : List Bytes} {data : Bytes} {crc : Option Nat} (h : Armored ls data crc) :
    ∃ r e, Armor.decode (unlines ls) = .ok r ∧ (e = rawErr .eof ↔ Intact data crc) ∧ (e = Armor.corrupt ↔ ¬ Intact data crc) ∧
      ∀ ns : List Nat, (∀ n ∈ ns, 0 < n) → Serves data e ns (r.reads ns) := by
  obtain ⟨r, h1, h2, -⟩ := Armor.decode_armored h
  have he := ending_iff data crc
  exact ⟨r, _, h1, he.1, he.2, fun ns hn => Armor.Body.reads_serves h2 hn⟩

theorem text_lines {eol : Bytes} (he : EndOfLine eol) {ls : List Bytes} (h : ∀ l ∈ ls, TextLine l) : Lines (text eol ls) ls false (text eol ls) := by
  induction ls with
  | nil => exact .done
  | cons l ls ih =>
    obtain ⟨h1, h2, h3⟩ := h l (by simp)
    have ih := ih fun l hl => h l (List.mem_cons_of_mem _ hl)
    have hl : lineLimit = 65536 := rfl
    rcases he with rfl | rfl
    · have := Lines.line (l := l) h2 (by omega) ih
      rw [show chomp l = l by unfold chomp; rw [if_neg h3]] at this
      have e : text [0x0a] (l :: ls) = l ++ 0x0a :: text [0x0a] ls := by simp [text]
      rw [e]
      exact this
    · have := Lines.line (l := l ++ [0x0d]) (by simp [h2]) (by simp; omega) ih
      rw [show chomp (l ++ [0x0d]) = l by unfold chomp; simp] at this
      have e : text [0x0d, 0x0a] (l :: ls) = (l ++ [0x0d]) ++ 0x0a :: text [0x0d, 0x0a] ls := by simp [text]
      rw [e]
      exact this

/-- reading a message in a text reads its data, then its ending -/
theorem message_reads {X : Ext} (hX : X.armor = armorStream) (ctx : Option Ctx) {eol : Bytes} (he : EndOfLine eol) {ls : List Bytes}
    (hl : ∀ l ∈ ls, TextLine l) {data : Bytes} {crc : Option Nat} (h : Message ls data crc) (sched : List Nat) :
    parse X ctx (some (Source.src ⟨text eol ls, rawErr .eof, sched⟩)) = parseSrc X ctx (Source.src ⟨data, Armor.ending crc data, []⟩) := by
  obtain ⟨before, start, mid, stop, after, rfl, h1, h2, h3, h4, h5⟩ := h
  have hb : ArmorBlock (before ++ start :: mid ++ stop :: after) (start :: mid ++ [stop]) := ⟨before, start, mid, stop, after, rfl, rfl, h1, h2, h3, h4⟩
  have ht := armtextGet_source ⟨text eol (before ++ start :: mid ++ stop :: after), rawErr .eof, sched⟩ (text_lines he hl)
  have hg : armtextGet (Source.src ⟨text eol (before ++ start :: mid ++ stop :: after), rawErr .eof, sched⟩) =
      (.ok (unlines (start :: mid ++ [stop])), text eol (before ++ start :: mid ++ stop :: after)) :=
    Prod.ext ((ht.2.2.2 rfl rfl).1 _ hb) ht.1
  have ha : X.armor (unlines (start :: mid ++ [stop])) = .ok ⟨data, Armor.ending crc data, [], false⟩ := by
    rw [hX]; exact armorStream_armored h5
  simp only [parse, parserNew, newReaderArmor, hg, ha]
  rfl

/-- C67: text with an intact armored block gives exactly what its data give, with every context, whatever surrounds the block, with
line feeds or carriage returns and line feeds, and however the text arrives. -/
theorem C67_parse {X : Ext} (hX : X.armor = armorStream) (ctx : Option Ctx) {eol : Bytes} (he : EndOfLine eol) {ls : List Bytes}
    (hl : ∀ l ∈ ls, TextLine l) {data : Bytes} {crc : Option Nat} (h : Message ls data crc) (hi : Intact data crc) (sched : List Nat) :
    parse X ctx (some (Source.src ⟨text eol ls, rawErr .eof, sched⟩)) = parseSrc X ctx (Src.ofBytes data) := by
  rw [message_reads hX ctx he hl h sched, (ending_iff data crc).1.mpr hi]
  rfl

/-- C67: two intact messages with the same data give the same, whatever their lines, headers, checksums and surroundings. -/
theorem C67_same {X : Ext} (hX : X.armor = armorStream) (ctx : Option Ctx) {eol eol' : Bytes} (he : EndOfLine eol) (he' : EndOfLine eol')
    {ls ls' : List Bytes} (hl : ∀ l ∈ ls, TextLine l) (hl' : ∀ l ∈ ls', TextLine l) {data : Bytes} {crc crc' : Option Nat}
    (h : Message ls data crc) (h' : Message ls' data crc') (hi : Intact data crc) (hi' : Intact data crc') (sched sched' : List Nat) :
    parse X ctx (some (Source.src ⟨text eol ls, rawErr .eof, sched⟩)) = parse X ctx (some (Source.src ⟨text eol' ls', rawErr .eof, sched'⟩)) := by
  rw [C67_parse hX ctx he hl h hi, C67_parse hX ctx he' hl' h' hi']

/-- C68: text with an armored block whose checksum is not that of its data is never dumped without an error. -/
theorem C68_reported {X : Ext} (hX : X.armor = armorStream) (ctx : Option Ctx) {eol : Bytes} (he : EndOfLine eol) {ls : List Bytes}
    (hl : ∀ l ∈ ls, TextLine l) {data : Bytes} {crc : Option Nat} (h : Message ls data crc) (hi : ¬ Intact data crc) (sched : List Nat) :
    (parse X ctx (some (Source.src ⟨text eol ls, rawErr .eof, sched⟩))).res ≠ .ok () := by
  rw [message_reads hX ctx he hl h sched, (ending_iff data crc).2.mpr hi]
  exact C08_packets_partial X ctx ⟨data, Armor.corrupt, []⟩ rfl

/-- C68: in particular when the data were changed in a burst of up to 24 bits after the checksum was made. -/
theorem C68_burst {X : Ext} (hX : X.armor = armorStream) (ctx : Option Ctx) {eol : Bytes} (he : EndOfLine eol) {ls : List Bytes}
    (hl : ∀ l ∈ ls, TextLine l) {data sent : Bytes} {c : Nat} (h : Message ls data (some c)) (hc : Crc24 sent c) (hb : Burst 24 sent data)
    (sched : List Nat) : (parse X ctx (some (Source.src ⟨text eol ls, rawErr .eof, sched⟩))).res ≠ .ok () :=
  C68_reported hX ctx he hl h (fun hi => Crc24.burst hb hc (hi c rfl) rfl) sched

/-- C68, exactly: the packets that are complete in the data are displayed as ever; and if there is nothing wrong with the packets,
and none is incomplete by its first octet, the error is that of the corrupt armor. -/
theorem C68_exact {X : Ext} (hX : X.armor = armorStream) (ctx : Option Ctx) {eol : Bytes} (he : EndOfLine eol) {ls : List Bytes}
    (hl : ∀ l ∈ ls, TextLine l) {data : Bytes} {crc : Option Nat} (h : Message ls data crc) (hi : ¬ Intact data crc) (sched : List Nat)
    {ps a b} (hc : Complete ps a b data) :
    (parse X ctx (some (Source.src ⟨text eol ls, rawErr .eof, sched⟩))).packets = (parseSrc X ctx (Src.ofBytes a)).packets ∧
    ((parseSrc X ctx (Src.ofBytes a)).res = .ok () → (∀ h r, b = h :: r → 128 ≤ h.toNat) →
      (parse X ctx (some (Source.src ⟨text eol ls, rawErr .eof, sched⟩))).res = .err Armor.corrupt.wrap) ∧
    ((parseSrc X ctx (Src.ofBytes a)).res ≠ .ok () →
      (parse X ctx (some (Source.src ⟨text eol ls, rawErr .eof, sched⟩))).res = (parseSrc X ctx (Src.ofBytes a)).res) := by
  rw [message_reads hX ctx he hl h sched, (ending_iff data crc).2.mpr hi]
  obtain ⟨h1, -, h3, h4⟩ := C64_failing X ctx ⟨data, Armor.corrupt, []⟩ rfl hc
  refine ⟨h1, fun hr hb => ?_, h3⟩
  have := (h4 hr).2 hb
  rwa [if_neg (show ¬ Armor.corrupt.cause = .eof by decide)] at this

/-! ## Every octet string has an armor -/

theorem sextet_exists {v : Nat} (h : v < 64) : ∃ c, Sextet c v := by
  refine ⟨alphabet[v]'h, ?_⟩
  exact List.getElem?_eq_getElem _

theorem base64_exists (d : Bytes) : ∃ cs, Base64 cs d := by
  match d with
  | [] => exact ⟨_, .nil⟩
  | [o1] =>
    have b1 := o1.toNat_lt
    obtain ⟨c1, h1⟩ := sextet_exists (v := o1.toNat / 4) (by omega)
    obtain ⟨c2, h2⟩ := sextet_exists (v := o1.toNat % 4 * 16) (by omega)
    refine ⟨_, .two h1 h2 ?_⟩
    simp only [beNat, List.foldl_cons, List.foldl_nil]
    omega
  | [o1, o2] =>
    have b1 := o1.toNat_lt
    have b2 := o2.toNat_lt
    obtain ⟨c1, h1⟩ := sextet_exists (v := o1.toNat / 4) (by omega)
    obtain ⟨c2, h2⟩ := sextet_exists (v := o1.toNat % 4 * 16 + o2.toNat / 16) (by omega)
    obtain ⟨c3, h3⟩ := sextet_exists (v := o2.toNat % 16 * 4) (by omega)
    refine ⟨_, .three h1 h2 h3 ?_⟩
    simp only [beNat, List.foldl_cons, List.foldl_nil]
    omega
  | o1 :: o2 :: o3 :: d =>
    have b1 := o1.toNat_lt
    have b2 := o2.toNat_lt
    have b3 := o3.toNat_lt
    obtain ⟨c1, h1⟩ := sextet_exists (v := o1.toNat / 4) (by omega)
    obtain ⟨c2, h2⟩ := sextet_exists (v := o1.toNat % 4 * 16 + o2.toNat / 16) (by omega)
    obtain ⟨c3, h3⟩ := sextet_exists (v := o2.toNat % 16 * 4 + o3.toNat / 64) (by omega)
    obtain ⟨c4, h4⟩ := sextet_exists (v := o3.toNat % 64) (by omega)
    obtain ⟨cs, hr⟩ := base64_exists d
    refine ⟨_, .four h1 h2 h3 h4 ?_ hr⟩
    simp only [beNat, List.foldl_cons, List.foldl_nil]
    omega

/-- lines of `k` characters -/
theorem chunks_exist (k : Nat) (hk : 0 < k) (cs : Bytes) : ∃ ls : List Bytes, ls.flatten = cs ∧ ∀ l ∈ ls, l.length ≤ k := by
  by_cases h0 : cs = []
  · exact ⟨[], h0.symm, fun l hl => (by cases hl)⟩
  · have h1 : 0 < cs.length := List.length_pos_iff.mpr h0
    obtain ⟨ls, h2, h3⟩ := chunks_exist k hk (cs.drop k)
    refine ⟨cs.take k :: ls, by rw [List.flatten_cons, h2, List.take_append_drop], fun l hl => ?_⟩
    rcases List.mem_cons.mp hl with rfl | hl
    · rw [List.length_take]; omega
    · exact h3 l hl
termination_by cs.length
decreasing_by simp; omega

theorem goodLine_text {l : Bytes} (h : ∀ c ∈ l, Armor.notNL c = true ∧ c ≠ 0x2d) (hl : l.length ≤ 99) : TextLine l ∧ ¬ EndLine l := by
  refine ⟨⟨by omega, fun hc => absurd (h _ hc).1 (by decide), fun hc => absurd (h _ (List.mem_of_getLast? hc)).1 (by decide)⟩, ?_⟩
  rintro ⟨t, rfl⟩
  exact absurd rfl (h 0x2d (List.mem_append_left _ (by decide))).2

/-- C67: there is a message for every octet string and every checksum below 2^24, so C67 and C68 speak of every octet string. -/
theorem C67_every (data : Bytes) (c : Nat) (hc : c < 2 ^ 24) :
    ∃ ls, (∀ l ∈ ls, TextLine l) ∧ Message ls data (some c) ∧ ls.head? = some (ascii "-----BEGIN PGP MESSAGE-----") := by
  obtain ⟨cs, hcs⟩ := base64_exists data
  obtain ⟨body, hb1, hb2⟩ := chunks_exist 64 (by decide) cs
  obtain ⟨sum, hs⟩ := base64_exists (beOctets 3 c)
  have hl3 : (beOctets 3 c).length = 3 := by simp [beOctets]
  have hbn : beNat (beOctets 3 c) = c := beNat_beOctets 3 c hc
  have hbody : ∀ l ∈ body, TextLine l ∧ ¬ EndLine l := fun l hl =>
    goodLine_text (fun x hx => Armor.base64_chars hcs x (by rw [← hb1]; exact List.mem_flatten.mpr ⟨l, hl, hx⟩)) (by have := hb2 l hl; omega)
  have hsum : TextLine (0x3d :: sum) ∧ ¬ EndLine (0x3d :: sum) := by
    refine goodLine_text (fun x hx => ?_) ?_
    · rcases List.mem_cons.mp hx with rfl | hx
      · decide
      · exact Armor.base64_chars hs x hx
    · have := Armor.base64_length hs
      simp only [List.length_cons]
      omega
  have hm : Message (ascii "-----BEGIN PGP MESSAGE-----" :: ([] :: body ++ [0x3d :: sum]) ++ [ascii "-----END PGP MESSAGE-----"]) data (some c) := by
    refine ⟨[], ascii "-----BEGIN PGP MESSAGE-----", [] :: body ++ [0x3d :: sum], ascii "-----END PGP MESSAGE-----", [], rfl, fun l hl => (by cases hl),
      (by unfold BeginLine; decide), ?_, (by unfold EndLine; decide), ?_⟩
    · intro l hl
      rcases List.mem_append.mp hl with hl | hl
      · rcases List.mem_cons.mp hl with rfl | hl
        · unfold EndLine; decide
        · exact (hbody l hl).2
      · simp only [List.mem_singleton] at hl
        subst hl
        exact hsum.2
    · refine ⟨ascii "-----BEGIN PGP MESSAGE-----", [], [], body, [0x3d :: sum], ascii "-----END PGP MESSAGE-----", by simp, ?_, fun l hl => (by cases hl),
        ⟨⟨by decide, by decide⟩, fun x hx => (by cases hx)⟩, fun l hl => (by have := hb2 l hl; omega), by rw [hb1]; exact hcs,
        .inr ⟨sum, _, rfl, hs, hl3, by rw [hbn]⟩, ⟨by decide, by decide⟩, by decide⟩
      exact ⟨⟨by decide, by decide⟩, ascii "PGP MESSAGE", [], by decide, by decide, fun x hx => (by cases hx)⟩
  refine ⟨_, ?_, hm, rfl⟩
  intro l hl
  rcases List.mem_append.mp hl with hl | hl
  · rcases List.mem_cons.mp hl with rfl | hl
    · exact ⟨by decide, by decide, by decide⟩
    · rcases List.mem_append.mp hl with hl | hl
      · rcases List.mem_cons.mp hl with rfl | hl
        · exact ⟨by decide, by decide, by decide⟩
        · exact (hbody l hl).1
      · simp only [List.mem_singleton] at hl
        subst hl
        exact hsum.1
  · simp only [List.mem_singleton] at hl
    subst hl
    exact ⟨by decide, by decide, by decide⟩

/-- C67: with this decoder, and decompressors that end, `New` and `Parse` have exactly one outcome for every context and input, armored or
not, and it is the one of C65. -/
theorem C67_outcome {X : Ext} (hX : X.armor = armorStream) (hf : ∀ d, (X.flate d).tail.real) (hb : ∀ d, (X.bzip2 d).tail.real)
    (hz : ∀ d z, X.zlib d = .ok z → z.tail.real) (hz' : ∀ d e, X.zlib d = .error e → e.real) (ho : OwnErrors X) (x : Ctx) (hx : Consistent x)
    (s : Source) (ht : s.tail.real) :
    ∃ is v, Runs X x s is v ∧ (parse X (some x) (some s.src)).packets = is ∧ ends (parse X (some x) (some s.src)).res v ∧
      ∀ is' v', Runs X x s is' v' → is' = is ∧ v' = v := by
  have hA : ∀ t b, X.armor t = .ok b → b.eager = false := fun t b h => ((armorStream_known t).1 b (hX ▸ h)).2
  have hR : RealX X := ⟨hf, hb, hz, hz', fun t z h => ((armorStream_known t).1 z (hX ▸ h)).1.real,
    fun t e h => by rw [(armorStream_known t).2 e (hX ▸ h)]; unfold GoErr.real; decide⟩
  obtain ⟨⟨is, v, h⟩, hu⟩ := C65_function X ho hR hA x hx s ht
  have := (C65_exact X ho hA x hx s is v).mpr h
  exact ⟨is, v, h, this.1, this.2, fun is' v' h' => hu is' v' is v h' h⟩

/-! A message with a header, text around it, and the packet `cd 01 41`: its checksum is `h3wc`; with `40` for the last octet the checksum
is wrong. -/

instance (c : UInt8) (v : Nat) : Decidable (Sextet c v) := inferInstanceAs (Decidable (_ = _))

def sampleLines (body : Bytes) : List Bytes :=
  [ascii "Hello,", ascii "-----BEGIN PGP MESSAGE-----", ascii "Version: 1", ascii "", body, ascii "=h3wc", ascii "-----END PGP MESSAGE-----", ascii "bye"]

theorem sampleText (body : Bytes) (h : TextLine body) : ∀ l ∈ sampleLines body, TextLine l := by
  intro l hl
  simp only [sampleLines, List.mem_cons, List.not_mem_nil, or_false] at hl
  rcases hl with rfl | rfl | rfl | rfl | rfl | rfl | rfl | rfl
  all_goals first | exact h | exact ⟨by decide, by decide, by decide⟩

theorem sampleMessage {body data : Bytes} (hb : Base64 body data) (hl : body.length ≤ 96) : Message (sampleLines body) data (some 8879132) := by
  refine ⟨[ascii "Hello,"], ascii "-----BEGIN PGP MESSAGE-----", [ascii "Version: 1", ascii "", body, ascii "=h3wc"],
    ascii "-----END PGP MESSAGE-----", [ascii "bye"], rfl, ?_, by unfold BeginLine; decide, ?_, by unfold EndLine; decide, ?_⟩
  · intro l hl
    simp only [List.mem_singleton] at hl
    subst hl
    unfold BeginLine; decide
  · intro l hm
    simp only [List.mem_cons, List.not_mem_nil, or_false] at hm
    rcases hm with rfl | rfl | rfl | rfl
    · unfold EndLine; decide
    · unfold EndLine; decide
    · exact (goodLine_text (fun c hc => Armor.base64_chars hb c hc) (by omega)).2
    · unfold EndLine; decide
  · refine ⟨_, [ascii "Version: 1"], ascii "", [body], [ascii "=h3wc"], _, rfl, ?_, ?_, ⟨⟨by decide, by decide⟩, fun x hx => (by cases hx)⟩, ?_, ?_, ?_,
      ⟨⟨by decide, by decide⟩, by decide⟩⟩
    · exact ⟨⟨by decide, by decide⟩, ascii "PGP MESSAGE", [], by decide, by decide, fun x hx => (by cases hx)⟩
    · intro l hm
      simp only [List.mem_singleton] at hm
      subst hm
      exact ⟨⟨by decide, by decide⟩, [], ascii "Version", ascii "1", [], by decide, fun x hx => (by cases hx), fun x hx => (by cases hx),
        ⟨_, rfl, by unfold Visible; decide⟩, _, rfl, by unfold Visible; decide⟩
    · intro l hm
      simp only [List.mem_singleton] at hm
      subst hm
      exact hl
    · simpa using hb
    · refine .inr ⟨ascii "h3wc", [0x87, 0x7c, 0x1c], rfl, ?_, rfl, by decide⟩
      rw [show ascii "h3wc" = [0x68, 0x33, 0x77, 0x63] by decide]
      exact .four (v1 := 33) (v2 := 55) (v3 := 48) (v4 := 28) (by decide) (by decide) (by decide) (by decide) (by decide) .nil

theorem sampleBody : Base64 (ascii "zQFB") [0xcd, 1, 0x41] := by
  rw [show ascii "zQFB" = [0x7a, 0x51, 0x46, 0x42] by decide]
  exact .four (v1 := 51) (v2 := 16) (v3 := 5) (v4 := 1) (by decide) (by decide) (by decide) (by decide) (by decide) .nil

theorem damagedBody : Base64 (ascii "zQFA") [0xcd, 1, 0x40] := by
  rw [show ascii "zQFA" = [0x7a, 0x51, 0x46, 0x41] by decide]
  exact .four (v1 := 51) (v2 := 16) (v3 := 5) (v4 := 0) (by decide) (by decide) (by decide) (by decide) (by decide) .nil

theorem sampleCrc : Crc24 [0xcd, 1, 0x41] 8879132 := (crc24_iff _ _).mpr (by decide +kernel)

example (X : Ext) (hX : X.armor = armorStream) (ctx : Option Ctx) :
    parse X ctx (some (Source.src ⟨text [0x0d, 0x0a] (sampleLines (ascii "zQFB")), rawErr .eof, [3]⟩)) = parseSrc X ctx (Src.ofBytes [0xcd, 1, 0x41]) :=
  C67_parse hX ctx (.inr rfl) (sampleText _ ⟨by decide, by decide, by decide⟩) (sampleMessage sampleBody (by decide)) (fun c h => by cases h; exact sampleCrc) [3]

example (X : Ext) (hX : X.armor = armorStream) (ctx : Option Ctx) :
    (parse X ctx (some (Source.src ⟨text [0x0a] (sampleLines (ascii "zQFA")), rawErr .eof, []⟩))).res ≠ .ok () :=
  C68_burst hX ctx (.inl rfl) (sampleText _ ⟨by decide, by decide, by decide⟩) (sampleMessage damagedBody (by decide)) sampleCrc
    ⟨rfl, 1, 0, by decide, by decide, by decide⟩ []

end Gpgpdump
