import Verif.ThmScanner
import Verif.ThmParse

/-!
# C07, C08, C33, C34, C35: `parse.New` on arbitrary sources

A `Source` is what an `io.Reader` delivers: octets, the error at the end and the sizes of the reads. The lines of the octets are
described by `Spec.Lines`, without reference to the scanner.
-/

namespace Gpgpdump

open Spec

/-- where the packets come from: what `parse.New` makes of a source with these lines -/
theorem armtextGet_source (s : Source) {ls stop taken} (h : Lines s.data ls stop taken) :
    (armtextGet s.src).2 = taken ∧
    (stop = true → (armtextGet s.src).1 = .error (rawErr .tooLong).wrap) ∧
    (stop = false → s.tail.eqEOF = false → (armtextGet s.src).1 = .error s.tail.wrap) ∧
    (stop = false → s.tail.eqEOF = true →
      (∀ block, ArmorBlock ls block → (armtextGet s.src).1 = .ok (unlines block)) ∧
      ((¬ ∃ block, ArmorBlock ls block) → (armtextGet s.src).1 = .error (wrapErr .armorText))) := by
  have hs := scanAll_spec (src := s.src) rfl rfl h
  refine ⟨?_, ?_, ?_, ?_⟩
  · unfold armtextGet
    rw [hs]
    simp only
    cases scanErr s.src.tail stop with
    | some e => rfl
    | none =>
      simp only
      generalize armLoop ls ([], false, false) = r
      obtain ⟨buf, a, b⟩ := r
      simp only
      split <;> rfl
  · rintro rfl
    unfold armtextGet
    rw [hs]
    rfl
  · rintro rfl ht
    unfold armtextGet
    rw [hs]
    simp only [scanErr, Source.src, ht, Bool.false_eq_true, if_false]
  · rintro rfl ht
    have hs' : scanAll s.src = (ls, none, taken) := by
      rw [hs]
      simp only [scanErr, Source.src, ht, Bool.false_eq_true, if_false, if_true]
    exact ⟨fun block hb => C33_found _ _ _ hs' block hb, fun hb => C33_not_found _ _ _ hs' hb⟩

/-! ## C33 -/

/-- C33: on a source that ends regularly and has no overlong line, `armtext.Get` returns the armor block of its lines if there is
one, and `ErrArmorText` otherwise. -/
theorem C33_get_partial (s : Source) (ht : s.tail.eqEOF = true) {ls} (h : Lines s.data ls false s.data) :
    (∀ block, ArmorBlock ls block → (armtextGet s.src).1 = .ok (unlines block)) ∧
    ((¬ ∃ block, ArmorBlock ls block) → (armtextGet s.src).1 = .error (wrapErr .armorText)) :=
  (armtextGet_source s h).2.2.2 rfl ht

/-- C33 fails for an overlong line: even after a complete armor block it makes `Get` fail. -/
theorem C33_long_line (s : Source) {ls taken} (h : Lines s.data ls true taken) :
    (armtextGet s.src).1 = .error (rawErr .tooLong).wrap := (armtextGet_source s h).2.1 rfl

/-! ## C07 -/

/-- C07: `New` and `Parse` give the same outcome for any two ways of delivering the same octets and final error. -/
theorem C07_new (X : Ext) (ctx : Option Ctx) (d : Bytes) (tail : GoErr) (sched sched' : List Nat) :
    parse X ctx (some (Source.src ⟨d, tail, sched⟩)) = parse X ctx (some (Source.src ⟨d, tail, sched'⟩)) := by
  obtain ⟨ls, stop, taken, h⟩ := Spec.Lines.exists d
  have key : armtextGet (Source.src ⟨d, tail, sched⟩) = armtextGet (Source.src ⟨d, tail, sched'⟩) := by
    unfold armtextGet
    rw [scanAll_spec (src := Source.src ⟨d, tail, sched⟩) rfl rfl h, scanAll_spec (src := Source.src ⟨d, tail, sched'⟩) rfl rfl h]
    rfl
  simp only [parse, parserNew, newReaderArmor, key]

/-! ## The two paths of `New` -/

/-- the fallback: without ARMOR, when `Get` fails, the octets looked at are parsed -/
theorem parse_fallback (X : Ext) (ctx : Option Ctx) (s : Source) (ha : ctxFlag Ctx.armor ctx = false) {ls stop taken}
    (h : Lines s.data ls stop taken) (he : ∃ e, (armtextGet s.src).1 = .error e) :
    parse X ctx (some s.src) = parseSrc X ctx (Src.ofBytes taken) := by
  obtain ⟨e, he⟩ := he
  have h2 := (armtextGet_source s h).1
  have : armtextGet s.src = (.error e, taken) := Prod.ext he h2
  simp only [parse, parserNew, newReaderArmor, this, ha, Bool.false_eq_true, if_false]

theorem parse_fails (X : Ext) (ctx : Option Ctx) (s : Source) (ha : ctxFlag Ctx.armor ctx = true) {e}
    (he : (armtextGet s.src).1 = .error e) :
    parse X ctx (some s.src) = ⟨[], .err e.wrap, ctx⟩ := by
  have : armtextGet s.src = (.error e, (armtextGet s.src).2) := Prod.ext he rfl
  simp only [parse, parserNew, newReaderArmor]
  rw [this]
  simp only [ha, if_true]

/-- what `New` hands to the packet parser: the body of an armor block, or the beginning of the input -/
theorem parserNew_ok {X : Ext} {ctx : Option Ctx} {s : Source} {src : Src} (h : parserNew X ctx (some s.src) = .ok src) :
    (∃ t b, X.armor t = .ok b ∧ src = Src.ofStream b) ∨ ∃ n, src = Src.ofBytes (s.data.take n) := by
  obtain ⟨ls, stop, taken, hl⟩ := Spec.Lines.exists s.data
  have h2 := (armtextGet_source s hl).1
  obtain ⟨n, rfl, -⟩ := hl.take_eq
  simp only [parserNew, newReaderArmor] at h
  generalize armtextGet s.src = r at h h2
  obtain ⟨r1, r2⟩ := r
  simp only at h2
  subst h2
  cases r1 with
  | error e =>
    simp only at h
    split at h
    · cases h
    · simp only [Except.ok.injEq] at h
      exact .inr ⟨n, h.symm⟩
  | ok t =>
    cases hb : X.armor t with
    | error e =>
      simp only [hb] at h
      split at h
      · cases h
      · simp only [Except.ok.injEq] at h
        exact .inr ⟨n, h.symm⟩
    | ok b =>
      simp only [hb, Except.ok.injEq] at h
      exact .inl ⟨t, b, hb, h.symm⟩

/-! ## C01, C02 -/

/-- C01, for `New` and `Parse`: no panic unless a secret-key packet that makes the code panic is found in the input or in the body of
an armor block. -/
theorem C01_new_partial (X : Ext) (x : Ctx) (s : Source) (h : ∀ n p, Somewhere X (s.data.take n) p → SafeSecret p)
    (h' : ∀ t b, X.armor t = .ok b → b.eager = false ∧ ∀ p, Somewhere X b.data p → SafeSecret p) :
    ∀ site, (parse X (some x) (some s.src)).res ≠ .panic site := by
  intro site
  unfold parse
  cases hp : parserNew X (some x) (some s.src) with
  | error e => simp
  | ok src =>
    simp only
    rcases parserNew_ok hp with ⟨t, b, hb, rfl⟩ | ⟨n, rfl⟩
    · exact C01_no_panic_partial X x _ (.inr (h' t b hb).1) (h' t b hb).2 site
    · exact C01_no_panic_partial X x _ (.inr rfl) (h n) site

/-- C02, for `New` and `Parse`: the model never runs out of fuel, whatever the source. -/
theorem C02_new (X : Ext) (hR : RealX X) (ctx : Option Ctx) (s : Source) (ht : s.tail.real) :
    (parse X ctx (some s.src)).res ≠ .stuck ∧ ∀ e, (parse X ctx (some s.src)).res = .err e → e.cause ≠ .fuel := by
  have hr : ∀ src, parserNew X ctx (some s.src) = .ok src → src.tail.real := by
    intro src hp
    rcases parserNew_ok hp with ⟨t, b, hb, rfl⟩ | ⟨n, rfl⟩
    · exact hR.armor t b hb
    · exact fun h => by cases h
  have he : ∀ e, parserNew X ctx (some s.src) = .error e → e.real := by
    intro e hp
    obtain ⟨ls, stop, taken, hl⟩ := Spec.Lines.exists s.data
    have hA := armtextGet_source s hl
    simp only [parserNew, newReaderArmor] at hp
    have hg : ∀ e', (armtextGet s.src).1 = .error e' → e'.real := by
      intro e' h'
      cases stop with
      | true => rw [hA.2.1 rfl] at h'; cases h'; exact fun h => by cases h
      | false =>
        cases hq : s.tail.eqEOF with
        | false => rw [hA.2.2.1 rfl hq] at h'; cases h'; exact ht
        | true =>
          by_cases hex : ∃ block, ArmorBlock ls block
          · obtain ⟨block, hb⟩ := hex
            rw [(hA.2.2.2 rfl hq).1 _ hb] at h'; cases h'
          · rw [(hA.2.2.2 rfl hq).2 hex] at h'; cases h'; exact fun h => by cases h
    generalize armtextGet s.src = r at hp hg
    obtain ⟨r1, r2⟩ := r
    cases r1 with
    | error e' =>
      simp only at hp
      split at hp
      · cases hp; exact hg e' rfl
      · cases hp
    | ok t =>
      cases hb : X.armor t with
      | error e' =>
        simp only [hb] at hp
        split at hp
        · cases hp; exact hR.armorErr t e' hb
        · cases hp
      | ok b =>
        simp only [hb] at hp
        cases hp
  unfold parse
  cases hp : parserNew X ctx (some s.src) with
  | error e =>
    refine ⟨by simp, ?_⟩
    intro e' h'
    simp only [Res.err.injEq] at h'
    subst h'
    exact he e hp
  | ok src => exact C02_packets X hR ctx src (hr src hp)

/-! ## C08 -/

/-- C08, with the ARMOR option: a read error is reported, whatever was delivered before. -/
theorem C08_armor (X : Ext) (ctx : Option Ctx) (ha : ctxFlag Ctx.armor ctx = true) (s : Source) (ht : s.tail.eqEOF = false) :
    ∃ e, parse X ctx (some s.src) = ⟨[], .err e, ctx⟩ ∧ (e.cause = s.tail.cause ∨ e.cause = .tooLong) := by
  obtain ⟨ls, stop, taken, h⟩ := Spec.Lines.exists s.data
  have := armtextGet_source s h
  cases stop with
  | true => exact ⟨_, parse_fails X ctx s ha (this.2.1 rfl), .inr rfl⟩
  | false => exact ⟨_, parse_fails X ctx s ha (this.2.2.1 rfl ht), .inl rfl⟩

/-- C08 for `tags.NewPackets` and the bodies of armor blocks and compressed packets: the packets of a source that ends with an
error other than end of file never give success. -/
theorem C08_packets_partial (X : Ext) (ctx : Option Ctx) (s : Source) (ht : s.tail.isEOF = false) :
    (parseSrc X ctx s.src).res ≠ .ok () := by
  rw [parseSrc_eq X ctx s.src s.isLazy rfl]
  have hq : s.tail.eqEOF = false := by
    cases h : s.tail.eqEOF with
    | false => rfl
    | true => rw [eqEOF_isEOF h] at ht; cases ht
  have hne : ∃ e, (loopEnd (split s.src.data) s.src.tail).2 = some e := by
    have h2 : s.src.tail = s.tail := rfl
    unfold loopEnd
    rw [h2]
    cases (split s.src.data).2 <;> simp [ht, hq, Src.trunc]
  obtain ⟨e, he⟩ := hne
  rw [he]
  generalize seqPackets (packetsParse X) _ ctx = o
  obtain ⟨a, r, c⟩ := o
  cases r <;> simp [thenErr]

/-- C08 fails without the ARMOR option: a read error is dropped, and the octets delivered before it are parsed as if they were the
whole input. -/
theorem C08_swallowed (X : Ext) (ctx : Option Ctx) (ha : ctxFlag Ctx.armor ctx = false) (d : Bytes) (tail : GoErr)
    (ht : tail.eqEOF = false) (sched : List Nat) {ls} (h : Lines d ls false d) :
    parse X ctx (some (Source.src ⟨d, tail, sched⟩)) = parseSrc X ctx (Src.ofBytes d) :=
  parse_fallback X ctx ⟨d, tail, sched⟩ ha h ⟨_, (armtextGet_source ⟨d, tail, sched⟩ h).2.2.1 rfl ht⟩

/-- a marker packet and then an input/output error: success -/
example : (parse Tests.X (some Ctx.empty) (some (Source.src ⟨[0xca, 3, 0x50, 0x47, 0x50], rawErr (.other 7), [2, 1]⟩))).res = .ok () := by
  have h : Lines [0xca, 3, 0x50, 0x47, 0x50] [chomp [0xca, 3, 0x50, 0x47, 0x50]] false [0xca, 3, 0x50, 0x47, 0x50] :=
    .last (by simp) (by decide) (by decide)
  rw [C08_swallowed Tests.X _ rfl _ _ rfl _ h]
  decide +kernel

/-! ## C34 -/

/-- C34, for input without overlong lines: without the ARMOR option, octets without an armor block are parsed as they are. -/
theorem C34_verbatim_partial (X : Ext) (ctx : Option Ctx) (ha : ctxFlag Ctx.armor ctx = false) (d : Bytes) (sched : List Nat) {ls}
    (h : Lines d ls false d) (hb : ¬ ∃ block, ArmorBlock ls block) :
    parse X ctx (some (Source.src ⟨d, rawErr .eof, sched⟩)) = parseSrc X ctx (Src.ofBytes d) :=
  parse_fallback X ctx ⟨d, rawErr .eof, sched⟩ ha h ⟨_, ((armtextGet_source ⟨d, rawErr .eof, sched⟩ h).2.2.2 rfl rfl).2 hb⟩

/-- C34: octets with an armor block that does not decode are parsed as they are, too. -/
theorem C34_undecodable (X : Ext) (ctx : Option Ctx) (ha : ctxFlag Ctx.armor ctx = false) (d : Bytes) (sched : List Nat) {ls block e}
    (h : Lines d ls false d) (hb : ArmorBlock ls block) (he : X.armor (unlines block) = .error e) :
    parse X ctx (some (Source.src ⟨d, rawErr .eof, sched⟩)) = parseSrc X ctx (Src.ofBytes d) := by
  have h1 := armtextGet_source ⟨d, rawErr .eof, sched⟩ h
  have : armtextGet (Source.src ⟨d, rawErr .eof, sched⟩) = (.ok (unlines block), d) := Prod.ext ((h1.2.2.2 rfl rfl).1 _ hb) h1.1
  simp only [parse, parserNew, newReaderArmor, this, he, ha, Bool.false_eq_true, if_false]

/-- C34 fails when a line (octets between line feeds) reaches 65536 octets: the input is cut there. -/
theorem C34_long_line (X : Ext) (ctx : Option Ctx) (ha : ctxFlag Ctx.armor ctx = false) (d : Bytes) (sched : List Nat)
    {ls taken} (h : Lines d ls true taken) :
    parse X ctx (some (Source.src ⟨d, rawErr .eof, sched⟩)) = parseSrc X ctx (Src.ofBytes taken) :=
  parse_fallback X ctx ⟨d, rawErr .eof, sched⟩ ha h ⟨_, (armtextGet_source ⟨d, rawErr .eof, sched⟩ h).2.1 rfl⟩

/-- C34 fails: a packet of more than 65536 octets whose first 65536 octets contain no line feed is never accepted. -/
theorem C34_large_packet_rejected (X : Ext) (ctx : Option Ctx) (ha : ctxFlag Ctx.armor ctx = false) {tag body enc}
    (henc : Encodes tag body enc) (hl : 65536 < enc.length) (hn : 0x0a ∉ enc.take 65536) (sched : List Nat) :
    (parse X ctx (some (Source.src ⟨enc, rawErr .eof, sched⟩))).res ≠ .ok () := by
  rw [C34_long_line X ctx ha enc sched (Lines.long (Nat.le_of_lt hl) hn)]
  have h := C04_truncated X ctx .nil (p := enc.take 65536) (s := enc.drop 65536) (by rw [List.take_append_drop]; exact henc)
    (by intro h; have := congrArg List.length h; simp at this; subst this; simp at hl)
    (by intro h; have := congrArg List.length h; simp at this; omega) (rawErr .eof) (.inl rfl) []
  exact h.1

/-- for example a literal packet with 65536 or more zeros -/
example (X : Ext) (n : Nat) (hn : 65536 ≤ n) (hm : n < 256 ^ 4) : (parse X (some Ctx.empty)
    (some (Source.src ⟨0xae :: (beOctets 4 n ++ List.replicate n 0), rawErr .eof, []⟩))).res = .ok () →
    0x0a ∈ beOctets 4 n := by
  intro hok
  refine Decidable.byContradiction fun hc => ?_
  refine C34_large_packet_rejected X _ rfl (tag := 11) (body := List.replicate n 0) (enc := 0xae :: (beOctets 4 n ++ List.replicate n 0))
    ?_ ?_ ?_ [] hok
  · have := Encodes.old (tag := 11) (body := List.replicate n 0) (lt := 2) (by omega) (by omega) (by rw [List.length_replicate]; exact hm)
    rw [List.length_replicate] at this
    exact this
  · simp only [List.length_cons, List.length_append, List.length_replicate]; omega
  · intro h
    have := List.mem_of_mem_take h
    rcases List.mem_cons.mp this with h | h
    · exact absurd h (by decide)
    · rcases List.mem_append.mp h with h | h
      · exact hc h
      · exact absurd (List.eq_of_mem_replicate h) (by decide)

/-! ## C35 -/

/-- C35: text with an armor block is parsed as the packets the armor decodes to, whatever surrounds the block, with and without the
ARMOR option. (`X.armor` is the decoder of golang.org/x/crypto/openpgp/armor.) -/
theorem C35_armored (X : Ext) (ctx : Option Ctx) (d : Bytes) (sched : List Nat) {ls block}
    (h : Lines d ls false d) (hb : ArmorBlock ls block) (b : Bytes) (sched' : List Nat)
    (he : X.armor (unlines block) = .ok ⟨b, rawErr .eof, sched', false⟩) :
    parse X ctx (some (Source.src ⟨d, rawErr .eof, sched⟩)) = parseSrc X ctx (Src.ofBytes b) := by
  have h1 := armtextGet_source ⟨d, rawErr .eof, sched⟩ h
  have : armtextGet (Source.src ⟨d, rawErr .eof, sched⟩) = (.ok (unlines block), d) := Prod.ext ((h1.2.2.2 rfl rfl).1 _ hb) h1.1
  simp only [parse, parserNew, newReaderArmor, this, he]
  exact C07_stream X ctx b (rawErr .eof) sched' []

/-- C35: and that is what `New` does with those packets as input, without ARMOR and as far as C34 holds for them. -/
theorem C35_same (X : Ext) (ctx : Option Ctx) (ha : ctxFlag Ctx.armor ctx = false) (d : Bytes) (sched : List Nat) {ls block}
    (h : Lines d ls false d) (hb : ArmorBlock ls block) (b : Bytes) (sched' sched'' : List Nat)
    (he : X.armor (unlines block) = .ok ⟨b, rawErr .eof, sched', false⟩)
    {ls'} (h' : Lines b ls' false b) (hb' : ¬ ∃ block, ArmorBlock ls' block) :
    parse X ctx (some (Source.src ⟨d, rawErr .eof, sched⟩)) = parse X ctx (some (Source.src ⟨b, rawErr .eof, sched''⟩)) := by
  rw [C35_armored X ctx d sched h hb b sched' he, C34_verbatim_partial X ctx ha b sched'' h' hb']

/-- the lines of a text around an armor block -/
example : ∃ ls block, Lines (ascii "Hi!\n-----BEGIN PGP MESSAGE-----\r\n\nyg==\n-----END PGP MESSAGE-----\nbye") ls false
      (ascii "Hi!\n-----BEGIN PGP MESSAGE-----\r\n\nyg==\n-----END PGP MESSAGE-----\nbye") ∧
    ArmorBlock ls block ∧ unlines block = ascii "-----BEGIN PGP MESSAGE-----\n\nyg==\n-----END PGP MESSAGE-----\n" := by
  refine ⟨[ascii "Hi!", ascii "-----BEGIN PGP MESSAGE-----", ascii "", ascii "yg==", ascii "-----END PGP MESSAGE-----", ascii "bye"],
    [ascii "-----BEGIN PGP MESSAGE-----", ascii "", ascii "yg==", ascii "-----END PGP MESSAGE-----"], ?_, ?_, by decide⟩
  · refine Lines.line (l := ascii "Hi!") (by decide) (by decide) ?_
    refine Lines.line (l := ascii "-----BEGIN PGP MESSAGE-----\r") (by decide) (by decide) ?_
    refine Lines.line (l := []) (by decide) (by decide) ?_
    refine Lines.line (l := ascii "yg==") (by decide) (by decide) ?_
    refine Lines.line (l := ascii "-----END PGP MESSAGE-----") (by decide) (by decide) ?_
    exact Lines.last (d := ascii "bye") (by decide) (by decide) (by decide)
  · refine ⟨[ascii "Hi!"], ascii "-----BEGIN PGP MESSAGE-----", [ascii "", ascii "yg=="], ascii "-----END PGP MESSAGE-----",
      [ascii "bye"], by decide, rfl, ?_, ?_, ?_, ?_⟩ <;> simp only [BeginLine, EndLine] <;> decide

end Gpgpdump
