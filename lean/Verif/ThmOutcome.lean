import Verif.ThmCLI
import Verif.ThmFail

/-!
# The complete outcome of a run

C56, C59, C62 and C63 speak of octets that end with `io.EOF`. Here sources that end with another error are added (C64): everything is as
if the octets ended behind the last complete packet, except for the error. Then all of it is put together at `New` and `Parse` (C65).
-/

namespace Gpgpdump

open P Spec Src Spec.CLI

variable {X : Ext}

namespace Spec

/-- the octets `d` are the complete packets `ps` with the encoding `a`, and `b`, which does not start with a complete packet -/
structure Complete (ps : List (Nat × Bytes)) (a b d : Bytes) : Prop where
  join : d = a ++ b
  packets : ClosedSeq ps a
  stop : NoPacket b

/-- how a run ends -/
inductive End
  | success
  | error (c : Cause)
  | crash (s : Site)

/-- How parsing the octets `d` ends, if they end with `io.EOF`. -/
inductive Judged (X : Ext) (d : Bytes) : End → Prop
  | accepted {ps} (h : PacketSeq ps d) (ha : ∀ p ∈ ps, AccTop X p.1 p.2) : Judged X d .success
  | rejected {c} (h : StreamFails (AccTop X) (FailTop X) c d) : Judged X d (.error c)
  | crashed {ps p s} (h : Starts (ps ++ [p]) d) (ha : ∀ q ∈ ps, AccTop X q.1 q.2) (hp : PanTop X s p.1 p.2) : Judged X d (.crash s)

/-- How parsing the octets `d` ends, if they end with another error: it is told from the complete packets `a` and the octets `b` behind
them. If `b` starts with an octet without the first bit that is the error; otherwise the error of the source is, but one that wraps
`io.EOF` is taken for the end of the input. -/
inductive JudgedCut (X : Ext) (e : GoErr) (a b : Bytes) : End → Prop
  | early {v} (h : Judged X a v) (hv : v ≠ .success) : JudgedCut X e a b v
  | tag {h r} (hs : Judged X a .success) (hb : b = h :: r) (hh : h.toNat < 128) : JudgedCut X e a b (.error .noMSB)
  | source (hs : Judged X a .success) (hb : ∀ h r, b = h :: r → 128 ≤ h.toNat) (he : e.cause ≠ .eof) : JudgedCut X e a b (.error e.cause)
  | ended (hs : Judged X a .success) (hb : ∀ h r, b = h :: r → 128 ≤ h.toNat) (he : e.cause = .eof) : JudgedCut X e a b .success

/-- How parsing the packets of this source ends. -/
inductive Verdict (X : Ext) (s : Source) (v : End) : Prop
  | whole (ht : s.tail = rawErr .eof) (h : Judged X s.data v)
  | cut {ps a b} (ht : s.tail.eqEOF = false) (hc : Complete ps a b s.data) (h : JudgedCut X s.tail a b v)

/-- What is displayed of the packets of this source. -/
inductive Displayed (X : Ext) (x : Ctx) (s : Source) (is : List Item) : Prop
  | whole {ps h'} (ht : s.tail = rawErr .eof) (h : Front X ps s.data) (hd : FullTops x.opts X (hist (some x)) ps is h')
  | cut {ps a b qs h'} (ht : s.tail.eqEOF = false) (hc : Complete ps a b s.data) (h : Front X qs a)
      (hd : FullTops x.opts X (hist (some x)) qs is h')

/-- Why an input that has to be armored is refused: a line that is too long, the error of the source, no armor block, or the error of the
armor decoder. -/
inductive Refusal (X : Ext) (s : Source) : Cause → Prop
  | long {ls taken} (hl : Lines s.data ls true taken) : Refusal X s .tooLong
  | failed {ls} (hl : Lines s.data ls false s.data) (ht : s.tail.eqEOF = false) : Refusal X s s.tail.cause
  | none {ls} (hl : Lines s.data ls false s.data) (ht : s.tail.eqEOF = true) (h : ¬ ∃ block, ArmorBlock ls block) : Refusal X s .armorText
  | undecodable {ls block e} (hl : Lines s.data ls false s.data) (ht : s.tail.eqEOF = true) (h : ArmorBlock ls block)
      (he : X.armor (unlines block) = .error e) : Refusal X s e.cause

/-- What `New` and `Parse` do with this context and this input: what is displayed, and how it ends. -/
inductive Runs (X : Ext) (x : Ctx) (s : Source) : List Item → End → Prop
  | refused {c} (hx : x.opts ARMOR = true) (h : Refusal X s c) : Runs X x s [] (.error c)
  | read {s' is v} (h : Reads X (x.opts ARMOR) s s') (hs : Displayed X x s' is) (hv : Verdict X s' v) : Runs X x s is v

end Spec

/-- the result of a run, as the specification names it -/
def ends : Res Unit → End → Prop
  | .ok (), .success => True
  | .err e, .error c => e.cause = c
  | .panic s, .crash s' => s = s'
  | _, _ => False

theorem complete_exists (d : Bytes) : ∃ ps a b, Complete ps a b d := by
  obtain ⟨a, b, h1, h2, -, -, h5⟩ := split_spec d
  exact ⟨_, a, b, h2, h1, noPacket_iff.mpr h5⟩

theorem Spec.Complete.uniq {ps ps' a a' b b' d} (h : Complete ps a b d) (h' : Complete ps' a' b' d) : ps = ps' ∧ a = a' ∧ b = b' := by
  have hp : (split b).1 = [] := split_stop (noPacket_iff.mp h.stop)
  have hp' : (split b').1 = [] := split_stop (noPacket_iff.mp h'.stop)
  have e := split_closed h.packets b
  have e' := split_closed h'.packets b'
  rw [← h.join] at e
  rw [← h'.join, e, hp, hp'] at e'
  have hps : ps = ps' := by simpa using congrArg Prod.fst e'
  subst hps
  have : ∀ {qs a a' b b'}, ClosedSeq qs a → ClosedSeq qs a' → a ++ b = a' ++ b' → a = a' := by
    intro qs
    induction qs with
    | nil => intro a a' b b' h h' _; cases h; cases h'; rfl
    | cons q qs ih =>
      intro a a' b b' h h' he
      cases h with
      | cons =>
        cases h' with
        | cons =>
          rename_i enc1 inp1 h1 h2 enc2 inp2 h1' h2'
          rw [List.append_assoc, List.append_assoc] at he
          have d1 := decNext_complete h1 (inp1 ++ b)
          rw [he, decNext_complete h1' (inp2 ++ b')] at d1
          have hr : inp2 ++ b' = inp1 ++ b := by injection d1
          have := ih h2 h2' hr.symm
          subst this
          rw [hr] at he
          rw [List.append_cancel_right he]
  have ha := this h.packets h'.packets (h.join ▸ h'.join)
  subst ha
  exact ⟨rfl, rfl, List.append_cancel_left (h.join.symm.trans h'.join)⟩

/-! ## C64: sources that end with an error -/

/-- C64 (exactness): the octets `a` of the complete packets decide what is displayed and remembered, and if they are not accepted also how
the run ends. -/
theorem C64_failing (X : Ext) (c : Option Ctx) (s : Source) (ht : s.tail.eqEOF = false) {ps a b} (h : Complete ps a b s.data) :
    (parseSrc X c s.src).packets = (parseSrc X c (Source.src ⟨a, rawErr .eof, []⟩)).packets ∧
    (parseSrc X c s.src).ctx = (parseSrc X c (Source.src ⟨a, rawErr .eof, []⟩)).ctx ∧
    ((parseSrc X c (Source.src ⟨a, rawErr .eof, []⟩)).res ≠ .ok () → (parseSrc X c s.src).res = (parseSrc X c (Source.src ⟨a, rawErr .eof, []⟩)).res) ∧
    ((parseSrc X c (Source.src ⟨a, rawErr .eof, []⟩)).res = .ok () →
      ((∃ h r, b = h :: r ∧ h.toNat < 128) → (parseSrc X c s.src).res = .err (wrapErr .noMSB)) ∧
      ((∀ h r, b = h :: r → 128 ≤ h.toNat) → (parseSrc X c s.src).res = if s.tail.cause = .eof then .ok () else .err s.tail.wrap)) := by
  rw [parseSrc_closed X c h.packets, parseSrc_eq X c s.src s.isLazy rfl]
  have hd : split s.src.data = (ps, (split b).2) := by
    have := split_closed h.packets b
    rw [← h.join, split_stop (noPacket_iff.mp h.stop), List.append_nil] at this
    exact this
  have hst := decNext_of_stop (noPacket_iff.mp h.stop)
  have h1 : (loopEnd (split s.src.data) s.src.tail).1 = ps := by
    rw [hd]
    unfold loopEnd
    cases (split b).2 <;> simp [Source.src, ht]
  have h2 : (loopEnd (split s.src.data) s.src.tail).2 = if (split b).2 = .noMSB then some (wrapErr .noMSB) else if s.tail.isEOF then none else some s.tail.wrap := by
    rw [hd]
    unfold loopEnd
    by_cases hE : s.tail.isEOF = true <;> cases (split b).2 <;> simp [Source.src, ht, trunc, hE]
  rw [h1, h2]
  rcases seqPackets (packetsParse X) ps c with ⟨is, r, c'⟩
  have hn : (∃ h r, b = h :: r ∧ h.toNat < 128) ↔ (split b).2 = .noMSB := by
    rw [hst.2.2.1]
    constructor
    · rintro ⟨h, r, rfl, hh⟩; exact decNext_noMSB.mpr hh
    · intro hb
      cases b with
      | nil => cases hb
      | cons x r => exact ⟨x, r, rfl, decNext_noMSB.mp hb⟩
  have hn' : (∀ h r, b = h :: r → 128 ≤ h.toNat) ↔ (split b).2 ≠ .noMSB := by
    rw [Ne, ← hn]
    constructor
    · rintro h ⟨x, r, hb, hx⟩; have := h x r hb; omega
    · intro h x r hb
      by_cases hx : x.toNat < 128
      · exact absurd ⟨x, r, hb, hx⟩ h
      · omega
  rw [hn, hn']
  cases r with
  | ok u =>
    cases u
    refine ⟨?_, ?_, ?_, ?_⟩
    · simp only [thenErr]; split <;> rfl
    · simp only [thenErr]; split <;> rfl
    · intro h; exact absurd rfl h
    · intro _
      refine ⟨fun h => by rw [if_pos h]; rfl, fun h => ?_⟩
      rw [if_neg h]
      by_cases he : s.tail.cause = .eof
      · simp [he, thenErr, GoErr.isEOF]
      · simp [he, thenErr, GoErr.isEOF]
  | err e => exact ⟨rfl, rfl, fun _ => rfl, fun h => by cases h⟩
  | panic e => exact ⟨rfl, rfl, fun _ => rfl, fun h => by cases h⟩
  | stuck => exact ⟨rfl, rfl, fun _ => rfl, fun h => by cases h⟩

/-- the three exact theorems in one -/
theorem judged_exact (X : Ext) (hX : OwnErrors X) (x : Ctx) (s : Source) (ht : s.tail = rawErr .eof) (v : End) :
    ends (parseSrc X (some x) s.src).res v ↔ Judged X s.data v := by
  have h1 := C56_exact X hX x s ht
  have h2 := C59_exact X hX x s ht
  have h3 := C63_exact X hX x s ht
  cases v with
  | success =>
    have : ends (parseSrc X (some x) s.src).res .success ↔ (parseSrc X (some x) s.src).res = .ok () := by
      cases (parseSrc X (some x) s.src).res <;> simp [ends]
    rw [this, h1]
    exact ⟨fun ⟨ps, h, ha⟩ => .accepted h ha, fun h => by cases h with | accepted h ha => exact ⟨_, h, ha⟩⟩
  | error c =>
    have : ends (parseSrc X (some x) s.src).res (.error c) ↔ ∃ e, (parseSrc X (some x) s.src).res = .err e ∧ e.cause = c := by
      cases (parseSrc X (some x) s.src).res <;> simp [ends]
    rw [this, h3]
    exact ⟨.rejected, fun h => by cases h with | rejected h => exact h⟩
  | crash c =>
    have : ends (parseSrc X (some x) s.src).res (.crash c) ↔ (parseSrc X (some x) s.src).res = .panic c := by
      cases (parseSrc X (some x) s.src).res <;> simp [ends]
    rw [this, h2]
    exact ⟨fun ⟨ps, p, h, ha, hp⟩ => .crashed h ha hp, fun h => by cases h with | crashed h ha hp => exact ⟨_, _, h, ha, hp⟩⟩

/-- C64 (how the run ends): exact for every error of the source. -/
theorem C64_exact (X : Ext) (hX : OwnErrors X) (x : Ctx) (s : Source) (ht : s.tail.eqEOF = false) {ps a b}
    (h : Complete ps a b s.data) (v : End) : ends (parseSrc X (some x) s.src).res v ↔ JudgedCut X s.tail a b v := by
  obtain ⟨-, -, h1, h2⟩ := C64_failing X (some x) s ht h
  have hj := judged_exact X hX x ⟨a, rawErr .eof, []⟩ rfl
  simp only at hj
  generalize (parseSrc X (some x) s.src).res = r at *
  generalize (parseSrc X (some x) (Source.src ⟨a, rawErr .eof, []⟩)).res = r0 at *
  have hb : (∃ h r, b = h :: r ∧ h.toNat < 128) ∨ ∀ h r, b = h :: r → 128 ≤ h.toNat := by
    cases b with
    | nil => right; intro h r hb; cases hb
    | cons y r =>
      by_cases hy : y.toNat < 128
      · exact .inl ⟨y, r, rfl, hy⟩
      · right; intro h r hb; cases hb; omega
  by_cases h0 : r0 = .ok ()
  · obtain ⟨h3, h4⟩ := h2 h0
    subst h0
    have hs : Judged X a .success := (hj .success).mp trivial
    have hno : ∀ {v}, Judged X a v → v = .success := by
      intro v h
      have := (hj v).mpr h
      cases v with
      | success => rfl
      | error => exact this.elim
      | crash => exact this.elim
    constructor
    · intro hv
      rcases hb with hb | hb
      · rw [h3 hb] at hv
        obtain ⟨y, t, hb, hy⟩ := hb
        cases v with
        | error c => cases hv; exact .tag hs hb hy
        | success => exact hv.elim
        | crash => exact hv.elim
      · rw [h4 hb] at hv
        by_cases he : s.tail.cause = .eof
        · rw [if_pos he] at hv
          cases v with
          | success => exact .ended hs hb he
          | error => exact hv.elim
          | crash => exact hv.elim
        · rw [if_neg he] at hv
          cases v with
          | error c => cases hv; exact .source hs hb he
          | success => exact hv.elim
          | crash => exact hv.elim
    · intro hv
      cases hv with
      | early h hv => exact absurd (hno h) hv
      | tag _ hb hh => rw [h3 ⟨_, _, hb, hh⟩]; rfl
      | source _ hb he => rw [h4 hb, if_neg he]; rfl
      | ended _ hb he => rw [h4 hb, if_pos he]; trivial
  · rw [h1 h0, hj]
    have hns : ¬ Judged X a .success := by
      intro h
      have := (hj _).mpr h
      cases r0 with
      | ok u => cases u; exact h0 rfl
      | err e => exact this.elim
      | panic e => exact this.elim
      | stuck => exact this.elim
    constructor
    · intro h
      refine .early h ?_
      rintro rfl
      exact hns h
    · intro h
      cases h with
      | early h => exact h
      | tag h => exact absurd h hns
      | source h => exact absurd h hns
      | ended h => exact absurd h hns

/-- C64 (what is displayed): that of the complete packets up to the first that is not accepted. -/
theorem C64_displayed (X : Ext) (hX : OwnErrors X) (x : Ctx) (hc : Consistent x) (s : Source) (ht : s.tail.eqEOF = false) {ps a b}
    (h : Complete ps a b s.data) (is : List Item) :
    (parseSrc X (some x) s.src).packets = is ↔ ∃ qs h', Front X qs a ∧ FullTops x.opts X (hist (some x)) qs is h' := by
  rw [(C64_failing X (some x) s ht h).1]
  exact C62_front X hX x hc ⟨a, rawErr .eof, []⟩ rfl is

/-! An error of the source behind a complete packet and inside the next: what was complete is displayed and the error of the source is
reported; one that wraps `io.EOF` is taken for the end of the input. -/

theorem cutExample : Complete [(13, [65])] [0xcd, 1, 65] [0xcd, 5, 66] [0xcd, 1, 65, 0xcd, 5, 66] := by
  refine ⟨rfl, ?_, noPacket_iff.mpr ?_⟩
  · have hc : split [0xcd, 1, 65] = ([(13, [65])], .clean) := by decide +kernel
    have h := split_clean.mp (congrArg Prod.snd hc)
    rwa [hc] at h
  · intro t b r h
    have hc : decNext [0xcd, 5, 66] = .truncated := by decide +kernel
    rw [hc] at h
    cases h

theorem cutAccepted (X : Ext) : Judged X [0xcd, 1, 65] .success := by
  refine .accepted cutExample.packets.packetSeq fun p hp => ?_
  simp only [List.mem_singleton] at hp
  subst hp
  exact .plain (by decide) (.other (by decide))

example (X : Ext) (hX : OwnErrors X) (x : Ctx) : ends (parseSrc X (some x) (Source.src ⟨[0xcd, 1, 65, 0xcd, 5, 66], rawErr (.other 7), [1]⟩)).res (.error (.other 7)) :=
  (C64_exact X hX x _ rfl cutExample _).mpr (.source (cutAccepted X) (by intro h r e; cases e; decide) (by simp [rawErr]))

example (X : Ext) (hX : OwnErrors X) (x : Ctx) : ends (parseSrc X (some x) (Source.src ⟨[0xcd, 1, 65, 0xcd, 5, 66], wrapErr .eof, [1]⟩)).res .success :=
  (C64_exact X hX x _ rfl cutExample _).mpr (.ended (cutAccepted X) (by intro h r e; cases e; decide) rfl)

/-! ## C65: `New` and `Parse` -/

theorem eof_or (e : GoErr) : e = rawErr .eof ∨ e.eqEOF = false := by
  rcases e with ⟨c, w⟩
  by_cases hc : c = .eof
  · cases w with
    | false => exact .inl (by rw [hc]; rfl)
    | true => exact .inr (by simp [GoErr.eqEOF])
  · exact .inr (by simp [GoErr.eqEOF, hc])

theorem verdict_exact (X : Ext) (hX : OwnErrors X) (x : Ctx) (s : Source) (v : End) : ends (parseSrc X (some x) s.src).res v ↔ Verdict X s v := by
  rcases eof_or s.tail with ht | ht
  · rw [judged_exact X hX x s ht]
    constructor
    · exact .whole ht
    · intro h
      cases h with
      | whole _ h => exact h
      | cut h' => rw [ht] at h'; cases h'
  · obtain ⟨ps, a, b, hc⟩ := complete_exists s.data
    rw [C64_exact X hX x s ht hc]
    constructor
    · exact .cut ht hc
    · intro h
      cases h with
      | whole h' => rw [h'] at ht; cases ht
      | cut _ hc' h =>
        obtain ⟨-, rfl, rfl⟩ := hc.uniq hc'
        exact h

theorem shown_exact (X : Ext) (hX : OwnErrors X) (x : Ctx) (hx : Consistent x) (s : Source) (is : List Item) :
    (parseSrc X (some x) s.src).packets = is ↔ Displayed X x s is := by
  rcases eof_or s.tail with ht | ht
  · rw [C62_front X hX x hx s ht]
    constructor
    · rintro ⟨ps, h', h1, h2⟩; exact .whole ht h1 h2
    · intro h
      cases h with
      | whole _ h1 h2 => exact ⟨_, _, h1, h2⟩
      | cut h' => rw [ht] at h'; cases h'
  · obtain ⟨ps, a, b, hc⟩ := complete_exists s.data
    rw [C64_displayed X hX x hx s ht hc]
    constructor
    · rintro ⟨qs, h', h1, h2⟩; exact .cut ht hc h1 h2
    · intro h
      cases h with
      | whole h' => rw [h'] at ht; cases ht
      | cut _ hc' h1 h2 =>
        obtain ⟨-, rfl, rfl⟩ := hc.uniq hc'
        exact ⟨_, _, h1, h2⟩

theorem refusal_of (X : Ext) (hA : ∀ t b, X.armor t = .ok b → b.eager = false) (forced : Bool) (s : Source) :
    (∃ s', Reads X forced s s') ∨ (forced = true ∧ ∃ c, Refusal X s c) := by
  rcases C60_every X hA forced s with h | ⟨hf, ls, cut, taken, hl, h⟩
  · exact .inl h
  · refine .inr ⟨hf, ?_⟩
    cases cut with
    | true => exact ⟨_, .long hl⟩
    | false =>
      have := lines_all hl rfl
      subst this
      cases ht : s.tail.eqEOF with
      | false => exact ⟨_, .failed hl ht⟩
      | true =>
        cases h with
        | long h => cases h
        | failed h => rw [ht] at h; cases h
        | none h => exact ⟨_, .none hl ht h⟩
        | undecodable h he => exact ⟨_, .undecodable hl ht h he⟩

theorem parse_refused {X : Ext} {x : Ctx} (hx : x.armor = true) {s : Source} {c : Cause} (h : Refusal X s c) :
    ∃ e, parse X (some x) (some s.src) = ⟨[], .err e, some x⟩ ∧ e.cause = c := by
  cases h with
  | long hl => exact ⟨_, parse_fails X (some x) s hx ((armtextGet_source s hl).2.1 rfl), rfl⟩
  | failed hl ht => exact ⟨_, parse_fails X (some x) s hx ((armtextGet_source s hl).2.2.1 rfl ht), rfl⟩
  | none hl ht h => exact ⟨_, parse_fails X (some x) s hx (((armtextGet_source s hl).2.2.2 rfl ht).2 h), rfl⟩
  | undecodable hl ht h he =>
    have h1 := armtextGet_source s hl
    have : armtextGet s.src = (.ok (unlines _), s.data) := Prod.ext ((h1.2.2.2 rfl ht).1 _ h) h1.1
    refine ⟨GoErr.wrap _, ?_, rfl⟩
    simp only [parse, parserNew, newReaderArmor, this, he, ctxFlag, hx, if_true]

/-- C65 (exactness): `New` and `Parse` give the packets `is` and end with `v` exactly if `Runs` says so. The hypotheses are about the
libraries: the decompressors do not use the error of the size limit, and the reader of the armor package does not return octets together
with an error. -/
theorem C65_exact (X : Ext) (hX : OwnErrors X) (hA : ∀ t b, X.armor t = .ok b → b.eager = false) (x : Ctx) (hx : Consistent x) (s : Source)
    (is : List Item) (v : End) :
    ((parse X (some x) (some s.src)).packets = is ∧ ends (parse X (some x) (some s.src)).res v) ↔ Runs X x s is v := by
  constructor
  · rintro ⟨h1, h2⟩
    rcases refusal_of X hA (x.opts ARMOR) s with ⟨s', hr⟩ | ⟨hf, c, hr⟩
    · rw [parse_reads (x := x) rfl hr] at h1 h2
      exact .read hr ((shown_exact X hX x hx s' is).mp h1) ((verdict_exact X hX x s' v).mp h2)
    · obtain ⟨e, he, rfl⟩ := parse_refused (x := x) hf hr
      rw [he] at h1 h2
      cases h1
      cases v with
      | error c => cases h2; exact .refused hf hr
      | success => exact h2.elim
      | crash => exact h2.elim
  · intro h
    cases h with
    | refused hf hr =>
      obtain ⟨e, he, rfl⟩ := parse_refused (x := x) hf hr
      rw [he]
      exact ⟨rfl, rfl⟩
    | read hr hs hv =>
      rw [parse_reads (x := x) rfl hr]
      exact ⟨(shown_exact X hX x hx _ is).mpr hs, (verdict_exact X hX x _ v).mpr hv⟩

theorem ends_uniq {r : Res Unit} {v w : End} (h : ends r v) (h' : ends r w) : v = w := by
  cases r <;> cases v <;> cases w <;> simp_all [ends]

/-- C65: `Runs` gives one result for every context and input. -/
theorem C65_function (X : Ext) (hX : OwnErrors X) (hR : RealX X) (hA : ∀ t b, X.armor t = .ok b → b.eager = false) (x : Ctx) (hx : Consistent x)
    (s : Source) (ht : s.tail.real) :
    (∃ is v, Runs X x s is v) ∧ ∀ is v is' v', Runs X x s is v → Runs X x s is' v' → is = is' ∧ v = v' := by
  constructor
  · have hn := (C02_new X hR (some x) s ht).1
    have : ∃ v, ends (parse X (some x) (some s.src)).res v := by
      cases h : (parse X (some x) (some s.src)).res with
      | ok u => exact ⟨.success, trivial⟩
      | err e => exact ⟨.error e.cause, rfl⟩
      | panic c => exact ⟨.crash c, rfl⟩
      | stuck => exact absurd h hn
    obtain ⟨v, hv⟩ := this
    exact ⟨_, v, (C65_exact X hX hA x hx s _ v).mp ⟨rfl, hv⟩⟩
  · intro is v is' v' h h'
    obtain ⟨h1, h2⟩ := (C65_exact X hX hA x hx s is v).mpr h
    obtain ⟨h1', h2'⟩ := (C65_exact X hX hA x hx s is' v').mpr h'
    exact ⟨h1.symm.trans h1', ends_uniq h2 h2'⟩

/-! A user ID packet: it is displayed, unless the input has to be armored. -/

theorem userIdLines : Lines [0xcd, 1, 65] [chomp [0xcd, 1, 65]] false [0xcd, 1, 65] := .last (by simp) (by decide) (by decide)

theorem userIdNoBlock : ¬ ∃ block, ArmorBlock [chomp [0xcd, 1, 65]] block := by
  rintro ⟨block, before, b, mid, e, after, h1, -⟩
  have := congrArg List.length h1
  simp at this
  omega

example (X : Ext) (x : Ctx) (hx : x.opts ARMOR = true) : Runs X x ⟨[0xcd, 1, 65], rawErr .eof, [2]⟩ [] (.error .armorText) :=
  .refused hx (.none userIdLines rfl userIdNoBlock)

example (X : Ext) (hX : OwnErrors X) (x : Ctx) (hx : Consistent x) (ha : x.opts ARMOR = false) :
    ∃ i, Runs X x ⟨[0xcd, 1, 65], rawErr .eof, [2]⟩ [i] .success := by
  have hr : Reads X (x.opts ARMOR) ⟨[0xcd, 1, 65], rawErr .eof, [2]⟩ ⟨[0xcd, 1, 65], rawErr .eof, []⟩ := .binary ha userIdLines (.none userIdNoBlock)
  have hv : Verdict X ⟨[0xcd, 1, 65], rawErr .eof, []⟩ .success := .whole rfl (cutAccepted X)
  have hs := (shown_exact X hX x hx ⟨[0xcd, 1, 65], rawErr .eof, []⟩ _).mp rfl
  obtain ⟨ps, hp, hd⟩ := C57_displayed X hX x ⟨[0xcd, 1, 65], rawErr .eof, []⟩ rfl ((C56_exact X hX x _ rfl).mpr (by
    cases cutAccepted X with | accepted h ha => exact ⟨_, h, ha⟩))
  have : ps = [(13, [65])] := by
    have h1 := loopEnd_packetSeq hp
    have h2 := loopEnd_packetSeq cutExample.packets.packetSeq
    rw [h1] at h2
    exact congrArg Prod.fst h2
  subst this
  generalize (parseSrc X (some x) (Source.src ⟨[0xcd, 1, 65], rawErr .eof, []⟩)).packets = is at hs hd
  match is, hd with
  | [i], _ => exact ⟨i, .read hr hs hv⟩

end Gpgpdump
