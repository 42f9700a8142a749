import Verif.FailTags
import Verif.ThmPanic

/-!
# C63: the error that is reported
-/

namespace Gpgpdump
open P Spec Src

variable {X : Ext}

/-! ## Sequences of packets -/

theorem noPacket_iff {d : Bytes} : NoPacket d ↔ ∀ t b r, decNext d ≠ .packet t b r := by
  constructor
  · intro h t b r hd
    obtain ⟨enc, he, rfl⟩ := decNext_sound hd
    exact h ⟨t, b, enc, r, rfl, he⟩
  · rintro h ⟨t, b, enc, r, rfl, he⟩
    exact h _ _ _ (decNext_complete he r)

/-- a packet of a key block is rejected, or what follows the last complete one -/
def BlockFails (X : Ext) (A : Nat → Bytes → Prop) (F : Cause → Nat → Bytes → Prop) (c : Cause) (d : Bytes) : Prop :=
  (∃ ps p a b, d = a ++ b ∧ ClosedSeq (ps ++ [p]) a ∧ (∀ q ∈ ps, A q.1 q.2) ∧ F c p.1 p.2) ∨
  ∃ ps a b, d = a ++ b ∧ ClosedSeq ps a ∧ (∀ q ∈ ps, A q.1 q.2) ∧ BlockEnd X c b

theorem blockEnd_noPacket {c : Cause} {d : Bytes} (h : BlockEnd X c d) : NoPacket d := by
  cases h with
  | tag hh => rw [noPacket_iff]; intro t b r hd; rw [decNext_noMSB.mpr hh] at hd; cases hd
  | cut _ hn => exact hn

theorem closed_first {ps : List (Nat × Bytes)} {a b : Bytes} (h : ClosedSeq ps a) (hne : ps ≠ []) :
    ∃ t c qs a', ps = (t, c) :: qs ∧ ClosedSeq qs a' ∧ decNext (a ++ b) = .packet t c (a' ++ b) := by
  cases h with
  | nil => exact absurd rfl hne
  | @cons tag body qs enc a' he hps => exact ⟨tag, body, qs, a', rfl, hps, by rw [List.append_assoc]; exact decNext_complete he _⟩

theorem blockFails_packet {A : Nat → Bytes → Prop} {F : Cause → Nat → Bytes → Prop} {c : Cause} {d t b r} (h : decNext d = .packet t b r) :
    BlockFails X A F c d ↔ F c t b ∨ (A t b ∧ BlockFails X A F c r) := by
  constructor
  · rintro (⟨ps, p, a, e, rfl, hc, ha, hf⟩ | ⟨ps, a, e, rfl, hc, ha, hb⟩)
    · obtain ⟨t', c', qs, a', h1, h2, h3⟩ := closed_first (b := e) hc (by simp)
      rw [h3] at h
      cases h
      cases ps with
      | nil => cases h1; exact .inl hf
      | cons q ps => cases h1; exact .inr ⟨ha (t, b) (by simp), .inl ⟨ps, p, a', e, rfl, h2, fun q hq => ha q (by simp [hq]), hf⟩⟩
    · by_cases hps : ps = []
      · subst hps
        cases hc
        exact absurd h (noPacket_iff.mp (blockEnd_noPacket hb) _ _ _)
      · obtain ⟨t', c', qs, a', rfl, h2, h3⟩ := closed_first (b := e) hc hps
        rw [h3] at h
        cases h
        exact .inr ⟨ha (t, b) (by simp), .inr ⟨qs, a', e, rfl, h2, fun q hq => ha q (by simp [hq]), hb⟩⟩
  · obtain ⟨enc, he, rfl⟩ := decNext_sound h
    rintro (hf | ⟨h1, ⟨ps, p, a, e, rfl, hc, ha, hf⟩ | ⟨ps, a, e, rfl, hc, ha, hb⟩⟩)
    · exact .inl ⟨[], (t, b), enc, r, rfl, by simpa using ClosedSeq.cons he .nil, by simp, hf⟩
    · exact .inl ⟨(t, b) :: ps, p, enc ++ a, e, by simp, .cons he hc, by simpa using ⟨h1, fun a b h => ha (a, b) h⟩, hf⟩
    · exact .inr ⟨(t, b) :: ps, enc ++ a, e, by simp, .cons he hc, by simpa using ⟨h1, fun a b h => ha (a, b) h⟩, hb⟩

theorem blockFails_stop {A : Nat → Bytes → Prop} {F : Cause → Nat → Bytes → Prop} {c : Cause} {d : Bytes} (h : NoPacket d) :
    BlockFails X A F c d ↔ BlockEnd X c d := by
  have h' := noPacket_iff.mp h
  constructor
  · rintro (⟨ps, p, a, e, rfl, hc, -⟩ | ⟨ps, a, e, rfl, hc, -, hb⟩)
    · obtain ⟨t', c', qs, a', h1, h2, h3⟩ := closed_first (b := e) hc (by simp)
      exact absurd h3 (h' _ _ _)
    · by_cases hps : ps = []
      · subst hps; cases hc; exact hb
      · obtain ⟨t', c', qs, a', h1, h2, h3⟩ := closed_first (b := e) hc hps
        exact absurd h3 (h' _ _ _)
  · intro hb; exact .inr ⟨[], [], d, rfl, .nil, by simp, hb⟩

theorem errLoop_block {R : Nat → Bytes → Prop} {B : Cause → Nat → Bytes → Prop} {c : Cause} {f : Nat} {src : Src} (hs : src.strict = true)
    (hf : src.data.length < f) : ErrLoop X R B c f src ↔ BlockFails X R B c src.data := by
  induction f generalizing src with
  | zero => omega
  | succ f ih =>
    obtain ⟨hk, hm⟩ := nextPacket_spec (X := X) (s := src) (.inl hs)
    have hq := nextPacket_quiet (X := X) hs
    unfold ErrLoop
    rcases hn : nextPacket X src with ⟨r, src'⟩
    rw [hn] at hk hm hq
    have hstop : ∀ e, r = .error e → (∀ t b r, decNext src.data ≠ .packet t b r) → decNext src.data ≠ .noMSB →
        (e = wrapErr .eof ∨ e = wrapErr .unexpectedEOF) → ((e.isEOF = false ∧ c = e.cause) ↔ BlockFails X R B c src.data) := by
      rintro e rfl hp hno he
      have hq' : e.isEOF = true ↔ KeyEnd X src.data := by rw [← hq]; simp
      rw [blockFails_stop (noPacket_iff.mpr hp)]
      cases hd : src.data with
      | nil =>
        have : e.isEOF = true := hq'.mpr (by rw [hd]; exact .nil)
        rw [this]
        simp only [Bool.true_eq_false, false_and, false_iff]
        intro h; cases h
      | cons h d =>
        rw [hd] at hq' hp hno
        have hh : 128 ≤ h.toNat := by
          by_cases hh : h.toNat < 128
          · exact absurd (decNext_noMSB.mpr hh) hno
          · omega
        constructor
        · rintro ⟨h1, rfl⟩
          rcases he with rfl | rfl
          · cases h1
          · exact .cut hh (noPacket_iff.mpr hp) (fun hk => by rw [hq'.mpr hk] at h1; cases h1)
        · intro hb
          cases hb with
          | tag hlt => omega
          | cut _ _ hke =>
            rcases he with rfl | rfl
            · exact absurd (hq'.mp rfl) hke
            · exact ⟨rfl, rfl⟩
    cases hdec : decNext src.data with
    | packet t b rest =>
      rw [hdec] at hm
      simp only at hm
      obtain ⟨rfl, h2⟩ := hm
      have := decNext_shorter hdec
      simp only
      rw [ih (hk.strict.trans hs) (by rw [show src'.data = rest from h2]; omega), show src'.data = rest from h2, blockFails_packet hdec]
    | noMSB =>
      rw [hdec] at hm
      simp only at hm
      subst hm
      simp only
      rw [blockFails_stop (noPacket_iff.mpr (by simp [hdec]))]
      cases hd : src.data with
      | nil => rw [hd] at hdec; cases hdec
      | cons h d =>
        rw [hd] at hdec
        have hh := decNext_noMSB.mp hdec
        constructor
        · rintro ⟨-, rfl⟩; exact .tag hh
        · intro hb
          cases hb with
          | tag => exact ⟨rfl, rfl⟩
          | cut h1 => omega
    | toEnd t b =>
      rw [hdec] at hm
      rcases hm.2 hs with h | h <;> simp only at h <;> subst h
      · exact hstop _ rfl (by simp [hdec]) (by simp [hdec]) (.inl rfl)
      · exact hstop _ rfl (by simp [hdec]) (by simp [hdec]) (.inr rfl)
    | truncated =>
      rw [hdec] at hm
      obtain ⟨e, h1, h2⟩ := hm
      simp only at h1
      subst h1
      refine hstop e rfl (by simp [hdec]) (by simp [hdec]) ?_
      rcases h2 with ⟨h2, -⟩ | ⟨-, h2⟩
      · rw [hs] at h2; cases h2
      · exact h2
    | atEnd =>
      rw [hdec] at hm
      obtain ⟨e, h1, h2⟩ := hm
      simp only at h1
      subst h1
      refine hstop e rfl (by simp [hdec]) (by simp [hdec]) ?_
      rcases h2 with ⟨h2, -⟩ | ⟨-, h2⟩
      · rw [hs] at h2; cases h2
      · exact h2

section
variable {A : Nat → Bytes → Prop} {F : Cause → Nat → Bytes → Prop} {c : Cause} {d : Bytes}

theorem streamFails_packet {t b r} (h : decNext d = .packet t b r) : StreamFails A F c d ↔ F c t b ∨ (A t b ∧ StreamFails A F c r) := by
  constructor
  · intro hs
    cases hs with
    | @packet ps p _ _ hst hps hp =>
      obtain ⟨qs, h3, h4⟩ := (starts_packet (by simp) h).mp hst
      cases ps with
      | nil => cases h3; exact .inl hp
      | cons q ps => cases h3; exact .inr ⟨hps (t, b) (by simp), .packet h4 (fun q hq => hps q (by simp [hq])) hp⟩
    | @tag ps a hd d ha hps hh =>
      by_cases h0 : ps = []
      · subst h0
        cases ha
        rw [List.nil_append, decNext_noMSB.mpr hh] at h
        cases h
      · obtain ⟨t', c', qs, a', rfl, h2, h3⟩ := closed_first (b := hd :: d) ha h0
        rw [h3] at h
        cases h
        exact .inr ⟨hps (t, b) (by simp), .tag h2 (fun q hq => hps q (by simp [hq])) hh⟩
    | @cut ps a hd d ha hps hh hn he =>
      by_cases h0 : ps = []
      · subst h0
        cases ha
        exact absurd h (noPacket_iff.mp hn _ _ _)
      · obtain ⟨t', c', qs, a', rfl, h2, h3⟩ := closed_first (b := hd :: d) ha h0
        rw [h3] at h
        cases h
        exact .inr ⟨hps (t, b) (by simp), .cut h2 (fun q hq => hps q (by simp [hq])) hh hn he⟩
  · rintro (hf | ⟨h1, hs⟩)
    · exact .packet (ps := []) (p := (t, b)) ((starts_packet (by simp) h).mpr ⟨[], rfl, .closed (a := []) .nil⟩) (by simp) hf
    · obtain ⟨enc, he, rfl⟩ := decNext_sound h
      cases hs with
      | @packet ps p _ _ hst hps hp =>
        exact .packet (ps := (t, b) :: ps) ((starts_packet (by simp) h).mpr ⟨_, rfl, hst⟩) (by simpa using ⟨h1, fun a b h => hps (a, b) h⟩) hp
      | @tag ps a hd d ha hps hh =>
        rw [← List.append_assoc]
        exact .tag (.cons he ha) (by simpa using ⟨h1, fun a b h => hps (a, b) h⟩) hh
      | @cut ps a hd d ha hps hh hn he' =>
        rw [← List.append_assoc]
        exact .cut (.cons he ha) (by simpa using ⟨h1, fun a b h => hps (a, b) h⟩) hh hn he'

theorem streamFails_toEnd {t b} (h : decNext d = .toEnd t b) : StreamFails A F c d ↔ F c t b := by
  have hno : NoPacket d := noPacket_iff.mpr (by simp [h])
  constructor
  · intro hs
    cases hs with
    | @packet ps p _ _ hst hps hp =>
      have h3 := (starts_toEnd (by simp) h).mp hst
      cases ps with
      | nil => cases h3; exact hp
      | cons q ps => simp at h3
    | @tag ps a hd d ha hps hh =>
      by_cases h0 : ps = []
      · subst h0
        cases ha
        rw [List.nil_append, decNext_noMSB.mpr hh] at h
        cases h
      · obtain ⟨t', c', qs, a', rfl, h2, h3⟩ := closed_first (b := hd :: d) ha h0
        rw [h3] at h
        cases h
    | @cut ps a hd d ha hps hh hn he =>
      by_cases h0 : ps = []
      · subst h0
        cases ha
        exact absurd ⟨t, b, decNext_toEnd h⟩ he
      · obtain ⟨t', c', qs, a', rfl, h2, h3⟩ := closed_first (b := hd :: d) ha h0
        rw [h3] at h
        cases h
  · intro hf
    exact .packet (ps := []) (p := (t, b)) ((starts_toEnd (by simp) h).mpr rfl) (by simp) hf

/-- what is left is no packet -/
theorem streamFails_stop (h : ∀ t b r, decNext d ≠ .packet t b r) (h' : ∀ t b, decNext d ≠ .toEnd t b) :
    StreamFails A F c d ↔ (decNext d = .noMSB ∧ c = .noMSB) ∨ (decNext d = .truncated ∧ c = .unexpectedEOF) := by
  constructor
  · intro hs
    cases hs with
    | @packet ps p _ _ hst => exact absurd hst (starts_stop (by simp) h h')
    | @tag ps a hd d ha hps hh =>
      by_cases h0 : ps = []
      · subst h0; cases ha; exact .inl ⟨decNext_noMSB.mpr hh, rfl⟩
      · obtain ⟨t', c', qs, a', rfl, h2, h3⟩ := closed_first (b := hd :: d) ha h0
        exact absurd h3 (h _ _ _)
    | @cut ps a hd d ha hps hh hn he =>
      by_cases h0 : ps = []
      · subst h0
        cases ha
        rw [List.nil_append] at *
        refine .inr ⟨?_, rfl⟩
        cases hdec : decNext (hd :: d) with
        | truncated => rfl
        | packet t b r => exact absurd hdec (h _ _ _)
        | toEnd t b => exact absurd hdec (h' _ _)
        | noMSB => have := decNext_noMSB.mp hdec; omega
        | atEnd => have := decNext_atEnd.mp hdec; cases this
      · obtain ⟨t', c', qs, a', rfl, h2, h3⟩ := closed_first (b := hd :: d) ha h0
        exact absurd h3 (h _ _ _)
  · rintro (⟨hd, rfl⟩ | ⟨hd, rfl⟩)
    · cases d with
      | nil => cases hd
      | cons b d => exact .tag (a := []) .nil (by simp) (decNext_noMSB.mp hd)
    · cases d with
      | nil => cases hd
      | cons b d =>
        refine .cut (a := []) .nil (by simp) ?_ (noPacket_iff.mpr h) ?_
        · by_cases hh : b.toNat < 128
          · rw [decNext_noMSB.mpr hh] at hd; cases hd
          · omega
        · rintro ⟨t, c, he⟩; exact h' _ _ (decNext_toEnd_complete he)

end

theorem errLoop_seq {R : Nat → Bytes → Prop} {B : Cause → Nat → Bytes → Prop} {c : Cause} {f : Nat} {src : Src} (hl : Lazy src)
    (hs : src.strict = false) (ht : src.tail = rawErr .eof) (hf : src.data.length < f) :
    ErrLoop X R B c f src ↔ StreamFails R B c src.data := by
  induction f generalizing src with
  | zero => omega
  | succ f ih =>
    obtain ⟨hk, hm⟩ := nextPacket_spec (X := X) hl
    rcases hn : nextPacket X src with ⟨r, src'⟩
    rw [hn] at hk hm
    unfold ErrLoop
    rw [hn]
    cases hd : decNext src.data with
    | packet t b rest =>
      rw [hd] at hm
      obtain ⟨rfl, h2⟩ := hm
      have hlt := decNext_shorter hd
      simp only at h2
      simp only
      rw [ih (hk.isLazy hl) (hk.strict.trans hs) (hk.tail.trans ht) (by rw [h2]; omega), h2, streamFails_packet hd]
    | toEnd t b =>
      rw [hd] at hm
      obtain ⟨h1, h2⟩ := (hm.1 hs).1 (by rw [ht]; rfl)
      simp only at h1 h2
      subst h1
      simp only
      have hlt : src'.data.length < f := by
        rw [h2]
        have hne : src.data ≠ [] := by intro h; rw [h] at hd; simp [decNext] at hd
        have := List.length_pos_iff.mpr hne
        simp; omega
      rw [ih (hk.isLazy hl) (hk.strict.trans hs) (hk.tail.trans ht) hlt, h2, streamFails_toEnd hd, streamFails_stop (d := []) (by simp [decNext]) (by simp [decNext])]
      simp [decNext]
    | noMSB =>
      rw [hd] at hm
      simp only at hm
      subst hm
      rw [streamFails_stop (by simp [hd]) (by simp [hd])]
      simp [hd, rawErr, GoErr.isEOF]
    | truncated =>
      rw [hd] at hm
      obtain ⟨e, h1, h2⟩ := hm
      simp only at h1
      subst h1
      rw [streamFails_stop (by simp [hd]) (by simp [hd])]
      rcases h2 with ⟨-, rfl⟩ | ⟨h3, -⟩
      · simp [hd, ht, trunc, rawErr, GoErr.isEOF, GoErr.eqEOF]
      · rw [hs] at h3; cases h3
    | atEnd =>
      rw [hd] at hm
      obtain ⟨e, h1, h2⟩ := hm
      simp only at h1
      subst h1
      rw [streamFails_stop (by simp [hd]) (by simp [hd])]
      rcases h2 with ⟨-, rfl⟩ | ⟨h3, -⟩
      · simp [hd, ht, rawErr, GoErr.isEOF]
      · rw [hs] at h3; cases h3

/-! ## Fuel and grammar -/

theorem openErr_iff (hX : OwnErrors X) {c : Cause} {b : Bytes} : Errs.OpenErr X c b ↔ Fails X c 8 b := by
  have hcopy : ∀ {z : Stream}, z.data.length < 2 ^ 30 → z.tail.isEOF = false → copyFrom z = .error z.tail.wrap := by
    intro z h1 h2
    unfold copyFrom maxDecompressionDataSize
    rw [if_neg (by omega), if_neg (by simp [h2])]
  have hcopy' : ∀ {z : Stream} {e}, copyFrom z = .error e → e.cause ≠ .tooLarge → z.data.length < 2 ^ 30 ∧ z.tail.isEOF = false ∧ e = z.tail.wrap := by
    intro z e h1 h2
    unfold copyFrom maxDecompressionDataSize at h1
    split at h1
    · cases h1; exact absurd rfl h2
    · rename_i hl
      split at h1
      · cases h1
      · rename_i he
        cases h1; exact ⟨by omega, by simpa using he, rfl⟩
  constructor
  · intro h
    cases h with
    | none => exact .version (by decide)
    | @data a zd e _ h0 h he hc =>
      subst hc
      have hc : ∀ n : Nat, n < 256 → a.toNat = n → a = UInt8.ofNat n := by
        rintro n - rfl; simp
      unfold unpackRes at h
      split at h
      · cases h
      · rename_i h1; cases hc 1 (by omega) h1
        obtain ⟨h1, h2, rfl⟩ := hcopy' h he
        exact .zip h0 h1 h2
      · rename_i h1; cases hc 2 (by omega) h1
        split at h
        · rename_i e' hz; cases h; exact .zlibHeader (e := e') h0 hz
        · rename_i z hz
          obtain ⟨h1, h2, rfl⟩ := hcopy' h he
          exact .zlib h0 hz h1 h2
      · rename_i h1; cases hc 3 (by omega) h1
        obtain ⟨h1, h2, rfl⟩ := hcopy' h he
        exact .bzip2 h0 h1 h2
      · cases h
  · intro h
    cases h with
    | version => exact .none
    | zip h0 h1 h2 => exact .data h0 (a := 1) (hcopy h1 h2) (hX _).1 rfl
    | @zlibHeader zd e h0 hz =>
      refine .data h0 (a := 2) (e := e.wrap) ?_ ((hX zd).2.2.1 e hz) rfl
      change (match X.zlib _ with | .error e => Except.error e.wrap | .ok z => copyFrom z) = _
      rw [hz]
    | @zlib zd z h0 hz h1 h2 =>
      refine .data h0 (a := 2) (e := z.tail.wrap) ?_ ((hX zd).2.2.2 z hz) rfl
      change (match X.zlib _ with | .error e => Except.error e.wrap | .ok z => copyFrom z) = _
      rw [hz]; exact hcopy h1 h2
    | bzip2 h0 h1 h2 => exact .data h0 (a := 3) (hcopy h1 h2) (hX _).2.1 rfl
    | publicKey ht => simp at ht
    | secretKey ht => simp at ht
    | secretKey5 ht => simp at ht

theorem failSub_of_subErr (hX : OwnErrors X) {c : Cause} {n : Nat} {t : UInt8} {b : Bytes} (ih : ∀ tag d, Errs.FuelErr X c n tag d → Fails X c tag d)
    (h : Errs.SubErr X (FuelOK X n) (fun c => Errs.FuelErr X c n) c t b) : FailSub X c t b := by
  rcases h with h | ⟨h, fl, nl, vl, r, rfl, hf, hn, hv, hr⟩ | ⟨h, hb⟩ | ⟨h, d, rfl, hb⟩
  · exact .fields h
  · exact .notation h hf hn hv hr
  · exact .embedded h (ih _ _ hb)
  · unfold Errs.ErrBlock at hb
    rw [errLoop_block (src := ⟨d, rawErr .eof, [], false, true⟩) rfl (Nat.lt_succ_self _)] at hb
    rcases hb with ⟨ps, p, a, e, he, ha, hr, hp⟩ | ⟨ps, a, e, he, ha, hr, hp⟩
    · simp only at he; subst he
      exact .keyBlock h ha (fun q hq => acc_of_fuelOK hX (hr q hq)) (ih _ _ hp)
    · simp only at he; subst he
      exact .keyBlockEnd h ha (fun q hq => acc_of_fuelOK hX (hr q hq)) hp

theorem failArea_of_areaErr (hX : OwnErrors X) {c : Cause} {n : Nat} {q : Bytes} (ih : ∀ tag d, Errs.FuelErr X c n tag d → Fails X c tag d)
    (h : Errs.AreaErr (SubOK X (FuelOK X n)) (Errs.SubErr X (FuelOK X n) (fun c => Errs.FuelErr X c n)) c q) : FailArea X c q := by
  rcases h with h | ⟨l, r, rfl, hl, h⟩ | ⟨area, rest, hl, ⟨rfl, h⟩ | ⟨subs, hs, s1, p, s2, rfl, h1, hp⟩, rfl⟩
  · exact .length h
  · exact .data hl h
  · exact .split hl h
  · exact .subpacket hl hs (fun s hm => accSub_of_subOK hX (h1 s hm)) (failSub_of_subErr hX ih hp)

theorem fails_of_fuelErr (hX : OwnErrors X) {c : Cause} {n : Nat} {tag : Nat} {b : Bytes} (h : Errs.FuelErr X c n tag b) : Fails X c tag b := by
  induction n generalizing tag b with
  | zero => exact h.elim
  | succ n ih =>
    unfold Errs.FuelErr Errs.TagErr at h
    by_cases h2 : tag = 2
    · subst h2
      rw [if_pos rfl] at h
      have ih' : ∀ tag d, Errs.FuelErr X c n tag d → Fails X c tag d := fun _ _ => ih
      rcases h with ⟨rfl, rfl⟩ | ⟨v, r, rfl, hv, h⟩
      · exact .version (by decide)
      rcases h with h | ⟨t, a, hh, r, rfl, h⟩
      · exact .signature hv h
      rcases h with h | ⟨f, r, rfl, ⟨a1, s1, hl1, hs1, h1, rfl⟩, h⟩
      · exact .hashed hv (failArea_of_areaErr hX ih' h)
      have h1' : ∀ s ∈ s1, AccSub X s.1 s.2 := fun s hm => accSub_of_subOK hX (h1 s hm)
      rcases h with h | ⟨f, r, rfl, ⟨a2, s2, hl2, hs2, h2, rfl⟩, h⟩
      · have := Fails.unhashed (X := X) (t := t) (a := a) (h := hh) hv hl1 hs1 h1' (failArea_of_areaErr hX ih' h)
        simpa using this
      have h2' : ∀ s ∈ s2, AccSub X s.1 s.2 := fun s hm => accSub_of_subOK hX (h2 s hm)
      rcases h with h | ⟨l0, l1, r, rfl, h⟩
      · have := Fails.left2 (X := X) (t := t) (a := a) (h := hh) hv hl1 hl2 hs1 hs2 h1' h2' h
        simpa using this
      · have := Fails.value (X := X) (t := t) (a := a) (h := hh) (l0 := l0) (l1 := l1) hv hl1 hl2 hs1 hs2 h1' h2' h
        simpa using this
    · rw [if_neg h2] at h
      by_cases h8 : tag = 8
      · subst h8; rw [if_pos rfl] at h; exact (openErr_iff hX).mp h
      · rw [if_neg h8] at h; exact h

theorem subErr_of_failSub {c : Cause} {n : Nat} {t : UInt8} {b : Bytes} (hn : b.length < n)
    (ih : ∀ tag d, d.length < n → Fails X c tag d → Errs.FuelErr X c n tag d) (h : FailSub X c t b) :
    Errs.SubErr X (FuelOK X n) (fun c => Errs.FuelErr X c n) c t b := by
  cases h with
  | fields h => exact .inl h
  | «notation» h hf hnl hv hq => exact .inr (.inl ⟨h, _, _, _, _, rfl, hf, hnl, hv, hq⟩)
  | embedded h hb => exact .inr (.inr (.inl ⟨h, ih _ _ hn hb⟩))
  | @keyBlock _ a b ps p _ h ha hps hp =>
    refine .inr (.inr (.inr ⟨h, _, rfl, ?_⟩))
    unfold Errs.ErrBlock
    refine (errLoop_block (src := ⟨a ++ b, rawErr .eof, [], false, true⟩) rfl (Nat.lt_succ_self _)).mpr (.inl ⟨ps, p, a, b, rfl, ha, fun q hq => ?_, ?_⟩)
    · have := ha.mem_length q (by simp [hq])
      exact fuelOK_of_acc (hps q hq) (by simp at hn; omega)
    · have := ha.mem_length p (by simp)
      exact ih _ _ (by simp at hn; omega) hp
  | @keyBlockEnd _ a b ps _ h ha hps hb =>
    refine .inr (.inr (.inr ⟨h, _, rfl, ?_⟩))
    unfold Errs.ErrBlock
    refine (errLoop_block (src := ⟨a ++ b, rawErr .eof, [], false, true⟩) rfl (Nat.lt_succ_self _)).mpr (.inr ⟨ps, a, b, rfl, ha, fun q hq => ?_, hb⟩)
    have := ha.mem_length q (by simp [hq])
    exact fuelOK_of_acc (hps q hq) (by simp at hn; omega)

theorem subOK_of_accSub {n : Nat} {t : UInt8} {d : Bytes} (hd : d.length < n) (h : AccSub X t d) : SubOK X (FuelOK X n) t d :=
  subOK_of_acc h fun _ _ _ hacc => fuelOK_of_acc hacc (by omega)

theorem areaErr_of_failArea {c : Cause} {n : Nat} {q : Bytes} (hn : q.length ≤ n)
    (ih : ∀ tag d, d.length < n → Fails X c tag d → Errs.FuelErr X c n tag d) (h : FailArea X c q) :
    Errs.AreaErr (SubOK X (FuelOK X n)) (Errs.SubErr X (FuelOK X n) (fun c => Errs.FuelErr X c n)) c q := by
  cases h with
  | length h => exact .inl h
  | data hl h => exact .inr (.inl ⟨_, _, rfl, hl, h⟩)
  | split hl h => exact .inr (.inr ⟨_, _, hl, .inl ⟨rfl, h⟩, rfl⟩)
  | @subpacket area s1 p s2 _ r hl hs h1 hp =>
    simp only [List.length_append, beOctets_length] at hn
    have hm := hs.mem_length
    refine .inr (.inr ⟨_, _, hl, .inr ⟨_, hs, s1, p, s2, rfl, fun s hs' => ?_, ?_⟩, rfl⟩)
    · have := hm s (by simp [hs']); exact subOK_of_accSub (by omega) (h1 s hs')
    · have := hm p (by simp); exact subErr_of_failSub (by omega) ih hp

theorem areaOK_of_acc {n : Nat} {area : Bytes} {subs : List (UInt8 × Bytes)} (hn : area.length ≤ n) (hl : area.length < 65536) (hs : SubSeq subs area)
    (h : ∀ s ∈ subs, AccSub X s.1 s.2) : AreaOK (SubOK X (FuelOK X n)) (beOctets 2 area.length ++ area) :=
  ⟨area, subs, hl, hs, fun s hm => subOK_of_accSub (by have := hs.mem_length s hm; omega) (h s hm), rfl⟩

theorem fuelErr_of_fails (hX : OwnErrors X) {c : Cause} {n : Nat} {tag : Nat} {b : Bytes} (h : Fails X c tag b) (hn : b.length < n) : Errs.FuelErr X c n tag b := by
  induction n generalizing tag b with
  | zero => omega
  | succ n ih =>
    have ih' : ∀ tag d, d.length < n → Fails X c tag d → Errs.FuelErr X c n tag d := fun _ _ hd hf => ih hf hd
    unfold Errs.FuelErr Errs.TagErr
    by_cases h2 : tag = 2
    · subst h2
      rw [if_pos rfl]
      cases h with
      | version => exact .inl ⟨rfl, rfl⟩
      | signature hv h => exact .inr ⟨_, _, rfl, hv, .inl h⟩
      | hashed hv hq =>
        simp only [List.length_cons] at hn
        exact .inr ⟨_, _, rfl, hv, .inr ⟨_, _, _, _, rfl, .inl (areaErr_of_failArea (by omega) ih' hq)⟩⟩
      | @unhashed v t a h a1 s1 _ q hv hl1 hs1 h1 hq =>
        simp only [List.length_cons, List.length_append, beOctets_length] at hn
        exact .inr ⟨_, _, rfl, hv, .inr ⟨_, _, _, _, rfl, .inr ⟨_, q, (List.append_assoc ..).symm, areaOK_of_acc (by omega) hl1 hs1 h1,
          .inl (areaErr_of_failArea (by omega) ih' hq)⟩⟩⟩
      | @left2 v t a h a1 a2 s1 s2 _ q hv hl1 hl2 hs1 hs2 h1 h2 hq =>
        simp only [List.length_cons, List.length_append, beOctets_length] at hn
        exact .inr ⟨_, _, rfl, hv, .inr ⟨_, _, _, _, rfl, .inr ⟨_, _, (List.append_assoc ..).symm, areaOK_of_acc (by omega) hl1 hs1 h1,
          .inr ⟨_, q, (List.append_assoc ..).symm, areaOK_of_acc (by omega) hl2 hs2 h2, .inl hq⟩⟩⟩⟩
      | @value v t a h a1 a2 s1 s2 l0 l1 _ q hv hl1 hl2 hs1 hs2 h1 h2 hq =>
        simp only [List.length_cons, List.length_append, beOctets_length] at hn
        exact .inr ⟨_, _, rfl, hv, .inr ⟨_, _, _, _, rfl, .inr ⟨_, _, (List.append_assoc ..).symm, areaOK_of_acc (by omega) hl1 hs1 h1,
          .inr ⟨_, l0 :: l1 :: q, (List.append_assoc ..).symm, areaOK_of_acc (by omega) hl2 hs2 h2, .inr ⟨l0, l1, q, rfl, hq⟩⟩⟩⟩⟩
      | publicKey ht => simp at ht
      | secretKey ht => simp at ht
      | secretKey5 ht => simp at ht
    · rw [if_neg h2]
      by_cases h8 : tag = 8
      · subst h8; rw [if_pos rfl]; exact (openErr_iff hX).mpr h
      · rw [if_neg h8]; exact h

/-! ## The top level -/

/-- what `parseTag` rejects -/
theorem Errs.parseTag (hX : OwnErrors X) (tag : Nat) (b : Bytes) : Errs (parseTag X tag b) (fun c _ _ => Fails X c tag b) :=
  (Errs.parseTagF X (b.length + 1) tag b).congr fun _ _ _ => ⟨fails_of_fuelErr hX, fun h => fuelErr_of_fails hX h (Nat.lt_succ_self _)⟩

theorem Errs.compressed (hX : OwnErrors X) (b : Bytes) : Errs (compressed X b) (fun c _ _ => Fails X c 8 b) := by
  constructor
  intro x p q j c
  rw [← openErr_iff hX, ← tag08_err X x b (tagItem 8 b (tagDumpFlag 8 x)) c]
  have hr : Gpgpdump.compressed X b (St.at (some x) p q j) = (((do
      let data ← tag08 X
      return (← P.getCur, data) : P (Item × Option Bytes)) (St.at (some x) [] b (tagItem 8 b (tagDumpFlag 8 x)))).1,
      { ((do
      let data ← tag08 X
      return (← P.getCur, data) : P (Item × Option Bytes)) (St.at (some x) [] b (tagItem 8 b (tagDumpFlag 8 x)))).2 with rd := ⟨p ++ q, p.length⟩, cur := j }) := rfl
  rw [hr, bind_run]
  rcases tag08 X (St.at (some x) [] b (tagItem 8 b (tagDumpFlag 8 x))) with ⟨r, s⟩
  cases r with
  | ok a =>
    constructor
    · rintro ⟨e, s', h, -⟩; cases h
    · rintro ⟨e, s', h, -⟩; cases h
  | err e => simp
  | panic => simp
  | stuck => simp

theorem Errs.packetsParse (hX : OwnErrors X) (tag : Nat) (b : Bytes) : Errs (packetsParse X tag b) (fun c _ _ => FailTop X c tag b) := by
  by_cases h8 : tag = 8
  · subst h8
    have hd : Gpgpdump.packetsParse X 8 b = (do
        let (item, data) ← Gpgpdump.compressed X b
        match data with
        | Option.none => return item
        | some z => P.build item (packetLoop X (Gpgpdump.parseTag X) (Src.ofBytes z))) := by
      unfold Gpgpdump.packetsParse; rw [if_pos rfl]; rfl
    rw [hd]
    have hloop : ∀ (z : Bytes) i, Errs (P.build i (packetLoop X (Gpgpdump.parseTag X) (Src.ofBytes z)))
        (fun c _ _ => StreamFails (Spec.Acc X) (Fails X) c z) := fun z i =>
      (Errs.build i (Errs.forPackets X (fun t b => (Sub.parseTag t b).congr (innerOK_iff hX)) (Errs.parseTag hX) _ _)).congr
        fun _ _ _ => errLoop_seq (ofBytes_lazy z) rfl rfl (Nat.lt_succ_self _)
    constructor
    intro x p q j c
    rw [bind_err, (Errs.compressed hX b).run]
    constructor
    · rintro (h | ⟨⟨i, o⟩, s', h1, h2⟩)
      · exact .plain h
      · obtain ⟨h3, rfl⟩ := compressed_sound h1
        simp only at h2 h3
        cases o with
        | none => obtain ⟨e, s, h2, -⟩ := h2; cases h2
        | some z => exact .packed (opens_of_openOK hX h3) (((hloop z i).run x p q j c).mp h2)
    · intro h
      cases h with
      | plain h => exact .inl h
      | packed ho hz =>
        obtain ⟨i, hi⟩ := compressed_complete x p q j (openOK_of_opens ho)
        exact .inr ⟨_, _, hi, ((hloop _ i).run x p q j c).mpr hz⟩
  · unfold Gpgpdump.packetsParse
    rw [if_neg h8]
    refine (Errs.parseTag hX tag b).congr fun c _ _ => ⟨.plain, fun h => ?_⟩
    cases h with
    | plain h => exact h
    | packed => exact absurd rfl h8

/-- C63 (exactness): `Parse` returns an error with the root cause `c` exactly if the grammar `StreamFails` says so. -/
theorem C63_exact (X : Ext) (hX : OwnErrors X) (x : Ctx) (s : Source) (ht : s.tail = rawErr .eof) (c : Cause) :
    (∃ e, (parseSrc X (some x) s.src).res = .err e ∧ e.cause = c) ↔ StreamFails (AccTop X) (FailTop X) c s.data := by
  have hl := Errs.forPackets X (fun t b => (Sub.packetsParse (X := X) t b).congr (topOK_iff hX)) (Errs.packetsParse hX) (s.data.length + 1) s.src
  have hq := errLoop_seq (X := X) (R := AccTop X) (B := FailTop X) (c := c) s.isLazy rfl ht (Nat.lt_succ_self _)
  have e : (parseSrc X (some x) s.src).res = (forPackets X (packetsParse X) (s.data.length + 1) s.src (St.at (some x) [] [] (newItem []))).1 := rfl
  rw [e]
  refine Iff.trans ?_ ((hl.run x [] [] (newItem []) c).trans hq)
  constructor
  · rintro ⟨e, h, hc⟩; exact ⟨e, _, Prod.ext h rfl, hc⟩
  · rintro ⟨e, s, h, hc⟩; exact ⟨e, by rw [h], hc⟩

/-- C63: the grammar fixes the cause. -/
theorem C63_cause (X : Ext) (hX : OwnErrors X) (d : Bytes) (c c' : Cause) (h : StreamFails (AccTop X) (FailTop X) c d)
    (h' : StreamFails (AccTop X) (FailTop X) c' d) : c = c' := by
  obtain ⟨e, he, rfl⟩ := (C63_exact X hX Ctx.empty ⟨d, rawErr .eof, []⟩ rfl c).mpr h
  obtain ⟨e', he', rfl⟩ := (C63_exact X hX Ctx.empty ⟨d, rawErr .eof, []⟩ rfl c').mpr h'
  rw [he] at he'
  cases he'
  rfl

/-- C63 (the grammars are complete): all octets are a sequence of accepted packets, or start with a packet the tool crashes on, or with
something that gives an error; and only one of these. -/
theorem C63_every (X : Ext) (hX : OwnErrors X) (hR : RealX X) (d : Bytes) :
    ((∃ ps, PacketSeq ps d ∧ ∀ p ∈ ps, AccTop X p.1 p.2) ∨
      (∃ site ps p, Starts (ps ++ [p]) d ∧ (∀ q ∈ ps, AccTop X q.1 q.2) ∧ PanTop X site p.1 p.2) ∨
      ∃ c, StreamFails (AccTop X) (FailTop X) c d) ∧
    ¬ ((∃ ps, PacketSeq ps d ∧ ∀ p ∈ ps, AccTop X p.1 p.2) ∧
      ∃ site ps p, Starts (ps ++ [p]) d ∧ (∀ q ∈ ps, AccTop X q.1 q.2) ∧ PanTop X site p.1 p.2) ∧
    ¬ ((∃ ps, PacketSeq ps d ∧ ∀ p ∈ ps, AccTop X p.1 p.2) ∧ ∃ c, StreamFails (AccTop X) (FailTop X) c d) ∧
    ¬ ((∃ site ps p, Starts (ps ++ [p]) d ∧ (∀ q ∈ ps, AccTop X q.1 q.2) ∧ PanTop X site p.1 p.2) ∧
      ∃ c, StreamFails (AccTop X) (FailTop X) c d) := by
  have h1 := C56_exact X hX Ctx.empty ⟨d, rawErr .eof, []⟩ rfl
  have h2 := C59_exact X hX Ctx.empty ⟨d, rawErr .eof, []⟩ rfl
  have h3 := C63_exact X hX Ctx.empty ⟨d, rawErr .eof, []⟩ rfl
  have h4 := (C02_packets X hR (some Ctx.empty) (Source.src ⟨d, rawErr .eof, []⟩) (fun h => by cases h)).1
  simp only at h1 h2 h3
  refine ⟨?_, ?_, ?_, ?_⟩
  · cases hr : (parseSrc X (some Ctx.empty) (Source.src ⟨d, rawErr .eof, []⟩)).res with
    | ok u => exact .inl (h1.mp hr)
    | panic site => exact .inr (.inl ⟨site, (h2 site).mp hr⟩)
    | err e => exact .inr (.inr ⟨_, (h3 e.cause).mp ⟨e, hr, rfl⟩⟩)
    | stuck => exact absurd hr h4
  · rintro ⟨ha, site, hp⟩
    have := h1.mpr ha
    rw [(h2 site).mpr hp] at this
    cases this
  · rintro ⟨ha, c, hp⟩
    have := h1.mpr ha
    obtain ⟨e, he, -⟩ := (h3 c).mpr hp
    rw [he] at this
    cases this
  · rintro ⟨⟨site, ha⟩, c, hp⟩
    have := (h2 site).mpr ha
    obtain ⟨e, he, -⟩ := (h3 c).mpr hp
    rw [he] at this
    cases this

/-- C63 at `New` and `Parse`: for input without an armor block and without an overlong line. -/
theorem C63_new (X : Ext) (hX : OwnErrors X) (x : Ctx) (ha : x.armor = false) (d : Bytes) (sched : List Nat) {ls} (h : Lines d ls false d)
    (hb : ¬ ∃ block, ArmorBlock ls block) (c : Cause) :
    (∃ e, (parse X (some x) (some (Source.src ⟨d, rawErr .eof, sched⟩))).res = .err e ∧ e.cause = c) ↔ StreamFails (AccTop X) (FailTop X) c d := by
  rw [C34_verbatim_partial X (some x) ha d sched h hb]
  exact C63_exact X hX x ⟨d, rawErr .eof, []⟩ rfl c

/-! ## Examples -/

/-! A user ID, then an encrypted session key with an RSA integer of 16 bits that has one octet. -/

example (X : Ext) (hX : OwnErrors X) (x : Ctx) (t : Bytes) : ∃ e, (parseSrc X (some x) (Source.src ⟨
    [0xcd, 1, 65, 0xc1, 13, 3, 1, 2, 3, 4, 5, 6, 7, 8, 1, 0, 16, 0xff] ++ t, rawErr .eof, [2]⟩)).res = .err e ∧ e.cause = .unexpectedEOF := by
  refine (C63_exact X hX x _ rfl _).mpr (.packet (ps := [(13, [65])]) (p := (1, [3, 1, 2, 3, 4, 5, 6, 7, 8, 1, 0, 16, 0xff])) ?_ ?_ (.plain ?_))
  · have hc : split [0xcd, 1, 65, 0xc1, 13, 3, 1, 2, 3, 4, 5, 6, 7, 8, 1, 0, 16, 0xff] =
        ([(13, [65]), (1, [3, 1, 2, 3, 4, 5, 6, 7, 8, 1, 0, 16, 0xff])], .clean) := by decide +kernel
    have h := split_clean.mp (congrArg Prod.snd hc)
    rw [hc] at h
    exact .closed h
  · intro q hq
    simp only [List.mem_singleton] at hq
    subst hq
    exact .plain (by decide) (.other (by decide))
  · exact .sessionKey (kid := [1, 2, 3, 4, 5, 6, 7, 8]) rfl (.rsa (by decide) (.here (.number (l := [0, 16]) rfl (.some (by decide) (by decide)))))

/-! Without the integer the cause is `io.EOF`, which is not told from the end of the input by its cause. -/

example (X : Ext) (hX : OwnErrors X) (x : Ctx) : ∃ e, (parseSrc X (some x) (Source.src ⟨
    [0xc1, 10, 3, 1, 2, 3, 4, 5, 6, 7, 8, 1], rawErr .eof, []⟩)).res = .err e ∧ e.cause = .eof := by
  refine (C63_exact X hX x _ rfl _).mpr (.packet (ps := []) (p := (1, [3, 1, 2, 3, 4, 5, 6, 7, 8, 1])) ?_ (by simp) (.plain ?_))
  · have hc : split [0xc1, 10, 3, 1, 2, 3, 4, 5, 6, 7, 8, 1] = ([(1, [3, 1, 2, 3, 4, 5, 6, 7, 8, 1])], .clean) := by decide +kernel
    have h := split_clean.mp (congrArg Prod.snd hc)
    rw [hc] at h
    have := Starts.closed (b := []) h
    simpa using this
  · exact .sessionKey (kid := [1, 2, 3, 4, 5, 6, 7, 8]) rfl (.rsa (by decide) (.here (.length (.none (by decide)))))

/-! A signature with a hashed area of two octets that says that it has a subpacket of nine. -/

example (X : Ext) (hX : OwnErrors X) (x : Ctx) (t : Bytes) : ∃ e, (parseSrc X (some x) (Source.src ⟨
    [0xc2, 8, 4, 0, 1, 8, 0, 2, 9, 2] ++ t, rawErr .eof, []⟩)).res = .err e ∧ e.cause = .subTruncated := by
  refine (C63_exact X hX x _ rfl _).mpr (.packet (ps := []) (p := (2, [4, 0, 1, 8, 0, 2, 9, 2])) ?_ (by simp) (.plain ?_))
  · have hc : split [0xc2, 8, 4, 0, 1, 8, 0, 2, 9, 2] = ([(2, [4, 0, 1, 8, 0, 2, 9, 2])], .clean) := by decide +kernel
    have h := split_clean.mp (congrArg Prod.snd hc)
    rw [hc] at h
    exact Starts.closed h
  · refine .hashed (by decide) (.split (area := [9, 2]) (q := []) (by decide) ?_)
    rintro ⟨subs, h⟩
    have h := opaqueSubpackets_ok.mpr h
    have hc : (opaqueSubpackets [9, 2]).toOption.isSome = false := by decide +kernel
    rw [h] at hc
    cases hc

/-! An old format header octet is missing its first bit behind an accepted packet; and a packet is cut. -/

example (X : Ext) (hX : OwnErrors X) (x : Ctx) (t : Bytes) : ∃ e, (parseSrc X (some x) (Source.src ⟨
    [0xcd, 1, 65] ++ 0x45 :: t, rawErr .eof, []⟩)).res = .err e ∧ e.cause = .noMSB := by
  refine (C63_exact X hX x _ rfl _).mpr (.tag (ps := [(13, [65])]) ?_ ?_ (by decide))
  · have hc : split [0xcd, 1, 65] = ([(13, [65])], .clean) := by decide +kernel
    have h := split_clean.mp (congrArg Prod.snd hc)
    rwa [hc] at h
  · intro q hq
    simp only [List.mem_singleton] at hq
    subst hq
    exact .plain (by decide) (.other (by decide))

end Gpgpdump
