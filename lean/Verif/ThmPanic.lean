import Verif.PanicTags
import Verif.ThmAccept

/-!
# C01, exactly: the inputs on which `Parse` panics
-/

namespace Gpgpdump
open P Spec Src

variable {X : Ext}

/-! ## Sequences of packets -/

theorem panLoop_block {R : Nat → Bytes → Prop} {B : Site → Nat → Bytes → Prop} {site : Site} {f : Nat} {src : Src} (hs : src.strict = true)
    (hf : src.data.length < f) : PanLoop X R B site f src ↔
      ∃ ps p a b, src.data = a ++ b ∧ ClosedSeq (ps ++ [p]) a ∧ (∀ q ∈ ps, R q.1 q.2) ∧ B site p.1 p.2 := by
  induction f generalizing src with
  | zero => omega
  | succ f ih =>
    obtain ⟨hk, hm⟩ := nextPacket_spec (X := X) (s := src) (.inl hs)
    unfold PanLoop
    rcases hn : nextPacket X src with ⟨r, src'⟩
    rw [hn] at hk hm
    have hfirst : ∀ {ps p a b}, src.data = a ++ b → ClosedSeq (ps ++ [p]) a → ∃ t c r, decNext src.data = .packet t c r ∧
        ∃ qs a', ps ++ [p] = (t, c) :: qs ∧ ClosedSeq qs a' ∧ r = a' ++ b := by
      intro ps p a b hd hc
      generalize hl : ps ++ [p] = l at hc
      cases hc with
      | nil => simp at hl
      | @cons tag body qs enc a he hps =>
        exact ⟨tag, body, _, by rw [hd, List.append_assoc]; exact decNext_complete he _, qs, a, rfl, hps, rfl⟩
    cases r with
    | error e =>
      simp only [false_iff]
      rintro ⟨ps, p, a, b, hd, hc, -⟩
      obtain ⟨t, c, r, h1, -⟩ := hfirst hd hc
      rw [h1] at hm
      simp at hm
    | ok tb =>
      obtain ⟨tag, body⟩ := tb
      simp only at hm ⊢
      cases hdec : decNext src.data with
      | packet t b rest =>
        rw [hdec] at hm
        simp only at hm
        obtain ⟨h1, h2⟩ := hm
        cases h1
        have := decNext_shorter hdec
        have h2 : src'.data = rest := h2
        rw [ih (hk.strict.trans hs) (by rw [h2]; omega), h2]
        obtain ⟨enc, he, hd⟩ := decNext_sound hdec
        constructor
        · rintro (hb | ⟨hr, ps, p, a, b, rfl, hc, hp, hb⟩)
          · exact ⟨[], (tag, body), enc, rest, hd, by simpa using ClosedSeq.cons he .nil, by simp, hb⟩
          · exact ⟨(tag, body) :: ps, p, enc ++ a, b, by rw [hd]; simp, .cons he hc, by simpa using ⟨hr, fun a b h => hp (a, b) h⟩, hb⟩
        · rintro ⟨ps, p, a, b, hd', hc, hp, hb⟩
          obtain ⟨t', c', r', h1, qs, a', h3, h4, h5⟩ := hfirst hd' hc
          rw [hdec] at h1
          cases h1
          cases ps with
          | nil => cases h3; exact .inl hb
          | cons q ps => cases h3; exact .inr ⟨hp (tag, body) (by simp), ps, p, a', b, h5, h4, fun q h => hp q (by simp [h]), hb⟩
      | _ => rw [hdec] at hm; simp [hs] at hm

theorem starts_packet {l : List (Nat × Bytes)} {d t c r} (hl : l ≠ []) (h : decNext d = .packet t c r) :
    Starts l d ↔ ∃ qs, l = (t, c) :: qs ∧ Starts qs r := by
  constructor
  · intro hs
    cases hs with
    | @closed a b hc =>
      cases hc with
      | nil => exact absurd rfl hl
      | @cons tag body qs enc a he hps =>
        rw [List.append_assoc, decNext_complete he] at h
        cases h
        exact ⟨qs, rfl, .closed hps⟩
    | whole hw =>
      obtain ⟨qs, rfl, hq⟩ := (packetSeq_cons h).mp hw
      exact ⟨qs, rfl, .whole hq⟩
  · rintro ⟨qs, rfl, hs⟩
    obtain ⟨enc, he, rfl⟩ := decNext_sound h
    cases hs with
    | closed hc => rw [← List.append_assoc]; exact .closed (.cons he hc)
    | whole hw => exact .whole ((packetSeq_cons h).mpr ⟨qs, rfl, hw⟩)

theorem starts_toEnd {l : List (Nat × Bytes)} {d t c} (hl : l ≠ []) (h : decNext d = .toEnd t c) : Starts l d ↔ l = [(t, c)] := by
  have hsp := split_toEnd (decNext_toEnd h)
  constructor
  · intro hs
    cases hs with
    | @closed a b hc =>
      cases hc with
      | nil => exact absurd rfl hl
      | @cons tag body qs enc a he hps =>
        rw [List.append_assoc, decNext_complete he] at h
        cases h
    | whole hw =>
      rcases packetSeq_iff.mp hw with h | ⟨qs, t', b', h, rfl⟩
      · rw [hsp] at h; simp at h
      · rw [hsp] at h
        simp only [Prod.mk.injEq, Stop.toEnd.injEq] at h
        obtain ⟨rfl, rfl, rfl⟩ := h
        rfl
  · rintro rfl; exact .whole (.toEnd (decNext_toEnd h))

theorem starts_stop {l : List (Nat × Bytes)} {d} (hl : l ≠ []) (h : ∀ t c r, decNext d ≠ .packet t c r) (h' : ∀ t c, decNext d ≠ .toEnd t c) :
    ¬ Starts l d := by
  intro hs
  cases hs with
  | @closed a b hc =>
    cases hc with
    | nil => exact absurd rfl hl
    | @cons tag body qs enc a he hps =>
      rw [List.append_assoc] at h
      exact h _ _ _ (decNext_complete he _)
  | whole hw =>
    have h1 := split_stop h
    rcases packetSeq_iff.mp hw with h2 | ⟨qs, t', b', h2, rfl⟩
    · rw [h2] at h1; exact hl h1
    · exact h' t' b' (((decNext_of_stop h).2.2.2 t' b').mp (by rw [h2]))

theorem panLoop_seq {R : Nat → Bytes → Prop} {B : Site → Nat → Bytes → Prop} {site : Site} {f : Nat} {src : Src} (hl : Lazy src)
    (hs : src.strict = false) (ht : src.tail = rawErr .eof) (hf : src.data.length < f) :
    PanLoop X R B site f src ↔ ∃ ps p, Starts (ps ++ [p]) src.data ∧ (∀ q ∈ ps, R q.1 q.2) ∧ B site p.1 p.2 := by
  induction f generalizing src with
  | zero => omega
  | succ f ih =>
    obtain ⟨hk, hm⟩ := nextPacket_spec (X := X) hl
    rcases hn : nextPacket X src with ⟨r, src'⟩
    rw [hn] at hk hm
    unfold PanLoop
    rw [hn]
    cases hd : decNext src.data with
    | packet t b rest =>
      rw [hd] at hm
      obtain ⟨rfl, h2⟩ := hm
      have hlt := decNext_shorter hd
      simp only at h2
      simp only
      rw [ih (hk.isLazy hl) (hk.strict.trans hs) (hk.tail.trans ht) (by rw [h2]; omega), h2]
      constructor
      · rintro (hb | ⟨hr, ps, p, hp, ha, hb⟩)
        · exact ⟨[], (t, b), (starts_packet (by simp) hd).mpr ⟨[], rfl, .closed (a := []) .nil⟩, by simp, hb⟩
        · exact ⟨(t, b) :: ps, p, (starts_packet (by simp) hd).mpr ⟨_, rfl, hp⟩, by simpa using ⟨hr, fun a b h => ha (a, b) h⟩, hb⟩
      · rintro ⟨ps, p, hp, ha, hb⟩
        obtain ⟨qs, h3, h4⟩ := (starts_packet (by simp) hd).mp hp
        cases ps with
        | nil => cases h3; exact .inl hb
        | cons q ps => cases h3; exact .inr ⟨ha (t, b) (by simp), ps, p, h4, fun q h => ha q (by simp [h]), hb⟩
    | toEnd t b =>
      rw [hd] at hm
      obtain ⟨h1, h2⟩ := (hm.1 hs).1 (by rw [ht]; rfl)
      simp only at h1 h2
      subst h1
      simp only
      have hlt : src'.data.length < f := by
        rw [h2]
        have hne : src.data ≠ [] := by intro h; rw [h] at hd; simp [decNext] at hd
        have := List.length_pos_iff.mpr hne
        simp; omega
      rw [ih (hk.isLazy hl) (hk.strict.trans hs) (hk.tail.trans ht) hlt, h2]
      constructor
      · rintro (hb | ⟨hr, ps, p, hp, -⟩)
        · exact ⟨[], (t, b), (starts_toEnd (by simp) hd).mpr rfl, by simp, hb⟩
        · exact absurd hp (starts_stop (by simp) (by simp [decNext]) (by simp [decNext]))
      · rintro ⟨ps, p, hp, ha, hb⟩
        have h3 := (starts_toEnd (by simp) hd).mp hp
        cases ps with
        | nil => cases h3; exact .inl hb
        | cons q ps => simp at h3
    | _ =>
      rw [hd] at hm
      have hno : ¬ ∃ ps p, Starts (ps ++ [p]) src.data ∧ (∀ q ∈ ps, R q.1 q.2) ∧ B site p.1 p.2 := by
        rintro ⟨ps, p, hp, -⟩
        exact starts_stop (by simp) (by simp [hd]) (by simp [hd]) hp
      rw [iff_false_right hno]
      first
        | (simp only at hm; subst hm; simp)
        | (obtain ⟨e, h1, -⟩ := hm; simp only at h1; subst h1; simp)

/-! ## Fuel and grammar -/

theorem accSub_of_subOK (hX : OwnErrors X) {n : Nat} {st : UInt8} {sb : Bytes} (h : SubOK X (FuelOK X n) st sb) : AccSub X st sb := by
  unfold SubOK at h
  by_cases h20 : st.toNat % 128 = 20
  · rw [if_pos h20] at h
    obtain ⟨fl, name, value, rest, x1, x2, x3, rfl⟩ := h
    exact .notation h20 x1 x2 x3
  rw [if_neg h20] at h
  by_cases h32 : st.toNat % 128 = 32
  · rw [if_pos h32] at h
    exact .embedded h32 (acc_of_fuelOK hX h)
  rw [if_neg h32] at h
  by_cases h38 : st.toNat % 128 = 38
  · rw [if_pos h38] at h
    obtain ⟨k, d, rfl, hb⟩ := h
    by_cases hk : k = 0
    · subst hk
      have hb := hb rfl
      unfold BlockOK at hb
      have hb := (loopOK_block (src := ⟨d, rawErr .eof, [], false, true⟩) rfl (Nat.lt_succ_self _)).mp hb
      obtain ⟨ps, a, b, rfl, ha, hp, hb⟩ := hb
      exact .keyBlock h38 ha (fun p hm => acc_of_fuelOK hX (hp p hm)) hb
    · exact .keyBlockOther h38 hk
  rw [if_neg h38] at h
  exact .plain (by simp; omega) h

theorem panSub_of_subPan (hX : OwnErrors X) {site : Site} {n : Nat} {t : UInt8} {b : Bytes} (ih : ∀ tag c, Pans.FuelPan X site n tag c → Pan X site tag c)
    (h : Pans.SubPan X (FuelOK X n) (fun site => Pans.FuelPan X site n) site t b) : PanSub X site t b := by
  rcases h with ⟨h, hb⟩ | ⟨h, d, rfl, hb⟩
  · exact .embedded h (ih _ _ hb)
  · unfold Pans.PanBlock at hb
    obtain ⟨ps, p, a, b, rfl, ha, hr, hp⟩ := (panLoop_block (src := ⟨d, rawErr .eof, [], false, true⟩) rfl (Nat.lt_succ_self _)).mp hb
    exact .keyBlock h ha (fun q hq => acc_of_fuelOK hX (hr q hq)) (ih _ _ hp)

theorem pan_of_fuelPan (hX : OwnErrors X) {site : Site} {n : Nat} {tag : Nat} {b : Bytes} (h : Pans.FuelPan X site n tag b) : Pan X site tag b := by
  induction n generalizing tag b with
  | zero => exact h.elim
  | succ n ih =>
    unfold Pans.FuelPan Pans.TagPan at h
    by_cases h2 : tag = 2
    · subst h2
      rw [if_pos rfl] at h
      obtain ⟨v, t, a, hh, r, rfl, hv, ⟨area, subs, rest, hl, hs, ⟨s1, p, s2, rfl, h1, hp⟩, rfl⟩ |
        ⟨f, r', rfl, ⟨a1, s0, hl1, hs1, h0, rfl⟩, area, subs, rest, hl, hs, ⟨s1, p, s2, rfl, h1, hp⟩, rfl⟩⟩ := h
      · exact .hashed hv hl hs (fun s hm => accSub_of_subOK hX (h1 s hm)) (panSub_of_subPan hX (fun _ _ => ih) hp)
      · have := Pan.unhashed (X := X) (site := site) (t := t) (a := a) (h := hh) (rest := rest) hv hl1 hs1
          (fun s hm => accSub_of_subOK hX (h0 s hm)) hl hs (fun s hm => accSub_of_subOK hX (h1 s hm)) (panSub_of_subPan hX (fun _ _ => ih) hp)
        simpa using this
    · rw [if_neg h2] at h
      split at h
      · exact h
      · exact h.elim

theorem subPan_of_panSub {site : Site} {n : Nat} {t : UInt8} {b : Bytes} (hn : b.length < n)
    (ih : ∀ tag c, c.length < n → Pan X site tag c → Pans.FuelPan X site n tag c) (h : PanSub X site t b) :
    Pans.SubPan X (FuelOK X n) (fun site => Pans.FuelPan X site n) site t b := by
  cases h with
  | embedded h hb => exact .inl ⟨h, ih _ _ hn hb⟩
  | @keyBlock _ _ a b ps p h ha hps hp =>
    refine .inr ⟨h, _, rfl, ?_⟩
    unfold Pans.PanBlock
    refine (panLoop_block (src := ⟨a ++ b, rawErr .eof, [], false, true⟩) rfl (Nat.lt_succ_self _)).mpr ⟨ps, p, a, b, rfl, ha, fun q hq => ?_, ?_⟩
    · have := ha.mem_length q (by simp [hq])
      exact fuelOK_of_acc (hps q hq) (by simp at hn; omega)
    · have := ha.mem_length p (by simp)
      exact ih _ _ (by simp at hn; omega) hp

theorem fuelPan_of_pan {site : Site} {n : Nat} {tag : Nat} {b : Bytes} (h : Pan X site tag b) (hn : b.length < n) : Pans.FuelPan X site n tag b := by
  induction n generalizing tag b with
  | zero => omega
  | succ n ih =>
    have key : ∀ {t : UInt8} {c : Bytes}, c.length < n → AccSub X t c → SubOK X (FuelOK X n) t c :=
      fun hc ha => subOK_of_acc ha fun tag d hd hacc => fuelOK_of_acc hacc (by omega)
    have key2 : ∀ {t : UInt8} {c : Bytes}, c.length < n → PanSub X site t c → Pans.SubPan X (FuelOK X n) (fun site => Pans.FuelPan X site n) site t c :=
      fun hc ha => subPan_of_panSub hc (fun tag d hd hp => ih hp hd) ha
    unfold Pans.FuelPan Pans.TagPan
    by_cases h2 : tag = 2
    · subst h2
      rw [if_pos rfl]
      cases h with
      | secretKey ht => simp at ht
      | short5 ht => simp at ht
      | secretKey5 ht => simp at ht
      | @hashed _ v t a hh area s1 p s2 rest hv hl hs h1 hp =>
        simp only [List.length_cons, List.length_append, beOctets_length] at hn
        have hm := hs.mem_length
        refine ⟨_, _, _, _, _, rfl, hv, .inl ⟨area, _, rest, hl, hs, ⟨s1, p, s2, rfl, fun s hs' => ?_, ?_⟩, rfl⟩⟩
        · have := hm s (by simp [hs']); exact key (by omega) (h1 s hs')
        · have := hm p (by simp); exact key2 (by omega) hp
      | @unhashed _ v t a hh a1 s0 area s1 p s2 rest hv hl1 hs1 h0 hl hs h1 hp =>
        simp only [List.length_cons, List.length_append, beOctets_length] at hn
        have hm := hs.mem_length
        have hm1 := hs1.mem_length
        refine ⟨_, _, _, _, _, rfl, hv, .inr ⟨beOctets 2 a1.length ++ a1, beOctets 2 area.length ++ (area ++ rest), by simp, ⟨a1, s0, hl1, hs1, fun s hs' => ?_, rfl⟩,
          area, _, rest, hl, hs, ⟨s1, p, s2, rfl, fun s hs' => ?_, ?_⟩, rfl⟩⟩
        · have := hm1 s hs'; exact key (by omega) (h0 s hs')
        · have := hm s (by simp [hs']); exact key (by omega) (h1 s hs')
        · have := hm p (by simp); exact key2 (by omega) hp
    · rw [if_neg h2]
      have ht : tag ∈ [5, 7] := by
        cases h <;> first | assumption | exact absurd rfl h2
      rw [if_pos ht]
      exact h

/-! ## The top level -/

/-- what `parseTag` panics on -/
theorem Pans.parseTag (hX : OwnErrors X) (tag : Nat) (b : Bytes) : Pans (parseTag X tag b) (fun site _ _ => Pan X site tag b) :=
  (Pans.parseTagF X (b.length + 1) tag b).congr fun _ _ _ => ⟨pan_of_fuelPan hX, fun h => fuelPan_of_pan h (Nat.lt_succ_self _)⟩

theorem innerOK_iff (hX : OwnErrors X) {tag : Nat} {b : Bytes} : InnerOK X tag b ↔ Spec.Acc X tag b := ⟨acc_of_fuelOK hX, innerOK_of_acc⟩

theorem topOK_iff (hX : OwnErrors X) {tag : Nat} {b : Bytes} : TopOK X tag b ↔ AccTop X tag b := by
  refine ⟨fun h => ?_, topOK_of_accTop⟩
  unfold TopOK at h
  by_cases h8 : tag = 8
  · subst h8
    rw [if_pos rfl] at h
    obtain ⟨o, ho, hz⟩ := h
    have ho' := opens_of_openOK hX ho
    cases o with
    | none => exact .huge ho'
    | some z =>
      obtain ⟨qs, hq, ha⟩ := hz z rfl
      exact .packed ho' hq fun p hm' => acc_of_fuelOK hX (ha p hm')
  · rw [if_neg h8] at h
    exact .plain h8 (acc_of_fuelOK hX h)

theorem Pan.not_compressed {site : Site} {b : Bytes} : ¬ Pan X site 8 b := by
  intro hp
  cases hp with
  | secretKey ht => simp at ht
  | short5 ht => simp at ht
  | secretKey5 ht => simp at ht

theorem Pans.compressed (b : Bytes) : Calm (compressed X b) := by
  refine Pans.of_R (Q := fun o a a' => (selfCmp o false false false).item a.1 a'.1) fun o => ?_
  have h1 : (selfCmp o false false false).clean = true → CleanX X := by simp [selfCmp]
  have h2 : (selfCmp o false false false).real = true → RealX X := by simp [selfCmp]
  unfold Gpgpdump.compressed
  refine r_tagScope X h1 h2 (At.bindR X h1 h2 ((r_tag08 X h1 h2).at [] b) fun a a' ha => ?_)
  exact Cmp.R.bindItem Cmp.R.getCur fun i i' hi => Cmp.R.pure hi

theorem Pans.packetsParse (hX : OwnErrors X) (tag : Nat) (b : Bytes) : Pans (packetsParse X tag b) (fun site _ _ => PanTop X site tag b) := by
  by_cases h8 : tag = 8
  · subst h8
    have hd : Gpgpdump.packetsParse X 8 b = (do
        let (item, data) ← Gpgpdump.compressed X b
        match data with
        | none => return item
        | some z => P.build item (packetLoop X (Gpgpdump.parseTag X) (Src.ofBytes z))) := by
      unfold Gpgpdump.packetsParse; rw [if_pos rfl]; rfl
    rw [hd]
    have hloop : ∀ (z : Bytes) i, Pans (P.build i (packetLoop X (Gpgpdump.parseTag X) (Src.ofBytes z)))
        (fun site _ _ => ∃ ps p, Starts (ps ++ [p]) z ∧ (∀ q ∈ ps, Spec.Acc X q.1 q.2) ∧ Pan X site p.1 p.2) := fun z i =>
      (Pans.build i (Pans.forPackets X (fun t b => (Sub.parseTag t b).congr (innerOK_iff hX)) (Pans.parseTag hX) _ _)).congr
        fun _ _ _ => panLoop_seq (ofBytes_lazy z) rfl rfl (Nat.lt_succ_self _)
    constructor
    intro x p q j site
    rw [bind_panic]
    constructor
    · rintro (⟨s, h⟩ | ⟨⟨i, o⟩, s', h1, s, h2⟩)
      · exact (((Pans.compressed b).run x p q j site).mp ⟨s, h⟩).elim
      · obtain ⟨h3, rfl⟩ := compressed_sound h1
        simp only at h2 h3
        cases o with
        | none => cases h2
        | some z =>
          obtain ⟨ps, p', hz, ha, hp⟩ := ((hloop z i).run x p q j site).mp ⟨s, h2⟩
          exact .packed (opens_of_openOK hX h3) hz ha hp
    · intro h
      cases h with
      | plain h => exact absurd h Pan.not_compressed
      | packed ho hz ha hp =>
        obtain ⟨i, hi⟩ := compressed_complete x p q j (openOK_of_opens ho)
        obtain ⟨s, hs⟩ := ((hloop _ i).run x p q j site).mpr ⟨_, _, hz, ha, hp⟩
        exact .inr ⟨_, _, hi, s, hs⟩
  · unfold Gpgpdump.packetsParse
    rw [if_neg h8]
    refine (Pans.parseTag hX tag b).congr fun site _ _ => ⟨.plain, fun h => ?_⟩
    cases h with
    | plain h => exact h
    | packed => exact absurd rfl h8

/-- C59 (exactness): `Parse` panics, with this run-time error, exactly if the input starts with accepted packets that are followed by a
packet of the grammar `PanTop`. -/
theorem C59_exact (X : Ext) (hX : OwnErrors X) (x : Ctx) (s : Source) (ht : s.tail = rawErr .eof) (site : Site) :
    (parseSrc X (some x) s.src).res = .panic site ↔
      ∃ ps p, Starts (ps ++ [p]) s.data ∧ (∀ q ∈ ps, AccTop X q.1 q.2) ∧ PanTop X site p.1 p.2 := by
  have hl := Pans.forPackets X (fun t b => (Sub.packetsParse (X := X) t b).congr (topOK_iff hX)) (Pans.packetsParse hX) (s.data.length + 1) s.src
  have hq := panLoop_seq (X := X) (R := AccTop X) (B := PanTop X) (site := site) s.isLazy rfl ht (Nat.lt_succ_self _)
  have e : (parseSrc X (some x) s.src).res = (forPackets X (packetsParse X) (s.data.length + 1) s.src (St.at (some x) [] [] (newItem []))).1 := rfl
  rw [e]
  refine Iff.trans ?_ ((hl.run x [] [] (newItem []) site).trans hq)
  constructor
  · intro h; exact ⟨_, Prod.ext h rfl⟩
  · rintro ⟨s, h⟩; rw [h]

/-- C59 (the three outcomes): with what `C56_exact` says about accepted input, `Parse` reports an error exactly on the remaining
inputs: those that are not a sequence of accepted packets and do not start with accepted packets and one that makes it panic. -/
theorem C59_error (X : Ext) (hX : OwnErrors X) (hR : RealX X) (x : Ctx) (s : Source) (ht : s.tail = rawErr .eof) :
    (∃ e, (parseSrc X (some x) s.src).res = .err e ∧ e.real) ↔
      (¬ ∃ ps, PacketSeq ps s.data ∧ ∀ p ∈ ps, AccTop X p.1 p.2) ∧
      ¬ ∃ site ps p, Starts (ps ++ [p]) s.data ∧ (∀ q ∈ ps, AccTop X q.1 q.2) ∧ PanTop X site p.1 p.2 := by
  have h1 := C56_exact X hX x s ht
  have h2 := fun site => C59_exact X hX x s ht site
  obtain ⟨h3, h4⟩ := C02_packets X hR (some x) s.src (by rw [show s.src.tail = s.tail from rfl, ht]; exact fun h => by cases h)
  constructor
  · rintro ⟨e, he, -⟩
    refine ⟨fun h => ?_, fun ⟨site, h⟩ => ?_⟩
    · rw [h1.mpr h] at he; cases he
    · rw [(h2 site).mpr h] at he; cases he
  · rintro ⟨n1, n2⟩
    cases hr : (parseSrc X (some x) s.src).res with
    | ok u => exact absurd (h1.mp hr) n1
    | err e => exact ⟨e, rfl, h4 e hr⟩
    | panic site => exact absurd ⟨site, (h2 site).mp hr⟩ n2
    | stuck => exact absurd hr h3

/-- C59 at `New` and `Parse`: for input without an armor block and without an overlong line. -/
theorem C59_new (X : Ext) (hX : OwnErrors X) (x : Ctx) (ha : x.armor = false) (d : Bytes) (sched : List Nat) {ls} (h : Lines d ls false d)
    (hb : ¬ ∃ block, ArmorBlock ls block) (site : Site) :
    (parse X (some x) (some (Source.src ⟨d, rawErr .eof, sched⟩))).res = .panic site ↔
      ∃ ps p, Starts (ps ++ [p]) d ∧ (∀ q ∈ ps, AccTop X q.1 q.2) ∧ PanTop X site p.1 p.2 := by
  rw [C34_verbatim_partial X (some x) ha d sched h hb]
  exact C59_exact X hX x ⟨d, rawErr .eof, []⟩ rfl site

/-! ## Examples -/

/-! A signature with a key block that holds a user ID, a secret key of an unknown algorithm and an octet that does not start a
packet; the signature is cut after its hashed subpackets, a user ID stands before it, and behind it there is no packet. -/

example (X : Ext) (hX : OwnErrors X) (x : Ctx) : (parseSrc X (some x) (Source.src ⟨
    [0xcd, 1, 65, 0xc2, 23, 4, 0, 17, 8, 0, 17, 16, 38, 0, 0xcd, 1, 66, 0xc5, 8, 4, 0, 0, 0, 0, 99, 0, 7, 3, 0xff], rawErr .eof, [2]⟩)).res = .panic .sliceRange := by
  refine (C59_exact X hX x _ rfl _).mpr ⟨[(13, [65])], (2, [4, 0, 17, 8, 0, 17, 16, 38, 0, 0xcd, 1, 66, 0xc5, 8, 4, 0, 0, 0, 0, 99, 0, 7, 3]), ?_, ?_, .plain ?_⟩
  · have hc : split [0xcd, 1, 65, 0xc2, 23, 4, 0, 17, 8, 0, 17, 16, 38, 0, 0xcd, 1, 66, 0xc5, 8, 4, 0, 0, 0, 0, 99, 0, 7, 3] =
        ([(13, [65]), (2, [4, 0, 17, 8, 0, 17, 16, 38, 0, 0xcd, 1, 66, 0xc5, 8, 4, 0, 0, 0, 0, 99, 0, 7, 3])], .clean) := by decide +kernel
    have h := split_clean.mp (congrArg Prod.snd hc)
    rw [hc] at h
    exact .closed (b := [0xff]) h
  · intro q hq
    simp only [List.mem_singleton] at hq
    subst hq
    exact .plain (by decide) (.other (by decide))
  · refine Pan.hashed (X := X) (v := 4) (t := 0) (a := 17) (h := 8) (area := [16, 38, 0, 0xcd, 1, 66, 0xc5, 8, 4, 0, 0, 0, 0, 99, 0, 7, 3]) (s1 := [])
      (p := (38, [0, 0xcd, 1, 66, 0xc5, 8, 4, 0, 0, 0, 0, 99, 0, 7, 3])) (s2 := []) (rest := []) (by decide) (by decide)
      (.cons (lenc := [16]) (area := []) (.one (by decide)) .nil) (by simp) ?_
    have hc : split [0xcd, 1, 66, 0xc5, 8, 4, 0, 0, 0, 0, 99, 0, 7] = ([(13, [66]), (5, [4, 0, 0, 0, 0, 99, 0, 7])], .clean) := by decide +kernel
    have h := split_clean.mp (congrArg Prod.snd hc)
    rw [hc] at h
    refine .keyBlock rfl (a := [0xcd, 1, 66, 0xc5, 8, 4, 0, 0, 0, 0, 99, 0, 7]) (b := [3]) (ps := [(13, [66])]) (p := (5, [4, 0, 0, 0, 0, 99, 0, 7])) h ?_ ?_
    · intro q hq
      simp only [List.mem_singleton] at hq
      subst hq
      exact .other (by decide)
    · exact .secretKey (by decide) (by decide) (.v4 (tm := [0, 0, 0, 0]) (a := 99) (f := []) rfl (.other (by decide))) (by decide)

/-! With two octets behind the usage octet the same secret key is no longer in the grammar of the packets that make the tool panic. -/

example (X : Ext) (site : Site) : ¬ Pan X site 5 [4, 0, 0, 0, 0, 99, 0, 7, 8] := by
  intro h
  generalize hb : ([4, 0, 0, 0, 0, 99, 0, 7, 8] : Bytes) = b at h
  cases h with
  | secretKey ht hv h ha =>
    cases h with
    | v4 hl h =>
      generalize hq : ([0, _] : Bytes) = q at h
      cases h with
      | other => have := congrArg List.length hb; simp [hl] at this
      | rsa h => exact ha (by simp at h; rcases h with rfl | rfl | rfl <;> decide)
      | dsa => exact ha (by decide)
      | elgamal h => exact ha (by simp at h; rcases h with rfl | rfl <;> decide)
      | curve h => exact ha (by simp at h; rcases h with rfl | rfl <;> decide)
      | ecdh => exact ha (by decide)
    | v3 => simp at hb
    | v5 => simp at hb
    | other h => simp at hb
  | short5 => simp at hb
  | secretKey5 => simp at hb

/-! `Tests.X` meets the hypotheses `OwnErrors` and `RealX`. -/

example : OwnErrors Tests.X ∧ RealX Tests.X := by
  refine ⟨fun zd => ?_, ?_⟩
  · refine ⟨?_, ?_, ?_, ?_⟩ <;> simp [Tests.X, rawErr]
  · constructor <;> simp [Tests.X, rawErr, GoErr.real]

end Gpgpdump
