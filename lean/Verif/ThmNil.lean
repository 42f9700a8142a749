import Verif.NilTags
import Verif.ThmPanic

/-!
# C61: the inputs on which parsing without a context panics
-/

namespace Gpgpdump
open P Spec Src Cmp

variable {X : Ext}

/-! ## Fuel and grammar -/

theorem needsSub_of_subNil (hX : OwnErrors X) {n : Nat} {t : UInt8} {b : Bytes} (ih : ∀ tag c, Nils.FuelNil X n tag c → Needs X tag c)
    (h : Nils.SubNil X (FuelOK X n) (Nils.FuelNil X n) t b) : NeedsSub X t b := by
  rcases h with ⟨h, hb⟩ | h | ⟨h, hb⟩ | ⟨h, d, rfl, hb⟩
  · exact .created h hb
  · exact .expires h
  · exact .embedded h (ih _ _ hb)
  · unfold Pans.PanBlock at hb
    obtain ⟨ps, p, a, b, rfl, ha, hr, hp⟩ := (panLoop_block (src := ⟨d, rawErr .eof, [], false, true⟩) rfl (Nat.lt_succ_self _)).mp hb
    exact .keyBlock h ha (fun q hq => acc_of_fuelOK hX (hr q hq)) (ih _ _ hp)

theorem needs_of_fuelNil (hX : OwnErrors X) {n : Nat} {tag : Nat} {b : Bytes} (h : Nils.FuelNil X n tag b) : Needs X tag b := by
  induction n generalizing tag b with
  | zero => exact h.elim
  | succ n ih =>
    unfold Nils.FuelNil Nils.TagNil at h
    by_cases h2 : tag = 2
    · subst h2
      rw [if_pos rfl] at h
      obtain ⟨v, t, a, hh, r, rfl, hv, ⟨area, subs, rest, hl, hs, ⟨s1, p, s2, rfl, h1, hp⟩, rfl⟩ |
        ⟨f, r', rfl, ⟨a1, s0, hl1, hs1, h0, rfl⟩, area, subs, rest, hl, hs, ⟨s1, p, s2, rfl, h1, hp⟩, rfl⟩⟩ := h
      · exact .hashed hv hl hs (fun s hm => accSub_of_subOK hX (h1 s hm)) (needsSub_of_subNil hX (fun _ _ => ih) hp)
      · have := Needs.unhashed (X := X) (t := t) (a := a) (h := hh) (rest := rest) hv hl1 hs1
          (fun s hm => accSub_of_subOK hX (h0 s hm)) hl hs (fun s hm => accSub_of_subOK hX (h1 s hm)) (needsSub_of_subNil hX (fun _ _ => ih) hp)
        simpa using this
    · rw [if_neg h2] at h
      split at h
      · obtain ⟨v, r, rfl, hv, hl⟩ := h
        exact .key (by assumption) hv hl
      · exact .mode h

theorem subNil_of_needsSub {n : Nat} {t : UInt8} {b : Bytes} (hn : b.length < n)
    (ih : ∀ tag c, c.length < n → Needs X tag c → Nils.FuelNil X n tag c) (h : NeedsSub X t b) :
    Nils.SubNil X (FuelOK X n) (Nils.FuelNil X n) t b := by
  cases h with
  | created h hb => exact .inl ⟨h, hb⟩
  | expires h => exact .inr (.inl h)
  | embedded h hb => exact .inr (.inr (.inl ⟨h, ih _ _ hn hb⟩))
  | @keyBlock _ a b ps p h ha hps hp =>
    refine .inr (.inr (.inr ⟨h, _, rfl, ?_⟩))
    unfold Pans.PanBlock
    refine (panLoop_block (src := ⟨a ++ b, rawErr .eof, [], false, true⟩) rfl (Nat.lt_succ_self _)).mpr ⟨ps, p, a, b, rfl, ha, fun q hq => ?_, ?_⟩
    · have := ha.mem_length q (by simp [hq])
      exact fuelOK_of_acc (hps q hq) (by simp at hn; omega)
    · have := ha.mem_length p (by simp)
      exact ih _ _ (by simp at hn; omega) hp

theorem fuelNil_of_needs {n : Nat} {tag : Nat} {b : Bytes} (h : Needs X tag b) (hn : b.length < n) : Nils.FuelNil X n tag b := by
  induction n generalizing tag b with
  | zero => omega
  | succ n ih =>
    have key : ∀ {t : UInt8} {c : Bytes}, c.length < n → AccSub X t c → SubOK X (FuelOK X n) t c :=
      fun hc ha => subOK_of_acc ha fun tag d hd hacc => fuelOK_of_acc hacc (by omega)
    have key2 : ∀ {t : UInt8} {c : Bytes}, c.length < n → NeedsSub X t c → Nils.SubNil X (FuelOK X n) (Nils.FuelNil X n) t c :=
      fun hc ha => subNil_of_needsSub hc (fun tag d hd hp => ih hp hd) ha
    unfold Nils.FuelNil Nils.TagNil
    cases h with
    | mode ht =>
      have h2 : tag ≠ 2 := by rintro rfl; simp at ht
      have h5 : tag ∉ [5, 6, 7, 14] := by
        simp only [List.mem_cons, List.not_mem_nil, or_false] at ht
        rcases ht with rfl | rfl | rfl | rfl <;> decide
      rw [if_neg h2, if_neg h5]
      exact ht
    | key ht hv h =>
      have h2 : tag ≠ 2 := by rintro rfl; simp at ht
      rw [if_neg h2, if_pos ht]
      exact ⟨_, _, rfl, hv, h⟩
    | @hashed v t a hh area s1 p s2 rest hv hl hs h1 hp =>
      rw [if_pos rfl]
      simp only [List.length_cons, List.length_append, beOctets_length] at hn
      have hm := hs.mem_length
      refine ⟨_, _, _, _, _, rfl, hv, .inl ⟨area, _, rest, hl, hs, ⟨s1, p, s2, rfl, fun s hs' => ?_, ?_⟩, rfl⟩⟩
      · have := hm s (by simp [hs']); exact key (by omega) (h1 s hs')
      · have := hm p (by simp); exact key2 (by omega) hp
    | @unhashed v t a hh a1 s0 area s1 p s2 rest hv hl1 hs1 h0 hl hs h1 hp =>
      rw [if_pos rfl]
      simp only [List.length_cons, List.length_append, beOctets_length] at hn
      have hm := hs.mem_length
      have hm1 := hs1.mem_length
      refine ⟨_, _, _, _, _, rfl, hv, .inr ⟨beOctets 2 a1.length ++ a1, beOctets 2 area.length ++ (area ++ rest), by simp, ⟨a1, s0, hl1, hs1, fun s hs' => ?_, rfl⟩,
        area, _, rest, hl, hs, ⟨s1, p, s2, rfl, fun s hs' => ?_, ?_⟩, rfl⟩⟩
      · have := hm1 s hs'; exact key (by omega) (h0 s hs')
      · have := hm s (by simp [hs']); exact key (by omega) (h1 s hs')
      · have := hm p (by simp); exact key2 (by omega) hp

/-! ## The top level -/

theorem Nils.parseTag (hX : OwnErrors X) (tag : Nat) (b : Bytes) : Nils (parseTag X tag b) (fun _ _ => Needs X tag b) :=
  (Nils.parseTagF X (b.length + 1) tag b).congr fun _ _ => ⟨needs_of_fuelNil hX, fun h => fuelNil_of_needs h (Nat.lt_succ_self _)⟩

theorem Agree.parseTag (tag : Nat) (b : Bytes) : Agree (parseTag X tag b) := Agree.parseTagF X _ tag b

theorem Needs.not_compressed {b : Bytes} : ¬ Needs X 8 b := by
  intro hp
  cases hp with
  | mode ht => simp at ht
  | key ht => simp at ht

theorem Deaf.compressed (b : Bytes) : Deaf (compressed X b) := by
  unfold Gpgpdump.compressed tagScope
  exact .bind (.flag _) fun _ => .scope _ _ (.bind (.tag08 X) fun _ => .bind .getCur fun _ => .pure _)

theorem Agree.compressed (b : Bytes) : Agree (compressed X b) := by
  unfold Gpgpdump.compressed tagScope
  exact .bind (.flag (.tagDump 8)) fun _ => .scope _ _ (.bind (.of_R (fun _ _ h => h) (r_tag08 X (by simp [nilCmp]) (by simp [nilCmp]))) fun _ =>
    .bind .getCur fun _ => .pure _)

theorem packetsParse_eight (b : Bytes) : packetsParse X 8 b = (do
    let (item, data) ← compressed X b
    match data with
    | none => return item
    | some z => P.build item (packetLoop X (parseTag X) (Src.ofBytes z))) := by
  unfold packetsParse; rw [if_pos rfl]; rfl

theorem Agree.packetsParse (tag : Nat) (b : Bytes) : Agree (packetsParse X tag b) := by
  by_cases h8 : tag = 8
  · subst h8
    rw [packetsParse_eight]
    refine .bind (.compressed b) fun a => ?_
    obtain ⟨i, o⟩ := a
    cases o with
    | none => exact .pure _
    | some z => exact .build _ (.forPackets X Agree.parseTag _ _)
  · unfold Gpgpdump.packetsParse
    rw [if_neg h8]
    exact .parseTag tag b

theorem Nils.packetsParse (hX : OwnErrors X) (tag : Nat) (b : Bytes) : Nils (packetsParse X tag b) (fun _ _ => NeedsTop X tag b) := by
  by_cases h8 : tag = 8
  · subst h8
    rw [packetsParse_eight]
    have hloop : ∀ (z : Bytes) i, Nils (P.build i (packetLoop X (Gpgpdump.parseTag X) (Src.ofBytes z)))
        (fun _ _ => ∃ ps p, Starts (ps ++ [p]) z ∧ (∀ q ∈ ps, Spec.Acc X q.1 q.2) ∧ Needs X p.1 p.2) := fun z i =>
      (Nils.build i (Nils.forPackets X (fun t b => (Sub.parseTag t b).congr (innerOK_iff hX)) Agree.parseTag (Nils.parseTag hX) _ _)).congr
        fun _ _ => panLoop_seq (ofBytes_lazy z) rfl rfl (Nat.lt_succ_self _)
    constructor
    intro p q j
    rw [bind_panic]
    have hag := (Agree.compressed (X := X) b).run _ _ (twin_at p q j)
    constructor
    · rintro (⟨s, h⟩ | ⟨⟨i, o⟩, s', h1, s, h2⟩)
      · exact absurd (by rw [h]) ((Deaf.compressed (X := X) b).run (St.at none p q j) rfl).1
      · rw [h1] at hag
        rcases hag with hag | ⟨e, tw⟩
        · cases hag
        · have h3 : compressed X b (St.at (some Ctx.empty) p q j) = (.ok (i, o), (compressed X b (St.at (some Ctx.empty) p q j)).2) := Prod.ext e.symm rfl
          obtain ⟨h4, h5⟩ := compressed_sound h3
          simp only at h2 h4
          cases o with
          | none => cases h2
          | some z =>
            have hs' : s' = St.at none p q s'.cur := by
              rw [h5] at tw
              rcases s' with ⟨c, rd, cur⟩
              have h6 : c = none := tw.nil
              have h7 : rd = _ := tw.rd
              rw [h6, h7]; rfl
            rw [hs'] at h2
            obtain ⟨ps, p', hz, ha, hp⟩ := ((hloop z i).run p q s'.cur).mp ⟨s, h2⟩
            exact .packed (opens_of_openOK hX h4) hz ha hp
    · intro h
      cases h with
      | plain h => exact absurd h Needs.not_compressed
      | packed ho hz ha hp =>
        obtain ⟨i, hi⟩ := compressed_complete Ctx.empty p q j (openOK_of_opens ho)
        rw [hi] at hag
        rcases hag with hag | ⟨e, tw⟩
        · exact absurd hag ((Deaf.compressed (X := X) b).run (St.at none p q j) rfl).1
        · have hs' : (compressed X b (St.at none p q j)).2 = St.at none p q (compressed X b (St.at none p q j)).2.cur := by
            generalize (compressed X b (St.at none p q j)).2 = s' at tw
            rcases s' with ⟨c, rd, cur⟩
            have h6 : c = none := tw.nil
            have h7 : rd = _ := tw.rd
            rw [h6, h7]; rfl
          obtain ⟨s, hs⟩ := ((hloop _ i).run p q (compressed X b (St.at none p q j)).2.cur).mpr ⟨_, _, hz, ha, hp⟩
          exact .inr ⟨_, (compressed X b (St.at none p q j)).2, Prod.ext e rfl, s, by rw [hs']; exact hs⟩
  · unfold Gpgpdump.packetsParse
    rw [if_neg h8]
    refine (Nils.parseTag hX tag b).congr fun _ _ => ⟨.plain, fun h => ?_⟩
    cases h with
    | plain h => exact h
    | packed => exact absurd rfl h8

/-- C61 (exactness): without a context `Parse` panics on the missing context exactly if the input starts with accepted packets that are
followed by a packet that needs one (`NeedsTop`). -/
theorem C61_exact (X : Ext) (hX : OwnErrors X) (s : Source) (ht : s.tail = rawErr .eof) :
    (parseSrc X none s.src).res = .panic .nilCtx ↔
      ∃ ps p, Starts (ps ++ [p]) s.data ∧ (∀ q ∈ ps, AccTop X q.1 q.2) ∧ NeedsTop X p.1 p.2 := by
  have hl := Nils.forPackets X (fun t b => (Sub.packetsParse (X := X) t b).congr (topOK_iff hX)) Agree.packetsParse (Nils.packetsParse hX) (s.data.length + 1) s.src
  have hq := panLoop_seq (X := X) (R := AccTop X) (B := fun _ => NeedsTop X) (site := .nilCtx) s.isLazy rfl ht (Nat.lt_succ_self _)
  have e : (parseSrc X none s.src).res = (forPackets X (packetsParse X) (s.data.length + 1) s.src (St.at none [] [] (newItem []))).1 := rfl
  rw [e]
  refine Iff.trans ?_ ((hl.run [] [] (newItem [])).trans hq)
  constructor
  · intro h; exact ⟨_, Prod.ext h rfl⟩
  · rintro ⟨s, h⟩; rw [h]

/-- C61: on all other inputs a nil context gives exactly what a context without options gives. -/
theorem C61_else (X : Ext) (hX : OwnErrors X) (s : Source) (ht : s.tail = rawErr .eof)
    (hno : ¬ ∃ ps p, Starts (ps ++ [p]) s.data ∧ (∀ q ∈ ps, AccTop X q.1 q.2) ∧ NeedsTop X p.1 p.2) :
    (parseSrc X none s.src).packets = (parseSrc X (some Ctx.empty) s.src).packets ∧
      (parseSrc X none s.src).res = (parseSrc X (some Ctx.empty) s.src).res := by
  have h := Cmp.parseSrc (k := nilCmp false false) (X := X) (src := s.src)
    (r_parseAny X (by simp [nilCmp]) (by simp [nilCmp]) s.src (by simp [nilCmp]) rfl) (nilCmp_ctxs _ _)
  rcases h with ⟨-, h⟩ | ⟨h1, -, -, h2, -⟩
  · exact absurd ((C61_exact X hX s ht).mp h) hno
  · exact ⟨h2 rfl, h1⟩

/-- C61 at `New` and `Parse`: for input without an armor block and without an overlong line. -/
theorem C61_new (X : Ext) (hX : OwnErrors X) (d : Bytes) (sched : List Nat) {ls} (h : Lines d ls false d) (hb : ¬ ∃ block, ArmorBlock ls block) :
    (parse X none (some (Source.src ⟨d, rawErr .eof, sched⟩))).res = .panic .nilCtx ↔
      ∃ ps p, Starts (ps ++ [p]) d ∧ (∀ q ∈ ps, AccTop X q.1 q.2) ∧ NeedsTop X p.1 p.2 := by
  rw [C34_verbatim_partial X none rfl d sched h hb]
  exact C61_exact X hX ⟨d, rawErr .eof, []⟩ rfl

/-! ## Examples -/

/-- a user ID, then a signature whose unhashed area ends with an expiration time; what follows does not matter -/
example (X : Ext) (hX : OwnErrors X) : (parseSrc X none (Source.src ⟨
    [0xcd, 1, 65, 0xc2, 14, 4, 0, 17, 8, 0, 0, 0, 5, 2, 7, 1, 1, 3, 9, 0xff], rawErr .eof, [2]⟩)).res = .panic .nilCtx := by
  refine (C61_exact X hX _ rfl).mpr ⟨[(13, [65])], (2, [4, 0, 17, 8, 0, 0, 0, 5, 2, 7, 1, 1, 3, 9]), ?_, ?_, .plain ?_⟩
  · have hc : split [0xcd, 1, 65, 0xc2, 14, 4, 0, 17, 8, 0, 0, 0, 5, 2, 7, 1, 1, 3, 9] =
        ([(13, [65]), (2, [4, 0, 17, 8, 0, 0, 0, 5, 2, 7, 1, 1, 3, 9])], .clean) := by decide +kernel
    have h := split_clean.mp (congrArg Prod.snd hc)
    rw [hc] at h
    exact .closed (b := [0xff]) h
  · intro q hq
    simp only [List.mem_singleton] at hq
    subst hq
    exact .plain (by decide) (.other (by decide))
  · exact .unhashed (X := X) (v := 4) (t := 0) (a := 17) (h := 8) (a1 := []) (s0 := []) (area := [2, 7, 1, 1, 3]) (s1 := [(7, [1])]) (p := (3, []))
      (s2 := []) (rest := [9]) (by decide) (by decide) .nil (by simp) (by decide)
      (.cons (lenc := [2]) (area := [1, 3]) (.one (by decide)) (.cons (lenc := [1]) (area := []) (.one (by decide)) .nil))
      (by simp only [List.mem_singleton]; rintro s rfl; exact .plain (by decide) (by decide)) (.expires (by decide))

/-- a user ID alone needs no context, so the outcome is the one with an empty context -/
example (X : Ext) (b : Bytes) : ¬ NeedsTop X 13 b := by
  intro h
  generalize ht : 13 = tag at h
  cases h with
  | plain h =>
    cases h with
    | mode ht' => subst ht; simp at ht'
    | key ht' => subst ht; simp at ht'
    | hashed => cases ht
    | unhashed => cases ht
  | packed => cases ht

/-- a key that breaks off in its creation time needs none -/
example (X : Ext) : ¬ Needs X 6 [4, 0, 0, 0] := by
  intro h
  generalize hb : ([4, 0, 0, 0] : Bytes) = b at h
  cases h with
  | mode ht => simp at ht
  | key _ _ h => cases hb; simp at h

end Gpgpdump
