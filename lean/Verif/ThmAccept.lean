import Verif.AcceptTags
import Verif.AcceptCut
import Verif.ThmHeader
import Verif.ThmNew

/-!
# C56: the inputs the tool accepts
-/

namespace Gpgpdump
open P Spec Src

variable {X : Ext}

/-! ## Sequences of packets -/

theorem packetSeq_cons {ps d t b r} (h : decNext d = .packet t b r) : PacketSeq ps d ↔ ∃ qs, ps = (t, b) :: qs ∧ PacketSeq qs r := by
  rw [packetSeq_iff, split_packet h]
  constructor
  · rintro (h | ⟨qs, t', b', h, rfl⟩)
    · simp only [Prod.mk.injEq] at h
      obtain ⟨rfl, h2⟩ := h
      exact ⟨_, rfl, packetSeq_iff.mpr (.inl (by rw [← h2]))⟩
    · simp only [Prod.mk.injEq] at h
      obtain ⟨rfl, h2⟩ := h
      exact ⟨_, rfl, packetSeq_iff.mpr (.inr ⟨_, t', b', by rw [← h2], rfl⟩)⟩
  · rintro ⟨qs, rfl, h⟩
    rcases packetSeq_iff.mp h with h1 | ⟨qs', t', b', h1, rfl⟩
    · left; rw [h1]
    · right; exact ⟨(t, b) :: qs', t', b', by rw [h1], rfl⟩

theorem loopOK_seq {R : Nat → Bytes → Prop} {f : Nat} {src : Src} (hl : Lazy src) (hs : src.strict = false) (ht : src.tail = rawErr .eof)
    (hf : src.data.length < f) : LoopOK X R f src ↔ ∃ ps, PacketSeq ps src.data ∧ ∀ p ∈ ps, R p.1 p.2 := by
  induction f generalizing src with
  | zero => omega
  | succ f ih =>
    obtain ⟨hk, hm⟩ := nextPacket_spec (X := X) hl
    rcases hn : nextPacket X src with ⟨r, src'⟩
    rw [hn] at hk hm
    unfold LoopOK
    rw [hn]
    have hno : ∀ {ps}, (split src.data).1 = [] → (split src.data).2 = .truncated ∨ (split src.data).2 = .noMSB → ¬ PacketSeq ps src.data := by
      intro ps h1 h2 h
      rcases packetSeq_iff.mp h with h | ⟨qs, t, b, h, -⟩ <;> rw [h] at h2 <;> simp at h2
    cases hd : decNext src.data with
    | packet t b rest =>
      rw [hd] at hm
      obtain ⟨rfl, h2⟩ := hm
      have hlt := decNext_shorter hd
      simp only
      rw [ih (hk.isLazy hl) (hk.strict.trans hs) (hk.tail.trans ht) (by simp only at h2; rw [h2]; omega)]
      simp only at h2
      rw [h2]
      constructor
      · rintro ⟨h, ps, hp, ha⟩; exact ⟨(t, b) :: ps, (packetSeq_cons hd).mpr ⟨ps, rfl, hp⟩, by simpa using ⟨h, fun a b hm => ha (a, b) hm⟩⟩
      · rintro ⟨ps, hp, ha⟩
        obtain ⟨qs, rfl, hq⟩ := (packetSeq_cons hd).mp hp
        simp only [List.mem_cons, forall_eq_or_imp] at ha
        exact ⟨ha.1, qs, hq, ha.2⟩
    | toEnd t b =>
      rw [hd] at hm
      obtain ⟨h1, h2⟩ := (hm.1 hs).1 (by rw [ht]; rfl)
      simp only at h1 h2
      subst h1
      simp only
      have hlt : src'.data.length < f := by
        rw [h2]
        have hne : src.data ≠ [] := by intro h; rw [h] at hd; simp [decNext] at hd
        have := List.length_pos_iff.mpr hne
        simp; omega
      rw [ih (hk.isLazy hl) (hk.strict.trans hs) (hk.tail.trans ht) hlt, h2]
      have hsp := split_toEnd (decNext_toEnd hd)
      constructor
      · rintro ⟨h, -⟩; exact ⟨[(t, b)], .toEnd (decNext_toEnd hd), by simpa using h⟩
      · rintro ⟨ps, hp, ha⟩
        rcases packetSeq_iff.mp hp with h | ⟨qs, t', b', h, rfl⟩
        · rw [hsp] at h; simp at h
        · rw [hsp] at h
          simp only [Prod.mk.injEq, Stop.toEnd.injEq] at h
          obtain ⟨rfl, rfl, rfl⟩ := h
          exact ⟨by simpa using ha, [], .nil, by simp⟩
    | noMSB =>
      rw [hd] at hm
      simp only at hm
      subst hm
      simp only
      constructor
      · intro h; cases h
      · rintro ⟨ps, hp, -⟩
        refine absurd hp (hno ?_ (.inr ?_))
        · exact split_stop (by rw [hd]; intros; simp)
        · exact (decNext_of_stop (by rw [hd]; intros; simp)).2.2.1.mpr hd
    | truncated =>
      rw [hd] at hm
      obtain ⟨e, h1, h2⟩ := hm
      simp only at h1
      subst h1
      simp only
      constructor
      · intro h
        rcases h2 with ⟨-, rfl⟩ | ⟨h3, -⟩
        · rw [ht] at h; cases h
        · rw [hs] at h3; cases h3
      · rintro ⟨ps, hp, -⟩
        refine absurd hp (hno ?_ (.inl ?_))
        · exact split_stop (by rw [hd]; intros; simp)
        · exact (decNext_of_stop (by rw [hd]; intros; simp)).2.1.mpr hd
    | atEnd =>
      rw [hd] at hm
      obtain ⟨e, h1, h2⟩ := hm
      simp only at h1
      subst h1
      simp only
      have h0 := decNext_atEnd.mp hd
      constructor
      · intro _; rw [h0]; exact ⟨[], .nil, by simp⟩
      · rintro -
        rcases h2 with ⟨-, rfl⟩ | ⟨h3, -⟩
        · rw [ht]; rfl
        · rw [hs] at h3; cases h3

/-! ## Compressed packets -/

theorem copyFrom_err {z : Stream} {e : GoErr} (h : copyFrom z = .error e) : (2 ^ 30 ≤ z.data.length ∧ e = wrapErr .tooLarge) ∨ e = z.tail.wrap := by
  unfold copyFrom maxDecompressionDataSize at h
  split at h
  · cases h; exact .inl ⟨by omega, rfl⟩
  · split at h
    · cases h
    · cases h; exact .inr rfl

theorem copyFrom_big {z : Stream} (h : 2 ^ 30 ≤ z.data.length) : copyFrom z = .error (wrapErr .tooLarge) := by
  unfold copyFrom maxDecompressionDataSize
  rw [if_pos (by omega)]

theorem openOK_of_opens {b o} (h : Opens X b o) : OpenOK X b o := by
  cases h with
  | data h =>
    obtain ⟨a, zd, rfl, h0⟩ : ∃ a zd, b = a :: zd ∧ zd ≠ [] := by cases h <;> exact ⟨_, _, rfl, ‹_›⟩
    exact .data h0 ((unpackRes_ok h0).mpr (.inl h))
  | empty => exact .one
  | @unknown a zd h =>
    by_cases h0 : zd = []
    · subst h0; exact .one
    · exact .data h0 ((unpackRes_ok h0).mpr (.inr ⟨h, rfl⟩))
  | zip h0 h => exact .large h0 (copyFrom_big h) rfl
  | zlib h0 hz h =>
    refine .large h0 (e := wrapErr .tooLarge) ?_ rfl
    change (match X.zlib _ with | .error e => Except.error e.wrap | .ok z => copyFrom z) = _
    rw [hz]; exact copyFrom_big h
  | bzip2 h0 h => exact .large h0 (copyFrom_big h) rfl

theorem opens_of_openOK (hX : OwnErrors X) {b o} (h : OpenOK X b o) : Opens X b o := by
  cases h with
  | one => exact .empty
  | data h0 h =>
    rcases (unpackRes_ok h0).mp h with h' | ⟨h', rfl⟩
    · exact .data h'
    · exact .unknown h'
  | @large a zd e h0 h he =>
    have hc : ∀ n : Nat, n < 256 → a.toNat = n → a = UInt8.ofNat n := by
      rintro n - rfl; simp
    obtain ⟨x1, x2, x3, x4⟩ := hX zd
    unfold unpackRes at h
    split at h
    · cases h
    · rename_i h1; cases hc 1 (by omega) h1
      rcases copyFrom_err h with ⟨h, -⟩ | rfl
      · exact .zip h0 h
      · exact absurd he x1
    · rename_i h1; cases hc 2 (by omega) h1
      split at h
      · rename_i e' hz; cases h; exact absurd he (x3 e' hz)
      · rename_i z hz
        rcases copyFrom_err h with ⟨h, -⟩ | rfl
        · exact .zlib h0 hz h
        · exact absurd he (x4 _ hz)
    · rename_i h1; cases hc 3 (by omega) h1
      rcases copyFrom_err h with ⟨h, -⟩ | rfl
      · exact .bzip2 h0 h
      · exact absurd he x2
    · cases h

/-! ## Fuel and grammar -/

theorem subOK_of_acc {R : Nat → Bytes → Prop} {t : UInt8} {b : Bytes} (h : AccSub X t b) (h2 : ∀ tag c, c.length ≤ b.length → Spec.Acc X tag c → R tag c) :
    SubOK X R t b := by
  unfold SubOK
  cases h with
  | plain h hl =>
    simp only [List.mem_cons, List.not_mem_nil, or_false, not_or] at h
    rw [if_neg h.1, if_neg h.2.1, if_neg h.2.2]; exact hl
  | «notation» h hf hn hv => rw [if_pos h]; exact ⟨_, _, _, _, hf, hn, hv, rfl⟩
  | embedded h hb => rw [if_neg (by omega), if_pos h]; exact h2 _ _ (Nat.le_refl _) hb
  | keyBlockOther h hk => rw [if_neg (by omega), if_neg (by omega), if_pos h]; exact ⟨_, _, rfl, fun h => absurd h hk⟩
  | @keyBlock _ a b ps h ha hp hb =>
    rw [if_neg (by omega), if_neg (by omega), if_pos h]
    refine ⟨_, _, rfl, fun _ => ?_⟩
    unfold BlockOK
    refine (loopOK_block (src := ⟨a ++ b, rawErr .eof, [], false, true⟩) rfl (Nat.lt_succ_self _)).mpr ?_
    refine ⟨ps, a, b, rfl, ha, fun p hm => ?_, hb⟩
    have := ha.mem_length _ hm
    exact h2 _ _ (by simp; omega) (hp p hm)

theorem fuelOK_of_acc {n : Nat} {tag : Nat} {b : Bytes} (h : Spec.Acc X tag b) (hn : b.length < n) : FuelOK X n tag b := by
  induction n generalizing tag b with
  | zero => omega
  | succ n ih =>
    unfold FuelOK TagOK
    by_cases h2 : tag = 2
    · subst h2
      rw [if_pos rfl]
      cases h with
      | signatureOther hv => exact .inl ⟨_, _, rfl, hv⟩
      | @signature v t a hh a1 a2 s1 s2 l0 l1 f rest hv hl1 hl2 hs1 hs2 h1 h2 hf =>
        refine .inr ⟨v, t, a, hh, beOctets 2 a1.length ++ a1, beOctets 2 a2.length ++ a2, l0, l1, f, rest, by simp, hv, ⟨a1, s1, hl1, hs1, fun s hm => ?_, rfl⟩,
          ⟨a2, s2, hl2, hs2, fun s hm => ?_, rfl⟩, hf⟩
        · have := hs1.mem_length _ hm
          refine subOK_of_acc (h1 s hm) fun tag c hc hacc => ih hacc ?_
          simp at hn; omega
        · have := hs2.mem_length _ hm
          refine subOK_of_acc (h2 s hm) fun tag c hc hacc => ih hacc ?_
          simp at hn; omega
      | publicKey ht => simp at ht
      | secretKey ht => simp at ht
      | secretKey5 ht => simp at ht
      | other h => simp at h
    · rw [if_neg h2]
      by_cases h8 : tag = 8
      · subst h8
        rw [if_pos rfl]
        cases h with
        | compressed h => exact ⟨_, openOK_of_opens h⟩
        | publicKey ht => simp at ht
        | secretKey ht => simp at ht
        | secretKey5 ht => simp at ht
        | other h => simp at h
      · rw [if_neg h8]; exact h

theorem acc_of_fuelOK (hX : OwnErrors X) {n : Nat} {tag : Nat} {b : Bytes} (h : FuelOK X n tag b) : Spec.Acc X tag b := by
  induction n generalizing tag b with
  | zero => exact h.elim
  | succ n ih =>
    unfold FuelOK TagOK at h
    by_cases h2 : tag = 2
    · subst h2
      rw [if_pos rfl] at h
      rcases h with ⟨v, r, rfl, hv⟩ | ⟨v, t, a, hh, f1, f2, l0, l1, m, r, rfl, hv, ⟨a1, s1, hl1, hs1, h1, rfl⟩, ⟨a2, s2, hl2, hs2, h2, rfl⟩, hm⟩
      · exact .signatureOther hv
      · have key : ∀ subs : List (UInt8 × Bytes), (∀ s ∈ subs, SubOK X (FuelOK X n) s.1 s.2) → ∀ s ∈ subs, AccSub X s.1 s.2 := by
          rintro subs hall ⟨st, sb⟩ hmem
          have h := hall _ hmem
          unfold SubOK at h
          simp only at h ⊢
          by_cases h20 : st.toNat % 128 = 20
          · rw [if_pos h20] at h
            obtain ⟨fl, name, value, rest, x1, x2, x3, rfl⟩ := h
            exact .notation h20 x1 x2 x3
          rw [if_neg h20] at h
          by_cases h32 : st.toNat % 128 = 32
          · rw [if_pos h32] at h
            exact .embedded h32 (ih h)
          rw [if_neg h32] at h
          by_cases h38 : st.toNat % 128 = 38
          · rw [if_pos h38] at h
            obtain ⟨k, d, rfl, hb⟩ := h
            by_cases hk : k = 0
            · subst hk
              have hb := hb rfl
              unfold BlockOK at hb
              have hb := (loopOK_block (src := ⟨d, rawErr .eof, [], false, true⟩) rfl (Nat.lt_succ_self _)).mp hb
              obtain ⟨ps, a, b, rfl, ha, hp, hb⟩ := hb
              exact .keyBlock h38 ha (fun p hm => ih (hp p hm)) hb
            · exact .keyBlockOther h38 hk
          rw [if_neg h38] at h
          exact .plain (by simp; omega) h
        have e1 := key s1 h1
        have e2 := key s2 h2
        have := Acc.signature (X := X) (t := t) (h := hh) (l0 := l0) (l1 := l1) (rest := r) hv hl1 hl2 hs1 hs2 e1 e2 hm
        simpa using this
    · rw [if_neg h2] at h
      by_cases h8 : tag = 8
      · subst h8
        rw [if_pos rfl] at h
        obtain ⟨o, h⟩ := h
        exact .compressed (opens_of_openOK hX h)
      · rw [if_neg h8] at h; exact h

/-! ## The top level -/

theorem compressed_sound {x : Ctx} {b p q : Bytes} {j : Item} {a : Item × Option Bytes} {s : St} (h : compressed X b (St.at (some x) p q j) = (.ok a, s)) :
    OpenOK X b a.2 ∧ s = St.at (some x) p q j := by
  have hr : compressed X b (St.at (some x) p q j) = (((do
      let data ← tag08 X
      return (← getCur, data) : P (Item × Option Bytes)) (St.at (some x) [] b (tagItem 8 b (tagDumpFlag 8 x)))).1,
      { ((do
      let data ← tag08 X
      return (← getCur, data) : P (Item × Option Bytes)) (St.at (some x) [] b (tagItem 8 b (tagDumpFlag 8 x)))).2 with rd := ⟨p ++ q, p.length⟩, cur := j }) := rfl
  rw [hr] at h
  rcases hm : (do
      let data ← tag08 X
      return (← getCur, data) : P (Item × Option Bytes)) (St.at (some x) [] b (tagItem 8 b (tagDumpFlag 8 x))) with ⟨r, s'⟩
  rw [hm] at h
  simp only [Prod.mk.injEq] at h
  obtain ⟨rfl, rfl⟩ := h
  obtain ⟨o, s2, h3, h4⟩ := bind_inv hm
  obtain ⟨h5, h6⟩ := (tag08_at X x b _).1 o s2 h3
  cases h4
  exact ⟨h5, by simp [St.at, h6]⟩

theorem compressed_complete (x : Ctx) (p q : Bytes) (j : Item) {b : Bytes} {o : Option Bytes} (h : OpenOK X b o) :
    ∃ i, compressed X b (St.at (some x) p q j) = (.ok (i, o), St.at (some x) p q j) := by
  obtain ⟨s, hs⟩ := (tag08_at X x b (tagItem 8 b (tagDumpFlag 8 x))).2 o h
  have : compressed X b (St.at (some x) p q j) = (.ok (s.cur, o), { s with rd := ⟨p ++ q, p.length⟩, cur := j }) := by
    have hb : (do
      let data ← tag08 X
      return (← getCur, data) : P (Item × Option Bytes)) (St.at (some x) [] b (tagItem 8 b (tagDumpFlag 8 x))) = (.ok (s.cur, o), s) := by
      rw [bind_run, hs]; rfl
    unfold compressed
    rw [tagScope_run, scope_run]
    change (((do
      let data ← tag08 X
      return (← getCur, data) : P (Item × Option Bytes)) (St.at (some x) [] b (tagItem 8 b (tagDumpFlag 8 x)))).1, _) = _
    rw [hb]
    simp only [Prod.mk.injEq, true_and]
    exact congrArg (fun r : Res (Item × Option Bytes) × St => ({ r.2 with rd := ⟨p ++ q, p.length⟩, cur := j } : St)) hb
  obtain ⟨-, h2⟩ := compressed_sound this
  exact ⟨s.cur, by rw [this, h2]⟩

/-- what `parseTag` accepts -/
def InnerOK (X : Ext) (tag : Nat) (b : Bytes) : Prop := FuelOK X (b.length + 1) tag b

theorem Sub.parseTag (tag : Nat) (b : Bytes) : Sub (parseTag X tag b) (InnerOK X tag b) := Sub.parseTagF X _ tag b

/-- what `packetsParse` accepts -/
def TopOK (X : Ext) (tag : Nat) (b : Bytes) : Prop :=
  if tag = 8 then ∃ o, OpenOK X b o ∧ ∀ z, o = some z → ∃ ps, PacketSeq ps z ∧ ∀ p ∈ ps, InnerOK X p.1 p.2 else InnerOK X tag b

theorem Lang.build {m : P Unit} {A : Prop} (i : Item) (h : Lang m (fun _ f _ => A ∧ f = [])) : Sub (P.build i m) A := by
  constructor
  · intro x p q j a s hs
    rw [build_run] at hs
    rcases hm : m (St.at (some x) p q i) with ⟨r, s'⟩
    rw [hm] at hs
    simp only [Prod.mk.injEq] at hs
    obtain ⟨hr, rfl⟩ := hs
    cases r with
    | ok u =>
      obtain ⟨f, q', x', j', rfl, ⟨ha, rfl⟩, rfl⟩ := h.sound _ _ _ _ _ _ hm
      exact ⟨ha, x', by simp [St.at]⟩
    | _ => simp [Res.map] at hr
  · intro x p q j ha
    obtain ⟨x1, j1, h1⟩ := h.complete x p i () [] q ⟨ha, rfl⟩
    simp only [List.nil_append, List.append_nil] at h1
    exact ⟨j1, x1, by rw [build_run, h1]; rfl⟩

theorem Sub.packetsParse (tag : Nat) (b : Bytes) : Sub (packetsParse X tag b) (TopOK X tag b) := by
  unfold TopOK
  by_cases h8 : tag = 8
  · subst h8
    rw [if_pos rfl]
    have hd : Gpgpdump.packetsParse X 8 b = (do
        let (item, data) ← compressed X b
        match data with
        | none => return item
        | some z => P.build item (packetLoop X (Gpgpdump.parseTag X) (Src.ofBytes z))) := by
      unfold Gpgpdump.packetsParse; rw [if_pos rfl]; rfl
    rw [hd]
    have hloop : ∀ (z : Bytes) i, Sub (P.build i (packetLoop X (Gpgpdump.parseTag X) (Src.ofBytes z))) (∃ ps, PacketSeq ps z ∧ ∀ p ∈ ps, InnerOK X p.1 p.2) :=
      fun z i => (Lang.build i (Lang.forPackets X Sub.parseTag _ _)).congr (loopOK_seq (ofBytes_lazy z) rfl rfl (Nat.lt_succ_self _))
    constructor
    · intro x p q j a s hs
      obtain ⟨⟨i, o⟩, s1, h1, h2⟩ := bind_inv hs
      obtain ⟨h3, rfl⟩ := compressed_sound h1
      simp only at h2 h3
      cases o with
      | none => cases h2; exact ⟨⟨none, h3, by simp⟩, x, rfl⟩
      | some z =>
        obtain ⟨h4, h5⟩ := (hloop z i).sound _ _ _ _ _ _ h2
        exact ⟨⟨some z, h3, by rintro z' ⟨⟩; exact h4⟩, h5⟩
    · rintro x p q j ⟨o, ho, hz⟩
      obtain ⟨i, hi⟩ := compressed_complete x p q j ho
      rw [bind_run, hi]
      cases o with
      | none => exact ⟨i, x, rfl⟩
      | some z => exact (hloop z i).complete _ _ _ _ (hz z rfl)
  · rw [if_neg h8]
    unfold Gpgpdump.packetsParse
    rw [if_neg h8]
    exact Sub.parseTag tag b

theorem parseSrc_accepts (x : Ctx) {s : Source} (ht : s.tail = rawErr .eof) :
    (parseSrc X (some x) s.src).res = .ok () ↔ ∃ ps, PacketSeq ps s.data ∧ ∀ p ∈ ps, TopOK X p.1 p.2 := by
  have hl := Lang.forPackets X (Sub.packetsParse (X := X)) (s.data.length + 1) s.src
  have hq := loopOK_seq (X := X) (R := TopOK X) s.isLazy rfl ht (Nat.lt_succ_self _)
  have e : (parseSrc X (some x) s.src).res = (forPackets X (packetsParse X) (s.data.length + 1) s.src (St.at (some x) [] [] (newItem []))).1 := rfl
  rw [e]
  constructor
  · intro h
    rcases hm : forPackets X (packetsParse X) (s.data.length + 1) s.src (St.at (some x) [] [] (newItem [])) with ⟨r, s'⟩
    rw [hm] at h
    simp only at h
    subst h
    obtain ⟨f, q, x', j', -, ⟨h1, -⟩, -⟩ := hl.sound _ _ _ _ _ _ hm
    exact hq.mp h1
  · intro h
    obtain ⟨x', j', h1⟩ := hl.complete x [] (newItem []) () [] [] ⟨hq.mpr h, rfl⟩
    simp only [List.append_nil] at h1
    rw [h1]

theorem innerOK_of_acc {tag : Nat} {b : Bytes} (h : Spec.Acc X tag b) : InnerOK X tag b := fuelOK_of_acc h (Nat.lt_succ_self _)

theorem topOK_of_accTop {tag : Nat} {b : Bytes} (h : AccTop X tag b) : TopOK X tag b := by
  unfold TopOK
  cases h with
  | plain h8 h => rw [if_neg h8]; exact innerOK_of_acc h
  | packed h hz hp =>
    rw [if_pos rfl]
    exact ⟨_, openOK_of_opens h, by rintro z ⟨⟩; exact ⟨_, hz, fun p hm => innerOK_of_acc (hp p hm)⟩⟩
  | huge h => rw [if_pos rfl]; exact ⟨_, openOK_of_opens h, by simp⟩

/-- C56 (acceptance): an input that is a sequence of packets of the grammar is parsed without an error, whatever the options
and the context, and however the octets are delivered. -/
theorem C56_accepted (X : Ext) (x : Ctx) (s : Source) (ht : s.tail = rawErr .eof) {ps} (hs : PacketSeq ps s.data)
    (hp : ∀ p ∈ ps, AccTop X p.1 p.2) : (parseSrc X (some x) s.src).res = .ok () :=
  (parseSrc_accepts x ht).mpr ⟨ps, hs, fun p hm => topOK_of_accTop (hp p hm)⟩

/-- C56 (exactness): the input is parsed without an error exactly if it is a sequence of packets of the grammar. -/
theorem C56_exact (X : Ext) (hX : OwnErrors X) (x : Ctx) (s : Source) (ht : s.tail = rawErr .eof) :
    (parseSrc X (some x) s.src).res = .ok () ↔ ∃ ps, PacketSeq ps s.data ∧ ∀ p ∈ ps, AccTop X p.1 p.2 := by
  rw [parseSrc_accepts x ht]
  constructor
  · rintro ⟨ps, hs, hp⟩
    refine ⟨ps, hs, fun p hm => ?_⟩
    have h := hp p hm
    obtain ⟨tag, b⟩ := p
    unfold TopOK at h
    simp only at h ⊢
    by_cases h8 : tag = 8
    · subst h8
      rw [if_pos rfl] at h
      obtain ⟨o, ho, hz⟩ := h
      have ho' := opens_of_openOK hX ho
      cases o with
      | none => exact .huge ho'
      | some z =>
        obtain ⟨qs, hq, ha⟩ := hz z rfl
        exact .packed ho' hq fun p hm' => acc_of_fuelOK hX (ha p hm')
    · rw [if_neg h8] at h
      exact .plain h8 (acc_of_fuelOK hX h)
  · rintro ⟨ps, hs, hp⟩
    exact ⟨ps, hs, fun p hm => topOK_of_accTop (hp p hm)⟩

/-- C56 at `New` and `Parse`: for input without an armor block and without an overlong line. -/
theorem C56_new (X : Ext) (hX : OwnErrors X) (x : Ctx) (ha : x.armor = false) (d : Bytes) (sched : List Nat) {ls} (h : Lines d ls false d)
    (hb : ¬ ∃ block, ArmorBlock ls block) :
    (parse X (some x) (some (Source.src ⟨d, rawErr .eof, sched⟩))).res = .ok () ↔ ∃ ps, PacketSeq ps d ∧ ∀ p ∈ ps, AccTop X p.1 p.2 := by
  rw [C34_verbatim_partial X (some x) ha d sched h hb]
  exact C56_exact X hX x ⟨d, rawErr .eof, []⟩ rfl

/-! ## C26 -/

theorem counted2_inj {a a' r r' : Bytes} (h : a.length < 65536) (h' : a'.length < 65536)
    (he : beOctets 2 a.length ++ (a ++ r) = beOctets 2 a'.length ++ (a' ++ r')) : a = a' ∧ r = r' := by
  obtain ⟨h1, h2⟩ := List.append_inj he (by simp)
  have h3 := congrArg beNat h1
  rw [beNat_beOctets _ _ (by simpa using h), beNat_beOctets _ _ (by simpa using h')] at h3
  exact List.append_inj h2 h3

/-- the subpackets of an accepted signature are in the grammar -/
theorem acc_sub {body area : Bytes} {subs : List (UInt8 × Bytes)} (h : Spec.Acc X 2 body) (ha : SigArea body area) (hs : SubSeq subs area) :
    ∀ s ∈ subs, AccSub X s.1 s.2 := by
  have hv : ∀ v r, v = 4 ∨ v = 5 → body = v :: r → ∃ t a h a1 a2 s1 s2 l0 l1 f rest, r = t :: a :: h :: (beOctets 2 a1.length ++ (a1 ++ (beOctets 2 a2.length ++ (a2 ++ l0 :: l1 :: (f ++ rest))))) ∧
      a1.length < 65536 ∧ a2.length < 65536 ∧ SubSeq s1 a1 ∧ SubSeq s2 a2 ∧ (∀ s ∈ s1, AccSub X s.1 s.2) ∧ (∀ s ∈ s2, AccSub X s.1 s.2) := by
    rintro v r hv rfl
    generalize h0 : 2 = tag at h
    cases h with
    | signatureOther h => simp at h; rcases hv with rfl | rfl <;> simp at h
    | signature hv hl1 hl2 hs1 hs2 h1 h2 hf => exact ⟨_, _, _, _, _, _, _, _, _, _, _, rfl, hl1, hl2, hs1, hs2, h1, h2⟩
    | publicKey ht => subst h0; simp at ht
    | secretKey ht => subst h0; simp at ht
    | secretKey5 ht => subst h0; simp at ht
    | other h => subst h0; simp at h
    | _ => omega
  cases ha with
  | hashed hv' hl =>
    obtain ⟨t, a, hh, a1, a2, s1, s2, l0, l1, f, rest, he, hl1, hl2, hs1, hs2, h1, h2⟩ := hv _ _ hv' rfl
    simp only [List.cons.injEq, List.append_assoc] at he
    obtain ⟨rfl, -⟩ := counted2_inj hl hl1 he.2.2.2
    rw [C24_unique hs hs1]; exact h1
  | unhashed hv' hl hl' =>
    obtain ⟨t, a, hh, a1, a2, s1, s2, l0, l1, f, rest, he, hl1, hl2, hs1, hs2, h1, h2⟩ := hv _ _ hv' rfl
    simp only [List.cons.injEq, List.append_assoc] at he
    obtain ⟨rfl, he'⟩ := counted2_inj hl hl1 he.2.2.2
    obtain ⟨rfl, -⟩ := counted2_inj hl' hl2 he'
    rw [C24_unique hs hs2]; exact h2

/-- C26, exactly: when a signature is parsed without an error, the key data of each of its key blocks consists of complete packets
and, at most, one packet that ends at a place where the reader happens to ask for more (`KeyEnd`). Every other cut is reported. By
`C56_accepted` all of these are accepted. -/
theorem C26_exact (X : Ext) (hX : OwnErrors X) (x : Ctx) {body area enc : Bytes} {subs : List (UInt8 × Bytes)} (ha : SigArea body area)
    (hs : SubSeq subs area) (he : Encodes 2 body enc) {st : UInt8} (ht : st.toNat % 128 = 38) {d : Bytes} (hm : (st, 0 :: d) ∈ subs) (sched : List Nat)
    (hok : (parseSrc X (some x) (Source.src ⟨enc, rawErr .eof, sched⟩)).res = .ok ()) :
    ∃ ps a b, d = a ++ b ∧ ClosedSeq ps a ∧ KeyEnd X b := by
  obtain ⟨ps, hp, hacc⟩ := (C56_exact X hX x ⟨enc, rawErr .eof, sched⟩ rfl).mp hok
  have hps : ps = [(2, body)] := by
    have hc : ClosedSeq [(2, body)] enc := by simpa using ClosedSeq.cons he .nil
    have hsp := split_closed hc []
    rw [List.append_nil, split_nil] at hsp
    rcases packetSeq_iff.mp hp with h | ⟨qs, t, b, h, -⟩ <;> simp only at h <;> rw [hsp] at h <;> simp at h
    exact h.symm
  have h2 := hacc (2, body) (by simp [hps])
  cases h2 with
  | plain _ h =>
    have := acc_sub h ha hs _ hm
    simp only at this
    generalize hb : (0 :: d : Bytes) = b at this
    cases this with
    | plain h => exact absurd ht (by simp at h; omega)
    | «notation» h => omega
    | embedded h => omega
    | keyBlockOther h hk => cases hb; exact absurd rfl hk
    | keyBlock h hc hp he => cases hb; exact ⟨_, _, _, rfl, hc, he⟩

/-- A key block with a user ID packet and a packet of 600 octets of which only 512 are there: the first buffer of the reader is full
exactly then, and the cut is not noticed (`hd` says that the rest is as long as the buffer). -/
example (X : Ext) (d : Bytes) (hd : d.length = 512) : AccSub X 38 (0 :: ([0xcd, 2, 65, 66] ++ (0xcd :: (([0xc1, 0x98] : Bytes) ++ d)))) := by
  refine .keyBlock rfl (ps := [(13, [65, 66])]) ?_ ?_ (.new (by decide) (.last (m := 600) (NewLength.two (by decide) (by decide)) (by omega) (.inr ⟨0, ?_⟩)))
  · have : split [0xcd, 2, 65, 66] = ([(13, [65, 66])], .clean) := by decide +kernel
    have h := (split_clean (d := [0xcd, 2, 65, 66])).mp (by rw [this])
    rwa [this] at h
  · intro p hp
    simp only [List.mem_singleton] at hp
    subst hp
    exact .other (by decide)
  · simpa [capacity] using hd

/-! ## Examples for C56 -/

/-! A version 4 DSA signature with a creation time, an embedded version 3 signature and a key block with a user ID, followed by a
literal packet, meets the hypotheses of `C56_accepted`. -/

example (X : Ext) (x : Ctx) : (parseSrc X (some x) (Source.src ⟨
    [0xc2, 33, 4, 0, 17, 8, 0, 9, 5, 2, 0, 0, 0, 9, 2, 32, 3, 0, 7, 6, 38, 0, 0xcd, 2, 65, 66, 1, 2, 0, 1, 1, 0, 1, 1, 99, 0xcb, 6, 98, 0, 0, 0, 0, 0],
    rawErr .eof, [3]⟩)).res = .ok () := by
  refine C56_accepted X x _ rfl (ps := [(2, [4, 0, 17, 8, 0, 9, 5, 2, 0, 0, 0, 9, 2, 32, 3, 0, 7, 6, 38, 0, 0xcd, 2, 65, 66, 1, 2, 0, 1, 1, 0, 1, 1, 99]),
    (11, [98, 0, 0, 0, 0, 0])]) ?_ ?_
  · exact packetSeq_iff.mpr (.inl (by decide +kernel))
  · intro p hp
    simp only [List.mem_cons, List.not_mem_nil, or_false] at hp
    rcases hp with rfl | rfl
    · refine .plain (by decide) ?_
      refine Acc.signature (X := X) (a1 := [5, 2, 0, 0, 0, 9, 2, 32, 3]) (a2 := [6, 38, 0, 0xcd, 2, 65, 66]) (s1 := [(2, [0, 0, 0, 9]), (32, [3])])
        (s2 := [(38, [0, 0xcd, 2, 65, 66])]) (f := [0, 1, 1, 0, 1, 1]) (rest := [99]) (by decide) (by decide) (by decide)
        (.cons (lenc := [5]) (.one (by decide)) (.cons (lenc := [2]) (area := []) (.one (by decide)) .nil))
        (.cons (lenc := [6]) (area := []) (.one (by decide)) .nil) ?_ ?_
        (MPIs.succ (bits := 1) (data := [1]) (by decide) rfl (MPIs.succ (bits := 1) (data := [1]) (by decide) rfl .zero))
      · intro s hs
        simp only [List.mem_cons, List.not_mem_nil, or_false] at hs
        rcases hs with rfl | rfl
        · exact .plain (by decide) (by decide)
        · exact .embedded rfl (.signatureOther (by decide))
      · intro s hs
        simp only [List.mem_singleton] at hs
        subst hs
        refine .keyBlock rfl (a := [0xcd, 2, 65, 66]) (b := []) (ps := [(13, [65, 66])]) ?_ ?_ .nil
        · have : split [0xcd, 2, 65, 66] = ([(13, [65, 66])], .clean) := by decide +kernel
          have h := (split_clean (d := [0xcd, 2, 65, 66])).mp (by rw [this])
          rwa [this] at h
        · intro p hp
          simp only [List.mem_singleton] at hp
          subst hp
          exact .other (by decide)
    · exact .plain (by decide) (.literal (n := [0]) (tm := [0, 0, 0, 0]) (rest := []) (.mk (x := []) (by decide)) rfl)

/-! A too short one-pass signature behind a user ID is an error, by `C56_exact`. -/

example (X : Ext) (hX : OwnErrors X) (x : Ctx) : (parseSrc X (some x) (Source.src ⟨[0xcd, 1, 65, 0xc4, 2, 3, 0], rawErr .eof, []⟩)).res ≠ .ok () := by
  have hsp : split [0xcd, 1, 65, 0xc4, 2, 3, 0] = ([(13, [65]), (4, [3, 0])], .clean) := by decide +kernel
  intro h
  rw [C56_exact X hX x _ rfl] at h
  obtain ⟨ps, hp, ha⟩ := h
  have hp : PacketSeq ps [0xcd, 1, 65, 0xc4, 2, 3, 0] := hp
  rcases packetSeq_iff.mp hp with h | ⟨qs, t, b, h, -⟩
  · rw [hsp] at h
    simp only [Prod.mk.injEq, and_true] at h
    have := ha (4, [3, 0]) (by simp [← h])
    cases this with
    | plain _ h =>
      generalize hb : ([3, 0] : Bytes) = b at h
      cases h with
      | onePass h => simp [← hb] at h
      | publicKey ht => simp at ht
      | secretKey ht => simp at ht
      | secretKey5 ht => simp at ht
      | other h => simp at h
  · rw [hsp] at h
    simp at h

/-! `OwnErrors` is not empty. -/

example : OwnErrors Tests.X := by
  intro zd
  refine ⟨?_, ?_, ?_, ?_⟩ <;> simp [Tests.X, rawErr]

end Gpgpdump
