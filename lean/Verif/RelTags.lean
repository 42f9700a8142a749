import Verif.RelSubs

/-!
# Packets under comparison

The recursive parsers: subpacket areas, embedded signatures, key blocks, secret keys; then `parseTag` by induction on the size.
-/

namespace Gpgpdump

/-- public-key algorithms with a known layout of the secret part -/
def Spec.KnownAlg (b : UInt8) : Prop := b.toNat ∈ [1, 2, 3, 16, 17, 18, 19, 20, 22]

/-- not a secret-key packet, or an empty one, or one of version 4 or 3 whose algorithm (octet 5 or 7 of the body) is known
or missing -/
def Spec.SafeSecret (p : Nat × Bytes) : Prop := p.1 = 5 ∨ p.1 = 7 → p.2 = [] ∨
  (p.2[0]? = some 4 ∧ ∀ b, p.2[5]? = some b → KnownAlg b) ∨
  (p.2[0]? = some 3 ∧ ∀ b, p.2[7]? = some b → KnownAlg b)

open Spec P Src Cmp

theorem known_alg {b : UInt8} (h : KnownAlg b) : pubAlg b ≠ .unknown := by
  have : ∀ n : Fin 256, n.val ∈ [1, 2, 3, 16, 17, 18, 19, 20, 22] → pubAlg (UInt8.ofNat n.val) ≠ .unknown := by decide +kernel
  have h' := this ⟨b.toNat, b.toNat_lt⟩ h
  simpa using h'

theorem and_7f (b : UInt8) : (b &&& 0x7f).toNat = b.toNat % 128 := by
  have : ∀ n : Fin 256, (UInt8.ofNat n.val &&& 0x7f).toNat = (UInt8.ofNat n.val).toNat % 128 := by decide +kernel
  have h' := this ⟨b.toNat, b.toNat_lt⟩
  simpa using h'

namespace Cmp
variable {k : Cmp}

theorem At.reader {β} {p q : Bytes} {f f' : Reader → P β} {Q : β → β → Prop}
    (h : k.At p q (f ⟨p ++ q, p.length⟩) (f' ⟨p ++ q, p.length⟩) Q) : k.At p q (reader >>= f) (reader >>= f') Q :=
  ⟨fun _ _ _ _ hc hj => h.run _ _ _ _ hc hj⟩

theorem At.getBody {β} {p q : Bytes} {f f' : Bytes → P β} {Q : β → β → Prop}
    (h : k.At p q (f (p ++ q)) (f' (p ++ q)) Q) : k.At p q (getBody >>= f) (getBody >>= f') Q :=
  ⟨fun _ _ _ _ hc hj => h.run _ _ _ _ hc hj⟩

theorem At.pure {α} {p q : Bytes} {a a' : α} {Q : α → α → Prop} (h : Q a a') : k.At p q (Pure.pure a) (Pure.pure a') Q :=
  (R.pure h).at p q

/-- code that leaves the reader where it is -/
theorem At.keep {α β} {p q : Bytes} {m m' : P α} {f f' : α → P β} {Q : α → α → Prop} {Q' : β → β → Prop}
    (h : k.R m m' Q) (hpos : ∀ st, (m st).2.rd = st.rd) (h' : ∀ a a', Q a a' → k.At p q (f a) (f' a') Q') :
    k.At p q (m >>= f) (m' >>= f') Q' :=
  At.bind (h.at p q) (fun _ _ => hpos _) h'

end Cmp

section
variable {k : Cmp} (X : Ext)

/-! ## The packet loop -/

/-- the external components report errors of their own -/
structure RealX (X : Ext) : Prop where
  flate : ∀ d, (X.flate d).tail.real
  bzip2 : ∀ d, (X.bzip2 d).tail.real
  zlib : ∀ d z, X.zlib d = .ok z → z.tail.real
  zlibErr : ∀ d e, X.zlib d = .error e → e.real
  armor : ∀ d z, X.armor d = .ok z → z.tail.real
  armorErr : ∀ d e, X.armor d = .error e → e.real

theorem real_wrap {e : GoErr} (h : e.real) : e.wrap.real := h

omit X in
theorem copyFrom_real {z : Stream} (h : z.tail.real) (e) (he : copyFrom z = .error e) : e.real := by
  unfold copyFrom at he
  repeat' split at he
  all_goals cases he
  · intro h; cases h
  · exact h

theorem unpack_real {X : Ext} (h : RealX X) (c : UInt8) (zd : Bytes) : ∀ e, (match c.toNat with
      | 0 => Except.ok zd
      | 1 => copyFrom (X.flate zd)
      | 2 => match X.zlib zd with
        | .error e => .error e.wrap
        | .ok z => copyFrom z
      | 3 => copyFrom (X.bzip2 zd)
      | _ => .ok []) = .error e → e.real := by
  intro e he
  split at he
  · cases he
  · exact copyFrom_real (h.flate _) e he
  · split at he
    · rename_i hz
      cases he; exact real_wrap (h.zlibErr _ _ hz)
    · rename_i hz
      exact copyFrom_real (h.zlib _ _ hz) e he
  · exact copyFrom_real (h.bzip2 _) e he
  · cases he

theorem r_forPackets {recur recur' : TagParser} (f : Nat) (src : Src) (hl : Lazy src) (hf : src.data.length < f)
    (hreal : k.real = true → src.tail.real)
    (h1 : ∀ p ∈ (split src.data).1, k.R (recur p.1 p.2) (recur' p.1 p.2) k.item)
    (h2 : src.strict = false → ∀ t b, (split src.data).2 = .toEnd t b → k.R (recur t b) (recur' t b) k.item) :
    k.R (forPackets X recur f src) (forPackets X recur' f src) Eq := by
  induction f generalizing src with
  | zero => omega
  | succ f ih =>
    obtain ⟨hk, hm⟩ := nextPacket_spec (X := X) hl
    rw [forPackets, forPackets]
    rcases hn : nextPacket X src with ⟨r, src'⟩
    rw [hn] at hk hm
    cases r with
    | error e =>
      simp only
      split
      · exact R.pure rfl
      · exact R.fail fun h => (nextPacket_took hn).1.real (hreal h) e rfl
    | ok tb =>
      obtain ⟨tag, body⟩ := tb
      simp only at hm ⊢
      cases hd : decNext src.data with
      | packet t b r =>
        rw [hd] at hm
        simp only [Except.ok.injEq, Prod.mk.injEq] at hm
        obtain ⟨⟨rfl, rfl⟩, rfl⟩ := hm
        rw [split_packet hd] at h1 h2
        have hlt := decNext_shorter hd
        refine R.bindItem (h1 (tag, body) (by simp)) fun _ _ hi => R.bindEq (R.add hi) fun _ => ?_
        refine ih src' (hk.isLazy hl) (by omega) (fun h => hk.tail ▸ hreal h) (fun p hp => h1 p (by simp [hp])) fun hs => ?_
        exact h2 (by rw [← hk.strict]; exact hs)
      | toEnd t b =>
        rw [hd] at hm
        simp only at hm
        have hsp : split src.data = ([], .toEnd t b) := by
          unfold split; rw [splitF]; simp only [hd]
        cases hst : src.strict with
        | true =>
          rcases hm.2 hst with h | h <;> cases h
        | false =>
          cases ht : src.tail.eqEOF with
          | false => have := (hm.1 hst).2 ht; cases this
          | true =>
            obtain ⟨e1, e2⟩ := (hm.1 hst).1 ht
            simp only [Except.ok.injEq, Prod.mk.injEq] at e1
            obtain ⟨rfl, rfl⟩ := e1
            have hne : src.data ≠ [] := by intro h; rw [h] at hd; simp [decNext] at hd
            have := List.length_pos_iff.mpr hne
            refine R.bindItem (h2 hst tag body (by rw [hsp])) fun _ _ hi => R.bindEq (R.add hi) fun _ => ?_
            refine ih src' (hk.isLazy hl) (by rw [e2]; simp; omega) (fun h => hk.tail ▸ hreal h) ?_ ?_
            · rw [e2]; simp [split_nil]
            · rw [e2]; simp [split_nil]
      | noMSB => rw [hd] at hm; cases hm
      | truncated => rw [hd] at hm; obtain ⟨e, h, _⟩ := hm; cases h
      | atEnd => rw [hd] at hm; obtain ⟨e, h, _⟩ := hm; cases h

/-- for any source, when all packets are parsed alike -/
theorem r_forPacketsAny {recur recur' : TagParser} (f : Nat) (src : Src) (hf : src.data.length < f) (ht : k.real = true → src.tail.real)
    (h : ∀ t b, k.R (recur t b) (recur' t b) k.item) : k.R (forPackets X recur f src) (forPackets X recur' f src) Eq := by
  induction f generalizing src with
  | zero => omega
  | succ f ih =>
    rw [forPackets, forPackets]
    rcases hn : nextPacket X src with ⟨r, src'⟩
    obtain ⟨h1, h2⟩ := nextPacket_took hn
    cases r with
    | error e =>
      simp only
      split
      · exact R.pure rfl
      · exact R.fail fun h => h1.real (ht h) e rfl
    | ok tb =>
      have h2 := (h2 _ rfl).le
      exact R.bindItem (h tb.1 tb.2) fun _ _ hi => R.bindEq (R.add hi) fun _ => ih src' (by omega) fun h => h1.tail (ht h)

variable (hX : k.clean = true → CleanX X) (hR : k.real = true → RealX X)
include hX hR
set_option linter.unusedSectionVars false
set_option linter.unusedVariables false

/-! ## Subpackets with packets in them -/

section
variable {recur recur' : TagParser}

theorem r_sub32 {sb : Bytes} (h : k.R (recur 2 sb) (recur' 2 sb) k.item) : k.At [] sb (sub32 recur) (sub32 recur') k.item := by
  unfold sub32
  refine At.getBody ?_
  exact (R.bindItem h fun _ _ hi => R.bindEq (R.add hi) fun _ => R.getCur).at _ _

theorem r_sub38 {sb : Bytes} (h : ∀ ps a rest p, sb = 0 :: (a ++ rest) → ClosedSeq ps a → p ∈ ps → k.R (recur p.1 p.2) (recur' p.1 p.2) k.item) :
    k.At [] sb (sub38 X recur) (sub38 X recur') k.item := by
  unfold sub38
  refine At.readByte fun v r hr => At.add (it_num _ _ fun _ => by clean) <| At.reader <| At.flag .debug fun b b' hb => ?_
  refine R.at ?_ _ _
  refine R.ite (fun hv => ?_) fun _ => ?_
  · refine R.bindItem (R.build (Q := Eq) (it_raw hb _ _ fun _ => by clean) ?_) fun _ _ hi => R.bindEq (R.add hi) fun _ => R.getCur
    have hs : (Src.ofReader ⟨([] ++ [v]) ++ r, ([] ++ [v]).length⟩).data = r := rfl
    refine r_forPackets X _ _ (.inl rfl) (by rw [hs]; omega) (fun _ => by intro h; cases h) ?_ ?_
    · rw [hs]
      obtain ⟨a, b, h1, h2, -⟩ := split_spec r
      intro p hp
      exact h _ a b p (by rw [hr, hv, h2]) h1 hp
    · intro h; cases h
  · exact R.bindEq (R.add (it_raw hb _ _ fun _ => by clean)) fun _ => R.getCur

theorem r_list_sym : k.R (subList symItem) (subList symItem) k.item := r_subList fun x _ _ h => it_sym h x
theorem r_list_hash : k.R (subList hashItem) (subList hashItem) k.item := r_subList fun x _ _ h => it_hash h x
theorem r_list_comp : k.R (subList compItem) (subList compItem) k.item := r_subList fun x _ _ h => it_comp h x
theorem r_list_aead : k.R (subList aeadItem) (subList aeadItem) k.item := r_subList fun x _ _ h => it_aead h x

/-- all subpackets of signatures -/
theorem r_sub02Body {st : UInt8} {sb : Bytes}
    (h32 : st.toNat % 128 = 32 → k.R (recur 2 sb) (recur' 2 sb) k.item)
    (h38 : st.toNat % 128 = 38 → ∀ ps a rest p, sb = 0 :: (a ++ rest) → ClosedSeq ps a → p ∈ ps →
      k.R (recur p.1 p.2) (recur' p.1 p.2) k.item) :
    k.At [] sb (sub02Body X recur (st &&& 0x7f).toNat) (sub02Body X recur' (st &&& 0x7f).toNat) k.item := by
  rw [and_7f]
  generalize st.toNat % 128 = n at h32 h38
  unfold sub02Body
  split
  · exact (r_sub02 X hX).at _ _
  · exact (r_sub03 X hX).at _ _
  · exact r_sub04.at _ _
  · exact r_sub05.at _ _
  · exact r_subText.at _ _
  · exact r_sub07.at _ _
  · exact (r_sub09 X hX).at _ _
  · exact R.getCur.at _ _
  · exact (r_list_sym X hX hR).at _ _
  · exact r_sub12.at _ _
  · exact r_sub16.at _ _
  · exact r_sub20.at _ _
  · exact (r_list_hash X hX hR).at _ _
  · exact (r_list_comp X hX hR).at _ _
  · exact r_sub23.at _ _
  · exact r_subText.at _ _
  · exact r_sub25.at _ _
  · exact r_subText.at _ _
  · exact r_sub27.at _ _
  · exact r_subText.at _ _
  · exact r_sub29.at _ _
  · exact r_sub30.at _ _
  · exact r_sub31.at _ _
  · exact r_sub32 X hX hR (h32 rfl)
  · exact r_subFingerprint.at _ _
  · exact (r_list_aead X hX hR).at _ _
  · exact r_subFingerprint.at _ _
  · exact r_sub37.at _ _
  · exact r_sub38 X hX hR (h38 rfl)
  · exact R.getCur.at _ _

theorem r_subScope {st : UInt8} {sb : Bytes} {m m' : P Item} (h : k.At [] sb m m' k.item) :
    k.R (subScope st sb m) (subScope st sb m') k.item := by
  unfold subScope
  exact R.bind (R.flag .debug) fun b b' hb => R.scopeAt (it_sub hb _ _) h

theorem r_subLoop {p p' : UInt8 → Bytes → P Item} {l : List (UInt8 × Bytes)} (h : ∀ s ∈ l, k.R (p s.1 s.2) (p' s.1 s.2) k.item) :
    k.R (subLoop p l) (subLoop p' l) Eq := by
  induction l with
  | nil => exact R.pure rfl
  | cons s l ih =>
    obtain ⟨t, b⟩ := s
    rw [subLoop, subLoop]
    exact R.bindItem (h (t, b) List.mem_cons_self) fun _ _ hi => R.bindEq (R.add hi) fun _ => ih fun s hs => h s (List.mem_cons_of_mem _ hs)

theorem r_addSubpackets {p p' : UInt8 → Bytes → P Item} {name : Str} {area : Bytes} (hn : k.clean = true → Clean name)
    (h : ∀ subs, SubSeq subs area → ∀ s ∈ subs, k.R (p s.1 s.2) (p' s.1 s.2) k.item) :
    k.R (addSubpackets p name area) (addSubpackets p' name area) Eq := by
  unfold addSubpackets
  refine R.bind (R.flag .debug) fun b b' hb => ?_
  cases ho : opaqueSubpackets area with
  | error e =>
    refine R.fail fun _ => ?_
    rw [opaqueSubpackets_error ho]
    intro h; cases h
  | ok l =>
    exact R.bindItem (R.build (item_dump (d := dumpBytes area) hb hn (fun _ => by clean) (fun _ => by clean) fun _ _ => by clean)
      (r_subLoop X hX hR (h l (opaqueSubpackets_ok.mp ho)))) fun _ _ hi => R.add hi

theorem subLoop_rd {p : UInt8 → Bytes → P Item} (hp : ∀ t b st, (p t b st).2.rd = st.rd) (l : List (UInt8 × Bytes)) (st : St) :
    (subLoop p l st).2.rd = st.rd := by
  induction l generalizing st with
  | nil => rfl
  | cons s l ih =>
    obtain ⟨t, b⟩ := s
    simp only [subLoop, bind_run]
    have := hp t b st
    generalize p t b st = x at this ⊢
    obtain ⟨r, st'⟩ := x
    cases r with
    | ok i =>
      have ha : add i st' = (.ok (), { st' with cur := st'.cur.add i }) := rfl
      simp only [ha]
      rw [ih]; exact this
    | _ => exact this

theorem addSubpackets_rd {p : UInt8 → Bytes → P Item} (hp : ∀ t b st, (p t b st).2.rd = st.rd) (name : Str) (area : Bytes) (st : St) :
    (addSubpackets p name area st).2.rd = st.rd := by
  simp only [addSubpackets, bind_run, flag_run]
  cases ho : opaqueSubpackets area with
  | error e => rfl
  | ok l =>
    simp only [bind_run]
    have hb : ∀ i, build i (subLoop p l) st = ((subLoop p l { st with cur := i }).1.map (fun _ => (subLoop p l { st with cur := i }).2.cur),
      { (subLoop p l { st with cur := i }).2 with cur := st.cur }) := fun _ => rfl
    rw [hb]
    generalize newItem name [] (nBytes area.length) (dumpBytes area (ctxFlag Ctx.debug st.ctx)) = i
    have := subLoop_rd X hX hR hp l { st with cur := i }
    generalize subLoop p l { st with cur := i } = x at this ⊢
    obtain ⟨r, st'⟩ := x
    cases r with
    | ok u => exact this
    | _ => exact this

theorem At.subArea {β} {p q : Bytes} {name : Str} {f f' : Unit → P β} {Q : β → β → Prop} (hn : k.clean = true → Clean name)
    (h1 : ∀ area r, q = beOctets 2 area.length ++ area ++ r → area.length < 65536 →
      k.R (addSubpackets (parseSub02 X recur) name area) (addSubpackets (parseSub02 X recur') name area) Eq)
    (h2 : ∀ area r, q = beOctets 2 area.length ++ area ++ r → area.length < 65536 → k.At (p ++ (beOctets 2 area.length ++ area)) r (f ()) (f' ()) Q) :
    k.At p q (subArea X recur name >>= f) (subArea X recur' name >>= f') Q := by
  unfold Gpgpdump.subArea
  rw [bind_assoc_P, bind_assoc_P]
  refine At.readBytes (n := 2) fun s r hq hs => ?_
  have hlt : beNat s < 65536 := by have := beNat_lt s; rw [hs] at this; exact this
  by_cases h0 : beNat s > 0
  · simp only [h0, if_true]
    rw [bind_assoc_P, bind_assoc_P]
    refine At.readBytes fun area r' hr ha => ?_
    have hso : beOctets 2 area.length = s := by rw [ha, ← hs, beOctets_beNat]
    have hq' : q = beOctets 2 area.length ++ area ++ r' := by rw [hso, hq, hr, List.append_assoc]
    refine At.keep (h1 area r' hq' (by omega)) (addSubpackets_rd X hX hR (fun _ _ _ => rfl) _ _) fun _ _ _ => ?_
    have := h2 area r' hq' (by omega)
    rw [hso, ← List.append_assoc] at this
    exact this
  · have h0' : beNat s = 0 := by omega
    simp only [h0, if_false, pure_bind_P]
    have hso : beOctets 2 0 = s := by rw [← h0', ← hs, beOctets_beNat]
    have := h2 [] r (by simp [hso, hq]) (by simp)
    simpa [hso] using this

/-! ## Packets -/

theorem r_tag01 : k.R tag01 tag01 Eq := by unfold tag01; rel
theorem r_tag02v3 : k.R (tag02v3 X) (tag02v3 X) Eq := by
  unfold tag02v3; rel
  · intro h; rename_i hb; rw [hb h]
  · exact fun _ => ⟨by clean, by clean⟩

theorem r_tag02v4 {v : UInt8} {q : Bytes} (hv : v = 4 ∨ v = 5)
    (hrec : ∀ t b, Inside (2, v :: q) (t, b) → k.R (recur t b) (recur' t b) k.item) :
    k.At [v] q (tag02v4 X recur >>= fun _ => unknownData) (tag02v4 X recur' >>= fun _ => unknownData) Eq := by
  have hsub : ∀ area, SigArea (v :: q) area → ∀ subs, SubSeq subs area → ∀ s ∈ subs,
      k.R (parseSub02 X recur s.1 s.2) (parseSub02 X recur' s.1 s.2) k.item := by
    intro area ha subs hs s hm
    unfold parseSub02
    refine r_subScope X hX hR (r_sub02Body X hX hR (fun ht => ?_) fun ht ps a rest p hp hps hpm => ?_)
    · exact hrec _ _ (.embedded ha hs hm ht)
    · have hm' : (s.1, 0 :: (a ++ rest)) ∈ subs := by rw [← hp]; exact hm
      exact hrec _ _ (.keyBlock ha hs hm' ht hps hpm)
  unfold tag02v4
  simp only [bind_assoc_P]
  refine At.readByte fun s r1 e1 => At.flag .debug fun b b' hb => At.add (it_sig hb _) ?_
  refine At.readByte fun pb r2 e2 => At.flag .debug fun b b' hb => At.add (it_pub hb _) ?_
  refine At.readByte fun h r3 e3 => At.flag .debug fun b b' hb => At.add (it_hash hb _) ?_
  subst e1 e2 e3
  refine At.subArea X hX hR (fun _ => by clean) (fun area r hq hl => ?_) fun area r hq hl => ?_
  · refine r_addSubpackets X hX hR (fun _ => by clean) (hsub area ?_)
    rw [hq]; exact .hashed hv hl
  · refine At.subArea X hX hR (fun _ => by clean) (fun area' r' hq' hl' => ?_) fun area' r' hq' hl' => ?_
    · refine r_addSubpackets X hX hR (fun _ => by clean) (hsub area' ?_)
      rw [hq, hq']; exact .unhashed hv hl hl'
    · refine R.at ?_ _ _
      rel

theorem r_tag02 {body : Bytes} (hrec : ∀ t b, Inside (2, body) (t, b) → k.R (recur t b) (recur' t b) k.item) :
    k.At [] body (tag02 X recur) (tag02 X recur') Eq := by
  unfold tag02
  refine At.readByte fun v q hq => At.flag .debug fun b b' hb => At.add (it_version hb _) ?_
  subst hq
  refine At.ite (fun h => ?_) fun _ => At.ite (fun h => ?_) fun _ => At.ite (fun _ => ?_) fun _ => ?_
  · refine r_tag02v4 X hX hR (.inr ?_) hrec
    simpa [Version.isDraft, sigVer] using h
  · refine r_tag02v4 X hX hR (.inl ?_) hrec
    simpa [Version.isCurrent, sigVer] using h
  · refine R.at ?_ _ _
    exact R.bindEq (R.failed (r_tag02v3 X hX hR)) fun _ => R.ite (fun _ => R.pure rfl) fun _ => r_unknownData
  · exact r_unknownData.at _ _
end

theorem r_tag03 : k.R tag03 tag03 Eq := by unfold tag03; rel
theorem r_tag04 : k.R tag04 tag04 Eq := by unfold tag04; rel
theorem r_pubkeyTime : k.R (pubkeyTime X) (pubkeyTime X) Eq := by unfold pubkeyTime; rel
theorem r_pubkeyParse (v) : k.R (pubkeyParse X v) (pubkeyParse X v) Eq := by
  unfold pubkeyParse
  have := r_pubkeyTime X hX hR
  rel
  refine R.bind (R.onReader (r_parsePub _)) fun _ _ _ => R.pure rfl
theorem r_tag06 : k.R (tag06 X) (tag06 X) Eq := by
  unfold tag06; rel
  refine R.bindEq (r_pubkeyParse X hX hR _) fun _ => ?_
  rel

theorem r_getField1 (v) : k.R (getField1 v) (getField1 v) Eq := by unfold getField1; rel
theorem r_getField2 (v : Version) (h : k.mayPanic = true ∨ v.ver ≠ 5) : k.R (getField2 v) (getField2 v) Eq := by
  unfold getField2
  refine R.ite (fun hv => ?_) fun _ => R.pure rfl
  rcases h with h | h
  · refine R.bindEq r_rest fun _ => R.ite (fun _ => R.panic h) fun _ => ?_
    rel
  · exact absurd hv h
theorem r_onField {α} (f : Field) {m : P α} (h : k.R m m Eq) : k.R (onField f m) (onField f m) Eq := by
  cases f with
  | own r =>
    refine R.bind (R.onReader h) fun a a' ha => ?_
    obtain ⟨a1, a2⟩ := a
    obtain ⟨b1, b2⟩ := a'
    simp only at ha
    rw [ha.1, ha.2]
    exact R.pure rfl
  | _ => exact R.bindEq h fun _ => R.pure rfl
theorem r_secIV (s i) : k.R (secIV s i) (secIV s i) Eq := by unfold secIV; rel
theorem r_fieldRest (r) : k.R (fieldRest r) (fieldRest r) Eq := by
  cases r <;> unfold fieldRest <;> rel
theorem r_secOptions (u) : k.R (secOptions u) (secOptions u) Eq := by
  unfold secOptions; rel
  refine R.bindEq (by rel) fun _ => ?_
  rel
theorem r_secField1 (v u) : k.R (secField1 v u) (secField1 v u) Eq := by
  unfold secField1
  refine R.bindEq (r_getField1 X hX hR v) fun f => ?_
  have hm : ∀ f : Field, k.R (do
    let ((symid, hasIV), r) ← onField f (secOptions u)
    if u ≠ 0 ∧ hasIV = true then secIV symid (u == 253) else Pure.pure ()
    fieldRest r) (do
    let ((symid, hasIV), r) ← onField f (secOptions u)
    if u ≠ 0 ∧ hasIV = true then secIV symid (u == 253) else Pure.pure ()
    fieldRest r) Eq := by
    intro f
    refine R.bindEq (r_onField X hX hR f (r_secOptions X hX hR u)) fun x => ?_
    obtain ⟨⟨a, b⟩, c⟩ := x
    dsimp only
    have hf := r_fieldRest X hX hR (k := k) c
    refine R.ite (fun _ => R.bindEq (r_secIV X hX hR _ _) fun _ => hf) fun _ => ?_
    exact hf
  cases f with
  | absent => exact R.pure rfl
  | own r => exact hm _
  | shared => exact hm _
theorem r_secField2 (v : Version) (u p) (h : k.mayPanic = true ∨ v.ver ≠ 5) (h' : k.mayPanic = true ∨ pubAlg p ≠ .unknown) :
    k.R (secField2 v u p) (secField2 v u p) Eq := by
  unfold secField2
  refine R.bindEq (r_getField2 X hX hR v h) fun f => ?_
  have hf := r_fieldRest X hX hR (k := k)
  have h1 := fun f => r_onField X hX hR f (r_parseSecPlain p h')
  have h2 := fun f => r_onField X hX hR f (r_parseSecEnc (k := k) p)
  have e1 : ∀ f : Field, k.R (do
      let (_, r) ← onField f (parseSecPlain p)
      let chk ← readBytes 2
      add (newItem (S "2-octet checksum") [] [] (dumpBytes chk true))
      fieldRest r) (do
      let (_, r) ← onField f (parseSecPlain p)
      let chk ← readBytes 2
      add (newItem (S "2-octet checksum") [] [] (dumpBytes chk true))
      fieldRest r) Eq := by
    intro f
    refine R.bindEq (h1 f) fun x => ?_
    obtain ⟨a, b⟩ := x
    have := hf b
    rel
  have e2 : ∀ f : Field, k.R (do
      let (_, r) ← onField f (parseSecEnc p)
      fieldRest r) (do
      let (_, r) ← onField f (parseSecEnc p)
      fieldRest r) Eq := by
    intro f
    refine R.bindEq (h2 f) fun x => ?_
    obtain ⟨a, b⟩ := x
    exact hf b
  cases f with
  | absent => exact R.pure rfl
  | own r =>
    refine R.ite (fun _ => R.bindEq (R.setNote fun _ => ?_) fun _ => e1 _) fun _ => R.bindEq (R.setNote fun _ => ?_) fun _ => e2 _ <;> clean
  | shared =>
    refine R.ite (fun _ => R.bindEq (R.setNote fun _ => ?_) fun _ => e1 _) fun _ => R.bindEq (R.setNote fun _ => ?_) fun _ => e2 _ <;> clean

theorem r_seckeyParse (v : Version) (p) (h : k.mayPanic = true ∨ (v.ver ≠ 5 ∧ pubAlg p ≠ .unknown)) :
    k.R (seckeyParse v p) (seckeyParse v p) Eq := by
  unfold seckeyParse
  exact R.bindEq R.readByte fun u => R.bindEq (r_secField1 X hX hR v u) fun _ =>
    r_secField2 X hX hR v u p (h.imp id And.left) (h.imp id And.right)

/-- the public part of a secret key whose algorithm is known -/
theorem r_pubkeySafe {v : UInt8} {q : Bytes} (h : (v = 4 ∧ ∀ b, (v :: q)[5]? = some b → KnownAlg b) ∨
      (v = 3 ∧ ∀ b, (v :: q)[7]? = some b → KnownAlg b)) :
    k.At [v] q (pubkeyParse X (pubVer v)) (pubkeyParse X (pubVer v)) (fun a a' => a = a' ∧ pubAlg a ≠ .unknown) := by
  have tail : ∀ {pubid : UInt8}, KnownAlg pubid → k.R (do
      add (pubItem pubid (← flag Ctx.debug))
      parsePub pubid
      return pubid) (do
      add (pubItem pubid (← flag Ctx.debug))
      parsePub pubid
      return pubid) (fun a a' => a = a' ∧ pubAlg a ≠ .unknown) := by
    intro pubid hk
    exact R.bind (R.flag .debug) fun _ _ hb => R.bindEq (R.add (it_pub hb _)) fun _ => R.bindEq (r_parsePub _) fun _ =>
      R.pure ⟨rfl, known_alg hk⟩
  have time : ∀ {β} {f f' : Unit → P β} {Q : β → β → Prop}, (∀ a r, q = a ++ r → a.length = 4 → k.At ([v] ++ a) r (f ()) (f' ()) Q) →
      k.At [v] q (pubkeyTime X >>= f) (pubkeyTime X >>= f') Q := by
    intro β f f' Q h
    unfold pubkeyTime newDateTime
    simp only [bind_assoc_P, pure_bind_P]
    refine At.keep R.utc (fun _ => rfl) fun u u' hu => ?_
    subst hu
    refine At.readBytes (n := 4) fun a r hq ha => ?_
    refine At.keep (R.setKeyTime _) (fun st => ?_) fun _ _ _ => ?_
    · unfold P.setKeyTime; split <;> rfl
    · exact At.flag .debug fun _ _ hb => At.add (it_date hb hX _ _ fun _ => by clean) (h a r hq ha)
  rcases h with ⟨rfl, h⟩ | ⟨rfl, h⟩
  · have e : pubkeyParse X (pubVer 4) = (do
        pubkeyTime X
        let pubid ← readByte
        add (pubItem pubid (← flag Ctx.debug))
        parsePub pubid
        return pubid) := rfl
    rw [e]
    refine time fun a r hq ha => At.readByte fun b r' hr => (tail ?_).at _ _
    apply h b
    subst hq hr
    rw [List.getElem?_cons_succ, List.getElem?_append_right (by omega)]
    simp [ha]
  · have e : pubkeyParse X (pubVer 3) = (do
        pubkeyTime X
        let days ← readBytes 2
        add (newItem (S "Valid days") (dec (beNat days)) (S "0 is forever"))
        let pubid ← readByte
        add (pubItem pubid (← flag Ctx.debug))
        parsePub pubid
        return pubid) := rfl
    rw [e]
    refine time fun a r hq ha => At.readBytes (n := 2) fun d r' hr hd => At.add (item_const (fun _ => by clean) (fun _ => by clean)
      (fun _ => by clean) (fun _ => by clean)) <| At.readByte fun b r'' hr' => (tail ?_).at _ _
    apply h b
    subst hq hr hr'
    rw [List.getElem?_cons_succ, List.getElem?_append_right (by omega), List.getElem?_append_right (by omega)]
    simp [ha, hd]

theorem R.nestedAt {α} {p q : Bytes} {c c' : Item} {m m' : P α} {Q} (hc : k.item c c') (h : k.At p q m m' Q) :
    k.At p q (nested c m) (nested c' m') Q :=
  ⟨fun x x' j j' hx hj => (h.run x x' c c' hx hc).map_st (fun t => { t with cur := j.add t.cur })
    (fun t => { t with cur := j'.add t.cur }) fun _ _ ht => ⟨ht.ctx, ht.rd, hj.add ht.cur⟩⟩

/-- a last step that does not care where the reader is -/
theorem At.bindR {α β} {p q : Bytes} {m m' : P α} {f f' : α → P β} {Q : α → α → Prop} {Q' : β → β → Prop}
    (h : k.At p q m m' Q) (h' : ∀ a a', Q a a' → k.R (f a) (f' a') Q') : k.At p q (m >>= f) (m' >>= f') Q' := by
  constructor
  intro c c' j j' hc hj
  have := h.run c c' j j' hc hj
  rw [bind_run, bind_run]
  generalize m (St.at c p q j) = r at this ⊢
  generalize m' (St.at c' p q j') = r' at this ⊢
  cases this with
  | ok ha hs => exact (h' _ _ ha).run _ _ hs
  | err he hs => exact .err he hs
  | panic hp hs => exact .panic hp hs
  | nil hp => exact .nil hp

theorem r_tag05 {tag : Nat} {body : Bytes} (ht : tag = 5 ∨ tag = 7) (hs : k.mayPanic = true ∨ SafeSecret (tag, body)) :
    k.At [] body (tag05 X) (tag05 X) Eq := by
  unfold tag05
  refine At.readByte fun v q hq => At.flag .debug fun b b' hb => At.add (it_version hb _) ?_
  subst hq
  rcases hs with hs | hs
  · refine R.at ?_ _ _
    exact R.bindEq (R.nested (item_const (fun _ => by clean) (fun _ => by clean) (fun _ => by clean) (fun _ => by clean))
      (r_pubkeyParse X hX hR _)) fun p => R.bindEq (R.nested (item_const (fun _ => by clean) (fun _ => by clean) (fun _ => by clean)
      (fun _ => by clean)) (r_seckeyParse X hX hR _ p (.inl hs))) fun _ => r_unknownData
  · have h' : (v = 4 ∧ ∀ b, (v :: q)[5]? = some b → KnownAlg b) ∨ (v = 3 ∧ ∀ b, (v :: q)[7]? = some b → KnownAlg b) := by
      rcases hs ht with h | ⟨h, h'⟩ | ⟨h, h'⟩
      · cases h
      · exact .inl ⟨by simpa using h, h'⟩
      · exact .inr ⟨by simpa using h, h'⟩
    refine At.bindR X hX hR (R.nestedAt X hX hR (item_const (fun _ => by clean) (fun _ => by clean) (fun _ => by clean) (fun _ => by clean))
      (r_pubkeySafe X hX hR h')) fun p p' hp => ?_
    obtain ⟨rfl, hp⟩ := hp
    refine R.bindEq (R.nested (item_const (fun _ => by clean) (fun _ => by clean) (fun _ => by clean)
      (fun _ => by clean)) (r_seckeyParse X hX hR _ p (.inr ⟨?_, hp⟩))) fun _ => r_unknownData
    rcases h' with ⟨rfl, -⟩ | ⟨rfl, -⟩ <;> decide

theorem r_tag08 : k.R (tag08 X) (tag08 X) Eq := by
  unfold tag08
  refine R.bindEq R.readByte fun c => R.bind (R.flag .debug) fun b b' hb => R.bindEq (R.add (it_comp hb _)) fun _ =>
    R.bindEq R.reader fun r => R.ite (fun _ => ?_) fun _ => R.pure rfl
  dsimp only
  have hr := it_raw hb r (S "Compressed data") (k := k) fun _ => by clean
  have hv := hr.setValue (v := S "<too laege decompressed data>") fun _ => by clean
  refine R.bindEq (by rel) fun zd => ?_
  have main : ∀ res : Except GoErr Bytes, (k.real = true → ∀ e, res = .error e → e.real) → k.R (match res with
      | .ok data => do
        add (rawData r (S "Compressed data") b)
        return some data
      | .error e =>
        if e.cause = .tooLarge then do
          add ((rawData r (S "Compressed data") b).setValue (S "<too laege decompressed data>"))
          return none
        else do
          add (rawData r (S "Compressed data") b)
          P.fail e.wrap) (match res with
      | .ok data => do
        add (rawData r (S "Compressed data") b')
        return some data
      | .error e =>
        if e.cause = .tooLarge then do
          add ((rawData r (S "Compressed data") b').setValue (S "<too laege decompressed data>"))
          return none
        else do
          add (rawData r (S "Compressed data") b')
          P.fail e.wrap) Eq := by
    intro res he
    cases res with
    | ok d => exact R.bindEq (R.add hr) fun _ => R.pure rfl
    | error e =>
      exact R.ite (fun _ => R.bindEq (R.add hv) fun _ => R.pure rfl) fun _ => R.bindEq (R.add hr) fun _ => R.fail fun h => he h e rfl
  exact main _ fun h => unpack_real (hR h) c zd
theorem r_tag09 : k.R tag09 tag09 Eq := by
  unfold tag09
  refine R.bindEq R.reader fun r => R.bind (R.flag .debug) fun b b' hb => R.bindEq R.getMode fun m => ?_
  cases m <;> rel
theorem r_tag10 : k.R tag10 tag10 Eq := by unfold tag10; rel
theorem r_tag11 : k.R (tag11 X) (tag11 X) Eq := by
  unfold tag11; rel
  refine R.bindEq (by rel) fun _ => ?_
  rel
theorem r_tag12 : k.R tag12 tag12 Eq := by unfold tag12; rel
theorem r_tag13 : k.R tag13 tag13 Eq := by unfold tag13; rel
theorem r_tag17 : k.R tag17 tag17 Eq := by
  unfold tag17; rel
  refine r_addSubpackets X hX hR (fun _ => by clean) fun subs _ s _ => ?_
  unfold parseSub17
  refine r_subScope X hX hR (R.at ?_ _ _)
  unfold sub17Body
  split
  · exact r_sub01
  · exact R.getCur
theorem r_tag18 : k.R tag18 tag18 Eq := by
  unfold tag18
  refine R.bindEq R.reader fun r => R.bind (R.flag .debug) fun b b' hb => R.bindEq R.getMode fun m => ?_
  cases m <;> rel
theorem r_tag19 : k.R tag19 tag19 Eq := by unfold tag19; rel
theorem r_tag20 : k.R tag20 tag20 Eq := by unfold tag20; rel

/-- Every packet parser, given that the packets inside are parsed alike. -/
theorem r_tagBody {recur recur' : TagParser} (tag : Nat) (body : Bytes) (hs : k.mayPanic = true ∨ SafeSecret (tag, body))
    (hrec : ∀ t b, Inside (tag, body) (t, b) → k.R (recur t b) (recur' t b) k.item) :
    k.At [] body (tagBody X recur tag) (tagBody X recur' tag) Eq := by
  unfold tagBody
  split
  · exact (r_tag01 X hX hR).at _ _
  · exact r_tag02 X hX hR hrec
  · exact (r_tag03 X hX hR).at _ _
  · exact (r_tag04 X hX hR).at _ _
  · exact r_tag05 X hX hR (.inl rfl) hs
  · exact (r_tag06 X hX hR).at _ _
  · exact r_tag05 X hX hR (.inr rfl) hs
  · exact (R.bindEq (r_tag08 X hX hR) fun _ => R.pure rfl).at _ _
  · exact (r_tag09 X hX hR).at _ _
  · exact (r_tag10 X hX hR).at _ _
  · exact (r_tag11 X hX hR).at _ _
  · exact (r_tag12 X hX hR).at _ _
  · exact (r_tag13 X hX hR).at _ _
  · exact (r_tag06 X hX hR).at _ _
  · exact (r_tag17 X hX hR).at _ _
  · exact (r_tag18 X hX hR).at _ _
  · exact (r_tag19 X hX hR).at _ _
  · exact (r_tag20 X hX hR).at _ _
  · exact At.pure rfl

theorem r_tagScope {α} {tag : Nat} {body : Bytes} {m m' : P α} {Q} (h : k.At [] body m m' Q) :
    k.R (tagScope tag body m) (tagScope tag body m') Q := by
  unfold tagScope
  exact R.bind (R.flag (.tagDump tag)) fun _ _ hb => R.scopeAt (it_tag hb _ _) h

/-- All packet parsers, for every nesting depth; the recursion bound does not matter as long as it exceeds the size. -/
theorem r_parseTagF (f f' : Nat) (tag : Nat) (body : Bytes) (hf : body.length < f) (hf' : body.length < f')
    (hs : k.mayPanic = true ∨ ∀ q, Within (tag, body) q → SafeSecret q) :
    k.R (parseTagF X f tag body) (parseTagF X f' tag body) k.item := by
  induction f generalizing f' tag body with
  | zero => omega
  | succ f ih =>
    cases f' with
    | zero => omega
    | succ f' =>
      unfold parseTagF tagParse
      refine r_tagScope X hX hR (At.bindR X hX hR (r_tagBody X hX hR tag body (hs.imp id fun h => h _ .refl) fun t b hi => ?_)
        fun _ _ _ => R.getCur)
      have := hi.shorter
      simp only at this
      exact ih f' t b (by omega) (by omega) (hs.imp id fun h q hq => h q (.step hi hq))

theorem r_parseTag (tag : Nat) (body : Bytes) (hs : k.mayPanic = true ∨ ∀ q, Within (tag, body) q → SafeSecret q) :
    k.R (parseTag X tag body) (parseTag X tag body) k.item :=
  r_parseTagF X hX hR _ _ tag body (by omega) (by omega) hs

end
end Gpgpdump
