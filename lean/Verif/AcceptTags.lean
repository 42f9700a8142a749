import Verif.AcceptSubs
import Verif.Unpack
import Verif.ThmTrunc
import Verif.MonTags

/-!
# Which subpackets and packets are accepted: one level

`R` and `SR` below say which packets and subpackets the recursive calls accept.
-/

namespace Gpgpdump
open P Spec

variable (X : Ext)

syntax "idl" : tactic
macro_rules | `(tactic| idl) => `(tactic| first
  | exact .pure _ | exact .flag _ | exact .add _ | exact .getCur | exact .reader | exact .getBody | exact .setValue _ | exact .setNote _
  | exact .setDump _ | exact .getMode | exact .getSigTime | exact .getKeyTime | exact .setMode _ | exact .setSigTime _
  | exact .setKeyTime _ | exact .rest | exact .addOpt _ | exact .addRaw _ _ | exact .unknownData | exact .addOpaque _
  | (refine Idle.ite ?_ ?_ <;> idl)
  | (refine Idle.forEach _ _ fun _ => ?_; idl)
  | (refine Idle.bind ?_ fun _ => ?_ <;> idl))

syntax "mn" : tactic
macro_rules | `(tactic| mn) => `(tactic| first
  | exact Min.trailingFlags
  | (refine Min.idle ?_; idl)
  | (refine Min.bytes _ fun _ => ?_; mn)
  | (refine Min.byte fun _ => ?_; mn)
  | (refine Oks.skip (by idl) fun _ => ?_; mn))

theorem Min.sub02 : Min (4 + 0) (sub02 X) := by unfold Gpgpdump.sub02 Gpgpdump.newDateTime; simp only [Lang.assoc]; mn
theorem Min.sub03 : Min (4 + 0) (sub03 X) := by unfold Gpgpdump.sub03; mn
theorem Min.sub04 : Min (1 + 0) sub04 := by unfold Gpgpdump.sub04; mn
theorem Min.sub05 : Min (1 + (1 + 0)) sub05 := by unfold Gpgpdump.sub05; mn
theorem Min.subText : Min 0 subText := by unfold Gpgpdump.subText; mn
theorem Min.sub07 : Min (1 + 0) sub07 := by unfold Gpgpdump.sub07; mn
theorem Min.sub09 : Min (4 + 0) (sub09 X) := by unfold Gpgpdump.sub09; mn
theorem Min.subList (f) : Min 0 (subList f) := by unfold Gpgpdump.subList; mn
theorem Min.sub12 : Min (1 + (1 + 0)) sub12 := by unfold Gpgpdump.sub12; mn
theorem Min.sub16 : Min (8 + 0) sub16 := by unfold Gpgpdump.sub16; mn
theorem Min.sub23 : Min (1 + 0) sub23 := by unfold Gpgpdump.sub23; mn
theorem Min.sub25 : Min (1 + 0) sub25 := by unfold Gpgpdump.sub25; mn
theorem Min.sub30 : Min (1 + 0) sub30 := by unfold Gpgpdump.sub30; mn
theorem Min.sub31 : Min (1 + (1 + 0)) sub31 := by unfold Gpgpdump.sub31; mn
theorem Min.subFingerprint : Min (1 + 0) subFingerprint := by unfold Gpgpdump.subFingerprint; mn
theorem Min.sub37 : Min 0 sub37 := by unfold Gpgpdump.sub37; mn

theorem Min.sub29 : Min (1 + 0) sub29 := by
  unfold Gpgpdump.sub29
  refine Min.byte fun c => Oks.skip (.setValue _) fun _ => ?_
  have h := Min.toEnd (m := fun b => do
    add (textItem (S "Additional resultrmation") b (← flag Ctx.debug))
    getCur) (m' := getCur) (fun b st y hy => ⟨_, _, y, rfl, hy⟩) .getCur
  refine cast ?_ h
  congr 2

theorem Min.sub27 : Min (1 + 0) sub27 := by
  unfold Gpgpdump.sub27
  refine Min.byte fun c => ?_
  iterate 8 refine Oks.skip (.addOpt _) fun _ => ?_
  refine (Oks.rest (A := fun n _ q => n > 0 → 1 ≤ q.length) fun n => ?_).congr fun p q => by omega
  simp only
  by_cases hn : (n : Int) > 0
  · rw [if_pos hn]
    have : Min (1 + 0) (do
        let g ← readByte
        addOpt (flag2Item (g &&& 0x04) (S "This key may be used as an additional decryption subkey (ADSK)."))
        addOpt (flag2Item (g &&& 0x08) (S "This key may be used for timestamping."))
        addOpt (flag2Item (g &&& 0xf3) (unknownFlag 2 (g &&& 0xf3)))
        Gpgpdump.trailingFlags
        getCur) := by mn
    exact this.congr fun p q => by omega
  · rw [if_neg hn]
    exact Min.trailingFlags.congr fun p q => by omega

/-! ## Subpackets of signatures -/

/-- four octets of flags, the lengths of name and value, name, value -/
def NotationOK (b : Bytes) : Prop := ∃ fl name value rest : Bytes, fl.length = 4 ∧ name.length < 65536 ∧ value.length < 65536 ∧
  b = fl ++ (beOctets 2 name.length ++ (beOctets 2 value.length ++ (name ++ (value ++ rest))))

theorem beOctets2_eq {l b : Bytes} (h : l.length = 2) (hb : b.length = beNat l) : b.length < 65536 ∧ l = beOctets 2 b.length := by
  have := beNat_lt l
  rw [h] at this
  refine ⟨by omega, ?_⟩
  rw [hb, ← h, beOctets_beNat]

theorem natOctets2 {n : Nat} (h : n < 65536) : beNat (beOctets 2 n) = n := beNat_beOctets 2 n (by simpa using h)

theorem Oks.bytes {β} (n : Nat) {g : Bytes → P β} {A : Bytes → Bytes → Prop} (h : ∀ b, Oks (g b) (fun _ q => A b q)) :
    Oks (readBytes n >>= g) (fun _ q => ∃ b r, q = b ++ r ∧ b.length = n ∧ A b r) :=
  (Oks.bind (Lang.readBytes n) h).congr fun p q => by
    constructor
    · rintro ⟨a, f, r, rfl, ⟨rfl, h1⟩, h2⟩; exact ⟨_, _, rfl, h1, h2⟩
    · rintro ⟨b, r, rfl, h1, h2⟩; exact ⟨b, b, r, rfl, ⟨rfl, h1⟩, h2⟩

theorem Oks.sub20 : Oks sub20 (fun _ q => NotationOK q) := by
  unfold Gpgpdump.sub20
  refine (Oks.bytes 4 (A := fun _ q => ∃ nl r, q = nl ++ r ∧ nl.length = 2 ∧ ∃ vl r', r = vl ++ r' ∧ vl.length = 2 ∧
    ∃ name r2, r' = name ++ r2 ∧ name.length = beNat nl ∧ ∃ value r3, r2 = value ++ r3 ∧ value.length = beNat vl ∧ True) fun fl => ?_).congr fun p q => ?_
  · iterate 5 refine Oks.skip (.addOpt _) fun _ => ?_
    refine Oks.bytes 2 fun nl => Oks.bytes 2 fun vl => Oks.bytes _ fun name => ?_
    refine Oks.skip (.flag _) fun _ => Oks.skip (.add _) fun _ => ?_
    refine Oks.bytes _ fun value => ?_
    refine Oks.idle ?_
    idl
  · constructor
    · rintro ⟨fl, r, rfl, h4, nl, r', rfl, hn, vl, r2, rfl, hv, name, r3, rfl, hn', value, r4, rfl, hv', -⟩
      obtain ⟨a1, a2⟩ := beOctets2_eq hn hn'
      obtain ⟨b1, b2⟩ := beOctets2_eq hv hv'
      exact ⟨fl, name, value, r4, h4, a1, b1, by rw [← a2, ← b2]⟩
    · rintro ⟨fl, name, value, r4, h4, a1, b1, rfl⟩
      exact ⟨fl, _, rfl, h4, _, _, rfl, beOctets_length _ _, _, _, rfl, beOctets_length _ _, name, _, rfl, (natOctets2 a1).symm, value, r4, rfl,
        (natOctets2 b1).symm, trivial⟩

theorem Oks.reader {β} {g : Reader → P β} {A : Reader → Bytes → Bytes → Prop} (h' : ∀ r, Oks (g r) (A r)) :
    Oks (P.reader >>= g) (fun p q => A ⟨p ++ q, p.length⟩ p q) :=
  ⟨fun _ _ _ _ _ _ hs => (h' _).sound _ _ _ _ _ _ hs, fun _ _ _ _ hl => (h' _).complete _ _ _ _ hl⟩

theorem Oks.build_then {β} {m : P Unit} {g : Item → P β} {A : Prop} {B : Bytes → Bytes → Prop} (i : Item)
    (h : Lang m (fun _ f _ => A ∧ f = [])) (h' : ∀ it, Oks (g it) B) : Oks (P.build i m >>= g) (fun p q => A ∧ B p q) := by
  constructor
  · intro x p q j b s hs
    obtain ⟨it, s1, h1, h2⟩ := bind_inv hs
    rw [build_run] at h1
    rcases hm : m (St.at (some x) p q i) with ⟨r, s'⟩
    rw [hm] at h1
    simp only [Prod.mk.injEq] at h1
    obtain ⟨hr, rfl⟩ := h1
    cases r with
    | ok u =>
      obtain ⟨f, q', x', j', rfl, ⟨ha, rfl⟩, rfl⟩ := h.sound _ _ _ _ _ _ hm
      rw [St.at_setCur] at h2
      obtain ⟨hb, hy⟩ := (h' it).sound _ _ _ _ _ _ h2
      exact ⟨⟨ha, by simpa using hb⟩, hy⟩
    | _ => simp [Res.map] at hr
  · rintro x p q j ⟨ha, hb⟩
    obtain ⟨x1, j1, h1⟩ := h.complete x p i () [] q ⟨ha, rfl⟩
    obtain ⟨b, s, h2⟩ := (h' j1).complete x1 p q j hb
    refine ⟨b, s, ?_⟩
    rw [bind_run, build_run]
    simp only [List.nil_append, List.append_nil] at h1
    rw [h1]
    simp only [Res.map, St.at_cur, St.at_setCur]
    exact h2

/-- the packets of a key block are accepted -/
def BlockOK (R : Nat → Bytes → Prop) (d : Bytes) : Prop := LoopOK X R (d.length + 1) ⟨d, rawErr .eof, [], false, true⟩

theorem ofReader_at (p q : Bytes) : Src.ofReader ⟨p ++ q, p.length⟩ = ⟨q, rawErr .eof, [], false, true⟩ := by
  unfold Src.ofReader
  congr 1
  simp [Reader.remaining]

theorem Oks.sub38 {recur : TagParser} {R : Nat → Bytes → Prop} (hr : ∀ t b, Sub (recur t b) (R t b)) :
    Oks (sub38 X recur) (fun _ q => ∃ k d, q = k :: d ∧ (k = 0 → BlockOK X R d)) := by
  unfold Gpgpdump.sub38
  refine Oks.byte (A := fun k _ q => k = 0 → BlockOK X R q) fun k => Oks.skip (.add _) fun _ => ?_
  refine (Oks.reader (A := fun r _ q => k = 0 → LoopOK X R ((Src.ofReader r).data.length + 1) (Src.ofReader r)) fun r => ?_).congr fun p q => by
    rw [ofReader_at]; rfl
  refine Oks.skip (.flag _) fun d => ?_
  simp only
  by_cases hk : k = 0
  · rw [if_pos hk]
    exact (Oks.build_then _ (Lang.forPackets X hr _ _) fun it => Oks.skip (.add _) fun _ => Oks.idle .getCur).congr fun p q => by
      simp [hk]
  · rw [if_neg hk]
    exact (Oks.skip (.add _) fun _ => Oks.idle .getCur).congr fun p q => by simp [hk]

theorem Oks.sub32 {recur : TagParser} {R : Nat → Bytes → Prop} (hr : ∀ t b, Sub (recur t b) (R t b)) :
    Oks (sub32 recur) (fun p q => R 2 (p ++ q)) := by
  unfold Gpgpdump.sub32
  exact Oks.getBody (A := fun b _ _ => R 2 b) fun b => (Oks.sub (hr 2 b) fun i => Oks.skip (.add _) fun _ => Oks.idle .getCur).congr fun p q => by simp

/-- one level of the subpacket grammar -/
def SubOK (R : Nat → Bytes → Prop) (t : UInt8) (b : Bytes) : Prop :=
  if t.toNat % 128 = 20 then NotationOK b
  else if t.toNat % 128 = 32 then R 2 b
  else if t.toNat % 128 = 38 then ∃ k d, b = k :: d ∧ (k = 0 → BlockOK X R d)
  else subSize (t.toNat % 128) ≤ b.length

theorem Oks.sub02Body {recur : TagParser} {n : Nat} (h20 : n ≠ 20) (h32 : n ≠ 32)
    (h38 : n ≠ 38) : Oks (sub02Body X recur n) (fun _ q => subSize n ≤ q.length) := by
  unfold Gpgpdump.sub02Body
  split
  · exact Min.sub02 X
  · exact Min.sub03 X
  · exact Min.sub04
  · exact Min.sub05
  · exact Min.subText
  · exact Min.sub07
  · exact Min.sub09 X
  · exact Min.idle .getCur
  · exact Min.subList _
  · exact Min.sub12
  · exact Min.sub16
  · exact absurd rfl h20
  · exact Min.subList _
  · exact Min.subList _
  · exact Min.sub23
  · exact Min.subText
  · exact Min.sub25
  · exact Min.subText
  · exact Min.sub27
  · exact Min.subText
  · exact Min.sub29
  · exact Min.sub30
  · exact Min.sub31
  · exact absurd rfl h32
  · exact Min.subFingerprint
  · exact Min.subList _
  · exact Min.subFingerprint
  · exact Min.sub37
  · exact absurd rfl h38
  rename_i h2 h3 h4 h5 h6 h7 h9 h10 h11 h12 h16 h20 h21 h22 h23 h24 h25 h26 h27 h28 h29 h30 h31 h32 h33 h34 h35 h37 h38
  have : subSize n = 0 := by
    unfold subSize
    simp only [imp_false] at *
    rw [if_neg (by simp; omega), if_neg (by simp; omega), if_neg (by simp; omega), if_neg (by omega)]
  rw [this]
  exact Min.idle .getCur

theorem Sub.parseSub02 {recur : TagParser} {R : Nat → Bytes → Prop} (hr : ∀ t b, Sub (recur t b) (R t b)) (t : UInt8) (b : Bytes) :
    Sub (parseSub02 X recur t b) (SubOK X R t b) := by
  unfold Gpgpdump.parseSub02 subScope
  refine Sub.flag fun d => ?_
  rw [and_7f]
  unfold SubOK
  by_cases h20 : t.toNat % 128 = 20
  · rw [if_pos h20, h20]; exact Sub.scope b _ Oks.sub20
  by_cases h32 : t.toNat % 128 = 32
  · rw [if_neg h20, if_pos h32, h32]; exact Sub.scope b _ (Oks.sub32 hr)
  by_cases h38 : t.toNat % 128 = 38
  · rw [if_neg h20, if_neg h32, if_pos h38, h38]; exact Sub.scope b _ (Oks.sub38 X hr)
  rw [if_neg h20, if_neg h32, if_neg h38]
  exact Sub.scope b _ (Oks.sub02Body X h20 h32 h38)

/-- the subpackets of user attributes -/
theorem Oks.sub01 : Oks sub01 (fun _ q => ∃ l0 l1 v r, q = l0 :: l1 :: v :: r ∧ (100 ≤ v.toNat → v.toNat ≤ 110 → r ≠ [])) := by
  unfold Gpgpdump.sub01
  have hl : ∀ (length : Nat), Idle (do
      let r ← P.reader
      add (newItem (S "Image data") [] (iBytes ((r.size : Int) - (length : Int))))
      getCur) := fun _ => by idl
  refine (Oks.bytes 2 (A := fun _ q => ∃ v r, q = v :: r ∧ (100 ≤ v.toNat → v.toNat ≤ 110 → r ≠ [])) fun l => ?_).congr fun p q => ?_
  · refine Oks.byte (A := fun v _ r => 100 ≤ v.toNat → v.toNat ≤ 110 → r ≠ []) fun v => ?_
    simp only
    by_cases h1 : v = 1
    · rw [if_pos h1]
      exact (Oks.skip (.add _) fun _ => Oks.idle (hl _)).congr fun p q => by subst h1; simp
    · rw [if_neg h1]
      by_cases h2 : 100 ≤ v.toNat ∧ v.toNat ≤ 110
      · rw [if_pos h2]
        refine (Oks.skip (.add _) fun _ => Oks.byte (A := fun _ _ _ => True) fun e => Oks.skip (.add _) fun _ => Oks.idle (hl _)).congr fun p q => ?_
        constructor
        · rintro ⟨e, r, rfl, -⟩ - -; simp
        · intro h
          cases q with
          | nil => exact absurd rfl (h h2.1 h2.2)
          | cons e r => exact ⟨e, r, rfl, trivial⟩
      · rw [if_neg h2]
        exact (Oks.skip (.add _) fun _ => Oks.idle (hl _)).congr fun p q => by
          simp only [true_iff]; intro a b; exact absurd ⟨a, b⟩ h2
  · constructor
    · rintro ⟨l, r, rfl, h2, v, r', rfl, h⟩
      obtain ⟨l0, l1, rfl⟩ : ∃ a b, l = [a, b] := by
        match l, h2 with
        | [a, b], _ => exact ⟨a, b, rfl⟩
      exact ⟨l0, l1, v, r', rfl, h⟩
    · rintro ⟨l0, l1, v, r, rfl, h⟩; exact ⟨[l0, l1], _, rfl, rfl, v, r, rfl, h⟩

theorem Sub.parseSub17 (t : UInt8) (b : Bytes) : Sub (parseSub17 t b) (AttrSub t b) := by
  unfold Gpgpdump.parseSub17 subScope
  refine Sub.flag fun d => ?_
  rw [and_7f]
  by_cases h1 : t.toNat % 128 = 1
  · rw [h1]
    refine (Sub.scope b _ Oks.sub01).congr ⟨?_, ?_⟩
    · rintro ⟨l0, l1, v, r, rfl, h⟩; exact .image h1 h
    · intro h
      cases h with
      | other h => exact absurd h1 h
      | image _ hv => exact ⟨_, _, _, _, rfl, hv⟩
  · refine (Sub.scope b _ (m := sub17Body (t.toNat % 128)) (A := fun _ _ => True) ?_).congr ⟨fun _ => .other h1, fun _ => trivial⟩
    have : sub17Body (t.toNat % 128) = getCur := by
      unfold sub17Body; split
      · contradiction
      · rfl
    rw [this]; exact Oks.idle .getCur

/-! ## Signatures -/

/-- a subpacket area with its length -/
def AreaOK (SR : UInt8 → Bytes → Prop) (f : Bytes) : Prop := ∃ area subs, area.length < 65536 ∧ SubSeq subs area ∧ (∀ s ∈ subs, SR s.1 s.2) ∧
  f = beOctets 2 area.length ++ area

theorem Lang.subArea {recur : TagParser} {SR : UInt8 → Bytes → Prop} (h : ∀ t b, Sub (parseSub02 X recur t b) (SR t b)) (name : Str) :
    Lang (subArea X recur name) (fun _ f _ => AreaOK SR f) := by
  unfold Gpgpdump.subArea
  refine (bytes 2 (L := fun s _ f _ => ∃ area subs, area.length = beNat s ∧ SubSeq subs area ∧ (∀ s ∈ subs, SR s.1 s.2) ∧ f = area) fun s => ?_).congr
    fun _ f q => ?_
  · simp only
    by_cases hs : beNat s > 0
    · rw [if_pos hs]
      refine (bytes _ fun sp => addSubpackets name sp h).congr fun _ f q => ?_
      constructor
      · rintro ⟨b, f', rfl, hl, ⟨subs, h1, h2⟩, rfl⟩; exact ⟨b, subs, hl, h1, h2, by simp⟩
      · rintro ⟨b, subs, hl, h1, h2, rfl⟩; exact ⟨f, [], by simp, hl, ⟨subs, h1, h2⟩, rfl⟩
    · rw [if_neg hs]
      refine (idle (.pure ())).congr fun _ f q => ?_
      constructor
      · rintro rfl; exact ⟨[], [], by simp; omega, .nil, by simp, rfl⟩
      · rintro ⟨b, subs, hl, h1, h2, rfl⟩
        exact List.length_eq_zero_iff.mp (by omega)
  · constructor
    · rintro ⟨b, f', rfl, h2, area, subs, hl, hs, ha, rfl⟩
      obtain ⟨a1, a2⟩ := beOctets2_eq h2 hl
      exact ⟨_, subs, a1, hs, ha, by rw [← a2]⟩
    · rintro ⟨area, subs, hl, hs, ha, rfl⟩
      exact ⟨_, _, rfl, beOctets_length _ _, area, subs, (natOctets2 hl).symm, hs, ha, rfl⟩

theorem Lang.tag02v4 {recur : TagParser} {SR : UInt8 → Bytes → Prop} (h : ∀ t b, Sub (parseSub02 X recur t b) (SR t b)) :
    Lang (tag02v4 X recur) (fun _ f _ => ∃ t a hh f1 f2 l0 l1 m, f = t :: a :: hh :: (f1 ++ (f2 ++ l0 :: l1 :: m)) ∧ AreaOK SR f1 ∧ AreaOK SR f2 ∧
      MPIs (sigInts a) m) := by
  unfold Gpgpdump.tag02v4
  refine (byte fun t => skip (.flag _) fun _ => skip (.add _) fun _ => byte fun a => skip (.flag _) fun _ => skip (.add _) fun _ =>
    byte fun hh => skip (.flag _) fun _ => skip (.add _) fun _ => seq (subArea X h _) (seq (subArea X h _) (bytes 2 fun l => skip (.add _) fun _ => parseSig a))).congr
    fun _ f q => ?_
  constructor
  · rintro ⟨t, _, rfl, a, _, rfl, hh, _, rfl, f1, _, rfl, h1, f2, _, rfl, h2, l, m, rfl, hl, hm⟩
    obtain ⟨l0, l1, rfl⟩ : ∃ a b, l = [a, b] := by
      match l, hl with
      | [a, b], _ => exact ⟨a, b, rfl⟩
    exact ⟨t, a, hh, f1, f2, l0, l1, m, rfl, h1, h2, hm⟩
  · rintro ⟨t, a, hh, f1, f2, l0, l1, m, rfl, h1, h2, hm⟩
    exact ⟨t, _, rfl, a, _, rfl, hh, _, rfl, f1, _, rfl, h1, f2, _, rfl, h2, [l0, l1], m, rfl, rfl, hm⟩

/-- one level of the grammar of signatures -/
def SigOK (SR : UInt8 → Bytes → Prop) (q : Bytes) : Prop := (∃ v r, q = v :: r ∧ v ∉ [4, 5]) ∨
  ∃ v t a hh f1 f2 l0 l1 m r, q = v :: t :: a :: hh :: (f1 ++ (f2 ++ l0 :: l1 :: (m ++ r))) ∧ v ∈ [4, 5] ∧ AreaOK SR f1 ∧ AreaOK SR f2 ∧
      MPIs (sigInts a) m

theorem sigVer_cases (v : UInt8) : (v = 5 ∧ (sigVer v).isDraft = true) ∨ (v = 4 ∧ (sigVer v).isDraft = false ∧ (sigVer v).isCurrent = true) ∨
    (v = 3 ∧ (sigVer v).isDraft = false ∧ (sigVer v).isCurrent = false ∧ (sigVer v).isOld = true) ∨
    (v ∉ [3, 4, 5] ∧ (sigVer v).isDraft = false ∧ (sigVer v).isCurrent = false ∧ ((sigVer v).isOld && v == 3) = false) := by
  have : ∀ i : Fin 256, let v := UInt8.ofNat i.val; (v = 5 ∧ (sigVer v).isDraft = true) ∨ (v = 4 ∧ (sigVer v).isDraft = false ∧ (sigVer v).isCurrent = true) ∨
    (v = 3 ∧ (sigVer v).isDraft = false ∧ (sigVer v).isCurrent = false ∧ (sigVer v).isOld = true) ∨
    (v ∉ [3, 4, 5] ∧ (sigVer v).isDraft = false ∧ (sigVer v).isCurrent = false ∧ ((sigVer v).isOld && v == 3) = false) := by decide +kernel
  have := this ⟨v.toNat, v.toNat_lt⟩
  simpa using this

/-- a version 3 signature that cannot be parsed is no error -/
theorem Oks.sigV3 : Oks (do if ← failed (tag02v3 X) then Pure.pure () else unknownData) (fun _ _ => True) := by
  have key : ∀ x p q j, ∃ a s y, (do if ← failed (tag02v3 X) then Pure.pure () else unknownData : P Unit) (St.at (some x) p q j) = (.ok a, s) ∧ s.ctx = some y := by
    intro x p q j
    obtain ⟨r, c', p', q', j', h2, h3⟩ := Safe.tag02v3 X (some x) p q j
    have hc := ((Plain.tag02v3 (X := X)).run (St.at (some x) p q j)).1
    rw [h2] at hc
    have hc : c' = some x := hc
    subst hc
    rw [bind_run]
    unfold failed
    rw [h2]
    rcases h3 with ⟨a, rfl⟩ | ⟨e, rfl⟩
    · obtain ⟨a, x', j2, h⟩ := Idle.unknownData.run x p' q' j'
      exact ⟨a, _, x', h, rfl⟩
    · exact ⟨(), _, x, rfl, rfl⟩
  constructor
  · intro x p q j a s hs
    obtain ⟨a', s', y, h, hy⟩ := key x p q j
    rw [h] at hs
    simp only [Prod.mk.injEq] at hs
    exact ⟨trivial, y, by rw [← hs.2]; exact hy⟩
  · intro x p q j _
    obtain ⟨a', s', y, h, hy⟩ := key x p q j
    exact ⟨a', s', h⟩

theorem Oks.tag02 {recur : TagParser} {SR : UInt8 → Bytes → Prop} (h : ∀ t b, Sub (parseSub02 X recur t b) (SR t b)) :
    Oks (tag02 X recur) (fun _ q => SigOK SR q) := by
  unfold Gpgpdump.tag02
  have hv4 : Oks (do Gpgpdump.tag02v4 X recur; unknownData) (fun _ q => ∃ t a hh f1 f2 l0 l1 m r, q = t :: a :: hh :: (f1 ++ (f2 ++ l0 :: l1 :: (m ++ r))) ∧
      AreaOK SR f1 ∧ AreaOK SR f2 ∧ MPIs (sigInts a) m) := by
    refine (Oks.bind (Lang.tag02v4 X h) fun _ => Oks.idle .unknownData).congr fun p q => ?_
    constructor
    · rintro ⟨-, f, r, rfl, ⟨t, a, hh, f1, f2, l0, l1, m, rfl, h1⟩, -⟩
      exact ⟨t, a, hh, f1, f2, l0, l1, m, r, by simp, h1⟩
    · rintro ⟨t, a, hh, f1, f2, l0, l1, m, r, rfl, h1⟩
      exact ⟨(), t :: a :: hh :: (f1 ++ (f2 ++ l0 :: l1 :: m)), r, by simp, ⟨t, a, hh, f1, f2, l0, l1, m, rfl, h1⟩, trivial⟩
  refine (Oks.byte (A := fun v _ q => if v ∈ [4, 5] then (∃ t a hh f1 f2 l0 l1 m r, q = t :: a :: hh :: (f1 ++ (f2 ++ l0 :: l1 :: (m ++ r))) ∧
      AreaOK SR f1 ∧ AreaOK SR f2 ∧ MPIs (sigInts a) m) else True) fun v => Oks.skip (.flag _) fun _ => Oks.skip (.add _) fun _ => ?_).congr fun p q => ?_
  · rcases sigVer_cases v with ⟨rfl, h1⟩ | ⟨rfl, h1, h2⟩ | ⟨rfl, h1, h2, h3⟩ | ⟨hv, h1, h2, h3⟩
    · rw [if_pos h1]; exact hv4.congr fun p q => by rw [if_pos (by decide)]
    · rw [if_neg (by simp [h1]), if_pos h2]; exact hv4.congr fun p q => by rw [if_pos (by decide)]
    · rw [if_neg (by simp [h1]), if_neg (by simp [h2]), if_pos (by simp [h3])]
      exact (Oks.sigV3 X).congr fun p q => by rw [if_neg (by decide)]
    · rw [if_neg (by simp [h1]), if_neg (by simp [h2]), if_neg (by simp [h3])]
      exact (Oks.idle .unknownData).congr fun p q => by
        rw [if_neg (fun h => hv ((by decide : ∀ x ∈ ([4, 5] : List UInt8), x ∈ ([3, 4, 5] : List UInt8)) _ h))]
  · unfold SigOK
    constructor
    · rintro ⟨v, r, rfl, h⟩
      by_cases hv : v ∈ [4, 5]
      · rw [if_pos hv] at h
        obtain ⟨t, a, hh, f1, f2, l0, l1, m, r, rfl, h1⟩ := h
        exact .inr ⟨v, t, a, hh, f1, f2, l0, l1, m, r, rfl, hv, h1⟩
      · exact .inl ⟨v, r, rfl, hv⟩
    · rintro (⟨v, r, rfl, hv⟩ | ⟨v, t, a, hh, f1, f2, l0, l1, m, r, rfl, hv, h1⟩)
      · exact ⟨v, r, rfl, by rw [if_neg hv]; trivial⟩
      · exact ⟨v, _, rfl, by rw [if_pos hv]; exact ⟨t, a, hh, f1, f2, l0, l1, m, r, rfl, h1⟩⟩

/-! ## The other packets -/

theorem Oks.tag01 : Oks tag01 (fun _ q => Spec.Acc X 1 q) := by
  unfold Gpgpdump.tag01
  refine (Oks.skip (.setMode _) fun _ => Oks.byte fun v => Oks.skip (.flag _) fun _ => Oks.skip (.add _) fun _ =>
    Oks.bytes 8 (A := fun _ q => ∃ a r, q = a :: r ∧ ∃ f rest, r = f ++ rest ∧ SesFields a f rest) fun kid => Oks.skip (.add _) fun _ =>
    Oks.byte (A := fun a _ r => ∃ f rest, r = f ++ rest ∧ SesFields a f rest) fun a => Oks.skip (.flag _) fun _ => Oks.skip (.add _) fun _ =>
    (Oks.bind (Lang.parseSes a) fun _ => Oks.idle .unknownData).congr fun p q => ?_).congr fun p q => ?_
  · constructor
    · rintro ⟨-, f, r, rfl, h, -⟩; exact ⟨f, r, rfl, h⟩
    · rintro ⟨f, r, rfl, h⟩; exact ⟨(), f, r, rfl, h, trivial⟩
  · constructor
    · rintro ⟨v, r, rfl, kid, r', rfl, h8, a, r2, rfl, f, rest, rfl, h⟩; exact .sessionKey h8 h
    · intro h
      cases h with
      | sessionKey h8 h => exact ⟨_, _, rfl, _, _, rfl, h8, _, _, rfl, _, _, rfl, h⟩
      | publicKey ht => simp at ht
      | secretKey ht => simp at ht
      | secretKey5 ht => simp at ht
      | other h => simp at h

theorem symVer_cases (v : UInt8) : (symSessKeyVer v).isCurrent = (v == 4) := by
  have : ∀ i : Fin 256, let v := UInt8.ofNat i.val; (symSessKeyVer v).isCurrent = (v == 4) := by decide +kernel
  have := this ⟨v.toNat, v.toNat_lt⟩
  simpa using this

theorem Oks.tag03 : Oks tag03 (fun _ q => Spec.Acc X 3 q) := by
  unfold Gpgpdump.tag03
  refine (Oks.skip (.setMode _) fun _ => Oks.byte (A := fun v _ q => v = 4 → ∃ c r, q = c :: r ∧ ∃ f rest iv, r = f ++ rest ∧ S2KSpec iv f rest) fun v =>
    Oks.skip (.flag _) fun d => Oks.skip (.add _) fun _ => ?_).congr fun p q => ?_
  · simp only [symVer_cases]
    by_cases hv : v = 4
    · rw [if_pos (by simp [hv])]
      refine (Oks.byte (A := fun c _ r => ∃ f rest iv, r = f ++ rest ∧ S2KSpec iv f rest) fun c => Oks.skip (.add _) fun _ =>
        (Oks.bind (Lang.s2kParse d) fun _ => Oks.idle .unknownData).congr fun p q => ?_).congr fun p q => by simp only [hv, true_implies]
      constructor
      · rintro ⟨iv, f, r, rfl, h, -⟩; exact ⟨f, r, iv, rfl, h⟩
      · rintro ⟨f, r, iv, rfl, h⟩; exact ⟨iv, f, r, rfl, h, trivial⟩
    · rw [if_neg (by simp [hv])]
      exact (Oks.idle .unknownData).congr fun p q => by simp [hv]
  · constructor
    · rintro ⟨v, r, rfl, h⟩
      by_cases hv : v = 4
      · subst hv
        obtain ⟨c, r, rfl, f, rest, iv, rfl, h'⟩ := h rfl
        exact .password h'
      · exact .passwordOther hv
    · intro h
      cases h with
      | password h => exact ⟨_, _, rfl, fun _ => ⟨_, _, rfl, _, _, _, rfl, h⟩⟩
      | passwordOther hv => exact ⟨_, _, rfl, fun h => absurd h hv⟩
      | publicKey ht => simp at ht
      | secretKey ht => simp at ht
      | secretKey5 ht => simp at ht
      | other h => simp at h

theorem Oks.tag04 : Oks tag04 (fun _ q => Spec.Acc X 4 q) := by
  have : Min (1 + (1 + (1 + (1 + (8 + (1 + 0)))))) Gpgpdump.tag04 := by
    unfold Gpgpdump.tag04
    mn
  refine this.congr fun p q => ?_
  constructor
  · intro h; exact .onePass h
  · intro h
    cases h with
    | onePass h => exact h
    | publicKey ht => simp at ht
    | secretKey ht => simp at ht
    | secretKey5 ht => simp at ht
    | other h => simp at h

theorem Oks.tag11 : Oks (tag11 X) (fun _ q => Spec.Acc X 11 q) := by
  unfold Gpgpdump.tag11
  have hn : Lang (readByte >>= fun flen => if flen.toNat < 1 then Pure.pure [] else readBytes flen.toNat : P Bytes)
      (fun b f _ => b.length < 256 ∧ f = UInt8.ofNat b.length :: b) := by
    refine Lang.counted fun l => ?_
    have : (if l.toNat < 1 then Pure.pure [] else readBytes l.toNat : P Bytes) = (if l = 0 then Pure.pure [] else readBytes l.toNat) := by
      by_cases h : l = 0
      · subst h; rfl
      · rw [if_neg h, if_neg]
        intro h'
        exact h (UInt8.toNat_inj.mp (by simp; omega))
    rw [this]
    exact Lang.emptyOr
  have hr : ∀ n : Bytes, Oks (do
      add (textItem (S "File name") n (← flag Ctx.literal))
      let ftime ← newDateTime (← flag Ctx.utc)
      add (fileTimeItem X ftime (← flag Ctx.debug))
      addRaw (S "Literal data") (← flag Ctx.literal)) (fun _ q => 4 ≤ q.length) := by
    intro n
    have : Min (4 + 0) (do
      add (textItem (S "File name") n (← flag Ctx.literal))
      let ftime ← newDateTime (← flag Ctx.utc)
      add (fileTimeItem X ftime (← flag Ctx.debug))
      addRaw (S "Literal data") (← flag Ctx.literal)) := by
      unfold Gpgpdump.newDateTime; simp only [Lang.assoc]; mn
    exact this
  have h2 := Oks.bind hn fun n => hr n
  simp only [Lang.assoc] at h2
  refine (Oks.byte (A := fun _ _ q => ∃ n tm rest, q = n ++ (tm ++ rest) ∧ Counted n ∧ tm.length = 4) fun fmt => Oks.skip (.add _) fun _ => h2.congr fun p q => ?_).congr fun p q => ?_
  · constructor
    · rintro ⟨b, f, r, rfl, ⟨hb, rfl⟩, h⟩
      exact ⟨_, r.take 4, r.drop 4, by simp, .mk hb, by simp; omega⟩
    · rintro ⟨n, tm, rest, rfl, hn, ht⟩
      cases hn with
      | @mk x h => exact ⟨x, _, _, rfl, ⟨h, rfl⟩, by simp; omega⟩
  · constructor
    · rintro ⟨fmt, r, rfl, n, tm, rest, rfl, h1, h2⟩; exact .literal h1 h2
    · intro h
      cases h with
      | literal h1 h2 => exact ⟨_, _, rfl, _, _, _, rfl, h1, h2⟩
      | publicKey ht => simp at ht
      | secretKey ht => simp at ht
      | secretKey5 ht => simp at ht
      | other h => simp at h

theorem Oks.tag17 : Oks tag17 (fun p q => Spec.Acc X 17 (p ++ q)) := by
  unfold Gpgpdump.tag17
  refine (Oks.getBody (A := fun b _ _ => Spec.Acc X 17 b) fun b => ?_)
  have h := Oks.bind (Lang.addSubpackets (S "Subpacket") b Sub.parseSub17) fun _ => Oks.idle (.pure ())
  have e : (do addSubpackets Gpgpdump.parseSub17 (S "Subpacket") b; Pure.pure ()) = addSubpackets Gpgpdump.parseSub17 (S "Subpacket") b := by
    funext st
    rw [bind_run]
    rcases addSubpackets Gpgpdump.parseSub17 (S "Subpacket") b st with ⟨r, s⟩
    cases r <;> rfl
  rw [e] at h
  refine h.congr fun p q => ?_
  constructor
  · rintro ⟨-, f, r, rfl, ⟨⟨subs, h1, h2⟩, -⟩, -⟩; exact Spec.Acc.userAttribute h1 h2
  · intro h
    cases h with
    | userAttribute h1 h2 => exact ⟨(), [], q, rfl, ⟨⟨_, h1, h2⟩, rfl⟩, trivial⟩
    | publicKey ht => simp at ht
    | secretKey ht => simp at ht
    | secretKey5 ht => simp at ht
    | other h => simp at h

theorem Oks.tag05' {tag : Nat} (ht : tag ∈ [5, 7]) : Oks (Gpgpdump.tag05 X) (fun _ q => Spec.Acc X tag q) := by
  refine (Oks.tag05 X).congr fun p q => ?_
  constructor
  · rintro ⟨v, a, f, s, rfl, h1, h2⟩
    by_cases hv : v = 5
    · subst hv; rw [if_pos rfl] at h2; exact .secretKey5 ht h1 h2
    · rw [if_neg hv] at h2; exact .secretKey ht hv h1 h2
  · intro h
    cases h with
    | secretKey _ hv h1 h2 => exact ⟨_, _, _, _, rfl, h1, by rw [if_neg hv]; exact h2⟩
    | secretKey5 _ h1 h2 => exact ⟨_, _, _, _, rfl, h1, by rw [if_pos rfl]; exact h2⟩
    | publicKey h => simp at h ht; omega
    | other h => simp at h ht; omega
    | _ => simp at ht

theorem Oks.tag06' {tag : Nat} (ht : tag ∈ [6, 14]) : Oks (Gpgpdump.tag06 X) (fun _ q => Spec.Acc X tag q) := by
  refine (Oks.tag06 X).congr fun p q => ?_
  constructor
  · rintro ⟨v, a, f, s, rfl, h1⟩; exact .publicKey ht h1
  · intro h
    cases h with
    | publicKey _ h1 => exact ⟨_, _, _, _, rfl, h1⟩
    | secretKey h => simp at h ht; omega
    | secretKey5 h => simp at h ht; omega
    | other h => simp at h ht; omega
    | _ => simp at ht

theorem Oks.tag20 : Oks tag20 (fun _ q => Spec.Acc X 20 q) := by
  have key : ∀ n : Nat, Min 0 (do
      let err ← failed (do
        let iv ← readBytes n
        add (newItem (S "IV") [] [] (dumpBytes iv true)))
      if err then Pure.pure ()
      else if (← Gpgpdump.rest) > 0 then addRaw (S "Encrypted data and authentication tag") (← flag Ctx.debug)
      else Pure.pure ()) := by
    intro n
    have hrun : ∀ x p q j, ∃ b p' q' j', failed (do
        let iv ← readBytes n
        add (newItem (S "IV") [] [] (dumpBytes iv true))) (St.at (some x) p q j) = (.ok b, St.at (some x) p' q' j') := by
      intro x p q j
      unfold failed
      by_cases hn : n ≤ q.length
      · rw [bind_run, readBytes_ok _ _ _ _ _ hn]
        exact ⟨false, _, _, _, rfl⟩
      · rw [bind_run, readBytes_err _ _ _ _ _ (by omega)]
        exact ⟨true, p, q, j, rfl⟩
    have hidle : ∀ b : Bool, Idle (if b then Pure.pure () else do
        if (← Gpgpdump.rest) > 0 then addRaw (S "Encrypted data and authentication tag") (← flag Ctx.debug) else Pure.pure ()) := fun b => by idl
    have key : ∀ x p q j, ∃ a x' p' q' j', (do
      let err ← failed (do
        let iv ← readBytes n
        add (newItem (S "IV") [] [] (dumpBytes iv true)))
      if err then Pure.pure ()
      else if (← Gpgpdump.rest) > 0 then addRaw (S "Encrypted data and authentication tag") (← flag Ctx.debug)
      else Pure.pure () : P Unit) (St.at (some x) p q j) = (.ok a, St.at (some x') p' q' j') := by
      intro x p q j
      obtain ⟨b, p', q', j', h1⟩ := hrun x p q j
      obtain ⟨a, x2, j2, h2⟩ := (hidle b).run x p' q' j'
      exact ⟨a, x2, p', q', j2, by rw [bind_run, h1]; exact h2⟩
    constructor
    · intro x p q j a s hs
      obtain ⟨a', x', p', q', j', h⟩ := key x p q j
      rw [h] at hs
      simp only [Prod.mk.injEq] at hs
      exact ⟨Nat.zero_le _, x', by rw [← hs.2]; rfl⟩
    · intro x p q j _
      obtain ⟨a', x', p', q', j', h⟩ := key x p q j
      exact ⟨a', _, h⟩
  have : Min (1 + (1 + (1 + (1 + 0)))) Gpgpdump.tag20 := by
    unfold Gpgpdump.tag20
    refine Min.byte fun _ => Oks.skip (.flag _) fun _ => Oks.skip (.add _) fun _ => Min.byte fun _ => Oks.skip (.flag _) fun _ => Oks.skip (.add _) fun _ =>
      Min.byte fun a => Oks.skip (.flag _) fun _ => Oks.skip (.add _) fun _ => Min.byte fun _ => Oks.skip (.add _) fun _ => ?_
    exact key _
  refine this.congr fun p q => ?_
  constructor
  · intro h; exact .aead h
  · intro h
    cases h with
    | aead h => exact h
    | publicKey ht => simp at ht
    | secretKey ht => simp at ht
    | secretKey5 ht => simp at ht
    | other h => simp at h

/-- what a compressed packet is opened to -/
inductive OpenOK : Bytes → Option Bytes → Prop
  | one {a} : OpenOK [a] (some [])
  | data {a zd z} (h0 : zd ≠ []) (h : unpackRes X a zd = .ok z) : OpenOK (a :: zd) (some z)
  | large {a zd e} (h0 : zd ≠ []) (h : unpackRes X a zd = .error e) (he : e.cause = .tooLarge) : OpenOK (a :: zd) none

/-- the packet as such -/
theorem tag08_at (x : Ctx) (q : Bytes) (j : Item) : (∀ a s, tag08 X (St.at (some x) [] q j) = (.ok a, s) → OpenOK X q a ∧ s.ctx = some x) ∧
    (∀ a, OpenOK X q a → ∃ s, tag08 X (St.at (some x) [] q j) = (.ok a, s)) := by
  cases q with
  | nil =>
    constructor
    · intro a s hs
      rw [tag08_eq] at hs
      obtain ⟨c, s1, h1, -⟩ := bind_inv hs
      obtain ⟨q', h, -⟩ := readByte_inv h1
      cases h
    · intro a h; cases h
  | cons c zd =>
    by_cases hz : zd = []
    · subst hz
      rw [tag08_one]
      constructor
      · intro a s hs
        simp only [Prod.mk.injEq, Res.ok.injEq] at hs
        obtain ⟨rfl, rfl⟩ := hs
        exact ⟨.one, rfl⟩
      · intro a h
        cases h with
        | one => exact ⟨_, rfl⟩
        | data h0 => exact absurd rfl h0
        | large h0 => exact absurd rfl h0
    · obtain ⟨h1, -, h3⟩ := tag08_run X (some x) j c zd hz
      constructor
      · intro a s hs
        rw [hs] at h1 h3
        refine ⟨?_, h3⟩
        unfold packedOut at h1
        cases hu : unpackRes X c zd with
        | ok z => rw [hu] at h1; simp only [Res.ok.injEq] at h1; subst h1; exact .data hz hu
        | error e =>
          rw [hu] at h1
          simp only at h1
          split at h1
          · simp only [Res.ok.injEq] at h1; subst h1; exact .large hz hu ‹_›
          · cases h1
      · intro a h
        have : (tag08 X (St.at (some x) [] (c :: zd) j)).1 = .ok a := by
          rw [h1]
          unfold packedOut
          cases h with
          | one => exact absurd rfl hz
          | data _ h => rw [h]
          | large _ h he => rw [h]; simp only [he, if_true]
        exact ⟨_, by rw [← this]⟩

/-- one level of the grammar of packets -/
def TagOK (R : Nat → Bytes → Prop) (tag : Nat) (b : Bytes) : Prop :=
  if tag = 2 then SigOK (SubOK X R) b else if tag = 8 then ∃ o, OpenOK X b o else Spec.Acc X tag b

theorem Sub.scope0 {α} {m : P α} {A : Prop} (body : Bytes) (hdr : Item)
    (h : ∀ x, (∀ a s, m (St.at (some x) [] body hdr) = (.ok a, s) → A ∧ ∃ y, s.ctx = some y) ∧ (A → ∃ a s, m (St.at (some x) [] body hdr) = (.ok a, s))) :
    Sub (P.scope body hdr m) A := by
  have hr : ∀ x p q j, P.scope body hdr m (St.at (some x) p q j) =
      ((m (St.at (some x) [] body hdr)).1, { (m (St.at (some x) [] body hdr)).2 with rd := ⟨p ++ q, p.length⟩, cur := j }) := fun _ _ _ _ => rfl
  constructor
  · intro x p q j a s hs
    rw [hr] at hs
    rcases hm : m (St.at (some x) [] body hdr) with ⟨r, s'⟩
    rw [hm] at hs
    simp only [Prod.mk.injEq] at hs
    obtain ⟨rfl, rfl⟩ := hs
    obtain ⟨ha, y, hy⟩ := (h x).1 _ _ hm
    exact ⟨ha, y, by simp [St.at, hy]⟩
  · intro x p q j ha
    obtain ⟨a, s, h1⟩ := (h x).2 ha
    obtain ⟨-, y, hy⟩ := (h x).1 _ _ h1
    exact ⟨a, y, by rw [hr, h1]; simp [St.at, hy]⟩

theorem acc_other {tag : Nat} {b : Bytes} (h : tag ∉ [1, 2, 3, 4, 5, 6, 7, 8, 11, 14, 17, 20]) : Spec.Acc X tag b ↔ True :=
  ⟨fun _ => trivial, fun _ => .other h⟩

theorem Sub.tag {recur : TagParser} {tag : Nat} {A : Bytes → Bytes → Prop} (h : Oks (tagBody X recur tag) A) (b : Bytes) :
    Sub (tagParse X recur tag b) (A [] b) := by
  unfold tagParse tagScope
  exact Sub.flag fun d => Sub.scope b _ (Oks.last h fun _ s y hy => ⟨_, s, y, rfl, hy⟩)

theorem Sub.tagIdle {recur : TagParser} {tag : Nat} (ht : tag ∉ [1, 2, 3, 4, 5, 6, 7, 8, 11, 14, 17, 20]) (h : Idle (tagBody X recur tag)) (b : Bytes) :
    Sub (tagParse X recur tag b) (Spec.Acc X tag b) :=
  (Sub.tag X (Oks.idle h) b).congr (acc_other X ht).symm

theorem Sub.tag8 {recur : TagParser} (b : Bytes) : Sub (tagParse X recur 8 b) (∃ o, OpenOK X b o) := by
  unfold tagParse tagScope
  refine Sub.flag fun d => Sub.scope0 b _ fun x => ⟨?_, ?_⟩
  · intro a s hs
    obtain ⟨u, s1, h1, h2⟩ := bind_inv hs
    obtain ⟨o, s2, h3, h4⟩ := bind_inv h1
    obtain ⟨h5, h6⟩ := (tag08_at X x b _).1 o s2 h3
    refine ⟨⟨o, h5⟩, x, ?_⟩
    cases h4
    cases h2
    exact h6
  · rintro ⟨o, ho⟩
    obtain ⟨s, hs⟩ := (tag08_at X x b (tagItem 8 b d)).2 o ho
    have : tagBody X recur 8 (St.at (some x) [] b (tagItem 8 b d)) = (.ok (), s) := by
      change (tag08 X >>= fun _ => Pure.pure ()) _ = _
      rw [bind_run, hs]; rfl
    exact ⟨_, s, by rw [bind_run, this]; rfl⟩

theorem Sub.tagParse {recur : TagParser} {R : Nat → Bytes → Prop} (hr : ∀ t b, Sub (recur t b) (R t b)) (tag : Nat) (b : Bytes) :
    Sub (tagParse X recur tag b) (TagOK X R tag b) := by
  unfold TagOK
  by_cases h2 : tag = 2
  · rw [if_pos h2]; subst h2
    exact Sub.tag X (recur := recur) (tag := 2) (Oks.tag02 X (Sub.parseSub02 X hr)) b
  by_cases h8 : tag = 8
  · rw [if_neg h2, if_pos h8]; subst h8
    exact Sub.tag8 X b
  rw [if_neg h2, if_neg h8]
  by_cases h : tag ∈ [1, 3, 4, 5, 6, 7, 11, 14, 17, 20]
  · simp only [List.mem_cons, List.not_mem_nil, or_false] at h
    rcases h with rfl | rfl | rfl | rfl | rfl | rfl | rfl | rfl | rfl | rfl
    · exact Sub.tag X (recur := recur) (tag := 1) (Oks.tag01 X) b
    · exact Sub.tag X (recur := recur) (tag := 3) (Oks.tag03 X) b
    · exact Sub.tag X (recur := recur) (tag := 4) (Oks.tag04 X) b
    · exact Sub.tag X (recur := recur) (tag := 5) (Oks.tag05' X (tag := 5) (by decide)) b
    · exact Sub.tag X (recur := recur) (tag := 6) (Oks.tag06' X (tag := 6) (by decide)) b
    · exact Sub.tag X (recur := recur) (tag := 7) (Oks.tag05' X (tag := 7) (by decide)) b
    · exact Sub.tag X (recur := recur) (tag := 11) (Oks.tag11 X) b
    · exact Sub.tag X (recur := recur) (tag := 14) (Oks.tag06' X (tag := 14) (by decide)) b
    · exact Sub.tag X (recur := recur) (tag := 17) (Oks.tag17 X) b
    · exact Sub.tag X (recur := recur) (tag := 20) (Oks.tag20 X) b
  · simp only [List.mem_cons, List.not_mem_nil, or_false, not_or] at h
    refine Sub.tagIdle X (by simp; omega) ?_ b
    unfold tagBody
    split <;> first | omega | skip
    · unfold tag09; idl
    · unfold tag10; idl
    · unfold tag12; idl
    · unfold tag13; idl
    · unfold tag18; idl
    · unfold tag19; idl
    · exact .pure ()

/-- what `parseTagF` with this fuel accepts -/
def FuelOK : Nat → Nat → Bytes → Prop
  | 0, _, _ => False
  | n + 1, tag, b => TagOK X (FuelOK n) tag b

theorem Sub.parseTagF (n : Nat) (tag : Nat) (b : Bytes) : Sub (parseTagF X n tag b) (FuelOK X n tag b) := by
  induction n generalizing tag b with
  | zero => exact Sub.stuck
  | succ n ih => exact Sub.tagParse X ih tag b

end Gpgpdump
