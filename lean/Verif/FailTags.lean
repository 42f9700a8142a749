import Verif.FailKeys
import Verif.PanicTags

/-!
# Which subpackets and packets are rejected, and with what error: one level

`R`, `B` below say which packets the recursive calls accept and which they reject with what cause.
-/

namespace Gpgpdump
open P Spec

variable (X : Ext)

/-- one of the packets of a source is rejected, or no packet can be read, those before it are accepted -/
def ErrLoop (R : Nat → Bytes → Prop) (B : Cause → Nat → Bytes → Prop) (c : Cause) : Nat → Src → Prop
  | 0, _ => False
  | f + 1, src => match nextPacket X src with
    | (.error e, _) => e.isEOF = false ∧ c = e.cause
    | (.ok (tag, body), src') => B c tag body ∨ (R tag body ∧ ErrLoop R B c f src')

/-- one of the subpackets is rejected, those before it are accepted -/
def ErrList (A : UInt8 → Bytes → Prop) (B : Cause → UInt8 → Bytes → Prop) (c : Cause) (l : List (UInt8 × Bytes)) : Prop :=
  ∃ s1 p s2, l = s1 ++ p :: s2 ∧ (∀ s ∈ s1, A s.1 s.2) ∧ B c p.1 p.2

theorem errList_cons {A : UInt8 → Bytes → Prop} {B : Cause → UInt8 → Bytes → Prop} {c : Cause} {s : UInt8 × Bytes} {l : List (UInt8 × Bytes)} :
    ErrList A B c (s :: l) ↔ B c s.1 s.2 ∨ (A s.1 s.2 ∧ ErrList A B c l) := by
  constructor
  · rintro ⟨s1, p, s2, h, h1, h2⟩
    cases s1 with
    | nil => cases h; exact .inl h2
    | cons a s1 =>
      cases h
      exact .inr ⟨h1 _ (by simp), s1, p, s2, rfl, fun s hs => h1 s (by simp [hs]), h2⟩
  · rintro (h | ⟨h, s1, p, s2, rfl, h1, h2⟩)
    · exact ⟨[], s, l, rfl, by simp, h⟩
    · exact ⟨s :: s1, p, s2, rfl, by simpa using ⟨h, fun a b hm => h1 (a, b) hm⟩, h2⟩

namespace Errs

theorem forPackets {recur : TagParser} {R : Nat → Bytes → Prop} {B : Cause → Nat → Bytes → Prop} (hr : ∀ t b, Sub (recur t b) (R t b))
    (hb : ∀ t b, Errs (recur t b) (fun c _ _ => B c t b)) (f : Nat) (src : Src) :
    Errs (forPackets X recur f src) (fun c _ _ => ErrLoop X R B c f src) := by
  induction f generalizing src with
  | zero => exact ⟨fun x p q j c => by simp [Gpgpdump.forPackets, P.stuck, ErrLoop]⟩
  | succ f ih =>
    unfold Gpgpdump.forPackets ErrLoop
    rcases hn : nextPacket X src with ⟨r, src'⟩
    cases r with
    | error e =>
      simp only
      by_cases he : e.isEOF = true
      · rw [if_pos he]; exact (idle (.pure ())).congr fun _ _ _ => by simp [he]
      · rw [if_neg he]; exact (fail e.wrap).congr fun c _ _ => by simp [he, GoErr.wrap]
    | ok tb =>
      obtain ⟨tag, body⟩ := tb
      simp only
      exact sub (hb tag body) (hr tag body) fun i => skip (.add i) fun _ => ih src'

theorem subLoop {p : UInt8 → Bytes → P Item} {A : UInt8 → Bytes → Prop} {B : Cause → UInt8 → Bytes → Prop} (l : List (UInt8 × Bytes))
    (h : ∀ t b, Sub (p t b) (A t b)) (hb : ∀ t b, Errs (p t b) (fun c _ _ => B c t b)) :
    Errs (subLoop p l) (fun c _ _ => ErrList A B c l) := by
  induction l with
  | nil => exact (idle (.pure ())).congr fun c _ _ => by simp [ErrList]
  | cons s l ih =>
    obtain ⟨t, b⟩ := s
    exact (sub (hb t b) (h t b) fun i => skip (.add i) fun _ => ih).congr fun c _ _ => (errList_cons (s := (t, b))).symm

/-- what is rejected in a subpacket area -/
def ListErr (A : UInt8 → Bytes → Prop) (B : Cause → UInt8 → Bytes → Prop) (c : Cause) (area : Bytes) : Prop :=
  (c = .subTruncated ∧ ¬ ∃ subs, SubSeq subs area) ∨ ∃ subs, SubSeq subs area ∧ ErrList A B c subs

theorem addSubpackets {p : UInt8 → Bytes → P Item} {A : UInt8 → Bytes → Prop} {B : Cause → UInt8 → Bytes → Prop} (name : Str) (area : Bytes)
    (h : ∀ t b, Sub (p t b) (A t b)) (hb : ∀ t b, Errs (p t b) (fun c _ _ => B c t b)) :
    Errs (addSubpackets p name area) (fun c _ _ => ListErr A B c area) := by
  unfold Gpgpdump.addSubpackets ListErr
  refine skip (.flag _) fun d => ?_
  cases ho : opaqueSubpackets area with
  | error e =>
    refine (fail e.wrap).congr fun c _ _ => ?_
    have hn : ¬ ∃ subs, SubSeq subs area := by
      rintro ⟨subs, hs⟩; rw [opaqueSubpackets_ok.mpr hs] at ho; cases ho
    rw [opaqueSubpackets_error ho]
    constructor
    · rintro rfl; exact .inl ⟨rfl, hn⟩
    · rintro (⟨rfl, -⟩ | ⟨subs, hs, -⟩)
      · rfl
      · exact absurd ⟨subs, hs⟩ hn
  | ok l =>
    simp only
    refine (then_ok (build (newItem name [] (nBytes area.length) (dumpBytes area d)) (subLoop l h hb)) fun a st e s => ?_).congr fun c _ _ => ?_
    · intro h; cases h
    · constructor
      · intro h; exact .inr ⟨l, opaqueSubpackets_ok.mp ho, h⟩
      · rintro (⟨-, hn⟩ | ⟨subs, hs, h⟩)
        · exact absurd ⟨l, opaqueSubpackets_ok.mp ho⟩ hn
        · rw [opaqueSubpackets_ok.mpr hs] at ho
          cases ho
          exact h

/-- a key block is rejected -/
def ErrBlock (R : Nat → Bytes → Prop) (B : Cause → Nat → Bytes → Prop) (c : Cause) (d : Bytes) : Prop :=
  ErrLoop X R B c (d.length + 1) ⟨d, rawErr .eof, [], false, true⟩

theorem sub38 {recur : TagParser} {R : Nat → Bytes → Prop} {B : Cause → Nat → Bytes → Prop} (hr : ∀ t b, Sub (recur t b) (R t b))
    (hb : ∀ t b, Errs (recur t b) (fun c _ _ => B c t b)) :
    Errs (sub38 X recur) (fun c _ q => ShortIn [1] c q ∨ ∃ d, q = 0 :: d ∧ ErrBlock X R B c d) := by
  unfold Gpgpdump.sub38
  refine (byte (B := fun k c _ q => k = 0 ∧ ErrBlock X R B c q) fun k => skip (.add _) fun _ => ?_).congr fun c p q => ?_
  · refine (reader (B := fun r c _ _ => k = 0 ∧ ErrLoop X R B c ((Src.ofReader r).data.length + 1) (Src.ofReader r)) fun r => ?_).congr fun c p q => by
      rw [ofReader_at]; rfl
    refine skip (.flag _) fun d => ?_
    simp only
    by_cases hk : k = 0
    · rw [if_pos hk]
      refine (then_ok (build (rawData r (S "Key data") d) (forPackets X hr hb ((Src.ofReader r).data.length + 1) (Src.ofReader r))) fun a st e s => ?_).congr
        fun c _ _ => by simp [hk]
      intro h; cases h
    · rw [if_neg hk]
      exact (idle (.bind (.add _) fun _ => .getCur)).congr fun _ _ _ => by simp [hk]
  · rw [shortIn_one, short_one]
    refine or_congr Iff.rfl ⟨?_, ?_⟩
    · rintro ⟨k, r, rfl, rfl, h⟩; exact ⟨r, rfl, h⟩
    · rintro ⟨d, rfl, h⟩; exact ⟨0, d, rfl, rfl, h⟩

theorem sub32 {recur : TagParser} {R : Nat → Bytes → Prop} {B : Cause → Nat → Bytes → Prop} (hr : ∀ t b, Sub (recur t b) (R t b))
    (hb : ∀ t b, Errs (recur t b) (fun c _ _ => B c t b)) : Errs (sub32 recur) (fun c p q => B c 2 (p ++ q)) := by
  unfold Gpgpdump.sub32
  exact getBody (B := fun b c _ _ => B c 2 b) fun b =>
    (sub (hb 2 b) (hr 2 b) fun i => idle (.bind (.add _) fun _ => .getCur)).congr fun _ _ _ => by simp

theorem toEnd {α} {m : P α} (h : Min 0 m) : Firm m := of_oks h fun _ _ => Nat.zero_le _

syntax "fl" : tactic
macro_rules | `(tactic| fl) => `(tactic| first
  | exact fields_nil (toEnd Min.trailingFlags)
  | (refine fields_nil (idle ?_); idl)
  | (refine fields_bytes _ fun _ => ?_; fl)
  | (refine fields_byte fun _ => ?_; fl)
  | (refine skip (by idl) fun _ => ?_; fl))

theorem sub02 : Fields [4] (sub02 X) := by unfold Gpgpdump.sub02 Gpgpdump.newDateTime; simp only [Lang.assoc]; fl
theorem sub03 : Fields [4] (sub03 X) := by unfold Gpgpdump.sub03; fl
theorem sub04 : Fields [1] sub04 := by unfold Gpgpdump.sub04; fl
theorem sub05 : Fields [1, 1] sub05 := by unfold Gpgpdump.sub05; fl
theorem subText : Fields [] subText := by unfold Gpgpdump.subText; fl
theorem sub07 : Fields [1] sub07 := by unfold Gpgpdump.sub07; fl
theorem sub09 : Fields [4] (sub09 X) := by unfold Gpgpdump.sub09; fl
theorem subList (f) : Fields [] (subList f) := by unfold Gpgpdump.subList; fl
theorem sub12 : Fields [1, 1] sub12 := by unfold Gpgpdump.sub12; fl
theorem sub16 : Fields [8] sub16 := by unfold Gpgpdump.sub16; fl
theorem sub23 : Fields [1] sub23 := by unfold Gpgpdump.sub23; fl
theorem sub25 : Fields [1] sub25 := by unfold Gpgpdump.sub25; fl
theorem sub30 : Fields [1] sub30 := by unfold Gpgpdump.sub30; fl
theorem sub31 : Fields [1, 1] sub31 := by unfold Gpgpdump.sub31; fl
theorem subFingerprint : Fields [1] subFingerprint := by unfold Gpgpdump.subFingerprint; fl
theorem sub37 : Fields [] sub37 := by unfold Gpgpdump.sub37; fl

theorem sub29 : Fields [1] sub29 := by
  unfold Gpgpdump.sub29
  refine fields_byte fun c => skip (.setValue _) fun _ => fields_nil (toEnd ?_)
  have h := Min.toEnd (m := fun b => do
    P.add (textItem (S "Additional resultrmation") b (← P.flag Ctx.debug))
    P.getCur) (m' := P.getCur) (fun b st y hy => ⟨_, _, y, rfl, hy⟩) .getCur
  refine cast ?_ h
  congr 2

theorem sub27 : Fields [1] sub27 := by
  unfold Gpgpdump.sub27
  refine fields_byte fun c => ?_
  iterate 8 refine skip (.addOpt _) fun _ => ?_
  refine fields_nil ?_
  refine (rest (B := fun n c _ q => n > 0 ∧ q = [] ∧ c = .eof) fun n => ?_).congr fun c p q => by
    cases q <;> simp
  simp only
  by_cases hn : (n : Int) > 0
  · rw [if_pos hn]
    have : Fields [1] (do
        let g ← P.readByte
        addOpt (flag2Item (g &&& 0x04) (S "This key may be used as an additional decryption subkey (ADSK)."))
        addOpt (flag2Item (g &&& 0x08) (S "This key may be used for timestamping."))
        addOpt (flag2Item (g &&& 0xf3) (unknownFlag 2 (g &&& 0xf3)))
        Gpgpdump.trailingFlags
        P.getCur) := by fl
    exact this.congr fun c p q => by
      rw [shortIn_one, short_one]
      constructor
      · intro h; exact ⟨by omega, h⟩
      · exact And.right
  · rw [if_neg hn]
    exact (toEnd Min.trailingFlags).congr fun c p q => by
      constructor
      · exact False.elim
      · rintro ⟨h, -⟩; omega

theorem sub20 : Errs sub20 (fun c _ q => ShortIn [4, 2, 2] c q ∨ ∃ fl nl vl r, q = fl ++ (nl ++ (vl ++ r)) ∧ fl.length = 4 ∧ nl.length = 2 ∧ vl.length = 2 ∧
    ShortIn [beNat nl, beNat vl] c r) := by
  unfold Gpgpdump.sub20
  refine (bytes 4 (B := fun _ c _ q => Short 2 c q ∨ ∃ nl r, q = nl ++ r ∧ nl.length = 2 ∧ (Short 2 c r ∨ ∃ vl r', r = vl ++ r' ∧ vl.length = 2 ∧
    ShortIn [beNat nl, beNat vl] c r')) fun f => ?_).congr fun c p q => ?_
  · iterate 5 refine skip (.addOpt _) fun _ => ?_
    refine bytes 2 (B := fun nl c _ r => Short 2 c r ∨ ∃ vl r', r = vl ++ r' ∧ vl.length = 2 ∧ ShortIn [beNat nl, beNat vl] c r') fun nl => ?_
    refine bytes 2 (B := fun vl c _ r => ShortIn [beNat nl, beNat vl] c r) fun vl => ?_
    fl
  · rw [shortIn_cons]
    constructor
    · rintro (h | ⟨f, r, rfl, h4, h | ⟨nl, r, rfl, hn, h | ⟨vl, r, rfl, hv, h⟩⟩⟩)
      · exact .inl (.inl h)
      · exact .inl (.inr ⟨f, r, rfl, h4, .here h⟩)
      · exact .inl (.inr ⟨f, _, rfl, h4, .later hn (.here h)⟩)
      · exact .inr ⟨f, nl, vl, r, rfl, h4, hn, hv, h⟩
    · rintro ((h | ⟨f, r, rfl, h4, h⟩) | ⟨f, nl, vl, r, rfl, h4, hn, hv, h⟩)
      · exact .inl h
      · refine .inr ⟨f, r, rfl, h4, ?_⟩
        rw [shortIn_cons, ] at h
        rcases h with h | ⟨nl, r, rfl, hn, h⟩
        · exact .inl h
        · exact .inr ⟨nl, r, rfl, hn, .inl (shortIn_one.mp h)⟩
      · exact .inr ⟨f, _, rfl, h4, .inr ⟨nl, _, rfl, hn, .inr ⟨vl, r, rfl, hv, h⟩⟩⟩

theorem sub02Body {recur : TagParser} {n : Nat} (h20 : n ≠ 20) (h32 : n ≠ 32) (h38 : n ≠ 38) : Fields (subFields n) (sub02Body X recur n) := by
  unfold Gpgpdump.sub02Body
  split
  · exact sub02 X
  · exact sub03 X
  · exact sub04
  · exact sub05
  · exact subText
  · exact sub07
  · exact sub09 X
  · exact fields_nil (idle .getCur)
  · exact subList _
  · exact sub12
  · exact sub16
  · exact absurd rfl h20
  · exact subList _
  · exact subList _
  · exact sub23
  · exact subText
  · exact sub25
  · exact subText
  · exact sub27
  · exact subText
  · exact sub29
  · exact sub30
  · exact sub31
  · exact absurd rfl h32
  · exact subFingerprint
  · exact subList _
  · exact subFingerprint
  · exact sub37
  · exact absurd rfl h38
  rename_i h2 h3 h4 h5 h6 h7 h9 h10 h11 h12 h16 h20 h21 h22 h23 h24 h25 h26 h27 h28 h29 h30 h31 h32 h33 h34 h35 h37 h38
  have : subFields n = [] := by
    unfold subFields
    simp only [imp_false] at *
    rw [if_neg (by simp; omega), if_neg (by simp; omega), if_neg (by simp; omega), if_neg (by omega), if_neg (by omega)]
  rw [this]
  exact fields_nil (idle .getCur)

/-- one level of the subpackets that are rejected -/
def SubErr (R : Nat → Bytes → Prop) (B : Cause → Nat → Bytes → Prop) (c : Cause) (t : UInt8) (b : Bytes) : Prop :=
  ShortIn (subFields (t.toNat % 128)) c b ∨
  (t.toNat % 128 = 20 ∧ ∃ fl nl vl r, b = fl ++ (nl ++ (vl ++ r)) ∧ fl.length = 4 ∧ nl.length = 2 ∧ vl.length = 2 ∧ ShortIn [beNat nl, beNat vl] c r) ∨
  (t.toNat % 128 = 32 ∧ B c 2 b) ∨ (t.toNat % 128 = 38 ∧ ∃ d, b = 0 :: d ∧ ErrBlock X R B c d)

theorem parseSub02 {recur : TagParser} {R : Nat → Bytes → Prop} {B : Cause → Nat → Bytes → Prop} (hr : ∀ t b, Sub (recur t b) (R t b))
    (hb : ∀ t b, Errs (recur t b) (fun c _ _ => B c t b)) (t : UInt8) (b : Bytes) :
    Errs (parseSub02 X recur t b) (fun c _ _ => SubErr X R B c t b) := by
  unfold Gpgpdump.parseSub02 subScope
  refine flag fun d => ?_
  rw [and_7f]
  unfold SubErr
  by_cases h20 : t.toNat % 128 = 20
  · rw [h20]
    exact (scope b _ sub20).congr fun _ _ _ => by
      have : subFields 20 = [4, 2, 2] := rfl
      simp [this]
  by_cases h32 : t.toNat % 128 = 32
  · rw [h32]
    exact (scope b _ (sub32 hr hb)).congr fun _ _ _ => by
      have : subFields 32 = [] := rfl
      simp [this, shortIn_nil]
  by_cases h38 : t.toNat % 128 = 38
  · rw [h38]
    exact (scope b _ (sub38 X hr hb)).congr fun _ _ _ => by
      have : subFields 38 = [1] := rfl
      simp [this]
  · exact (scope b _ (sub02Body X h20 h32 h38)).congr fun _ _ _ => by simp [h20, h32, h38]

theorem sub01 : Errs sub01 (fun c _ q => ShortIn [2, 1] c q ∨ ∃ l0 l1 v, q = [l0, l1, v] ∧ c = .eof ∧ 100 ≤ v.toNat ∧ v.toNat ≤ 110) := by
  unfold Gpgpdump.sub01
  have hl : ∀ (length : Nat), Idle (do
      let r ← P.reader
      P.add (newItem (S "Image data") [] (iBytes ((r.size : Int) - (length : Int))))
      P.getCur) := fun _ => by idl
  refine (bytes 2 (B := fun _ c _ q => (q = [] ∧ c = .eof) ∨ ∃ v r, q = v :: r ∧ (100 ≤ v.toNat ∧ v.toNat ≤ 110 ∧ r = [] ∧ c = .eof)) fun l => ?_).congr fun c p q => ?_
  · refine byte (B := fun v c _ r => 100 ≤ v.toNat ∧ v.toNat ≤ 110 ∧ r = [] ∧ c = .eof) fun v => ?_
    simp only
    by_cases h1 : v = 1
    · rw [if_pos h1]
      exact (skip (.add _) fun _ => idle (hl _)).congr fun c p q => by subst h1; simp
    · rw [if_neg h1]
      by_cases h2 : 100 ≤ v.toNat ∧ v.toNat ≤ 110
      · rw [if_pos h2]
        refine (skip (.add _) fun _ => byte (B := fun _ _ _ _ => False) fun e => skip (.add _) fun _ => idle (hl _)).congr fun c p q => ?_
        simp [h2]
      · rw [if_neg h2]
        exact (skip (.add _) fun _ => idle (hl _)).congr fun c p q => by
          simp only [false_iff]; rintro ⟨a, b, -⟩; exact h2 ⟨a, b⟩
  · rw [shortIn_cons]
    constructor
    · rintro (h | ⟨l, r, rfl, h2, ⟨rfl, rfl⟩ | ⟨v, r, rfl, h3, h4, rfl, rfl⟩⟩)
      · exact .inl (.inl h)
      · exact .inl (.inr ⟨l, [], rfl, h2, .here (.none (by decide))⟩)
      · match l, h2 with
        | [a, b], _ => exact .inr ⟨a, b, v, rfl, rfl, h3, h4⟩
    · rintro ((h | ⟨f, r, rfl, hf, h⟩) | ⟨l0, l1, v, rfl, rfl, h3, h4⟩)
      · exact .inl h
      · exact .inr ⟨f, r, rfl, hf, .inl (short_one.mp (shortIn_one.mp h))⟩
      · exact .inr ⟨[l0, l1], [v], rfl, rfl, .inr ⟨v, [], rfl, h3, h4, rfl, rfl⟩⟩

theorem parseSub17 (t : UInt8) (b : Bytes) : Errs (parseSub17 t b) (fun c _ _ => AttrCut c t b) := by
  unfold Gpgpdump.parseSub17 subScope
  refine flag fun d => ?_
  rw [and_7f]
  by_cases h1 : t.toNat % 128 = 1
  · rw [h1]
    refine (scope b _ sub01).congr fun c _ _ => ⟨?_, ?_⟩
    · rintro (h | ⟨l0, l1, v, rfl, rfl, h3, h4⟩)
      · exact .header h1 h
      · exact .encoding h1 h3 h4
    · intro h
      cases h with
      | header _ h => exact .inl h
      | encoding _ h3 h4 => exact .inr ⟨_, _, _, rfl, rfl, h3, h4⟩
  · have : sub17Body (t.toNat % 128) = P.getCur := by
      unfold sub17Body; split
      · contradiction
      · rfl
    rw [this]
    refine (scope b _ (idle .getCur)).congr fun c _ _ => ?_
    simp only [false_iff]
    intro h
    cases h <;> contradiction

/-- a subpacket area with its length that is rejected, and anything behind it -/
def AreaErr (A : UInt8 → Bytes → Prop) (B : Cause → UInt8 → Bytes → Prop) (c : Cause) (q : Bytes) : Prop :=
  Short 2 c q ∨ (∃ l r, q = l ++ r ∧ l.length = 2 ∧ Short (beNat l) c r) ∨
  ∃ area rest, area.length < 65536 ∧ ListErr A B c area ∧ q = beOctets 2 area.length ++ (area ++ rest)

theorem subArea {recur : TagParser} {A : UInt8 → Bytes → Prop} {B : Cause → UInt8 → Bytes → Prop} (h : ∀ t b, Sub (Gpgpdump.parseSub02 X recur t b) (A t b))
    (hb : ∀ t b, Errs (Gpgpdump.parseSub02 X recur t b) (fun c _ _ => B c t b)) (name : Str) :
    Errs (subArea X recur name) (fun c _ q => AreaErr A B c q) := by
  unfold Gpgpdump.subArea
  refine (bytes 2 (B := fun s c _ q => Short (beNat s) c q ∨ ∃ area rest, area.length = beNat s ∧ ListErr A B c area ∧ q = area ++ rest) fun s => ?_).congr
    fun c p q => ?_
  · simp only
    by_cases hs : beNat s > 0
    · rw [if_pos hs]
      refine (bytes _ fun sp => addSubpackets name sp h hb).congr fun c p q => or_congr Iff.rfl ?_
      constructor
      · rintro ⟨b, r, rfl, hl, h1⟩; exact ⟨b, r, hl, h1, rfl⟩
      · rintro ⟨b, r, hl, h1, rfl⟩; exact ⟨b, r, rfl, hl, h1⟩
    · rw [if_neg hs]
      refine (idle (.pure ())).congr fun c p q => ?_
      simp only [false_iff]
      have h0 : beNat s = 0 := by omega
      rintro (h | ⟨b, r, hl, h1, rfl⟩)
      · rw [h0] at h; exact short_zero h
      · have : b = [] := List.length_eq_zero_iff.mp (by omega)
        subst this
        rcases h1 with ⟨-, h1⟩ | ⟨subs, h1, s1, p, s2, rfl, -⟩
        · exact h1 ⟨[], .nil⟩
        · have := h1.mem_length p (by simp)
          simp at this
  · unfold AreaErr
    refine or_congr Iff.rfl ?_
    constructor
    · rintro ⟨b, r, rfl, h2, h | ⟨area, rest, hl, h, rfl⟩⟩
      · exact .inl ⟨b, r, rfl, h2, h⟩
      · obtain ⟨a1, a2⟩ := beOctets2_eq h2 hl
        exact .inr ⟨area, rest, a1, h, by rw [← a2]⟩
    · rintro (⟨b, r, rfl, h2, h⟩ | ⟨area, rest, hl, h, rfl⟩)
      · exact ⟨b, r, rfl, h2, .inl h⟩
      · exact ⟨_, _, rfl, beOctets_length _ _, .inr ⟨area, rest, (natOctets2 hl).symm, h, rfl⟩⟩

/-- one level of the version 4 and 5 signatures that are rejected, behind the version octet -/
def SigErr (A : UInt8 → Bytes → Prop) (B : Cause → UInt8 → Bytes → Prop) (c : Cause) (q : Bytes) : Prop :=
  ShortIn [1, 1, 1] c q ∨ ∃ t a h r, q = t :: a :: h :: r ∧ (AreaErr A B c r ∨ ∃ f r', r = f ++ r' ∧ AreaOK A f ∧
    (AreaErr A B c r' ∨ ∃ f r2, r' = f ++ r2 ∧ AreaOK A f ∧ (Short 2 c r2 ∨ ∃ l0 l1 r3, r2 = l0 :: l1 :: r3 ∧ IntegersCut (sigInts a) c r3)))

theorem tag02v4 {recur : TagParser} {A : UInt8 → Bytes → Prop} {B : Cause → UInt8 → Bytes → Prop} (h : ∀ t b, Sub (Gpgpdump.parseSub02 X recur t b) (A t b))
    (hb : ∀ t b, Errs (Gpgpdump.parseSub02 X recur t b) (fun c _ _ => B c t b)) :
    Errs (tag02v4 X recur) (fun c _ q => SigErr A B c q) := by
  unfold Gpgpdump.tag02v4
  have hlast : ∀ a, Errs (do
      let l ← P.readBytes 2
      P.add (hashLeft2 l)
      Gpgpdump.parseSig a) (fun c _ q => Short 2 c q ∨ ∃ l0 l1 r3, q = l0 :: l1 :: r3 ∧ IntegersCut (sigInts a) c r3) := fun a =>
    (bytes 2 fun l => skip (.add _) fun _ => parseSig a).congr fun c p q => by
      refine or_congr Iff.rfl ⟨?_, ?_⟩
      · rintro ⟨b, r, rfl, h2, h⟩
        match b, h2 with
        | [x, y], _ => exact ⟨x, y, r, rfl, h⟩
      · rintro ⟨x, y, r, rfl, h⟩; exact ⟨[x, y], r, rfl, rfl, h⟩
  have h2 := fun a n => seq (subArea X h hb n) (Lang.subArea X h n) fun _ => hlast a
  have h1 := fun a n n' => seq (subArea X h hb n) (Lang.subArea X h n) fun _ => h2 a n'
  refine (byte fun t => skip (.flag _) fun _ => skip (.add _) fun _ => byte fun a => skip (.flag _) fun _ => skip (.add _) fun _ =>
    byte fun hh => skip (.flag _) fun _ => skip (.add _) fun _ => h1 a _ _).congr fun c p q => ?_
  unfold SigErr
  rw [shortIn_cons, short_one]
  constructor
  · rintro (h | ⟨t, r, rfl, h | ⟨a, r, rfl, h | ⟨hh, r, rfl, h⟩⟩⟩)
    · exact .inl (.inl h)
    · exact .inl (.inr ⟨[t], r, rfl, rfl, .here (short_one.mpr h)⟩)
    · exact .inl (.inr ⟨[t], _, rfl, rfl, .later (f := [a]) rfl (.here (short_one.mpr h))⟩)
    · exact .inr ⟨t, a, hh, r, rfl, h⟩
  · rintro ((h | ⟨f, r, rfl, hf, h⟩) | ⟨t, a, hh, r, rfl, h⟩)
    · exact .inl h
    · match f, hf with
      | [t], _ =>
        refine .inr ⟨t, r, rfl, ?_⟩
        rw [shortIn_cons, short_one] at h
        rcases h with h | ⟨f, r, rfl, hf, h⟩
        · exact .inl h
        · match f, hf with
          | [a], _ => exact .inr ⟨a, r, rfl, .inl (short_one.mp (shortIn_one.mp h))⟩
    · exact .inr ⟨t, _, rfl, .inr ⟨a, _, rfl, .inr ⟨hh, r, rfl, h⟩⟩⟩

theorem tag02 {recur : TagParser} {A : UInt8 → Bytes → Prop} {B : Cause → UInt8 → Bytes → Prop} (h : ∀ t b, Sub (Gpgpdump.parseSub02 X recur t b) (A t b))
    (hb : ∀ t b, Errs (Gpgpdump.parseSub02 X recur t b) (fun c _ _ => B c t b)) :
    Errs (tag02 X recur) (fun c _ q => (q = [] ∧ c = .eof) ∨ ∃ v r, q = v :: r ∧ v ∈ [4, 5] ∧ SigErr A B c r) := by
  unfold Gpgpdump.tag02
  have hv4 := first (tag02v4 X h hb) (Lang.tag02v4 X h) fun _ => idle (.unknownData)
  refine byte (B := fun v c _ q => v ∈ [4, 5] ∧ SigErr A B c q) fun v => skip (.flag _) fun _ => skip (.add _) fun _ => ?_
  rcases sigVer_cases v with ⟨rfl, h1⟩ | ⟨rfl, h1, h2⟩ | ⟨rfl, h1, h2, h3⟩ | ⟨hv, h1, h2, h3⟩
  · rw [if_pos h1]; exact hv4.congr fun c p q => by simp
  · rw [if_neg (by simp [h1]), if_pos h2]; exact hv4.congr fun c p q => by simp
  · rw [if_neg (by simp [h1]), if_neg (by simp [h2]), if_pos (by simp [h3])]
    exact (of_oks (Oks.sigV3 X) fun _ _ => trivial).congr fun c p q => by simp
  · rw [if_neg (by simp [h1]), if_neg (by simp [h2]), if_neg (by simp [h3])]
    refine (idle .unknownData).congr fun c p q => ?_
    simp only [false_iff]
    rintro ⟨h, -⟩
    exact hv ((by decide : ∀ x ∈ ([4, 5] : List UInt8), x ∈ ([3, 4, 5] : List UInt8)) _ h)

theorem tag01 : Errs tag01 (fun c _ q => Fails X c 1 q) := by
  unfold Gpgpdump.tag01
  refine (skip (.setMode _) fun _ => byte (B := fun _ c _ q => Short 8 c q ∨ ∃ kid r, q = kid ++ r ∧ kid.length = 8 ∧ ((r = [] ∧ c = .eof) ∨ ∃ a r', r = a :: r' ∧ SesCut a c r'))
    fun v => skip (.flag _) fun _ => skip (.add _) fun _ =>
    bytes 8 (B := fun _ c _ r => (r = [] ∧ c = .eof) ∨ ∃ a r', r = a :: r' ∧ SesCut a c r') fun kid => skip (.add _) fun _ =>
    byte (B := fun a c _ r => SesCut a c r) fun a => skip (.flag _) fun _ => skip (.add _) fun _ => first (parseSes a) (Lang.parseSes a) fun _ => idle .unknownData).congr
    fun c p q => ?_
  constructor
  · rintro (⟨rfl, rfl⟩ | ⟨v, r, rfl, h | ⟨kid, r, rfl, h8, ⟨rfl, rfl⟩ | ⟨a, r, rfl, h⟩⟩⟩)
    · exact .session (.here (.none (by decide)))
    · exact .session (.later (f := [v]) rfl (.here h))
    · exact .session (.later (f := [v]) rfl (.later h8 (.here (.none (by decide)))))
    · exact .sessionKey h8 h
  · intro h
    cases h with
    | session h =>
      rw [shortIn_cons, short_one] at h
      rcases h with h | ⟨f, r, rfl, hf, h⟩
      · exact .inl h
      · match f, hf with
        | [v], _ =>
          refine .inr ⟨v, r, rfl, ?_⟩
          rw [shortIn_cons] at h
          rcases h with h | ⟨kid, r, rfl, h8, h⟩
          · exact .inl h
          · exact .inr ⟨kid, r, rfl, h8, .inl (short_one.mp (shortIn_one.mp h))⟩
    | sessionKey h8 h => exact .inr ⟨_, _, rfl, .inr ⟨_, _, rfl, h8, .inr ⟨_, _, rfl, h⟩⟩⟩
    | version ht => simp at ht
    | publicKey ht => simp at ht
    | secretKey ht => simp at ht
    | secretKey5 ht => simp at ht

theorem tag03 : Errs tag03 (fun c _ q => Fails X c 3 q) := by
  unfold Gpgpdump.tag03
  refine (skip (.setMode _) fun _ => byte (B := fun v c _ q => v = 4 ∧ ((q = [] ∧ c = .eof) ∨ ∃ k r, q = k :: r ∧ S2KCut c r)) fun v =>
    skip (.flag _) fun d => skip (.add _) fun _ => ?_).congr fun c p q => ?_
  · simp only [symVer_cases]
    by_cases hv : v = 4
    · rw [if_pos (by simp [hv])]
      exact (byte (B := fun k c _ r => S2KCut c r) fun k => skip (.add _) fun _ => first (s2kParse d) (Lang.s2kParse d) fun _ => idle .unknownData).congr
        fun c p q => by simp [hv]
    · rw [if_neg (by simp [hv])]
      exact (idle .unknownData).congr fun c p q => by simp [hv]
  · constructor
    · rintro (⟨rfl, rfl⟩ | ⟨v, r, rfl, rfl, ⟨rfl, rfl⟩ | ⟨k, r, rfl, h⟩⟩)
      · exact .version (by decide)
      · exact .cipher
      · exact .password h
    · intro h
      cases h with
      | version ht => exact .inl ⟨rfl, rfl⟩
      | cipher => exact .inr ⟨_, _, rfl, rfl, .inl ⟨rfl, rfl⟩⟩
      | password h => exact .inr ⟨_, _, rfl, rfl, .inr ⟨_, _, rfl, h⟩⟩
      | publicKey ht => simp at ht
      | secretKey ht => simp at ht
      | secretKey5 ht => simp at ht

theorem tag04 : Errs tag04 (fun c _ q => Fails X c 4 q) := by
  have : Fields [1, 1, 1, 1, 8, 1] Gpgpdump.tag04 := by
    unfold Gpgpdump.tag04
    fl
  refine this.congr fun c p q => ?_
  constructor
  · intro h; exact .onePass h
  · intro h
    cases h with
    | onePass h => exact h
    | version ht => simp at ht
    | publicKey ht => simp at ht
    | secretKey ht => simp at ht
    | secretKey5 ht => simp at ht

theorem tag11 : Errs (tag11 X) (fun c _ q => Fails X c 11 q) := by
  unfold Gpgpdump.tag11
  have he : ∀ l : UInt8, (if l.toNat < 1 then Pure.pure [] else P.readBytes l.toNat : P Bytes) = (if l = 0 then Pure.pure [] else P.readBytes l.toNat) := by
    intro l
    by_cases h : l = 0
    · subst h; rfl
    · rw [if_neg h, if_neg]
      intro h'
      exact h (UInt8.toNat_inj.mp (by simp; omega))
  have hn : Lang (P.readByte >>= fun flen => if flen.toNat < 1 then Pure.pure [] else P.readBytes flen.toNat : P Bytes)
      (fun b f _ => b.length < 256 ∧ f = UInt8.ofNat b.length :: b) := by
    refine Lang.counted fun l => ?_
    rw [he]
    exact Lang.emptyOr
  have hc : Errs (P.readByte >>= fun flen => if flen.toNat < 1 then Pure.pure [] else P.readBytes flen.toNat : P Bytes)
      (fun c _ q => CountedCut c q) := by
    refine counted fun l => ?_
    rw [he]
    exact emptyOr
  have hr : ∀ n : Bytes, Errs (do
      P.add (textItem (S "File name") n (← P.flag Ctx.literal))
      let ftime ← Gpgpdump.newDateTime (← P.flag Ctx.utc)
      P.add (fileTimeItem X ftime (← P.flag Ctx.debug))
      addRaw (S "Literal data") (← P.flag Ctx.literal)) (fun c _ q => ShortIn [4] c q) := by
    intro n
    have : Fields [4] (do
      P.add (textItem (S "File name") n (← P.flag Ctx.literal))
      let ftime ← Gpgpdump.newDateTime (← P.flag Ctx.utc)
      P.add (fileTimeItem X ftime (← P.flag Ctx.debug))
      addRaw (S "Literal data") (← P.flag Ctx.literal)) := by
      unfold Gpgpdump.newDateTime; simp only [Lang.assoc]; fl
    exact this
  have h2 := bind hc hn fun n => hr n
  simp only [Lang.assoc] at h2
  refine (byte (B := fun _ c _ q => CountedCut c q ∨ ∃ n r, q = n ++ r ∧ Counted n ∧ Short 4 c r) fun fmt => skip (.add _) fun _ => h2.congr fun c p q => ?_).congr
    fun c p q => ?_
  · refine or_congr Iff.rfl ⟨?_, ?_⟩
    · rintro ⟨b, f, r, rfl, ⟨hb, rfl⟩, h⟩
      exact ⟨_, r, rfl, .mk hb, shortIn_one.mp h⟩
    · rintro ⟨n, r, rfl, hn, h⟩
      cases hn with
      | @mk x hx => exact ⟨x, _, _, rfl, ⟨hx, rfl⟩, shortIn_one.mpr h⟩
  · constructor
    · rintro (⟨rfl, rfl⟩ | ⟨fmt, r, rfl, h | ⟨n, r, rfl, hn, h⟩⟩)
      · exact .literal
      · exact .fileName h
      · exact .fileTime hn h
    · intro h
      cases h with
      | literal => exact .inl ⟨rfl, rfl⟩
      | fileName h => exact .inr ⟨_, _, rfl, .inl h⟩
      | fileTime hn h => exact .inr ⟨_, _, rfl, .inr ⟨_, _, rfl, hn, h⟩⟩
      | version ht => simp at ht
      | publicKey ht => simp at ht
      | secretKey ht => simp at ht
      | secretKey5 ht => simp at ht

theorem tag17 : Errs tag17 (fun c p q => Fails X c 17 (p ++ q)) := by
  unfold Gpgpdump.tag17
  refine getBody (B := fun b c _ _ => Fails X c 17 b) fun b => (addSubpackets (S "Subpacket") b Sub.parseSub17 parseSub17).congr fun c p q => ?_
  constructor
  · rintro (⟨rfl, h⟩ | ⟨subs, hs, s1, p, s2, rfl, h1, h2⟩)
    · exact .userAttributes h
    · exact .userAttribute hs h1 h2
  · intro h
    cases h with
    | userAttributes h => exact .inl ⟨rfl, h⟩
    | userAttribute hs h1 h2 => exact .inr ⟨_, hs, _, _, _, rfl, h1, h2⟩
    | version ht => simp at ht
    | publicKey ht => simp at ht
    | secretKey ht => simp at ht
    | secretKey5 ht => simp at ht

theorem tag20 : Errs tag20 (fun c _ q => Fails X c 20 q) := by
  have key : ∀ n : Nat, Firm (do
      let err ← failed (do
        let iv ← P.readBytes n
        P.add (newItem (S "IV") [] [] (dumpBytes iv true)))
      if err then Pure.pure ()
      else if (← Gpgpdump.rest) > 0 then addRaw (S "Encrypted data and authentication tag") (← P.flag Ctx.debug)
      else Pure.pure ()) := by
    intro n
    have hidle : ∀ b : Bool, Idle (if b then Pure.pure () else do
        if (← Gpgpdump.rest) > 0 then addRaw (S "Encrypted data and authentication tag") (← P.flag Ctx.debug) else Pure.pure ()) := fun b => by idl
    constructor
    intro x p q j c
    have hrun : ∃ b p' q' j', failed (do
        let iv ← P.readBytes n
        P.add (newItem (S "IV") [] [] (dumpBytes iv true))) (St.at (some x) p q j) = (.ok b, St.at (some x) p' q' j') := by
      unfold failed
      by_cases hn : n ≤ q.length
      · rw [bind_run, readBytes_ok _ _ _ _ _ hn]
        exact ⟨false, _, _, _, rfl⟩
      · rw [bind_run, readBytes_err _ _ _ _ _ (by omega)]
        exact ⟨true, p, q, j, rfl⟩
    obtain ⟨b, p', q', j', h1⟩ := hrun
    obtain ⟨a, x2, j2, h2⟩ := (hidle b).run x p' q' j'
    rw [bind_run, h1]
    constructor
    · rintro ⟨e, s, h, -⟩
      have h3 : (Res.ok a, St.at (some x2) p' q' j2) = (.err e, s) := h2.symm.trans h
      cases h3
    · exact False.elim
  have : Fields [1, 1, 1, 1] Gpgpdump.tag20 := by
    unfold Gpgpdump.tag20
    refine fields_byte fun _ => skip (.flag _) fun _ => skip (.add _) fun _ => fields_byte fun _ => skip (.flag _) fun _ => skip (.add _) fun _ =>
      fields_byte fun a => skip (.flag _) fun _ => skip (.add _) fun _ => fields_byte fun _ => skip (.add _) fun _ => fields_nil ?_
    exact key _
  refine this.congr fun c p q => ?_
  constructor
  · intro h; exact .aead h
  · intro h
    cases h with
    | aead h => exact h
    | version ht => simp at ht
    | publicKey ht => simp at ht
    | secretKey ht => simp at ht
    | secretKey5 ht => simp at ht

/-- a compressed packet that cannot be opened -/
inductive OpenErr : Cause → Bytes → Prop
  | none : OpenErr .eof []
  | data {a zd e c} (h0 : zd ≠ []) (h : unpackRes X a zd = .error e) (he : e.cause ≠ .tooLarge) (hc : c = e.cause) : OpenErr c (a :: zd)

theorem tag08_err (x : Ctx) (q : Bytes) (j : Item) (c : Cause) :
    (∃ e s, tag08 X (St.at (some x) [] q j) = (.err e, s) ∧ e.cause = c) ↔ OpenErr X c q := by
  cases q with
  | nil =>
    rw [tag08_eq, bind_run, readByte_nil]
    constructor
    · rintro ⟨e, s, h, rfl⟩; cases h; exact .none
    · intro h; cases h; exact ⟨_, _, rfl, rfl⟩
  | cons a zd =>
    by_cases hz : zd = []
    · subst hz
      rw [tag08_one]
      constructor
      · rintro ⟨e, s, h, -⟩; cases h
      · intro h
        cases h with
        | data h0 => exact absurd rfl h0
    · obtain ⟨h1, -, -⟩ := tag08_run X (some x) j a zd hz
      constructor
      · rintro ⟨e, s, hs, rfl⟩
        rw [hs] at h1
        unfold packedOut at h1
        cases hu : unpackRes X a zd with
        | ok z => rw [hu] at h1; cases h1
        | error e' =>
          rw [hu] at h1
          simp only at h1
          split at h1
          · cases h1
          · simp only [Res.err.injEq] at h1
            subst h1
            exact .data hz hu ‹_› rfl
      · intro h
        cases h with
        | @data _ _ e _ h0 hu he hc =>
          unfold packedOut at h1
          rw [hu] at h1
          simp only [he, if_false] at h1
          exact ⟨e.wrap, _, Prod.ext h1 rfl, hc.symm⟩

/-- one level of the packets that are rejected -/
def TagErr (R : Nat → Bytes → Prop) (B : Cause → Nat → Bytes → Prop) (c : Cause) (tag : Nat) (b : Bytes) : Prop :=
  if tag = 2 then (b = [] ∧ c = .eof) ∨ ∃ v r, b = v :: r ∧ v ∈ [4, 5] ∧ SigErr (SubOK X R) (SubErr X R B) c r
  else if tag = 8 then OpenErr X c b else Fails X c tag b

theorem onlyGetCur {α} {m : P α} {A : Cause → Bytes → Bytes → Prop} (h : Errs m A) : Errs (do let _ ← m; P.getCur) A :=
  then_ok h fun a st e s h => by cases h

theorem tag {recur : TagParser} {tag : Nat} {A : Cause → Bytes → Bytes → Prop} (h : Errs (tagBody X recur tag) A) (b : Bytes) :
    Errs (tagParse X recur tag b) (fun c _ _ => A c [] b) := by
  unfold tagParse tagScope
  exact flag fun d => scope b _ (onlyGetCur h)

theorem tag8 {recur : TagParser} (b : Bytes) : Errs (tagParse X recur 8 b) (fun c _ _ => OpenErr X c b) := by
  unfold tagParse tagScope
  refine flag fun d => ?_
  constructor
  intro x p q j c
  rw [← tag08_err X x b (tagItem 8 b d) c]
  have hr : P.scope b (tagItem 8 b d) (do let _ ← tagBody X recur 8; P.getCur) (St.at (some x) p q j) =
      (((do let _ ← tagBody X recur 8; P.getCur) (St.at (some x) [] b (tagItem 8 b d))).1,
        { ((do let _ ← tagBody X recur 8; P.getCur) (St.at (some x) [] b (tagItem 8 b d))).2 with rd := ⟨p ++ q, p.length⟩, cur := j }) := rfl
  have hb : (do let _ ← tagBody X recur 8; P.getCur) (St.at (some x) [] b (tagItem 8 b d)) = ((tag08 X >>= fun _ => P.getCur) (St.at (some x) [] b (tagItem 8 b d))) := by
    change ((tag08 X >>= fun _ => Pure.pure ()) >>= fun _ => P.getCur) _ = _
    rw [Lang.assoc]
    rfl
  change (∃ e s, P.scope b (tagItem 8 b d) (do let _ ← tagBody X recur 8; P.getCur) (St.at (some x) p q j) = (.err e, s) ∧ e.cause = c) ↔ _
  rw [hr, hb, bind_run]
  rcases tag08 X (St.at (some x) [] b (tagItem 8 b d)) with ⟨r, s⟩
  cases r <;> simp [P.getCur]

theorem fails_other {c : Cause} {tag : Nat} {b : Bytes} (h : tag ∉ [1, 2, 3, 4, 5, 6, 7, 8, 11, 14, 17, 20]) : ¬ Fails X c tag b := by
  simp only [List.mem_cons, List.not_mem_nil, or_false, not_or] at h
  intro hf
  cases hf with
  | version ht => simp at ht; omega
  | publicKey ht => simp at ht; omega
  | secretKey ht => simp at ht; omega
  | secretKey5 ht => simp at ht; omega
  | _ => omega

theorem tagParse {recur : TagParser} {R : Nat → Bytes → Prop} {B : Cause → Nat → Bytes → Prop} (hr : ∀ t b, Sub (recur t b) (R t b))
    (hb : ∀ t b, Errs (recur t b) (fun c _ _ => B c t b)) (tag : Nat) (b : Bytes) :
    Errs (tagParse X recur tag b) (fun c _ _ => TagErr X R B c tag b) := by
  unfold TagErr
  by_cases h2 : tag = 2
  · subst h2
    simp only [if_pos]
    exact Errs.tag X (tag := 2) (tag02 X (Sub.parseSub02 X hr) (parseSub02 X hr hb)) b
  by_cases h8 : tag = 8
  · simp only [if_neg h2, if_pos h8]; subst h8
    exact tag8 X b
  simp only [if_neg h2, if_neg h8]
  by_cases h : tag ∈ [1, 3, 4, 5, 6, 7, 11, 14, 17, 20]
  · simp only [List.mem_cons, List.not_mem_nil, or_false] at h
    rcases h with rfl | rfl | rfl | rfl | rfl | rfl | rfl | rfl | rfl | rfl
    · exact Errs.tag X (recur := recur) (tag := 1) (tag01 X) b
    · exact Errs.tag X (recur := recur) (tag := 3) (tag03 X) b
    · exact Errs.tag X (recur := recur) (tag := 4) (tag04 X) b
    · exact Errs.tag X (recur := recur) (tag := 5) (tag05 X (tag := 5) (by decide)) b
    · exact Errs.tag X (recur := recur) (tag := 6) (tag06 X (tag := 6) (by decide)) b
    · exact Errs.tag X (recur := recur) (tag := 7) (tag05 X (tag := 7) (by decide)) b
    · exact Errs.tag X (recur := recur) (tag := 11) (tag11 X) b
    · exact Errs.tag X (recur := recur) (tag := 14) (tag06 X (tag := 14) (by decide)) b
    · exact Errs.tag X (recur := recur) (tag := 17) (tag17 X) b
    · exact Errs.tag X (recur := recur) (tag := 20) (tag20 X) b
  · simp only [List.mem_cons, List.not_mem_nil, or_false, not_or] at h
    have hi : Idle (tagBody X recur tag) := by
      unfold tagBody
      split <;> first | omega | skip
      · unfold tag09; idl
      · unfold tag10; idl
      · unfold tag12; idl
      · unfold tag13; idl
      · unfold tag18; idl
      · unfold tag19; idl
      · exact .pure ()
    refine (Errs.tag X (idle hi) b).congr fun c _ _ => ?_
    simp only [false_iff]
    exact fails_other X (by simp; omega)

/-- what `parseTagF` with this fuel rejects -/
def FuelErr (c : Cause) : Nat → Nat → Bytes → Prop
  | 0, _, _ => False
  | n + 1, tag, b => TagErr X (FuelOK X n) (fun c => FuelErr c n) c tag b

theorem parseTagF (n : Nat) (tag : Nat) (b : Bytes) : Errs (parseTagF X n tag b) (fun c _ _ => FuelErr X c n tag b) := by
  induction n generalizing tag b with
  | zero => exact ⟨fun x p q j c => by simp [Gpgpdump.parseTagF, P.stuck, FuelErr]⟩
  | succ n ih => exact tagParse X (Sub.parseTagF X n) ih tag b

end Errs
end Gpgpdump
