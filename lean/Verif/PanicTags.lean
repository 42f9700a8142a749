import Verif.PanicKeys

/-!
# Which subpackets and packets panic: one level

`R`, `B` below say which packets the recursive calls accept and which make them panic.
-/

namespace Gpgpdump
open P Spec Cmp

variable (X : Ext)

/-- one of the packets of a source panics, those before it are accepted -/
def PanLoop (R : Nat → Bytes → Prop) (B : Site → Nat → Bytes → Prop) (site : Site) : Nat → Src → Prop
  | 0, _ => False
  | f + 1, src => match nextPacket X src with
    | (.error _, _) => False
    | (.ok (tag, body), src') => B site tag body ∨ (R tag body ∧ PanLoop R B site f src')

/-- one of the subpackets panics, those before it are accepted -/
def PanList (A : UInt8 → Bytes → Prop) (B : Site → UInt8 → Bytes → Prop) (site : Site) (l : List (UInt8 × Bytes)) : Prop :=
  ∃ s1 p s2, l = s1 ++ p :: s2 ∧ (∀ s ∈ s1, A s.1 s.2) ∧ B site p.1 p.2

theorem panList_cons {A : UInt8 → Bytes → Prop} {B : Site → UInt8 → Bytes → Prop} {site : Site} {s : UInt8 × Bytes} {l : List (UInt8 × Bytes)} :
    PanList A B site (s :: l) ↔ B site s.1 s.2 ∨ (A s.1 s.2 ∧ PanList A B site l) := by
  constructor
  · rintro ⟨s1, p, s2, h, h1, h2⟩
    cases s1 with
    | nil => cases h; exact .inl h2
    | cons a s1 =>
      cases h
      exact .inr ⟨h1 _ (by simp), s1, p, s2, rfl, fun s hs => h1 s (by simp [hs]), h2⟩
  · rintro (h | ⟨h, s1, p, s2, rfl, h1, h2⟩)
    · exact ⟨[], s, l, rfl, by simp, h⟩
    · exact ⟨s :: s1, p, s2, rfl, by simpa using ⟨h, fun a b hm => h1 (a, b) hm⟩, h2⟩

namespace Pans

theorem forPackets {recur : TagParser} {R : Nat → Bytes → Prop} {B : Site → Nat → Bytes → Prop} (hr : ∀ t b, Sub (recur t b) (R t b))
    (hb : ∀ t b, Pans (recur t b) (fun site _ _ => B site t b)) (f : Nat) (src : Src) :
    Pans (forPackets X recur f src) (fun site _ _ => PanLoop X R B site f src) := by
  induction f generalizing src with
  | zero => exact ⟨fun x p q j site => by simp [Gpgpdump.forPackets, P.stuck, PanLoop]⟩
  | succ f ih =>
    unfold Gpgpdump.forPackets PanLoop
    rcases hn : nextPacket X src with ⟨r, src'⟩
    cases r with
    | error e =>
      simp only
      by_cases he : e.isEOF = true
      · rw [if_pos he]; exact idle (.pure ())
      · rw [if_neg he]; exact ⟨fun x p q j site => by rw [fail_run]; simp⟩
    | ok tb =>
      obtain ⟨tag, body⟩ := tb
      simp only
      exact sub (hb tag body) (hr tag body) fun i => skip (.add i) fun _ => ih src'

theorem subLoop {p : UInt8 → Bytes → P Item} {A : UInt8 → Bytes → Prop} {B : Site → UInt8 → Bytes → Prop} (l : List (UInt8 × Bytes))
    (h : ∀ t b, Sub (p t b) (A t b)) (hb : ∀ t b, Pans (p t b) (fun site _ _ => B site t b)) :
    Pans (subLoop p l) (fun site _ _ => PanList A B site l) := by
  induction l with
  | nil => exact (idle (.pure ())).congr fun site _ _ => by simp [PanList]
  | cons s l ih =>
    obtain ⟨t, b⟩ := s
    exact (sub (hb t b) (h t b) fun i => skip (.add i) fun _ => ih).congr fun site _ _ => (panList_cons (s := (t, b))).symm

theorem addSubpackets {p : UInt8 → Bytes → P Item} {A : UInt8 → Bytes → Prop} {B : Site → UInt8 → Bytes → Prop} (name : Str) (area : Bytes)
    (h : ∀ t b, Sub (p t b) (A t b)) (hb : ∀ t b, Pans (p t b) (fun site _ _ => B site t b)) :
    Pans (addSubpackets p name area) (fun site _ _ => ∃ subs, SubSeq subs area ∧ PanList A B site subs) := by
  unfold Gpgpdump.addSubpackets
  refine skip (.flag _) fun d => ?_
  cases ho : opaqueSubpackets area with
  | error e =>
    refine ⟨fun x p q j site => ?_⟩
    simp only
    rw [fail_run]
    constructor
    · rintro ⟨s, h⟩; cases h
    · rintro ⟨subs, hs, -⟩; rw [opaqueSubpackets_ok.mpr hs] at ho; cases ho
  | ok l =>
    simp only
    refine Pans.congr (A := fun site _ _ => PanList A B site l) ?_ fun site _ _ => ?_
    · constructor
      intro x pp q j site
      have hbl := (build (newItem name [] (nBytes area.length) (dumpBytes area d)) (subLoop l h hb)).run x pp q j site
      rw [bind_panic, ← hbl]
      constructor
      · rintro (h | ⟨a, s', -, s, h2⟩)
        · exact h
        · cases h2
      · exact .inl
    · constructor
      · intro h; exact ⟨l, opaqueSubpackets_ok.mp ho, h⟩
      · rintro ⟨subs, hs, h⟩
        rw [opaqueSubpackets_ok.mpr hs] at ho
        cases ho
        exact h

/-- a key block panics -/
def PanBlock (R : Nat → Bytes → Prop) (B : Site → Nat → Bytes → Prop) (site : Site) (d : Bytes) : Prop :=
  PanLoop X R B site (d.length + 1) ⟨d, rawErr .eof, [], false, true⟩

theorem sub38 {recur : TagParser} {R : Nat → Bytes → Prop} {B : Site → Nat → Bytes → Prop} (hr : ∀ t b, Sub (recur t b) (R t b))
    (hb : ∀ t b, Pans (recur t b) (fun site _ _ => B site t b)) :
    Pans (sub38 X recur) (fun site _ q => ∃ d, q = 0 :: d ∧ PanBlock X R B site d) := by
  unfold Gpgpdump.sub38
  refine (byte (B := fun k site _ q => k = 0 ∧ PanBlock X R B site q) fun k => skip (.add _) fun _ => ?_).congr fun site p q => ?_
  · refine (reader (B := fun r site _ _ => k = 0 ∧ PanLoop X R B site ((Src.ofReader r).data.length + 1) (Src.ofReader r)) fun r => ?_).congr fun site p q => by
      rw [ofReader_at]; rfl
    refine skip (.flag _) fun d => ?_
    simp only
    by_cases hk : k = 0
    · rw [if_pos hk]
      constructor
      intro x pp q j site
      have hbl := (build (rawData r (S "Key data") d) (forPackets X hr hb ((Src.ofReader r).data.length + 1) (Src.ofReader r))).run x pp q j site
      rw [bind_panic]
      change (∃ s, P.build (rawData r (S "Key data") d) (Gpgpdump.forPackets X recur ((Src.ofReader r).data.length + 1) (Src.ofReader r)) (St.at (some x) pp q j) = (.panic site, s)) ∨ _ ↔ _
      rw [hbl]
      constructor
      · rintro (h | ⟨a, s', -, s, h2⟩)
        · exact ⟨hk, h⟩
        · cases h2
      · rintro ⟨-, h⟩; exact .inl h
    · rw [if_neg hk]
      exact (idle (.bind (.add _) fun _ => .getCur)).congr fun _ _ _ => by simp [hk]
  · constructor
    · rintro ⟨k, r, rfl, rfl, h⟩; exact ⟨r, rfl, h⟩
    · rintro ⟨d, rfl, h⟩; exact ⟨0, d, rfl, rfl, h⟩

theorem sub32 {recur : TagParser} {R : Nat → Bytes → Prop} {B : Site → Nat → Bytes → Prop} (hr : ∀ t b, Sub (recur t b) (R t b))
    (hb : ∀ t b, Pans (recur t b) (fun site _ _ => B site t b)) : Pans (sub32 recur) (fun site p q => B site 2 (p ++ q)) := by
  unfold Gpgpdump.sub32
  exact getBody (B := fun b site _ _ => B site 2 b) fun b =>
    (sub (hb 2 b) (hr 2 b) fun i => idle (.bind (.add _) fun _ => .getCur)).congr fun _ _ _ => by simp

/-- one level of the subpackets that panic -/
def SubPan (R : Nat → Bytes → Prop) (B : Site → Nat → Bytes → Prop) (site : Site) (t : UInt8) (b : Bytes) : Prop :=
  (t.toNat % 128 = 32 ∧ B site 2 b) ∨ (t.toNat % 128 = 38 ∧ ∃ d, b = 0 :: d ∧ PanBlock X R B site d)

theorem parseSub02 {recur : TagParser} {R : Nat → Bytes → Prop} {B : Site → Nat → Bytes → Prop} (hr : ∀ t b, Sub (recur t b) (R t b))
    (hb : ∀ t b, Pans (recur t b) (fun site _ _ => B site t b)) (t : UInt8) (b : Bytes) :
    Pans (parseSub02 X recur t b) (fun site _ _ => SubPan X R B site t b) := by
  unfold SubPan
  by_cases h32 : t.toNat % 128 = 32
  · unfold Gpgpdump.parseSub02 subScope
    refine flag fun d => ?_
    rw [and_7f, h32]
    exact (scope b _ (sub32 hr hb)).congr fun _ _ _ => by simp
  by_cases h38 : t.toNat % 128 = 38
  · unfold Gpgpdump.parseSub02 subScope
    refine flag fun d => ?_
    rw [and_7f, h38]
    exact (scope b _ (sub38 X hr hb)).congr fun _ _ _ => by simp
  · refine (of_R (Q := fun o => (selfCmp o false false false).item) fun o => ?_).congr fun _ _ _ => by simp [h32, h38]
    unfold Gpgpdump.parseSub02
    exact r_subScope X (by simp [selfCmp]) (by simp [selfCmp]) (r_sub02Body X (by simp [selfCmp]) (by simp [selfCmp]) (fun h => absurd h h32) fun h => absurd h h38)

/-- a subpacket area with its length that panics, and anything behind it -/
def AreaPan (A : UInt8 → Bytes → Prop) (B : Site → UInt8 → Bytes → Prop) (site : Site) (q : Bytes) : Prop :=
  ∃ area subs rest, area.length < 65536 ∧ SubSeq subs area ∧ PanList A B site subs ∧ q = beOctets 2 area.length ++ (area ++ rest)

theorem subArea {recur : TagParser} {A : UInt8 → Bytes → Prop} {B : Site → UInt8 → Bytes → Prop} (h : ∀ t b, Sub (Gpgpdump.parseSub02 X recur t b) (A t b))
    (hb : ∀ t b, Pans (Gpgpdump.parseSub02 X recur t b) (fun site _ _ => B site t b)) (name : Str) :
    Pans (subArea X recur name) (fun site _ q => AreaPan A B site q) := by
  unfold Gpgpdump.subArea
  refine (bytes 2 (B := fun s site _ q => ∃ area subs rest, area.length = beNat s ∧ SubSeq subs area ∧ PanList A B site subs ∧ q = area ++ rest) fun s => ?_).congr
    fun site p q => ?_
  · simp only
    by_cases hs : beNat s > 0
    · rw [if_pos hs]
      refine (bytes _ fun sp => addSubpackets name sp h hb).congr fun site p q => ?_
      constructor
      · rintro ⟨b, r, rfl, hl, subs, h1, h2⟩; exact ⟨b, subs, r, hl, h1, h2, rfl⟩
      · rintro ⟨b, subs, r, hl, h1, h2, rfl⟩; exact ⟨b, r, rfl, hl, subs, h1, h2⟩
    · rw [if_neg hs]
      refine (idle (.pure ())).congr fun site p q => ?_
      simp only [false_iff]
      rintro ⟨b, subs, r, hl, h1, ⟨s1, p, s2, rfl, -⟩, rfl⟩
      have : b = [] := List.length_eq_zero_iff.mp (by omega)
      subst this
      have := h1.mem_length p (by simp)
      simp at this
  · constructor
    · rintro ⟨b, r, rfl, h2, area, subs, rest, hl, hs, ha, rfl⟩
      obtain ⟨a1, a2⟩ := beOctets2_eq h2 hl
      exact ⟨area, subs, rest, a1, hs, ha, by rw [← a2]⟩
    · rintro ⟨area, subs, rest, hl, hs, ha, rfl⟩
      exact ⟨_, _, rfl, beOctets_length _ _, area, subs, rest, (natOctets2 hl).symm, hs, ha, rfl⟩

/-- one level of the signatures that panic -/
def SigPan (A : UInt8 → Bytes → Prop) (B : Site → UInt8 → Bytes → Prop) (site : Site) (q : Bytes) : Prop :=
  ∃ v t a h r, q = v :: t :: a :: h :: r ∧ v ∈ [4, 5] ∧ (AreaPan A B site r ∨ ∃ f r', r = f ++ r' ∧ AreaOK A f ∧ AreaPan A B site r')

theorem tag02v4 {recur : TagParser} {A : UInt8 → Bytes → Prop} {B : Site → UInt8 → Bytes → Prop} (h : ∀ t b, Sub (Gpgpdump.parseSub02 X recur t b) (A t b))
    (hb : ∀ t b, Pans (Gpgpdump.parseSub02 X recur t b) (fun site _ _ => B site t b)) :
    Pans (tag02v4 X recur) (fun site _ q => ∃ t a h r, q = t :: a :: h :: r ∧ (AreaPan A B site r ∨ ∃ f r', r = f ++ r' ∧ AreaOK A f ∧ AreaPan A B site r')) := by
  unfold Gpgpdump.tag02v4
  have hlast : ∀ a, Calm (do
      let l ← P.readBytes 2
      P.add (hashLeft2 l)
      Gpgpdump.parseSig a) := fun a => of_R (Q := fun _ => Eq) fun o => by rel
  refine (byte fun t => skip (.flag _) fun _ => skip (.add _) fun _ => byte fun a => skip (.flag _) fun _ => skip (.add _) fun _ =>
    byte fun hh => skip (.flag _) fun _ => skip (.add _) fun _ => bind (subArea X h hb _) (Lang.subArea X h _) fun _ =>
      first (subArea X h hb _) (Lang.subArea X h _) fun _ => hlast a).congr fun site p q => ?_
  constructor
  · rintro ⟨t, _, rfl, a, _, rfl, hh, r, rfl, h | ⟨_, f, r', rfl, h1, h2⟩⟩
    · exact ⟨t, a, hh, r, rfl, .inl h⟩
    · exact ⟨t, a, hh, _, rfl, .inr ⟨f, r', rfl, h1, h2⟩⟩
  · rintro ⟨t, a, hh, r, rfl, h | ⟨f, r', rfl, h1, h2⟩⟩
    · exact ⟨t, _, rfl, a, _, rfl, hh, r, rfl, .inl h⟩
    · exact ⟨t, _, rfl, a, _, rfl, hh, _, rfl, .inr ⟨(), f, r', rfl, h1, h2⟩⟩

theorem tag02 {recur : TagParser} {A : UInt8 → Bytes → Prop} {B : Site → UInt8 → Bytes → Prop} (h : ∀ t b, Sub (Gpgpdump.parseSub02 X recur t b) (A t b))
    (hb : ∀ t b, Pans (Gpgpdump.parseSub02 X recur t b) (fun site _ _ => B site t b)) : Pans (tag02 X recur) (fun site _ q => SigPan A B site q) := by
  unfold Gpgpdump.tag02 SigPan
  have hv4 := first (tag02v4 X h hb) (Lang.tag02v4 X h) fun _ => idle (.unknownData)
  refine (byte (B := fun v site _ q => v ∈ [4, 5] ∧ ∃ t a h r, q = t :: a :: h :: r ∧ (AreaPan A B site r ∨ ∃ f r', r = f ++ r' ∧ AreaOK A f ∧ AreaPan A B site r'))
    fun v => skip (.flag _) fun _ => skip (.add _) fun _ => ?_).congr fun site p q => ?_
  · rcases sigVer_cases v with ⟨rfl, h1⟩ | ⟨rfl, h1, h2⟩ | ⟨rfl, h1, h2, h3⟩ | ⟨hv, h1, h2, h3⟩
    · rw [if_pos h1]; exact hv4.congr fun site p q => by simp
    · rw [if_neg (by simp [h1]), if_pos h2]; exact hv4.congr fun site p q => by simp
    · rw [if_neg (by simp [h1]), if_neg (by simp [h2]), if_pos (by simp [h3])]
      refine (of_R (Q := fun _ => Eq) fun o => ?_).congr fun site p q => by simp
      exact R.bindEq (R.failed (r_tag02v3 X (by simp [selfCmp]) (by simp [selfCmp]))) fun _ => R.ite (fun _ => R.pure rfl) fun _ => r_unknownData
    · rw [if_neg (by simp [h1]), if_neg (by simp [h2]), if_neg (by simp [h3])]
      refine (idle .unknownData).congr fun site p q => ?_
      simp only [false_iff]
      rintro ⟨h, -⟩
      exact hv ((by decide : ∀ x ∈ ([4, 5] : List UInt8), x ∈ ([3, 4, 5] : List UInt8)) _ h)
  · constructor
    · rintro ⟨v, _, rfl, hv, t, a, h, r, rfl, h1⟩; exact ⟨v, t, a, h, r, rfl, hv, h1⟩
    · rintro ⟨v, t, a, h, r, rfl, hv, h1⟩; exact ⟨v, _, rfl, hv, t, a, h, r, rfl, h1⟩

/-- one level of the packets that panic -/
def TagPan (R : Nat → Bytes → Prop) (B : Site → Nat → Bytes → Prop) (site : Site) (tag : Nat) (b : Bytes) : Prop :=
  if tag = 2 then SigPan (SubOK X R) (SubPan X R B) site b else if tag ∈ [5, 7] then Pan X site tag b else False

theorem onlyGetCur {α} {m : P α} {A : Site → Bytes → Bytes → Prop} (h : Pans m A) : Pans (do let _ ← m; P.getCur) A := by
  constructor
  intro x p q j site
  rw [bind_panic, ← h.run x p q j site]
  constructor
  · rintro (h | ⟨a, s', -, s, h2⟩)
    · exact h
    · cases h2
  · exact .inl

theorem tag {recur : TagParser} {tag : Nat} {A : Site → Bytes → Bytes → Prop} (h : Pans (tagBody X recur tag) A) (b : Bytes) :
    Pans (tagParse X recur tag b) (fun site _ _ => A site [] b) := by
  unfold tagParse tagScope
  exact flag fun d => scope b _ (onlyGetCur h)

theorem tagParse {recur : TagParser} {R : Nat → Bytes → Prop} {B : Site → Nat → Bytes → Prop} (hr : ∀ t b, Sub (recur t b) (R t b))
    (hb : ∀ t b, Pans (recur t b) (fun site _ _ => B site t b)) (tag : Nat) (b : Bytes) :
    Pans (tagParse X recur tag b) (fun site _ _ => TagPan X R B site tag b) := by
  unfold TagPan
  by_cases h2 : tag = 2
  · subst h2
    simp only [if_pos]
    exact Pans.tag X (tag := 2) (tag02 X (Sub.parseSub02 X hr) (parseSub02 X hr hb)) b
  by_cases h5 : tag ∈ [5, 7]
  · simp only [if_neg h2, if_pos h5]
    have : tagBody X recur tag = Gpgpdump.tag05 X := by
      simp only [List.mem_cons, List.not_mem_nil, or_false] at h5
      rcases h5 with rfl | rfl <;> rfl
    exact Pans.tag X (by rw [this]; exact tag05 X h5) b
  · simp only [if_neg h2, if_neg h5]
    refine of_R (Q := fun o => (selfCmp o false false false).item) fun o => ?_
    unfold Gpgpdump.tagParse
    refine r_tagScope X (by simp [selfCmp]) (by simp [selfCmp]) (At.bindR X (by simp [selfCmp]) (by simp [selfCmp])
      (r_tagBody X (by simp [selfCmp]) (by simp [selfCmp]) tag b (.inr ?_) fun t b' hi => ?_) fun _ _ _ => Cmp.R.getCur)
    · intro h; exfalso; apply h5; simpa using h
    · exfalso
      apply h2
      cases hi <;> rfl

/-- what makes `parseTagF` with this fuel panic -/
def FuelPan (site : Site) : Nat → Nat → Bytes → Prop
  | 0, _, _ => False
  | n + 1, tag, b => TagPan X (FuelOK X n) (fun site => FuelPan site n) site tag b

theorem parseTagF (n : Nat) (tag : Nat) (b : Bytes) : Pans (parseTagF X n tag b) (fun site _ _ => FuelPan X site n tag b) := by
  induction n generalizing tag b with
  | zero => exact ⟨fun x p q j site => by simp [Gpgpdump.parseTagF, P.stuck, FuelPan]⟩
  | succ n ih => exact tagParse X (Sub.parseTagF X n) ih tag b

end Pans
end Gpgpdump
