import Verif.ValuesApi
import Verif.ThmReaderApi
import Verif.ThmValues
import Verif.DecodeLemmas
import Verif.ThmNotation

/-!
# C95: the functions of the package `values` for any pointers
-/

namespace Gpgpdump
open Reader

namespace Spec

/-- a call with values that a caller can have -/
def Possible : VCall → Prop
  | .unixTime p | .isZero p | .rfc3339 p | .dateItem p _ _ | .fileTimeItem p _ | .pubKeyTimeItem p _ | .sigTimeItem p _ => p.Reached
  | .expireItem p _ _ | .sigExpireItem p _ | .keyExpireItem p _ => p.Reached
  | .rawdata p | .mpiItem p _ _ => p.Reached
  | _ => True

/-- an expiration time that cannot be shown: a zero value, or one that starts from a zero value -/
def BadExpire (p : ExpirePtr) : Prop := p = ExpirePtr.zero ∨ ∃ e, p = some e ∧ e.start = DatePtr.zero

/-- the calls that panic -/
inductive Panics : VCall → Prop
  | unixTime : Panics (.unixTime DatePtr.zero)
  | isZero : Panics (.isZero DatePtr.zero)
  | rfc3339 : Panics (.rfc3339 DatePtr.zero)
  | dateItem {name f} : Panics (.dateItem DatePtr.zero name f)
  | pubKeyTimeItem {f} : Panics (.pubKeyTimeItem DatePtr.zero f)
  | sigTimeItem {f} : Panics (.sigTimeItem DatePtr.zero f)
  | fileTimeItem {p f} (h : p = none ∨ p = DatePtr.zero) : Panics (.fileTimeItem p f)
  | expireItem {p name f} (h : BadExpire p) : Panics (.expireItem p name f)
  | sigExpireItem {p f} (h : BadExpire p) : Panics (.sigExpireItem p f)
  | keyExpireItem {p f} (h : BadExpire p) : Panics (.keyExpireItem p f)
  | versionString : Panics (.versionString none)
  | dumpString {p} (h : p = none ∨ p = some (none, true)) : Panics (.dumpString p)
  | rawDataItem {name f} : Panics (.rawDataItem none name f)
  | tagItem {t f} : Panics (.tagItem t none f)
  | subItem {t f} : Panics (.subItem t none f)
  | newKeyID {b} (h : b.length < 8) : Panics (.newKeyID b)

end Spec

open Spec

/-! ## Values -/

theorem readBytes64_length {r : Reader} {n : Nat} (hr : r.size < 2 ^ 62) (hn : n < 2 ^ 62) {b r'} (h : r.readBytes64 n = (.ok b, r')) :
    b.length = n ∧ r'.size = r.size ∧ ∃ post, r.remaining = b ++ post := by
  unfold readBytes64 at h
  split at h
  · cases h; exact ⟨by simp; omega, rfl, _, rfl⟩
  · split at h
    · cases h
    · rename_i h1 h2
      have hw : wrap64 ((r.off : Int) + n) = (r.off : Int) + n := wrap64_of_fits (by omega) (by omega)
      rw [hw] at h
      split at h
      · cases h
      · split at h
        · cases h
        · cases h
          refine ⟨?_, rfl, r.remaining.drop n, by simp only [Reader.remaining, Int.toNat_natCast, List.take_append_drop]⟩
          simp only [Int.toNat_natCast, List.length_take, List.length_drop]
          have : r.buf.length = r.size := rfl
          omega

theorem fourOctets_length {r : Option Reader} (hr : Fits r) {b r'} (h : fourOctets r = (.val b, r')) : b.length = 4 := by
  unfold fourOctets at h
  cases r with
  | none => cases h
  | some r =>
    simp only at h
    rcases hb : r.readBytes64 4 with ⟨x, y⟩
    rw [hb] at h
    cases x with
    | ok b' => cases h; exact (readBytes64_length (n := 4) (hr r rfl) (by decide) hb).1
    | _ => cases h

/-- a date is nil, a zero value, or has four octets -/
theorem DatePtr.Reached.cases {p : DatePtr} (h : p.Reached) : p = none ∨ p = DatePtr.zero ∨ ∃ d, p = some d ∧ d.tm.length = 4 := by
  cases h with
  | nil => exact .inl rfl
  | zero => exact .inr (.inl rfl)
  | new hr h =>
    rename_i r utc r'
    unfold DatePtr.new at h
    rcases hb : fourOctets r with ⟨x, y⟩
    rw [hb] at h
    cases x with
    | val b => cases h; exact .inr (.inr ⟨_, rfl, fourOctets_length hr hb⟩)
    | _ => cases h

theorem ExpirePtr.Reached.cases {p : ExpirePtr} (h : p.Reached) :
    p = none ∨ p = ExpirePtr.zero ∨ ∃ e, p = some e ∧ e.day.length = 4 ∧ e.start.Reached := by
  cases h with
  | nil => exact .inl rfl
  | zero => exact .inr (.inl rfl)
  | new hs hr h =>
    rename_i r start r'
    unfold ExpirePtr.new at h
    rcases hb : fourOctets r with ⟨x, y⟩
    rw [hb] at h
    cases x with
    | val b => cases h; exact .inr (.inr ⟨_, rfl, fourOctets_length hr hb, hs⟩)
    | _ => cases h

theorem dumpString_some (r : Reader) (f : Bool) : DumpPtr.string (some (some r, f)) = some (dumpRest r f) := by
  unfold dumpRest
  cases f with
  | false => rfl
  | true =>
    simp only [DumpPtr.string]
    have e : (r.size : Int) - r.rest = (r.off : Int) := by unfold Reader.rest; omega
    rw [e]
    unfold dumpString64 dumpString
    by_cases h : r.off ≥ r.size
    · rw [if_pos (by omega), if_pos h]; rfl
    · rw [if_neg (by omega), if_neg (by omega), if_neg h]
      simp
theorem dumpOf_some (b : Bytes) (f : Bool) : dumpOf b f = some (dumpBytes b f) := by
  unfold dumpOf
  rw [dumpString_some]
  rfl
theorem uint32_four {b : Bytes} (h : b.length = 4) : uint32 b = some (UInt32.ofNat (beNat b)) := by
  unfold uint32
  rw [if_neg (by omega), List.take_of_length_le (by omega)]
theorem unixTime_four {d : DateTime} (h : d.tm.length = 4) : DatePtr.unixTime (some d) = some d.unix := uint32_four h

/-! ## C95 -/

/-- the item of a date -/
theorem toItem_four (X : Ext) {d : DateTime} (h : d.tm.length = 4) (name : Str) (f : Bool) :
    DatePtr.toItem X (some d) name f = .item (some (dateTimeItem X d name f)) := by
  unfold DatePtr.toItem DatePtr.rfc3339
  simp only [unixTime_four h, dumpOf_some, Option.map_some]
  rfl
theorem toItem_zero (X : Ext) (name : Str) (f : Bool) : DatePtr.toItem X DatePtr.zero name f = .crash := by
  unfold DatePtr.toItem DatePtr.rfc3339 DatePtr.zero
  rfl
theorem fileTimeItem_four (X : Ext) {d : DateTime} (h : d.tm.length = 4) (f : Bool) :
    DatePtr.fileTimeItem X (some d) f = .item (some (fileTimeItem X d f)) := by
  unfold DatePtr.fileTimeItem DatePtr.isZero Gpgpdump.fileTimeItem
  simp only [unixTime_four h, Option.map_some]
  by_cases hz : d.unix = 0
  · rw [if_pos hz]
    simp [hz, dumpOf_some]
  · rw [if_neg hz, show (d.unix == 0) = false by simp [hz]]
    exact toItem_four X h _ f
theorem expire_four (X : Ext) {e : ExpireVal} (h : e.day.length = 4) (hs : e.start = none ∨ ∃ d, e.start = some d ∧ d.tm.length = 4) (name : Str) (f : Bool) :
    ExpirePtr.toItem X (some e) name f = .item (some (expireItem X name e.day e.start f)) := by
  obtain ⟨start, day⟩ := e
  unfold ExpirePtr.toItem expireItem
  rcases hs with rfl | ⟨d, rfl, hd⟩
  · simp only [uint32_four h, DatePtr.unixTime, dumpOf_some]
    rfl
  · simp only [uint32_four h, unixTime_four hd, dumpOf_some]
    split <;> rfl
theorem expire_bad (X : Ext) {p : ExpirePtr} (h : BadExpire p) (name : Str) (f : Bool) : ExpirePtr.toItem X p name f = .crash := by
  rcases h with rfl | ⟨⟨start, day⟩, rfl, hs⟩
  · unfold ExpirePtr.toItem ExpirePtr.zero
    rfl
  · simp only at hs
    subst hs
    unfold ExpirePtr.toItem
    have : DatePtr.zero.unixTime = none := rfl
    simp only [this]
    split
    · contradiction
    · rfl

/-- C95: exactly these calls panic. -/
theorem C95_panics (X : Ext) (c : VCall) (h : Possible c) : c.run X = .crash ↔ Panics c := by
  have date : ∀ {p : DatePtr} {g : VOut} {Q : Prop}, p.Reached → (p = none → g ≠ .crash) → (p = DatePtr.zero → g = .crash) →
      (∀ d, p = some d → d.tm.length = 4 → g ≠ .crash) → (Q ↔ p = DatePtr.zero) → (g = .crash ↔ Q) := by
    intro p g Q hp h1 h2 h3 hQ
    rw [hQ]
    constructor
    · intro hg
      rcases hp.cases with e | e | ⟨d, e, hd⟩
      · exact absurd hg (h1 e)
      · exact e
      · exact absurd hg (h3 d e hd)
    · exact h2
  have exp : ∀ {p : ExpirePtr} {name : Str} {f : Bool}, p.Reached → (ExpirePtr.toItem X p name f = .crash ↔ BadExpire p) := by
    intro p name f hp
    constructor
    · intro hc
      rcases hp.cases with rfl | rfl | ⟨e, rfl, he, hs⟩
      · cases hc
      · exact .inl rfl
      · rcases hs.cases with h1 | h1 | h1
        · rw [expire_four X he (.inl h1)] at hc; cases hc
        · exact .inr ⟨e, rfl, h1⟩
        · rw [expire_four X he (.inr h1)] at hc; cases hc
    · exact fun hb => expire_bad X hb name f
  have ditem : ∀ {p : DatePtr} {name : Str} {f : Bool} {Q : Prop}, p.Reached → (Q ↔ p = DatePtr.zero) → (DatePtr.toItem X p name f = .crash ↔ Q) := by
    intro p name f Q hp hQ
    refine date hp ?_ ?_ ?_ hQ
    · rintro rfl; exact nofun
    · rintro rfl; exact toItem_zero X _ _
    · rintro d rfl hd; rw [toItem_four X hd]; exact nofun
  cases c with
  | unixTime p =>
    refine date (p := p) h ?_ ?_ ?_ ⟨by rintro ⟨⟩; rfl, by rintro rfl; exact .unixTime⟩
    · rintro rfl; exact nofun
    · rintro rfl; rfl
    · rintro d rfl hd; simp only [VCall.run, unixTime_four hd]; exact nofun
  | isZero p =>
    refine date (p := p) h ?_ ?_ ?_ ⟨by rintro ⟨⟩; rfl, by rintro rfl; exact .isZero⟩
    · rintro rfl; exact nofun
    · rintro rfl; rfl
    · rintro d rfl hd; simp only [VCall.run, DatePtr.isZero, unixTime_four hd, Option.map_some]; exact nofun
  | rfc3339 p =>
    refine date (p := p) h ?_ ?_ ?_ ⟨by rintro ⟨⟩; rfl, by rintro rfl; exact .rfc3339⟩
    · rintro rfl; exact nofun
    · rintro rfl; rfl
    · rintro d rfl hd; simp only [VCall.run, DatePtr.rfc3339, unixTime_four hd, Option.map_some]; exact nofun
  | dateItem p name f => exact ditem h ⟨by rintro ⟨⟩; rfl, by rintro rfl; exact .dateItem⟩
  | pubKeyTimeItem p f => exact ditem h ⟨by rintro ⟨⟩; rfl, by rintro rfl; exact .pubKeyTimeItem⟩
  | sigTimeItem p f => exact ditem h ⟨by rintro ⟨⟩; rfl, by rintro rfl; exact .sigTimeItem⟩
  | fileTimeItem p f =>
    constructor
    · intro hc
      rcases DatePtr.Reached.cases h with rfl | rfl | ⟨d, rfl, hd⟩
      · exact .fileTimeItem (.inl rfl)
      · exact .fileTimeItem (.inr rfl)
      · change DatePtr.fileTimeItem X (some d) f = _ at hc
        rw [fileTimeItem_four X hd] at hc; cases hc
    · rintro ⟨⟩
      rename_i hb
      rcases hb with rfl | rfl <;> rfl
  | expireItem p name f => exact (exp h).trans ⟨.expireItem, by rintro ⟨⟩; assumption⟩
  | sigExpireItem p f => exact (exp h).trans ⟨.sigExpireItem, by rintro ⟨⟩; assumption⟩
  | keyExpireItem p f => exact (exp h).trans ⟨.keyExpireItem, by rintro ⟨⟩; assumption⟩
  | number p => exact ⟨nofun, nofun⟩
  | isOld p => exact ⟨nofun, nofun⟩
  | isCurrent p => exact ⟨nofun, nofun⟩
  | isDraft p => exact ⟨nofun, nofun⟩
  | isUnknown p => exact ⟨nofun, nofun⟩
  | versionItem p f => exact ⟨nofun, nofun⟩
  | versionString p =>
    cases p with
    | none => exact ⟨fun _ => .versionString, fun _ => rfl⟩
    | some v => exact ⟨nofun, nofun⟩
  | rawdata p => exact ⟨nofun, nofun⟩
  | mpiItem p name f =>
    cases p with
    | none => exact ⟨nofun, nofun⟩
    | some m => simp only [VCall.run, dumpOf_some]; exact ⟨nofun, nofun⟩
  | textItem p f => cases p <;> exact ⟨nofun, nofun⟩
  | dumpString p =>
    constructor
    · intro hc
      rcases p with _ | ⟨_ | r, _ | _⟩
      · exact .dumpString (.inl rfl)
      · cases hc
      · exact .dumpString (.inr rfl)
      · cases hc
      · simp only [VCall.run, dumpString_some] at hc; cases hc
    · rintro ⟨⟩
      rename_i hb
      rcases hb with rfl | rfl <;> rfl
  | rawDataItem r name f =>
    cases r with
    | none => exact ⟨fun _ => .rawDataItem, fun _ => rfl⟩
    | some r => simp only [VCall.run, dumpString_some]; exact ⟨nofun, nofun⟩
  | tagItem t r f =>
    cases r with
    | none => exact ⟨fun _ => .tagItem, fun _ => rfl⟩
    | some r => simp only [VCall.run, lenItem, dumpString_some]; exact ⟨nofun, nofun⟩
  | subItem t r f =>
    cases r with
    | none => exact ⟨fun _ => .subItem, fun _ => rfl⟩
    | some r => simp only [VCall.run, lenItem, dumpString_some]; exact ⟨nofun, nofun⟩
  | newKeyID b =>
    simp only [VCall.run]
    constructor
    · intro hc
      split at hc
      · exact .newKeyID (by assumption)
      · cases hc
    · rintro ⟨⟩
      rename_i hb
      rw [if_pos hb]

/-- C95: what nil pointers give. A nil text is an item without a name, a nil version is unknown but has no item, and every other item
is nil. -/
theorem C95_nil (X : Ext) (name : Str) (f : Bool) :
    VCall.run X (.unixTime none) = .num 0 ∧ VCall.run X (.isZero none) = .flag true ∧ VCall.run X (.rfc3339 none) = .text [] ∧
    VCall.run X (.dateItem none name f) = .item none ∧ VCall.run X (.pubKeyTimeItem none f) = .item none ∧
    VCall.run X (.sigTimeItem none f) = .item none ∧ VCall.run X (.expireItem none name f) = .item none ∧
    VCall.run X (.sigExpireItem none f) = .item none ∧ VCall.run X (.keyExpireItem none f) = .item none ∧
    VCall.run X (.number none) = .num 0 ∧ VCall.run X (.isOld none) = .flag false ∧ VCall.run X (.isCurrent none) = .flag false ∧
    VCall.run X (.isDraft none) = .flag false ∧ VCall.run X (.isUnknown none) = .flag true ∧ VCall.run X (.versionItem none f) = .item none ∧
    VCall.run X (.rawdata none) = .bytes [] ∧ VCall.run X (.mpiItem none name f) = .item none ∧
    VCall.run X (.textItem none f) = .item (some (.mk [] [] [] "null".toList [])) :=
  ⟨rfl, rfl, rfl, rfl, rfl, rfl, rfl, rfl, rfl, rfl, rfl, rfl, rfl, rfl, rfl, rfl, rfl, rfl⟩

theorem beNat_four (a b c d : UInt8) : beNat [a, b, c, d] = a.toNat * 2 ^ 24 + b.toNat * 2 ^ 16 + c.toNat * 2 ^ 8 + d.toNat := by
  simp [beNat]; omega

/-- C95: a date made from a reader: the four next octets, big-endian; the reader moves behind them. Fewer octets are an error, and the
reader stays; a nil reader panics. -/
theorem C95_date (pre post : Bytes) (utc : Bool) (X : Ext) (hl : (pre ++ post).length < 2 ^ 62) :
    (∀ a b c d more, post = a :: b :: c :: d :: more →
      DatePtr.new (some ⟨pre ++ post, pre.length⟩) utc = (.val (some ⟨[a, b, c, d], utc⟩), some ⟨pre ++ post, pre.length + 4⟩) ∧
      VCall.run X (.unixTime (some ⟨[a, b, c, d], utc⟩)) = .num (a.toNat * 2 ^ 24 + b.toNat * 2 ^ 16 + c.toNat * 2 ^ 8 + d.toNat) ∧
      (VCall.run X (.isZero (some ⟨[a, b, c, d], utc⟩)) = .flag true ↔ a = 0 ∧ b = 0 ∧ c = 0 ∧ d = 0)) ∧
    (post.length < 4 → ∃ e, DatePtr.new (some ⟨pre ++ post, pre.length⟩) utc = (.fail e, some ⟨pre ++ post, pre.length⟩)) ∧
    DatePtr.new none utc = (.crash, none) := by
  refine ⟨?_, ?_, rfl⟩
  · rintro a b c d more rfl
    have hn : beNat [a, b, c, d] < 2 ^ 32 := by
      rw [beNat_four]
      have := a.toNat_lt; have := b.toNat_lt; have := c.toNat_lt; have := d.toNat_lt
      omega
    have hu : (⟨[a, b, c, d], utc⟩ : DateTime).unix.toNat = beNat [a, b, c, d] := by
      unfold DateTime.unix
      rw [UInt32.toNat_ofNat']
      exact Nat.mod_eq_of_lt hn
    refine ⟨?_, ?_, ?_⟩
    · have : (⟨pre ++ a :: b :: c :: d :: more, pre.length⟩ : Reader).readBytes64 4 =
          (.ok [a, b, c, d], ⟨pre ++ a :: b :: c :: d :: more, pre.length + 4⟩) := by
        have hw : wrap64 ((pre.length : Int) + 4) = (pre.length : Int) + 4 := wrap64_of_fits (by omega) (by simp at hl; omega)
        unfold readBytes64
        simp only [hw, Reader.size, List.length_append, List.length_cons]
        rw [if_neg (by decide), if_neg (by omega), if_neg (by omega), if_neg (by omega)]
        simp
      simp only [DatePtr.new, fourOctets, this]
    · simp only [VCall.run, unixTime_four (d := ⟨[a, b, c, d], utc⟩) rfl, hu, beNat_four]
    · simp only [VCall.run, DatePtr.isZero, unixTime_four (d := ⟨[a, b, c, d], utc⟩) rfl, Option.map_some]
      constructor
      · intro h
        have h0 : (⟨[a, b, c, d], utc⟩ : DateTime).unix = 0 := by simpa using h
        rw [h0] at hu
        rw [beNat_four] at hu
        have z : (0 : UInt32).toNat = 0 := rfl
        have e : ∀ x : UInt8, x.toNat = 0 → x = 0 := fun x hx => UInt8.toNat_inj.1 hx
        exact ⟨e a (by omega), e b (by omega), e c (by omega), e d (by omega)⟩
      · rintro ⟨rfl, rfl, rfl, rfl⟩; rfl
  · intro hp
    simp only [DatePtr.new, fourOctets]
    have hw : wrap64 ((pre.length : Int) + 4) = (pre.length : Int) + 4 := wrap64_of_fits (by omega) (by simp at hl; omega)
    by_cases h0 : post = []
    · subst h0
      have : (⟨pre ++ [], pre.length⟩ : Reader).readBytes64 4 = (.err (wrapErr .eof), ⟨pre ++ [], pre.length⟩) := by
        unfold readBytes64
        rw [if_neg (by decide), if_pos (by simp [Reader.size])]
      exact ⟨_, by rw [this]⟩
    · have : (⟨pre ++ post, pre.length⟩ : Reader).readBytes64 4 = (.err (wrapErr .unexpectedEOF), ⟨pre ++ post, pre.length⟩) := by
        have : 0 < post.length := List.length_pos_iff.2 h0
        unfold readBytes64
        simp only [hw, Reader.size, List.length_append]
        rw [if_neg (by decide), if_neg (by omega), if_pos (by omega)]
      exact ⟨_, by rw [this]⟩

/-- C95: for dates and expiration times that were made from a reader the items are those that `Parse` shows. -/
theorem C95_items (X : Ext) {p : DatePtr} (hp : p.Reached) (h0 : p ≠ none) (hz : p ≠ DatePtr.zero) (name : Str) (f : Bool) :
    ∃ d, p = some d ∧ VCall.run X (.dateItem p name f) = .item (some (dateTimeItem X d name f)) ∧
      VCall.run X (.fileTimeItem p f) = .item (some (fileTimeItem X d f)) ∧
      ∀ e : ExpireVal, ExpirePtr.Reached (some e) → e ≠ ⟨none, []⟩ → e.start = p →
        VCall.run X (.expireItem (some e) name f) = .item (some (expireItem X name e.day (some d) f)) := by
  rcases hp.cases with h | h | ⟨d, rfl, hd⟩
  · exact absurd h h0
  · exact absurd h hz
  · refine ⟨d, rfl, toItem_four X hd name f, fileTimeItem_four X hd f, ?_⟩
    intro e he hne hs
    rcases he.cases with h | h | ⟨e', h, h4, -⟩
    · cases h
    · exact absurd (Option.some.inj h) hne
    · cases h
      have := expire_four X h4 (.inr ⟨d, hs, hd⟩) name f
      rw [hs] at this
      exact this

/-- C95: a multi-precision integer made from a reader has the octets its length in bits asks for. -/
theorem C95_mpi {p : MPIPtr} (hp : p.Reached) : p = none ∨ ∃ m, p = some m ∧ m.bits < 65536 ∧ m.data.length = (m.bits + 7) / 8 := by
  cases hp with
  | nil => exact .inl rfl
  | zero => exact .inr ⟨_, rfl, by decide, rfl⟩
  | new hr h =>
    rename_i r r'
    unfold MPIPtr.new at h
    cases r with
    | none => cases h
    | some r =>
      simp only at h
      have hr := hr r rfl
      rcases h1 : r.readBytes64 2 with ⟨x, r1⟩
      rw [h1] at h
      cases x with
      | ok l =>
        simp only at h
        obtain ⟨hl, hs, -⟩ := readBytes64_length (n := 2) hr (by decide) h1
        have hb : beNat l < 65536 := by
          have := beNat_lt l
          rw [hl] at this
          exact this
        have e : ((beNat l : Int) + 7) / 8 = (((beNat l + 7) / 8 : Nat) : Int) := by omega
        rw [e] at h
        rcases h2 : r1.readBytes64 (((beNat l + 7) / 8 : Nat) : Int) with ⟨y, r2⟩
        rw [h2] at h
        cases y with
        | ok b =>
          cases h
          exact .inr ⟨_, rfl, hb, (readBytes64_length (by omega) (by omega) h2).1⟩
        | _ => cases h
      | _ => cases h

/-- C95: a version that is not nil is old below the current number, current at it, a draft at the number of the draft if there is one,
and unknown if it is above the current number and not a draft. -/
theorem C95_version (X : Ext) (v : Version) :
    (VCall.run X (.isOld (some v)) = .flag (decide (v.ver.toNat < v.cur.toNat))) ∧
    (VCall.run X (.isCurrent (some v)) = .flag (decide (v.ver.toNat = v.cur.toNat))) ∧
    (VCall.run X (.isDraft (some v)) = .flag (decide (v.draft.toNat ≠ 0 ∧ v.ver.toNat = v.draft.toNat))) ∧
    (VCall.run X (.isUnknown (some v)) = .flag (decide (v.cur.toNat < v.ver.toNat ∧ ¬ (v.draft.toNat ≠ 0 ∧ v.ver.toNat = v.draft.toNat)))) := by
  obtain ⟨a, b, c⟩ := v
  have e0 : ∀ x y : UInt8, (x == y) = decide (x.toNat = y.toNat) := by
    intro x y
    by_cases h : x = y
    · simp [h]
    · have : x.toNat ≠ y.toNat := fun e => h (UInt8.toNat_inj.1 e)
      simp [h, this]
  have e1 : (Version.isOld ⟨a, b, c⟩) = decide (a.toNat < b.toNat) := rfl
  have e2 : (Version.isCurrent ⟨a, b, c⟩) = decide (a.toNat = b.toNat) := e0 a b
  have e3 : (Version.isDraft ⟨a, b, c⟩) = decide (c.toNat ≠ 0 ∧ a.toNat = c.toNat) := by
    unfold Version.isDraft
    simp only [bne, e0]
    have : (0 : UInt8).toNat = 0 := rfl
    rw [this]
    by_cases h : c.toNat = 0 <;> by_cases h' : a.toNat = c.toNat <;> simp [h, h']
  refine ⟨?_, ?_, ?_, ?_⟩
  · simp only [VCall.run, VersionPtr.isOld, Option.any_some, e1]
  · simp only [VCall.run, VersionPtr.isCurrent, Option.any_some, e2]
  · simp only [VCall.run, VersionPtr.isDraft, Option.any_some, e3]
  · simp only [VCall.run, VersionPtr.isUnknown, VersionPtr.isOld, VersionPtr.isCurrent, VersionPtr.isDraft, Option.any_some, e1, e2, e3]
    congr 1
    by_cases h : c.toNat ≠ 0 ∧ a.toNat = c.toNat
    · simp [h]
    · rw [decide_eq_false h]
      have : (b.toNat < a.toNat ∧ ¬ (c.toNat ≠ 0 ∧ a.toNat = c.toNat)) ↔ ¬ a.toNat < b.toNat ∧ ¬ a.toNat = b.toNat := by
        constructor
        · rintro ⟨h1, -⟩; omega
        · intro h1; exact ⟨by omega, h⟩
      simp only [this]
      by_cases h1 : a.toNat < b.toNat <;> by_cases h2 : a.toNat = b.toNat <;> simp [h1, h2]

/-- C95: the name of a file: a nil reader or a length below one gives an empty name, which is shown as such. -/
theorem C95_fname (X : Ext) (r : Option Reader) (l : Int) (f : Bool) (h : r = none ∨ l < 1) :
    TextPtr.newFname r l = (.val (some ("File name".toList, [])), r) ∧
    VCall.run X (.textItem (some ("File name".toList, [])) f) = .item (some (.mk "File name".toList [] [] "0 byte".toList [])) := by
  refine ⟨?_, rfl⟩
  unfold TextPtr.newFname
  cases r with
  | none => rfl
  | some r =>
    rcases h with h | h
    · cases h
    · simp only [if_pos h]; rfl

/-- C95: the items of tags and subpackets show the length of the whole reader and the octets that were not yet read; so on a reader that
was not read from they are what `Parse` shows. Raw data show the number of the octets that were not yet read. A multi-precision integer
without a name has a default one. -/
theorem C95_readers (X : Ext) (pre post : Bytes) (t : Nat) (i : UInt8) (name : Str) (f : Bool) (text : Str)
    (ht : f = true ∧ Spec.RD.Dumped post text ∨ f = false ∧ text = []) :
    (VCall.run X (.tagItem t (some ⟨pre ++ post, pre.length⟩) f) =
      .item (some (.mk (tagStr t) [] text (dec (pre.length + post.length) ++ " bytes".toList) []))) ∧
    (VCall.run X (.subItem i (some ⟨pre ++ post, pre.length⟩) f) =
      .item (some (.mk (subStr i) [] text (dec (pre.length + post.length) ++ " bytes".toList) []))) ∧
    (VCall.run X (.rawDataItem (some ⟨pre ++ post, pre.length⟩) name f) =
      .item (some (.mk name [] text (dec post.length ++ " bytes".toList) []))) ∧
    VCall.run X (.tagItem t (some (Reader.new post)) f) = .item (some (tagItem t post f)) ∧
    VCall.run X (.subItem i (some (Reader.new post)) f) = .item (some (subItem i post f)) ∧
    (∀ m : MPIVal, name ≠ [] → VCall.run X (.mpiItem (some m) name f) = .item (some (mpiItem name m.bits m.data f))) ∧
    (∀ m : MPIVal, VCall.run X (.mpiItem (some m) [] f) = .item (some (mpiItem "Multi-precision integer".toList m.bits m.data f))) := by
  have hd : dumpRest ⟨pre ++ post, pre.length⟩ f = text := by
    rcases ht with ⟨rfl, ht⟩ | ⟨rfl, rfl⟩
    · rw [dumped_unique ht (dumped_hex post)]
      unfold dumpRest
      rw [if_pos rfl, dumpString]
      split
      · rename_i h
        have : post = [] := List.length_eq_zero_iff.1 (by simp only [Reader.size, List.length_append] at h; omega)
        subst this
        rfl
      · simp
    · rfl
  have hr : (⟨pre ++ post, pre.length⟩ : Reader).rest = (post.length : Int) := by
    unfold Reader.rest
    simp only [Reader.size, List.length_append]
    omega
  have hs : (⟨pre ++ post, pre.length⟩ : Reader).size = pre.length + post.length := List.length_append
  refine ⟨?_, ?_, ?_, ?_, ?_, ?_, ?_⟩
  · simp only [VCall.run, lenItem, dumpString_some, hd, hs]; rfl
  · simp only [VCall.run, lenItem, dumpString_some, hd, hs]; rfl
  · simp only [VCall.run, dumpString_some, hd, hr]; rfl
  · simp only [VCall.run, lenItem, dumpString_some]; rfl
  · simp only [VCall.run, lenItem, dumpString_some]; rfl
  · intro m hn
    simp only [VCall.run, dumpOf_some]
    rw [if_neg (by simpa using hn)]; rfl
  · intro m
    simp only [VCall.run, dumpOf_some]
    rfl

/-- C95: the other methods. Number and String of a version are its number, its item is that of `Parse`; the items with a fixed name are
those with that name; `Rawdata` are the octets; a key ID is the first eight octets, big-endian; a text shows as `Parse` shows it. -/
theorem C95_others (X : Ext) (v : Version) (m : MPIVal) (p : DatePtr) (e : ExpirePtr) (d : DateTime) (hd : d.tm.length = 4) (name : Str)
    (body more : Bytes) (h8 : body.length = 8) (f : Bool) :
    VCall.run X (.number (some v)) = .num v.ver.toNat ∧
    VCall.run X (.versionString (some v)) = .text (toString v.ver.toNat).toList ∧
    VCall.run X (.versionItem (some v) f) = .item (some (v.item f)) ∧
    VCall.run X (.pubKeyTimeItem p f) = VCall.run X (.dateItem p "Public key creation time".toList f) ∧
    VCall.run X (.sigTimeItem p f) = VCall.run X (.dateItem p "Signature creation time".toList f) ∧
    VCall.run X (.sigExpireItem e f) = VCall.run X (.expireItem e "Signature Expiration Time".toList f) ∧
    VCall.run X (.keyExpireItem e f) = VCall.run X (.expireItem e "Key Expiration Time".toList f) ∧
    VCall.run X (.rfc3339 (some d)) = .text (rfc3339 X (UInt32.ofNat (beNat d.tm)) d.utc) ∧
    VCall.run X (.rawdata (some m)) = .bytes m.data ∧
    VCall.run X (.newKeyID (body ++ more)) = .num (beNat body) ∧
    VCall.run X (.textItem (some (name, body)) f) = .item (some (textItem name body f)) := by
  refine ⟨rfl, ?_, rfl, rfl, rfl, rfl, rfl, ?_, rfl, ?_, rfl⟩
  · simp only [VCall.run, (C71_decimal v.ver.toNat 0).1]
  · simp only [VCall.run, DatePtr.rfc3339, unixTime_four hd, Option.map_some]; rfl
  · simp only [VCall.run, List.length_append]
    rw [if_neg (by omega), List.take_append_of_le_length (by omega), List.take_of_length_le (by omega)]

/-- C95: what a constructor makes of a reader that fits into memory has the octets that come next, and keeps what it was given. -/
theorem C95_made {r : Reader} (hr : r.size < 2 ^ 62) :
    (∀ utc p r', DatePtr.new (some r) utc = (.val p, r') → ∃ tm post, p = some ⟨tm, utc⟩ ∧ tm.length = 4 ∧ r.remaining = tm ++ post) ∧
    (∀ start p r', ExpirePtr.new (some r) start = (.val p, r') → ∃ tm post, p = some ⟨start, tm⟩ ∧ tm.length = 4 ∧ r.remaining = tm ++ post) ∧
    (∀ l p r', 0 < l → l < 2 ^ 62 → TextPtr.newFname (some r) l = (.val p, r') →
      ∃ b post, p = some ("File name".toList, b) ∧ (b.length : Int) = l ∧ r.remaining = b ++ post) := by
  refine ⟨?_, ?_, ?_⟩
  · intro utc p r' h
    simp only [DatePtr.new, fourOctets] at h
    rcases hb : r.readBytes64 4 with ⟨x, y⟩
    rw [hb] at h
    cases x with
    | ok b =>
      cases h
      obtain ⟨h1, -, post, h2⟩ := readBytes64_length (n := 4) hr (by decide) hb
      exact ⟨b, post, rfl, h1, h2⟩
    | _ => cases h
  · intro start p r' h
    simp only [ExpirePtr.new, fourOctets] at h
    rcases hb : r.readBytes64 4 with ⟨x, y⟩
    rw [hb] at h
    cases x with
    | ok b =>
      cases h
      obtain ⟨h1, -, post, h2⟩ := readBytes64_length (n := 4) hr (by decide) hb
      exact ⟨b, post, rfl, h1, h2⟩
    | _ => cases h
  · intro l p r' hl hl' h
    simp only [TextPtr.newFname] at h
    rw [if_neg (by omega)] at h
    obtain ⟨n, rfl⟩ : ∃ n : Nat, l = n := ⟨l.toNat, by omega⟩
    rcases hb : r.readBytes64 (n : Int) with ⟨x, y⟩
    rw [hb] at h
    cases x with
    | ok b =>
      cases h
      obtain ⟨h1, -, post, h2⟩ := readBytes64_length hr (by omega) hb
      exact ⟨b, post, rfl, by omega, h2⟩
    | _ => cases h

/-! ## Examples -/

/-- the values of `C95_items`: a date, and an expiration time from it -/
example : ∃ (d : DatePtr) (e : ExpirePtr), d.Reached ∧ d ≠ none ∧ d ≠ DatePtr.zero ∧ e.Reached ∧ e = some ⟨d, [0, 1, 81, 128]⟩ := by
  have hf : Fits (some (Reader.new [95, 0, 0, 0, 0, 1, 81, 128])) := by rintro x ⟨⟩; decide
  have h1 : DatePtr.new (some (Reader.new [95, 0, 0, 0, 0, 1, 81, 128])) true = (.val (some ⟨[95, 0, 0, 0], true⟩), some ⟨[95, 0, 0, 0, 0, 1, 81, 128], 4⟩) := rfl
  have hd : DatePtr.Reached (some ⟨[95, 0, 0, 0], true⟩) := .new hf h1
  refine ⟨_, _, hd, nofun, by decide, .new hd (r := some ⟨[95, 0, 0, 0, 0, 1, 81, 128], 4⟩) (by rintro x ⟨⟩; decide) rfl, rfl⟩

/-- an expiration time that starts from a zero value can be had, and panics when it is shown -/
example (X : Ext) : ∃ e : ExpirePtr, e.Reached ∧ VCall.run X (.sigExpireItem e false) = .crash := by
  refine ⟨_, .new (start := DatePtr.zero) .zero (r := some (Reader.new [0, 0, 0, 1])) (by rintro x ⟨⟩; decide) rfl, rfl⟩

/-- a reader of three octets of which one was read, shown as raw data -/
example (X : Ext) (text : Str) (h : VCall.run X (.rawDataItem (some ⟨[1, 2, 255], 1⟩) "x".toList true) = .item (some (.mk "x".toList [] text "2 bytes".toList []))) :
    text = "02 ff".toList := by
  have := (C95_readers X [1] [2, 255] 0 0 "x".toList true _ (.inl ⟨rfl, dumped_hex _⟩)).2.2.1
  rw [show ([1] ++ [2, 255] : Bytes) = [1, 2, 255] from rfl, show [(1 : UInt8)].length = 1 from rfl, h] at this
  cases this
  decide

/-- the octets of `C95_made` and `C95_others` -/
example (X : Ext) : TextPtr.newFname (some ⟨[1, 0x41, 0x42, 0x43], 1⟩) 2 = (.val (some ("File name".toList, [0x41, 0x42])), some ⟨[1, 0x41, 0x42, 0x43], 3⟩) ∧
    VCall.run X (.newKeyID [0, 0, 0, 0, 0, 0, 1, 2, 3]) = .num 258 := ⟨rfl, rfl⟩

end Gpgpdump
