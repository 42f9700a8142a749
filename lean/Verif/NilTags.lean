import Verif.Nil

/-!
# Which subpackets and packets need a context: one level

`R`, `N` below say which packets the recursive calls accept and which need a context.
-/

namespace Gpgpdump
open P Spec Cmp

variable (X : Ext)

/-! ## Agreement with a context without options -/

namespace Agree

theorem forPackets {recur : TagParser} (h : ∀ t b, Agree (recur t b)) (f : Nat) (src : Src) : Agree (forPackets X recur f src) := by
  induction f generalizing src with
  | zero => exact .stuck
  | succ f ih =>
    unfold Gpgpdump.forPackets
    split
    · split
      · exact .pure _
      · exact .fail _
    · exact .bind (h _ _) fun i => .bind (.add i) fun _ => ih _

theorem subLoop {p : UInt8 → Bytes → P Item} (h : ∀ t b, Agree (p t b)) (l) : Agree (subLoop p l) := by
  induction l with
  | nil => exact .pure _
  | cons s l ih => exact .bind (h _ _) fun _ => .bind (.add _) fun _ => ih

theorem addSubpackets {p : UInt8 → Bytes → P Item} (h : ∀ t b, Agree (p t b)) (name area) : Agree (addSubpackets p name area) := by
  unfold Gpgpdump.addSubpackets
  refine .bind (.flag .debug) fun d => ?_
  split
  · exact .fail _
  · exact .bind (.build _ (subLoop h _)) fun _ => .add _

theorem sub32 {recur : TagParser} (h : ∀ t b, Agree (recur t b)) : Agree (sub32 recur) := by
  unfold Gpgpdump.sub32
  exact .bind (.bind .reader fun _ => .pure _) fun b => .bind (h 2 b) fun i => .bind (.add i) fun _ => .getCur

theorem sub38 {recur : TagParser} (h : ∀ t b, Agree (recur t b)) : Agree (sub38 X recur) := by
  unfold Gpgpdump.sub38
  refine .bind .readByte fun v => .bind (.add _) fun _ => .bind .reader fun r => .bind (.flag .debug) fun d => ?_
  dsimp only
  split
  · exact .bind (.build _ (forPackets X h _ _)) fun _ => .bind (.add _) fun _ => .getCur
  · exact .bind (.add _) fun _ => .getCur

theorem parseSub02 {recur : TagParser} (h : ∀ t b, Agree (recur t b)) (t b) : Agree (parseSub02 X recur t b) := by
  by_cases h32 : t.toNat % 128 = 32
  · unfold Gpgpdump.parseSub02 subScope
    refine .bind (.flag .debug) fun d => ?_
    rw [and_7f, h32]
    exact .scope _ _ (sub32 h)
  by_cases h38 : t.toNat % 128 = 38
  · unfold Gpgpdump.parseSub02 subScope
    refine .bind (.flag .debug) fun d => ?_
    rw [and_7f, h38]
    exact .scope _ _ (sub38 X h)
  · refine of_R (Q := (nilCmp false false).item) (fun a a' h => h.same rfl) ?_
    unfold Gpgpdump.parseSub02
    exact r_subScope X (by simp [nilCmp]) (by simp [nilCmp]) (r_sub02Body X (by simp [nilCmp]) (by simp [nilCmp]) (fun h => absurd h h32) fun h => absurd h h38)

theorem subArea {recur : TagParser} (h : ∀ t b, Agree (recur t b)) (name) : Agree (subArea X recur name) := by
  unfold Gpgpdump.subArea
  refine .bind (.readBytes 2) fun s => ?_
  dsimp only
  split
  · exact .bind (.readBytes _) fun _ => addSubpackets (parseSub02 X h) _ _
  · exact .pure _

theorem unknownData : Agree unknownData := of_R (fun _ _ h => h) r_unknownData

theorem tag02v4 {recur : TagParser} (h : ∀ t b, Agree (recur t b)) : Agree (tag02v4 X recur) := by
  unfold Gpgpdump.tag02v4
  refine .bind .readByte fun t => .bind (.flag .debug) fun _ => .bind (.add _) fun _ => .bind .readByte fun a => .bind (.flag .debug) fun _ => .bind (.add _) fun _ =>
    .bind .readByte fun hh => .bind (.flag .debug) fun _ => .bind (.add _) fun _ => .bind (subArea X h _) fun _ => .bind (subArea X h _) fun _ =>
      .bind (.readBytes 2) fun l => .bind (.add _) fun _ => of_R (fun _ _ h => h) (r_parseSig a)

theorem tag02 {recur : TagParser} (h : ∀ t b, Agree (recur t b)) : Agree (tag02 X recur) := by
  unfold Gpgpdump.tag02
  refine .bind .readByte fun v => .bind (.flag .debug) fun _ => .bind (.add _) fun _ => ?_
  split
  · exact .bind (tag02v4 X h) fun _ => unknownData
  · split
    · exact .bind (tag02v4 X h) fun _ => unknownData
    · split
      · refine of_R (Q := Eq) (fun _ _ h => h) ?_
        exact R.bindEq (R.failed (r_tag02v3 X (by simp [nilCmp]) (by simp [nilCmp]))) fun _ => R.ite (fun _ => R.pure rfl) fun _ => r_unknownData
      · exact unknownData

theorem tagParse {recur : TagParser} (h : ∀ t b, Agree (recur t b)) (tag : Nat) (b : Bytes) : Agree (tagParse X recur tag b) := by
  unfold Gpgpdump.tagParse
  by_cases h2 : tag = 2
  · subst h2
    exact .bind (.flag (.tagDump 2)) fun d => .scope _ _ (.bind (tag02 X h) fun _ => .getCur)
  · refine of_R (Q := (nilCmp false false).item) (fun a a' h => h.same rfl) ?_
    refine r_tagScope X (by simp [nilCmp]) (by simp [nilCmp]) (At.bindR X (by simp [nilCmp]) (by simp [nilCmp])
      (r_tagBody X (by simp [nilCmp]) (by simp [nilCmp]) tag b (.inl rfl) fun t b' hi => ?_) fun _ _ _ => Cmp.R.getCur)
    exfalso
    apply h2
    cases hi <;> rfl

theorem parseTagF (n tag b) : Agree (parseTagF X n tag b) := by
  induction n generalizing tag b with
  | zero => exact .stuck
  | succ n ih => exact tagParse X ih tag b

end Agree

/-! ## Where a context is needed -/

namespace Nils

theorem forPackets {recur : TagParser} {R N : Nat → Bytes → Prop} (hr : ∀ t b, Sub (recur t b) (R t b)) (ha : ∀ t b, Agree (recur t b))
    (hn : ∀ t b, Nils (recur t b) (fun _ _ => N t b)) (f : Nat) (src : Src) :
    Nils (forPackets X recur f src) (fun _ _ => PanLoop X R (fun _ => N) .nilCtx f src) := by
  induction f generalizing src with
  | zero => exact (deaf .stuck).congr fun _ _ => by simp [PanLoop]
  | succ f ih =>
    unfold Gpgpdump.forPackets PanLoop
    rcases hnp : nextPacket X src with ⟨r, src'⟩
    cases r with
    | error e =>
      simp only
      by_cases he : e.isEOF = true
      · rw [if_pos he]; exact deaf (.pure ())
      · rw [if_neg he]; exact deaf (.fail _)
    | ok tb =>
      obtain ⟨tag, body⟩ := tb
      simp only
      exact sub (hn tag body) (ha tag body) (hr tag body) fun i => add fun _ => ih src'

theorem subLoop {p : UInt8 → Bytes → P Item} {A N : UInt8 → Bytes → Prop} (l : List (UInt8 × Bytes)) (h : ∀ t b, Sub (p t b) (A t b))
    (ha : ∀ t b, Agree (p t b)) (hn : ∀ t b, Nils (p t b) (fun _ _ => N t b)) : Nils (subLoop p l) (fun _ _ => PanList A (fun _ => N) .nilCtx l) := by
  induction l with
  | nil => exact (deaf (.pure ())).congr fun _ _ => by simp [PanList]
  | cons s l ih =>
    obtain ⟨t, b⟩ := s
    exact (sub (hn t b) (ha t b) (h t b) fun i => add fun _ => ih).congr fun _ _ => (panList_cons (B := fun _ => N) (site := .nilCtx) (s := (t, b))).symm

theorem addSubpackets {p : UInt8 → Bytes → P Item} {A N : UInt8 → Bytes → Prop} (name : Str) (area : Bytes) (h : ∀ t b, Sub (p t b) (A t b))
    (ha : ∀ t b, Agree (p t b)) (hn : ∀ t b, Nils (p t b) (fun _ _ => N t b)) :
    Nils (addSubpackets p name area) (fun _ _ => ∃ subs, SubSeq subs area ∧ PanList A (fun _ => N) .nilCtx subs) := by
  unfold Gpgpdump.addSubpackets
  refine flag fun d => ?_
  cases ho : opaqueSubpackets area with
  | error e =>
    refine (deaf (.fail _)).congr fun _ _ => ?_
    simp only [false_iff]
    rintro ⟨subs, hs, -⟩; rw [opaqueSubpackets_ok.mpr hs] at ho; cases ho
  | ok l =>
    simp only
    refine Nils.congr (first (build _ (subLoop l h ha hn)) (.build _ (.subLoop ha l)) fun i => .add i) fun _ _ => ?_
    constructor
    · intro h; exact ⟨l, opaqueSubpackets_ok.mp ho, h⟩
    · rintro ⟨subs, hs, h⟩
      rw [opaqueSubpackets_ok.mpr hs] at ho
      cases ho
      exact h

theorem sub38 {recur : TagParser} {R N : Nat → Bytes → Prop} (hr : ∀ t b, Sub (recur t b) (R t b)) (ha : ∀ t b, Agree (recur t b))
    (hn : ∀ t b, Nils (recur t b) (fun _ _ => N t b)) : Nils (sub38 X recur) (fun _ q => ∃ d, q = 0 :: d ∧ Pans.PanBlock X R (fun _ => N) .nilCtx d) := by
  unfold Gpgpdump.sub38
  refine (byte (B := fun k _ q => k = 0 ∧ Pans.PanBlock X R (fun _ => N) .nilCtx q) fun k => add fun _ => ?_).congr fun p q => ?_
  · refine (reader (B := fun r _ _ => k = 0 ∧ PanLoop X R (fun _ => N) .nilCtx ((Src.ofReader r).data.length + 1) (Src.ofReader r)) fun r => ?_).congr fun p q => by
      rw [ofReader_at]; rfl
    refine flag fun d => ?_
    dsimp only
    by_cases hk : k = 0
    · rw [if_pos hk]
      refine (first (build _ (forPackets X hr ha hn _ _)) (.build _ (.forPackets X ha _ _)) fun i => .bind (.add i) fun _ => .getCur).congr fun p q => ?_
      exact ⟨fun h => ⟨hk, h⟩, fun h => h.2⟩
    · rw [if_neg hk]
      exact (deaf (.bind (.add _) fun _ => .getCur)).congr fun _ _ => by simp [hk]
  · constructor
    · rintro ⟨k, r, rfl, rfl, h⟩; exact ⟨r, rfl, h⟩
    · rintro ⟨d, rfl, h⟩; exact ⟨0, d, rfl, rfl, h⟩

theorem sub32 {recur : TagParser} {N : Nat → Bytes → Prop} (ha : ∀ t b, Agree (recur t b))
    (hn : ∀ t b, Nils (recur t b) (fun _ _ => N t b)) : Nils (sub32 recur) (fun p q => N 2 (p ++ q)) := by
  unfold Gpgpdump.sub32
  exact getBody (B := fun b _ _ => N 2 b) fun b => first (hn 2 b) (ha 2 b) fun i => .bind (.add _) fun _ => .getCur

/-- the creation time is read before the context is needed -/
theorem time {β} {u : Bool} {g : DateTime → P β} (h : ∀ t, Nils (g t) (fun _ _ => True)) : Nils (newDateTime u >>= g) (fun _ q => 4 ≤ q.length) := by
  unfold newDateTime
  rw [bind_assoc_P]
  refine (bytes 4 (B := fun _ _ _ => True) fun b => ?_).congr fun p q => ?_
  · exact h _
  · constructor
    · rintro ⟨b, r, rfl, h, -⟩; simp; omega
    · intro h; exact ⟨q.take 4, q.drop 4, by simp, by simp; omega, trivial⟩

theorem setKeyTime {β} {t} {g : Unit → P β} : Nils (P.setKeyTime t >>= g) (fun _ _ => True) := now fun s h => by simp [P.setKeyTime, h]
theorem setSigTime {β} {t} {g : Unit → P β} : Nils (P.setSigTime t >>= g) (fun _ _ => True) := now fun s h => by simp [P.setSigTime, h]
theorem setMode {β} {t} {g : Unit → P β} : Nils (P.setMode t >>= g) (fun _ _ => True) := now fun s h => by simp [P.setMode, h]
theorem getKeyTime {β} {g : Option DateTime → P β} : Nils (P.getKeyTime >>= g) (fun _ _ => True) := now fun s h => by simp [P.getKeyTime, P.getCtx, h]
theorem getSigTime {β} {g : Option DateTime → P β} : Nils (P.getSigTime >>= g) (fun _ _ => True) := now fun s h => by simp [P.getSigTime, P.getCtx, h]
theorem getMode {β} {g : Mode → P β} : Nils (P.getMode >>= g) (fun _ _ => True) := now fun s h => by simp [P.getMode, P.getCtx, h]

theorem sub02 : Nils (sub02 X) (fun _ q => 4 ≤ q.length) := by
  unfold Gpgpdump.sub02
  exact getCur fun _ => flag fun _ => time fun t => flag fun _ => setSigTime
theorem sub03 : Nils (sub03 X) (fun _ _ => True) := by
  unfold Gpgpdump.sub03
  exact getCur fun _ => getSigTime
theorem sub09 : Nils (sub09 X) (fun _ _ => True) := by
  unfold Gpgpdump.sub09
  exact getCur fun _ => getKeyTime

/-- one level of the subpackets that need a context -/
def SubNil (R N : Nat → Bytes → Prop) (t : UInt8) (b : Bytes) : Prop :=
  (t.toNat % 128 = 2 ∧ 4 ≤ b.length) ∨ t.toNat % 128 ∈ [3, 9] ∨ (t.toNat % 128 = 32 ∧ N 2 b) ∨
    (t.toNat % 128 = 38 ∧ ∃ d, b = 0 :: d ∧ Pans.PanBlock X R (fun _ => N) .nilCtx d)

theorem parseSub02 {recur : TagParser} {R N : Nat → Bytes → Prop} (hr : ∀ t b, Sub (recur t b) (R t b)) (ha : ∀ t b, Agree (recur t b))
    (hn : ∀ t b, Nils (recur t b) (fun _ _ => N t b)) (t : UInt8) (b : Bytes) :
    Nils (parseSub02 X recur t b) (fun _ _ => SubNil X R N t b) := by
  unfold SubNil Gpgpdump.parseSub02 subScope
  refine flag fun d => ?_
  rw [and_7f]
  by_cases h2 : t.toNat % 128 = 2
  · rw [h2]; exact (scope b _ (sub02 X)).congr fun _ _ => by simp
  by_cases h3 : t.toNat % 128 = 3
  · rw [h3]; exact (scope b _ (sub03 X)).congr fun _ _ => by simp
  by_cases h9 : t.toNat % 128 = 9
  · rw [h9]; exact (scope b _ (sub09 X)).congr fun _ _ => by simp
  by_cases h32 : t.toNat % 128 = 32
  · rw [h32]; exact (scope b _ (sub32 ha hn)).congr fun _ _ => by simp
  by_cases h38 : t.toNat % 128 = 38
  · rw [h38]; exact (scope b _ (sub38 X hr ha hn)).congr fun _ _ => by simp
  · exact (deaf (.scope _ _ (.sub02Body X recur (by simp [h2, h3, h9, h32, h38])))).congr fun _ _ => by simp [h2, h3, h9, h32, h38]

theorem subArea {recur : TagParser} {A N : UInt8 → Bytes → Prop} (h : ∀ t b, Sub (Gpgpdump.parseSub02 X recur t b) (A t b))
    (ha : ∀ t b, Agree (Gpgpdump.parseSub02 X recur t b)) (hn : ∀ t b, Nils (Gpgpdump.parseSub02 X recur t b) (fun _ _ => N t b)) (name : Str) :
    Nils (subArea X recur name) (fun _ q => Pans.AreaPan A (fun _ => N) .nilCtx q) := by
  unfold Gpgpdump.subArea
  refine (bytes 2 (B := fun s _ q => ∃ area subs rest, area.length = beNat s ∧ SubSeq subs area ∧ PanList A (fun _ => N) .nilCtx subs ∧ q = area ++ rest) fun s => ?_).congr
    fun p q => ?_
  · dsimp only
    by_cases hs : beNat s > 0
    · rw [if_pos hs]
      refine (bytes _ fun sp => addSubpackets name sp h ha hn).congr fun p q => ?_
      constructor
      · rintro ⟨b, r, rfl, hl, subs, h1, h2⟩; exact ⟨b, subs, r, hl, h1, h2, rfl⟩
      · rintro ⟨b, subs, r, hl, h1, h2, rfl⟩; exact ⟨b, r, rfl, hl, subs, h1, h2⟩
    · rw [if_neg hs]
      refine (deaf (.pure ())).congr fun p q => ?_
      simp only [false_iff]
      rintro ⟨b, subs, r, hl, h1, ⟨s1, p, s2, rfl, -⟩, rfl⟩
      have : b = [] := List.length_eq_zero_iff.mp (by omega)
      subst this
      have := h1.mem_length p (by simp)
      simp at this
  · constructor
    · rintro ⟨b, r, rfl, h2, area, subs, rest, hl, hs, ha, rfl⟩
      obtain ⟨a1, a2⟩ := beOctets2_eq h2 hl
      exact ⟨area, subs, rest, a1, hs, ha, by rw [← a2]⟩
    · rintro ⟨area, subs, rest, hl, hs, ha, rfl⟩
      exact ⟨_, _, rfl, beOctets_length _ _, area, subs, rest, (natOctets2 hl).symm, hs, ha, rfl⟩

theorem tag02 {recur : TagParser} {R N : Nat → Bytes → Prop} (hr : ∀ t b, Sub (recur t b) (R t b)) (ha : ∀ t b, Agree (recur t b))
    (hn : ∀ t b, Nils (recur t b) (fun _ _ => N t b)) :
    Nils (tag02 X recur) (fun _ q => Pans.SigPan (SubOK X R) (fun _ => SubNil X R N) .nilCtx q) := by
  have h := Sub.parseSub02 X hr
  have hsub := parseSub02 X hr ha hn
  have hag := Agree.parseSub02 X ha
  have hv4 : Nils (tag02v4 X recur) (fun _ q => ∃ t a h r, q = t :: a :: h :: r ∧ (Pans.AreaPan (SubOK X R) (fun _ => SubNil X R N) .nilCtx r ∨
      ∃ f r', r = f ++ r' ∧ AreaOK (SubOK X R) f ∧ Pans.AreaPan (SubOK X R) (fun _ => SubNil X R N) .nilCtx r')) := by
    unfold Gpgpdump.tag02v4
    refine (byte fun t => flag fun _ => add fun _ => byte fun a => flag fun _ => add fun _ =>
      byte fun hh => flag fun _ => add fun _ => bind (subArea X h hag hsub _) (.subArea X ha _) (Lang.subArea X h _) fun _ =>
        first (subArea X h hag hsub _) (.subArea X ha _) fun _ => .bind (.readBytes _) fun _ => .bind (.add _) fun _ => .parseSig a).congr fun p q => ?_
    constructor
    · rintro ⟨t, _, rfl, a, _, rfl, hh, r, rfl, h | ⟨_, f, r', rfl, h1, h2⟩⟩
      · exact ⟨t, a, hh, r, rfl, .inl h⟩
      · exact ⟨t, a, hh, _, rfl, .inr ⟨f, r', rfl, h1, h2⟩⟩
    · rintro ⟨t, a, hh, r, rfl, h | ⟨f, r', rfl, h1, h2⟩⟩
      · exact ⟨t, _, rfl, a, _, rfl, hh, r, rfl, .inl h⟩
      · exact ⟨t, _, rfl, a, _, rfl, hh, _, rfl, .inr ⟨(), f, r', rfl, h1, h2⟩⟩
  unfold Gpgpdump.tag02 Pans.SigPan
  have hv4 := first hv4 (.tag02v4 X ha) fun _ => Deaf.unknownData
  refine (byte (B := fun v _ q => v ∈ [4, 5] ∧ ∃ t a h r, q = t :: a :: h :: r ∧ (Pans.AreaPan (SubOK X R) (fun _ => SubNil X R N) .nilCtx r ∨
      ∃ f r', r = f ++ r' ∧ AreaOK (SubOK X R) f ∧ Pans.AreaPan (SubOK X R) (fun _ => SubNil X R N) .nilCtx r'))
    fun v => flag fun _ => add fun _ => ?_).congr fun p q => ?_
  · rcases sigVer_cases v with ⟨rfl, h1⟩ | ⟨rfl, h1, h2⟩ | ⟨rfl, h1, h2, h3⟩ | ⟨hv, h1, h2, h3⟩
    · rw [if_pos h1]; exact hv4.congr fun p q => by simp
    · rw [if_neg (by simp [h1]), if_pos h2]; exact hv4.congr fun p q => by simp
    · rw [if_neg (by simp [h1]), if_neg (by simp [h2]), if_pos (by simp [h3])]
      refine (deaf (.bind (.failed (.tag02v3 X)) fun e => ?_)).congr fun p q => by simp
      split
      · exact .pure _
      · exact .unknownData
    · rw [if_neg (by simp [h1]), if_neg (by simp [h2]), if_neg (by simp [h3])]
      refine (deaf .unknownData).congr fun p q => ?_
      simp only [false_iff]
      rintro ⟨h, -⟩
      exact hv ((by decide : ∀ x ∈ ([4, 5] : List UInt8), x ∈ ([3, 4, 5] : List UInt8)) _ h)
  · constructor
    · rintro ⟨v, _, rfl, hv, t, a, h, r, rfl, h1⟩; exact ⟨v, t, a, h, r, rfl, hv, h1⟩
    · rintro ⟨v, t, a, h, r, rfl, hv, h1⟩; exact ⟨v, _, rfl, hv, t, a, h, r, rfl, h1⟩

theorem pubkeyParse (v : UInt8) : Nils (pubkeyParse X (pubVer v)) (fun _ q => v ∈ [3, 4, 5] ∧ 4 ≤ q.length) := by
  have ht : ∀ {β} (g : Unit → P β), Nils (pubkeyTime X >>= g) (fun _ q => 4 ≤ q.length) := by
    intro β g
    unfold pubkeyTime
    simp only [bind_assoc_P]
    exact flag fun _ => time fun t => setKeyTime
  unfold Gpgpdump.pubkeyParse
  rcases Lang.ver_cases v with ⟨rfl, h1⟩ | ⟨rfl, h1, h2⟩ | ⟨rfl, h1, h2, h3⟩ | ⟨hv, h1, h2, h3⟩
  · rw [if_pos h1]; exact (ht _).congr fun _ _ => by simp
  · rw [if_neg (by simp [h1]), if_pos h2]; exact (ht _).congr fun _ _ => by simp
  · rw [if_neg (by simp [h1]), if_neg (by simp [h2]), if_pos (by simp [h3])]; exact (ht _).congr fun _ _ => by simp
  · rw [if_neg (by simp [h1]), if_neg (by simp [h2]), if_neg (by simp [h3])]
    exact (deaf (.pure _)).congr fun _ _ => by simp only [false_iff]; exact fun h => hv h.1

theorem agree_pubkeyParse (v) : Agree (Gpgpdump.pubkeyParse X v) := .of_R (fun _ _ h => h) (r_pubkeyParse X (by simp [nilCmp]) (by simp [nilCmp]) v)

/-- a key that needs a context -/
def KeyNil (q : Bytes) : Prop := ∃ v r, q = v :: r ∧ v ∈ [3, 4, 5] ∧ 4 ≤ r.length

theorem tag05 : Nils (tag05 X) (fun _ q => KeyNil q) := by
  unfold Gpgpdump.tag05
  refine byte fun v => flag fun _ => add fun _ => first (nested _ (pubkeyParse X v)) ?_ fun a => .bind (.nested _ (.seckeyParse _ _)) fun _ => .unknownData
  exact .of_R (fun _ _ h => h) (R.nested (item_refl (by simp [nilCmp])) (r_pubkeyParse X (by simp [nilCmp]) (by simp [nilCmp]) _))

theorem tag06 : Nils (tag06 X) (fun _ q => KeyNil q) := by
  unfold Gpgpdump.tag06
  exact byte fun v => flag fun _ => add fun _ => first (pubkeyParse X v) (agree_pubkeyParse X _) fun a => .unknownData

/-- one level of the packets that need a context -/
def TagNil (R N : Nat → Bytes → Prop) (tag : Nat) (b : Bytes) : Prop :=
  if tag = 2 then Pans.SigPan (SubOK X R) (fun _ => SubNil X R N) .nilCtx b else if tag ∈ [5, 6, 7, 14] then KeyNil b else tag ∈ [1, 3, 9, 18]

theorem tagBody {recur : TagParser} {R N : Nat → Bytes → Prop} (hr : ∀ t b, Sub (recur t b) (R t b)) (ha : ∀ t b, Agree (recur t b))
    (hn : ∀ t b, Nils (recur t b) (fun _ _ => N t b)) (tag : Nat) : Nils (tagBody X recur tag) (fun _ q => TagNil X R N tag q) := by
  unfold Gpgpdump.tagBody
  split
  · unfold Gpgpdump.tag01; exact setMode.congr fun _ _ => by simp [TagNil]
  · exact tag02 X hr ha hn
  · unfold Gpgpdump.tag03; exact setMode.congr fun _ _ => by simp [TagNil]
  · exact (deaf .tag04).congr fun _ _ => by simp [TagNil]
  · exact tag05 X
  · exact tag06 X
  · exact tag05 X
  · exact (deaf (.bind (.tag08 X) fun _ => .pure _)).congr fun _ _ => by simp [TagNil]
  · unfold Gpgpdump.tag09
    exact (reader fun _ => flag fun _ => getMode).congr fun _ _ => by simp [TagNil]
  · exact (deaf .tag10).congr fun _ _ => by simp [TagNil]
  · exact (deaf (.tag11 X)).congr fun _ _ => by simp [TagNil]
  · exact (deaf .tag12).congr fun _ _ => by simp [TagNil]
  · exact (deaf .tag13).congr fun _ _ => by simp [TagNil]
  · exact tag06 X
  · exact (deaf .tag17).congr fun _ _ => by simp [TagNil]
  · unfold Gpgpdump.tag18
    exact (reader fun _ => flag fun _ => getMode).congr fun _ _ => by simp [TagNil]
  · exact (deaf .tag19).congr fun _ _ => by simp [TagNil]
  · exact (deaf .tag20).congr fun _ _ => by simp [TagNil]
  · refine (deaf (.pure _)).congr fun _ _ => ?_
    unfold TagNil
    simp_all

theorem tagParse {recur : TagParser} {R N : Nat → Bytes → Prop} (hr : ∀ t b, Sub (recur t b) (R t b)) (ha : ∀ t b, Agree (recur t b))
    (hn : ∀ t b, Nils (recur t b) (fun _ _ => N t b)) (tag : Nat) (b : Bytes) : Nils (tagParse X recur tag b) (fun _ _ => TagNil X R N tag b) := by
  unfold Gpgpdump.tagParse tagScope
  refine flag fun d => scope (A := fun _ q => TagNil X R N tag q) b _ ?_
  constructor
  intro p q j
  rw [bind_panic, ← (tagBody X hr ha hn tag).run p q j]
  constructor
  · rintro (h | ⟨a, s', -, s, h2⟩)
    · exact h
    · cases h2
  · exact .inl

/-- what makes `parseTagF` with this fuel need a context -/
def FuelNil : Nat → Nat → Bytes → Prop
  | 0, _, _ => False
  | n + 1, tag, b => TagNil X (FuelOK X n) (FuelNil n) tag b

theorem parseTagF (n : Nat) (tag : Nat) (b : Bytes) : Nils (parseTagF X n tag b) (fun _ _ => FuelNil X n tag b) := by
  induction n generalizing tag b with
  | zero => exact deaf .stuck
  | succ n ih => exact tagParse X (Sub.parseTagF X n) (Agree.parseTagF X n) ih tag b

end Nils
end Gpgpdump
