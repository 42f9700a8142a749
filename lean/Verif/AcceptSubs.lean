import Verif.AcceptKeys
import Verif.SubLemmas
import Verif.ThmSubs

/-!
# Which subpackets are accepted

`Sub m A`: the method `m`, which has a reader of its own, succeeds in every context exactly if `A`.
-/

namespace Gpgpdump
open P Spec

variable (X : Ext)

structure Sub {α} (m : P α) (A : Prop) : Prop where
  sound : ∀ x p q j a s, m (St.at (some x) p q j) = (.ok a, s) → A ∧ ∃ x', s = St.at (some x') p q j
  complete : ∀ x p q j, A → ∃ a x', m (St.at (some x) p q j) = (.ok a, St.at (some x') p q j)

namespace Sub

theorem congr {α} {m : P α} {A B : Prop} (h : Sub m A) (e : A ↔ B) : Sub m B :=
  ⟨fun x p q j a s hs => ⟨e.mp (h.sound x p q j a s hs).1, (h.sound x p q j a s hs).2⟩, fun x p q j hb => h.complete x p q j (e.mpr hb)⟩

theorem scope {α} {m : P α} {A : Bytes → Bytes → Prop} (body : Bytes) (hdr : Item) (h : Oks m A) : Sub (P.scope body hdr m) (A [] body) := by
  have hr : ∀ x p q j, P.scope body hdr m (St.at (some x) p q j) =
      ((m (St.at (some x) [] body hdr)).1, { (m (St.at (some x) [] body hdr)).2 with rd := ⟨p ++ q, p.length⟩, cur := j }) := fun _ _ _ _ => rfl
  constructor
  · intro x p q j a s hs
    rw [hr] at hs
    rcases hm : m (St.at (some x) [] body hdr) with ⟨r, s'⟩
    rw [hm] at hs
    simp only [Prod.mk.injEq] at hs
    obtain ⟨rfl, rfl⟩ := hs
    obtain ⟨ha, y, hy⟩ := h.sound _ _ _ _ _ _ hm
    exact ⟨ha, y, by simp [St.at, hy]⟩
  · intro x p q j ha
    obtain ⟨a, s, h1⟩ := h.complete x [] body hdr ha
    obtain ⟨-, y, hy⟩ := h.sound _ _ _ _ _ _ h1
    exact ⟨a, y, by rw [hr, h1]; simp [St.at, hy]⟩

theorem flag {α} {f : Ctx → Bool} {m : Bool → P α} {A : Prop} (h : ∀ d, Sub (m d) A) : Sub (P.flag f >>= m) A :=
  ⟨fun x p q j a s hs => (h _).sound x p q j a s hs, fun x p q j ha => (h _).complete x p q j ha⟩

theorem stuck {α} : Sub (P.stuck : P α) False := ⟨fun x p q j a s hs => by simp [P.stuck] at hs, fun _ _ _ _ h => h.elim⟩

end Sub

theorem Lang.sub {α β} {m : P α} {g : α → P β} {A : Prop} {L : β → Bytes → Bytes → Prop} (h : Sub m A) (h' : ∀ a, Lang (g a) L) :
    Lang (m >>= g) (fun b f q => A ∧ L b f q) := by
  constructor
  · intro x p post j b s hs
    obtain ⟨a, s1, h1, h2⟩ := bind_inv hs
    obtain ⟨ha, x', rfl⟩ := h.sound _ _ _ _ _ _ h1
    obtain ⟨f, q, x2, j2, e, hl, hs⟩ := (h' a).sound _ _ _ _ _ _ h2
    exact ⟨f, q, x2, j2, e, ⟨ha, hl⟩, hs⟩
  · rintro x p j b f q ⟨ha, hl⟩
    obtain ⟨a, x1, h1⟩ := h.complete x p (f ++ q) j ha
    obtain ⟨x2, j2, h2⟩ := (h' a).complete x1 p j b f q hl
    exact ⟨x2, j2, by rw [bind_run, h1]; exact h2⟩

theorem Oks.sub {α β} {m : P α} {g : α → P β} {A : Prop} {B : Bytes → Bytes → Prop} (h : Sub m A) (h' : ∀ a, Oks (g a) B) :
    Oks (m >>= g) (fun p q => A ∧ B p q) := by
  constructor
  · intro x p q j b s hs
    obtain ⟨a, s1, h1, h2⟩ := bind_inv hs
    obtain ⟨ha, x', rfl⟩ := h.sound _ _ _ _ _ _ h1
    obtain ⟨hb, hy⟩ := (h' a).sound _ _ _ _ _ _ h2
    exact ⟨⟨ha, hb⟩, hy⟩
  · rintro x p q j ⟨ha, hb⟩
    obtain ⟨a, x1, h1⟩ := h.complete x p q j ha
    obtain ⟨b, s, h2⟩ := (h' a).complete x1 p q j hb
    exact ⟨b, s, by rw [bind_run, h1]; exact h2⟩

/-! ## The loops -/

/-- the packets of a source are accepted -/
def LoopOK (R : Nat → Bytes → Prop) : Nat → Src → Prop
  | 0, _ => False
  | f + 1, src => match nextPacket X src with
    | (.error e, _) => e.isEOF = true
    | (.ok (tag, body), src') => R tag body ∧ LoopOK R f src'

theorem Lang.forPackets {recur : TagParser} {R : Nat → Bytes → Prop} (hr : ∀ t b, Sub (recur t b) (R t b)) (f : Nat) (src : Src) :
    Lang (forPackets X recur f src) (fun _ g _ => LoopOK X R f src ∧ g = []) := by
  induction f generalizing src with
  | zero =>
    exact ⟨fun x p q j a s hs => by simp [Gpgpdump.forPackets, P.stuck] at hs, fun _ _ _ _ _ _ h => h.1.elim⟩
  | succ f ih =>
    unfold Gpgpdump.forPackets LoopOK
    rcases hn : nextPacket X src with ⟨r, src'⟩
    cases r with
    | error e =>
      simp only
      by_cases he : e.isEOF = true
      · rw [if_pos he]; exact (idle (.pure ())).congr fun _ g q => by simp [he]
      · rw [if_neg he]; exact (fail _).congr fun _ g q => by simp [he]
    | ok tb =>
      obtain ⟨tag, body⟩ := tb
      simp only
      exact (sub (hr tag body) fun i => skip (.add i) fun _ => ih src').congr fun _ g q => by simp [and_assoc]

theorem Lang.subLoop {p : UInt8 → Bytes → P Item} {A : UInt8 → Bytes → Prop} (l : List (UInt8 × Bytes)) (h : ∀ s ∈ l, Sub (p s.1 s.2) (A s.1 s.2)) :
    Lang (subLoop p l) (fun _ f _ => (∀ s ∈ l, A s.1 s.2) ∧ f = []) := by
  induction l with
  | nil => exact (idle (.pure ())).congr fun _ f q => by simp
  | cons s l ih =>
    obtain ⟨t, b⟩ := s
    exact (sub (h (t, b) (by simp)) fun i => skip (.add i) fun _ => ih fun s hs => h s (by simp [hs])).congr fun _ f q => by
      simp [and_assoc]

theorem Lang.addSubpackets {p : UInt8 → Bytes → P Item} {A : UInt8 → Bytes → Prop} (name : Str) (area : Bytes) (h : ∀ t b, Sub (p t b) (A t b)) :
    Lang (addSubpackets p name area) (fun _ f _ => (∃ subs, SubSeq subs area ∧ ∀ s ∈ subs, A s.1 s.2) ∧ f = []) := by
  unfold Gpgpdump.addSubpackets
  refine skip (.flag _) fun d => ?_
  cases ho : opaqueSubpackets area with
  | error e =>
    refine (fail _).congr fun _ f q => ?_
    constructor
    · exact False.elim
    · rintro ⟨⟨subs, hs, -⟩, -⟩
      rw [opaqueSubpackets_ok.mpr hs] at ho; cases ho
  | ok l =>
    simp only
    refine (build_then _ (subLoop l fun s _ => h s.1 s.2) fun i => idle (.add i)).congr fun _ f q => ?_
    constructor
    · rintro ⟨f1, f2, rfl, ⟨h1, rfl⟩, rfl⟩; exact ⟨⟨l, opaqueSubpackets_ok.mp ho, h1⟩, rfl⟩
    · rintro ⟨⟨subs, hs, h1⟩, rfl⟩
      rw [opaqueSubpackets_ok.mpr hs] at ho
      cases ho
      exact ⟨[], [], rfl, ⟨h1, rfl⟩, rfl⟩

/-! ## Subpacket bodies -/

/-- at least `k` octets -/
abbrev Min {α} (k : Nat) (m : P α) : Prop := Oks m (fun _ q => k ≤ q.length)

namespace Min
theorem idle {α} {m : P α} (h : Idle m) : Min 0 m := (Oks.idle h).congr fun p q => by simp
theorem bytes {β} (n : Nat) {k : Nat} {g : Bytes → P β} (h : ∀ b, Min k (g b)) : Min (n + k) (readBytes n >>= g) :=
  (Oks.bind (Lang.readBytes n) h).congr fun p q => by
    constructor
    · rintro ⟨a, f, r, rfl, ⟨rfl, h1⟩, h2⟩; simp only [List.length_append]; omega
    · intro h
      exact ⟨q.take n, q.take n, q.drop n, by simp, ⟨rfl, by simp; omega⟩, by simp; omega⟩
theorem byte {β} {k : Nat} {g : UInt8 → P β} (h : ∀ b, Min k (g b)) : Min (1 + k) (readByte >>= g) :=
  (Oks.byte h).congr fun p q => by
    constructor
    · rintro ⟨b, r, rfl, h2⟩; simp only [List.length_cons]; omega
    · intro h
      cases q with
      | nil => simp at h
      | cons b r => exact ⟨b, r, rfl, by simp only [List.length_cons] at h; omega⟩
end Min

/-- `Rest() > 0` and `Read2EOF` behind it, as the last step -/
theorem Min.toEnd {m : Bytes → P Item} {m' : P Item} (h : ∀ b st y, st.ctx = some y → ∃ i s y', m b st = (.ok i, s) ∧ s.ctx = some y') (h' : Idle m') :
    Min 0 (do
      if (← rest) > 0 then
        let b ← read2EOF
        m b
      else m') := by
  constructor
  · intro x p q j a s hs
    refine ⟨Nat.zero_le _, ?_⟩
    rw [bind_run, rest_run] at hs
    simp only at hs
    by_cases hq : q = []
    · subst hq
      obtain ⟨i, x', j', hi⟩ := h'.run x p [] j
      rw [if_neg (by simp), hi] at hs
      simp only [Prod.mk.injEq] at hs
      exact ⟨x', by rw [← hs.2]; rfl⟩
    · have := List.length_pos_iff.2 hq
      rw [if_pos (by omega)] at hs
      obtain ⟨rd, hrd, -⟩ := read2EOF_ok (some x) p q j hq
      rw [bind_run, hrd] at hs
      obtain ⟨i, s', y', h1, h2⟩ := h q ⟨some x, rd, j⟩ x rfl
      simp only at hs
      rw [h1] at hs
      simp only [Prod.mk.injEq] at hs
      exact ⟨y', by rw [← hs.2]; exact h2⟩
  · intro x p q j _
    rw [bind_run, rest_run]
    simp only
    by_cases hq : q = []
    · subst hq
      obtain ⟨i, x', j', hi⟩ := h'.run x p [] j
      exact ⟨_, _, by rw [if_neg (by simp)]; exact hi⟩
    · have := List.length_pos_iff.2 hq
      rw [if_pos (by omega)]
      obtain ⟨rd, hrd, -⟩ := read2EOF_ok (some x) p q j hq
      obtain ⟨i, s', y', h1, h2⟩ := h q ⟨some x, rd, j⟩ x rfl
      exact ⟨i, s', by rw [bind_run, hrd]; exact h1⟩

theorem Min.trailingFlags : Min 0 (do Gpgpdump.trailingFlags; getCur) := by
  have : (do Gpgpdump.trailingFlags; getCur) = (do
      if (← rest) > 0 then
        let b ← read2EOF
        (do otherFlags 2 b; getCur)
      else getCur) := by
    unfold Gpgpdump.trailingFlags
    rw [Lang.assoc]
    congr 1
    funext n
    split
    · rw [Lang.assoc]
    · rfl
  rw [this]
  refine Min.toEnd (fun b st y hy => ?_) .getCur
  exact ⟨_, { st with cur := st.cur.addAll (laterFlags 2 b) }, y, by rw [bind_run, otherFlags_run]; rfl, hy⟩

end Gpgpdump
