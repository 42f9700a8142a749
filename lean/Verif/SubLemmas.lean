import Verif.SpecSig
import Verif.DecodeLemmas

/-!
# The subpacket splitter against the grammar
-/

namespace Gpgpdump
open Spec

/-- the part of `nextSubpacket` after the length -/
def subFinish (subLen : Nat) (body : Bytes) : Except GoErr (UInt8 × Bytes × Bytes) :=
  match body with
  | [] => .error (rawErr .subTruncated)
  | t :: bs =>
    if subLen > body.length ∨ subLen = 0 then .error (rawErr .subTruncated)
    else .ok (t, bs.take (subLen - 1), bs.drop (subLen - 1))

theorem subFinish_ok {n body t c r} : subFinish n body = .ok (t, c, r) ↔ n = c.length + 1 ∧ body = t :: (c ++ r) := by
  unfold subFinish
  cases body with
  | nil => simp
  | cons x bs =>
    simp only
    by_cases h : n > (x :: bs).length ∨ n = 0
    · rw [if_pos h]
      constructor
      · intro h'; cases h'
      · rintro ⟨rfl, h'⟩
        cases h'
        simp only [List.length_cons, List.length_append] at h
        omega
    · rw [if_neg h]
      simp only [List.length_cons, not_or, Nat.not_lt] at h
      constructor
      · intro h'
        simp only [Except.ok.injEq, Prod.mk.injEq] at h'
        obtain ⟨rfl, rfl, rfl⟩ := h'
        refine ⟨?_, by simp⟩
        simp; omega
      · rintro ⟨rfl, h'⟩
        cases h'
        simp

theorem nextSubpacket_cases (d : Bytes) : nextSubpacket d = match d with
    | [] => .error (rawErr .subTruncated)
    | b0 :: r0 =>
      if b0.toNat < 192 then subFinish b0.toNat r0
      else if b0.toNat < 255 then
        match r0 with
        | [] => .error (rawErr .subTruncated)
        | b1 :: r1 => subFinish ((b0.toNat - 192) * 256 + b1.toNat + 192) r1
      else
        match r0 with
        | b1 :: b2 :: b3 :: b4 :: r4 => subFinish (beNat [b1, b2, b3, b4]) r4
        | _ => .error (rawErr .subTruncated) := rfl

theorem nextSubpacket_ok {d t c r} : nextSubpacket d = .ok (t, c, r) ↔
    ∃ lenc, SubLength (c.length + 1) lenc ∧ d = lenc ++ (t :: (c ++ r)) := by
  rw [nextSubpacket_cases]
  constructor
  · intro h
    cases d with
    | nil => cases h
    | cons b0 r0 =>
      simp only at h
      by_cases h1 : b0.toNat < 192
      · rw [if_pos h1] at h
        obtain ⟨h2, rfl⟩ := subFinish_ok.mp h
        refine ⟨[UInt8.ofNat (c.length + 1)], .one (by omega), ?_⟩
        rw [← h2]; simp
      · rw [if_neg h1] at h
        by_cases h2 : b0.toNat < 255
        · rw [if_pos h2] at h
          cases r0 with
          | nil => cases h
          | cons b1 r1 =>
            obtain ⟨h3, rfl⟩ := subFinish_ok.mp h
            have hb1 := b1.toNat_lt
            refine ⟨_, .two (n := c.length + 1) (by omega) (by omega), ?_⟩
            rw [← h3]
            have e1 : UInt8.ofNat (((b0.toNat - 192) * 256 + b1.toNat + 192 - 192) / 256 + 192) = b0 := ofNat_eq (by omega)
            have e2 : UInt8.ofNat (((b0.toNat - 192) * 256 + b1.toNat + 192 - 192) % 256) = b1 := ofNat_eq (by omega)
            rw [e1, e2]; rfl
        · rw [if_neg h2] at h
          have hb0 : b0 = 0xff := by
            have := b0.toNat_lt
            exact UInt8.toNat_inj.mp (by simp; omega)
          match r0, h with
          | b1 :: b2 :: b3 :: b4 :: r4, h =>
            obtain ⟨h3, rfl⟩ := subFinish_ok.mp h
            have hlt := beNat_lt [b1, b2, b3, b4]
            refine ⟨_, .five (n := c.length + 1) (by rw [← h3]; simpa using hlt), ?_⟩
            rw [← h3]
            have := beOctets_beNat [b1, b2, b3, b4]
            simp only [List.length_cons, List.length_nil] at this
            rw [this, hb0]; rfl
  · rintro ⟨lenc, hl, rfl⟩
    cases hl with
    | one h =>
      simp only [List.cons_append, List.nil_append]
      rw [ofNat_toNat _ (by omega), if_pos h]
      exact subFinish_ok.mpr ⟨rfl, rfl⟩
    | two h h' =>
      simp only [List.cons_append, List.nil_append]
      rw [ofNat_toNat _ (by omega), ofNat_toNat _ (by omega), if_neg (by omega), if_pos (by omega)]
      exact subFinish_ok.mpr ⟨by omega, rfl⟩
    | five h =>
      have hlen := beOctets_length 4 (c.length + 1)
      have hnat := beNat_beOctets 4 (c.length + 1) (by simpa using h)
      match ho : beOctets 4 (c.length + 1), hlen with
      | [b1, b2, b3, b4], _ =>
        rw [ho] at hnat
        simp only [List.cons_append, List.nil_append]
        rw [if_neg (by decide), if_neg (by decide), hnat]
        exact subFinish_ok.mpr ⟨rfl, rfl⟩

theorem opaqueSubpacketsLoop_ok {f d l} (hf : d.length ≤ f) : opaqueSubpacketsLoop f d = .ok l ↔ SubSeq l d := by
  induction f generalizing d l with
  | zero =>
    have : d = [] := List.eq_nil_of_length_eq_zero (by omega)
    subst this
    rw [opaqueSubpacketsLoop]
    constructor
    · intro h; simp only [Except.ok.injEq] at h; subst h; exact .nil
    · intro h
      generalize hd : ([] : Bytes) = d at h
      cases h with
      | nil => rfl
      | cons => simp at hd
  | succ f ih =>
    cases d with
    | nil =>
      rw [opaqueSubpacketsLoop]
      constructor
      · intro h; simp only [Except.ok.injEq] at h; subst h; exact .nil
      · intro h
        generalize hd : ([] : Bytes) = d at h
        cases h with
        | nil => rfl
        | cons => simp at hd
    | cons b bs =>
      rw [opaqueSubpacketsLoop]
      constructor
      · intro h
        rcases hn : nextSubpacket (b :: bs) with e | ⟨t, c, r⟩
        · rw [hn] at h; cases h
        · rw [hn] at h
          simp only at h
          obtain ⟨lenc, hl, hd⟩ := nextSubpacket_ok.mp hn
          have hlen := congrArg List.length hd
          simp only [List.length_cons, List.length_append] at hlen
          simp only [List.length_cons] at hf
          rcases hr : opaqueSubpacketsLoop f r with e | l'
          · rw [hr] at h; cases h
          · rw [hr] at h
            simp only [Except.ok.injEq] at h
            subst h
            rw [hd]
            exact .cons hl ((ih (by omega)).mp hr)
      · intro h
        generalize hd : b :: bs = d at h
        cases h with
        | nil => cases hd
        | @cons t body lenc subs area hl hs =>
          have hlen := congrArg List.length hd
          simp only [List.length_cons, List.length_append] at hlen
          simp only [List.length_cons] at hf
          rw [nextSubpacket_ok.mpr ⟨lenc, hl, rfl⟩]
          simp only
          rw [(ih (by omega)).mpr hs]

theorem opaqueSubpackets_ok {d l} : opaqueSubpackets d = .ok l ↔ SubSeq l d := opaqueSubpacketsLoop_ok (Nat.le_refl _)

theorem opaqueSubpacketsLoop_error {f d e} (hf : d.length ≤ f) (h : opaqueSubpacketsLoop f d = .error e) : e = rawErr .subTruncated := by
  have fin : ∀ n b e, subFinish n b = .error e → e = rawErr .subTruncated := by
    intro n b e h
    unfold subFinish at h
    split at h
    · exact (Except.error.inj h).symm
    · split at h
      · exact (Except.error.inj h).symm
      · cases h
  induction f generalizing d with
  | zero =>
    have : d = [] := List.eq_nil_of_length_eq_zero (by omega)
    subst this
    rw [opaqueSubpacketsLoop] at h; cases h
  | succ f ih =>
    cases d with
    | nil => rw [opaqueSubpacketsLoop] at h; cases h
    | cons b bs =>
      rw [opaqueSubpacketsLoop] at h
      rcases hn : nextSubpacket (b :: bs) with e' | ⟨t, c, r⟩
      · rw [hn] at h
        obtain rfl := Except.error.inj h
        rw [nextSubpacket_cases] at hn
        simp only at hn
        split at hn
        · exact fin _ _ _ hn
        · split at hn
          · split at hn
            · exact (Except.error.inj hn).symm
            · exact fin _ _ _ hn
          · split at hn
            · exact fin _ _ _ hn
            · exact (Except.error.inj hn).symm
      · rw [hn] at h
        simp only at h
        obtain ⟨lenc, hl, hd⟩ := nextSubpacket_ok.mp hn
        have hlen := congrArg List.length hd
        simp only [List.length_cons, List.length_append] at hlen
        simp only [List.length_cons] at hf
        rcases hr : opaqueSubpacketsLoop f r with e | l'
        · rw [hr] at h
          obtain rfl := Except.error.inj h
          exact ih (by omega) hr
        · rw [hr] at h; cases h

theorem opaqueSubpackets_error {d e} (h : opaqueSubpackets d = .error e) : e = rawErr .subTruncated :=
  opaqueSubpacketsLoop_error (Nat.le_refl _) h

/-- sizes -/
theorem Spec.SubSeq.mem_length {subs area} (h : SubSeq subs area) : ∀ s ∈ subs, s.2.length + 2 ≤ area.length := by
  induction h with
  | nil => simp
  | @cons t body lenc subs area hl hs ih =>
    have : 1 ≤ lenc.length := by cases hl <;> simp
    intro s hm
    rcases List.mem_cons.mp hm with rfl | hm
    · simp; omega
    · have := ih s hm
      simp; omega

theorem Spec.SigArea.length_lt {body area} (h : SigArea body area) : area.length + 4 ≤ body.length := by
  cases h <;> simp <;> omega

theorem Spec.ClosedSeq.mem_length {ps a} (h : ClosedSeq ps a) : ∀ p ∈ ps, p.2.length < a.length := by
  induction h with
  | nil => simp
  | cons he _ ih =>
    intro p hp
    have := he.length_lt
    rcases List.mem_cons.mp hp with rfl | hp
    · simp; omega
    · have := ih p hp
      simp; omega

/-- what is inside a packet is shorter -/
theorem Spec.Inside.shorter {p q} (h : Inside p q) : q.2.length < p.2.length := by
  cases h with
  | embedded ha hs hm ht =>
    have := ha.length_lt
    have := hs.mem_length _ hm
    simp only at *
    omega
  | keyBlock ha hs hm ht hp hmem =>
    have := ha.length_lt
    have := hs.mem_length _ hm
    have := hp.mem_length _ hmem
    simp only [List.length_cons, List.length_append] at *
    omega

end Gpgpdump
