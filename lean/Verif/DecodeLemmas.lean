import Verif.Decode

/-!
# The reference decoder is sound and complete for the packet grammar
-/

namespace Gpgpdump
open Spec

/-! ## Octets and big-endian numbers -/

theorem beNat_append (a b : Bytes) : beNat (a ++ b) = beNat a * 256 ^ b.length + beNat b := by
  unfold beNat
  rw [List.foldl_append]
  generalize a.foldl (fun acc x => acc * 256 + x.toNat) 0 = k
  induction b generalizing k with
  | nil => simp
  | cons x b ih =>
    simp only [List.foldl_cons, List.length_cons]
    rw [ih (k * 256 + x.toNat), ih (0 * 256 + x.toNat)]
    rw [Nat.pow_succ]
    grind

@[simp] theorem beNat_nil : beNat [] = 0 := rfl
@[simp] theorem beNat_singleton (b : UInt8) : beNat [b] = b.toNat := by simp [beNat]

theorem beNat_cons (x : UInt8) (b : Bytes) : beNat (x :: b) = x.toNat * 256 ^ b.length + beNat b := by
  have := beNat_append [x] b
  simpa using this

theorem beNat_lt (b : Bytes) : beNat b < 256 ^ b.length := by
  induction b with
  | nil => simp
  | cons x b ih =>
    rw [beNat_cons, List.length_cons, Nat.pow_succ]
    have hx : x.toNat ≤ 255 := by have := x.toNat_lt; omega
    have := Nat.mul_le_mul_right (256 ^ b.length) hx
    omega

@[simp] theorem beOctets_length (k n : Nat) : (beOctets k n).length = k := by
  induction k generalizing n with
  | zero => rfl
  | succ k ih => simp [beOctets, ih]

theorem ofNat_toNat (n : Nat) (h : n < 256) : (UInt8.ofNat n).toNat = n := by
  simp; omega

theorem beNat_beOctets (k n : Nat) (h : n < 256 ^ k) : beNat (beOctets k n) = n := by
  induction k generalizing n with
  | zero => simp at h; simp [beOctets, h]
  | succ k ih =>
    rw [beOctets, beNat_append, ih (n / 256) (by rw [Nat.pow_succ] at h; omega)]
    simp
    omega

theorem beNat_inj {a b : Bytes} (hl : a.length = b.length) (h : beNat a = beNat b) : a = b := by
  induction a generalizing b with
  | nil => cases b with
    | nil => rfl
    | cons => simp at hl
  | cons x a ih =>
    cases b with
    | nil => simp at hl
    | cons y b =>
      simp only [List.length_cons, Nat.add_right_cancel_iff] at hl
      rw [beNat_cons, beNat_cons, ← hl] at h
      have h1 := beNat_lt a
      have h2 := beNat_lt b
      rw [← hl] at h2
      have hxy : x.toNat = y.toNat := by
        rcases Nat.lt_trichotomy x.toNat y.toNat with hlt | heq | hgt
        · have := Nat.mul_le_mul_right (256 ^ a.length) hlt
          have e : (x.toNat.succ) * 256 ^ a.length = x.toNat * 256 ^ a.length + 256 ^ a.length := Nat.succ_mul ..
          omega
        · exact heq
        · have := Nat.mul_le_mul_right (256 ^ a.length) hgt
          have e : (y.toNat.succ) * 256 ^ a.length = y.toNat * 256 ^ a.length + 256 ^ a.length := Nat.succ_mul ..
          omega
      have : x = y := UInt8.toNat_inj.mp hxy
      subst this
      rw [ih hl (by omega)]

theorem beOctets_beNat (b : Bytes) : beOctets b.length (beNat b) = b :=
  beNat_inj (by simp) (beNat_beOctets _ _ (beNat_lt b))

theorem ofNat_eq {b : UInt8} {n : Nat} (h : n = b.toNat) : UInt8.ofNat n = b := by
  subst h; simp

/-! ## Lengths -/

theorem decLength_complete {n lenc} (h : NewLength n lenc) (r : Bytes) : decLength (lenc ++ r) = some (n, false, r) := by
  cases h with
  | one h =>
    have := ofNat_toNat n (by omega)
    simp only [List.cons_append, List.nil_append, decLength, this, h, if_true]
  | two h h' =>
    have e1 := ofNat_toNat ((n - 192) / 256 + 192) (by omega)
    have e2 := ofNat_toNat ((n - 192) % 256) (by omega)
    simp only [List.cons_append, List.nil_append, decLength, e1, e2]
    rw [if_neg (by omega), if_pos (by omega)]
    simp
    omega
  | five h =>
    have e : (0xff : UInt8).toNat = 255 := rfl
    simp only [List.cons_append, decLength, e]
    rw [if_neg (by omega), if_neg (by omega), if_neg (by omega), if_neg (by simp)]
    have hl : (beOctets 4 n).length = 4 := by simp
    rw [List.take_left' hl, List.drop_left' hl, beNat_beOctets 4 n h]

theorem decLength_partial (k : Nat) (hk : k ≤ 30) (r : Bytes) :
    decLength (UInt8.ofNat (224 + k) :: r) = some (2 ^ k, true, r) := by
  have e := ofNat_toNat (224 + k) (by omega)
  simp only [decLength, e]
  rw [if_neg (by omega), if_neg (by omega), if_pos (by omega)]
  have : (224 + k) % 32 = k := by omega
  rw [this]

theorem decLength_sound {d n p r} (h : decLength d = some (n, p, r)) :
    (p = false ∧ ∃ lenc, NewLength n lenc ∧ d = lenc ++ r) ∨
    (p = true ∧ ∃ k ≤ 30, n = 2 ^ k ∧ d = UInt8.ofNat (224 + k) :: r) := by
  cases d with
  | nil => simp [decLength] at h
  | cons b0 d =>
    have hb := b0.toNat_lt
    simp only [decLength] at h
    split at h
    · rename_i h0
      simp only [Option.some.injEq, Prod.mk.injEq] at h
      obtain ⟨rfl, rfl, rfl⟩ := h
      refine .inl ⟨rfl, [UInt8.ofNat b0.toNat], .one h0, ?_⟩
      simp
    · split at h
      · rename_i h0 h1
        cases d with
        | nil => simp at h
        | cons b1 d =>
          have hb1 := b1.toNat_lt
          simp only [Option.some.injEq, Prod.mk.injEq] at h
          obtain ⟨rfl, rfl, rfl⟩ := h
          have e := NewLength.two (n := (b0.toNat - 192) * 256 + b1.toNat + 192) (by omega) (by omega)
          have e1 : UInt8.ofNat (((b0.toNat - 192) * 256 + b1.toNat + 192 - 192) / 256 + 192) = b0 :=
            ofNat_eq (by omega)
          have e2 : UInt8.ofNat (((b0.toNat - 192) * 256 + b1.toNat + 192 - 192) % 256) = b1 := ofNat_eq (by omega)
          rw [e1, e2] at e
          exact .inl ⟨rfl, _, e, rfl⟩
      · split at h
        · rename_i h0 h1 h2
          simp only [Option.some.injEq, Prod.mk.injEq] at h
          obtain ⟨rfl, rfl, rfl⟩ := h
          refine .inr ⟨rfl, b0.toNat % 32, by omega, rfl, ?_⟩
          rw [ofNat_eq (b := b0) (by omega)]
        · split at h
          · simp at h
          · rename_i h0 h1 h2 h3
            simp only [Option.some.injEq, Prod.mk.injEq] at h
            obtain ⟨rfl, rfl, rfl⟩ := h
            have hl : (d.take 4).length = 4 := by simp; omega
            have hlt := beNat_lt (d.take 4)
            rw [hl] at hlt
            refine .inl ⟨rfl, _, .five (by simpa using hlt), ?_⟩
            have e : beOctets 4 (beNat (d.take 4)) = d.take 4 := by
              have := beOctets_beNat (d.take 4)
              rwa [hl] at this
            rw [e]
            have : b0 = 0xff := by
              apply UInt8.toNat_inj.mp
              show b0.toNat = 255
              omega
            simp [this]

/-! ## Chunks -/

theorem decChunks_complete {body enc} (h : NewBody body enc) (rest : Bytes) :
    ∃ n p r, decLength (enc ++ rest) = some (n, p, r) ∧ ∀ f, enc.length ≤ f → decChunks f n p r = some (body, rest) := by
  induction h with
  | @last body lenc h =>
    refine ⟨body.length, false, body ++ rest, by rw [List.append_assoc]; exact decLength_complete h _, ?_⟩
    intro f hf
    have : 0 < lenc.length := by cases h <;> simp
    cases f with
    | zero => rw [List.length_append] at hf; omega
    | succ f => simp [decChunks]
  | @part body enc chunk k hk hc h ih =>
    obtain ⟨n, p, r, h1, h2⟩ := ih
    refine ⟨2 ^ k, true, chunk ++ (enc ++ rest), ?_, ?_⟩
    · have := decLength_partial k hk (chunk ++ (enc ++ rest))
      simpa using this
    · intro f hf
      cases f with
      | zero => simp at hf
      | succ f =>
        simp only [decChunks]
        rw [if_neg (by simp; omega), List.drop_left' hc, List.take_left' hc, h1]
        simp only [if_true]
        rw [h2 f (by simp at hf; omega)]

theorem decChunks_sound {f n p d body rest} (h : decChunks f n p d = some (body, rest)) :
    (p = false ∧ d = body ++ rest ∧ body.length = n) ∨
    (p = true ∧ ∃ chunk body' enc, body = chunk ++ body' ∧ chunk.length = n ∧ NewBody body' enc ∧ d = chunk ++ (enc ++ rest)) := by
  induction f generalizing n p d body rest with
  | zero => simp [decChunks] at h
  | succ f ih =>
    simp only [decChunks] at h
    split at h
    · simp at h
    · rename_i hlen
      cases p with
      | false =>
        simp only [Bool.false_eq_true, if_false, Option.some.injEq, Prod.mk.injEq] at h
        obtain ⟨rfl, rfl⟩ := h
        exact .inl ⟨rfl, by simp, by simp; omega⟩
      | true =>
        simp only [if_true] at h
        split at h
        · simp at h
        · rename_i n' p' r' hl
          split at h
          · simp at h
          · rename_i b'' rest' hc
            simp only [Option.some.injEq, Prod.mk.injEq] at h
            obtain ⟨rfl, rfl⟩ := h
            refine .inr ⟨rfl, d.take n, b'', ?_⟩
            have hd : d = d.take n ++ d.drop n := by simp
            have hc' := ih hc
            rcases decLength_sound hl with ⟨rfl, lenc, hle, hde⟩ | ⟨rfl, k, hk, rfl, hde⟩
            · simp only [true_and, Bool.false_eq_true, false_and, or_false] at hc'
              obtain ⟨rfl, rfl⟩ := hc'
              refine ⟨lenc ++ b'', rfl, by simp; omega, .last hle, ?_⟩
              rw [List.append_assoc, ← hde]; exact hd
            · simp only [true_and, Bool.true_eq_false, false_and, false_or] at hc'
              obtain ⟨chunk, body', enc, rfl, hcl, hnb, rfl⟩ := hc'
              refine ⟨_, rfl, by simp; omega, .part hk hcl hnb, ?_⟩
              simp only [List.cons_append, List.append_assoc]
              rw [← hde]; exact hd

theorem decLength_decChunks_sound {f d n p r body rest} (hl : decLength d = some (n, p, r))
    (hc : decChunks f n p r = some (body, rest)) : ∃ enc, NewBody body enc ∧ d = enc ++ rest := by
  rcases decLength_sound hl with ⟨rfl, lenc, hle, rfl⟩ | ⟨rfl, k, hk, rfl, rfl⟩
  · rcases decChunks_sound hc with ⟨-, rfl, rfl⟩ | ⟨h, -⟩
    · exact ⟨_, .last hle, by simp⟩
    · cases h
  · rcases decChunks_sound hc with ⟨h, -⟩ | ⟨-, chunk, body', enc, rfl, hcl, hnb, rfl⟩
    · cases h
    · exact ⟨_, .part hk hcl hnb, by simp⟩

/-! ## Packets -/

theorem decNext_complete {tag body enc} (h : Encodes tag body enc) (rest : Bytes) :
    decNext (enc ++ rest) = .packet tag body rest := by
  cases h with
  | @old lt ht hl hb =>
    have e := ofNat_toNat (128 + tag * 4 + lt) (by omega)
    simp only [List.cons_append, decNext, e]
    have m1 : (128 + tag * 4 + lt) % 4 = lt := by omega
    have m2 : (128 + tag * 4 + lt) % 64 / 4 = tag := by omega
    rw [if_neg (by omega), if_pos (by omega), m1, m2, if_neg (by omega), if_neg (by simp)]
    have hlen : (beOctets (2 ^ lt) body.length).length = 2 ^ lt := by simp
    rw [List.append_assoc, List.take_left' hlen, List.drop_left' hlen, beNat_beOctets _ _ hb]
    simp
  | @new enc ht h =>
    have e := ofNat_toNat (192 + tag) (by omega)
    simp only [List.cons_append, decNext, e]
    rw [if_neg (by omega), if_neg (by omega)]
    obtain ⟨n, p, r, h1, h2⟩ := decChunks_complete h rest
    rw [h1]
    simp only
    rw [h2 _ (by simp; omega)]
    simp only [Dec.packet.injEq, and_true]
    omega

theorem decNext_sound {d tag body rest} (h : decNext d = .packet tag body rest) :
    ∃ enc, Encodes tag body enc ∧ d = enc ++ rest := by
  cases d with
  | nil => simp [decNext] at h
  | cons b d =>
    have hb := b.toNat_lt
    simp only [decNext] at h
    split at h
    · simp at h
    · split at h
      · rename_i h0 h1
        split at h
        · simp at h
        · split at h
          · simp at h
          · rename_i h2 h3
            split at h
            · simp at h
            · rename_i h4
              simp only [Dec.packet.injEq] at h
              obtain ⟨rfl, rfl, rfl⟩ := h
              have hl : (d.take (2 ^ (b.toNat % 4))).length = 2 ^ (b.toNat % 4) := by simp; omega
              have hlt := beNat_lt (d.take (2 ^ (b.toNat % 4)))
              rw [hl] at hlt
              have hbl : ((d.drop (2 ^ (b.toNat % 4))).take (beNat (d.take (2 ^ (b.toNat % 4))))).length =
                  beNat (d.take (2 ^ (b.toNat % 4))) := by
                rw [List.length_take]; omega
              have E := Encodes.old (tag := b.toNat % 64 / 4)
                (body := (d.drop (2 ^ (b.toNat % 4))).take (beNat (d.take (2 ^ (b.toNat % 4)))))
                (lt := b.toNat % 4) (by omega) (by omega) (by rw [hbl]; exact hlt)
              refine ⟨_, E, ?_⟩
              have e1 : UInt8.ofNat (128 + b.toNat % 64 / 4 * 4 + b.toNat % 4) = b := ofNat_eq (by omega)
              have e2 : beOctets (2 ^ (b.toNat % 4)) (beNat (d.take (2 ^ (b.toNat % 4)))) =
                  d.take (2 ^ (b.toNat % 4)) := by
                have := beOctets_beNat (d.take (2 ^ (b.toNat % 4)))
                rwa [hl] at this
              rw [e1, hbl, e2]
              simp only [List.cons_append, List.append_assoc, List.take_append_drop]
      · rename_i h0 h1
        split at h
        · simp at h
        · rename_i n p r' hl
          split at h
          · simp at h
          · rename_i b' rest' hc
            simp only [Dec.packet.injEq] at h
            obtain ⟨rfl, rfl, rfl⟩ := h
            obtain ⟨enc, hnb, rfl⟩ := decLength_decChunks_sound hl hc
            refine ⟨_, .new (tag := b.toNat % 64) (by omega) hnb, ?_⟩
            have e1 : UInt8.ofNat (192 + b.toNat % 64) = b := ofNat_eq (by omega)
            rw [e1]; rfl

theorem decNext_toEnd {d tag body} (h : decNext d = .toEnd tag body) : EncodesToEnd tag body d := by
  cases d with
  | nil => simp [decNext] at h
  | cons b d =>
    have hb := b.toNat_lt
    simp only [decNext] at h
    split at h
    · simp at h
    · split at h
      · split at h
        · rename_i h0 h1 h2
          simp only [Dec.toEnd.injEq] at h
          obtain ⟨rfl, rfl⟩ := h
          have := EncodesToEnd.mk (tag := b.toNat % 64 / 4) (body := d) (by omega)
          rwa [show UInt8.ofNat (128 + b.toNat % 64 / 4 * 4 + 3) = b from ofNat_eq (by omega)] at this
        · split at h
          · simp at h
          · split at h <;> simp at h
      · split at h
        · simp at h
        · split at h <;> simp at h

theorem decNext_toEnd_complete {d tag body} (h : EncodesToEnd tag body d) : decNext d = .toEnd tag body := by
  cases h with
  | mk ht =>
    have e := ofNat_toNat (128 + tag * 4 + 3) (by omega)
    simp only [decNext, e]
    rw [if_neg (by omega), if_pos (by omega), if_pos (by omega)]
    congr 1
    omega

theorem decNext_atEnd {d} : decNext d = .atEnd ↔ d = [] := by
  cases d with
  | nil => simp [decNext]
  | cons b d =>
    simp only [decNext, reduceCtorEq, iff_false]
    split
    · simp
    · split
      · split
        · simp
        · split
          · simp
          · split <;> simp
      · split
        · simp
        · split <;> simp

theorem decNext_noMSB {b d} : decNext (b :: d) = .noMSB ↔ b.toNat < 128 := by
  simp only [decNext]
  split
  · simpa
  · rename_i h
    simp only [h, iff_false]
    split
    · split
      · simp
      · split
        · simp
        · split <;> simp
    · split
      · simp
      · split <;> simp

theorem Spec.Encodes.ne_nil {tag body enc} (h : Encodes tag body enc) : enc ≠ [] := by
  cases h <;> simp

/-- A non-empty proper prefix of a packet is never accepted. -/
theorem decNext_prefix {tag body enc p s} (h : Encodes tag body enc) (he : enc = p ++ s) (hp : p ≠ []) (hs : s ≠ []) :
    decNext p = .truncated := by
  have hc := decNext_complete h []
  cases hd : decNext p with
  | atEnd => exact absurd (decNext_atEnd.mp hd) hp
  | truncated => rfl
  | noMSB =>
    cases p with
    | nil => simp at hp
    | cons b p =>
      rw [decNext_noMSB] at hd
      rw [he] at hc
      simp only [List.append_nil, List.cons_append] at hc
      rw [decNext_noMSB.mpr hd] at hc
      simp at hc
  | toEnd t b =>
    have := decNext_toEnd hd
    cases this with
    | mk ht =>
      have h2 := decNext_toEnd_complete (EncodesToEnd.mk (tag := t) (body := b ++ s) ht)
      rw [he] at hc
      simp only [List.append_nil, List.cons_append] at hc
      rw [h2] at hc
      simp at hc
  | packet t b r =>
    obtain ⟨enc', h', rfl⟩ := decNext_sound hd
    have h2 := decNext_complete h' (r ++ s)
    rw [he] at hc
    simp only [List.append_nil, List.append_assoc] at hc
    rw [h2] at hc
    simp only [Dec.packet.injEq, List.append_eq_nil_iff] at hc
    exact absurd hc.2.2.2 hs

/-- the body is not longer than the encoding, and the encoding has at least a header octet -/
theorem Spec.NewBody.length_le {body enc} (h : NewBody body enc) : body.length < enc.length := by
  induction h with
  | last h => cases h <;> simp <;> omega
  | part hk hc h ih => simp; omega

theorem Spec.Encodes.length_lt {tag body enc} (h : Encodes tag body enc) : body.length < enc.length := by
  cases h with
  | old => simp; have := Nat.zero_le; grind
  | new ht h => have := h.length_le; simp; omega

end Gpgpdump
