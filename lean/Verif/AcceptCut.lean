import Verif.AcceptSubs
import Verif.SpecAccept

/-!
# How key blocks end
-/

namespace Gpgpdump
open P Spec Src

variable {X : Ext}

/-! ## Reads of a `reader.Reader` -/

/-- the error of a read that finds the octets `d` and wants more -/
def shortErr (d : Bytes) : GoErr := if d = [] then wrapErr .eof else wrapErr .unexpectedEOF

theorem shortErr_isEOF {d} : (shortErr d).isEOF = true ↔ d = [] := by
  unfold shortErr
  split <;> rename_i h <;> simp [h, wrapErr, GoErr.isEOF]

theorem shortErr_eqEOF (d) : (shortErr d).eqEOF = false := by
  unfold shortErr
  split <;> rfl

theorem read_enough {s : Src} (hs : s.strict = true) {n : Nat} (hn : 0 < n) (hd : n ≤ s.data.length) :
    s.read n = (s.data.take n, none, { s with data := s.data.drop n }) := by
  unfold Src.read
  have : s.data ≠ [] := by intro h; simp [h] at hd; omega
  rw [if_pos hs, if_neg (by simpa using this), if_neg (by omega)]

theorem read_short {s : Src} (hs : s.strict = true) {n : Nat} (hd : s.data.length < n) : s.read n = ([], some (shortErr s.data), s) := by
  unfold Src.read shortErr
  rw [if_pos hs]
  by_cases h : s.data = []
  · rw [if_pos (by simpa using h), if_pos h]
  · rw [if_neg (by simpa using h), if_pos (by omega), if_neg h]

theorem fullIO_enough {s : Src} (hs : s.strict = true) {n : Nat} (hn : 0 < n) (hd : n ≤ s.data.length) :
    s.readFullIO n = (.ok (s.data.take n), { s with data := s.data.drop n }) := by
  obtain ⟨n, rfl⟩ : ∃ m, n = m + 1 := ⟨n - 1, by omega⟩
  have hl : (s.data.take (n + 1)).length = n + 1 := by rw [List.length_take]; omega
  unfold Src.readFullIO
  rw [Src.fill, read_enough hs hn hd]
  simp only [hl, Nat.sub_self]
  rw [Src.fill]
  simp [hl]

theorem fullIO_short {s : Src} (hs : s.strict = true) {n : Nat} (hd : s.data.length < n) :
    s.readFullIO n = (.error (shortErr s.data), s) := by
  obtain ⟨n, rfl⟩ : ∃ m, n = m + 1 := ⟨n - 1, by omega⟩
  unfold Src.readFullIO
  rw [Src.fill, read_short hs hd]
  simp

theorem full_enough {s : Src} (hs : s.strict = true) {n : Nat} (hn : 0 < n) (hd : n ≤ s.data.length) :
    s.readFull n = (.ok (s.data.take n), { s with data := s.data.drop n }) := by
  unfold Src.readFull
  rw [fullIO_enough hs hn hd]

theorem full_short {s : Src} (hs : s.strict = true) {n : Nat} (hd : s.data.length < n) :
    s.readFull n = (.error (shortErr s.data), s) := by
  unfold Src.readFull
  rw [fullIO_short hs hd]
  simp [shortErr_eqEOF]

theorem readLength_strict {s : Src} (hs : s.strict = true) :
    (∃ n p r, decLength s.data = some (n, p, r) ∧ readLength s = (.ok (n, p), { s with data := r })) ∨
    (∃ e s', decLength s.data = none ∧ readLength s = (.error e, s') ∧ e.eqEOF = false ∧ (e.isEOF = true ↔ LengthCut s.data)) := by
  have hs' : ∀ d, ({ s with data := d } : Src).strict = true := fun _ => hs
  unfold readLength
  cases hd : s.data with
  | nil =>
    rw [full_short hs (by simp [hd])]
    exact .inr ⟨_, _, rfl, rfl, shortErr_eqEOF _, by simp [shortErr_isEOF, hd, LengthCut.nil]⟩
  | cons b r =>
    rw [full_enough hs (by omega) (by simp [hd])]
    simp only [hd, List.take_succ_cons, List.take_zero, List.drop_succ_cons, List.drop_zero, beNat_singleton, decLength]
    by_cases h1 : b.toNat < 192
    · rw [if_pos h1, if_pos h1]
      exact .inl ⟨_, _, _, rfl, rfl⟩
    rw [if_neg h1, if_neg h1]
    by_cases h2 : b.toNat < 224
    · rw [if_pos h2, if_pos h2]
      cases r with
      | nil =>
        rw [full_short (hs' _) (by simp)]
        exact .inr ⟨_, _, rfl, rfl, shortErr_eqEOF _, by simp [shortErr_isEOF, LengthCut.two (b := b) (by omega) h2]⟩
      | cons b1 r =>
        rw [full_enough (hs' _) (by omega) (by simp)]
        exact .inl ⟨_, _, _, rfl, by simp⟩
    rw [if_neg h2, if_neg h2]
    by_cases h3 : b.toNat < 255
    · rw [if_pos h3, if_pos h3]
      exact .inl ⟨_, _, _, rfl, rfl⟩
    rw [if_neg h3, if_neg h3]
    by_cases h4 : r.length < 4
    · rw [if_pos h4, full_short (hs' _) (by simpa using h4)]
      refine .inr ⟨_, _, rfl, rfl, shortErr_eqEOF _, ?_⟩
      rw [shortErr_isEOF]
      constructor
      · intro h
        simp only at h
        subst h
        have : b = 255 := by
          have := b.toNat_lt
          exact UInt8.toNat_inj.mp (by simp; omega)
        subst this
        exact .five
      · intro h
        cases h <;> rfl
    · rw [if_neg h4, full_enough (hs' _) (by omega) (by simpa using h4)]
      exact .inl ⟨_, _, _, rfl, rfl⟩

theorem chunkEnd_iff {n : Nat} {d : Bytes} : ChunkEnd X n d ↔ match decLength d with
    | none => LengthCut d
    | some (m, p, r) => if r.length < m then Boundary X n r else p = true ∧ ChunkEnd X (n + m) (r.drop m) := by
  constructor
  · intro h
    cases h with
    | length h =>
      have : decLength d = none := by
        cases h with
        | nil => rfl
        | two h1 h2 => simp only [decLength]; rw [if_neg (by omega), if_pos h2]
        | five => rfl
      rw [this]; exact h
    | last hl h hb =>
      rw [decLength_complete hl]
      simp only
      rw [if_pos h]; exact hb
    | part hk h hb =>
      rw [decLength_partial _ hk]
      simp only
      rw [if_pos h]; exact hb
    | more hk hc h =>
      rw [decLength_partial _ hk]
      simp only
      rw [if_neg (by simp [hc])]
      exact ⟨trivial, by simpa [← hc] using h⟩
  · intro h
    cases hd : decLength d with
    | none => rw [hd] at h; exact .length h
    | some x =>
      obtain ⟨m, p, r⟩ := x
      rw [hd] at h
      simp only at h
      rcases decLength_sound hd with ⟨rfl, lenc, hl, rfl⟩ | ⟨rfl, k, hk, rfl, rfl⟩
      · split at h
        · exact .last hl ‹_› h
        · simp at h
      · split at h
        · exact .part hk ‹_› h
        · rename_i hn
          have := ChunkEnd.more (X := X) (c := r.take (2 ^ k)) hk (by rw [List.length_take]; omega) h.2
          simpa using this

/-! ## Buffers -/

theorem capacity_succ (k : Nat) : capacity X k < capacity X (k + 1) := by
  change capacity X k < max (capacity X k + 1) (X.grow (capacity X k))
  omega

theorem capacity_mono {j k : Nat} (h : j ≤ k) : capacity X j ≤ capacity X k := by
  induction h with
  | refl => exact Nat.le_refl _
  | step _ ih => exact Nat.le_trans ih (Nat.le_of_lt (capacity_succ _))

theorem capacity_lt {j k : Nat} (h : capacity X j < capacity X k) : j < k := by
  rcases Nat.lt_or_ge j k with h' | h'
  · exact h'
  · have := capacity_mono (X := X) h'; omega

/-- `len` octets are in a buffer of size `cap` -/
structure Buf (X : Ext) (len cap : Nat) : Prop where
  le : len ≤ cap
  size : ∃ k, cap = capacity X k ∧ ∀ j < k, capacity X j ≤ len

theorem Buf.start : Buf X 0 512 := ⟨by omega, 0, rfl, by omega⟩

/-- the buffer for the next read -/
theorem Buf.next {len cap : Nat} (h : Buf X len cap) :
    Buf X len (if len ≥ cap then max (cap + 1) (X.grow cap) else cap) ∧ len < (if len ≥ cap then max (cap + 1) (X.grow cap) else cap) := by
  obtain ⟨hl, k, rfl, hj⟩ := h
  by_cases hc : len ≥ capacity X k
  · rw [if_pos hc]
    refine ⟨⟨by omega, k + 1, rfl, fun j hj' => ?_⟩, by omega⟩
    have := capacity_mono (X := X) (Nat.le_of_lt_succ hj')
    omega
  · rw [if_neg hc]
    exact ⟨⟨hl, k, rfl, hj⟩, by omega⟩

theorem Buf.more {len cap n : Nat} (h : Buf X len cap) (hn : len + n ≤ cap) : Buf X (len + n) cap := by
  obtain ⟨hl, k, rfl, hj⟩ := h
  exact ⟨hn, k, rfl, fun j hj' => by have := hj j hj'; omega⟩

/-- a read that fills the buffer -/
theorem Buf.boundary_full {len cap : Nat} (h : Buf X len cap) (hlt : len < cap) {d : Bytes} (hd : cap - len ≤ d.length) :
    Boundary X len d ↔ Boundary X (len + (cap - len)) (d.drop (cap - len)) := by
  obtain ⟨hl, k, rfl, hj⟩ := h
  unfold Boundary
  rw [List.length_drop]
  constructor
  · rintro (rfl | ⟨j, h⟩)
    · simp at hd; omega
    · exact .inr ⟨j, by omega⟩
  · rintro (h | ⟨j, h⟩)
    · exact .inr ⟨k, by have := congrArg List.length h; rw [List.length_drop] at this; simp at this; omega⟩
    · exact .inr ⟨j, by omega⟩

/-- a read that wants more than there is -/
theorem Buf.boundary_short {len cap : Nat} (h : Buf X len cap) {d : Bytes} (hd : d.length < cap - len) : Boundary X len d ↔ d = [] := by
  obtain ⟨hl, k, rfl, hj⟩ := h
  constructor
  · rintro (rfl | ⟨j, h⟩)
    · rfl
    · have := capacity_lt (X := X) (j := j) (k := k) (by omega)
      have := hj j this
      exact List.eq_nil_of_length_eq_zero (by omega)
  · exact .inl

/-! ## `io.ReadAll` -/

/-- the loop ends with an end of file that the tool takes for the proper end -/
def QuietEnd (r : Bytes × Option GoErr × Body × Src) : Prop := ∃ e, r.2.1 = some e ∧ e.isEOF = true

theorem readAll_quiet {c : Body} {s : Src} : (∃ e s', readAll X c s = (.error e, s') ∧ e.isEOF = true) ↔ QuietEnd (readAllLoop X (s.data.length + 2) c s 0 512) := by
  unfold readAll QuietEnd
  rcases readAllLoop X (s.data.length + 2) c s 0 512 with ⟨b, e, c', s'⟩
  cases e with
  | none => simp
  | some e => simp

theorem quiet_step {f : Nat} {c : Body} {s : Src} {len cap : Nat} {b : Bytes} {c' : Body} {s' : Src}
    (h : c.read s ((if len ≥ cap then max (cap + 1) (X.grow cap) else cap) - len) = (b, none, c', s')) :
    QuietEnd (readAllLoop X (f + 1) c s len cap) ↔ QuietEnd (readAllLoop X f c' s' (len + b.length) (if len ≥ cap then max (cap + 1) (X.grow cap) else cap)) := by
  rw [readAllLoop]
  simp only [h]
  rfl

theorem quiet_stop {f : Nat} {c : Body} {s : Src} {len cap : Nat} {b : Bytes} {c' : Body} {s' : Src} {e : GoErr}
    (h : c.read s ((if len ≥ cap then max (cap + 1) (X.grow cap) else cap) - len) = (b, some e, c', s')) :
    QuietEnd (readAllLoop X (f + 1) c s len cap) ↔ e.eqEOF = false ∧ e.isEOF = true := by
  rw [readAllLoop]
  simp only [h, QuietEnd]
  cases e.eqEOF <;> simp

theorem quiet_span {f : Nat} {s : Src} (hs : s.strict = true) {n len cap : Nat} (hb : Buf X len cap) (hf : s.data.length < f) :
    QuietEnd (readAllLoop X f (.span n) s len cap) ↔ s.data.length < n ∧ Boundary X len s.data := by
  induction f generalizing s n len cap with
  | zero => omega
  | succ f ih =>
    obtain ⟨hb', hlt⟩ := hb.next
    cases n with
    | zero => rw [quiet_stop (by rw [Body.read])]; simp [rawErr, GoErr.eqEOF]
    | succ n =>
      by_cases hd : min ((if len ≥ cap then max (cap + 1) (X.grow cap) else cap) - len) (n + 1) ≤ s.data.length
      · have hr := read_enough hs (by omega) hd
        rw [quiet_step (by simp only [Body.read, hr, Option.map_none]; try rfl)]
        have hl := List.length_take_of_le hd
        rw [ih (s := { s with data := s.data.drop _ }) hs (hb'.more (by rw [hl]; omega)) (by simp only [List.length_drop]; omega)]
        rw [hl]
        simp only [List.length_drop]
        by_cases hn : s.data.length < n + 1
        · have e : min ((if len ≥ cap then max (cap + 1) (X.grow cap) else cap) - len) (n + 1) = (if len ≥ cap then max (cap + 1) (X.grow cap) else cap) - len := by omega
          rw [e] at hd ⊢
          rw [← hb'.boundary_full hlt hd]
          exact and_congr_left' (by omega)
        · constructor <;> rintro ⟨h, -⟩ <;> omega
      · have hr := read_short hs (Nat.lt_of_not_le hd)
        rw [quiet_stop (by simp only [Body.read, hr, Option.map_some, shortErr_eqEOF, Bool.false_eq_true, and_false, if_false]; try rfl)]
        rw [hb'.boundary_short (by omega), shortErr_isEOF]
        simp only [shortErr_eqEOF, true_and]
        exact ⟨fun h => ⟨by omega, h⟩, fun h => h.2⟩

theorem quiet_indeterminate {f : Nat} {s : Src} (hs : s.strict = true) {len cap : Nat} (hb : Buf X len cap) (hf : s.data.length < f) :
    QuietEnd (readAllLoop X f .indeterminate s len cap) ↔ Boundary X len s.data := by
  induction f generalizing s len cap with
  | zero => omega
  | succ f ih =>
    obtain ⟨hb', hlt⟩ := hb.next
    by_cases hd : (if len ≥ cap then max (cap + 1) (X.grow cap) else cap) - len ≤ s.data.length
    · have hr := read_enough hs (by omega) hd
      rw [quiet_step (by simp only [Body.read, hr]; try rfl)]
      have hl := List.length_take_of_le hd
      rw [ih (s := { s with data := s.data.drop _ }) hs (hb'.more (by rw [hl]; omega)) (by simp only [List.length_drop]; omega)]
      rw [hl, ← hb'.boundary_full hlt hd]
    · have hr := read_short hs (Nat.lt_of_not_le hd)
      rw [quiet_stop (by simp only [Body.read, hr]; try rfl)]
      rw [hb'.boundary_short (by omega), shortErr_isEOF]
      simp [shortErr_eqEOF]

/-- the rest of a chunk of which `m` octets are left -/
def ChunkRest (X : Ext) (len m : Nat) (p : Bool) (d : Bytes) : Prop :=
  if d.length < m then Boundary X len d else p = true ∧ ChunkEnd X (len + m) (d.drop m)

theorem quiet_chunks {f : Nat} {s : Src} (hs : s.strict = true) {m : Nat} {p : Bool} {len cap : Nat} (hb : Buf X len cap) (hf : s.data.length < f) :
    QuietEnd (readAllLoop X f (.partialLen m p) s len cap) ↔ ChunkRest X len m p s.data := by
  induction f generalizing s m p len cap with
  | zero => omega
  | succ f ih =>
    obtain ⟨hb', hlt⟩ := hb.next
    generalize hcap : (if len ≥ cap then max (cap + 1) (X.grow cap) else cap) = cap' at hb' hlt
    have main : ∀ (c : Body) (s1 : Src) (m : Nat) (p : Bool), s1.strict = true → s1.data.length ≤ s.data.length →
        (c.read s (cap' - len) = match s1.read (min (cap' - len) (m + 1)) with
          | (b, e, s2) => (b, e.map fun e => if b.length < min (cap' - len) (m + 1) ∧ e.eqEOF then rawErr .unexpectedEOF else e,
              .partialLen (m + 1 - b.length) p, s2)) →
        (QuietEnd (readAllLoop X (f + 1) c s len cap) ↔ ChunkRest X len (m + 1) p s1.data) := by
      intro c s1 m p hs1 hle hr
      unfold ChunkRest
      by_cases hd : min (cap' - len) (m + 1) ≤ s1.data.length
      · have hr1 := read_enough hs1 (by omega) hd
        have hl := List.length_take_of_le hd
        rw [hr1] at hr
        rw [quiet_step (by rw [hcap]; exact hr), hcap]
        rw [ih (s := { s1 with data := s1.data.drop _ }) hs1 (hb'.more (by rw [hl]; omega)) (by simp only [List.length_drop]; omega)]
        rw [hl]
        unfold ChunkRest
        simp only [List.length_drop, List.drop_drop]
        by_cases hn : s1.data.length < m + 1
        · have e : min (cap' - len) (m + 1) = cap' - len := by omega
          rw [if_pos hn, if_pos (by omega)]
          rw [e] at hd ⊢
          exact (hb'.boundary_full hlt hd).symm
        · rw [if_neg hn, if_neg (by omega)]
          have e1 : len + min (cap' - len) (m + 1) + (m + 1 - min (cap' - len) (m + 1)) = len + (m + 1) := by omega
          have e2 : min (cap' - len) (m + 1) + (m + 1 - min (cap' - len) (m + 1)) = m + 1 := by omega
          rw [e1, e2]
      · have hr1 := read_short hs1 (Nat.lt_of_not_le hd)
        rw [hr1] at hr
        simp only [Option.map_some, shortErr_eqEOF, Bool.false_eq_true, and_false, if_false] at hr
        rw [quiet_stop (by rw [hcap]; exact hr), if_pos (by omega), hb'.boundary_short (by omega), shortErr_isEOF]
        simp [shortErr_eqEOF]
    cases m with
    | succ m => exact main _ s m p hs (Nat.le_refl _) (by simp only [Body.read, Nat.zero_lt_succ, gt_iff_lt, if_true]; try rfl)
    | zero =>
      cases p with
      | false =>
        rw [quiet_stop (by simp only [Body.read, Nat.lt_irrefl, gt_iff_lt, if_false, Bool.false_eq_true]; try rfl)]
        simp [rawErr, GoErr.eqEOF, ChunkRest]
      | true =>
        have e : ChunkRest X len 0 true s.data ↔ ChunkEnd X len s.data := by simp [ChunkRest]
        rw [e, chunkEnd_iff]
        rcases readLength_strict hs with ⟨n, p, r, h1, h2⟩ | ⟨e, s', h1, h2, h3, h4⟩
        · rw [h1]
          simp only
          cases n with
          | zero =>
            have hp : p = false := by
              rcases decLength_sound h1 with ⟨rfl, -⟩ | ⟨-, k, -, h, -⟩
              · rfl
              · have := Nat.two_pow_pos k; omega
            subst hp
            rw [quiet_stop (by simp only [Body.read, Nat.lt_irrefl, gt_iff_lt, if_false, if_true, h2]; try rfl)]
            simp [rawErr, GoErr.eqEOF]
          | succ n =>
            have := decLength_shorter h1
            exact main _ { s with data := r } n p hs (by simp only; omega) (by simp only [Body.read, Nat.lt_irrefl, gt_iff_lt, if_false, if_true, h2]; try rfl)
        · rw [h1]
          rw [quiet_stop (by simp only [Body.read, Nat.lt_irrefl, gt_iff_lt, if_false, if_true, h2]; try rfl)]
          simp only
          rw [← h4, h3]
          simp

/-! ## Packets -/

theorem nextPacket_of_header {s s1 : Src} {tag : Nat} {c : Body} (h : readHeader s = (.ok (tag, c), s1)) :
    (∃ e s', nextPacket X s = (.error e, s') ∧ e.isEOF = true) ↔ QuietEnd (readAllLoop X (s1.data.length + 2) c s1 0 512) := by
  rw [← readAll_quiet]
  unfold nextPacket
  rw [h]
  simp only
  rcases readAll X c s1 with ⟨a, s2⟩
  cases a <;> simp

theorem nextPacket_of_noHeader {s s1 : Src} {e : GoErr} (h : readHeader s = (.error e, s1)) :
    (∃ e s', nextPacket X s = (.error e, s') ∧ e.isEOF = true) ↔ e.isEOF = true := by
  unfold nextPacket
  rw [h]
  simp

theorem nextPacket_quiet {s : Src} (hs : s.strict = true) : (∃ e s', nextPacket X s = (.error e, s') ∧ e.isEOF = true) ↔ KeyEnd X s.data := by
  have hs' : ∀ d, ({ s with data := d } : Src).strict = true := fun _ => hs
  cases hd : s.data with
  | nil =>
    rw [nextPacket_of_noHeader (by unfold readHeader; rw [fullIO_short hs (by simp [hd])])]
    simp [shortErr, hd, wrapErr, GoErr.isEOF, KeyEnd.nil]
  | cons h r =>
    have hb : s.readFullIO 1 = (.ok [h], { s with data := r }) := by
      rw [fullIO_enough hs (by omega) (by simp [hd])]
      simp [hd]
    by_cases h1 : h.toNat < 128
    · rw [nextPacket_of_noHeader (by unfold readHeader; rw [hb]; simp only [beNat_singleton, h1, if_true]; rfl)]
      constructor
      · intro h; cases h
      · intro h; cases h <;> omega
    by_cases h2 : h.toNat < 192
    · by_cases h3 : h.toNat % 4 = 3
      · rw [nextPacket_of_header (by unfold readHeader; rw [hb]; simp only [beNat_singleton, h1, h2, h3, if_true, if_false]; rfl)]
        rw [quiet_indeterminate (hs' _) .start (by omega)]
        constructor
        · exact .indeterminate (by omega) h2 h3
        · intro h
          cases h <;> first | omega | assumption
      · by_cases hl : r.length < 2 ^ (h.toNat % 4)
        · rw [nextPacket_of_noHeader (by unfold readHeader; rw [hb]; simp only [beNat_singleton, h1, h2, h3, if_true, if_false]; rw [full_short (hs' _) (by simpa using hl)])]
          rw [shortErr_isEOF]
          constructor
          · intro h; simp only at h; subst h; exact .header (by omega) h2 h3
          · intro h
            cases h with
            | header => rfl
            | old _ _ _ hl' => simp [hl'] at hl; omega
            | indeterminate _ _ h => omega
            | new h => omega
        · have hp := Nat.two_pow_pos (h.toNat % 4)
          rw [nextPacket_of_header (by
            unfold readHeader; rw [hb]; simp only [beNat_singleton, h1, h2, h3, if_true, if_false]
            rw [full_enough (hs' _) hp (by simpa using hl)])]
          rw [quiet_span (hs' _) .start (by simp only; omega)]
          constructor
          · rintro ⟨h4, h5⟩
            have := KeyEnd.old (X := X) (h := h) (lenc := r.take (2 ^ (h.toNat % 4))) (by omega) h2 h3 (by rw [List.length_take]; omega) h4 h5
            simpa using this
          · intro h
            cases h with
            | header => simp at hl
            | old _ _ _ hl' hd' hb' => simpa [← hl'] using And.intro hd' hb'
            | indeterminate _ _ h => omega
            | new h => omega
    · have e : KeyEnd X (h :: r) ↔ ChunkEnd X 0 r := by
        constructor
        · intro h
          cases h <;> first | omega | assumption
        · exact .new (by omega)
      rw [e, chunkEnd_iff]
      rcases readLength_strict (s := { s with data := r }) (hs' _) with ⟨n, p, r', h3, h4⟩ | ⟨e, s', h3, h4, h5, h6⟩
      · simp only at h3
        rw [h3]
        cases p with
        | false =>
          rw [nextPacket_of_header (by unfold readHeader; rw [hb]; simp only [beNat_singleton, h1, h2, if_false, h4]; rfl)]
          rw [quiet_span (hs' _) .start (by omega)]
          simp only
          split <;> simp [*]
        | true =>
          rw [nextPacket_of_header (by unfold readHeader; rw [hb]; simp only [beNat_singleton, h1, h2, if_false, h4]; rfl)]
          rw [quiet_chunks (hs' _) .start (by omega)]
          rfl
      · simp only at h3 h6
        rw [h3]
        rw [nextPacket_of_noHeader (by unfold readHeader; rw [hb]; simp only [beNat_singleton, h1, h2, if_false, h4]; rfl)]
        exact h6

/-- the packets of a key block -/
theorem loopOK_block {R : Nat → Bytes → Prop} {f : Nat} {src : Src} (hs : src.strict = true) (hf : src.data.length < f) :
    LoopOK X R f src ↔ ∃ ps a b, src.data = a ++ b ∧ ClosedSeq ps a ∧ (∀ p ∈ ps, R p.1 p.2) ∧ KeyEnd X b := by
  induction f generalizing src with
  | zero => omega
  | succ f ih =>
    obtain ⟨hk, hm⟩ := nextPacket_spec (X := X) (s := src) (.inl hs)
    have hq := nextPacket_quiet (X := X) hs
    unfold LoopOK
    rcases hn : nextPacket X src with ⟨r, src'⟩
    rw [hn] at hk hm hq
    cases r with
    | error e =>
      have hq' : e.isEOF = true ↔ KeyEnd X src.data := by rw [← hq]; simp
      simp only
      rw [hq']
      constructor
      · intro h; exact ⟨[], [], src.data, rfl, .nil, by simp, h⟩
      · rintro ⟨ps, a, b, hd, hc, -, hb⟩
        cases hc with
        | nil => rw [hd]; exact hb
        | @cons tag body ps enc a he hps =>
          rw [hd, List.append_assoc, decNext_complete he] at hm
          simp at hm
    | ok tb =>
      obtain ⟨tag, body⟩ := tb
      simp only at hm ⊢
      cases hdec : decNext src.data with
      | packet t b rest =>
        rw [hdec] at hm
        simp only at hm
        obtain ⟨h1, h2⟩ := hm
        cases h1
        have := decNext_shorter hdec
        have h2 : src'.data = rest := h2
        rw [ih (hk.strict.trans hs) (by rw [h2]; omega), h2]
        constructor
        · rintro ⟨hr, ps, a, b, rfl, hc, hp, hb⟩
          obtain ⟨enc, he, hd⟩ := decNext_sound hdec
          exact ⟨(tag, body) :: ps, enc ++ a, b, by rw [hd]; simp, .cons he hc, by simpa using ⟨hr, fun a b h => hp (a, b) h⟩, hb⟩
        · rintro ⟨ps, a, b, hd, hc, hp, hb⟩
          cases hc with
          | nil =>
            rw [hd] at hq
            obtain ⟨e, s', h, -⟩ := hq.mpr hb
            cases h
          | @cons tag' body' ps enc a he hps =>
            rw [hd, List.append_assoc, decNext_complete he] at hdec
            cases hdec
            exact ⟨hp (tag, body) (by simp), ps, a, b, rfl, hps, fun p h => hp p (by simp [h]), hb⟩
      | _ => rw [hdec] at hm; simp [hs] at hm

end Gpgpdump
