import Verif.DecodeLemmas

/-!
# The modelled packet reader computes the reference decoder

For every byte source that is not "eager" (see `Src`), whatever its read schedule.
-/

namespace Gpgpdump
open Spec

namespace Src

/-- a source that never reports its final error together with data -/
def Lazy (s : Src) : Prop := s.strict = true ∨ s.eager = false

/-- `s'` is what may be left of `s` -/
structure Kin (s s' : Src) : Prop where
  tail : s'.tail = s.tail
  eager : s'.eager = s.eager
  strict : s'.strict = s.strict

theorem Kin.refl (s : Src) : Kin s s := ⟨rfl, rfl, rfl⟩
theorem Kin.trans {a b c : Src} (h : Kin a b) (h' : Kin b c) : Kin a c :=
  ⟨h'.tail.trans h.tail, h'.eager.trans h.eager, h'.strict.trans h.strict⟩
theorem Kin.isLazy {a b : Src} (h : Kin a b) (l : Lazy a) : Lazy b := by
  unfold Lazy at *; rw [h.eager, h.strict]; exact l

/-- the error a read on an exhausted source reports -/
def Short (s : Src) (e : GoErr) : Prop :=
  (s.strict = false ∧ e = s.tail) ∨ (s.strict = true ∧ (e = wrapErr .eof ∨ e = wrapErr .unexpectedEOF))

/-- EOF becomes unexpected EOF -/
def trunc (e : GoErr) : GoErr := if e.eqEOF then rawErr .unexpectedEOF else e

/-- the error reported when the source ends inside a packet -/
def TruncErr (s : Src) (e : GoErr) : Prop :=
  (s.strict = false ∧ e = trunc s.tail) ∨ (s.strict = true ∧ (e = wrapErr .eof ∨ e = wrapErr .unexpectedEOF))

theorem Short.kin {s s' e} (k : Kin s s') (h : Short s' e) : Short s e := by
  unfold Short at *; rwa [k.tail, k.strict] at h
theorem TruncErr.kin {s s' e} (k : Kin s s') (h : TruncErr s' e) : TruncErr s e := by
  unfold TruncErr at *; rwa [k.tail, k.strict] at h

theorem trunc_not_eqEOF (e : GoErr) : (trunc e).eqEOF = false := by
  unfold trunc; split
  · rfl
  · simp_all

theorem TruncErr.not_eqEOF {s e} (h : TruncErr s e) : e.eqEOF = false := by
  rcases h with ⟨_, rfl⟩ | ⟨_, rfl | rfl⟩
  · exact trunc_not_eqEOF _
  · rfl
  · rfl

theorem Short.trunc {s e} (h : Short s e) : TruncErr s (if e.eqEOF then rawErr .unexpectedEOF else e) := by
  rcases h with ⟨hs, rfl⟩ | ⟨hs, rfl | rfl⟩
  · exact .inl ⟨hs, rfl⟩
  · exact .inr ⟨hs, .inl rfl⟩
  · exact .inr ⟨hs, .inr rfl⟩

theorem TruncErr.trunc {s e} (h : TruncErr s e) : (if e.eqEOF then rawErr .unexpectedEOF else e) = e := by
  rw [h.not_eqEOF]; rfl

/-- one read of a lazy source -/
theorem read_spec {s : Src} (l : Lazy s) {n : Nat} (hn : 0 < n) :
    (∃ b s', s.read n = (b, none, s') ∧ s.data = b ++ s'.data ∧ 0 < b.length ∧ b.length ≤ n ∧ Kin s s') ∨
    (∃ e, s.read n = ([], some e, s) ∧ s.data.length < n ∧ Short s e ∧ (s.strict = false → s.data = [])) := by
  unfold read
  by_cases hs : s.strict = true
  · rw [if_pos hs]
    by_cases hd : s.data.isEmpty = true
    · rw [if_pos hd]
      refine .inr ⟨_, rfl, ?_, .inr ⟨hs, .inl rfl⟩, by simp [hs]⟩
      simp only [List.isEmpty_iff] at hd; simp [hd, hn]
    · rw [if_neg hd]
      by_cases hl : n > s.data.length
      · rw [if_pos hl]
        exact .inr ⟨_, rfl, hl, .inr ⟨hs, .inr rfl⟩, by simp [hs]⟩
      · rw [if_neg hl]
        refine .inl ⟨_, _, rfl, by simp, ?_, ?_, ⟨rfl, rfl, rfl⟩⟩ <;> rw [List.length_take] <;> omega
  · have he : s.eager = false := by rcases l with h | h; exact absurd h hs; exact h
    have hs' : s.strict = false := by simpa using hs
    rw [if_neg hs]
    by_cases hd : s.data.isEmpty = true
    · rw [if_pos hd]
      simp only [List.isEmpty_iff] at hd
      exact .inr ⟨_, rfl, by simp [hd, hn], .inl ⟨hs', rfl⟩, fun _ => hd⟩
    · rw [if_neg hd]
      have hpos : 0 < s.data.length := by
        cases h : s.data with
        | nil => simp [h] at hd
        | cons => simp
      simp only [he, Bool.false_and, Bool.false_eq_true, if_false]
      refine .inl ⟨_, _, rfl, by simp, ?_, ?_, ⟨rfl, he.symm, rfl⟩⟩
      · rw [List.length_take]; split <;> omega
      · rw [List.length_take]; split <;> omega

theorem read_data_le {s : Src} (l : Lazy s) {n : Nat} (hn : 0 < n) {b s'} (h : s.read n = (b, none, s')) :
    s'.data.length < s.data.length := by
  rcases read_spec l hn with ⟨b', s'', h', hd, hb, _, _⟩ | ⟨e, h', _⟩
  · rw [h'] at h; simp only [Prod.mk.injEq, true_and] at h; obtain ⟨rfl, rfl⟩ := h; rw [hd]; simp; omega
  · rw [h'] at h; simp at h

theorem fill_spec {f : Nat} {s : Src} (l : Lazy s) {n : Nat} (hf : n < f) :
    (∃ s', fill f s n = (s.data.take n, none, s') ∧ n ≤ s.data.length ∧ s'.data = s.data.drop n ∧ Kin s s') ∨
    (∃ b e s', fill f s n = (b, some e, s') ∧ s.data.length < n ∧ b.length < n ∧ Short s e ∧ Kin s s' ∧
      (s.strict = false → b = s.data)) := by
  induction f generalizing s n with
  | zero => omega
  | succ f ih =>
    cases n with
    | zero => exact .inl ⟨s, by simp [fill], by omega, by simp, .refl _⟩
    | succ n =>
      rcases read_spec l (Nat.succ_pos n) with ⟨b, s', h', hd, hb, hbn, k⟩ | ⟨e, h', hlt, hsh, hnil⟩
      · have hfr : fill (f + 1) s (n + 1) = (match fill f s' (n + 1 - b.length) with | (b', e, s'') => (b ++ b', e, s'')) := by
          rw [fill, h']
        rcases ih (k.isLazy l) (n := n + 1 - b.length) (by omega) with ⟨s'', h2, hle, hd2, k2⟩ | ⟨b2, e, s'', h2, hlt, hbl, hsh, k2, hnil⟩
        · refine .inl ⟨s'', ?_, ?_, ?_, k.trans k2⟩
          · rw [hfr, h2, hd, List.take_append]
            simp only [Prod.mk.injEq, and_true]
            rw [List.take_of_length_le (l := b) (by omega)]
          · rw [hd, List.length_append]; omega
          · rw [hd2, hd, List.drop_append]; rw [List.drop_of_length_le (l := b) (by omega)]; simp
        · refine .inr ⟨b ++ b2, e, s'', by rw [hfr, h2], ?_, ?_, hsh.kin k, k.trans k2, ?_⟩
          · rw [hd, List.length_append]; omega
          · rw [List.length_append]; omega
          · intro hs; rw [hnil (k.strict.trans hs), ← hd]
      · refine .inr ⟨[], e, s, by rw [fill, h'], hlt, by simp, hsh, .refl _, fun hs => (hnil hs).symm⟩

theorem readFullIO_spec {s : Src} (l : Lazy s) {n : Nat} :
    (∃ s', s.readFullIO n = (.ok (s.data.take n), s') ∧ n ≤ s.data.length ∧ s'.data = s.data.drop n ∧ Kin s s') ∨
    (∃ e s', s.readFullIO n = (.error e, s') ∧ s.data.length < n ∧ Kin s s' ∧
      ((s.data = [] ∧ Short s e) ∨ (s.data ≠ [] ∧ TruncErr s e))) := by
  rcases fill_spec (f := n + 1) l (n := n) (by omega) with ⟨s', h, hle, hd, k⟩ | ⟨b, e, s', h, hlt, hbl, hsh, k, hnil⟩
  · refine .inl ⟨s', ?_, hle, hd, k⟩
    simp only [readFullIO, h]
    rw [if_pos (by rw [List.length_take]; omega)]
  · refine .inr ⟨if b.length > 0 ∧ e.eqEOF then rawErr .unexpectedEOF else e, s', ?_, hlt, k, ?_⟩
    · simp only [readFullIO, h]
      rw [if_neg (by omega)]
    · by_cases hs : s.strict = true
      · have : e = wrapErr .eof ∨ e = wrapErr .unexpectedEOF := by
          rcases hsh with ⟨h1, _⟩ | ⟨_, h2⟩
          · simp [h1] at hs
          · exact h2
        have he : e.eqEOF = false := by rcases this with rfl | rfl <;> rfl
        simp only [he, Bool.false_eq_true, and_false, if_false]
        by_cases hd : s.data = []
        · exact .inl ⟨hd, .inr ⟨hs, this⟩⟩
        · exact .inr ⟨hd, .inr ⟨hs, this⟩⟩
      · have hs' : s.strict = false := by simpa using hs
        rw [hnil hs']
        by_cases hd : s.data = []
        · left
          refine ⟨hd, ?_⟩
          simpa [hd] using hsh
        · right
          refine ⟨hd, ?_⟩
          have : s.data.length > 0 := List.length_pos_iff.mpr hd
          simp only [this, true_and]
          exact hsh.trunc

theorem readFull_spec {s : Src} (l : Lazy s) {n : Nat} :
    (∃ s', s.readFull n = (.ok (s.data.take n), s') ∧ n ≤ s.data.length ∧ s'.data = s.data.drop n ∧ Kin s s') ∨
    (∃ e s', s.readFull n = (.error e, s') ∧ s.data.length < n ∧ Kin s s' ∧ TruncErr s e) := by
  rcases readFullIO_spec l (n := n) with ⟨s', h, hle, hd, k⟩ | ⟨e, s', h, hlt, k, hc⟩
  · exact .inl ⟨s', by simp only [readFull, h], hle, hd, k⟩
  · refine .inr ⟨if e.eqEOF then rawErr .unexpectedEOF else e, s', by simp only [readFull, h], hlt, k, ?_⟩
    rcases hc with ⟨_, hsh⟩ | ⟨_, ht⟩
    · exact hsh.trunc
    · rw [ht.trunc]; exact ht

end Src

open Src

theorem readLength_spec {s : Src} (l : Lazy s) :
    (∃ n p s', readLength s = (.ok (n, p), s') ∧ decLength s.data = some (n, p, s'.data) ∧ Kin s s') ∨
    (∃ e s', readLength s = (.error e, s') ∧ decLength s.data = none ∧ Kin s s' ∧ TruncErr s e) := by
  unfold readLength
  rcases readFull_spec l (n := 1) with ⟨s1, h1, hl1, hd1, k1⟩ | ⟨e, s1, h1, hlt, k1, ht⟩
  · cases hd : s.data with
    | nil => simp [hd] at hl1
    | cons b0 r =>
      rw [hd] at h1 hd1
      simp only [List.take_succ_cons, List.take_zero, List.drop_succ_cons, List.drop_zero] at h1 hd1
      rw [h1]
      simp only [beNat_singleton, decLength]
      split
      · exact .inl ⟨_, _, s1, rfl, by rw [hd1], k1⟩
      · split
        · rcases readFull_spec (k1.isLazy l) (n := 1) with ⟨s2, h2, hl2, hd2, k2⟩ | ⟨e, s2, h2, hlt, k2, ht⟩
          · rw [hd1] at h2 hl2 hd2
            cases r with
            | nil => simp at hl2
            | cons b1 r =>
              simp only [List.take_succ_cons, List.take_zero, List.drop_succ_cons, List.drop_zero] at h2 hd2
              rw [h2]
              exact .inl ⟨_, _, s2, rfl, by simp [hd2], k1.trans k2⟩
          · rw [hd1] at hlt
            cases r with
            | nil => rw [h2]; exact .inr ⟨_, _, rfl, rfl, k1.trans k2, ht.kin k1⟩
            | cons => simp at hlt
        · split
          · exact .inl ⟨_, _, s1, rfl, by rw [hd1], k1⟩
          · rcases readFull_spec (k1.isLazy l) (n := 4) with ⟨s2, h2, hl2, hd2, k2⟩ | ⟨e, s2, h2, hlt, k2, ht⟩
            · rw [hd1] at h2 hl2 hd2
              rw [h2, if_neg (by omega)]
              exact .inl ⟨_, _, s2, rfl, by rw [hd2], k1.trans k2⟩
            · rw [hd1] at hlt
              rw [h2, if_pos hlt]
              exact .inr ⟨_, _, rfl, rfl, k1.trans k2, ht.kin k1⟩
  · have hd : s.data = [] := by
      cases h : s.data with
      | nil => rfl
      | cons => simp [h] at hlt
    rw [h1, hd]
    exact .inr ⟨_, _, rfl, rfl, k1, ht⟩

/-! ## Chunks without fuel -/

theorem decLength_shorter {d n p r} (h : decLength d = some (n, p, r)) : r.length < d.length := by
  rcases decLength_sound h with ⟨_, lenc, hl, rfl⟩ | ⟨_, k, _, _, rfl⟩
  · cases hl <;> simp <;> omega
  · simp

theorem decChunks_fuel {f g : Nat} {m p d} (hf : d.length < f) (hg : d.length < g) :
    decChunks f m p d = decChunks g m p d := by
  induction f generalizing g m p d with
  | zero => omega
  | succ f ih =>
    cases g with
    | zero => omega
    | succ g =>
      simp only [decChunks]
      split
      · rfl
      · split
        · split
          · rfl
          · rename_i n p r hl
            have := decLength_shorter hl
            rw [List.length_drop] at this
            rw [ih (g := g) (by omega) (by omega)]
        · rfl

/-- consuming part of a chunk -/
theorem decChunks_step {f : Nat} {m p} {b r : Bytes} (hf : (b ++ r).length < f) (hb : b.length ≤ m) :
    decChunks f m p (b ++ r) = (decChunks f (m - b.length) p r).map fun x => (b ++ x.1, x.2) := by
  cases f with
  | zero => omega
  | succ f =>
    simp only [decChunks]
    have e1 : (b ++ r).drop m = r.drop (m - b.length) := by
      rw [List.drop_append, List.drop_of_length_le hb]; simp
    have e2 : (b ++ r).take m = b ++ r.take (m - b.length) := by
      rw [List.take_append, List.take_of_length_le hb]
    rw [e1, e2]
    by_cases h : (b ++ r).length < m
    · rw [if_pos h, if_pos (by rw [List.length_append] at h; omega)]; rfl
    · have hr : ¬ r.length < m - b.length := by rw [List.length_append] at h; omega
      rw [if_neg h, if_neg hr]
      cases p with
      | false => rfl
      | true =>
        simp only [if_true]
        split
        · rfl
        · split
          · rfl
          · simp

/-! ## io.ReadAll on a body -/

theorem readAllLoop_span {X : Ext} {f : Nat} {s : Src} (l : Lazy s) {n len cap : Nat} (hc : len ≤ cap)
    (hf : s.data.length < f) :
    (∃ c s', readAllLoop X f (.span n) s len cap = (s.data.take n, none, c, s') ∧ n ≤ s.data.length ∧
      s'.data = s.data.drop n ∧ Kin s s') ∨
    (∃ b e c s', readAllLoop X f (.span n) s len cap = (b, some e, c, s') ∧ s.data.length < n ∧ TruncErr s e ∧ Kin s s') := by
  induction f generalizing s n len cap with
  | zero => omega
  | succ f ih =>
    simp only [readAllLoop]
    generalize hcap : (if len ≥ cap then max (cap + 1) (X.grow cap) else cap) = cap'
    have hcap' : len < cap' := by rw [← hcap]; split <;> omega
    cases n with
    | zero =>
      refine .inl ⟨.span 0, s, ?_, by omega, by simp, .refl _⟩
      simp [Body.read, rawErr, GoErr.eqEOF]
    | succ n =>
      simp only [Body.read]
      rcases read_spec l (n := min (cap' - len) (n + 1)) (by omega) with ⟨b, s', h', hd, hb, hbn, k⟩ | ⟨e, h', hlt, hsh, hnil⟩
      · rw [h']
        simp only [Option.map_none]
        have hlen : s.data.length = b.length + s'.data.length := by rw [hd, List.length_append]
        rcases ih (k.isLazy l) (n := n + 1 - b.length) (len := len + b.length) (cap := cap') (by omega) (by omega) with
          ⟨c, s'', h2, hle, hd2, k2⟩ | ⟨b2, e, c, s'', h2, hlt, ht, k2⟩
        · rw [h2]
          refine .inl ⟨c, s'', ?_, by omega, ?_, k.trans k2⟩
          · simp only [Prod.mk.injEq, and_true, hd, List.take_append]
            rw [List.take_of_length_le (l := b) (by omega)]
          · rw [hd2, hd, List.drop_append]; rw [List.drop_of_length_le (l := b) (by omega)]; simp
        · rw [h2]
          exact .inr ⟨_, _, _, _, rfl, by omega, ht.kin k, k.trans k2⟩
      · rw [h']
        simp only [Option.map_some, List.length_nil, Nat.sub_zero, true_and, gt_iff_lt, Nat.zero_lt_succ]
        have ht := hsh.trunc
        rw [if_neg (by simp [ht.not_eqEOF])]
        exact .inr ⟨_, _, _, _, rfl, by omega, ht, .refl _⟩

/-- one read of a chunked body -/
theorem read_partial {s : Src} (l : Lazy s) {m : Nat} {p : Bool} {n : Nat} (hn : 0 < n) :
    (∃ b m' p' s', Body.read (.partialLen m p) s n = (b, none, .partialLen m' p', s') ∧ b.length ≤ n ∧ Kin s s' ∧
      s'.data.length < s.data.length ∧ ∀ f, s.data.length < f →
        decChunks f m p s.data = (decChunks f m' p' s'.data).map fun x => (b ++ x.1, x.2)) ∨
    (∃ c s', Body.read (.partialLen m p) s n = ([], some (rawErr .eof), c, s') ∧ Kin s s' ∧
      ∀ f, s.data.length < f → decChunks f m p s.data = some ([], s'.data)) ∨
    (∃ b e c s', Body.read (.partialLen m p) s n = (b, some e, c, s') ∧ Kin s s' ∧ TruncErr s e ∧
      ∀ f, s.data.length < f → decChunks f m p s.data = none) := by
  have main : ∀ (s1 : Src) (m : Nat) (p : Bool), Kin s s1 →
      (∃ b s', s1.read (min n (m + 1)) = (b, none, s') ∧ b.length ≤ n ∧ Kin s s' ∧ s'.data.length < s1.data.length ∧
        ∀ f, s1.data.length < f →
        decChunks f (m + 1) p s1.data = (decChunks f (m + 1 - b.length) p s'.data).map fun x => (b ++ x.1, x.2)) ∨
      (∃ e, s1.read (min n (m + 1)) = ([], some e, s1) ∧
        TruncErr s (if e.eqEOF then rawErr .unexpectedEOF else e) ∧
        ∀ f, s1.data.length < f → decChunks f (m + 1) p s1.data = none) := by
    intro s1 m p k1
    rcases read_spec (k1.isLazy l) (n := min n (m + 1)) (by omega) with
      ⟨b, s2, h', hd, hb, hbn, k⟩ | ⟨e, h', hlt, hsh, hnil⟩
    · refine .inl ⟨b, s2, h', by omega, k1.trans k, by rw [hd, List.length_append]; omega, fun f hf => ?_⟩
      rw [hd, decChunks_step (by rw [← hd]; exact hf) (by omega)]
    · refine .inr ⟨e, h', hsh.trunc.kin k1, fun f hf => ?_⟩
      cases f with
      | zero => omega
      | succ f => simp only [decChunks]; rw [if_pos (by omega)]
  simp only [Body.read]
  cases m with
  | succ m =>
    simp only [gt_iff_lt, Nat.zero_lt_succ, if_true]
    rcases main s m p (.refl _) with ⟨b, s', h, hb, k, hl, hd⟩ | ⟨e, h, ht, hd⟩
    · rw [h]; exact .inl ⟨_, _, _, _, rfl, hb, k, hl, hd⟩
    · rw [h]
      refine .inr (.inr ⟨_, _, _, _, rfl, .refl _, ?_, hd⟩)
      have : List.length ([] : Bytes) < min n (m + 1) := by simp; omega
      simp only [this, true_and]; exact ht
  | zero =>
    simp only [gt_iff_lt, Nat.lt_irrefl, if_false]
    cases p with
    | false =>
      refine .inr (.inl ⟨_, _, rfl, .refl _, fun f hf => ?_⟩)
      cases f with
      | zero => omega
      | succ f => simp [decChunks]
    | true =>
      simp only [if_true]
      rcases readLength_spec l with ⟨n', p', s1, h1, hd1, k1⟩ | ⟨e, s1, h1, hd1, k1, ht⟩
      · have hsh := decLength_shorter hd1
        have hdc : ∀ f, s.data.length < f → decChunks f 0 true s.data = decChunks f n' p' s1.data := by
          intro f hf
          cases f with
          | zero => omega
          | succ f =>
            rw [decChunks]
            simp only [Nat.not_lt_zero, if_false, if_true, List.drop_zero, List.take_zero, List.nil_append, hd1]
            rw [decChunks_fuel (f := f) (g := f + 1) (by omega) (by omega)]
            cases decChunks (f + 1) n' p' s1.data <;> rfl
        rw [h1]
        cases n' with
        | zero =>
          have : p' = false := by
            rcases decLength_sound hd1 with ⟨h, _⟩ | ⟨_, k, _, h0, _⟩
            · exact h
            · have := Nat.two_pow_pos k; omega
          subst this
          refine .inr (.inl ⟨_, s1, rfl, k1, fun f hf => ?_⟩)
          rw [hdc f hf]
          cases f with
          | zero => omega
          | succ f => simp [decChunks]
        | succ m =>
          rcases main s1 m p' k1 with ⟨b, s', h, hb, k, hl, hd⟩ | ⟨e, h, ht, hd⟩
          · simp only [h, Option.map_none]
            exact .inl ⟨_, _, _, _, rfl, hb, k, by omega, fun f hf => by rw [hdc f hf, hd f (by omega)]⟩
          · simp only [h, Option.map_some]
            refine .inr (.inr ⟨_, _, _, _, rfl, k1, ?_, fun f hf => by rw [hdc f hf, hd f (by omega)]⟩)
            have : List.length ([] : Bytes) < min n (m + 1) := by simp; omega
            simp only [this, true_and]; exact ht
      · rw [h1]
        refine .inr (.inr ⟨_, _, _, _, rfl, k1, ht, fun f hf => ?_⟩)
        cases f with
        | zero => omega
        | succ f => simp [decChunks, hd1]

theorem readAllLoop_partial {X : Ext} {f : Nat} {s : Src} (l : Lazy s) {m : Nat} {p : Bool} {len cap : Nat} (hc : len ≤ cap)
    (hf : s.data.length < f) :
    (∃ b c s', readAllLoop X f (.partialLen m p) s len cap = (b, none, c, s') ∧
      decChunks f m p s.data = some (b, s'.data) ∧ Kin s s') ∨
    (∃ b e c s', readAllLoop X f (.partialLen m p) s len cap = (b, some e, c, s') ∧ decChunks f m p s.data = none ∧
      TruncErr s e ∧ Kin s s') := by
  induction f generalizing s m p len cap with
  | zero => omega
  | succ f ih =>
    simp only [readAllLoop]
    generalize hcap : (if len ≥ cap then max (cap + 1) (X.grow cap) else cap) = cap'
    have hcap' : len < cap' := by rw [← hcap]; split <;> omega
    rcases read_partial l (m := m) (p := p) (n := cap' - len) (by omega) with
      ⟨b, m', p', s', h, hb, k, hl, hd⟩ | ⟨c, s', h, k, hd⟩ | ⟨b, e, c, s', h, k, ht, hd⟩
    · rw [h]
      simp only
      have hd' := hd (f + 1) hf
      rw [decChunks_fuel (f := f + 1) (g := f) (d := s'.data) (by omega) (by omega)] at hd'
      rcases ih (k.isLazy l) (m := m') (p := p') (len := len + b.length) (cap := cap') (by omega) (by omega) with
        ⟨b2, c, s3, h2, hdc, k2⟩ | ⟨b2, e, c, s3, h2, hdc, ht, k2⟩
      · rw [h2]
        exact .inl ⟨_, _, _, rfl, by rw [hd', hdc]; rfl, k.trans k2⟩
      · rw [h2]
        exact .inr ⟨_, _, _, _, rfl, by rw [hd', hdc]; rfl, ht.kin k, k.trans k2⟩
    · rw [h]
      exact .inl ⟨_, _, _, rfl, hd _ hf, k⟩
    · rw [h]
      simp only [ht.not_eqEOF, Bool.false_eq_true, if_false]
      exact .inr ⟨_, _, _, _, rfl, hd _ hf, ht, k⟩

theorem readAllLoop_indet {X : Ext} {f : Nat} {s : Src} (l : Lazy s) {len cap : Nat} (hc : len ≤ cap)
    (hf : s.data.length < f) :
    ∃ b e c s', readAllLoop X f .indeterminate s len cap = (b, e, c, s') ∧ Kin s s' ∧
      (s.strict = true → e = some (wrapErr .eof) ∨ e = some (wrapErr .unexpectedEOF)) ∧
      (s.strict = false → b = s.data ∧ s'.data = [] ∧ e = if s.tail.eqEOF then none else some s.tail) := by
  induction f generalizing s len cap with
  | zero => omega
  | succ f ih =>
    simp only [readAllLoop, Body.read]
    generalize hcap : (if len ≥ cap then max (cap + 1) (X.grow cap) else cap) = cap'
    have hcap' : len < cap' := by rw [← hcap]; split <;> omega
    rcases read_spec l (n := cap' - len) (by omega) with ⟨b, s', h', hd, hb, hbn, k⟩ | ⟨e, h', hlt, hsh, hnil⟩
    · rw [h']
      have hlen : s.data.length = b.length + s'.data.length := by rw [hd, List.length_append]
      obtain ⟨b2, e, c, s2, h2, k2, hst, hns⟩ := ih (k.isLazy l) (len := len + b.length) (cap := cap') (by omega) (by omega)
      simp only [h2]
      refine ⟨_, _, _, _, rfl, k.trans k2, fun hs => hst (k.strict.trans hs), fun hs => ?_⟩
      obtain ⟨rfl, h3, h4⟩ := hns (k.strict.trans hs)
      exact ⟨hd.symm, h3, by rw [h4, k.tail]⟩
    · rw [h']
      refine ⟨_, _, _, _, rfl, .refl _, ?_, ?_⟩
      · intro hs
        rcases hsh with ⟨h, _⟩ | ⟨_, rfl | rfl⟩
        · simp [h] at hs
        · exact .inl rfl
        · exact .inr rfl
      · intro hs
        rcases hsh with ⟨_, rfl⟩ | ⟨h, _⟩
        · exact ⟨(hnil hs).symm, hnil hs, rfl⟩
        · simp [h] at hs

/-! ## The next packet -/

/-- What `nextPacket` does, in terms of the reference decoder. -/
def NextSpec (s : Src) (r : Except GoErr (Nat × Bytes) × Src) : Prop :=
  Kin s r.2 ∧
  match decNext s.data with
  | .packet tag body rest => r.1 = .ok (tag, body) ∧ r.2.data = rest
  | .toEnd tag body =>
    (s.strict = false → (s.tail.eqEOF = true → r.1 = .ok (tag, body) ∧ r.2.data = []) ∧
      (s.tail.eqEOF = false → r.1 = .error s.tail)) ∧
    (s.strict = true → r.1 = .error (wrapErr .eof) ∨ r.1 = .error (wrapErr .unexpectedEOF))
  | .noMSB => r.1 = .error (rawErr .noMSB)
  | .truncated => ∃ e, r.1 = .error e ∧ TruncErr s e
  | .atEnd => ∃ e, r.1 = .error e ∧ Short s e

theorem nextPacket_spec {X : Ext} {s : Src} (l : Lazy s) : NextSpec s (nextPacket X s) := by
  unfold nextPacket readHeader NextSpec
  rcases readFullIO_spec l (n := 1) with ⟨s1, h1, hl1, hd1, k1⟩ | ⟨e, s1, h1, hlt, k1, hc⟩
  · cases hd : s.data with
    | nil => simp [hd] at hl1
    | cons b r =>
      rw [hd] at h1 hd1
      simp only [List.take_succ_cons, List.take_zero, List.drop_succ_cons, List.drop_zero] at h1 hd1
      have l1 := k1.isLazy l
      rw [h1]
      simp only [beNat_singleton, decNext]
      by_cases hb0 : b.toNat < 128
      · simp only [hb0, if_true]
        exact ⟨k1, trivial⟩
      · simp only [hb0, if_false]
        by_cases hb1 : b.toNat < 192
        · simp only [hb1, if_true]
          by_cases hb2 : b.toNat % 4 = 3
          · simp only [hb2, if_true]
            unfold readAll
            obtain ⟨b2, e, c, s2, h2, k2, hst, hns⟩ :=
              readAllLoop_indet (X := X) l1 (f := s1.data.length + 2) (len := 0) (cap := 512) (by omega) (by omega)
            rw [h2]
            cases e with
            | none =>
              refine ⟨k1.trans k2, ⟨?_, ?_⟩⟩
              · intro hs
                obtain ⟨rfl, h3, h4⟩ := hns (k1.strict.trans hs)
                rw [k1.tail] at h4
                refine ⟨fun _ => ⟨by rw [hd1], h3⟩, fun ht => by simp [ht] at h4⟩
              · intro hs; simpa using hst (k1.strict.trans hs)
            | some e =>
              refine ⟨k1.trans k2, ⟨?_, ?_⟩⟩
              · intro hs
                obtain ⟨rfl, h3, h4⟩ := hns (k1.strict.trans hs)
                rw [k1.tail] at h4
                refine ⟨fun ht => by simp [ht] at h4, fun ht => ?_⟩
                rw [ht] at h4
                simp only [Bool.false_eq_true, if_false, Option.some.injEq] at h4
                rw [h4]
              · intro hs; simpa using hst (k1.strict.trans hs)
          · simp only [hb2, if_false]
            rcases readFull_spec l1 (n := 2 ^ (b.toNat % 4)) with ⟨s2, h2, hl2, hd2, k2⟩ | ⟨e, s2, h2, hlt, k2, ht⟩
            · rw [hd1] at h2 hl2 hd2
              rw [h2, if_neg (by omega)]
              simp only
              unfold readAll
              rcases readAllLoop_span (X := X) (k2.isLazy l1) (f := s2.data.length + 2) (len := 0) (cap := 512)
                  (n := beNat (r.take (2 ^ (b.toNat % 4)))) (by omega) (by omega) with
                ⟨c, s3, h3, hle, hd3, k3⟩ | ⟨b2, e, c, s3, h3, hlt, ht, k3⟩
              · rw [h3]
                rw [hd2] at hle
                simp only [if_neg (Nat.not_lt.mpr hle)]
                refine ⟨(k1.trans k2).trans k3, ?_, ?_⟩
                · rw [hd2]
                · rw [hd3, hd2]
              · rw [h3]
                rw [hd2] at hlt
                simp only [if_pos hlt]
                exact ⟨(k1.trans k2).trans k3, e, rfl, ht.kin (k1.trans k2)⟩
            · rw [hd1] at hlt
              rw [h2, if_pos hlt]
              exact ⟨k1.trans k2, _, rfl, ht.kin k1⟩
        · simp only [hb1, if_false]
          rcases readLength_spec l1 with ⟨n, p, s2, h2, hd2, k2⟩ | ⟨e, s2, h2, hd2, k2, ht⟩
          · rw [hd1] at hd2
            have hsh := decLength_shorter hd2
            rw [h2, hd2]
            cases p with
            | true =>
              simp only
              unfold readAll
              rw [decChunks_fuel (f := r.length + 1) (g := s2.data.length + 2) (by omega) (by omega)]
              rcases readAllLoop_partial (X := X) (k2.isLazy l1) (f := s2.data.length + 2) (len := 0) (cap := 512)
                  (m := n) (p := true) (by omega) (by omega) with
                ⟨b2, c, s3, h3, hdc, k3⟩ | ⟨b2, e, c, s3, h3, hdc, ht, k3⟩
              · rw [h3, hdc]
                exact ⟨(k1.trans k2).trans k3, rfl, rfl⟩
              · rw [h3, hdc]
                exact ⟨(k1.trans k2).trans k3, e, rfl, ht.kin (k1.trans k2)⟩
            | false =>
              simp only
              unfold readAll
              rcases readAllLoop_span (X := X) (k2.isLazy l1) (f := s2.data.length + 2) (len := 0) (cap := 512)
                  (n := n) (by omega) (by omega) with
                ⟨c, s3, h3, hle, hd3, k3⟩ | ⟨b2, e, c, s3, h3, hlt, ht, k3⟩
              · rw [h3]
                simp only [decChunks, if_neg (Nat.not_lt.mpr hle), Bool.false_eq_true, if_false]
                exact ⟨(k1.trans k2).trans k3, trivial, hd3⟩
              · rw [h3]
                simp only [decChunks, if_pos hlt]
                exact ⟨(k1.trans k2).trans k3, e, rfl, ht.kin (k1.trans k2)⟩
          · rw [hd1] at hd2
            rw [h2, hd2]
            exact ⟨k1.trans k2, _, rfl, ht.kin k1⟩
  · have hd : s.data = [] := by
      cases h : s.data with
      | nil => rfl
      | cons => simp [h] at hlt
    rw [h1, hd]
    rcases hc with ⟨_, h⟩ | ⟨h, _⟩
    · exact ⟨k1, e, rfl, h⟩
    · exact absurd hd h

end Gpgpdump
