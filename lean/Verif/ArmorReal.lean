import Verif.ArmorLemmas
import Verif.RelTags

/-! # The armor decoder ends for every text -/

namespace Gpgpdump
namespace Armor

theorem readLine_length {t r line : Bytes} {p : Bool} (h : readLine t = (some (line, p), r)) : line.length + r.length ≤ t.length ∧ r.length < t.length := by
  have hcr : ∀ l : Bytes, (dropCR l).length ≤ l.length := by
    intro l; unfold dropCR; split <;> simp
  unfold readLine at h
  split at h
  · rename_i i hi
    have hlt : i < (t.take 100).length := by
      unfold indexNL at hi
      exact (List.findIdx?_eq_some_iff_getElem.mp hi).1
    simp only [Prod.mk.injEq, Option.some.injEq] at h
    obtain ⟨⟨rfl, -⟩, rfl⟩ := h
    have := hcr (t.take i)
    simp only [List.length_take, List.length_drop] at *
    omega
  · split at h
    · split at h
      all_goals
        simp only [Prod.mk.injEq, Option.some.injEq] at h
        obtain ⟨⟨rfl, -⟩, rfl⟩ := h
        simp only [List.length_take, List.length_drop]
        omega
    · split at h
      · cases h
      · rename_i h0
        simp only [Prod.mk.injEq, Option.some.injEq] at h
        obtain ⟨⟨rfl, -⟩, rfl⟩ := h
        cases t with
        | nil => exact absurd rfl h0
        | cons => simp

theorem readLine_end {t r : Bytes} (h : readLine t = (none, r)) : r = [] ∧ t = [] := by
  unfold readLine at h
  split at h
  · cases h
  · split at h
    · split at h <;> cases h
    · split at h
      · rename_i h0
        cases h
        exact ⟨rfl, by simpa using h0⟩
      · cases h

theorem headers_again {f : Nat} {c : Bool} {t r : Bytes} (h : headers f c t = .again r ∨ headers f c t = .body r) : r.length ≤ t.length := by
  induction f generalizing c t with
  | zero => simp [headers] at h
  | succ f ih =>
    unfold headers at h
    split at h
    · simp at h
    · rename_i line next rest' hr
      have hl := (readLine_length hr).2
      split at h
      · have := ih h; omega
      · simp only at h
        split at h
        · rcases h with h | h
          · cases h
          · cases h; omega
        · split at h
          · have := ih h; omega
          · rcases h with h | h
            · cases h; omega
            · cases h

theorem findBody_ok {f : Nat} {c : Bool} {t : Bytes} (hf : t.length < f) :
    (∀ e, findBody f c t = .error e → e = rawErr .eof) ∧ ∀ r, findBody f c t = .ok r → r.length ≤ t.length := by
  induction f generalizing c t with
  | zero => omega
  | succ f ih =>
    unfold findBody
    split
    · exact ⟨fun e h => (by cases h; rfl), fun r h => (by cases h)⟩
    · rename_i line next rest' hr
      have hl := (readLine_length hr).2
      have step : ∀ c' (t' : Bytes), t'.length ≤ rest'.length →
          (∀ e, findBody f c' t' = .error e → e = rawErr .eof) ∧ ∀ r, findBody f c' t' = .ok r → r.length ≤ t.length := by
        intro c' t' ht
        have h := ih (c := c') (t := t') (by omega)
        exact ⟨h.1, fun r hr => by have := h.2 r hr; omega⟩
      split
      · exact step _ _ (Nat.le_refl _)
      · simp only
        split
        · split
          · exact ⟨fun e h => (by cases h; rfl), fun r h => (by cases h)⟩
          · rename_i r hh
            exact step _ _ (headers_again (.inl hh))
          · rename_i r hh
            refine ⟨fun e h => (by cases h), fun r' h => ?_⟩
            cases h
            have := headers_again (.inr hh)
            omega
        · exact step _ _ (Nat.le_refl _)

/-- the errors of the decoder -/
def Known (e : GoErr) : Prop := e = rawErr .eof ∨ e = rawErr .unexpectedEOF ∨ e = corrupt ∨ e = badBase64

theorem decodeQ_known (b : Bytes) : (∀ e, (decodeQ b).2 = some e → e = badBase64) ∧ (decodeQ b).1.length ≤ b.length / 4 * 3 ∧
    ((decodeQ b).2 = none → b ≠ [] → (decodeQ b).1 ≠ []) := by
  fun_induction decodeQ b with
  | case1 => simp
  | case2 a b c d rest x hx y hy z hz w hw v o e he ih =>
    rw [he] at ih
    simp only [List.length_cons]
    exact ⟨ih.1, by have := ih.2.1; simp only at this; omega, fun _ _ => by simp⟩
  | case3 => refine ⟨?_, ?_, ?_⟩ <;> simp <;> first | (intro e h; exact h.2.symm) | omega | skip
  | case4 => refine ⟨?_, ?_, ?_⟩ <;> simp
  | case5 => refine ⟨?_, ?_, ?_⟩ <;> simp <;> first | (intro e h; exact h.2.symm) | omega | skip
  | case6 => refine ⟨?_, ?_, ?_⟩ <;> simp
  | case7 => refine ⟨?_, ?_, ?_⟩ <;> simp
  | case8 => refine ⟨?_, ?_, ?_⟩ <;> simp

def LineReader.size (l : LineReader) : Nat := l.rest.length + l.buf.length

theorem LineReader.read_size (n : Nat) (hn : 0 < n) (l : LineReader) :
    (l.read n).1.length + (l.read n).2.2.size ≤ l.size ∧ (∀ e, (l.read n).2.1 = some e → Known e) ∧
    ((l.read n).2.1 = none → (l.read n).2.2.size < l.size) := by
  unfold LineReader.read
  split
  · exact ⟨by simp [size], fun e h => (by cases h; exact .inl rfl), fun h => (by cases h)⟩
  · split
    · rename_i hb
      have hb' : 0 < l.buf.length := by
        cases h : l.buf with
        | nil => rw [h] at hb; simp at hb
        | cons => simp
      refine ⟨?_, fun e h => (by cases h), fun _ => ?_⟩
      · simp only [size, List.length_take, List.length_drop]; omega
      · simp only [size, List.length_drop]; omega
    · rename_i hbuf
      split
      · rename_i r hr
        have := (readLine_end hr)
        refine ⟨?_, fun e h => (by cases h; exact .inl rfl), fun h => (by cases h)⟩
        simp [size, this]
      · rename_i line p r hr
        have hl := readLine_length hr
        split
        · exact ⟨by simp [size]; omega, fun e h => (by cases h; exact .inr (.inr (.inl rfl))), fun h => (by cases h)⟩
        · split
          · exact ⟨by simp [size]; omega, fun e h => (by cases h; exact .inl rfl), fun h => (by cases h)⟩
          · split
            · split
              rename_i o e hd
              split
              · refine ⟨by simp [size]; omega, fun e' h => ?_, fun _ => by simp [size]; omega⟩
                simp only at h
                subst h
                have := (decodeQ_known ((line.drop 1).filter notNL)).1
                unfold decode64 at hd
                rw [hd] at this
                exact .inr (.inr (.inr (this _ rfl)))
              · split
                · rename_i r' hr'
                  exact ⟨by simp [size, (readLine_end hr').1], fun e h => (by cases h; exact .inr (.inr (.inl rfl))), fun h => (by cases h)⟩
                · rename_i line' p' r' hr'
                  have hl' := readLine_length hr'
                  split
                  · exact ⟨by simp [size]; omega, fun e h => (by cases h; exact .inl rfl), fun h => (by cases h)⟩
                  · exact ⟨by simp [size]; omega, fun e h => (by cases h; exact .inr (.inr (.inl rfl))), fun h => (by cases h)⟩
            · split
              · exact ⟨by simp [size]; omega, fun e h => (by cases h; exact .inr (.inr (.inl rfl))), fun h => (by cases h)⟩
              · have hb' : l.buf = [] := by simpa using hbuf
                refine ⟨?_, fun e h => (by cases h), fun _ => ?_⟩
                · simp only [size, List.length_take, List.length_drop, hb', List.length_nil]; omega
                · simp only [size, List.length_drop, hb', List.length_nil]; omega

theorem readFiltered_size (n : Nat) (hn : 0 < n) (f : Nat) (l : LineReader) (hf : l.size < f) :
    (readFiltered n f l).1.length + (readFiltered n f l).2.2.size ≤ l.size ∧ (∀ e, (readFiltered n f l).2.1 = some e → Known e) ∧
    ((readFiltered n f l).2.1 = none → (readFiltered n f l).2.2.size < l.size) := by
  induction f generalizing l with
  | zero => omega
  | succ f ih =>
    have h := LineReader.read_size n hn l
    unfold readFiltered
    rcases hr : l.read n with ⟨b, e, l'⟩
    rw [hr] at h
    simp only at h ⊢
    split
    · exact ⟨by simp; omega, h.2⟩
    · rename_i hb
      have hb' : 0 < b.length := by
        cases b with
        | nil => exact absurd rfl hb
        | cons => simp
      split
      · have := ih l' (by omega)
        exact ⟨by omega, this.2.1, fun h => by omega⟩
      · have := List.length_filter_le notNL b
        exact ⟨by simp only; omega, h.2⟩

theorem refill_size (nn : Nat) (hn : 4 ≤ nn) (f : Nat) (d : Decoder) (hf : d.lr.size < f) (hk : ∀ e, d.readErr = some e → Known e) :
    (refill nn f d).buf.length + (refill nn f d).lr.size ≤ d.buf.length + d.lr.size ∧ (∀ e, (refill nn f d).readErr = some e → Known e) ∧
    (refill nn f d).out = d.out ∧ ((refill nn f d).buf.length < 4 → (refill nn f d).readErr ≠ none) := by
  induction f generalizing d with
  | zero => omega
  | succ f ih =>
    unfold refill
    split
    · rename_i hc
      have h := readFiltered_size (nn - d.buf.length) (by omega) (d.lr.rest.length + d.lr.buf.length + 2) d.lr (by unfold LineReader.size; omega)
      rcases hr : readFiltered (nn - d.buf.length) (d.lr.rest.length + d.lr.buf.length + 2) d.lr with ⟨b, e, l⟩
      rw [hr] at h
      simp only at h ⊢
      cases e with
      | none =>
        have := ih { d with lr := l, readErr := none, buf := d.buf ++ b } (by simp only; have := h.2.2 rfl; omega) (by intro e h; cases h)
        simp only [List.length_append] at this
        exact ⟨by omega, this.2⟩
      | some e =>
        have hstop : ∀ g, refill nn g { d with lr := l, readErr := some e, buf := d.buf ++ b } = { d with lr := l, readErr := some e, buf := d.buf ++ b } := by
          intro g
          cases g with
          | zero => rfl
          | succ g => rw [refill, if_neg (by simp)]
        rw [hstop]
        exact ⟨by simp only [List.length_append]; omega, fun e' he => (by cases he; exact h.2.1 _ rfl), rfl, fun _ => by simp⟩
    · rename_i hc
      refine ⟨Nat.le_refl _, hk, rfl, fun hb he => hc ⟨hb, he⟩⟩

def Decoder.size (d : Decoder) : Nat := d.lr.size + d.buf.length + d.out.length

def Decoder.Good (d : Decoder) : Prop := (∀ e, d.err = some e → Known e) ∧ ∀ e, d.readErr = some e → Known e

theorem Decoder.read_size (n : Nat) (hn : 0 < n) (d : Decoder) (hg : d.Good) :
    (d.read n).2.2.Good ∧ (∀ e, (d.read n).2.1 = some e → Known e) ∧ ((d.read n).2.1 = none → (d.read n).2.2.size < d.size) := by
  unfold Decoder.read
  split
  · rename_i ho
    have ho' : 0 < d.out.length := by
      cases h : d.out with
      | nil => rw [h] at ho; simp at ho
      | cons => simp
    exact ⟨hg, fun e h => (by cases h), fun _ => by simp only [size, List.length_drop]; omega⟩
  · rename_i ho
    have ho' : d.out = [] := by simpa using ho
    split
    · rename_i e he
      exact ⟨hg, fun e' h => (by cases h; exact hg.1 _ he), fun h => (by cases h)⟩
    · rename_i he
      simp only
      have hr := refill_size (min 1024 (max 4 (n / 3 * 4))) (by omega) (d.lr.rest.length + d.lr.buf.length + 6) d (by unfold LineReader.size; omega) hg.2
      generalize refill (min 1024 (max 4 (n / 3 * 4))) (d.lr.rest.length + d.lr.buf.length + 6) d = d1 at hr ⊢
      obtain ⟨h1, h2, h3, h4⟩ := hr
      split
      · rename_i hb
        have hk : ∀ e, (if d1.readErr = some (rawErr .eof) ∧ !d1.buf.isEmpty then some (rawErr .unexpectedEOF) else d1.readErr) = some e → Known e := by
          intro e h
          split at h
          · cases h; exact .inr (.inl rfl)
          · exact h2 e h
        refine ⟨⟨hk, h2⟩, hk, fun h => ?_⟩
        split at h
        · cases h
        · exact absurd h (h4 hb)
      · rename_i hb
        have hq := decodeQ_known ((d1.buf.take (d1.buf.length / 4 * 4)).filter notNL)
        have hlen := List.length_filter_le notNL (d1.buf.take (d1.buf.length / 4 * 4))
        have hd : decode64 (d1.buf.take (d1.buf.length / 4 * 4)) = decodeQ ((d1.buf.take (d1.buf.length / 4 * 4)).filter notNL) := rfl
        rw [hd]
        generalize decodeQ ((d1.buf.take (d1.buf.length / 4 * 4)).filter notNL) = oe at hq ⊢
        rcases oe with ⟨o, e⟩
        simp only at hq ⊢
        have hk : ∀ e', e = some e' → Known e' := fun e' h => .inr (.inr (.inr (hq.1 e' h)))
        rw [List.length_take] at hlen
        split
        · exact ⟨⟨hk, h2⟩, hk, fun _ => by simp only [size, List.length_drop]; omega⟩
        · refine ⟨⟨hk, h2⟩, hk, fun _ => ?_⟩
          simp only [size, List.length_drop, h3, ho', List.length_nil]
          omega

theorem drain_known (f : Nat) (r : Body) (hg : r.dec.Good) (hf : r.dec.size < f) : Known (drain f r).2 := by
  induction f generalizing r with
  | zero => omega
  | succ f ih =>
    have h := Decoder.read_size 1 (by decide) r.dec hg
    rcases hr : r.dec.read 1 with ⟨b, e, d⟩
    rw [hr] at h
    simp only at h
    have hread : ∃ b' e' c, r.read 1 = (b', e', ⟨d, c⟩) ∧ (∀ x, e' = some x → Known x) ∧ (e' = none → e = none) := by
      simp only [Body.read, hr]
      cases d.lr.crc with
      | none => exact ⟨_, _, _, rfl, h.2.1, id⟩
      | some c =>
        simp only
        split
        · exact ⟨_, _, _, rfl, fun x hx => (by cases hx; exact .inr (.inr (.inl rfl))), fun hx => (by cases hx)⟩
        · exact ⟨_, _, _, rfl, h.2.1, id⟩
    obtain ⟨b', e', c, h1, h2, h3⟩ := hread
    rw [drain, h1]
    cases e' with
    | some x => exact h2 x rfl
    | none =>
      have := ih ⟨d, c⟩ h.1 (by have := h.2.2 (h3 rfl); simp only; omega)
      simp only
      exact this

end Armor

theorem Armor.Known.real {e : GoErr} (h : Armor.Known e) : e.real := by
  rcases h with rfl | rfl | rfl | rfl <;> unfold GoErr.real <;> decide

/-- the decoder ends for every text, with an error of its own -/
theorem armorStream_known (t : Bytes) :
    (∀ z, armorStream t = .ok z → Armor.Known z.tail ∧ z.eager = false) ∧ ∀ e, armorStream t = .error e → e = rawErr .eof := by
  unfold armorStream Armor.decode
  have h := Armor.findBody_ok (f := t.length + 1) (c := false) (t := t) (by omega)
  cases hf : Armor.findBody (t.length + 1) false t with
  | error e =>
    refine ⟨fun z h => (by cases h), fun e' h' => ?_⟩
    cases h'
    exact h.1 e hf
  | ok r =>
    refine ⟨fun z hz => ?_, fun e h => (by cases h)⟩
    have hl := h.2 r hf
    have hk := Armor.drain_known (t.length + 1) ⟨⟨⟨r, [], false, none⟩, none, none, [], []⟩, Armor.crcInit⟩
      ⟨fun e h => (by cases h), fun e h => (by cases h)⟩ (by simp [Armor.Decoder.size, Armor.LineReader.size]; omega)
    cases hz
    exact ⟨hk, rfl⟩

end Gpgpdump
