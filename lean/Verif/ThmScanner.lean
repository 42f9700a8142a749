import Verif.SpecLines
import Verif.ThmArmtext
import Verif.ThmPackets
import Verif.Parser

/-!
# `bufio.Scanner` delivers the lines of the text; properties of `parse.New`
-/

namespace Gpgpdump
open Spec Src

theorem indexNL_some {b : Bytes} {i : Nat} (h : indexNL b = some i) :
    i < b.length ∧ b = b.take i ++ 0x0a :: b.drop (i + 1) ∧ 0x0a ∉ b.take i := by
  unfold indexNL at h
  rw [List.findIdx?_eq_some_iff_getElem] at h
  obtain ⟨hi, h1, h2⟩ := h
  refine ⟨hi, ?_, ?_⟩
  · have : b[i] = 0x0a := by simpa using h1
    rw [← this]
    simp
  · intro hm
    obtain ⟨j, hj, e⟩ := List.getElem_of_mem hm
    rw [List.getElem_take] at e
    rw [List.length_take] at hj
    have := h2 j (by omega)
    rw [e] at this
    simp at this

theorem indexNL_none {b : Bytes} (h : indexNL b = none) : 0x0a ∉ b := by
  unfold indexNL at h
  rw [List.findIdx?_eq_none_iff] at h
  intro hm
  have := h _ hm
  simp at this

/-- two ways to split at the first line feed -/
theorem nl_split {l l' r r' : Bytes} (hn : 0x0a ∉ l) (hn' : 0x0a ∉ l') (h : l ++ 0x0a :: r = l' ++ 0x0a :: r') : l = l' ∧ r = r' := by
  induction l generalizing l' with
  | nil =>
    cases l' with
    | nil => simpa using h
    | cons b l' =>
      simp only [List.nil_append, List.cons_append, List.cons.injEq] at h
      exact absurd (h.1 ▸ List.mem_cons_self) hn'
  | cons a l ih =>
    cases l' with
    | nil =>
      simp only [List.nil_append, List.cons_append, List.cons.injEq] at h
      exact absurd (h.1 ▸ List.mem_cons_self) hn
    | cons b l' =>
      simp only [List.cons_append, List.cons.injEq] at h
      obtain ⟨rfl, h⟩ := h
      obtain ⟨rfl, rfl⟩ := ih (fun hm => hn (List.mem_cons_of_mem _ hm)) (fun hm => hn' (List.mem_cons_of_mem _ hm)) h
      exact ⟨rfl, rfl⟩

theorem nl_in_take {l r : Bytes} {n : Nat} (h : l.length < n) : 0x0a ∈ (l ++ 0x0a :: r).take n := by
  rw [List.take_append, List.take_of_length_le (by omega)]
  apply List.mem_append_right
  obtain ⟨k, hk⟩ : ∃ k, n - l.length = k + 1 := ⟨n - l.length - 1, by omega⟩
  rw [hk, List.take_succ_cons]
  exact List.mem_cons_self

theorem Spec.Lines.take_eq {d ls stop taken} (h : Lines d ls stop taken) : ∃ n, taken = d.take n ∧ (d.length ≤ n ∨ lineLimit ≤ n) := by
  induction h with
  | done => exact ⟨0, rfl, .inl (by simp)⟩
  | @last d => exact ⟨d.length, by simp, .inl (by simp)⟩
  | @line l r ls stop taken hn hl h ih =>
    obtain ⟨n, rfl, hc⟩ := ih
    refine ⟨l.length + 1 + n, ?_, ?_⟩
    · rw [List.take_append, List.take_of_length_le (l := l) (by omega), show l.length + 1 + n - l.length = n + 1 by omega, List.take_succ_cons]
    · rcases hc with hc | hc
      · left; simp; omega
      · right; omega
  | long => exact ⟨_, rfl, .inr (Nat.le_refl _)⟩

theorem Spec.Lines.all {d ls taken} (h : Lines d ls false taken) : taken = d := by
  generalize hs : false = stop at h
  induction h with
  | done => rfl
  | last => rfl
  | line _ _ _ ih => rw [ih hs]
  | long => cases hs

/-- every text has lines -/
theorem Spec.Lines.exists (d : Bytes) : ∃ ls stop taken, Lines d ls stop taken := by
  generalize hn : d.length = n
  induction n using Nat.strongRecOn generalizing d with
  | _ n ih =>
    subst hn
    cases hi : indexNL d with
    | some i =>
      obtain ⟨hlt, he, hnl⟩ := indexNL_some hi
      by_cases hl : i < lineLimit
      · obtain ⟨ls, stop, taken, h⟩ := ih (d.drop (i + 1)).length (by simp; omega) _ rfl
        have := Lines.line hnl (by simp; omega) h
        rw [← he] at this
        exact ⟨_, _, _, this⟩
      · refine ⟨_, _, _, .long (by omega) fun hm => hnl ?_⟩
        have : d.take lineLimit = (d.take i).take lineLimit := by rw [List.take_take, Nat.min_eq_left (by omega)]
        rw [this] at hm
        exact List.mem_of_mem_take hm
    | none =>
      have hnl := indexNL_none hi
      by_cases h0 : d = []
      · subst h0; exact ⟨_, _, _, .done⟩
      · by_cases hl : d.length < lineLimit
        · exact ⟨_, _, _, .last h0 hnl hl⟩
        · exact ⟨_, _, _, .long (by omega) fun hm => hnl (List.mem_of_mem_take hm)⟩

/-- the error `Scanner.Err` reports -/
def scanErr (tail : GoErr) (stop : Bool) : Option GoErr :=
  if stop then some (rawErr .tooLong) else if tail.eqEOF then none else some tail

theorem read_lazy {s : Src} (he : s.eager = false) (hs : s.strict = false) {n : Nat} (hn : 0 < n) :
    (∃ b s', s.read n = (b, none, s') ∧ s.data = b ++ s'.data ∧ 0 < b.length ∧ b.length ≤ n ∧ Kin s s') ∨
    (s.read n = ([], some s.tail, s) ∧ s.data = []) := by
  rcases read_spec (.inr he) hn with h | ⟨e, h1, h2, h3, h4⟩
  · exact .inl h
  · refine .inr ⟨?_, h4 hs⟩
    rw [h1]
    rcases h3 with ⟨_, rfl⟩ | ⟨h, _⟩
    · rfl
    · rw [hs] at h; cases h

theorem scanLoop_spec {f : Nat} {s : Scanner} {ls stop taken} (he : s.src.eager = false) (hst : s.src.strict = false)
    (hcap : s.start + s.held.length ≤ s.cap) (hmax : s.cap ≤ lineLimit)
    (herr : s.err = none ∨ (s.err = some s.src.tail ∧ s.src.data = [] ∧ s.held.length < lineLimit))
    (hf : 2 * s.src.data.length + s.held.length + (if s.err.isSome then 0 else 1) < f)
    (h : Lines (s.held ++ s.src.data) ls stop taken) :
    scanLoop f s = (ls, scanErr s.src.tail stop, taken.drop s.held.length) := by
  induction f generalizing s ls stop taken with
  | zero => omega
  | succ f ih =>
    rw [scanLoop]
    cases hi : indexNL s.held with
    | some i =>
      obtain ⟨hlt, hsp, hnl⟩ := indexNL_some hi
      have hd : s.held ++ s.src.data = s.held.take i ++ 0x0a :: (s.held.drop (i + 1) ++ s.src.data) := by
        conv => lhs; rw [hsp]
        simp
      have hlen : (s.held.take i).length = i := by rw [List.length_take]; omega
      simp only
      generalize hl0 : s.held.take i = l at *
      rw [hd] at h
      generalize hd' : l ++ 0x0a :: (s.held.drop (i + 1) ++ s.src.data) = d at h
      cases h with
      | done => exact absurd hd' (by simp)
      | last h1 h2 h3 => exact absurd (by rw [← hd']; simp) h2
      | long h1 h2 =>
        rw [← hd'] at h2
        exact absurd (nl_in_take (by omega)) h2
      | @line l2 r ls stop taken hn hl h =>
        obtain ⟨rfl, rfl⟩ := nl_split hnl hn hd'
        rw [ih (s := { s with held := s.held.drop (i + 1), start := s.start + i + 1 }) he hst (by simp; omega) hmax
          (by
            rcases herr with h | ⟨h1, h2, h3⟩
            · exact .inl h
            · exact .inr ⟨h1, h2, by simp; omega⟩)
          (by simp only [List.length_drop]; omega) h]
        simp only [Prod.mk.injEq, List.cons.injEq, and_true, true_and]
        refine ⟨rfl, ?_⟩
        rw [List.drop_append, List.drop_of_length_le (l := l) (by omega)]
        have : s.held.length - l.length = (s.held.drop (i + 1)).length + 1 := by simp; omega
        rw [this, List.drop_succ_cons]
        rfl
    | none =>
      have hnl := indexNL_none hi
      simp only
      rcases herr with herr | ⟨herr, hnil, hheld⟩
      · rw [herr]
        simp only
        have hstart : ∀ st0, st0 = (if s.start > 0 ∧ (s.start + s.held.length = s.cap ∨ s.start > s.cap / 2) then 0 else s.start) →
            st0 ≤ s.start ∧ (st0 + s.held.length = s.cap → st0 = 0) := by
          intro st0 h0
          split at h0 <;> omega
        generalize hst0 : (if s.start > 0 ∧ (s.start + s.held.length = s.cap ∨ s.start > s.cap / 2) then 0 else s.start) = st0
        obtain ⟨hle, hz⟩ := hstart st0 hst0.symm
        clear hst0 hstart
        by_cases hfull : st0 + s.held.length = s.cap ∧ s.cap ≥ maxTokenSize
        · rw [if_pos hfull]
          have h0 := hz hfull.1
          have hcapl : s.held.length = lineLimit := by
            have : s.cap ≥ lineLimit := hfull.2
            omega
          have htake : (s.held ++ s.src.data).take lineLimit = s.held := by
            rw [List.take_append_of_le_length (by omega), List.take_of_length_le (by omega)]
          generalize s.held ++ s.src.data = d at h htake
          cases h with
          | done => exfalso; rw [← htake] at hcapl; simp [lineLimit] at hcapl
          | last h1 h2 h3 =>
            exfalso
            rw [List.take_of_length_le (by omega)] at htake
            subst htake; omega
          | line hn hl h => exact absurd (htake ▸ nl_in_take hl) hnl
          | long h1 h2 => rw [htake, List.drop_length]; rfl
        · rw [if_neg hfull]
          have hroom : ∀ cap' st1, cap' = (if st0 + s.held.length = s.cap then min maxTokenSize (if s.cap = 0 then startBufSize else s.cap * 2) else s.cap) →
              st1 = (if st0 + s.held.length = s.cap then 0 else st0) → st1 + s.held.length < cap' ∧ cap' ≤ lineLimit := by
            intro cap' st1 h1 h2
            unfold maxTokenSize startBufSize at h1
            unfold maxTokenSize at hfull
            unfold lineLimit at *
            split at h1
            · rename_i hh
              rw [if_pos hh] at h2
              split at h1 <;> omega
            · rename_i hh
              rw [if_neg hh] at h2
              omega
          generalize hc' : (if st0 + s.held.length = s.cap then min maxTokenSize (if s.cap = 0 then startBufSize else s.cap * 2) else s.cap) = cap'
          generalize hs1 : (if st0 + s.held.length = s.cap then 0 else st0) = st1
          obtain ⟨hr1, hr2⟩ := hroom _ _ hc'.symm hs1.symm
          clear hroom hc' hs1
          rcases read_lazy he hst (n := cap' - (st1 + s.held.length)) (by omega) with ⟨b, src', hr, hd, hb, hbn, hk⟩ | ⟨hr, hd⟩
          · rw [hr]
            simp only
            have hlen : s.src.data.length = b.length + src'.data.length := by rw [hd, List.length_append]
            rw [herr] at hf
            simp only [Option.isSome_none, Bool.false_eq_true, if_false] at hf
            obtain ⟨n, ht, hn⟩ := h.take_eq
            rw [ih (s := { src := src', held := s.held ++ b, start := st1, cap := cap', err := none }) (hk.eager.trans he) (hk.strict.trans hst)
              (by simp; omega) hr2 (.inl rfl) (by simp; omega) (by simp only [List.append_assoc]; rw [← hd]; exact h)]
            simp only [Prod.mk.injEq, true_and]
            refine ⟨by rw [hk.tail], ?_⟩
            rw [ht, hd]
            have h3 : (s.held ++ b).length ≤ n := by
              rcases hn with hn | hn
              · rw [hd] at hn; simp at hn ⊢; omega
              · simp; omega
            rw [← List.append_assoc, List.take_append, List.take_of_length_le h3, List.drop_append, List.drop_of_length_le (Nat.le_refl _),
              List.append_assoc, List.drop_append, List.drop_of_length_le (Nat.le_refl _)]
            simp
          · rw [hr]
            simp only [List.append_nil, List.nil_append]
            rw [herr] at hf
            simp only [Option.isSome_none, Bool.false_eq_true, if_false] at hf
            rw [ih (s := { src := s.src, held := s.held, start := st1, cap := cap', err := some s.src.tail }) he hst
              (by simp only; omega) hr2 (.inr ⟨rfl, hd, by simp only; omega⟩) (by simp; omega) h]
      · rw [herr]
        rw [hnil, List.append_nil] at h
        simp only
        generalize hh : s.held = d at *
        cases h with
        | done => simp [scanErr]
        | last h1 h2 h3 =>
          rw [if_neg (by simpa using h1)]
          simp [scanErr, dropCR, chomp]
        | line hn hl h => exact absurd (by simp) hnl
        | long h1 h2 => omega

/-- what the scanner delivers is determined by the octets and the final error of the source -/
theorem scanAll_spec {src : Src} (he : src.eager = false) (hst : src.strict = false) {ls stop taken} (h : Lines src.data ls stop taken) :
    scanAll src = (ls, scanErr src.tail stop, taken) := by
  unfold scanAll
  rw [scanLoop_spec (s := ⟨src, [], 0, 0, none⟩) he hst (by simp) (by simp) (.inl rfl) (by simp) (by simpa using h)]
  rfl

end Gpgpdump
