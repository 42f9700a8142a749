import Verif.Run
import Verif.ThmValues
import Verif.DecodeLemmas

/-!
# Inverting successful runs

What a successful run of a parse method says about the octets it has read.
-/

namespace Gpgpdump
open P

theorem bind_inv {α β} {m : P α} {f : α → P β} {st st' : St} {b : β} (h : (m >>= f) st = (.ok b, st')) :
    ∃ a s, m st = (.ok a, s) ∧ f a s = (.ok b, st') := by
  rw [bind_run] at h
  rcases hm : m st with ⟨r, s⟩
  rw [hm] at h
  cases r with
  | ok a => exact ⟨a, s, rfl, h⟩
  | _ => simp at h

theorem pure_inv {α} {a b : α} {st st' : St} (h : (Pure.pure a : P α) st = (.ok b, st')) : b = a ∧ st' = st := by
  rw [pure_run] at h; simp at h; exact ⟨h.1.symm, h.2.symm⟩

theorem readByte_inv {c p q j b s} (h : readByte (St.at c p q j) = (.ok b, s)) : ∃ q', q = b :: q' ∧ s = St.at c (p ++ [b]) q' j := by
  cases q with
  | nil => rw [readByte_nil] at h; simp at h
  | cons x q => rw [readByte_cons] at h; simp at h; exact ⟨q, by rw [h.1], by rw [← h.2, h.1]⟩

theorem readBytes_inv {c p q j a s} {n : Nat} (h : readBytes n (St.at c p q j) = (.ok a, s)) :
    ∃ q', q = a ++ q' ∧ a.length = n ∧ s = St.at c (p ++ a) q' j := by
  by_cases hn : n ≤ q.length
  · rw [readBytes_ok _ _ _ _ _ hn] at h
    simp at h
    refine ⟨q.drop n, ?_, ?_, ?_⟩
    · rw [← h.1]; simp
    · rw [← h.1]; simp [hn]
    · rw [← h.2, ← h.1]
  · rw [readBytes_err _ _ _ _ _ (by omega)] at h
    simp at h

theorem add_inv {i c p q j u s} (h : add i (St.at c p q j) = (.ok u, s)) : s = St.at c p q (j.addAll [i]) := by
  rw [add_run] at h; simp at h; exact h.symm

theorem flag_inv {f : Ctx → Bool} {st : St} {b s} (h : flag f st = (.ok b, s)) : b = ctxFlag f st.ctx ∧ s = st := by
  rw [flag_run] at h; simp at h; exact ⟨h.1.symm, h.2.symm⟩

/-- what can still be read of an area of `n` octets -/
theorem beNat2 (s : Bytes) (h : s.length = 2) : beNat s < 65536 := by
  have := beNat_lt s; rw [h] at this; exact this

/-- the next statement read an octet -/
macro "ibyte " x:ident q:ident " at " h:ident : tactic => `(tactic| (
  obtain ⟨$x:ident, _, hstep, hrest⟩ := bind_inv $h
  clear $h
  obtain ⟨$q:ident, hq, hs⟩ := readByte_inv hstep
  subst hs
  first | subst hq | cases hq
  clear hstep
  have $h := hrest
  clear hrest))
/-- the next statement read octets; `hl` says how many -/
macro "ibytes " x:ident q:ident hl:ident " at " h:ident : tactic => `(tactic| (
  obtain ⟨$x:ident, _, hstep, hrest⟩ := bind_inv $h
  clear $h
  obtain ⟨$q:ident, hq, $hl:ident, hs⟩ := readBytes_inv hstep
  subst hs
  first | subst hq | cases hq
  clear hstep
  have $h := hrest
  clear hrest))
/-- the next statement asked for an option -/
macro "iflag" " at " h:ident : tactic => `(tactic| (
  obtain ⟨_, _, hstep, hrest⟩ := bind_inv $h
  clear $h
  obtain ⟨hf, hs⟩ := flag_inv hstep
  subst hf hs
  clear hstep
  rw [St.at_ctx] at hrest
  have $h := hrest
  clear hrest))
/-- the next statement added an item -/
macro "iadd" " at " h:ident : tactic => `(tactic| (
  obtain ⟨_, _, hstep, hrest⟩ := bind_inv $h
  clear $h
  have hs := add_inv hstep
  subst hs
  clear hstep
  have $h := hrest
  clear hrest))

theorem readBytes2_inv {c p q j a s} (h : readBytes 2 (St.at c p q j) = (.ok a, s)) :
    ∃ q', q = a ++ q' ∧ a.length = 2 ∧ s = St.at c (p ++ a) q' j := readBytes_inv (n := 2) h

end Gpgpdump
