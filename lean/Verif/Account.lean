import Verif.Inv
import Verif.RelSubs
import Verif.SpecFields

/-!
# Accounting logic

`Acc pend m`: when `m` succeeds after the octets `pend` have been read but not yet shown, the items it adds show `pend` followed by
exactly the octets it has read.
-/

namespace Gpgpdump
open P Spec

namespace Spec
theorem Cover.append {a b : List Item} {f g : Bytes} (h : Cover a f) (h' : Cover b g) : Cover (a ++ b) (f ++ g) := by
  match a, f, h with
  | _, _, .nil => exact h'
  | _, _, .cons (i := i) (f := f0) (is := is) (g := g0) h hs =>
    rw [List.append_assoc, List.cons_append]
    exact .cons h (Cover.append hs h')
termination_by a.length
theorem Cover.one {i : Item} {f : Bytes} (h : Shown i f) : Cover [i] f := by
  have := Cover.cons h .nil
  rwa [List.append_nil] at this
end Spec

def Acc {α} (pend : Bytes) (m : P α) : Prop :=
  ∀ c p q j a s, m (St.at c p q j) = (.ok a, s) →
    ∃ c' f q' l, q = f ++ q' ∧ s = St.at c' (p ++ f) q' (j.addAll l) ∧ Cover l (pend ++ f)

namespace Acc

theorem pure {α} (a : α) : Acc [] (Pure.pure a : P α) := by
  intro c p q j a' s h
  obtain ⟨-, rfl⟩ := pure_inv h
  exact ⟨c, [], q, [], by simp, by simp, .nil⟩
theorem fail {α} (b) (e : GoErr) : Acc b (P.fail e : P α) := by
  intro c p q j a' s h; rw [fail_run] at h; simp at h
theorem panic {α} (b) (e) : Acc b (P.panic e : P α) := by
  intro c p q j a' s h; simp [P.panic] at h
theorem bind {α β} {b} {m : P α} {f : α → P β} (h : Acc b m) (h' : ∀ a, Acc [] (f a)) : Acc b (m >>= f) := by
  intro c p q j a s hr
  obtain ⟨x, s1, h1, h2⟩ := bind_inv hr
  obtain ⟨c1, f1, q1, l1, rfl, rfl, hc1⟩ := h _ _ _ _ _ _ h1
  obtain ⟨c2, f2, q2, l2, rfl, rfl, hc2⟩ := h' x _ _ _ _ _ _ h2
  refine ⟨c2, f1 ++ f2, q2, l1 ++ l2, by simp, by simp, ?_⟩
  rw [← List.append_assoc]
  exact hc1.append hc2
theorem readByte {α} {b} {f : UInt8 → P α} (h : ∀ x, Acc (b ++ [x]) (f x)) : Acc b (readByte >>= f) := by
  intro c p q j a s hr
  obtain ⟨x, s1, h1, h2⟩ := bind_inv hr
  obtain ⟨q1, rfl, rfl⟩ := readByte_inv h1
  obtain ⟨c2, f2, q2, l2, rfl, rfl, hc2⟩ := h x _ _ _ _ _ _ h2
  exact ⟨c2, x :: f2, q2, l2, by simp, by simp, by simpa using hc2⟩
theorem readBytes {α} {b} (n : Nat) {f : Bytes → P α} (h : ∀ x : Bytes, x.length = n → Acc (b ++ x) (f x)) : Acc b (P.readBytes n >>= f) := by
  intro c p q j a s hr
  obtain ⟨x, s1, h1, h2⟩ := bind_inv hr
  obtain ⟨q1, rfl, hx, rfl⟩ := readBytes_inv h1
  obtain ⟨c2, f2, q2, l2, rfl, rfl, hc2⟩ := h x hx _ _ _ _ _ _ h2
  exact ⟨c2, x ++ f2, q2, l2, by simp, by simp, by simpa using hc2⟩
theorem flag {α} {b} {g : Ctx → Bool} {f : Bool → P α} (h : ∀ x, Acc b (f x)) : Acc b (flag g >>= f) := by
  intro c p q j a s hr
  obtain ⟨x, s1, h1, h2⟩ := bind_inv hr
  obtain ⟨-, rfl⟩ := flag_inv h1
  exact h x _ _ _ _ _ _ h2
theorem rest {α} {b} {f : Int → P α} (h : ∀ x, Acc b (f x)) : Acc b (rest >>= f) := by
  intro c p q j a s hr
  rw [bind_run, rest_run] at hr
  exact h _ _ _ _ _ _ _ hr
theorem add {b : Bytes} {i : Item} (h : Shown i b) : Acc b (add i) := by
  intro c p q j a s hr
  have := add_inv hr
  subst this
  exact ⟨c, [], q, [i], by simp, by simp, by simpa using Cover.one h⟩
theorem ite {α} {b} {t : Prop} [Decidable t] {m m' : P α} (h : t → Acc b m) (h' : ¬ t → Acc b m') : Acc b (if t then m else m') := by
  split
  · exact h ‹_›
  · exact h' ‹_›
theorem setMode (m) : Acc [] (setMode m) := by
  intro c p q j a s hr
  cases c with
  | none => simp [P.setMode, St.at] at hr
  | some x =>
    rw [setMode_run] at hr
    simp only [Prod.mk.injEq] at hr
    exact ⟨some { x with mode := m }, [], q, [], by simp, by simp [← hr.2], .nil⟩
theorem setKeyTime {α} {b} {m} {f : Unit → P α} (h : Acc b (f ())) : Acc b (setKeyTime m >>= f) := by
  intro c p q j a s hr
  obtain ⟨x, s1, h1, h2⟩ := bind_inv hr
  cases c with
  | none => simp [P.setKeyTime, St.at] at h1
  | some x =>
    rw [setKeyTime_run] at h1
    simp only [Prod.mk.injEq] at h1
    rw [← h1.2] at h2
    exact h _ _ _ _ _ _ h2

/-- a child item whose parts are shown one after the other -/
theorem nested {α} {b} {child : Item} {m : P α}
    (h : ∀ c p q a s, m (St.at c p q child) = (.ok a, s) → ∃ c' f q' i, q = f ++ q' ∧ s = St.at c' (p ++ f) q' i ∧ Shown i (b ++ f)) :
    Acc b (nested child m) := by
  intro c p q j a s hr
  rw [nested_run] at hr
  rcases hm : m (St.at c p q child) with ⟨r, s1⟩
  rw [hm] at hr
  simp only [Prod.mk.injEq] at hr
  obtain ⟨rfl, rfl⟩ := hr
  obtain ⟨c', f, q', i, rfl, rfl, hi⟩ := h _ _ _ _ _ hm
  exact ⟨c', f, q', [i], rfl, rfl, Cover.one hi⟩

theorem nested' {α} {b} {child : Item} {m : P α} (h : Acc [] m) (hs : ∀ l f, Cover l f → Shown (child.addAll l) (b ++ f)) :
    Acc b (P.nested child m) := by
  refine nested fun c p q a s hr => ?_
  obtain ⟨c', f, q', l, h1, h2, h3⟩ := h _ _ _ _ _ _ hr
  exact ⟨c', f, q', _, h1, h2, hs l f h3⟩

theorem build {α} {b} {child : Item} {m : P Unit} {f : Item → P α} (h : Acc [] m) (hs : ∀ l g, Cover l g → Acc (b ++ g) (f (child.addAll l))) :
    Acc b (P.build child m >>= f) := by
  intro c p q j a s hr
  obtain ⟨x, s1, h1, h2⟩ := bind_inv hr
  rw [build_run] at h1
  rcases hm : m (St.at c p q child) with ⟨r, s2⟩
  rw [hm] at h1
  simp only [Prod.mk.injEq] at h1
  obtain ⟨h1, rfl⟩ := h1
  cases r with
  | ok u =>
    obtain ⟨c', g, q', l, rfl, rfl, h3⟩ := h _ _ _ _ _ _ hm
    simp only [Res.map, Res.ok.injEq] at h1
    subst h1
    obtain ⟨c2, f2, q2, l2, rfl, rfl, hc⟩ := hs l g h3 _ _ _ _ _ _ h2
    exact ⟨c2, g ++ f2, q2, l2, by simp, by simp [St.at], by simpa using hc⟩
  | _ => simp [Res.map] at h1

end Acc

/-! ## Values -/

theorem iBytes_nat (n : Nat) : iBytes n = bytesNote n := by
  unfold iBytes decInt bytesNote S
  rw [if_neg (by omega)]
  simp
theorem nBytes_note (n : Nat) : nBytes n = bytesNote n := rfl

theorem rawData_note (p q : Bytes) (name : Str) (f : Bool) : (rawData ⟨p ++ q, p.length⟩ name f).note = bytesNote q.length := by
  unfold rawData
  rw [rest_eq, iBytes_nat]
  rfl

theorem dumpBytes_true (b : Bytes) : dumpBytes b true = Reader.dumpHex b := by rw [dumpBytes_eq]; simp

theorem ofNat_length (b : UInt8) (x : Bytes) (h : x.length = b.toNat) : b = UInt8.ofNat x.length := by rw [h]; simp

namespace Acc

theorem newMPI {b} {α} {f : Nat × Bytes → P α}
    (h : ∀ bits data, bits < 65536 → data.length = (bits + 7) / 8 → Acc (b ++ (beOctets 2 bits ++ data)) (f (bits, data))) : Acc b (newMPI >>= f) := by
  unfold Gpgpdump.newMPI
  rw [bind_assoc_P]
  refine readBytes 2 fun l hl => ?_
  rw [bind_assoc_P]
  refine readBytes _ fun data hd => ?_
  have := h (beNat l) data (beNat2 l hl) hd
  rw [show beOctets 2 (beNat l) = l from hl ▸ beOctets_beNat l] at this
  rw [← List.append_assoc] at this
  exact this

theorem mpiShown (name bits data f) (hb : bits < 65536) (hd : data.length = (bits + 7) / 8) :
    Shown (mpiItem name bits data f) (beOctets 2 bits ++ data) := by
  refine .mpi (by rfl) hb hd ?_
  show dumpBytes data f = _ ∨ dumpBytes data f = _
  rw [dumpBytes_eq]
  cases f <;> simp

theorem addMPI (n) : Acc [] (addMPI n) := by
  unfold Gpgpdump.addMPI
  exact newMPI fun bits data hb hd => flag fun d => add (mpiShown _ _ _ _ hb hd)
theorem addECPoint (n) : Acc [] (addECPoint n) := by
  unfold Gpgpdump.addECPoint
  exact newMPI fun bits data hb hd => flag fun d => add (mpiShown _ _ _ _ hb hd)

theorem addOpaque {n : Str} (h : ∃ p ∈ opaquePrefixes, ∃ s, n = p ++ s) : Acc [] (addOpaque n) := by
  unfold Gpgpdump.addOpaque
  refine flag fun d => ?_
  intro c p q j a s hr
  unfold Gpgpdump.addRaw at hr
  rw [bind_run, reader_run] at hr
  have := add_inv hr
  subst this
  exact ⟨c, [], q, [rawData _ n d], by simp, by simp; rfl, Cover.one (.unread h)⟩

theorem opq (k : Nat) (s : Str) (hk : k < 5) : ∃ p ∈ opaquePrefixes, ∃ t, opaquePrefixes[k] ++ s = p ++ t := ⟨opaquePrefixes[k], List.getElem_mem _, s, rfl⟩

theorem parseSig (a) : Acc [] (parseSig a) := by
  unfold Gpgpdump.parseSig
  split
  · exact addMPI _
  · exact bind (addMPI _) fun _ => addMPI _
  · exact bind (addMPI _) fun _ => addMPI _
  · exact addOpaque (opq 1 [] (by decide))
  · exact bind (addMPI _) fun _ => addMPI _
  · exact bind (addMPI _) fun _ => addMPI _
  · rw [List.append_assoc]
    exact addOpaque (opq 0 _ (by decide))

theorem newECParm {α} {f : Bytes → P α} (h0 : Acc [] (f [])) (h : ∀ ep : Bytes, ep.length < 256 → Acc (UInt8.ofNat ep.length :: ep) (f ep)) :
    Acc [] (newECParm >>= f) := by
  unfold Gpgpdump.newECParm
  rw [bind_assoc_P]
  refine rest fun x => ?_
  split
  · exact h0
  · rw [bind_assoc_P]
    refine readByte fun b => ?_
    split
    · rename_i hb; subst hb
      exact h [] (by simp)
    · refine readBytes _ fun ep hep => ?_
      have := h ep (by rw [hep]; exact b.toNat_lt)
      rwa [← ofNat_length b ep hep] at this

theorem newOID {α} {f : Bytes → P α} (h : ∀ ep : Bytes, ep.length < 256 → Acc (UInt8.ofNat ep.length :: ep) (f ep)) :
    Acc [] (newOID >>= f) := by
  unfold Gpgpdump.newOID
  rw [bind_assoc_P]
  refine readByte fun b => ?_
  split
  · rename_i hb; subst hb
    exact h [] (by simp)
  · refine readBytes _ fun ep hep => ?_
    have := h ep (by rw [hep]; exact b.toNat_lt)
    rwa [← ofNat_length b ep hep] at this

theorem oidShown (ep : Bytes) (h : ep.length < 256) : Shown (oidItem ep true) (UInt8.ofNat ep.length :: ep) :=
  .oid rfl h (dumpBytes_true ep)

theorem kdf (ep : Bytes) (pend : Bytes) (hs : ∀ i : Item, i.name = "KDF parameters".toList → i.note = bytesNote ep.length → Shown i pend) (i : Item)
    (h1 : i.name = "KDF parameters".toList) (h2 : i.note = bytesNote ep.length) :
    Acc pend (match ep with
      | 0x01 :: h :: s :: _ => (do
        let d ← P.flag Ctx.debug
        P.add ((i.add (hashItem h d)).add (symItem s d)))
      | _ => P.add (i.setValue Unknown)) := by
  split
  · exact flag fun d => add (hs _ h1 h2)
  · exact add (hs _ h1 h2)

theorem ecdhPub : Acc [] ecdhPub := by
  unfold Gpgpdump.ecdhPub
  refine newOID fun oid ho => ?_
  refine bind (add (oidShown oid ho)) fun _ => ?_
  refine bind (addECPoint _) fun _ => ?_
  refine newECParm ?_ ?_
  · exact flag fun d => kdf [] [] (fun i h1 h2 => .ecParmMissing (Or.inl h1) h2) _ rfl rfl
  · intro ep hep
    exact flag fun d => kdf ep _ (fun i h1 h2 => .ecParm (Or.inl h1) hep h2) _ rfl rfl

theorem parsePub (a) : Acc [] (parsePub a) := by
  unfold Gpgpdump.parsePub
  split
  · exact bind (addMPI _) fun _ => addMPI _
  · exact bind (addMPI _) fun _ => bind (addMPI _) fun _ => bind (addMPI _) fun _ => addMPI _
  · exact bind (addMPI _) fun _ => bind (addMPI _) fun _ => addMPI _
  · exact ecdhPub
  · exact newOID fun oid ho => bind (add (oidShown oid ho)) fun _ => addECPoint _
  · exact newOID fun oid ho => bind (add (oidShown oid ho)) fun _ => addECPoint _
  · rw [List.append_assoc]
    exact addOpaque (opq 0 _ (by decide))

theorem parseSes (a) : Acc [] (parseSes a) := by
  unfold Gpgpdump.parseSes
  split
  · exact addMPI _
  · exact addOpaque (opq 2 [] (by decide))
  · exact bind (addMPI _) fun _ => addMPI _
  · refine bind (addECPoint _) fun _ => ?_
    refine newECParm ?_ ?_
    · exact flag fun d => add (.ecParmMissing (Or.inr rfl) rfl)
    · intro ep hep
      exact flag fun d => add (.ecParm (Or.inr rfl) hep rfl)
  · exact addOpaque (opq 3 [] (by decide))
  · exact addOpaque (opq 4 [] (by decide))
  · rw [List.append_assoc]
    exact addOpaque (opq 0 _ (by decide))

theorem parseSecPlain (a) : Acc [] (parseSecPlain a) := by
  unfold Gpgpdump.parseSecPlain
  split
  · exact bind (addMPI _) fun _ => bind (addMPI _) fun _ => bind (addMPI _) fun _ => addMPI _
  · exact addMPI _
  · exact addMPI _
  · exact addMPI _
  · exact addMPI _
  · exact addMPI _
  · intro c p q j u s hr
    rw [bind_run, rest_run] at hr
    simp only at hr
    by_cases hq : 2 ≤ q.length
    · rw [show ((q.length : Int) - 2) = ((q.length - 2 : Nat) : Int) by omega] at hr
      refine readBytes (b := []) _ ?_ _ _ _ _ _ _ hr
      intro x hx
      refine flag fun d => add (.sized (Or.inr ⟨sizedPrefixes[1], List.getElem_mem _, _, List.append_assoc _ _ _⟩) ?_)
      show iBytes _ = _
      rw [iBytes_nat, ← hx]; rfl
    · exfalso
      obtain ⟨x, s1, h1, -⟩ := bind_inv hr
      rw [readBytes_def] at h1
      unfold Reader.readBytes at h1
      rw [if_neg (by omega)] at h1
      split at h1
      · simp at h1
      · rw [if_neg (by simp [Reader.size]; omega), if_pos (by omega)] at h1
        simp at h1

end Acc
end Gpgpdump
