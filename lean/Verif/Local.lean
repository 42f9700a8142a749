import Verif.Run
import Verif.Keeps

/-!
# Methods that only look at what is still to be read

A local method does the same whatever has been read before and whatever the current item is: it returns some result, consumes some
octets, leaves some context and appends some items, all of them determined by the context and the unread octets.
-/

namespace Gpgpdump
open P

structure Local {α} (m : P α) : Prop where
  run : ∀ c q, ∃ r n c' l, n ≤ q.length ∧ ∀ p j, m (St.at c p q j) = (r, St.at c' (p ++ q.take n) (q.drop n) (j.addAll l))

namespace Local

theorem pure {α} (a : α) : Local (Pure.pure a : P α) :=
  ⟨fun c q => ⟨.ok a, 0, c, [], by simp, fun p j => by rw [pure_run]; simp⟩⟩
theorem fail {α} (e : GoErr) : Local (P.fail e : P α) :=
  ⟨fun c q => ⟨.err e, 0, c, [], by simp, fun p j => by rw [fail_run]; simp⟩⟩
theorem flag (f : Ctx → Bool) : Local (flag f) :=
  ⟨fun c q => ⟨.ok (ctxFlag f c), 0, c, [], by simp, fun p j => by rw [flag_run]; simp⟩⟩
theorem add (i : Item) : Local (add i) :=
  ⟨fun c q => ⟨.ok (), 0, c, [i], by simp, fun p j => by rw [add_run]; simp; rfl⟩⟩
theorem readByte : Local readByte := by
  constructor
  intro c q
  cases q with
  | nil => exact ⟨_, 0, c, [], by simp, fun p j => by rw [readByte_nil]; simp; rfl⟩
  | cons b q => exact ⟨.ok b, 1, c, [], by simp, fun p j => by rw [readByte_cons]; simp⟩
theorem readBytes (n : Nat) : Local (readBytes n) := by
  constructor
  intro c q
  by_cases h : n ≤ q.length
  · exact ⟨_, n, c, [], h, fun p j => by rw [readBytes_ok _ _ _ _ _ h]; simp; rfl⟩
  · exact ⟨_, 0, c, [], by simp, fun p j => by rw [readBytes_err _ _ _ _ _ (by omega)]; simp; rfl⟩
theorem readBytes2 : Local (P.readBytes 2) := readBytes 2
theorem readBytes8 : Local (P.readBytes 8) := readBytes 8
theorem rest : Local rest :=
  ⟨fun c q => ⟨.ok (q.length : Int), 0, c, [], by simp, fun p j => by rw [rest_run]; simp⟩⟩
theorem addRaw (n f) : Local (addRaw n f) :=
  ⟨fun c q => ⟨.ok (), 0, c, _, by simp, fun p j => by rw [addRaw_run]; simp; rfl⟩⟩

theorem bind {α β} {m : P α} {f : α → P β} (h : Local m) (h' : ∀ a, Local (f a)) : Local (m >>= f) := by
  constructor
  intro c q
  obtain ⟨r, n, c1, l, hn, h1⟩ := h.run c q
  cases r with
  | ok a =>
    obtain ⟨r, n', c2, l', hn', h2⟩ := (h' a).run c1 (q.drop n)
    rw [List.length_drop] at hn'
    refine ⟨r, n + n', c2, l ++ l', by omega, fun p j => ?_⟩
    rw [bind_run, h1]
    show f a _ = _
    rw [h2, List.drop_drop, Item.addAll_addAll, List.append_assoc, List.take_add]
  | err e => exact ⟨.err e, n, c1, l, hn, fun p j => by rw [bind_run, h1]⟩
  | panic e => exact ⟨.panic e, n, c1, l, hn, fun p j => by rw [bind_run, h1]⟩
  | stuck => exact ⟨.stuck, n, c1, l, hn, fun p j => by rw [bind_run, h1]⟩

theorem ite {α} {b : Prop} [Decidable b] {m m' : P α} (h : Local m) (h' : Local m') : Local (if b then m else m') := by
  split <;> assumption

theorem newMPI : Local newMPI := by
  unfold Gpgpdump.newMPI
  exact bind readBytes2 fun _ => bind (readBytes _) fun _ => pure _
theorem addMPI (n) : Local (addMPI n) := by
  unfold Gpgpdump.addMPI
  exact bind newMPI fun _ => bind (flag _) fun _ => add _
theorem addOpaque (n) : Local (addOpaque n) := by
  unfold Gpgpdump.addOpaque
  exact bind (flag _) fun _ => addRaw _ _
theorem parseSig (a) : Local (parseSig a) := by
  unfold Gpgpdump.parseSig
  split
  · exact addMPI _
  · exact bind (addMPI _) fun _ => addMPI _
  · exact bind (addMPI _) fun _ => addMPI _
  · exact addOpaque _
  · exact bind (addMPI _) fun _ => addMPI _
  · exact bind (addMPI _) fun _ => addMPI _
  · exact addOpaque _
theorem unknownData : Local unknownData := by
  unfold Gpgpdump.unknownData
  exact bind rest fun _ => ite (bind (flag _) fun _ => addRaw _ _) (pure _)

end Local

end Gpgpdump
