import Verif.ThmPackets

/-!
# Parse methods only append to the item they build

`Keeps m`: name, value, dump and note of the item under construction survive, its sub-items stay where they are.
-/

namespace Gpgpdump
open Spec P Src

structure Keeps {α} (m : P α) : Prop where
  run : ∀ st, ∃ l, (m st).2.cur = st.cur.addAll l

namespace Keeps

theorem of_same {α} {m : P α} (h : ∀ st, (m st).2.cur = st.cur) : Keeps m := ⟨fun st => ⟨[], by rw [h]; simp⟩⟩

theorem pure {α} (a : α) : Keeps (Pure.pure a : P α) := of_same fun _ => rfl
theorem fail {α} (e : GoErr) : Keeps (P.fail e : P α) := of_same fun _ => rfl
theorem panic {α} (s : Site) : Keeps (P.panic s : P α) := of_same fun _ => rfl
theorem readByte : Keeps readByte := of_same fun _ => rfl
theorem readBytes (n : Int) : Keeps (readBytes n) := of_same fun _ => rfl
theorem read2EOF : Keeps read2EOF := of_same fun _ => rfl
theorem seek (a b : Int) : Keeps (seek a b) := of_same fun _ => rfl
theorem reader : Keeps reader := of_same fun _ => rfl
theorem flag (f : Ctx → Bool) : Keeps (flag f) := of_same fun _ => rfl
theorem getCur : Keeps getCur := of_same fun _ => rfl
theorem getMode : Keeps getMode := of_same fun st => by
  simp only [P.getMode, P.getCtx]; split <;> rfl
theorem setMode (m : Mode) : Keeps (setMode m) := of_same fun st => by
  simp only [P.setMode]; split <;> rfl
theorem setKeyTime (t) : Keeps (setKeyTime t) := of_same fun st => by
  simp only [P.setKeyTime]; split <;> rfl
theorem add (i : Item) : Keeps (add i) := ⟨fun _ => ⟨[i], rfl⟩⟩

theorem bind {α β} {m : P α} {f : α → P β} (h : Keeps m) (h' : ∀ a, Keeps (f a)) : Keeps (m >>= f) := by
  constructor
  intro st
  obtain ⟨l, hl⟩ := h.run st
  rw [bind_run]
  rcases hm : m st with ⟨r, st'⟩
  rw [hm] at hl
  cases r with
  | ok a =>
    obtain ⟨l', hl'⟩ := (h' a).run st'
    exact ⟨l ++ l', by simp only; rw [hl', hl, Item.addAll_addAll]⟩
  | _ => exact ⟨l, hl⟩

theorem nested {α} (child : Item) (m : P α) : Keeps (nested child m) := ⟨fun _ => ⟨[_], rfl⟩⟩
theorem scope {α} (body : Bytes) (hdr : Item) (m : P α) : Keeps (scope body hdr m) := of_same fun _ => rfl
theorem build (hdr : Item) (m : P Unit) : Keeps (build hdr m) := of_same fun _ => rfl
theorem onReader {α} (r : Reader) {m : P α} (h : Keeps m) : Keeps (onReader r m) := ⟨fun st => h.run { st with rd := r }⟩
theorem failed {α} {m : P α} (h : Keeps m) : Keeps (failed m) := by
  constructor
  intro st
  obtain ⟨l, hl⟩ := h.run st
  unfold P.failed
  rcases hm : m st with ⟨r, st'⟩
  rw [hm] at hl
  cases r <;> exact ⟨l, hl⟩

theorem ite {α} {c : Prop} [Decidable c] {m m' : P α} (h : Keeps m) (h' : Keeps m') : Keeps (if c then m else m') := by
  split <;> assumption

end Keeps

/-- apply the rules -/
macro "keeps" : tactic => `(tactic| repeat' (first
  | with_reducible apply Keeps.bind
  | intro _
  | with_reducible exact Keeps.pure _
  | with_reducible exact Keeps.fail _
  | with_reducible exact Keeps.panic _
  | with_reducible exact Keeps.readByte
  | with_reducible exact Keeps.readBytes _
  | with_reducible exact Keeps.read2EOF
  | with_reducible exact Keeps.seek _ _
  | with_reducible exact Keeps.reader
  | with_reducible exact Keeps.flag _
  | with_reducible exact Keeps.getCur
  | with_reducible exact Keeps.getMode
  | with_reducible exact Keeps.setMode _
  | with_reducible exact Keeps.setKeyTime _
  | with_reducible exact Keeps.add _
  | with_reducible exact Keeps.nested _ _
  | with_reducible exact Keeps.scope _ _ _
  | with_reducible exact Keeps.build _ _
  | with_reducible apply Keeps.onReader
  | with_reducible apply Keeps.failed
  | with_reducible assumption
  | split
  | dsimp only))

theorem Keeps.rest : Keeps rest := by unfold Gpgpdump.rest; keeps
theorem Keeps.getBody : Keeps getBody := by unfold Gpgpdump.getBody; keeps
theorem Keeps.addRaw (n f) : Keeps (addRaw n f) := by unfold Gpgpdump.addRaw; keeps
theorem Keeps.newMPI : Keeps newMPI := by unfold Gpgpdump.newMPI; keeps
theorem Keeps.newOID : Keeps newOID := by unfold Gpgpdump.newOID; keeps
theorem Keeps.newDateTime (u) : Keeps (newDateTime u) := by unfold Gpgpdump.newDateTime; keeps

section
variable (X : Ext) (recur : TagParser)
theorem Keeps.unknownData : Keeps unknownData := by
  have := Keeps.rest
  have := Keeps.addRaw
  unfold Gpgpdump.unknownData; keeps
  all_goals apply Keeps.addRaw
theorem Keeps.newECParm : Keeps newECParm := by have := Keeps.rest; unfold Gpgpdump.newECParm; keeps
theorem Keeps.addMPI (n) : Keeps (addMPI n) := by have := Keeps.newMPI; unfold Gpgpdump.addMPI; keeps
theorem Keeps.addECPoint (n) : Keeps (addECPoint n) := by have := Keeps.newMPI; unfold Gpgpdump.addECPoint; keeps
theorem Keeps.addOpaque (n) : Keeps (addOpaque n) := by unfold Gpgpdump.addOpaque; keeps; apply Keeps.addRaw
theorem Keeps.parseSig (b) : Keeps (parseSig b) := by
  unfold Gpgpdump.parseSig; keeps <;> first | apply Keeps.addMPI | apply Keeps.addOpaque
theorem Keeps.ecdhPub : Keeps ecdhPub := by
  have := Keeps.newECParm; have := Keeps.newOID
  unfold Gpgpdump.ecdhPub; keeps <;> apply Keeps.addECPoint
theorem Keeps.parsePub (b) : Keeps (parsePub b) := by
  have := Keeps.ecdhPub; have := Keeps.newOID
  unfold Gpgpdump.parsePub; keeps <;> first | apply Keeps.addMPI | apply Keeps.addOpaque | apply Keeps.addECPoint
theorem Keeps.parseSes (b) : Keeps (parseSes b) := by
  have := Keeps.newECParm
  unfold Gpgpdump.parseSes; keeps <;> first | apply Keeps.addMPI | apply Keeps.addOpaque | apply Keeps.addECPoint
theorem Keeps.s2kParse (d) : Keeps (s2kParse d) := by unfold Gpgpdump.s2kParse; keeps
theorem Keeps.addSubpackets (p n a) : Keeps (addSubpackets p n a) := by unfold Gpgpdump.addSubpackets; keeps
theorem Keeps.tag01 : Keeps tag01 := by
  have := Keeps.unknownData
  unfold Gpgpdump.tag01; keeps; apply Keeps.parseSes
theorem Keeps.subArea (n) : Keeps (subArea X recur n) := by
  unfold Gpgpdump.subArea; keeps; apply Keeps.addSubpackets
theorem Keeps.tag02v3 : Keeps (tag02v3 X) := by
  unfold Gpgpdump.tag02v3; keeps; apply Keeps.parseSig
theorem Keeps.tag02v4 : Keeps (tag02v4 X recur) := by
  unfold Gpgpdump.tag02v4; keeps <;> first | apply Keeps.parseSig | apply Keeps.subArea
theorem Keeps.tag02 : Keeps (tag02 X recur) := by
  have := Keeps.unknownData; have := Keeps.tag02v4 X recur; have := Keeps.tag02v3 X
  unfold Gpgpdump.tag02; keeps
theorem Keeps.tag03 : Keeps tag03 := by
  have := Keeps.unknownData
  unfold Gpgpdump.tag03; keeps; apply Keeps.s2kParse
theorem Keeps.tag04 : Keeps tag04 := by
  have := Keeps.unknownData
  unfold Gpgpdump.tag04; keeps
theorem Keeps.pubkeyTime : Keeps (pubkeyTime X) := by
  unfold Gpgpdump.pubkeyTime; keeps; apply Keeps.newDateTime
theorem Keeps.pubkeyParse (v) : Keeps (pubkeyParse X v) := by
  have := Keeps.pubkeyTime X
  unfold Gpgpdump.pubkeyParse; keeps <;> apply Keeps.parsePub
theorem Keeps.tag05 : Keeps (tag05 X) := by
  have := Keeps.unknownData
  unfold Gpgpdump.tag05; keeps
theorem Keeps.tag06 : Keeps (tag06 X) := by
  have := Keeps.unknownData
  unfold Gpgpdump.tag06; keeps; apply Keeps.pubkeyParse
theorem Keeps.tag08 : Keeps (tag08 X) := by unfold Gpgpdump.tag08; keeps
theorem Keeps.tag09 : Keeps tag09 := by unfold Gpgpdump.tag09; keeps
theorem Keeps.tag10 : Keeps tag10 := by unfold Gpgpdump.tag10; keeps; apply Keeps.addRaw
theorem Keeps.tag11 : Keeps (tag11 X) := by
  unfold Gpgpdump.tag11; keeps <;> first | apply Keeps.addRaw | apply Keeps.newDateTime
theorem Keeps.tag12 : Keeps tag12 := by unfold Gpgpdump.tag12; apply Keeps.addRaw
theorem Keeps.tag13 : Keeps tag13 := by have := Keeps.getBody; unfold Gpgpdump.tag13; keeps
theorem Keeps.tag17 : Keeps tag17 := by
  have := Keeps.getBody
  unfold Gpgpdump.tag17; keeps; apply Keeps.addSubpackets
theorem Keeps.tag18 : Keeps tag18 := by unfold Gpgpdump.tag18; keeps
theorem Keeps.tag19 : Keeps tag19 := by unfold Gpgpdump.tag19; keeps
theorem Keeps.tag20 : Keeps tag20 := by
  have := Keeps.rest
  unfold Gpgpdump.tag20; keeps; apply Keeps.addRaw

theorem Keeps.tagBody (t) : Keeps (tagBody X recur t) := by
  unfold Gpgpdump.tagBody
  split
  · exact Keeps.tag01
  · exact Keeps.tag02 X recur
  · exact Keeps.tag03
  · exact Keeps.tag04
  · exact Keeps.tag05 X
  · exact Keeps.tag06 X
  · exact Keeps.tag05 X
  · have := Keeps.tag08 X; keeps
  · exact Keeps.tag09
  · exact Keeps.tag10
  · exact Keeps.tag11 X
  · exact Keeps.tag12
  · exact Keeps.tag13
  · exact Keeps.tag06 X
  · exact Keeps.tag17
  · exact Keeps.tag18
  · exact Keeps.tag19
  · exact Keeps.tag20
  · exact Keeps.pure _

end
end Gpgpdump
