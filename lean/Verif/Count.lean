import Verif.SpecRender
import Verif.SrcAny
import Verif.SubLemmas
import Verif.Run
import Verif.Tags

/-!
# Counting items

`Cost k c m`: `m` adds at most `c` items plus `k` per octet it takes from its reader.
-/

namespace Gpgpdump
open P Spec

/-- the items below -/
theorem items_eq (i : Item) : Spec.items i = 1 + itemsAll i.items := by rcases i with ⟨n, v, d, t, is⟩; rfl
theorem itemsAll_append (a b : List Item) : itemsAll (a ++ b) = itemsAll a + itemsAll b := by
  induction a with
  | nil => simp [itemsAll]
  | cons i a ih => simp only [List.cons_append, itemsAll, ih]; omega
theorem itemsAll_one (i : Item) : itemsAll [i] = Spec.items i := by simp [itemsAll]
theorem items_add (i k : Item) : Spec.items (i.add k) = Spec.items i + Spec.items k := by
  rw [items_eq, items_eq i]
  show 1 + itemsAll (i.items ++ [k]) = _
  rw [itemsAll_append, itemsAll_one]; omega
theorem items_leaf {i : Item} (h : i.items = []) : Spec.items i = 1 := by rw [items_eq, h]; rfl

def units (k : Nat) (st : St) : Nat := Spec.items st.cur + k * st.rd.remaining.length

structure Cost {α} (k c : Nat) (m : P α) : Prop where
  run : ∀ st, units k (m st).2 ≤ units k st + c

namespace Cost
variable {k c : Nat}

theorem same {α} {m : P α} (h : ∀ st, (m st).2.cur = st.cur ∧ (m st).2.rd = st.rd) : Cost k c m :=
  ⟨fun st => by unfold units; rw [(h st).1, (h st).2]; omega⟩
theorem reads {α} {m : P α} (h : ∀ st, (m st).2.cur = st.cur ∧ (m st).2.rd.remaining.length ≤ st.rd.remaining.length) : Cost k c m :=
  ⟨fun st => by unfold units; rw [(h st).1]; have := Nat.mul_le_mul_left k (h st).2; omega⟩
theorem mono {α} {a} {m : P α} (h : Cost k a m) (hac : a ≤ c) : Cost k c m := ⟨fun st => by have := h.run st; omega⟩

theorem pure {α} (a : α) : Cost k c (Pure.pure a : P α) := same fun _ => ⟨rfl, rfl⟩
theorem fail {α} (e : GoErr) : Cost k c (P.fail e : P α) := same fun _ => ⟨rfl, rfl⟩
theorem panic {α} (s : Site) : Cost k c (P.panic s : P α) := same fun _ => ⟨rfl, rfl⟩
theorem stuck {α} : Cost k c (P.stuck : P α) := same fun _ => ⟨rfl, rfl⟩
theorem readBytes_le (r : Reader) (n : Int) : (r.readBytes n).2.remaining.length ≤ r.remaining.length := by
  unfold Reader.readBytes
  repeat' split
  all_goals simp [Reader.remaining]; try omega
theorem readBytes (n : Int) : Cost k c (readBytes n) := reads fun st => ⟨rfl, readBytes_le st.rd n⟩
theorem readByte : Cost k c readByte := by
  refine reads fun st => ⟨rfl, ?_⟩
  show (st.rd.readByte).2.remaining.length ≤ _
  have := readBytes_le st.rd 1
  unfold Reader.readByte
  generalize st.rd.readBytes 1 = q at this ⊢
  rcases q with ⟨r, rd⟩
  rcases r with b | _ | _ | _
  · cases b <;> exact this
  all_goals exact this
theorem read2EOF : Cost k c read2EOF := by
  refine reads fun st => ⟨rfl, ?_⟩
  show (st.rd.read2EOF).2.remaining.length ≤ _
  unfold Reader.read2EOF
  split
  · exact Nat.le_refl _
  · simp [Reader.remaining, Reader.size]
/-- the count does not depend on what is unread when octets are free -/
theorem seek (a b : Int) : Cost 0 c (seek a b) := ⟨fun st => by unfold units; simp [P.seek]⟩
theorem reader : Cost k c reader := same fun _ => ⟨rfl, rfl⟩
theorem flag (f : Ctx → Bool) : Cost k c (flag f) := same fun _ => ⟨rfl, rfl⟩
theorem getCur : Cost k c getCur := same fun _ => ⟨rfl, rfl⟩
theorem getCtx {α} (f : Ctx → α) : Cost k c (P.getCtx f) := same fun st => by rcases st with ⟨x, rd, cur⟩; cases x <;> exact ⟨rfl, rfl⟩
theorem getMode : Cost k c getMode := getCtx _
theorem getSigTime : Cost k c getSigTime := getCtx _
theorem getKeyTime : Cost k c getKeyTime := getCtx _
theorem setMode (v) : Cost k c (setMode v) := same fun st => by rcases st with ⟨x, rd, cur⟩; cases x <;> exact ⟨rfl, rfl⟩
theorem setSigTime (v) : Cost k c (setSigTime v) := same fun st => by rcases st with ⟨x, rd, cur⟩; cases x <;> exact ⟨rfl, rfl⟩
theorem setKeyTime (v) : Cost k c (setKeyTime v) := same fun st => by rcases st with ⟨x, rd, cur⟩; cases x <;> exact ⟨rfl, rfl⟩
theorem setValue (v) : Cost k c (setValue v) := ⟨fun st => by unfold units; simp only [P.setValue]; rw [items_eq, items_eq st.cur]; simp [Item.setValue, Item.items]⟩
theorem setNote (v) : Cost k c (setNote v) := ⟨fun st => by unfold units; simp only [P.setNote]; rw [items_eq, items_eq st.cur]; simp [Item.setNote, Item.items]⟩
theorem setDump (v) : Cost k c (setDump v) := ⟨fun st => by unfold units; simp only [P.setDump]; rw [items_eq, items_eq st.cur]; simp [Item.setDump, Item.items]⟩
theorem addItem (i : Item) : Cost k (Spec.items i) (add i) := ⟨fun st => by unfold units; simp only [P.add]; rw [items_add]; omega⟩
theorem add {i : Item} (h : i.items = []) (hc : 1 ≤ c) : Cost k c (add i) := (addItem i).mono (by rw [items_leaf h]; exact hc)

theorem seq {α β} {a} {m : P α} {f : α → P β} (h : Cost k a m) (hac : a ≤ c) (h' : ∀ x, Cost k (c - a) (f x)) : Cost k c (m >>= f) := by
  constructor
  intro st
  rw [bind_run]
  have h1 := h.run st
  rcases hm : m st with ⟨r, s⟩
  rw [hm] at h1
  cases r with
  | ok x => have := (h' x).run s; simp only at h1 ⊢; omega
  | _ => simp only at h1 ⊢; omega
theorem skip {α β} {m : P α} {f : α → P β} (h : Cost k 0 m) (h' : ∀ x, Cost k c (f x)) : Cost k c (m >>= f) := seq h (Nat.zero_le _) h'
theorem add_bind {β} {i : Item} (h : i.items = []) (hc : 1 ≤ c) {f : Unit → P β} (h' : ∀ x, Cost k (c - 1) (f x)) : Cost k c (P.add i >>= f) :=
  seq (a := 1) (add h (Nat.le_refl _)) hc h'
theorem nested {α} {child : Item} (h : child.items = []) (hc : 1 ≤ c) {m : P α} (h' : Cost k (c - 1) m) : Cost k c (nested child m) := by
  constructor
  intro st
  have := h'.run { st with cur := child }
  unfold units at this ⊢
  simp only [P.nested]
  rw [items_add]
  simp only [items_leaf h] at this
  omega
theorem build_add {β} {a} {hdr : Item} (h : hdr.items = []) {m : P Unit} (hm : Cost k a m) (hc : a + 1 ≤ c) {f : Unit → P β} (hk : ∀ x, Cost k (c - (a + 1)) (f x)) :
    Cost k c (build hdr m >>= fun i => P.add i >>= f) := by
  constructor
  intro st
  have h1 := hm.run { st with cur := hdr }
  rw [bind_run]
  have e : build hdr m st = ((m { st with cur := hdr }).1.map (fun _ => (m { st with cur := hdr }).2.cur), { (m { st with cur := hdr }).2 with cur := st.cur }) := rfl
  rw [e]
  rcases hm : m { st with cur := hdr } with ⟨r, s⟩
  rw [hm] at h1
  unfold units at h1
  simp only [items_leaf h] at h1
  cases r with
  | ok a =>
    simp only [Res.map]
    have := ((addItem (k := k) s.cur).seq (c := Spec.items s.cur + (c - (_ + 1))) (by omega) (f := f) (fun x => by have := hk x; rwa [Nat.add_sub_cancel_left])).run { s with cur := st.cur }
    unfold units at this ⊢
    simp only at this ⊢
    omega
  | _ => simp only [Res.map, units]; omega
theorem onReader {α} (r : Reader) {m : P α} (h : Cost 0 c m) : Cost k c (onReader r m) := by
  constructor
  intro st
  have := h.run { st with rd := r }
  unfold units at this ⊢
  simp only [Nat.zero_mul, Nat.add_zero] at this
  simp only [P.onReader]
  omega
theorem failed {α} {m : P α} (h : Cost k c m) : Cost k c (failed m) := by
  constructor
  intro st
  have h1 := h.run st
  unfold P.failed
  rcases hm : m st with ⟨r, s⟩
  rw [hm] at h1
  cases r <;> exact h1
theorem addOpt {i : Option Item} (h : ∀ j, i = some j → j.items = []) (hc : 1 ≤ c) : Cost k c (addOpt i) := by
  cases i with
  | none => exact .pure _
  | some j => exact .add (h j rfl) hc
theorem flag2 (b v) (hc : 1 ≤ c) : Cost k c (Gpgpdump.addOpt (flag2Item b v)) := by
  refine .addOpt (fun j hj => ?_) hc
  unfold flag2Item at hj
  split at hj <;> cases hj
  rfl
theorem flag2_bind {β} (b v) (hc : 1 ≤ c) {f : Unit → P β} (h' : ∀ x, Cost k (c - 1) (f x)) : Cost k c (Gpgpdump.addOpt (flag2Item b v) >>= f) :=
  seq (a := 1) (flag2 b v (Nat.le_refl _)) hc h'

end Cost

theorem leaf_text (n b f) : (textItem n b f).items = [] := by
  unfold textItem
  split
  · rfl
  · split <;> rfl
theorem leaf_fileTime (X d f) : (fileTimeItem X d f).items = [] := by
  unfold fileTimeItem
  split <;> rfl

macro "leaf" : tactic => `(tactic| first
  | with_reducible exact leaf_text _ _ _
  | with_reducible exact leaf_fileTime _ _ _
  | rfl)

/-- apply the rules -/
macro "cost" : tactic => `(tactic| repeat' (first
  | intro _
  | with_reducible exact Cost.pure _
  | with_reducible exact Cost.fail _
  | with_reducible exact Cost.panic _
  | with_reducible exact Cost.readByte
  | with_reducible exact Cost.readBytes _
  | with_reducible exact Cost.read2EOF
  | with_reducible exact Cost.seek _ _
  | with_reducible exact Cost.reader
  | with_reducible exact Cost.flag _
  | with_reducible exact Cost.getCur
  | with_reducible exact Cost.getMode
  | with_reducible exact Cost.getSigTime
  | with_reducible exact Cost.getKeyTime
  | with_reducible exact Cost.setMode _
  | with_reducible exact Cost.setSigTime _
  | with_reducible exact Cost.setKeyTime _
  | with_reducible exact Cost.setValue _
  | with_reducible exact Cost.setNote _
  | with_reducible exact Cost.setDump _
  | ((with_reducible refine Cost.add ?_ ?_); leaf; decide)
  | with_reducible assumption
  | with_reducible exact Cost.mono (by assumption) (by decide)
  | ((with_reducible refine Cost.nested ?_ ?_ ?_); leaf; decide)
  | ((with_reducible refine Cost.build_add ?_ (by assumption) ?_ ?_); leaf; decide)
  | ((with_reducible refine Cost.add_bind ?_ ?_ ?_); leaf; decide)
  | with_reducible refine Cost.flag2_bind _ _ (by decide) ?_
  | with_reducible apply Cost.onReader
  | with_reducible apply Cost.failed
  | with_reducible refine Cost.seq (by assumption) (by decide) ?_
  | with_reducible refine Cost.seq (by solve_by_elim only [*]) (by decide) ?_
  | with_reducible apply Cost.skip
  | split
  | dsimp only))

section
variable {k : Nat}
theorem Cost.rest {c} : Cost k c rest := by unfold Gpgpdump.rest; exact .skip .reader fun _ => .pure _
theorem Cost.getBody {c} : Cost k c getBody := by unfold Gpgpdump.getBody; exact .skip .reader fun _ => .pure _
theorem Cost.addRaw (n f) : Cost k 1 (addRaw n f) := by
  unfold Gpgpdump.addRaw
  exact .skip .reader fun r => .add rfl (by decide)
theorem Cost.newMPI {c} : Cost k c newMPI := by unfold Gpgpdump.newMPI; cost
theorem Cost.newOID {c} : Cost k c newOID := by unfold Gpgpdump.newOID; cost
theorem Cost.newDateTime {c} (u) : Cost k c (newDateTime u) := by unfold Gpgpdump.newDateTime; cost
theorem Cost.newECParm {c} : Cost k c newECParm := by have := @Cost.rest k 0; unfold Gpgpdump.newECParm; cost
theorem Cost.unknownData : Cost k 1 unknownData := by
  have := @Cost.rest k 0; have := @Cost.addRaw k
  unfold Gpgpdump.unknownData; cost
  apply Cost.addRaw
theorem Cost.addMPI (n) : Cost k 1 (addMPI n) := by
  have := @Cost.newMPI k 0
  unfold Gpgpdump.addMPI; cost
theorem Cost.addECPoint (n) : Cost k 1 (addECPoint n) := by
  have := @Cost.newMPI k 0
  unfold Gpgpdump.addECPoint; cost
theorem Cost.addOpaque (n) : Cost k 1 (addOpaque n) := by
  unfold Gpgpdump.addOpaque
  exact .skip (.flag _) fun _ => .addRaw _ _
theorem Cost.parseSig (b) : Cost k 2 (parseSig b) := by
  unfold Gpgpdump.parseSig
  split
  all_goals first
    | exact .mono (Cost.addOpaque _) (by decide)
    | exact .mono (Cost.addMPI _) (by decide)
    | exact .seq (.addMPI _) (by decide) fun _ => .mono (.addMPI _) (by decide)
theorem Cost.ecdhPub : Cost k 5 ecdhPub := by
  unfold Gpgpdump.ecdhPub
  refine .skip .newOID fun _ => .add_bind rfl (by decide) fun _ => .seq (.addECPoint _) (by decide) fun _ => .skip .newECParm fun _ => .skip (.flag _) fun _ => ?_
  dsimp only
  split
  · exact .skip (.flag _) fun _ => .mono (.addItem _) (by rw [items_add, items_add, items_leaf rfl, items_leaf rfl, items_leaf rfl]; decide)
  · exact .add rfl (by decide)
theorem Cost.parsePub (b) : Cost k 5 (parsePub b) := by
  unfold Gpgpdump.parsePub
  split
  all_goals first
    | exact .mono (Cost.addOpaque _) (by decide)
    | exact Cost.ecdhPub
    | exact .skip .newOID fun _ => .add_bind rfl (by decide) fun _ => .mono (.addECPoint _) (by decide)
    | exact .seq (.addMPI _) (by decide) fun _ => .mono (.addMPI _) (by decide)
    | exact .seq (.addMPI _) (by decide) fun _ => .seq (.addMPI _) (by decide) fun _ => .mono (.addMPI _) (by decide)
    | exact .seq (.addMPI _) (by decide) fun _ => .seq (.addMPI _) (by decide) fun _ => .seq (.addMPI _) (by decide) fun _ => .mono (.addMPI _) (by decide)
theorem Cost.parseSes (b) : Cost k 2 (parseSes b) := by
  unfold Gpgpdump.parseSes
  split
  all_goals first
    | exact .mono (Cost.addOpaque _) (by decide)
    | exact .mono (Cost.addMPI _) (by decide)
    | exact .seq (.addMPI _) (by decide) fun _ => .mono (.addMPI _) (by decide)
    | exact .seq (.addECPoint _) (by decide) fun _ => .skip .newECParm fun _ => .skip (.flag _) fun _ => .add rfl (by decide)
theorem Cost.parseSecPlain (b) : Cost k 4 (parseSecPlain b) := by
  unfold Gpgpdump.parseSecPlain
  split
  all_goals first
    | exact .mono (Cost.addMPI _) (by decide)
    | exact .seq (.addMPI _) (by decide) fun _ => .seq (.addMPI _) (by decide) fun _ => .seq (.addMPI _) (by decide) fun _ => .mono (.addMPI _) (by decide)
    | exact .skip .rest fun _ => .skip (.readBytes _) fun _ => .skip (.flag _) fun _ => .add rfl (by decide)
theorem Cost.parseSecEnc (b) : Cost 0 1 (parseSecEnc b) := by
  unfold Gpgpdump.parseSecEnc
  split
  all_goals exact .seq (.addOpaque _) (by decide) fun _ => .skip (.seek _ _) fun _ => .pure _
theorem Cost.s2kParse (d) : Cost 0 4 (s2kParse d) := by
  have := @Cost.rest 0 0
  have hg : ∀ n : Nat, Cost 0 1 ((do
      if n = 1002 then
        let l ← P.readByte
        let ser ← P.readBytes l.toNat
        P.add (newItem (S "Serial Number") [] [] (dumpBytes ser true))
      else Pure.pure ()) : P Unit) := by intro n; cost
  unfold Gpgpdump.s2kParse
  refine .skip .readByte fun ss => .nested rfl (by decide) ?_
  split
  · cost
  · split
    · refine .skip .rest fun _ => ?_
      split
      · exact .pure _
      · refine .skip (.readBytes _) fun _ => ?_
        split
        · exact .skip .readByte fun _ => .build_add rfl (hg _) (by decide) fun _ => .pure _
        · exact .skip (.seek _ _) fun _ => .pure _
    · exact .pure _
end

end Gpgpdump
