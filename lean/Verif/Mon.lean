import Verif.SpecHistory
import Verif.Run
import Verif.Tags

/-!
# Reading the output in order

`Plain m`: `m` leaves the context alone and adds only items that say nothing about session keys and times.
`Mon m`: when `m` succeeds, the items it adds, read in order, account for the change of the context.
-/

namespace Gpgpdump
open P Spec

/-- an item that changes nothing -/
def Inert (i : Item) : Prop := ∀ time days h, Seen time days h i h
/-- a leaf that changes nothing -/
def Quiet (i : Item) : Prop := tracked.contains i.name = false ∧ i.items = []

theorem untracked {n : Str} (h : tracked.contains n = false) : n ∉ tracked := by
  intro hn
  have := List.contains_iff_mem.2 hn
  rw [h] at this
  cases this

theorem seenAll_append {time days h l h' l' h''} (h1 : SeenAll time days h l h') (h2 : SeenAll time days h' l' h'') : SeenAll time days h (l ++ l') h'' := by
  induction l generalizing h with
  | nil => cases h1; exact h2
  | cons i l ih => cases h1 with | cons hi hl => exact .cons hi (ih hl)
theorem seenAll_inert {time days h l} (hl : ∀ i ∈ l, Inert i) : SeenAll time days h l h := by
  induction l with
  | nil => exact .nil
  | cons i l ih => exact .cons (hl i (by simp) time days h) (ih fun j hj => hl j (by simp [hj]))

theorem Inert.mk {i : Item} (hn : tracked.contains i.name = false) (hi : ∀ k ∈ i.items, Inert k) : Inert i :=
  fun _ _ _ => .other (untracked hn) (seenAll_inert hi)
theorem Quiet.inert {i : Item} (h : Quiet i) : Inert i := .mk h.1 (by rw [h.2]; simp)
theorem Quiet.new {name v t d : Str} (h : tracked.contains name = false) : Quiet (newItem name v t d) := ⟨h, rfl⟩
theorem Quiet.setNote {i : Item} {n} (h : Quiet i) : Quiet (i.setNote n) := h
theorem Quiet.setValue {i : Item} {n} (h : Quiet i) : Quiet (i.setValue n) := h
theorem Quiet.of_head {c : Char} {s v t d : Str} (h : c ∉ ['P', 'S', 'U', 'K']) : Quiet (newItem (c :: s) v t d) := by
  refine ⟨?_, rfl⟩
  have : ∀ n ∈ tracked, ∃ c' s', n = c' :: s' ∧ c' ∈ ['P', 'S', 'U', 'K'] := by
    have key : tracked.all (fun n => match n with | [] => false | c :: _ => ['P', 'S', 'U', 'K'].contains c) = true := by decide +kernel
    intro n hn
    have := List.all_eq_true.1 key n hn
    cases n with
    | nil => simp at this
    | cons c s => exact ⟨c, s, rfl, by simpa using this⟩
  show tracked.contains (c :: s) = false
  rw [Bool.eq_false_iff]
  intro hc
  obtain ⟨c', s', he, hm⟩ := this _ (List.contains_iff_mem.1 hc)
  cases he
  exact h hm

/-- `tracked`, spelled out (it is compared with many names) -/
def trackedChars : List Str := [
  ['P', 'u', 'b', 'l', 'i', 'c', '-', 'K', 'e', 'y', ' ', 'E', 'n', 'c', 'r', 'y', 'p', 't', 'e', 'd', ' ', 'S', 'e', 's', 's', 'i', 'o', 'n', ' ', 'K', 'e', 'y', ' ', 'P', 'a', 'c', 'k', 'e', 't', ' ', '(', 't', 'a', 'g', ' ', '1', ')'],
  ['S', 'y', 'm', 'm', 'e', 't', 'r', 'i', 'c', '-', 'K', 'e', 'y', ' ', 'E', 'n', 'c', 'r', 'y', 'p', 't', 'e', 'd', ' ', 'S', 'e', 's', 's', 'i', 'o', 'n', ' ', 'K', 'e', 'y', ' ', 'P', 'a', 'c', 'k', 'e', 't', ' ', '(', 't', 'a', 'g', ' ', '3', ')'],
  ['S', 'y', 'm', 'm', 'e', 't', 'r', 'i', 'c', 'a', 'l', 'l', 'y', ' ', 'E', 'n', 'c', 'r', 'y', 'p', 't', 'e', 'd', ' ', 'D', 'a', 't', 'a', ' ', 'P', 'a', 'c', 'k', 'e', 't', ' ', '(', 't', 'a', 'g', ' ', '9', ')'],
  ['S', 'y', 'm', '.', ' ', 'E', 'n', 'c', 'r', 'y', 'p', 't', 'e', 'd', ' ', 'I', 'n', 't', 'e', 'g', 'r', 'i', 't', 'y', ' ', 'P', 'r', 'o', 't', 'e', 'c', 't', 'e', 'd', ' ', 'D', 'a', 't', 'a', ' ', 'P', 'a', 'c', 'k', 'e', 't', ' ', '(', 't', 'a', 'g', ' ', '1', '8', ')'],
  ['P', 'u', 'b', 'l', 'i', 'c', ' ', 'k', 'e', 'y', ' ', 'c', 'r', 'e', 'a', 't', 'i', 'o', 'n', ' ', 't', 'i', 'm', 'e'],
  ['U', 's', 'e', 'r', ' ', 'A', 't', 't', 'r', 'i', 'b', 'u', 't', 'e', ' ', 'P', 'a', 'c', 'k', 'e', 't', ' ', '(', 't', 'a', 'g', ' ', '1', '7', ')'],
  ['K', 'e', 'y', ' ', 'E', 'x', 'p', 'i', 'r', 'a', 't', 'i', 'o', 'n', ' ', 'T', 'i', 'm', 'e', ' ', '(', 's', 'u', 'b', ' ', '9', ')'],
  ['K', 'e', 'y', ' ', 'E', 'x', 'p', 'i', 'r', 'a', 't', 'i', 'o', 'n', ' ', 'T', 'i', 'm', 'e', ' ', '<', 'c', 'r', 'i', 't', 'i', 'c', 'a', 'l', '>', ' ', '(', 's', 'u', 'b', ' ', '9', ')'],
  ['S', 'i', 'g', 'n', 'a', 't', 'u', 'r', 'e', ' ', 'C', 'r', 'e', 'a', 't', 'i', 'o', 'n', ' ', 'T', 'i', 'm', 'e', ' ', '(', 's', 'u', 'b', ' ', '2', ')'],
  ['S', 'i', 'g', 'n', 'a', 't', 'u', 'r', 'e', ' ', 'C', 'r', 'e', 'a', 't', 'i', 'o', 'n', ' ', 'T', 'i', 'm', 'e', ' ', '<', 'c', 'r', 'i', 't', 'i', 'c', 'a', 'l', '>', ' ', '(', 's', 'u', 'b', ' ', '2', ')'],
  ['S', 'i', 'g', 'n', 'a', 't', 'u', 'r', 'e', ' ', 'E', 'x', 'p', 'i', 'r', 'a', 't', 'i', 'o', 'n', ' ', 'T', 'i', 'm', 'e', ' ', '(', 's', 'u', 'b', ' ', '3', ')'],
  ['S', 'i', 'g', 'n', 'a', 't', 'u', 'r', 'e', ' ', 'E', 'x', 'p', 'i', 'r', 'a', 't', 'i', 'o', 'n', ' ', 'T', 'i', 'm', 'e', ' ', '<', 'c', 'r', 'i', 't', 'i', 'c', 'a', 'l', '>', ' ', '(', 's', 'u', 'b', ' ', '3', ')']]
theorem untracked_chars {n : Str} (h : trackedChars.contains n = false) : tracked.contains n = false := by
  have e : tracked = trackedChars := by decide +kernel
  rw [e]; exact h
/-- a literal is not the name of a tracked item -/
macro "fresh" : tactic => `(tactic| first | exact untracked_chars (by decide +kernel) | decide +kernel)

theorem Quiet.hash (b f) : Quiet (hashItem b f) := .new (by fresh)
theorem Quiet.sig (b f) : Quiet (sigItem b f) := .new (by fresh)
theorem Quiet.comp (b f) : Quiet (compItem b f) := .new (by fresh)
theorem Quiet.aead (b f) : Quiet (aeadItem b f) := .new (by fresh)
theorem Quiet.pub (b f) : Quiet (pubItem b f) := .new (by fresh)
theorem Quiet.sym (b f) : Quiet (symItem b f) := .new (by fresh)
theorem Quiet.s2k (b f) : Quiet (s2kItem b f) := .new (by fresh)
theorem Quiet.salt (b f) : Quiet (saltItem b f) := .new (by fresh)
theorem Quiet.stretch (b) : Quiet (stretchItem b) := .new (by fresh)
theorem Quiet.version (v : Version) (f) : Quiet (v.item f) := .new (by fresh)
theorem Quiet.oid (b f) : Quiet (oidItem b f) := .new (by fresh)
theorem Quiet.mpi {n} (h : tracked.contains n = false) (a b f) : Quiet (mpiItem n a b f) := .new h
theorem Quiet.parm {n} (h : tracked.contains n = false) (b f) : Quiet (ecParmItem b n f) := .new h
theorem Quiet.format (b) : Quiet (literalFormatItem b) := .new (by fresh)
theorem Quiet.text {n} (h : tracked.contains n = false) (b f) : Quiet (textItem n b f) := by
  unfold textItem
  split
  · exact .new h
  · split <;> exact .new h
theorem Quiet.raw {n} (h : tracked.contains n = false) (r f) : Quiet (rawData r n f) := .new h
theorem Quiet.date {n} (h : tracked.contains n = false) (X d f) : Quiet (dateTimeItem X d n f) := .new h
theorem Quiet.fileTime (X d f) : Quiet (fileTimeItem X d f) := by
  unfold fileTimeItem
  split
  · exact .new (by fresh)
  · exact .date (by fresh) _ _ _
theorem Quiet.keyID (b) : Quiet (keyIDItem b) := .new (by fresh)
theorem Quiet.hashLeft (b) : Quiet (hashLeft2 b) := .new (by fresh)
theorem Quiet.num {n} (h : tracked.contains n = false) (b) : Quiet (numItem n b) := .new h

macro "quiet" : tactic => `(tactic| first
  | with_reducible exact Quiet.hash _ _ | with_reducible exact Quiet.sig _ _ | with_reducible exact Quiet.comp _ _
  | with_reducible exact Quiet.aead _ _ | with_reducible exact Quiet.pub _ _ | with_reducible exact Quiet.sym _ _
  | with_reducible exact Quiet.s2k _ _ | with_reducible exact Quiet.salt _ _ | with_reducible exact Quiet.stretch _
  | with_reducible exact Quiet.version _ _ | with_reducible exact Quiet.oid _ _
  | with_reducible exact Quiet.format _ | with_reducible exact Quiet.fileTime _ _ _ | with_reducible exact Quiet.keyID _
  | with_reducible exact Quiet.hashLeft _
  | (with_reducible refine Quiet.text ?_ _ _); fresh
  | (with_reducible refine Quiet.raw ?_ _ _); fresh
  | (with_reducible refine Quiet.date ?_ _ _ _); fresh
  | (with_reducible refine Quiet.parm ?_ _ _); fresh
  | (with_reducible refine Quiet.num ?_ _); fresh
  | (with_reducible refine Quiet.setNote (Quiet.num ?_ _)); fresh
  | (with_reducible refine Quiet.setNote (Quiet.raw ?_ _ _)); fresh
  | (with_reducible refine Quiet.new ?_); fresh
  | exact Quiet.new (by fresh))

/-! ## Code that leaves the context alone -/

structure Plain {α} (m : P α) : Prop where
  run : ∀ st, (m st).2.ctx = st.ctx ∧ (m st).2.cur.name = st.cur.name ∧
    ∃ l, (m st).2.cur.items = st.cur.items ++ l ∧ ∀ i ∈ l, Inert i

namespace Plain

theorem same {α} {m : P α} (h : ∀ st, (m st).2.ctx = st.ctx ∧ (m st).2.cur = st.cur) : Plain m :=
  ⟨fun st => ⟨(h st).1, by rw [(h st).2], [], by rw [(h st).2]; simp, by simp⟩⟩

theorem pure {α} (a : α) : Plain (Pure.pure a : P α) := same fun _ => ⟨rfl, rfl⟩
theorem fail {α} (e : GoErr) : Plain (P.fail e : P α) := same fun _ => ⟨rfl, rfl⟩
theorem panic {α} (s : Site) : Plain (P.panic s : P α) := same fun _ => ⟨rfl, rfl⟩
theorem stuck {α} : Plain (P.stuck : P α) := same fun _ => ⟨rfl, rfl⟩
theorem readByte : Plain readByte := same fun _ => ⟨rfl, rfl⟩
theorem readBytes (n : Int) : Plain (readBytes n) := same fun _ => ⟨rfl, rfl⟩
theorem read2EOF : Plain read2EOF := same fun _ => ⟨rfl, rfl⟩
theorem seek (a b : Int) : Plain (seek a b) := same fun _ => ⟨rfl, rfl⟩
theorem reader : Plain reader := same fun _ => ⟨rfl, rfl⟩
theorem flag (f : Ctx → Bool) : Plain (flag f) := same fun _ => ⟨rfl, rfl⟩
theorem getCur : Plain getCur := same fun _ => ⟨rfl, rfl⟩
theorem getMode : Plain getMode := same fun st => by rcases st with ⟨c, rd, cur⟩; cases c <;> exact ⟨rfl, rfl⟩
theorem setValue (v) : Plain (setValue v) := ⟨fun _ => ⟨rfl, rfl, [], by simp [P.setValue, Item.setValue, Item.items], by simp⟩⟩
theorem setNote (v) : Plain (setNote v) := ⟨fun _ => ⟨rfl, rfl, [], by simp [P.setNote, Item.setNote, Item.items], by simp⟩⟩
theorem setDump (v) : Plain (setDump v) := ⟨fun _ => ⟨rfl, rfl, [], by simp [P.setDump, Item.setDump, Item.items], by simp⟩⟩
theorem add {i : Item} (h : Inert i) : Plain (add i) := ⟨fun _ => ⟨rfl, rfl, [i], rfl, by simpa using h⟩⟩

theorem bind {α β} {m : P α} {f : α → P β} (h : Plain m) (h' : ∀ a, Plain (f a)) : Plain (m >>= f) := by
  constructor
  intro st
  rw [bind_run]
  have h1 := h.run st
  rcases hm : m st with ⟨r, s⟩
  rw [hm] at h1
  cases r with
  | ok a =>
    obtain ⟨c1, n1, l1, i1, q1⟩ := h1
    obtain ⟨c2, n2, l2, i2, q2⟩ := (h' a).run s
    refine ⟨c2.trans c1, n2.trans n1, l1 ++ l2, ?_, ?_⟩
    · rw [i2, i1, List.append_assoc]
    · simp only [List.mem_append]
      rintro i (hi | hi)
      · exact q1 i hi
      · exact q2 i hi
  | _ => exact h1
theorem nested {α} {child : Item} (hq : Quiet child) {m : P α} (h : Plain m) : Plain (nested child m) := by
  constructor
  intro st
  obtain ⟨hc, hi⟩ := hq
  obtain ⟨c, n, l, hl, hq⟩ := h.run { st with cur := child }
  refine ⟨c, rfl, [(m { st with cur := child }).2.cur], rfl, ?_⟩
  simp only [List.mem_singleton]
  rintro i rfl
  refine .mk (by rw [n]; exact hc) fun k hk => ?_
  rw [hl] at hk
  simp only [hi, List.nil_append] at hk
  exact hq k hk
theorem build_add {β} {hdr : Item} (hq : Quiet hdr) {m : P Unit} (h : Plain m) {k : P β} (hk : Plain k) :
    Plain (build hdr m >>= fun i => P.add i >>= fun _ => k) := by
  constructor
  intro st
  obtain ⟨hc, hi⟩ := hq
  have h1 := h.run { st with cur := hdr }
  rw [bind_run]
  have e : build hdr m st = ((m { st with cur := hdr }).1.map (fun _ => (m { st with cur := hdr }).2.cur), { (m { st with cur := hdr }).2 with cur := st.cur }) := rfl
  rw [e]
  rcases hm : m { st with cur := hdr } with ⟨r, s⟩
  rw [hm] at h1
  obtain ⟨c, n, l, hl, hq⟩ := h1
  cases r with
  | ok a =>
    simp only [Res.map]
    have hin : Inert s.cur := by
      refine .mk (by rw [n]; exact hc) fun k hk => ?_
      rw [hl] at hk
      simp only [hi, List.nil_append] at hk
      exact hq k hk
    obtain ⟨c2, n2, l2, i2, q2⟩ := ((add hin).bind fun _ => hk).run { s with cur := st.cur }
    exact ⟨c2.trans c, n2, l2, i2, q2⟩
  | _ => exact ⟨c, rfl, [], by simp [Res.map], by simp⟩
theorem onReader {α} (r : Reader) {m : P α} (h : Plain m) : Plain (onReader r m) := ⟨fun st => h.run { st with rd := r }⟩
theorem failed {α} {m : P α} (h : Plain m) : Plain (failed m) := by
  constructor
  intro st
  have h1 := h.run st
  unfold P.failed
  rcases hm : m st with ⟨r, s⟩
  rw [hm] at h1
  cases r <;> exact h1

end Plain

/-- apply the rules -/
macro "plain" : tactic => `(tactic| repeat' (first
  | intro _
  | with_reducible exact Plain.pure _
  | with_reducible exact Plain.fail _
  | with_reducible exact Plain.panic _
  | with_reducible exact Plain.stuck
  | with_reducible exact Plain.readByte
  | with_reducible exact Plain.readBytes _
  | with_reducible exact Plain.read2EOF
  | with_reducible exact Plain.seek _ _
  | with_reducible exact Plain.reader
  | with_reducible exact Plain.flag _
  | with_reducible exact Plain.getCur
  | with_reducible exact Plain.getMode
  | with_reducible exact Plain.setValue _
  | with_reducible exact Plain.setNote _
  | with_reducible exact Plain.setDump _
  | with_reducible exact Plain.add (Quiet.inert (by quiet))
  | with_reducible assumption
  | with_reducible refine Plain.nested (by quiet) ?_
  | with_reducible refine Plain.build_add (by quiet) ?_ ?_
  | with_reducible apply Plain.onReader
  | with_reducible apply Plain.failed
  | with_reducible apply Plain.bind
  | split
  | dsimp only))

section
theorem Plain.rest : Plain rest := by unfold Gpgpdump.rest; plain
theorem Plain.getBody : Plain getBody := by unfold Gpgpdump.getBody; plain
theorem Plain.addRaw {n} (h : tracked.contains n = false) (f) : Plain (addRaw n f) := by
  unfold Gpgpdump.addRaw
  exact .bind .reader fun r => .add (Quiet.raw h r f).inert
theorem Plain.newMPI : Plain newMPI := by unfold Gpgpdump.newMPI; plain
theorem Plain.newOID : Plain newOID := by unfold Gpgpdump.newOID; plain
theorem Plain.newDateTime (u) : Plain (newDateTime u) := by unfold Gpgpdump.newDateTime; plain
theorem Plain.addOpt {i : Option Item} (h : ∀ k, i = some k → Inert k) : Plain (addOpt i) := by
  cases i with
  | none => exact .pure _
  | some k => exact .add (h k rfl)
theorem Plain.flag2 (b v) : Plain (Gpgpdump.addOpt (flag2Item b v)) := by
  refine .addOpt fun k hk => ?_
  unfold flag2Item at hk
  split at hk
  · cases hk; exact (Quiet.new (by fresh)).inert
  · cases hk
theorem Plain.forEach {α} (l : List α) {f : α → P Unit} (h : ∀ a, Plain (f a)) : Plain (forEach l f) := by
  induction l with
  | nil => exact .pure _
  | cons a l ih => exact .bind (h a) fun _ => ih
theorem Plain.otherFlags (n bs) : Plain (otherFlags n bs) := by
  induction bs generalizing n with
  | nil => exact .pure _
  | cons b l ih => exact .bind (.flag2 _ _) fun _ => ih _
theorem Plain.trailingFlags : Plain trailingFlags := by
  have := Plain.rest; have := Plain.otherFlags
  unfold Gpgpdump.trailingFlags; plain
  all_goals apply Plain.otherFlags
theorem Plain.unknownData : Plain unknownData := by
  have := Plain.rest
  unfold Gpgpdump.unknownData; plain
  all_goals exact .addRaw (by fresh) _
theorem Plain.newECParm : Plain newECParm := by have := Plain.rest; unfold Gpgpdump.newECParm; plain
theorem Plain.addMPI {n} (h : tracked.contains n = false) : Plain (addMPI n) := by
  unfold Gpgpdump.addMPI
  exact .bind .newMPI fun _ => .bind (.flag _) fun _ => .add (Quiet.mpi h _ _ _).inert
theorem Plain.addECPoint {c s} (h : c ∉ ['P', 'S', 'U', 'K']) : Plain (addECPoint (c :: s)) := by
  unfold Gpgpdump.addECPoint
  exact .bind .newMPI fun _ => .bind (.flag _) fun _ => .add (Quiet.of_head h).inert
theorem Plain.addOpaque {n} (h : tracked.contains n = false) : Plain (addOpaque n) := by
  unfold Gpgpdump.addOpaque
  exact .bind (.flag _) fun _ => .addRaw h _
theorem Plain.addOpaque_head {c s} (h : c ∉ ['P', 'S', 'U', 'K']) : Plain (Gpgpdump.addOpaque (c :: s)) := .addOpaque (Quiet.of_head (v := []) (t := []) (d := []) h).1
theorem Plain.parseSig (b) : Plain (parseSig b) := by
  unfold Gpgpdump.parseSig; plain <;> first | exact Plain.addMPI (by fresh) | exact Plain.addOpaque (by fresh) | exact Plain.addOpaque_head (c := 'M') (by decide)
theorem Plain.ecdhPub : Plain ecdhPub := by
  have := Plain.newECParm; have := Plain.newOID
  unfold Gpgpdump.ecdhPub; plain
  · exact Plain.addECPoint (c := 'E') (by decide)
  · refine .add (.mk (show tracked.contains (S "KDF parameters") = false by decide +kernel) ?_)
    intro k hk
    change k ∈ [hashItem _ _, symItem _ _] at hk
    simp only [List.mem_cons, List.not_mem_nil, or_false] at hk
    rcases hk with rfl | rfl
    · exact (Quiet.hash _ _).inert
    · exact (Quiet.sym _ _).inert
  · exact .add (Quiet.setValue (.parm (by fresh) _ _)).inert
theorem Plain.parsePub (b) : Plain (parsePub b) := by
  have := Plain.ecdhPub; have := Plain.newOID
  unfold Gpgpdump.parsePub; plain <;> first | exact Plain.addMPI (by fresh) | exact Plain.addECPoint (c := 'E') (by decide) | exact Plain.addOpaque_head (c := 'M') (by decide)
theorem Plain.parseSes (b) : Plain (parseSes b) := by
  have := Plain.newECParm
  unfold Gpgpdump.parseSes; plain <;> first | exact Plain.addMPI (by fresh) | exact Plain.addOpaque (by fresh) | exact Plain.addECPoint (c := 'E') (by decide) | exact Plain.addOpaque_head (c := 'M') (by decide)
theorem Plain.parseSecPlain (b) : Plain (parseSecPlain b) := by
  have := Plain.rest
  unfold Gpgpdump.parseSecPlain; plain <;> first | exact Plain.addMPI (by fresh) | exact .add (Quiet.of_head (c := 'M') (by decide)).inert
theorem Plain.parseSecEnc (b) : Plain (parseSecEnc b) := by
  unfold Gpgpdump.parseSecEnc; plain <;> first | exact Plain.addOpaque (by fresh) | exact Plain.addOpaque_head (c := 'M') (by decide)
theorem Plain.s2kParse (d) : Plain (s2kParse d) := by
  have := Plain.rest
  unfold Gpgpdump.s2kParse; plain

end
end Gpgpdump
