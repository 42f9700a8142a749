import Verif.Local
import Verif.ThmAccount

/-!
# Every packet method only looks at what is still to be read

`Local` for the methods of all packets that read their contents step by step. `Shift` is the same for methods that also change the
item they are given; they only run on items of their own.
-/

namespace Gpgpdump
open P

structure Shift {α} (m : P α) : Prop where
  run : ∀ c q j, ∃ r n c' j', n ≤ q.length ∧ ∀ p, m (St.at c p q j) = (r, St.at c' (p ++ q.take n) (q.drop n) j')

namespace Shift

theorem of {α} {m : P α} (h : Local m) : Shift m := ⟨fun c q j => by
  obtain ⟨r, n, c', l, hn, h⟩ := h.run c q
  exact ⟨r, n, c', _, hn, fun p => h p j⟩⟩

theorem bind {α β} {m : P α} {f : α → P β} (h : Shift m) (h' : ∀ a, Shift (f a)) : Shift (m >>= f) := by
  constructor
  intro c q j
  obtain ⟨r, n, c1, j1, hn, h1⟩ := h.run c q j
  cases r with
  | ok a =>
    obtain ⟨r, n', c2, j2, hn', h2⟩ := (h' a).run c1 (q.drop n) j1
    rw [List.length_drop] at hn'
    refine ⟨r, n + n', c2, j2, by omega, fun p => ?_⟩
    rw [bind_run, h1]
    show f a _ = _
    rw [h2, List.drop_drop, List.append_assoc, List.take_add]
  | err e => exact ⟨.err e, n, c1, j1, hn, fun p => by rw [bind_run, h1]⟩
  | panic e => exact ⟨.panic e, n, c1, j1, hn, fun p => by rw [bind_run, h1]⟩
  | stuck => exact ⟨.stuck, n, c1, j1, hn, fun p => by rw [bind_run, h1]⟩

/-- the second part only matters for results the first part can have -/
theorem bindPost {α β} {m : P α} {f : α → P β} (Q : α → Prop) (h : Shift m) (hQ : ∀ st a st', m st = (.ok a, st') → Q a)
    (h' : ∀ a, Q a → Shift (f a)) : Shift (m >>= f) := by
  constructor
  intro c q j
  obtain ⟨r, n, c1, j1, hn, h1⟩ := h.run c q j
  cases r with
  | ok a =>
    obtain ⟨r, n', c2, j2, hn', h2⟩ := (h' a (hQ _ _ _ (h1 []))).run c1 (q.drop n) j1
    rw [List.length_drop] at hn'
    refine ⟨r, n + n', c2, j2, by omega, fun p => ?_⟩
    rw [bind_run, h1]
    show f a _ = _
    rw [h2, List.drop_drop, List.append_assoc, List.take_add]
  | err e => exact ⟨.err e, n, c1, j1, hn, fun p => by rw [bind_run, h1]⟩
  | panic e => exact ⟨.panic e, n, c1, j1, hn, fun p => by rw [bind_run, h1]⟩
  | stuck => exact ⟨.stuck, n, c1, j1, hn, fun p => by rw [bind_run, h1]⟩

theorem setValue (v) : Shift (setValue v) :=
  ⟨fun c q j => ⟨.ok (), 0, c, j.setValue v, by simp, fun p => by rw [setValue_run]; simp⟩⟩
theorem setNote (v) : Shift (setNote v) :=
  ⟨fun c q j => ⟨.ok (), 0, c, j.setNote v, by simp, fun p => by rw [setNote_run]; simp⟩⟩
theorem setDump (v) : Shift (setDump v) :=
  ⟨fun c q j => ⟨.ok (), 0, c, j.setDump v, by simp, fun p => by rw [setDump_run]; simp⟩⟩

theorem ite {α} {b : Prop} [Decidable b] {m m' : P α} (h : Shift m) (h' : Shift m') : Shift (if b then m else m') := by
  split <;> assumption

end Shift

namespace Local

theorem panic {α} (s : Site) : Local (P.panic s : P α) :=
  ⟨fun c q => ⟨.panic s, 0, c, [], by simp, fun p j => by simp [P.panic]⟩⟩
theorem stuck {α} : Local (P.stuck : P α) :=
  ⟨fun c q => ⟨.stuck, 0, c, [], by simp, fun p j => by simp [P.stuck]⟩⟩
theorem getCtx {α} (f : Ctx → α) : Local (P.getCtx f) := by
  constructor
  intro c q
  cases c with
  | none => exact ⟨.panic .nilCtx, 0, none, [], by simp, fun p j => by simp [P.getCtx]⟩
  | some x => exact ⟨.ok (f x), 0, some x, [], by simp, fun p j => by simp [P.getCtx]⟩
theorem getMode : Local getMode := getCtx _
theorem getKeyTime : Local getKeyTime := getCtx _
theorem setMode (m) : Local (setMode m) := by
  constructor
  intro c q
  cases c with
  | none => exact ⟨.panic .nilCtx, 0, none, [], by simp, fun p j => by simp [P.setMode]⟩
  | some x => exact ⟨.ok (), 0, some { x with mode := m }, [], by simp, fun p j => by simp [setMode_run]⟩
theorem setKeyTime (m) : Local (setKeyTime m) := by
  constructor
  intro c q
  cases c with
  | none => exact ⟨.panic .nilCtx, 0, none, [], by simp, fun p j => by simp [P.setKeyTime]⟩
  | some x => exact ⟨.ok (), 0, some { x with keyTime := m }, [], by simp, fun p j => by simp [setKeyTime_run]⟩

theorem readBytesI (n : Int) : Local (P.readBytes n) := by
  by_cases h : 0 ≤ n
  · obtain ⟨k, rfl⟩ := Int.eq_ofNat_of_zero_le h
    exact readBytes k
  · constructor
    intro c q
    by_cases hq : q = []
    · subst hq
      refine ⟨.err (wrapErr .eof), 0, c, [], by simp, fun p j => ?_⟩
      rw [readBytes_def]
      unfold Reader.readBytes
      rw [if_neg (by omega), if_pos (by simp [Reader.size])]
      simp [St.at]
    · have : 0 < q.length := List.length_pos_iff.mpr hq
      refine ⟨.panic .sliceRange, 0, c, [], by simp, fun p j => ?_⟩
      rw [readBytes_def]
      unfold Reader.readBytes
      have hs : (⟨p ++ q, p.length⟩ : Reader).size = p.length + q.length := by simp [Reader.size]
      rw [if_neg (by omega), if_neg (by rw [hs]; simp only; omega), if_neg (by rw [hs]; simp only; omega), if_pos (by omega)]
      simp [St.at]

/-- to the end -/
theorem seekEnd {α} {g : P α} (hg : Local g) : Local (P.seek 0 2 >>= fun _ => g) := by
  constructor
  intro c q
  obtain ⟨r, n, c', l, hn, h⟩ := hg.run c []
  have hn : n = 0 := by simpa using hn
  subst hn
  refine ⟨r, q.length, c', l, by simp, fun p j => ?_⟩
  rw [bind_run, seek_end]
  show g _ = _
  rw [h]
  simp

theorem nested {α} (child : Item) {m : P α} (h : Shift m) : Local (P.nested child m) := by
  constructor
  intro c q
  obtain ⟨r, n, c', j', hn, h⟩ := h.run c q child
  refine ⟨r, n, c', [j'], hn, fun p j => ?_⟩
  rw [nested_run, h]
  rfl
theorem build (hdr : Item) {m : P Unit} (h : Shift m) : Local (P.build hdr m) := by
  constructor
  intro c q
  obtain ⟨r, n, c', j', hn, h⟩ := h.run c q hdr
  refine ⟨r.map fun _ => j', n, c', [], hn, fun p j => ?_⟩
  rw [build_run, h, Item.addAll_nil]
  rfl
theorem scope {α} (body : Bytes) (hdr : Item) (m : P α) : Local (P.scope body hdr m) := by
  constructor
  intro c q
  refine ⟨(m (St.at c [] body hdr)).1, 0, (m (St.at c [] body hdr)).2.ctx, [], by simp, fun p j => ?_⟩
  rw [scope_run]
  simp [St.at]
theorem onReader {α} (b : Bytes) {m : P α} (h : Local m) : Local (P.onReader (Reader.new b) m) := by
  constructor
  intro c q
  obtain ⟨r, n, c', l, hn, h⟩ := h.run c b
  refine ⟨r.map fun a => (a, (St.at c' (b.take n) (b.drop n) (newItem [])).rd), 0, c', l, by simp, fun p j => ?_⟩
  have := h [] j
  simp only [P.onReader, St.at, Reader.new, List.nil_append, List.length_nil] at this ⊢
  rw [this]
  simp
theorem failed {α} {m : P α} (h : Local m) : Local (P.failed m) := by
  constructor
  intro c q
  obtain ⟨r, n, c', l, hn, h⟩ := h.run c q
  cases r with
  | ok a => exact ⟨.ok false, n, c', l, hn, fun p j => by simp only [P.failed, h]⟩
  | err e => exact ⟨.ok true, n, c', l, hn, fun p j => by simp only [P.failed, h]⟩
  | panic s => exact ⟨.panic s, n, c', l, hn, fun p j => by simp only [P.failed, h]⟩
  | stuck => exact ⟨.stuck, n, c', l, hn, fun p j => by simp only [P.failed, h]⟩

/-- a program that looks at the reader, but only at what is unread -/
theorem reader {β} {f : Reader → P β} (g : Bytes → P β) (h : ∀ p q, f ⟨p ++ q, p.length⟩ = g q) (hg : ∀ q, Local (g q)) :
    Local (P.reader >>= f) := by
  constructor
  intro c q
  obtain ⟨r, n, c', l, hn, h'⟩ := (hg q).run c q
  exact ⟨r, n, c', l, hn, fun p j => by rw [bind_run, reader_run]; simp only [St.at_rd, h, h']⟩

/-- the second part only matters for results the first part can have -/
theorem bindPost {α β} {m : P α} {f : α → P β} (Q : α → Prop) (h : Local m) (hQ : ∀ st a st', m st = (.ok a, st') → Q a)
    (h' : ∀ a, Q a → Local (f a)) : Local (m >>= f) := by
  constructor
  intro c q
  obtain ⟨r, n, c1, l, hn, h1⟩ := h.run c q
  cases r with
  | ok a =>
    obtain ⟨r, n', c2, l', hn', h2⟩ := (h' a (hQ _ _ _ (h1 [] (newItem [])))).run c1 (q.drop n)
    rw [List.length_drop] at hn'
    refine ⟨r, n + n', c2, l ++ l', by omega, fun p j => ?_⟩
    rw [bind_run, h1]
    show f a _ = _
    rw [h2, List.drop_drop, Item.addAll_addAll, List.append_assoc, List.take_add]
  | err e => exact ⟨.err e, n, c1, l, hn, fun p j => by rw [bind_run, h1]⟩
  | panic e => exact ⟨.panic e, n, c1, l, hn, fun p j => by rw [bind_run, h1]⟩
  | stuck => exact ⟨.stuck, n, c1, l, hn, fun p j => by rw [bind_run, h1]⟩

/-- read ahead: the octets are read again if they are not what was looked for -/
theorem peek {α} {P' : Bytes → Prop} [DecidablePred P'] {f : Bytes → P α} {g : P α} (hf : ∀ b, Local (f b)) (hg : Local g) :
    Local (P.readBytes 3 >>= fun b => if P' b then f b else P.seek (-3) 1 >>= fun _ => g) := by
  constructor
  intro c q
  by_cases h3 : 3 ≤ q.length
  · have hr : ∀ p j, P.readBytes 3 (St.at c p q j) = (.ok (q.take 3), St.at c (p ++ q.take 3) (q.drop 3) j) := fun p j => readBytes_ok c p q j 3 h3
    by_cases hp : P' (q.take 3)
    · obtain ⟨r, n, c', l, hn, h⟩ := (hf (q.take 3)).run c (q.drop 3)
      rw [List.length_drop] at hn
      refine ⟨r, 3 + n, c', l, by omega, fun p j => ?_⟩
      rw [bind_run, hr]
      show _root_.ite (P' (q.take 3)) (f (q.take 3)) (P.seek (-3) 1 >>= fun _ => g) (St.at c (p ++ q.take 3) (q.drop 3) j) = _
      rw [if_pos hp, h, List.drop_drop, List.append_assoc, List.take_add]
    · obtain ⟨r, n, c', l, hn, h⟩ := hg.run c q
      refine ⟨r, n, c', l, hn, fun p j => ?_⟩
      rw [bind_run, hr]
      show _root_.ite (P' (q.take 3)) (f (q.take 3)) (P.seek (-3) 1 >>= fun _ => g) (St.at c (p ++ q.take 3) (q.drop 3) j) = _
      rw [if_neg hp, bind_run, seek_back3 _ _ _ _ _ (by simp; omega)]
      show g _ = _
      rw [List.take_append_drop, h]
  · exact ⟨_, 0, c, [], by simp, fun p j => by rw [bind_run, show P.readBytes 3 _ = _ from readBytes_err c p q j 3 (by omega)]; simp; rfl⟩

end Local

/-- apply the rules -/
syntax "local_step" : tactic
macro "islocal" : tactic => `(tactic| repeat' (first | local_step | fail))
macro_rules | `(tactic| local_step) => `(tactic| dsimp only)
macro_rules | `(tactic| local_step) => `(tactic| split)
macro_rules | `(tactic| local_step) => `(tactic| with_reducible apply Local.bind)
macro_rules | `(tactic| local_step) => `(tactic| intro _)
macro_rules | `(tactic| local_step) => `(tactic| with_reducible first
  | exact Local.pure _ | exact Local.fail _ | exact Local.flag _ | exact Local.add _ | exact Local.readByte | exact Local.readBytesI _
  | exact Local.rest | exact Local.addRaw _ _ | exact Local.panic _ | exact Local.stuck | exact Local.getMode | exact Local.getKeyTime
  | exact Local.setMode _ | exact Local.setKeyTime _ | apply Local.seekEnd | exact Local.scope _ _ _ | exact Local.newMPI
  | exact Local.addMPI _ | exact Local.addOpaque _ | exact Local.parseSig _ | exact Local.unknownData | assumption
  | apply Local.failed | apply Local.onReader)

namespace Local
theorem newOID : Local newOID := by unfold Gpgpdump.newOID; islocal
theorem newECParm : Local newECParm := by unfold Gpgpdump.newECParm; islocal
theorem newDateTime (u) : Local (newDateTime u) := by unfold Gpgpdump.newDateTime; islocal
macro_rules | `(tactic| local_step) => `(tactic| with_reducible first | exact Local.newOID | exact Local.newECParm | exact Local.newDateTime _)
theorem addECPoint (a) : Local (addECPoint a) := by unfold Gpgpdump.addECPoint; islocal
macro_rules | `(tactic| local_step) => `(tactic| with_reducible exact Local.addECPoint _)
theorem ecdhPub : Local ecdhPub := by unfold Gpgpdump.ecdhPub; islocal
macro_rules | `(tactic| local_step) => `(tactic| with_reducible exact Local.ecdhPub)
theorem parsePub (a) : Local (parsePub a) := by unfold Gpgpdump.parsePub; islocal
theorem parseSes (a) : Local (parseSes a) := by unfold Gpgpdump.parseSes; islocal
theorem parseSecPlain (a) : Local (parseSecPlain a) := by unfold Gpgpdump.parseSecPlain; islocal
theorem parseSecEnc (a) : Local (parseSecEnc a) := by unfold Gpgpdump.parseSecEnc; islocal
macro_rules | `(tactic| local_step) => `(tactic| with_reducible first | exact Local.parsePub _ | exact Local.parseSes _)
macro_rules | `(tactic| local_step) => `(tactic| with_reducible first | exact Local.parseSecPlain _ | exact Local.parseSecEnc _)

theorem s2kParse (d) : Local (s2kParse d) := by
  unfold Gpgpdump.s2kParse
  refine bind readByte fun ss => nested _ (.of (ite ?_ (ite (bind rest fun _ => ite (pure _) ?_) (pure _))))
  · islocal
  · exact peek (fun b => bind readByte fun n => bind (build _ (.of (by islocal))) fun _ => bind (add _) fun _ => pure _) (pure _)
macro_rules | `(tactic| local_step) => `(tactic| with_reducible exact Local.s2kParse _)

theorem subLoop {p : UInt8 → Bytes → P Item} (hp : ∀ t b, Local (p t b)) (l) : Local (subLoop p l) := by
  induction l with
  | nil => exact pure _
  | cons x l ih =>
    obtain ⟨t, b⟩ := x
    exact bind (hp t b) fun _ => bind (add _) fun _ => ih
theorem addSubpackets {p : UInt8 → Bytes → P Item} (hp : ∀ t b, Local (p t b)) (n a) : Local (addSubpackets p n a) := by
  unfold Gpgpdump.addSubpackets
  refine bind (flag _) fun _ => ?_
  split
  · exact fail _
  · exact bind (build _ (.of (subLoop hp _))) fun _ => add _

section
variable (X : Ext) (recur : TagParser)
theorem parseSub02 (t b) : Local (parseSub02 X recur t b) := by
  unfold Gpgpdump.parseSub02 subScope
  islocal
theorem parseSub17 (t b) : Local (parseSub17 t b) := by
  unfold Gpgpdump.parseSub17 subScope
  islocal
theorem subArea (n) : Local (subArea X recur n) := by
  unfold Gpgpdump.subArea
  exact bind (readBytesI _) fun _ => ite (bind (readBytesI _) fun _ => addSubpackets (parseSub02 X recur) _ _) (pure _)
theorem tag01 : Local tag01 := by unfold Gpgpdump.tag01; islocal
theorem tag02v3 : Local (tag02v3 X) := by
  unfold Gpgpdump.tag02v3
  refine bind readByte fun sz => bind (nested _ (.ite ?_ (.of ?_))) fun _ => ?_
  · exact .bind (.setValue _) fun _ => .bind (.of (readBytesI _)) fun _ => .bind (.of (flag _)) fun _ => .setDump _
  · islocal
  · islocal
theorem tag02v4 : Local (tag02v4 X recur) := by
  have := subArea X recur
  unfold Gpgpdump.tag02v4
  islocal
  all_goals exact subArea X recur _
theorem tag02 : Local (tag02 X recur) := by
  have := tag02v3 X
  have := tag02v4 X recur
  unfold Gpgpdump.tag02
  islocal
theorem tag03 : Local tag03 := by unfold Gpgpdump.tag03; islocal
theorem tag04 : Local tag04 := by unfold Gpgpdump.tag04; islocal
theorem pubkeyTime : Local (pubkeyTime X) := by unfold Gpgpdump.pubkeyTime; islocal
theorem pubkeyParse (v) : Local (pubkeyParse X v) := by
  have := pubkeyTime X
  unfold Gpgpdump.pubkeyParse
  islocal
theorem tag06 : Local (tag06 X) := by
  have := fun v => pubkeyParse X v
  unfold Gpgpdump.tag06
  islocal
  exact pubkeyParse X _

/-- a field with a reader of its own starts at the beginning of it -/
def Field.Fresh : Field → Prop
  | .own r => ∃ b, r = Reader.new b
  | _ => True

/-- a program all of whose results have a property -/
def Always {α} (m : P α) (Q : α → Prop) : Prop := ∀ st a st', m st = (.ok a, st') → Q a
theorem Always.pure {α} {a : α} {Q : α → Prop} (h : Q a) : Always (Pure.pure a) Q := fun _ _ _ e => by cases e; exact h
theorem Always.bind {α β} {m : P α} {f : α → P β} {Q : β → Prop} (h : ∀ a, Always (f a) Q) : Always (m >>= f) Q := by
  intro st b st' e
  rw [bind_run] at e
  rcases hm : m st with ⟨r, s⟩
  rw [hm] at e
  cases r with
  | ok a => exact h a _ _ _ e
  | _ => cases e
theorem Always.ite {α} {c : Prop} [Decidable c] {m n : P α} {Q : α → Prop} (h : Always m Q) (h' : Always n Q) : Always (if c then m else n) Q := by
  split <;> assumption

theorem field1_fresh (v) : Always (getField1 v) Field.Fresh := by
  unfold Gpgpdump.getField1
  exact .ite (.bind fun _ => .ite (.pure trivial) (.bind fun _ => .pure ⟨_, rfl⟩)) (.pure trivial)
theorem field2_fresh (v) : Always (getField2 v) Field.Fresh := by
  unfold Gpgpdump.getField2
  exact .ite (.bind fun _ => .ite (fun _ _ _ e => by cases e) (.bind fun _ => .ite (.pure trivial) (.bind fun _ => .pure ⟨_, rfl⟩))) (.pure trivial)
theorem getField1 (v) : Local (getField1 v) := by unfold Gpgpdump.getField1; islocal
theorem getField2 (v) : Local (getField2 v) := by unfold Gpgpdump.getField2; islocal
theorem onField {α} {f : Field} (hf : Field.Fresh f) {m : P α} (h : Local m) : Local (onField f m) := by
  unfold Gpgpdump.onField
  cases f with
  | own r =>
    obtain ⟨b, rfl⟩ := hf
    exact bind (onReader b h) fun _ => pure _
  | absent => exact bind h fun _ => pure _
  | shared => exact bind h fun _ => pure _
theorem fieldRest (r) : Local (fieldRest r) := by
  unfold Gpgpdump.fieldRest
  islocal
theorem secIV (a b) : Local (secIV a b) := by unfold Gpgpdump.secIV; islocal
theorem secOptions (u) : Local (secOptions u) := by unfold Gpgpdump.secOptions; islocal
theorem secField1 (v u) : Local (secField1 v u) := by
  unfold Gpgpdump.secField1
  refine bindPost Field.Fresh (getField1 v) (field1_fresh v) fun f hf => ?_
  split
  · exact pure _
  · refine bind (onField hf (secOptions u)) fun x => ?_
    obtain ⟨⟨a, b⟩, r⟩ := x
    exact ite (bind (secIV _ _) fun _ => fieldRest _) (fieldRest _)
theorem secField2 (v u a) : Shift (secField2 v u a) := by
  unfold Gpgpdump.secField2
  refine .bindPost Field.Fresh (.of (getField2 v)) (field2_fresh v) fun f hf => ?_
  split
  · exact .of (pure _)
  · refine .ite (.bind (.setNote _) fun _ => .of (bind (onField hf (parseSecPlain a)) fun x => ?_))
      (.bind (.setNote _) fun _ => .of (bind (onField hf (parseSecEnc a)) fun x => ?_))
    · exact bind (readBytesI _) fun _ => bind (add _) fun _ => fieldRest _
    · exact fieldRest _
theorem seckeyParse (v a) : Shift (seckeyParse v a) := by
  unfold Gpgpdump.seckeyParse
  exact .bind (.of readByte) fun u => .bind (.of (secField1 v u)) fun _ => secField2 v u a
theorem tag05 : Local (tag05 X) := by
  unfold Gpgpdump.tag05
  exact bind readByte fun v => bind (flag _) fun _ => bind (add _) fun _ => bind (nested _ (.of (pubkeyParse X _))) fun _ =>
    bind (nested _ (seckeyParse _ _)) fun _ => unknownData
theorem tag09 : Local tag09 := by
  unfold Gpgpdump.tag09
  refine reader _ (fun p q => by simp only [rawData_at]; rfl) fun q => ?_
  islocal
theorem tag10 : Local tag10 := by unfold Gpgpdump.tag10; islocal
theorem tag11 : Local (tag11 X) := by unfold Gpgpdump.tag11; islocal
theorem tag12 : Local tag12 := by unfold Gpgpdump.tag12; islocal
theorem tag18 : Local tag18 := by
  unfold Gpgpdump.tag18
  refine reader _ (fun p q => by simp only [rawData_at]; rfl) fun q => ?_
  islocal
theorem tag19 : Local tag19 := by
  unfold Gpgpdump.tag19
  refine reader _ (fun p q => by simp only [rawData_at]; rfl) fun q => ?_
  islocal
theorem tag20 : Local tag20 := by unfold Gpgpdump.tag20; islocal
end

end Local

end Gpgpdump
