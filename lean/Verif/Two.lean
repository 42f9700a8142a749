import Verif.SpecHidden
import Verif.ThmUnknownSubs
import Verif.Moves

/-!
# Two runs side by side

`Two o R m R'`: run on two inputs related by `R`, with the same context (options `o`) and the same item under construction, `m` gives
the same result, the same context and the same item, and leaves unread octets related by `R'`.
-/

namespace Gpgpdump
open P Spec

/-- the context is there and has the options `o` -/
abbrev OptsAre (o : OptCode → Bool) (c : Option Ctx) : Prop := c.map Ctx.opts = some o

def Two {α} (o : OptCode → Bool) (R : Bytes → Bytes → Prop) (m : P α) (R' : α → Bytes → Bytes → Prop) : Prop :=
  ∀ c p p' q q' j, OptsAre o c → p.length = p'.length → R q q' →
    ∃ r c2 p2 p2' q2 q2' j2, m (St.at c p q j) = (r, St.at c2 p2 q2 j2) ∧ m (St.at c p' q' j) = (r, St.at c2 p2' q2' j2) ∧
      OptsAre o c2 ∧ p2.length = p2'.length ∧ ∀ a, r = .ok a → R' a q2 q2'

namespace Two
variable {o : OptCode → Bool} {R : Bytes → Bytes → Prop}

theorem pure {α} {a : α} {R' : α → Bytes → Bytes → Prop} (h : ∀ q q', R q q' → R' a q q') : Two o R (Pure.pure a : P α) R' := by
  intro c p p' q q' j hc hp hr
  exact ⟨.ok a, c, p, p', q, q', j, rfl, rfl, hc, hp, fun b hb => by cases hb; exact h q q' hr⟩
theorem fail {α} {e : GoErr} {R' : α → Bytes → Bytes → Prop} : Two o R (P.fail e : P α) R' := by
  intro c p p' q q' j hc hp hr
  exact ⟨.err e, c, p, p', q, q', j, rfl, rfl, hc, hp, fun b hb => by cases hb⟩
theorem bind {α β} {m : P α} {f : α → P β} {R1 : α → Bytes → Bytes → Prop} {R2 : β → Bytes → Bytes → Prop} (h : Two o R m R1)
    (h' : ∀ a, Two o (R1 a) (f a) R2) : Two o R (m >>= f) R2 := by
  intro c p p' q q' j hc hp hr
  obtain ⟨r, c2, p2, p2', q2, q2', j2, h1, h2, h3, h4, h5⟩ := h c p p' q q' j hc hp hr
  cases r with
  | ok a =>
    obtain ⟨s, c3, p3, p3', q3, q3', j3, g1, g2, g3, g4, g5⟩ := h' a c2 p2 p2' q2 q2' j2 h3 h4 (h5 a rfl)
    refine ⟨s, c3, p3, p3', q3, q3', j3, ?_, ?_, g3, g4, g5⟩
    · rw [bind_run, h1]; exact g1
    · rw [bind_run, h2]; exact g2
  | err e => exact ⟨.err e, c2, p2, p2', q2, q2', j2, by rw [bind_run, h1], by rw [bind_run, h2], h3, h4, fun b hb => by cases hb⟩
  | panic e => exact ⟨.panic e, c2, p2, p2', q2, q2', j2, by rw [bind_run, h1], by rw [bind_run, h2], h3, h4, fun b hb => by cases hb⟩
  | stuck => exact ⟨.stuck, c2, p2, p2', q2, q2', j2, by rw [bind_run, h1], by rw [bind_run, h2], h3, h4, fun b hb => by cases hb⟩
theorem weaken {α} {m : P α} {R0 : Bytes → Bytes → Prop} {R1 R2 : α → Bytes → Bytes → Prop} (h : Two o R m R1) (h0 : ∀ q q', R0 q q' → R q q')
    (h1 : ∀ a q q', R1 a q q' → R2 a q q') : Two o R0 m R2 := by
  intro c p p' q q' j hc hp hr
  obtain ⟨r, c2, p2, p2', q2, q2', j2, g1, g2, g3, g4, g5⟩ := h c p p' q q' j hc hp (h0 _ _ hr)
  exact ⟨r, c2, p2, p2', q2, q2', j2, g1, g2, g3, g4, fun a ha => h1 a _ _ (g5 a ha)⟩
/-- no related inputs -/
theorem never {α} {m : P α} {R' : α → Bytes → Bytes → Prop} (h : ∀ q q', ¬ R q q') : Two o R m R' := by
  intro c p p' q q' j hc hp hr
  exact absurd hr (h q q')

theorem readBytes {n : Nat} {R : Bytes → Bytes → Bytes → Prop} : Two o (Agree n R) (readBytes (n : Int)) R := by
  intro c p p' q q' j hc hp hr
  cases hr with
  | @read h r r' hn hr =>
    subst hn
    exact ⟨_, c, _, _, r, r', j, readBytes_append c p h r j, readBytes_append c p' h r' j, hc, by simp [hp], fun a ha => by cases ha; exact hr⟩
  | short h =>
    exact ⟨_, c, p, p', q, q, j, readBytes_err c p q j n h, readBytes_err c p' q j n h, hc, hp, fun a ha => by cases ha⟩
theorem readByte {R : UInt8 → Bytes → Bytes → Prop} : Two o (Agree1 R) readByte R := by
  intro c p p' q q' j hc hp hr
  cases hr with
  | @read b r r' hr =>
    exact ⟨_, c, _, _, r, r', j, readByte_cons c p b r j, readByte_cons c p' b r' j, hc, by simp [hp], fun a ha => by cases ha; exact hr⟩
  | short =>
    exact ⟨_, c, p, p', [], [], j, readByte_nil c p j, readByte_nil c p' j, hc, hp, fun a ha => by cases ha⟩
/-- a block whose octets may differ: the continuation must treat both alike -/
theorem block {β} {n : Nat} {B R : Bytes → Bytes → Prop} {f : Bytes → P β} {R' : β → Bytes → Bytes → Prop}
    (h : ∀ d d', B d d' → d.length = n → d'.length = n → ∃ m, Two o R m R' ∧
      (∀ c p q j, OptsAre o c → f d (St.at c p q j) = m (St.at c p q j)) ∧ (∀ c p q j, OptsAre o c → f d' (St.at c p q j) = m (St.at c p q j))) :
    Two o (Block n B R) (P.readBytes (n : Int) >>= f) R' := by
  intro c p p' q q' j hc hp hr
  cases hr with
  | @read d d' r r' hd hd' hb hr =>
    obtain ⟨m, hm, e, e'⟩ := h d d' hb hd hd'
    obtain ⟨s, c3, p3, p3', q3, q3', j3, g1, g2, g3⟩ := hm c (p ++ d) (p' ++ d') r r' j hc (by simp [hp, hd, hd']) hr
    have h1 := readBytes_append c p d r j
    have h2 := readBytes_append c p' d' r' j
    rw [hd] at h1
    rw [hd'] at h2
    refine ⟨s, c3, p3, p3', q3, q3', j3, ?_, ?_, g3⟩
    · rw [bind_run, h1, ← g1]; exact e _ _ _ _ hc
    · rw [bind_run, h2, ← g2]; exact e' _ _ _ _ hc
  | cut h hl =>
    have hl' : q.length = q'.length := hl
    refine ⟨.err (wrapErr (if q = [] then .eof else .unexpectedEOF)), c, p, p', q, q', j, ?_, ?_, hc, hp, fun a ha => by cases ha⟩
    · rw [bind_run, readBytes_err c p q j n h]
    · rw [bind_run, readBytes_err c p' q' j n (by omega)]
      have : (q' = []) = (q = []) := by
        rw [← List.length_eq_zero_iff, ← List.length_eq_zero_iff (l := q), hl']
      simp only [this]

theorem add (i : Item) : Two o R (add i) fun _ => R := by
  intro c p p' q q' j hc hp hr
  exact ⟨_, c, p, p', q, q', _, add_run i c p q j, add_run i c p' q' j, hc, hp, fun _ _ => hr⟩
theorem setValue (i : Str) : Two o R (setValue i) fun _ => R := by
  intro c p p' q q' j hc hp hr
  exact ⟨_, c, p, p', q, q', _, setValue_run i c p q j, setValue_run i c p' q' j, hc, hp, fun _ _ => hr⟩
theorem setNote (i : Str) : Two o R (setNote i) fun _ => R := by
  intro c p p' q q' j hc hp hr
  exact ⟨_, c, p, p', q, q', _, setNote_run i c p q j, setNote_run i c p' q' j, hc, hp, fun _ _ => hr⟩
theorem setDump (i : Str) : Two o R (setDump i) fun _ => R := by
  intro c p p' q q' j hc hp hr
  exact ⟨_, c, p, p', q, q', _, setDump_run i c p q j, setDump_run i c p' q' j, hc, hp, fun _ _ => hr⟩
theorem flag (f : Ctx → Bool) : Two o R (flag f) fun _ => R := by
  intro c p p' q q' j hc hp hr
  exact ⟨_, c, p, p', q, q', j, flag_run f _, flag_run f _, hc, hp, fun _ _ => hr⟩
/-- a flag that is off -/
theorem flagOff {f : Ctx → Bool} (h : ∀ c, OptsAre o c → ctxFlag f c = false) : Two o R (P.flag f) fun b q q' => b = false ∧ R q q' := by
  intro c p p' q q' j hc hp hr
  refine ⟨_, c, p, p', q, q', j, flag_run f _, flag_run f _, hc, hp, fun a ha => ?_⟩
  cases ha
  exact ⟨h c hc, hr⟩
theorem setMode (m : Mode) : Two o R (setMode m) fun _ => R := by
  intro c p p' q q' j hc hp hr
  cases c with
  | none => cases hc
  | some x => exact ⟨.ok (), _, p, p', q, q', j, setMode_run m x p q j, setMode_run m x p' q' j, hc, hp, fun _ _ => hr⟩
theorem setKeyTime (m) : Two o R (setKeyTime m) fun _ => R := by
  intro c p p' q q' j hc hp hr
  cases c with
  | none => cases hc
  | some x => exact ⟨.ok (), _, p, p', q, q', j, setKeyTime_run m x p q j, setKeyTime_run m x p' q' j, hc, hp, fun _ _ => hr⟩
theorem getMode : Two o R getMode fun _ => R := by
  intro c p p' q q' j hc hp hr
  cases c with
  | none => cases hc
  | some x => exact ⟨.ok _, _, p, p', q, q', j, getMode_run x p q j, getMode_run x p' q' j, hc, hp, fun _ _ => hr⟩
theorem getCur : Two o R getCur fun _ => R := by
  intro c p p' q q' j hc hp hr
  exact ⟨_, c, p, p', q, q', j, getCur_run _, getCur_run _, hc, hp, fun _ _ => hr⟩
theorem rest (h : ∀ q q', R q q' → SameLength q q') : Two o R rest fun _ => R := by
  intro c p p' q q' j hc hp hr
  have : q.length = q'.length := h q q' hr
  exact ⟨_, c, p, p', q, q', j, rest_run c p q j, by rw [rest_run c p' q' j, this], hc, hp, fun _ _ => hr⟩
theorem nested {α} {child : Item} {m : P α} {R' : α → Bytes → Bytes → Prop} (h : Two o R m R') : Two o R (nested child m) R' := by
  intro c p p' q q' j hc hp hr
  obtain ⟨r, c2, p2, p2', q2, q2', j2, g1, g2, g3⟩ := h c p p' q q' child hc hp hr
  refine ⟨r, c2, p2, p2', q2, q2', j.add j2, ?_, ?_, g3⟩
  · rw [nested_run, g1]; rfl
  · rw [nested_run, g2]; rfl
theorem build {hdr : Item} {m : P Unit} {R' : Bytes → Bytes → Prop} (h : Two o R m fun _ => R') : Two o R (build hdr m) fun _ => R' := by
  intro c p p' q q' j hc hp hr
  obtain ⟨r, c2, p2, p2', q2, q2', j2, g1, g2, g3, g4, g5⟩ := h c p p' q q' hdr hc hp hr
  refine ⟨r.map fun _ => j2, c2, p2, p2', q2, q2', j, ?_, ?_, g3, g4, fun a ha => ?_⟩
  · rw [build_run, g1]; rfl
  · rw [build_run, g2]; rfl
  · cases r <;> simp only [Res.map] at ha
    · exact g5 _ rfl
    all_goals cases ha
theorem failed {α} {m : P α} {R' : Bytes → Bytes → Prop} (h : Two o R m fun _ => R') :
    Two o R (failed m) fun b q q' => b = false → R' q q' := by
  intro c p p' q q' j hc hp hr
  obtain ⟨r, c2, p2, p2', q2, q2', j2, g1, g2, g3, g4, g5⟩ := h c p p' q q' j hc hp hr
  cases r with
  | ok a => exact ⟨.ok false, c2, p2, p2', q2, q2', j2, by unfold P.failed; rw [g1], by unfold P.failed; rw [g2], g3, g4, fun _ _ _ => g5 a rfl⟩
  | err e => exact ⟨.ok true, c2, p2, p2', q2, q2', j2, by unfold P.failed; rw [g1], by unfold P.failed; rw [g2], g3, g4, fun b hb h => by cases hb; cases h⟩
  | panic e => exact ⟨.panic e, c2, p2, p2', q2, q2', j2, by unfold P.failed; rw [g1], by unfold P.failed; rw [g2], g3, g4, fun b hb => by cases hb⟩
  | stuck => exact ⟨.stuck, c2, p2, p2', q2, q2', j2, by unfold P.failed; rw [g1], by unfold P.failed; rw [g2], g3, g4, fun b hb => by cases hb⟩
theorem ite {α} {b : Prop} [Decidable b] {m m' : P α} {R' : α → Bytes → Bytes → Prop} (h : b → Two o R m R') (h' : ¬ b → Two o R m' R') :
    Two o R (if b then m else m') R' := by
  split
  · exact h ‹_›
  · exact h' ‹_›
theorem addRaw {name : Str} : Two o (SameLength) (addRaw name false) fun _ => SameLength := by
  intro c p p' q q' j hc hp hr
  have hr' : q.length = q'.length := hr
  refine ⟨_, c, p, p', q, q', _, addRaw_run name false c p q j, ?_, hc, hp, fun _ _ => hr⟩
  rw [addRaw_run, hr']; rfl
theorem seekEnd : Two o SameLength (seek 0 2) fun _ => SameLength := by
  intro c p p' q q' j hc hp hr
  have hr' : q.length = q'.length := hr
  have key : ∀ p q : Bytes, seek 0 2 (St.at c p q j) = (.ok ((p ++ q).length : Int), St.at c (p ++ q) [] j) := by
    intro p q
    have : seek 0 2 (St.at c p q j) = (((⟨p ++ q, p.length⟩ : Reader).seek 0 2).1, ⟨c, ((⟨p ++ q, p.length⟩ : Reader).seek 0 2).2, j⟩) := rfl
    rw [this]
    have h2 : (⟨p ++ q, p.length⟩ : Reader).seek 0 2 = (.ok ((p ++ q).length : Int), ⟨p ++ q, (p ++ q).length⟩) := by
      unfold Reader.seek
      have h0 : ¬ ((2 : Int) = 0) := by decide
      have h1 : ¬ ((2 : Int) = 1) := by decide
      have h3 : ¬ ((((⟨p ++ q, p.length⟩ : Reader).size : Int) + 0 < 0) ∨ ((⟨p ++ q, p.length⟩ : Reader).size : Int) + 0 > ((⟨p ++ q, p.length⟩ : Reader).size : Int)) := by omega
      simp only [if_neg h0, if_neg h1, if_neg h3]
      simp [Reader.size]
      omega
    rw [h2]
    simp [St.at]
  refine ⟨_, c, p ++ q, p' ++ q', [], [], j, key p q, ?_, hc, by simp [hp, hr'], fun _ _ => rfl⟩
  rw [key p' q']
  simp [hp, hr']

end Two

/-! ## Options that are off -/

section
variable {o : OptCode → Bool}

theorem OptsAre.flag {f : Ctx → Bool} (g : (OptCode → Bool) → Bool) (h : ∀ x : Ctx, f x = g x.opts)
    (hg : g o = false) : ∀ c, OptsAre o c → ctxFlag f c = false := by
  intro c hc
  cases c with
  | none => rfl
  | some x => rw [ctxFlag, h, show x.opts = o from Option.some.inj hc, hg]

theorem debug_off (hd : o DEBUG = false) : ∀ c, OptsAre o c → ctxFlag Ctx.debug c = false :=
  OptsAre.flag (fun o => o DEBUG) (fun _ => rfl) hd
theorem integer_off (hi : o INTEGER = false) (hd : o DEBUG = false) : ∀ c, OptsAre o c → ctxFlag Ctx.integer c = false :=
  OptsAre.flag (fun o => o INTEGER || o DEBUG) (fun _ => rfl) (by simp [hi, hd])
theorem literal_off (hi : o LITERAL = false) (hd : o DEBUG = false) : ∀ c, OptsAre o c → ctxFlag Ctx.literal c = false :=
  OptsAre.flag (fun o => o LITERAL || o DEBUG) (fun _ => rfl) (by simp [hi, hd])
theorem marker_off (hi : o MARKER = false) (hd : o DEBUG = false) : ∀ c, OptsAre o c → ctxFlag Ctx.marker c = false :=
  OptsAre.flag (fun o => o MARKER || o DEBUG) (fun _ => rfl) (by simp [hi, hd])
theorem priv_off (hi : o PRIVATE = false) (hd : o DEBUG = false) : ∀ c, OptsAre o c → ctxFlag Ctx.priv c = false :=
  OptsAre.flag (fun o => o PRIVATE || o DEBUG) (fun _ => rfl) (by simp [hi, hd])
theorem cert_off (hi : o CERT = false) (hd : o DEBUG = false) : ∀ c, OptsAre o c → ctxFlag Ctx.cert c = false :=
  OptsAre.flag (fun o => o CERT || o DEBUG) (fun _ => rfl) (by simp [hi, hd])

end

/-! ## Monad laws -/

theorem P.bind_assoc {α β γ} (m : P α) (f : α → P β) (g : β → P γ) : (m >>= f) >>= g = m >>= fun a => f a >>= g := by
  funext st
  rw [bind_run, bind_run, bind_run]
  rcases m st with ⟨r, s⟩
  cases r with
  | ok a => simp only; rw [bind_run]
  | _ => rfl
theorem P.pure_bind {α β} (a : α) (f : α → P β) : (Pure.pure a : P α) >>= f = f a := rfl

/-! ## Related inputs have the same length -/

section
variable {R : Bytes → Bytes → Prop}
theorem Spec.Agree.len {n} {R : Bytes → Bytes → Bytes → Prop} (h : ∀ a q q', R a q q' → SameLength q q') {q q'} (hr : Agree n R q q') : SameLength q q' := by
  cases hr with
  | read hn hr => have := h _ _ _ hr; simp only [SameLength, List.length_append] at *; omega
  | short => rfl
theorem Spec.Agree1.len {R : UInt8 → Bytes → Bytes → Prop} (h : ∀ a q q', R a q q' → SameLength q q') {q q'} (hr : Agree1 R q q') : SameLength q q' := by
  cases hr with
  | read hr => have := h _ _ _ hr; simp only [SameLength, List.length_cons] at *; omega
  | short => rfl
theorem Spec.Block.len {n B} (h : ∀ q q', R q q' → SameLength q q') {q q'} (hr : Block n B R q q') : SameLength q q' := by
  cases hr with
  | read hd hd' hb hr => have := h _ _ hr; simp only [SameLength, List.length_append] at *; omega
  | cut h hl => exact hl
theorem Spec.Parts.len {hide} (h : ∀ q q', R q q' → SameLength q q') (ps) : ∀ {q q'}, Parts hide R ps q q' → SameLength q q' := by
  induction ps with
  | nil => exact fun hr => h _ _ hr
  | cons x ps ih =>
    intro q q' hr
    cases x with
    | int => exact Agree.len (fun _ _ _ h => Block.len (fun _ _ h => ih h) h) hr
    | point => exact Agree.len (fun _ _ _ h => Block.len (fun _ _ h => ih h) h) hr
    | oid => exact Agree1.len (fun _ _ _ h => Agree.len (fun _ _ _ h => ih h) h) hr
    | parameters => exact Agree1.len (fun _ _ _ h => Agree.len (fun _ _ _ h => ih h) h) hr.1
    | key => exact Agree1.len (fun _ _ _ h => Block.len (fun _ _ h => ih h) h) hr.1

theorem Spec.Agree.zero {R : Bytes → Bytes → Bytes → Prop} {q q'} (h : Agree 0 R q q') : R [] q q' := by
  cases h with
  | @read h r r' hn hr => rw [List.length_eq_zero_iff] at hn; subst hn; exact hr
  | short h => omega
theorem Spec.Agree.five {q q'} (h : Agree 5 (fun _ => R) q q') : Agree1 (fun _ => Agree 4 fun _ => R) q q' := by
  cases h with
  | @read h r r' hn hr =>
    cases h with
    | nil => cases hn
    | cons b h => exact .read (.read (by simpa using hn) hr)
  | short h =>
    cases q with
    | nil => exact .short
    | cons b q => exact .read (.short (by simp only [List.length_cons] at h; omega))
theorem Spec.Block.zero {B} {q q'} (h : Block 0 B R q q') : R q q' := by
  cases h with
  | @read d d' r r' hd hd' hb hr =>
    rw [List.length_eq_zero_iff] at hd hd'
    subst hd; subst hd'
    exact hr
  | cut h => omega
end

/-! ## Key material -/

namespace Two
variable {o : OptCode → Bool} {R : Bytes → Bytes → Prop} {hide : Bool}

theorem mpi (hf : hide = true → ∀ c, OptsAre o c → ctxFlag Ctx.integer c = false) {name : Str} :
    Two o (Agree 2 fun l => Block ((beNat l + 7) / 8) (IntData hide) R) (addMPI name) fun _ => R := by
  unfold addMPI newMPI
  simp only [P.bind_assoc, P.pure_bind]
  refine .bind (readBytes (n := 2)) fun l => .block fun d d' hb hd hd' => ?_
  refine ⟨_, .bind (.flag Ctx.integer) fun b => .add (mpiItem name (beNat l) d b), fun _ _ _ _ _ => rfl, fun c p q j hc => ?_⟩
  rw [bind_run, bind_run, flag_run]
  simp only [St.at_ctx]
  rcases hb with hh | rfl
  · rw [hf hh c hc]; rfl
  · rfl
theorem point (hf : hide = true → ∀ c, OptsAre o c → ctxFlag Ctx.integer c = false) {name : Str} :
    Two o (Agree 2 fun l => Block ((beNat l + 7) / 8) (PointData hide) R) (addECPoint name) fun _ => R := by
  unfold addECPoint newMPI
  simp only [P.bind_assoc, P.pure_bind]
  refine .bind (readBytes (n := 2)) fun l => .block fun d d' hb hd hd' => ?_
  refine ⟨_, .bind (.flag Ctx.integer) fun b => .add (mpiItem (ecPointName name d) (beNat l) d b), fun _ _ _ _ _ => rfl, fun c p q j hc => ?_⟩
  rw [bind_run, bind_run, flag_run]
  simp only [St.at_ctx]
  rcases hb with ⟨hh, hb⟩ | rfl
  · rw [hf hh c hc]
    have : ecPointName name d' = ecPointName name d := by
      cases d <;> cases d' <;> simp at hb
      · rfl
      · subst hb; rfl
    rw [this]
    rfl
  · rfl
theorem oid : Two o (Agree1 fun n => Agree n.toNat fun _ => R) newOID fun _ => R := by
  unfold newOID
  refine .bind readByte fun n => .ite (fun h => ?_) fun h => readBytes
  subst h
  exact .pure fun q q' h => h.zero
theorem parm : Two o (fun q q' => Agree1 (fun n => Agree n.toNat fun _ => R) q q' ∧ (q = [] → q' = [] → R [] [])) newECParm fun _ => R := by
  unfold newECParm
  intro c p p' q q' j hc hp hr
  obtain ⟨hr, he⟩ := hr
  cases hr with
  | short =>
    exact ⟨.ok [], c, p, p', [], [], j, by rw [bind_run, rest_run]; rfl, by rw [bind_run, rest_run]; rfl, hc, hp, fun _ _ => he rfl rfl⟩
  | @read b r r' hr =>
    have key : Two o (Agree1 fun n => Agree n.toNat fun _ => R) (do
        let l ← P.readByte
        if l = 0 then return [] else P.readBytes l.toNat) fun _ => R := by
      refine .bind readByte fun n => .ite (fun h => ?_) fun h => readBytes
      subst h
      exact .pure fun q q' h => h.zero
    have h1 : ∀ (p r : Bytes), (do
        if (← Gpgpdump.rest) ≤ 0 then return []
        else
          let l ← P.readByte
          if l = 0 then return [] else P.readBytes l.toNat : P Bytes) (St.at c p (b :: r) j) = (do
        let l ← P.readByte
        if l = 0 then return [] else P.readBytes l.toNat : P Bytes) (St.at c p (b :: r) j) := by
      intro p r
      rw [bind_run, rest_run]
      simp only
      rw [if_neg (by simp only [List.length_cons]; omega)]
    rw [h1, h1]
    exact key c p p' _ _ j hc hp (.read hr)
/-- the encrypted session key of ECDH -/
theorem sesKey (hf : hide = true → ∀ c, OptsAre o c → ctxFlag Ctx.integer c = false) {name : Str} :
    Two o (fun q q' => Agree1 (fun n => Block n.toNat (IntData hide) R) q q' ∧ (q = [] → q' = [] → R [] []))
      (newECParm >>= fun ep => P.flag Ctx.integer >>= fun b => P.add (ecParmItem ep name b)) fun _ => R := by
  intro c p p' q q' j hc hp hr
  obtain ⟨hr, he⟩ := hr
  unfold newECParm
  cases hr with
  | short =>
    exact ⟨.ok (), c, p, p', [], [], _, by rw [bind_run, bind_run, rest_run]; rfl, by rw [bind_run, bind_run, rest_run]; rfl, hc, hp, fun _ _ => he rfl rfl⟩
  | @read b r r' hr =>
    have key : Two o (Agree1 fun n => Block n.toNat (IntData hide) R) (do
        let l ← P.readByte
        let ep ← (if l = 0 then return [] else P.readBytes l.toNat : P Bytes)
        P.add (ecParmItem ep name (← P.flag Ctx.integer))) fun _ => R := by
      refine .bind readByte fun n => ?_
      by_cases h : n = 0
      · subst h
        simp only [if_pos, P.pure_bind]
        exact .weaken (.bind (.flag _) fun _ => .add _) (fun q q' h => h.zero) fun _ _ _ h => h
      · simp only [if_neg h]
        refine .block fun d d' hb hd hd' => ?_
        refine ⟨_, .bind (.flag Ctx.integer) fun b => .add (ecParmItem d name b), fun _ _ _ _ _ => rfl, fun c p q j hc => ?_⟩
        rw [bind_run, bind_run, flag_run]
        simp only [St.at_ctx]
        rcases hb with hh | rfl
        · rw [hf hh c hc]
          unfold ecParmItem
          rw [hd, hd']; rfl
        · rfl
    have h1 : ∀ (p r : Bytes), ((do
        if (← Gpgpdump.rest) ≤ 0 then return []
        else
          let l ← P.readByte
          if l = 0 then return [] else P.readBytes l.toNat : P Bytes) >>= fun ep => P.flag Ctx.integer >>= fun b => P.add (ecParmItem ep name b))
          (St.at c p (b :: r) j) = (do
        let l ← P.readByte
        let ep ← (if l = 0 then return [] else P.readBytes l.toNat : P Bytes)
        P.add (ecParmItem ep name (← P.flag Ctx.integer))) (St.at c p (b :: r) j) := by
      intro p r
      rw [P.bind_assoc, bind_run, rest_run]
      simp only
      rw [if_neg (by simp only [List.length_cons]; omega), P.bind_assoc]
    rw [h1, h1]
    exact key c p p' _ _ j hc hp (.read hr)

theorem raw {name : Str} {f : Ctx → Bool} (hf : ∀ c, OptsAre o c → ctxFlag f c = false) (h : ∀ q q', R q q' → SameLength q q') :
    Two o R (do Gpgpdump.addRaw name (← P.flag f)) fun _ => R := by
  refine .bind (flagOff hf) fun b => ?_
  intro c p p' q q' j hc hp hr
  obtain ⟨rfl, hr⟩ := hr
  have hr' : q.length = q'.length := h _ _ hr
  refine ⟨_, c, p, p', q, q', _, addRaw_run name false c p q j, ?_, hc, hp, fun _ _ => hr⟩
  rw [addRaw_run, hr']; rfl
theorem hidden {name : Str} (hd : o DEBUG = false) (h : ∀ q q', R q q' → SameLength q q') : Two o R (addOpaque name) fun _ => R :=
  raw (debug_off hd) h
theorem unknown (hd : o DEBUG = false) (h : ∀ q q', R q q' → SameLength q q') : Two o R unknownData fun _ => R := by
  unfold unknownData
  exact .bind (rest h) fun _ => .ite (fun _ => raw (debug_off hd) h) fun _ => .pure fun _ _ h => h
theorem date (u) : Two o (Agree 4 fun _ => R) (newDateTime u) fun _ => R := by
  unfold newDateTime
  exact .bind (readBytes (n := 4)) fun _ => .pure fun _ _ h => h
/-- a program that does not look at the reader -/
theorem unread {α} {m : P α} (h : ∀ c j, OptsAre o c → ∃ r c2 j2, OptsAre o c2 ∧ ∀ p q, m (St.at c p q j) = (r, St.at c2 p q j2)) :
    Two o R m fun _ => R := by
  intro c p p' q q' j hc hp hr
  obtain ⟨r, c2, j2, h2, h3⟩ := h c j hc
  exact ⟨r, c2, p, p', q, q', j2, h3 p q, h3 p' q', h2, hp, fun _ _ => hr⟩

end Two

theorem pubAlg_cases (b : UInt8) : (pubAlg b = .rsa ∧ b ∈ [(1 : UInt8), 2, 3]) ∨ (pubAlg b = .dsa ∧ b = 17) ∨ (pubAlg b = .elgamal ∧ (b = 16 ∨ b = 20)) ∨
    (pubAlg b = .ecdh ∧ b = 18) ∨ (pubAlg b = .ecdsa ∧ b = 19) ∨ (pubAlg b = .eddsa ∧ b = 22) ∨
    (pubAlg b = .unknown ∧ b ∉ [(1 : UInt8), 2, 3, 16, 17, 18, 19, 20, 22]) := by
  have : ∀ n : Fin 256, let b := UInt8.ofNat n.val; (pubAlg b = .rsa ∧ b ∈ [(1 : UInt8), 2, 3]) ∨ (pubAlg b = .dsa ∧ b = 17) ∨ (pubAlg b = .elgamal ∧ (b = 16 ∨ b = 20)) ∨
    (pubAlg b = .ecdh ∧ b = 18) ∨ (pubAlg b = .ecdsa ∧ b = 19) ∨ (pubAlg b = .eddsa ∧ b = 22) ∨
    (pubAlg b = .unknown ∧ b ∉ [(1 : UInt8), 2, 3, 16, 17, 18, 19, 20, 22]) := by decide +kernel
  have h' := this ⟨b.toNat, b.toNat_lt⟩
  simpa using h'

section
variable {o : OptCode → Bool} {R : Bytes → Bytes → Prop} {hide : Bool}
open Two

theorem two_parsePub (hf : hide = true → ∀ c, OptsAre o c → ctxFlag Ctx.integer c = false) (hd : o DEBUG = false)
    (hl : ∀ q q', R q q' → SameLength q q') (b) : Two o (Parts hide R (pubParts b)) (parsePub b) fun _ => R := by
  unfold parsePub
  rcases pubAlg_cases b with ⟨h, hb⟩ | ⟨h, hb⟩ | ⟨h, hb⟩ | ⟨h, hb⟩ | ⟨h, hb⟩ | ⟨h, hb⟩ | ⟨h, hb⟩
  · have : pubParts b = [.int, .int] := by unfold pubParts; rw [if_pos hb]
    rw [h, this]
    exact .bind (mpi hf) fun _ => mpi hf
  · subst hb
    rw [h]
    exact .bind (mpi hf) fun _ => .bind (mpi hf) fun _ => .bind (mpi hf) fun _ => mpi hf
  · have : pubParts b = [.int, .int, .int] := by rcases hb with rfl | rfl <;> rfl
    rw [h, this]
    exact .bind (mpi hf) fun _ => .bind (mpi hf) fun _ => mpi hf
  · subst hb
    rw [h]
    show Two o _ ecdhPub _
    unfold ecdhPub
    refine .bind oid fun _ => .bind (.add _) fun _ => .bind (point hf) fun _ => .bind parm fun ep => .bind (.flag _) fun b => ?_
    show Two o R (match ep with
      | 0x01 :: h :: s :: _ => _
      | _ => _) _
    split
    · exact .bind (.flag _) fun _ => .add _
    · exact .add _
  · subst hb
    rw [h]
    exact .bind oid fun _ => .bind (.add _) fun _ => point hf
  · subst hb
    rw [h]
    exact .bind oid fun _ => .bind (.add _) fun _ => point hf
  · have : pubParts b = [] := by
      simp at hb
      simp [pubParts, hb]
    rw [h, this]
    exact Two.hidden hd hl

theorem two_parseSig (hf : hide = true → ∀ c, OptsAre o c → ctxFlag Ctx.integer c = false) (hd : o DEBUG = false)
    (hl : ∀ q q', R q q' → SameLength q q') (b) : Two o (Parts hide R (sigParts b)) (parseSig b) fun _ => R := by
  unfold parseSig
  rcases pubAlg_cases b with ⟨h, hb⟩ | ⟨h, hb⟩ | ⟨h, hb⟩ | ⟨h, hb⟩ | ⟨h, hb⟩ | ⟨h, hb⟩ | ⟨h, hb⟩
  · have : sigParts b = [.int] := by unfold sigParts; rw [if_pos hb]
    rw [h, this]
    exact mpi hf
  · subst hb
    rw [h]
    exact .bind (mpi hf) fun _ => mpi hf
  · have : sigParts b = [.int, .int] := by rcases hb with rfl | rfl <;> rfl
    rw [h, this]
    exact .bind (mpi hf) fun _ => mpi hf
  · subst hb
    rw [h]
    exact Two.hidden hd hl
  · subst hb
    rw [h]
    exact .bind (mpi hf) fun _ => mpi hf
  · subst hb
    rw [h]
    exact .bind (mpi hf) fun _ => mpi hf
  · have : sigParts b = [] := by
      simp at hb
      simp [sigParts, hb]
    rw [h, this]
    exact Two.hidden hd hl

theorem two_parseSes (hf : hide = true → ∀ c, OptsAre o c → ctxFlag Ctx.integer c = false) (hd : o DEBUG = false)
    (hl : ∀ q q', R q q' → SameLength q q') (b) : Two o (Parts hide R (sesParts b)) (parseSes b) fun _ => R := by
  unfold parseSes
  rcases pubAlg_cases b with ⟨h, hb⟩ | ⟨h, hb⟩ | ⟨h, hb⟩ | ⟨h, hb⟩ | ⟨h, hb⟩ | ⟨h, hb⟩ | ⟨h, hb⟩
  · have : sesParts b = [.int] := by unfold sesParts; rw [if_pos hb]
    rw [h, this]
    exact mpi hf
  · subst hb
    rw [h]
    exact Two.hidden hd hl
  · have : sesParts b = [.int, .int] := by rcases hb with rfl | rfl <;> rfl
    rw [h, this]
    exact .bind (mpi hf) fun _ => mpi hf
  · subst hb
    rw [h]
    exact .bind (point hf) fun _ => sesKey hf
  · subst hb
    rw [h]
    exact Two.hidden hd hl
  · subst hb
    rw [h]
    exact Two.hidden hd hl
  · have : sesParts b = [] := by
      simp at hb
      simp [sesParts, hb]
    rw [h, this]
    exact Two.hidden hd hl

theorem two_parseSecPlain (hf : hide = true → ∀ c, OptsAre o c → ctxFlag Ctx.integer c = false)
    (b) : Two o (if b ∈ [(1 : UInt8), 2, 3, 16, 17, 18, 19, 20, 22] then Parts hide R (secParts b) else fun _ _ => False) (parseSecPlain b) fun _ => R := by
  unfold parseSecPlain
  rcases pubAlg_cases b with ⟨h, hb⟩ | ⟨h, hb⟩ | ⟨h, hb⟩ | ⟨h, hb⟩ | ⟨h, hb⟩ | ⟨h, hb⟩ | ⟨h, hb⟩
  · have : secParts b = [.int, .int, .int, .int] := by unfold secParts; rw [if_pos hb]
    rw [h, this, if_pos (by simp at hb ⊢; tauto)]
    exact .bind (mpi hf) fun _ => .bind (mpi hf) fun _ => .bind (mpi hf) fun _ => mpi hf
  · subst hb
    rw [h]
    exact mpi hf
  · have : secParts b = [.int] := by rcases hb with rfl | rfl <;> rfl
    rw [h, this, if_pos (by simp; tauto)]
    exact mpi hf
  · subst hb
    rw [h]
    exact mpi hf
  · subst hb
    rw [h]
    exact mpi hf
  · subst hb
    rw [h]
    exact mpi hf
  · rw [if_neg hb]
    exact .never fun _ _ h => h

theorem two_parseSecEnc (hd : o DEBUG = false) (b) : Two o SameLength (parseSecEnc b) fun _ => SameLength := by
  unfold parseSecEnc
  have hl : ∀ q q', SameLength q q' → SameLength q q' := fun _ _ h => h
  have he : Two o SameLength (do let _ ← seek 0 2) fun _ => SameLength := .bind seekEnd fun _ => .pure fun _ _ h => h
  split <;> exact .bind (Two.hidden hd hl) fun _ => he

end

end Gpgpdump
