import Verif.ThmStderr

/-!
# C93: a standard output that does not take everything
-/

namespace Gpgpdump
open Spec Spec.CL Spec.CLI

namespace Spec.CL

/-- the same, but standard output takes everything -/
def willing (W : World) : World := { W with write := fun t => (t.length, none) }

/-- standard output takes all of it -/
def WritesAll (W : World) (t : Bytes) : Prop := (W.write t).2 = none ∧ t.length ≤ (W.write t).1

instance (W : World) (t : Bytes) : Decidable (WritesAll W t) := by unfold WritesAll; infer_instance

end Spec.CL

theorem runE_willing (X : Ext) (W : World) (f : Flags) (cmd : Command) : runE X (willing W) f cmd = runE X W f cmd := by
  cases cmd <;> rfl

theorem writeFrom_willing (W : World) (t : Bytes) (a : Option GoErr) : writeFrom (willing W) t a = (t, a.map .read) := by
  unfold writeFrom willing
  simp

theorem writeFrom_all {W : World} {t : Bytes} (h : WritesAll W t) (a : Option GoErr) : writeFrom W t a = (t, a.map .read) := by
  unfold writeFrom
  have := h.2
  simp only [h.1]
  rw [if_neg (by omega), List.take_of_length_le this]

theorem writeFrom_short {W : World} {t : Bytes} (h : ¬ WritesAll W t) (a : Option GoErr) : ∃ e, writeFrom W t a = (t.take (W.write t).1, some e) := by
  unfold writeFrom
  cases h1 : (W.write t).2 with
  | some c => simp only [h1]; exact ⟨_, rfl⟩
  | none =>
    have : (W.write t).1 < t.length := Nat.lt_of_not_le fun h2 => h ⟨h1, h2⟩
    simp only [h1, this, if_true]
    exact ⟨_, rfl⟩

/-- what the process does, from what it does with a standard output that takes everything -/
def cutRun (W : World) (r : Option Nat × Bytes) : Option Nat × Bytes :=
  (if r.1 = some 0 ∧ ¬ WritesAll W r.2 then some 1 else r.1, r.2.take (W.write r.2).1)

section
variable {X : Ext} {W : World} {other : Nat → Nat} {script : Shell → Bytes} {args : List Bytes}

theorem execute_cut (hE : W.write [] = (0, none)) {f : Flags} {cmd : Command} (hp : printed cmd = true)
    (hf : debugAfter false f cmd = false) :
    ((execute X W false f cmd).exit.map exitStatus, (execute X W false f cmd).stdout) =
      cutRun W ((execute X (willing W) false f cmd).exit.map exitStatus, (execute X (willing W) false f cmd).stdout) := by
  have hN : WritesAll W [] := by unfold WritesAll; rw [hE]; exact ⟨rfl, Nat.le_refl _⟩
  unfold execute
  rw [runE_willing]
  cases runE X W f cmd with
  | hang => simp [cutRun]
  | panic => simp [cutRun, exitStatus]
  | nothing => simp [cutRun, exitStatus, hN]
  | fail e => simp [cutRun, exitStatus, hp, hf, debugPrint, exitOf]
  | text t a =>
    simp only [writeFrom_willing, hf]
    by_cases ht : WritesAll W t
    · rw [writeFrom_all ht]
      cases a <;> simp [debugPrint, exitOf, exitStatus, cutRun, ht, List.take_of_length_le ht.2]
    · obtain ⟨e, he⟩ := writeFrom_short ht a
      rw [he]
      cases a <;> simp [debugPrint, exitOf, exitStatus, cutRun, ht]

theorem runs_printed {f cmd} (h : Spec.CL.Runs args f cmd) : printed cmd = true := by
  cases h <;> rfl

theorem main_cut (hE : W.write [] = (0, none)) (hn : NoDebug args) :
    mainRun X W other script args = cutRun W (mainRun X (willing W) other script args) := by
  have hN : WritesAll W [] := by unfold WritesAll; rw [hE]; exact ⟨rfl, Nat.le_refl _⟩
  unfold mainRun
  rcases args_cases args with ⟨h, hc⟩ | h | ⟨s, p, h, hh⟩ | ⟨s, p, h, hh⟩ | ⟨f, cmd, h⟩
  · rw [C83_refused X W other script false args h hc, C83_refused X (willing W) other script false args h hc]
    simp [cutRun, exitStatus]
  · rw [C83_help X W other script false args h, C83_help X (willing W) other script false args h]
    simp [cutRun, exitStatus, hN]
  · rw [C83_version X W other script false args h hh, C83_version X (willing W) other script false args h hh]
    cases hs : W.stderrOk <;> simp [cutRun, exitStatus, hN, hs, willing]
  · rw [C83_completion X W other script false args h hh, C83_completion X (willing W) other script false args h hh]
    unfold executeCompletion
    cases completionShell other p with
    | none => simp [debugPrint, exitOf, cutRun, exitStatus]
    | some sh =>
      simp only [writeFrom_willing]
      by_cases ht : WritesAll W (script sh)
      · rw [writeFrom_all ht]
        simp [debugPrint, exitOf, exitStatus, cutRun, ht, List.take_of_length_le ht.2]
      · obtain ⟨e, he⟩ := writeFrom_short ht none
        rw [he]
        simp [debugPrint, exitOf, exitStatus, cutRun, ht]
  · rw [runs_execute h, runs_execute h]
    have hd := runs_debug hn h
    refine execute_cut hE (runs_printed h) ?_
    cases h with
    | @root _ _ _ v c file => cases v with
      | true => rfl
      | false => exact hd
    | hkp => exact hd
    | github => exact hd
    | fetch => exact hd

/-- **C93**: without `--debug`. The process does what it does with a standard output that takes everything, as far as standard output
takes it; and it ends with status 1 instead of 0 if this is not all of it. -/
theorem C93_cut (hE : W.write [] = (0, none)) (hn : NoDebug args) (st : Option Nat) (out : Bytes)
    (h : mainRun X (willing W) other script args = (st, out)) :
    mainRun X W other script args = (if st = some 0 ∧ ¬ WritesAll W out then some 1 else st, out.take (W.write out).1) := by
  rw [main_cut hE hn, h]
  rfl

/-- **C93**: status 0 means that everything has been written. -/
theorem C93_success (hU : Usual X (willing W)) (hE : W.write [] = (0, none)) (hn : NoDebug args) (out : Bytes) :
    mainRun X W other script args = (some 0, out) ↔ Succeeds X (willing W) script args out ∧ WritesAll W out := by
  rw [← C88_success X (willing W) other script args hU hn out, main_cut hE hn]
  rcases mainRun X (willing W) other script args with ⟨st, o⟩
  unfold cutRun
  simp only [Prod.mk.injEq]
  constructor
  · rintro ⟨h1, h2⟩
    split at h1
    · cases h1
    · rename_i hc
      have ha : WritesAll W o := Classical.byContradiction fun hx => hc ⟨h1, hx⟩
      rw [List.take_of_length_le ha.2] at h2
      subst h2
      exact ⟨⟨h1, rfl⟩, ha⟩
  · rintro ⟨⟨rfl, rfl⟩, ha⟩
    rw [if_neg fun h => h.2 ha, List.take_of_length_le ha.2]
    exact ⟨rfl, rfl⟩

/-- C93: output that is cut is reported on standard error. -/
theorem C93_reported (hE : W.write [] = (0, none)) (hn : NoDebug args) (out : Bytes) (h : mainRun X (willing W) other script args = (some 0, out))
    (hw : ¬ WritesAll W out) : .error ∈ mainErr X W other script args ∨ .panic ∈ mainErr X W other script args := by
  rw [← C90_status, C93_cut hE hn _ _ h, if_pos ⟨rfl, hw⟩]

/-- **C93**: with `--debug` the status does not tell: it is the same as if everything had been written. -/
theorem C93_debug {f cmd} (h : Spec.CL.Runs args f cmd) (hd : f.debug = true) :
    (mainRun X W other script args).1 = (mainRun X (willing W) other script args).1 := by
  unfold mainRun
  rw [runs_execute h, runs_execute h]
  by_cases hv : ∃ c file, cmd = .root true c file
  · obtain ⟨c, file, rfl⟩ := hv
    unfold execute runE
    cases hs : W.stderrOk <;> simp [hs, willing, printed, debugAfter, debugPrint, exitOf]
  · have hf : debugAfter false f cmd = true := by
      cases h with
      | @root _ _ _ v c file => cases v with
        | true => exact absurd ⟨_, _, rfl⟩ hv
        | false => exact hd
      | hkp => exact hd
      | github => exact hd
      | fetch => exact hd
    unfold execute
    rw [runE_willing]
    cases runE X W f cmd with
    | hang => rfl
    | panic => rfl
    | nothing => rfl
    | fail e => simp [runs_printed h, hf, debugPrint, exitOf]
    | text t a =>
      have key : ∀ (W : World) (e : Option FErr), (debugPrint W true e).2 = none := by
        intro W e
        cases e <;> rfl
      simp only [hf, key, exitOf]

end

/-- a standard output with room for ten octets -/
def Tests.full (b : Bytes) : World := { Tests.world b with write := fun t => (min 10 t.length, if t.length ≤ 10 then none else some 28) }

/-- `gpgpdump -u` with a marker packet and room for ten octets: status 1. With no packet at all: status 0. -/
theorem C93_example (script : Shell → Bytes) :
    mainRun Tests.X (Tests.full [0xca, 3, 0x50, 0x47, 0x50]) id script [Spec.CL.text "-u"] = (some 1, utf8 (S "Marker Pac")) ∧
    mainRun Tests.X (Tests.full []) id script [Spec.CL.text "-u"] = (some 0, []) := by
  have e : ∀ b : Bytes, willing (Tests.full b) = Tests.world b := fun b => rfl
  have r : ∀ b : Bytes, mainRun Tests.X (Tests.world b) id script [Spec.CL.text "-u"] =
      (((execute Tests.X (Tests.world b) false { Tests.flags with utc := true } (.root false false [])).exit.map exitStatus,
        (execute Tests.X (Tests.world b) false { Tests.flags with utc := true } (.root false false [])).stdout) : Option Nat × Bytes) := by
    intro b
    have h := C84_letters Tests.X (Tests.world b) id script false ['u'] (by decide) (by decide)
    unfold mainRun
    rw [show [Spec.CL.text "-u"] = [Spec.CL.text "-" ++ ['u'].map fun c => UInt8.ofNat c.toNat] from by decide +kernel, h]
    rfl
  constructor
  · rw [C93_cut (W := Tests.full _) rfl short_u_debug _ _ ((congrArg (fun w => mainRun Tests.X w id script [Spec.CL.text "-u"]) (e _)).trans (r _))]
    decide +kernel
  · rw [C93_cut (W := Tests.full _) rfl short_u_debug _ _ ((congrArg (fun w => mainRun Tests.X w id script [Spec.CL.text "-u"]) (e _)).trans (r _))]
    decide +kernel

/-- `gpgpdump --debug` with a marker packet and room for ten octets per write: status 0, and the display is cut -/
theorem C93_debug_example (script : Shell → Bytes) :
    mainRun Tests.X (Tests.full [0xca, 3, 0x50, 0x47, 0x50]) id script [Spec.CL.text "--debug"] = (some 0, utf8 (S "Marker Pac!")) := by
  unfold mainRun
  rw [runs_execute long_debug]
  decide +kernel

example (script : Shell → Bytes) := C93_debug (X := Tests.X) (W := Tests.full [0xca, 3, 0x50, 0x47, 0x50]) (other := id) (script := script) long_debug rfl
example (script : Shell → Bytes) (b out : Bytes) :=
  C93_success (X := Tests.X) (W := Tests.full b) (other := id) (script := script) (usual_tests b) rfl short_u_debug out

end Gpgpdump
