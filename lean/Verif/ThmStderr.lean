import Verif.Stderr
import Verif.ThmSave

/-!
# C90: standard error
-/

namespace Gpgpdump
open Spec Spec.CL Spec.CLI

namespace Spec.CL

/-- the runs that write a result to standard output -/
inductive Delivers (X : Ext) (W : World) (script : Shell → Bytes) (args : List Bytes) : Prop
  | completion {s p sh} (h : Accepted args .completion s p) (hh : On s "help" false)
      (hs : (p = [] ∧ sh = .bash) ∨ ∃ a, p = [a] ∧ Spells (shellName sh) a) : Delivers X W script args
  | copy {f cmd b} (h : CL.Runs args f cmd) (hc : Copies W cmd b none) : Delivers X W script args
  | dump {f cmd src forced out} (h : CL.Runs args f cmd) (hc : Dumps W cmd (Source.src src) forced) (hs : Shown X f forced src out) : Delivers X W script args

/-- help or completions are asked for -/
def AsksHelp (args : List Bytes) : Prop := (∃ c s p, Accepted args c s p ∧ (On s "help" true ∨ c = .help)) ∨ Completes args

/-- the version is asked for -/
def AsksVersion (args : List Bytes) : Prop :=
  (∃ s p, Accepted args .version s p ∧ On s "help" false) ∨ ∃ f cb file, CL.Runs args f (.root true cb file)

/-- a panic while the input is read -/
def Panics (X : Ext) (W : World) (args : List Bytes) : Prop :=
  ∃ f cmd, CL.Runs args f cmd ∧ ((∃ src forced s, Dumps W cmd src forced ∧ (parse X (some (cliCtx f forced)) (some src)).res = .panic s) ∨
    ∃ user id raw, cmd = .github [user] id raw ∧ W.github user id = .panic)

/-- GitHub sends pages for ever -/
def Endless (W : World) (args : List Bytes) : Prop :=
  ∃ f user id raw, CL.Runs args f (.github [user] id raw) ∧ W.github user id = .running

end Spec.CL

section
variable {X : Ext} {W : World} {other : Nat → Nat} {script : Shell → Bytes} {args : List Bytes}

theorem runs_cb {f cmd} (h : CL.Runs args f cmd) : cbExecute args = .command f cmd := by
  cases h with
  | root h hh hf hv hc hp =>
    rw [on_value h (by decide)] at hh hv hc
    rw [options_value h] at hf
    rw [txt_iff] at hp
    rw [accepted_execute h, hh, hf, ← hv, ← hc, ← hp]
    rfl
  | hkp h hh hf hs hp hc hr =>
    rw [on_value h (by decide)] at hh hc hr
    rw [num_value h (by decide)] at hp
    rw [options_value h] at hf
    rw [txt_iff] at hs
    rw [accepted_execute h, hh, hf, ← hp, ← hs, ← hc, ← hr]
    rfl
  | github h hh hf hi hr =>
    rw [on_value h (by decide)] at hh hr
    rw [options_value h] at hf
    rw [txt_iff] at hi
    rw [accepted_execute h, hh, hf, ← hi, ← hr]
    rfl
  | fetch h hh hf hr =>
    rw [on_value h (by decide)] at hh hr
    rw [options_value h] at hf
    rw [accepted_execute h, hh, hf, ← hr]
    rfl

theorem refused_cb (h : ∀ c s p, ¬ Accepted args c s p) (hc : ¬ Completes args) : ∃ f, cbExecute args = .command f (.usage true) := by
  rw [cbExecute]
  cases hf : cbFind args with
  | none => exact ⟨_, rfl⟩
  | some x =>
    obtain ⟨c, rest⟩ := x
    have hs := (find_iff _ _ _).1 hf
    simp only
    by_cases h1 : c = .complete
    · subst h1
      rw [if_pos rfl]
      have : rest = [] := Classical.not_not.1 fun e => hc ⟨rest, hs, e⟩
      rw [this]
      exact ⟨_, rfl⟩
    · rw [if_neg h1]
      cases hp : pfParse (flagsOf c) (rest.length + 1) rest with
      | none => exact ⟨_, rfl⟩
      | some y => exact absurd ⟨rest, hs, h1, (given_flags c rest y.1 y.2).1 hp⟩ (h c y.1 y.2)

theorem help_cb (h : AsksHelp args) : ∃ f, cbExecute args = .command f (.usage false) := by
  rcases h with ⟨c, s, p, h, ho⟩ | ⟨rest, hs, hne⟩
  · rw [accepted_execute h]
    cases hb : pfBool s "help" with
    | true => exact ⟨_, rfl⟩
    | false =>
      rcases ho with ho | rfl
      · rw [on_value h (by decide)] at ho
        rw [ho] at hb
        exact nomatch hb
      · exact ⟨_, rfl⟩
  · rw [cbExecute, (find_iff _ _ _).2 hs]
    simp only
    rw [if_pos trivial, show decide (rest = []) = false from decide_eq_false hne]
    exact ⟨_, rfl⟩

theorem version_cb {s p} (h : Accepted args .version s p) (hh : On s "help" false) : ∃ f, cbExecute args = .command f .version := by
  rw [on_value h (by decide)] at hh
  rw [accepted_execute h, hh]
  exact ⟨_, rfl⟩

theorem completion_cb {s p} (h : Accepted args .completion s p) (hh : On s "help" false) : cbExecute args = .completion p := by
  rw [on_value h (by decide)] at hh
  rw [accepted_execute h, hh]
  rfl

theorem err_fail {f cmd e} (h : runE X W f cmd = .fail e) (h2 : ∀ stale, debugAfter stale f cmd = f.debug) (h3 : printed cmd = true)
    (hv : versionNotice cmd = []) : executeErr X W false f cmd = if f.debug then [] else [.error] := by
  unfold executeErr
  simp only [h, h2, h3, hv, if_true, debugPrint]
  cases f.debug <;> rfl

theorem err_text {f cmd t a} (h : runE X W f cmd = .text t a) (hw : TakesAll W) (h2 : ∀ stale, debugAfter stale f cmd = f.debug) :
    executeErr X W false f cmd = if a = none ∨ f.debug then [] else [.error] := by
  unfold executeErr
  simp only [h, h2, writeFrom, hw t]
  cases a <;> cases f.debug <;> simp [debugPrint, errNotice]

theorem dumps_version {cmd src forced} (h : Dumps W cmd src forced) : versionNotice cmd = [] := by
  cases h <;> rfl

theorem noInput_version {cmd e} (h : NoInput W cmd e) : versionNotice cmd = [] := by
  cases h <;> rfl

/-- the commands that read something, without `--version` -/
theorem err_runs (hU : Usual X W) {f cmd} (h : CL.Runs args f cmd) (hv : versionNotice cmd = []) :
    (mainErr X W other script args = [] ∧ (Delivers X W script args ∨ Endless W args)) ∨
    (mainErr X W other script args = [.panic] ∧ Panics X W args) ∨
    (mainErr X W other script args = (if f.debug then [] else [.error])) := by
  have e : mainErr X W other script args = executeErr X W false f cmd := by
    unfold mainErr
    rw [runs_cb h]
  rw [e]
  rcases C45_cases W cmd with hi | ⟨src, forced, hi⟩ | ⟨b, a, hi⟩ | ⟨a, hi⟩ | ⟨user, id, raw, rfl, hi⟩
  · cases hi with
    | usage => cases h
    | version => cases h
    | flag => cases hv
  · obtain ⟨h1, h2, h3⟩ := runE_dumps (X := X) (f := f) hi
    rw [dump_eq] at h1
    obtain ⟨s, rfl, hr⟩ := dumps_good hU hi
    cases hp : (parse X (some (cliCtx f forced)) (some s.src)).res with
    | err a =>
      rw [hp] at h1
      exact .inr (.inr (err_fail h1 h2 h3 hv))
    | panic a =>
      rw [hp] at h1
      refine .inr (.inl ⟨?_, f, cmd, h, .inl ⟨_, _, _, hi, hp⟩⟩)
      unfold executeErr
      simp only [h1]
    | stuck => exact absurd hp (C02_new X hU.real _ s hr).1
    | ok u =>
      rw [hp] at h1
      simp only at h1
      cases hm : marshalPacketInfo f (parse X (some (cliCtx f forced)) (some s.src)).packets with
      | none =>
        rw [hm] at h1
        exact .inr (.inr (err_fail h1 h2 h3 hv))
      | some t =>
        rw [hm] at h1
        refine .inl ⟨?_, .inl (.dump h hi ((shown_iff hU t).2 ⟨hp, hm⟩))⟩
        rw [err_text h1 hU.write h2, if_pos (.inl rfl)]
  · obtain ⟨h1, h2, -⟩ := runE_copies (X := X) (f := f) hi
    cases a with
    | none => exact .inl ⟨by rw [err_text h1 hU.write h2, if_pos (.inl rfl)], .inl (.copy h hi)⟩
    | some a =>
      refine .inr (.inr ?_)
      rw [err_text h1 hU.write h2]
      cases f.debug <;> simp
  · obtain ⟨h1, h2, h3⟩ := runE_noInput (X := X) (f := f) hi
    exact .inr (.inr (err_fail h1 h2 h3 hv))
  · rcases hi with hi | hi
    · refine .inr (.inl ⟨?_, f, _, h, .inr ⟨_, _, _, rfl, hi⟩⟩)
      unfold executeErr runE
      simp only [hi]
    · refine .inl ⟨?_, .inr ⟨_, _, _, _, h, hi⟩⟩
      unfold executeErr runE
      simp only [hi]

/-- `--version` as a flag -/
theorem err_flag {f cb file} (h : CL.Runs args f (.root true cb file)) :
    mainErr X W other script args = if W.stderrOk then [.version] else [.version, .error] := by
  unfold mainErr
  rw [runs_cb h]
  unfold executeErr runE
  cases W.stderrOk <;> simp [versionNotice, printed, debugAfter, debugPrint, errNotice]

theorem err_version {s p} (h : Accepted args .version s p) (hh : On s "help" false) :
    mainErr X W other script args = if W.stderrOk then [.version] else [.version, .error] := by
  obtain ⟨f, e⟩ := version_cb h hh
  unfold mainErr
  rw [e]
  unfold executeErr runE
  cases W.stderrOk <;> simp [versionNotice, printed, errNotice]

theorem err_help (h : AsksHelp args) : mainErr X W other script args = [.help] := by
  obtain ⟨f, e⟩ := help_cb h
  unfold mainErr
  rw [e]
  rfl

theorem err_refused (h : ∀ c s p, ¬ Accepted args c s p) (hc : ¬ Completes args) : mainErr X W other script args = [.error] := by
  obtain ⟨f, e⟩ := refused_cb h hc
  unfold mainErr
  rw [e]
  rfl

theorem err_completion (hw : TakesAll W) {s p} (h : Accepted args .completion s p) (hh : On s "help" false) :
    ((∃ sh, (p = [] ∧ sh = .bash) ∨ ∃ a, p = [a] ∧ Spells (shellName sh) a) ∧ mainErr X W other script args = []) ∨
    ((∀ sh, ¬ ((p = [] ∧ sh = .bash) ∨ ∃ a, p = [a] ∧ Spells (shellName sh) a)) ∧ mainErr X W other script args = [.error]) := by
  have e : mainErr X W other script args = completionErr other W script false p := by
    unfold mainErr
    rw [completion_cb h hh]
  obtain ⟨c1, c2⟩ := C74_output other W script p
  rw [e]
  unfold completionErr
  by_cases hs : ∃ sh, (p = [] ∧ sh = .bash) ∨ ∃ a, p = [a] ∧ Spells (shellName sh) a
  · refine .inl ⟨hs, ?_⟩
    obtain ⟨sh, hs⟩ := hs
    have h2 := (c1 sh hs).2
    rw [hw] at h2
    have h2 := h2.2 ⟨rfl, Nat.le_refl _⟩
    unfold executeCompletion at h2
    cases hc : completionShell other p with
    | none =>
      rw [hc] at h2
      exact nomatch h2
    | some t => simp [writeFrom, show W.write (script t) = _ from hw _, debugPrint, errNotice]
  · refine .inr ⟨fun sh h => hs ⟨sh, h⟩, ?_⟩
    have h2 := congrArg Run.exit (c2 fun sh h => hs ⟨sh, h⟩)
    unfold executeCompletion at h2
    cases hc : completionShell other p with
    | none => rfl
    | some t =>
      rw [hc] at h2
      simp [writeFrom, show W.write (script t) = _ from hw _, debugPrint, exitOf] at h2

/-- a flag `--version` or another command that reads something -/
theorem flag_or {f cmd} (h : CL.Runs args f cmd) : (∃ cb file, cmd = .root true cb file) ∨ versionNotice cmd = [] := by
  cases h with
  | @root _ _ _ v =>
    cases v with
    | true => exact .inl ⟨_, _, rfl⟩
    | false => exact .inr rfl
  | hkp => exact .inr rfl
  | github => exact .inr rfl
  | fetch => exact .inr rfl
end

section
variable (X : Ext) (W : World) (other : Nat → Nat) (script : Shell → Bytes) (args : List Bytes)

/-- **C90**: the status is 1 exactly if an error or a panic goes to standard error. -/
theorem C90_status : (mainRun X W other script args).1 = some 1 ↔ .error ∈ mainErr X W other script args ∨ .panic ∈ mainErr X W other script args := by
  have key : ∀ o : Option FErr, exitStatus (exitOf o) = 1 ↔ Notice.error ∈ errNotice o := by
    intro o
    cases o <;> simp [exitStatus, exitOf, errNotice]
  have key' : ∀ o : Option FErr, Notice.panic ∉ errNotice o := by
    intro o
    cases o <;> simp [errNotice]
  have kv : ∀ c, Notice.error ∉ versionNotice c ∧ Notice.panic ∉ versionNotice c := by
    intro c
    unfold versionNotice
    split <;> simp
  unfold mainRun mainErr executeArgs
  cases hc : cbExecute args with
  | completion a =>
    simp only
    unfold executeCompletion completionErr
    cases completionShell other a with
    | none => simp [debugPrint, errNotice, exitOf, exitStatus]
    | some s => simp [key, key']
  | command f c =>
    simp only
    unfold execute executeErr
    cases hr : runE X W f c with
    | hang => simp
    | panic => simp [exitStatus]
    | nothing =>
      cases c <;> simp [exitStatus, kv]
    | fail e =>
      cases hp : printed c with
      | true => simp [key, key', kv]
      | false => simp [exitStatus, errNotice, kv]
    | text t a => simp [key, key']

/-- **C90**: without `--debug` nothing goes to standard error exactly if a result is delivered, or GitHub never stops sending. -/
theorem C90_silent (hU : Usual X W) (hn : NoDebug args) : mainErr X W other script args = [] ↔ Delivers X W script args ∨ Endless W args := by
  constructor
  · intro h
    rcases args_cases args with ⟨ha, hc⟩ | ha | ⟨s, p, ha, hh⟩ | ⟨s, p, ha, hh⟩ | ⟨f, cmd, ha⟩
    · rw [err_refused ha hc] at h
      exact nomatch h
    · rw [err_help ha] at h
      exact nomatch h
    · rw [err_version ha hh] at h
      cases hw : W.stderrOk <;> simp [hw] at h
    · rcases err_completion (X := X) (other := other) (script := script) hU.write ha hh with ⟨⟨sh, hs⟩, -⟩ | ⟨-, e⟩
      · exact .inl (.completion ha hh hs)
      · rw [e] at h
        exact nomatch h
    · rcases flag_or ha with ⟨cb, file, rfl⟩ | hv
      · rw [err_flag ha] at h
        cases hw : W.stderrOk <;> simp [hw] at h
      · rcases err_runs (other := other) (script := script) hU ha hv with ⟨-, e⟩ | ⟨e, -⟩ | e
        · exact e
        · rw [e] at h
          exact nomatch h
        · rw [e, runs_debug hn ha] at h
          exact nomatch h
  · rintro (h | ⟨f, user, id, raw, h, hi⟩)
    · cases h with
      | @completion s p sh h hh hs =>
        rcases err_completion (X := X) (other := other) (script := script) hU.write h hh with ⟨-, e⟩ | ⟨e, -⟩
        · exact e
        · exact absurd hs (e sh)
      | @copy f cmd b h hc =>
        obtain ⟨h1, h2, -⟩ := runE_copies (X := X) (f := f) hc
        unfold mainErr
        rw [runs_cb h]
        exact (err_text h1 hU.write h2).trans (if_pos (.inl rfl))
      | @dump f cmd src forced out h hc hs =>
        obtain ⟨h1, h2, -⟩ := runE_dumps (X := X) (f := f) hc
        obtain ⟨g1, g2⟩ := (shown_iff hU out).1 hs
        rw [dump_eq, g1] at h1
        simp only [g2] at h1
        unfold mainErr
        rw [runs_cb h]
        exact (err_text h1 hU.write h2).trans (if_pos (.inl rfl))
    · unfold mainErr
      rw [runs_cb h]
      unfold executeErr runE
      simp only [hi]

/-- **C90**: help goes to standard error exactly if it is asked for, -/
theorem C90_help (hU : Usual X W) : .help ∈ mainErr X W other script args ↔ AsksHelp args := by
  refine ⟨fun h => ?_, fun h => by rw [err_help h]; simp⟩
  rcases args_cases args with ⟨ha, hc⟩ | ha | ⟨s, p, ha, hh⟩ | ⟨s, p, ha, hh⟩ | ⟨f, cmd, ha⟩
  · rw [err_refused ha hc] at h
    simp at h
  · exact ha
  · rw [err_version ha hh] at h
    cases hw : W.stderrOk <;> simp [hw] at h
  · rcases err_completion (X := X) (other := other) (script := script) hU.write ha hh with ⟨-, e⟩ | ⟨-, e⟩ <;> rw [e] at h <;> simp at h
  · rcases flag_or ha with ⟨cb, file, rfl⟩ | hv
    · rw [err_flag ha] at h
      cases hw : W.stderrOk <;> simp [hw] at h
    · rcases err_runs (other := other) (script := script) hU ha hv with ⟨e, -⟩ | ⟨e, -⟩ | e <;> rw [e] at h
      · simp at h
      · simp at h
      · cases hd : f.debug <;> simp [hd] at h

/-- the version exactly if it is asked for, -/
theorem C90_version (hU : Usual X W) : .version ∈ mainErr X W other script args ↔ AsksVersion args := by
  constructor
  · intro h
    rcases args_cases args with ⟨ha, hc⟩ | ha | ⟨s, p, ha, hh⟩ | ⟨s, p, ha, hh⟩ | ⟨f, cmd, ha⟩
    · rw [err_refused ha hc] at h
      simp at h
    · rw [err_help ha] at h
      simp at h
    · exact .inl ⟨s, p, ha, hh⟩
    · rcases err_completion (X := X) (other := other) (script := script) hU.write ha hh with ⟨-, e⟩ | ⟨-, e⟩ <;> rw [e] at h <;> simp at h
    · rcases flag_or ha with ⟨cb, file, rfl⟩ | hv
      · exact .inr ⟨f, cb, file, ha⟩
      · rcases err_runs (other := other) (script := script) hU ha hv with ⟨e, -⟩ | ⟨e, -⟩ | e <;> rw [e] at h
        · simp at h
        · simp at h
        · cases hd : f.debug <;> simp [hd] at h
  · rintro (⟨s, p, h, hh⟩ | ⟨f, cb, file, h⟩)
    · rw [err_version h hh]
      cases W.stderrOk <;> simp
    · rw [err_flag h]
      cases W.stderrOk <;> simp

/-- and a panic exactly if the input makes the program panic. -/
theorem C90_panic (hU : Usual X W) : .panic ∈ mainErr X W other script args ↔ Panics X W args := by
  constructor
  · intro h
    rcases args_cases args with ⟨ha, hc⟩ | ha | ⟨s, p, ha, hh⟩ | ⟨s, p, ha, hh⟩ | ⟨f, cmd, ha⟩
    · rw [err_refused ha hc] at h
      simp at h
    · rw [err_help ha] at h
      simp at h
    · rw [err_version ha hh] at h
      cases hw : W.stderrOk <;> simp [hw] at h
    · rcases err_completion (X := X) (other := other) (script := script) hU.write ha hh with ⟨-, e⟩ | ⟨-, e⟩ <;> rw [e] at h <;> simp at h
    · rcases flag_or ha with ⟨cb, file, rfl⟩ | hv
      · rw [err_flag ha] at h
        cases hw : W.stderrOk <;> simp [hw] at h
      · rcases err_runs (other := other) (script := script) hU ha hv with ⟨e, -⟩ | ⟨-, e⟩ | e
        · rw [e] at h
          simp at h
        · exact e
        · rw [e] at h
          cases hd : f.debug <;> simp [hd] at h
  · rintro ⟨f, cmd, h, ⟨src, forced, s, hd, hp⟩ | ⟨user, id, raw, rfl, hi⟩⟩
    · obtain ⟨h1, -, -⟩ := runE_dumps (X := X) (f := f) hd
      rw [dump_eq, hp] at h1
      unfold mainErr
      rw [runs_cb h]
      unfold executeErr
      simp [h1]
    · unfold mainErr
      rw [runs_cb h]
      unfold executeErr runE
      simp [hi]

/-- **C90**: with `--debug` nothing goes to standard error, whatever fails, but for panics and the version. -/
theorem C90_debug (hU : Usual X W) {f cmd} (h : CL.Runs args f cmd) (hd : f.debug = true) (hv : ∀ cb file, cmd ≠ .root true cb file)
    (hp : ¬ Panics X W args) : mainErr X W other script args = [] := by
  rcases flag_or h with ⟨cb, file, e⟩ | hv'
  · exact absurd e (hv cb file)
  · rcases err_runs (other := other) (script := script) hU h hv' with ⟨e, -⟩ | ⟨-, e⟩ | e
    · exact e
    · exact absurd e hp
    · rw [e, hd]
      rfl
end

/-- `gpgpdump` with a user ID packet, with octets that are no packet, and with a key on which the parser panics -/
theorem C90_example (other : Nat → Nat) (script : Shell → Bytes) :
    mainErr Tests.X (Tests.world [0xcd, 1, 0x41]) other script [] = [] ∧ mainErr Tests.X (Tests.world [0, 1]) other script [] = [.error] ∧
    mainErr Tests.X (Tests.world [0xc5, 8, 4, 0, 0, 0, 0, 99, 0, 7]) other script [] = [.panic] ∧
    mainErr Tests.X (Tests.world [0, 1]) other script [text "--debug"] = [] := by
  unfold mainErr
  rw [runs_cb Case89.bare, runs_cb long_debug]
  simp only
  decide +kernel

end Gpgpdump
