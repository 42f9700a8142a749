import Verif.Main
import Verif.ThmNet
import Verif.ThmCompletion
import Verif.ThmNew
import Verif.ArmorReal
import Verif.Tests

/-!
# C88: what the process does, for every list of arguments
-/

namespace Gpgpdump
open Spec Spec.CL Spec.CLI

namespace Spec.CL

/-- the arguments ask for a command that reads something -/
inductive Runs (args : List Bytes) : Flags → Command → Prop
  | root {s p f v cb file} (h : Accepted args .root s p) (hh : On s "help" false) (hf : Options s f) (hv : On s "version" v)
      (hc : On s "clipboard" cb) (hp : Txt s "file" [] file) : Runs args f (.root v cb (octetStr file))
  | hkp {s p f server port secure raw} (h : Accepted args .hkp s p) (hh : On s "help" false) (hf : Options s f)
      (hs : Txt s "keyserver" (text "keys.gnupg.net") server) (hp : Num s "port" 11371 port) (hc : On s "secure" secure) (hr : On s "raw" raw) :
      Runs args f (.hkp p server port secure raw)
  | github {s p f id raw} (h : Accepted args .github s p) (hh : On s "help" false) (hf : Options s f) (hi : Txt s "keyid" [] id) (hr : On s "raw" raw) :
      Runs args f (.github (p.map octetStr) (goRunes id.length id) raw)
  | fetch {s p f raw} (h : Accepted args .fetch s p) (hh : On s "help" false) (hf : Options s f) (hr : On s "raw" raw) :
      Runs args f (.fetch (p.map octetStr) raw)

/-- `--debug` is not on -/
def NoDebug (args : List Bytes) : Prop := ∀ c s p, Accepted args c s p → On s "debug" false

/-- the runs that succeed, and their output -/
inductive Succeeds (X : Ext) (W : World) (script : Shell → Bytes) (args : List Bytes) : Bytes → Prop
  | help (h : (∃ c s p, Accepted args c s p ∧ (On s "help" true ∨ c = .help)) ∨ Completes args) : Succeeds X W script args []
  | version {s p} (h : Accepted args .version s p) (hh : On s "help" false) (he : W.stderrOk = true) : Succeeds X W script args []
  | versionFlag {f cb file} (h : Runs args f (.root true cb file)) (he : W.stderrOk = true) : Succeeds X W script args []
  | completion {s p sh} (h : Accepted args .completion s p) (hh : On s "help" false)
      (hs : (p = [] ∧ sh = .bash) ∨ ∃ a, p = [a] ∧ Spells (shellName sh) a) : Succeeds X W script args (script sh)
  | copy {f cmd b} (h : Runs args f cmd) (hc : Copies W cmd b none) : Succeeds X W script args b
  | dump {f cmd forced} {src src' : Source} {ps rows m out} (h : Runs args f cmd) (hc : Dumps W cmd src.src forced) (hs : Reads X (f.armor || forced) src src')
      (ht : src'.tail = rawErr .eof) (hp : PacketSeq ps src'.data) (hd : FullTops (cliCtx f forced).opts X {} ps rows m) (hr : Rendered f rows out) :
      Succeeds X W script args out

/-- a reader as in `Source`, which does not report the errors of the model itself -/
def SteadySrc (s : Src) : Prop := ∃ src : Source, s = src.src ∧ src.tail.real

/-- what is assumed of decoders, inputs and standard output -/
structure Usual (X : Ext) (W : World) : Prop where
  own : OwnErrors X
  real : RealX X
  armor : ∀ t b, X.armor t = .ok b → b.eager = false ∧ (b.tail = rawErr .eof ∨ b.tail.isEOF = false)
  stdin : SteadySrc W.stdin
  file : ∀ n s, W.file n = .ok s → SteadySrc s
  hkp : ∀ v u s, W.hkp v u = .ok s → SteadySrc s
  fetch : ∀ u s, W.fetch u = .ok s → SteadySrc s
  write : TakesAll W

/-- the input is, after removal of armor, a sequence of packets with this display -/
def Shown (X : Ext) (f : Flags) (forced : Bool) (src : Source) (out : Bytes) : Prop :=
  ∃ src' ps rows m, Reads X (f.armor || forced) src src' ∧ src'.tail = rawErr .eof ∧ PacketSeq ps src'.data ∧
    FullTops (cliCtx f forced).opts X {} ps rows m ∧ Rendered f rows out

end Spec.CL

theorem good_bytes (b : Bytes) : SteadySrc (Src.ofBytes b) := ⟨⟨b, rawErr .eof, []⟩, rfl, fun h => by cases h⟩

theorem dumps_good {X W cmd src forced} (hU : Usual X W) (h : Dumps W cmd src forced) : SteadySrc src := by
  cases h with
  | stdin => exact hU.stdin
  | file hn h => exact hU.file _ _ h
  | clipboard h => exact good_bytes _
  | hkp hn h => exact hU.hkp _ _ _ h
  | github h => exact good_bytes _
  | fetch h => exact hU.fetch _ _ h

section
variable {X : Ext} {W : World} {other : Nat → Nat} {script : Shell → Bytes} {args : List Bytes}

theorem runs_execute {f cmd} (h : Runs args f cmd) : executeArgs X W other script false args = execute X W false f cmd := by
  cases h with
  | root h hh hf hv hc hp => exact C83_root X W other script false args h hh hf hv hc hp
  | hkp h hh hf hs hp hc hr => exact C83_hkp X W other script false args h hh hf hs hp hc hr
  | github h hh hf hi hr => exact C83_github X W other script false args h hh hf hi hr
  | fetch h hh hf hr => exact C83_fetch X W other script false args h hh hf hr

theorem runs_debug {f cmd} (hn : NoDebug args) (h : Runs args f cmd) : f.debug = false := by
  have key : ∀ {c s p}, Accepted args c s p → Options s f → f.debug = false := by
    intro c s p h hf
    have h1 := (on_value h (name := "debug") (by decide) _).1 hf.2.2.2.2.1
    have h2 := (on_value h (name := "debug") (by decide) _).1 (hn c s p h)
    rw [← h1, h2]
  cases h with
  | root h hh hf => exact key h hf
  | hkp h hh hf => exact key h hf
  | github h hh hf => exact key h hf
  | fetch h hh hf => exact key h hf

/-- what the arguments come to -/
theorem args_cases (args : List Bytes) :
    ((∀ c s p, ¬ Accepted args c s p) ∧ ¬ Completes args) ∨ ((∃ c s p, Accepted args c s p ∧ (On s "help" true ∨ c = .help)) ∨ Completes args) ∨
    (∃ s p, Accepted args .version s p ∧ On s "help" false) ∨ (∃ s p, Accepted args .completion s p ∧ On s "help" false) ∨ ∃ f cmd, Runs args f cmd := by
  by_cases hc : Completes args
  · exact .inr (.inl (.inr hc))
  by_cases ha : ∃ c s p, Accepted args c s p
  · obtain ⟨c, s, p, h⟩ := ha
    obtain ⟨⟨f, hf, -⟩, hv, ⟨port, hport, -⟩, htxt⟩ := C83_values args h
    obtain ⟨hb, hh, -⟩ := hv "help" (by decide)
    cases hb with
    | true => exact .inr (.inl (.inl ⟨c, s, p, h, .inl hh⟩))
    | false =>
      obtain ⟨v, hver, -⟩ := hv "version" (by decide)
      obtain ⟨cb, hcb, -⟩ := hv "clipboard" (by decide)
      obtain ⟨sec, hsec, -⟩ := hv "secure" (by decide)
      obtain ⟨raw, hraw, -⟩ := hv "raw" (by decide)
      obtain ⟨file, hfile, -⟩ := htxt "file" []
      obtain ⟨srv, hsrv, -⟩ := htxt "keyserver" (text "keys.gnupg.net")
      obtain ⟨id, hid, -⟩ := htxt "keyid" []
      cases c with
      | root => exact .inr (.inr (.inr (.inr ⟨_, _, .root h hh hf hver hcb hfile⟩)))
      | version => exact .inr (.inr (.inl ⟨s, p, h, hh⟩))
      | hkp => exact .inr (.inr (.inr (.inr ⟨_, _, .hkp h hh hf hsrv hport hsec hraw⟩)))
      | github => exact .inr (.inr (.inr (.inr ⟨_, _, .github h hh hf hid hraw⟩)))
      | fetch => exact .inr (.inr (.inr (.inr ⟨_, _, .fetch h hh hf hraw⟩)))
      | completion => exact .inr (.inr (.inr (.inl ⟨s, p, h, hh⟩)))
      | help => exact .inr (.inl (.inl ⟨_, s, p, h, .inr rfl⟩))
      | complete =>
        obtain ⟨rest, h1, h2, h3⟩ := h
        exact absurd rfl h2
  · exact .inl ⟨fun c s p h => ha ⟨c, s, p, h⟩, hc⟩

/-- the run as a whole -/
theorem main_iff {st : Nat} {out : Bytes} {e : Exit} (hs : exitStatus e = st) :
    mainRun X W other script args = (some st, out) ↔
      (executeArgs X W other script false args).exit = some e ∧ (executeArgs X W other script false args).stdout = out := by
  unfold mainRun
  simp only [Prod.mk.injEq]
  refine and_congr_left fun _ => ?_
  cases h : (executeArgs X W other script false args).exit with
  | none => simp
  | some e' => cases e <;> cases e' <;> subst hs <;> simp [exitStatus]

/-- a command that dumps: success, or abnormal end without output -/
theorem dump_ends (hU : Usual X W) {f cmd src forced} (hd : f.debug = false) (h : Dumps W cmd src forced) :
    (∃ out, execute X W false f cmd = ⟨some .normal, out, false⟩) ∨ execute X W false f cmd = ⟨some .abnormal, [], false⟩ := by
  obtain ⟨s, rfl, hr⟩ := dumps_good hU h
  cases hp : (parse X (some (cliCtx f forced)) (some s.src)).res with
  | err e => exact .inr (C45_failure X W false f hd cmd _ forced h e hp)
  | panic e =>
    right
    rw [C45_panic X W false f cmd _ forced h e hp, hd]
  | stuck => exact absurd hp (C02_new X hU.real _ s hr).1
  | ok u =>
    cases hm : marshalPacketInfo f (parse X (some (cliCtx f forced)) (some s.src)).packets with
    | none =>
      right
      obtain ⟨h1, h2, h3⟩ := runE_dumps (X := X) (f := f) h
      rw [dump_eq, hp] at h1
      simp only [hm] at h1
      rw [execute_fail h1 h2 h3, if_neg (by simp [hd])]
    | some t =>
      left
      refine ⟨t, ?_⟩
      rw [C45_success_partial X W false f cmd _ forced h hp t (marshal_iff.1 hm) (hU.write t), hd]

theorem dump_succeeds (hU : Usual X W) {f cmd src forced out} (hr : Runs args f cmd) (hd : f.debug = false) (h : Dumps W cmd src forced)
    (he : execute X W false f cmd = ⟨some .normal, out, false⟩) : Succeeds X W script args out := by
  obtain ⟨s, rfl, hreal⟩ := dumps_good hU h
  have bad : execute X W false f cmd ≠ ⟨some .abnormal, [], false⟩ := by
    rw [he]
    intro h
    cases h
  rcases C60_every X (fun t b hb => (hU.armor t b hb).1) (f.armor || forced) s with ⟨s', hs⟩ | hs
  · have ht : s'.tail = rawErr .eof ∨ s'.tail.isEOF = false := by
      cases hs with
      | binary => exact .inl rfl
      | armored hl ht h he => exact (hU.armor _ _ he).2
    rcases ht with ht | ht
    · obtain ⟨ps, rows, m, h1, h2, h3⟩ := (C60_output X hU.own W false f hd cmd forced s s' h hs ht hU.write out).1 he
      exact .dump hr h hs ht h1 h2 h3
    · exact absurd (C60_corrupt X hU.real W false f hd cmd forced s s' h hs ht) bad
  · exact absurd (C60_refused X W false f hd cmd forced s h hs) bad
/-- the display in terms of the program -/
theorem shown_iff (hU : Usual X W) {f forced} {src : Source} (out : Bytes) :
    Shown X f forced src out ↔ (parse X (some (cliCtx f forced)) (some src.src)).res = .ok () ∧
      marshalPacketInfo f (parse X (some (cliCtx f forced)) (some src.src)).packets = some out := by
  have hcon : Consistent (cliCtx f forced) := ⟨fun d hd => (by cases hd), fun d hd => (by cases hd)⟩
  constructor
  · rintro ⟨s', ps, rows, m, hs, ht, h3, h4, h5⟩
    have hp := parse_reads (x := cliCtx f forced) (cliCtx_armor f forced) hs
    obtain ⟨h1, rfl⟩ := (C62_exact X hU.own (cliCtx f forced) hcon s' ht rows).mpr ⟨ps, m, h3, h4⟩
    rw [hp]
    exact ⟨h1, marshal_iff.2 h5⟩
  · rintro ⟨h1, h2⟩
    rcases C60_every X (fun t b hb => (hU.armor t b hb).1) (f.armor || forced) src with ⟨s', hs⟩ | hs
    · have hp := parse_reads (x := cliCtx f forced) (cliCtx_armor f forced) hs
      have ht : s'.tail = rawErr .eof ∨ s'.tail.isEOF = false := by
        cases hs with
        | binary => exact .inl rfl
        | armored hl ht h he => exact (hU.armor _ _ he).2
      rcases ht with ht | ht
      · rw [hp] at h1 h2
        obtain ⟨ps, m, h3, h4⟩ := (C62_exact X hU.own (cliCtx f forced) hcon s' ht _).mp ⟨h1, rfl⟩
        exact ⟨s', ps, _, m, hs, ht, h3, h4, marshal_iff.1 h2⟩
      · rw [hp] at h1
        exact absurd h1 (C08_packets_partial X (some (cliCtx f forced)) s' ht)
    · obtain ⟨ha, ls, cut, taken, hl, hn⟩ := hs
      obtain ⟨e, he⟩ := (noArmor_get hl hn (cliCtx f forced)).2 ((cliCtx_armor f forced).trans ha)
      rw [he] at h1
      cases h1
end

section
variable (X : Ext) (W : World) (other : Nat → Nat) (script : Shell → Bytes) (args : List Bytes)

/-- **C88**: the process ends with status 0 and this output exactly if the arguments and the inputs are such. -/
theorem C88_success (hU : Usual X W) (hn : NoDebug args) (out : Bytes) :
    mainRun X W other script args = (some 0, out) ↔ Succeeds X W script args out := by
  rw [main_iff (st := 0) (e := .normal) rfl]
  constructor
  · rintro ⟨h1, h2⟩
    rcases args_cases args with ⟨h, hc⟩ | h | ⟨s, p, h, hh⟩ | ⟨s, p, h, hh⟩ | ⟨f, cmd, h⟩
    · rw [C83_refused X W other script false args h hc] at h1
      cases h1
    · rw [C83_help X W other script false args h] at h2
      subst h2
      exact .help h
    · rw [C83_version X W other script false args h hh] at h1 h2
      subst h2
      refine .version h hh ?_
      cases hw : W.stderrOk with
      | true => rfl
      | false => rw [hw] at h1; cases h1
    · rw [C83_completion X W other script false args h hh] at h1 h2
      obtain ⟨c1, c2⟩ := C74_output other W script p
      by_cases hs : ∃ sh, (p = [] ∧ sh = .bash) ∨ ∃ a, p = [a] ∧ Spells (shellName sh) a
      · obtain ⟨sh, hs⟩ := hs
        have := (c1 sh hs).1
        rw [h2, hU.write, List.take_length] at this
        subst this
        exact .completion h hh hs
      · rw [c2 fun s h => hs ⟨s, h⟩] at h1
        cases h1
    · rw [runs_execute h] at h1 h2
      have hd := runs_debug hn h
      rcases C45_cases W cmd with hi | ⟨src, forced, hi⟩ | ⟨b, e, hi⟩ | ⟨e, hi⟩ | ⟨user, id, raw, rfl, hi⟩
      · cases hi with
        | usage => cases h
        | version => cases h
        | @flag c file =>
          unfold execute runE at h1 h2
          cases hw : W.stderrOk with
          | true =>
            simp only [hw, if_true] at h2
            subst h2
            exact .versionFlag h hw
          | false =>
            simp [hw, printed, debugAfter, debugPrint, exitOf] at h1
      · rcases dump_ends hU hd hi with ⟨o, ho⟩ | ho
        · rw [ho] at h2
          cases h2
          exact dump_succeeds hU h hd hi ho
        · rw [ho] at h1
          cases h1
      · obtain ⟨r1, r2, -⟩ := C45_raw X W false f hd cmd b e hi
        rw [hU.write] at r1
        rw [h2, List.take_length] at r1
        obtain ⟨he, -⟩ := r2.1 h1
        subst he r1
        exact .copy h hi
      · rw [C45_no_input X W false f hd cmd e hi] at h1
        cases h1
      · rcases hi with hi | hi
        · rw [(C45_github_panic X W false f user id raw hi).1] at h1
          cases h1
        · unfold execute runE at h1
          simp only [hi] at h1
          cases h1
  · intro h
    cases h with
    | help h =>
      rw [C83_help X W other script false args h]
      exact ⟨rfl, rfl⟩
    | version h hh he =>
      rw [C83_version X W other script false args h hh, he]
      exact ⟨rfl, rfl⟩
    | versionFlag h he =>
      rw [runs_execute h]
      unfold execute runE
      simp only [he, if_true]
      exact ⟨trivial, trivial⟩
    | @completion s p sh h hh hs =>
      rw [C83_completion X W other script false args h hh]
      obtain ⟨h1, h2⟩ := (C74_output other W script p).1 sh hs
      rw [hU.write] at h1 h2
      exact ⟨h2.2 ⟨rfl, Nat.le_refl _⟩, by rw [h1, List.take_length]⟩
    | copy h hc =>
      rw [runs_execute h]
      exact raw_out (runs_debug hn h) hU.write hc
    | @dump f cmd forced src src' ps rows m out h hc hs ht hp hd hr =>
      rw [runs_execute h, (C60_output X hU.own W false f (runs_debug hn h) cmd forced src src' hc hs ht hU.write out).2 ⟨ps, rows, m, hp, hd, hr⟩]
      exact ⟨rfl, rfl⟩

/-- **C88**: in all other cases it ends with status 1 and without output, except that a copy that breaks off has been written so far,
and that the pages of GitHub may never end. -/
theorem C88_failure (hU : Usual X W) (hn : NoDebug args) (h : ∀ out, ¬ Succeeds X W script args out) :
    mainRun X W other script args = (some 1, []) ∨
    (∃ f cmd b e, Runs args f cmd ∧ Copies W cmd b (some e) ∧ mainRun X W other script args = (some 1, b)) ∨
    ∃ f user id raw, Runs args f (.github [user] id raw) ∧ W.github user id = .running ∧ mainRun X W other script args = (none, []) := by
  rcases args_cases args with ⟨ha, hc⟩ | ha | ⟨s, p, ha, hh⟩ | ⟨s, p, ha, hh⟩ | ⟨f, cmd, ha⟩
  · refine .inl ((main_iff (e := .abnormal) rfl).2 ?_)
    rw [C83_refused X W other script false args ha hc]
    exact ⟨rfl, rfl⟩
  · exact absurd (.help ha) (h _)
  · refine .inl ((main_iff (e := .abnormal) rfl).2 ?_)
    rw [C83_version X W other script false args ha hh]
    cases hw : W.stderrOk with
    | true => exact absurd (.version ha hh hw) (h _)
    | false => exact ⟨rfl, rfl⟩
  · refine .inl ((main_iff (e := .abnormal) rfl).2 ?_)
    rw [C83_completion X W other script false args ha hh, (C74_output other W script p).2 fun sh hs => h _ (.completion ha hh hs)]
    exact ⟨rfl, rfl⟩
  · have hd := runs_debug hn ha
    rcases C45_cases W cmd with hi | ⟨src, forced, hi⟩ | ⟨b, e, hi⟩ | ⟨e, hi⟩ | ⟨user, id, raw, rfl, hi⟩
    · cases hi with
      | usage => cases ha
      | version => cases ha
      | flag =>
        cases hw : W.stderrOk with
        | true => exact absurd (.versionFlag ha hw) (h _)
        | false =>
          refine .inl ((main_iff (e := .abnormal) rfl).2 ?_)
          rw [runs_execute ha]
          unfold execute runE
          simp [hw, printed, debugAfter, debugPrint, exitOf]
    · refine .inl ((main_iff (e := .abnormal) rfl).2 ?_)
      rw [runs_execute ha]
      rcases dump_ends hU hd hi with ⟨o, ho⟩ | ho
      · exact absurd (dump_succeeds hU ha hd hi ho) (h _)
      · rw [ho]
        exact ⟨rfl, rfl⟩
    · cases e with
      | none => exact absurd (.copy ha hi) (h _)
      | some e =>
        refine .inr (.inl ⟨f, cmd, b, e, ha, hi, (main_iff (e := .abnormal) rfl).2 ?_⟩)
        rw [runs_execute ha]
        obtain ⟨r1, r2, r3⟩ := C45_raw X W false f hd cmd b (some e) hi
        refine ⟨?_, by rw [r1, hU.write, List.take_length]⟩
        cases hx : (execute X W false f cmd).exit with
        | none => exact absurd hx r3
        | some x =>
          cases x with
          | abnormal => rfl
          | normal => exact absurd (r2.1 hx).1 (by simp)
    · refine .inl ((main_iff (e := .abnormal) rfl).2 ?_)
      rw [runs_execute ha, C45_no_input X W false f hd cmd e hi]
      exact ⟨rfl, rfl⟩
    · rcases hi with hi | hi
      · refine .inl ((main_iff (e := .abnormal) rfl).2 ?_)
        rw [runs_execute ha]
        exact C45_github_panic X W false f user id raw hi
      · refine .inr (.inr ⟨f, user, id, raw, ha, hi, ?_⟩)
        unfold mainRun
        rw [runs_execute ha]
        unfold execute runE
        simp only [hi]
        rfl

/-- **C88**: the process ends, but for GitHub, and its output is determined by arguments and inputs. -/
theorem C88_ends (hU : Usual X W) (hn : NoDebug args) (hg : ∀ user id, W.github user id ≠ .running) :
    ((mainRun X W other script args).1 = some 0 ∨ (mainRun X W other script args).1 = some 1) ∧
    ∀ out out', Succeeds X W script args out → Succeeds X W script args out' → out = out' := by
  constructor
  · by_cases h : ∃ out, Succeeds X W script args out
    · obtain ⟨out, h⟩ := h
      rw [(C88_success X W other script args hU hn out).2 h]
      exact .inl rfl
    · rcases C88_failure X W other script args hU hn fun out ho => h ⟨out, ho⟩ with e | ⟨_, _, _, _, -, -, e⟩ | ⟨_, u, i, _, -, e, -⟩
      · rw [e]; exact .inr rfl
      · rw [e]; exact .inr rfl
      · exact absurd e (hg u i)
  · intro o o' h h'
    have e := (C88_success X W other script args hU hn o).2 h
    rw [(C88_success X W other script args hU hn o').2 h'] at e
    cases e
    rfl

/-- **C88**: with `--debug` the status is 0 whatever fails, but for panics. -/
theorem C88_debug (hU : Usual X W) {f cmd} (h : Runs args f cmd) (hd : f.debug = true) (hv : ∀ cb file, cmd ≠ .root true cb file) :
    (mainRun X W other script args).1 = some 0 ∨
    (mainRun X W other script args = (some 1, []) ∧
      ((∃ src forced s, Dumps W cmd src forced ∧ (parse X (some (cliCtx f forced)) (some src)).res = .panic s) ∨
       ∃ user id raw, cmd = .github [user] id raw ∧ W.github user id = .panic)) ∨
    ∃ user id raw, cmd = .github [user] id raw ∧ W.github user id = .running ∧ mainRun X W other script args = (none, []) := by
  have fails : ∀ e, runE X W f cmd = .fail e → (∀ stale, debugAfter stale f cmd = f.debug) → printed cmd = true →
      (mainRun X W other script args).1 = some 0 := by
    intro e h1 h2 h3
    unfold mainRun
    rw [runs_execute h, execute_fail h1 h2 h3, if_pos hd]
    rfl
  have texts : ∀ t a, runE X W f cmd = .text t a → (∀ stale, debugAfter stale f cmd = f.debug) → (mainRun X W other script args).1 = some 0 := by
    intro t a h1 h2
    unfold mainRun
    rw [runs_execute h]
    unfold execute
    simp only [h1, h2, hd]
    cases (writeFrom W t a).2 <;> rfl
  rcases C45_cases W cmd with hi | ⟨src, forced, hi⟩ | ⟨b, e, hi⟩ | ⟨e, hi⟩ | ⟨user, id, raw, rfl, hi⟩
  · cases hi with
    | usage => cases h
    | version => cases h
    | flag => exact absurd rfl (hv _ _)
  · obtain ⟨h1, h2, h3⟩ := runE_dumps (X := X) (f := f) hi
    obtain ⟨s, rfl, hr⟩ := dumps_good hU hi
    rw [dump_eq] at h1
    cases hp : (parse X (some (cliCtx f forced)) (some s.src)).res with
    | err e =>
      rw [hp] at h1
      exact .inl (fails _ h1 h2 h3)
    | panic e =>
      refine .inr (.inl ⟨(main_iff (e := .abnormal) rfl).2 ?_, .inl ⟨_, _, _, hi, hp⟩⟩)
      rw [runs_execute h, C45_panic X W false f cmd _ forced hi e hp]
      exact ⟨rfl, rfl⟩
    | stuck => exact absurd hp (C02_new X hU.real _ s hr).1
    | ok u =>
      rw [hp] at h1
      simp only at h1
      cases hm : marshalPacketInfo f (parse X (some (cliCtx f forced)) (some s.src)).packets with
      | none =>
        rw [hm] at h1
        exact .inl (fails _ h1 h2 h3)
      | some t =>
        rw [hm] at h1
        exact .inl (texts _ _ h1 h2)
  · obtain ⟨h1, h2, -⟩ := runE_copies (X := X) (f := f) hi
    exact .inl (texts _ _ h1 h2)
  · obtain ⟨h1, h2, h3⟩ := runE_noInput (X := X) (f := f) hi
    exact .inl (fails _ h1 h2 h3)
  · rcases hi with hi | hi
    · refine .inr (.inl ⟨(main_iff (e := .abnormal) rfl).2 ?_, .inr ⟨_, _, _, rfl, hi⟩⟩)
      rw [runs_execute h]
      exact C45_github_panic X W false f user id raw hi
    · refine .inr (.inr ⟨_, _, _, rfl, hi, ?_⟩)
      unfold mainRun
      rw [runs_execute h]
      unfold execute runE
      simp only [hi]
      rfl

/-- **C88**: with `--debug` standard output is the display, as without it if there is one; else it is the description of the error, and
nothing after a panic. -/
theorem C88_debug_output (hU : Usual X W) {f cmd} (h : Runs args f cmd) (hd : f.debug = true) {src : Source} {forced} (hr : src.tail.real)
    (hc : Dumps W cmd src.src forced) :
    (∃ out, Shown X f forced src out ∧ mainRun X W other script args = (some 0, out)) ∨
    ((∀ out, ¬ Shown X f forced src out) ∧
      ((∃ e, (parse X (some (cliCtx f forced)) (some src.src)).res = .err e ∧ mainRun X W other script args = (some 0, W.fmt (.parse e))) ∨
       ((parse X (some (cliCtx f forced)) (some src.src)).res = .ok () ∧ mainRun X W other script args = (some 0, W.fmt .json)) ∨
       ∃ s, (parse X (some (cliCtx f forced)) (some src.src)).res = .panic s ∧ mainRun X W other script args = (some 1, []))) := by
  obtain ⟨h1, h2, h3⟩ := runE_dumps (X := X) (f := f) hc
  rw [dump_eq] at h1
  have key := fun out => shown_iff hU (f := f) (forced := forced) (src := src) out
  have fails : ∀ e, runE X W f cmd = .fail e → mainRun X W other script args = (some 0, W.fmt e) := by
    intro e h1
    unfold mainRun
    rw [runs_execute h, execute_fail h1 h2 h3, if_pos hd, hU.write, List.take_length]
    rfl
  cases hp : (parse X (some (cliCtx f forced)) (some src.src)).res with
  | err e =>
    rw [hp] at h1
    exact .inr ⟨fun out ho => (by have := ((key out).1 ho).1; rw [hp] at this; cases this), .inl ⟨e, rfl, fails _ h1⟩⟩
  | panic e =>
    refine .inr ⟨fun out ho => (by have := ((key out).1 ho).1; rw [hp] at this; cases this), .inr (.inr ⟨e, rfl, (main_iff (e := .abnormal) rfl).2 ?_⟩)⟩
    rw [runs_execute h, C45_panic X W false f cmd _ forced hc e hp]
    exact ⟨rfl, rfl⟩
  | stuck => exact absurd hp (C02_new X hU.real _ src hr).1
  | ok u =>
    rw [hp] at h1
    simp only at h1
    cases hm : marshalPacketInfo f (parse X (some (cliCtx f forced)) (some src.src)).packets with
    | none =>
      rw [hm] at h1
      exact .inr ⟨fun out ho => (by have := ((key out).1 ho).2; rw [hm] at this; cases this), .inr (.inl ⟨rfl, fails _ h1⟩)⟩
    | some t =>
      refine .inl ⟨t, (key t).2 ⟨hp, hm⟩, (main_iff (e := .normal) rfl).2 ?_⟩
      rw [runs_execute h, C45_success_partial X W false f cmd _ forced hc hp t (marshal_iff.1 hm) (hU.write t)]
      exact ⟨rfl, rfl⟩

end

/-- the condition on the armor decoder holds for the one of x/crypto -/
theorem C88_armor (X : Ext) (hX : X.armor = armorStream) (t : Bytes) (b : Stream) (h : X.armor t = .ok b) :
    b.eager = false ∧ (b.tail = rawErr .eof ∨ b.tail.isEOF = false) := by
  rw [hX] at h
  obtain ⟨h1, h2⟩ := (armorStream_known t).1 b h
  refine ⟨h2, ?_⟩
  rcases h1 with h | h | h | h
  · exact .inl h
  all_goals
    right
    rw [h]
    rfl

theorem usual_tests (b : Bytes) : Usual Tests.X (Tests.world b) where
  own := fun zd => ⟨nofun, nofun, nofun, fun z h => by cases h; nofun⟩
  real := ⟨fun d => nofun, fun d => nofun, fun d z h => by cases h; nofun, nofun, fun d z h => by cases h; nofun, nofun⟩
  armor := fun t b h => by cases h; exact ⟨rfl, .inl rfl⟩
  stdin := good_bytes b
  file := fun n s h => (by cases h)
  hkp := fun v u s h => (by cases h)
  fetch := fun u s h => (by cases h)
  write := fun t => rfl

theorem short_u : Accepted [text "-u"] .root [(switch "utc" 'u', text "true")] [] :=
  ⟨_, (find_iff _ _ [text "-u"]).1 (by decide +kernel), by decide, (given_flags _ _ _ _).1 (by decide +kernel)⟩

theorem short_u_debug : NoDebug [text "-u"] := by
  intro c s p h
  obtain ⟨-, rfl, -⟩ := C83_unique h short_u
  exact Or.inr ⟨by unfold Unset; decide +kernel, rfl⟩

/-- `gpgpdump -u` with a marker packet, and with octets that are no packet -/
theorem C88_example (script : Shell → Bytes) :
    Succeeds Tests.X (Tests.world [0xca, 3, 0x50, 0x47, 0x50]) script [text "-u"]
      (utf8 (S "Marker Packet (Obsolete Literal Packet) (tag 10) (3 bytes)\n\tLiteral data (3 bytes)\n")) ∧
    ∀ out, ¬ Succeeds Tests.X (Tests.world [0x00, 1]) script [text "-u"] out := by
  have e : ∀ W, mainRun Tests.X W id script [text "-u"] =
      (((execute Tests.X W false { Tests.flags with utc := true } (.root false false [])).exit.map exitStatus,
        (execute Tests.X W false { Tests.flags with utc := true } (.root false false [])).stdout) : Option Nat × Bytes) := by
    intro W
    have h := C84_letters Tests.X W id script false ['u'] (by decide) (by decide)
    unfold mainRun
    rw [show [text "-u"] = [text "-" ++ ['u'].map fun c => UInt8.ofNat c.toNat] from by decide +kernel, h]
    rfl
  constructor
  · refine (C88_success Tests.X _ id script _ (usual_tests _) short_u_debug _).1 ?_
    rw [e]
    decide +kernel
  · intro out h
    have h := (C88_success Tests.X _ id script _ (usual_tests _) short_u_debug _).2 h
    rw [e] at h
    have h' : (execute Tests.X (Tests.world [0x00, 1]) false { Tests.flags with utc := true } (.root false false [])).exit.map exitStatus = some 0 :=
      congrArg Prod.fst h
    exact absurd h' (by decide +kernel)

/-- `gpgpdump --debug` -/
theorem long_debug : Runs [text "--debug"] ⟨false, 0, false, false, true, false, false, false, false, false⟩ (.root false false []) :=
  .root (s := [(long "debug" .bool, text "true")]) (p := []) (file := [])
    ⟨_, (find_iff _ _ [text "--debug"]).1 (by decide +kernel), by decide, (given_flags _ _ _ _).1 (by decide +kernel)⟩
    (Or.inr ⟨by unfold Unset; decide +kernel, rfl⟩)
    (by
      refine ⟨?_, ?_, ?_, ?_, ?_, ?_, ?_, ?_, ?_, ?_⟩
      case refine_5 => exact Or.inl ⟨text "true", ⟨[], long "debug" .bool, [], rfl, rfl, by simp⟩, (scBool_iff _ _).1 (by decide +kernel)⟩
      all_goals exact Or.inr ⟨by unfold Unset; decide +kernel, rfl⟩)
    (Or.inr ⟨by unfold Unset; decide +kernel, rfl⟩) (Or.inr ⟨by unfold Unset; decide +kernel, rfl⟩) (Or.inr ⟨by unfold Unset; decide +kernel, rfl⟩)

example (other : Nat → Nat) (script : Shell → Bytes) (b : Bytes) :=
  C88_debug_output Tests.X (Tests.world b) other script [text "--debug"] (usual_tests b) long_debug rfl (src := ⟨b, rawErr .eof, []⟩) (fun h => by cases h) .stdin

end Gpgpdump
