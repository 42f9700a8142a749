import Verif.Facade
import Verif.ThmContext
import Verif.Tests

/-!
# C45: exit status and standard output
-/

namespace Gpgpdump
open Spec Spec.Json

namespace Spec.CLI

/-- the context the flags stand for; `forced`: the command accepts only armored text -/
def cliCtx (f : Flags) (forced : Bool) : Ctx :=
  ⟨fun code =>
    if code = 1 then f.armor || forced else if code = 2 then f.cert else if code = 3 then f.debug else if code = 5 then f.integer
    else if code = 6 then f.literal else if code = 7 then f.marker else if code = 8 then f.priv else if code = 9 then f.utc else false,
    .notSpecified, none, none⟩

/-- the command dumps the packets of the source; and whether only armored text is accepted -/
inductive Dumps (W : World) : Command → Src → Bool → Prop
  | stdin : Dumps W (.root false false []) W.stdin false
  | file {name s} (hn : name ≠ []) (h : W.file name = .ok s) : Dumps W (.root false false name) s false
  | clipboard {b} (h : W.clipboard = .ok b) : Dumps W (.root false true []) (Src.ofBytes b) true
  | hkp {uid server port secure s} (hn : server ≠ []) (h : W.hkp ⟨if secure then 2 else 1, server, port⟩ uid = .ok s) :
      Dumps W (.hkp [uid] server port secure false) s true
  | github {user id b} (h : W.github user id = .ok b) : Dumps W (.github [user] id false) (Src.ofBytes b) true
  | fetch {url s} (h : W.fetch url = .ok s) : Dumps W (.fetch [url] false) s false

/-- the command copies the source -/
inductive Copies (W : World) : Command → Bytes → Option GoErr → Prop
  | hkp {uid server port secure s} (hn : server ≠ []) (h : W.hkp ⟨if secure then 2 else 1, server, port⟩ uid = .ok s) :
      Copies W (.hkp [uid] server port secure true) s.data (if s.tail.eqEOF then none else some s.tail)
  | github {user id b} (h : W.github user id = .ok b) : Copies W (.github [user] id true) b none
  | fetch {url s} (h : W.fetch url = .ok s) : Copies W (.fetch [url] true) s.data (if s.tail.eqEOF then none else some s.tail)

/-- there is nothing to read, and why -/
inductive NoInput (W : World) : Command → FErr → Prop
  | both {name} (hn : name ≠ []) : NoInput W (.root false true name) .clipboard
  | clipboard {c} (h : W.clipboard = .error c) : NoInput W (.root false true []) (.input c)
  | file {name c} (hn : name ≠ []) (h : W.file name = .error c) : NoInput W (.root false false name) (.input c)
  | hkpArgs {args server port secure raw} (h : args.length ≠ 1) : NoInput W (.hkp args server port secure raw) .args
  | hkpServer {uid port secure raw} : NoInput W (.hkp [uid] [] port secure raw) .keyServer
  | hkp {uid server port secure raw c} (hn : server ≠ []) (h : W.hkp ⟨if secure then 2 else 1, server, port⟩ uid = .error c) :
      NoInput W (.hkp [uid] server port secure raw) (.input c)
  | githubArgs {args id raw} (h : args.length ≠ 1) : NoInput W (.github args id raw) .args
  | github {user id raw e} (h : W.github user id = .err e) : NoInput W (.github [user] id raw) (.github e)
  | fetchArgs {args raw} (h : args.length ≠ 1) : NoInput W (.fetch args raw) .args
  | fetch {url raw c} (h : W.fetch url = .error c) : NoInput W (.fetch [url] raw) (.input c)

/-- the commands without input -/
inductive Info : Command → Prop
  | usage {b} : Info (.usage b)
  | version : Info .version
  | flag {c file} : Info (.root true c file)

/-- the text that stands for the packets -/
inductive Rendered (f : Flags) (packets : List Item) : Bytes → Prop
  | json {s} (hj : f.json = true) (h : infoJSON f.indent (goItems packets) = some s) : Rendered f packets (utf8 s)
  | spaces (hj : f.json = false) (hi : 0 < f.indent) : Rendered f packets (utf8 (infoToString (List.replicate f.indent.toNat ' ') packets))
  | tab (hj : f.json = false) (hi : f.indent ≤ 0) : Rendered f packets (utf8 (infoToString ['\t'] packets))

end Spec.CLI

open Spec.CLI

/-- C45: the context is the one the flags stand for. -/
theorem C45_context (f : Flags) : parseContext f = cliCtx f false ∧ (parseContext f).set ARMOR true = cliCtx f true := by
  have hm : ∀ (c d : Ctx), c.opts = d.opts → c.mode = d.mode → c.sigTime = d.sigTime → c.keyTime = d.keyTime → c = d := by
    rintro ⟨⟩ ⟨⟩ h1 h2 h3 h4
    simp only at h1 h2 h3 h4
    subst h1 h2 h3 h4
    rfl
  have hopts : (parseContext f).opts = (cliCtx f false).opts := by
    funext code
    simp only [parseContext, Ctx.new, List.foldl_cons, List.foldl_nil, Ctx.set, ARMOR, CERT, DEBUG, INTEGER, LITERAL, MARKER, PRIVATE, UTC,
      Ctx.empty, cliCtx]
    simp
    by_cases h1 : code = 1
    · subst h1; simp
    by_cases h2 : code = 2
    · subst h2; simp
    by_cases h3 : code = 3
    · subst h3; simp
    by_cases h5 : code = 5
    · subst h5; simp
    by_cases h6 : code = 6
    · subst h6; simp
    by_cases h7 : code = 7
    · subst h7; simp
    by_cases h8 : code = 8
    · subst h8; simp
    by_cases h9 : code = 9
    · subst h9; simp
    simp [h1, h2, h3, h5, h6, h7, h8, h9]
  have h0 : parseContext f = cliCtx f false := by
    obtain ⟨h1, h2, h3⟩ := C31_fresh_state [(ARMOR, f.armor), (CERT, f.cert), (DEBUG, f.debug), (INTEGER, f.integer), (LITERAL, f.literal),
      (MARKER, f.marker), (PRIVATE, f.priv), (UTC, f.utc)]
    exact hm _ _ hopts h1 h2 h3
  refine ⟨h0, ?_⟩
  rw [h0]
  refine hm _ _ ?_ rfl rfl rfl
  funext code
  show (if code = 1 then true else (cliCtx f false).opts code) = (cliCtx f true).opts code
  unfold cliCtx
  simp only
  by_cases h1 : code = 1
  · rw [if_pos h1, if_pos h1]; simp
  · rw [if_neg h1, if_neg h1, if_neg h1]

theorem dump_eq (X : Ext) (ctx : Ctx) (f : Flags) (src : Src) : dump X ctx f src =
    match (parse X (some ctx) (some src)).res with
    | .err e => .fail (.parse e)
    | .panic _ => .panic
    | .stuck => .hang
    | .ok _ =>
      match marshalPacketInfo f (parse X (some ctx) (some src)).packets with
      | none => .fail .json
      | some t => .text t none := by
  unfold dump parse
  cases parserNew X (some ctx) (some src) with
  | error e => rfl
  | ok s => rfl

theorem marshal_iff {f : Flags} {ps : List Item} {t : Bytes} : marshalPacketInfo f ps = some t ↔ Rendered f ps t := by
  unfold marshalPacketInfo
  constructor
  · intro h
    split at h
    · rename_i hj
      cases hs : infoJSON f.indent (goItems ps) with
      | none => rw [hs] at h; simp at h
      | some s => rw [hs] at h; simp at h; subst h; exact .json hj hs
    · rename_i hj
      have hj : f.json = false := by simpa using hj
      split at h <;> rename_i hi
      · cases h; exact .spaces hj hi
      · cases h; exact .tab hj (by omega)
  · intro h
    cases h with
    | json hj h => rw [if_pos hj, h]; rfl
    | spaces hj hi => rw [if_neg (by simp [hj]), if_pos hi]
    | tab hj hi => rw [if_neg (by simp [hj]), if_neg (by omega)]

theorem runE_dumps {X : Ext} {W : World} {f : Flags} {cmd : Command} {src : Src} {forced : Bool} (h : Dumps W cmd src forced) :
    runE X W f cmd = dump X (cliCtx f forced) f src ∧ (∀ stale, debugAfter stale f cmd = f.debug) ∧ printed cmd = true := by
  obtain ⟨hc, hc'⟩ := C45_context f
  have hd : (parseContext f).debug = f.debug := by rw [hc]; rfl
  have hne : ∀ {α} {l : List α}, l ≠ [] → l.length ≠ 0 := fun h h' => h (List.length_eq_zero_iff.1 h')
  cases h with
  | stdin => exact ⟨by rw [← hc]; rfl, fun _ => hd, rfl⟩
  | @file name _ hn h =>
    refine ⟨?_, fun _ => hd, rfl⟩
    have := hne hn
    unfold runE
    simp only
    rw [if_neg (by simp), if_neg (by simp), if_neg (by simp), if_pos (by omega), ← hc]
    simp only [h]
  | clipboard h =>
    refine ⟨?_, fun _ => hd, rfl⟩
    unfold runE
    simp only
    rw [if_neg (by simp), if_neg (by simp), if_pos trivial, ← hc']
    simp only [h]
  | @hkp uid server port secure _ hn h =>
    refine ⟨?_, fun _ => hd, rfl⟩
    have := hne hn
    unfold runE
    simp only
    rw [if_neg this, ← hc']
    have e : serverNew server [.protocol (if secure then 2 else 1), .port port] = ⟨if secure then 2 else 1, server, port⟩ := rfl
    rw [e]
    simp only [h]
    rfl
  | github h =>
    refine ⟨?_, fun _ => hd, rfl⟩
    unfold runE
    simp only [h, ← hc']
    rfl
  | fetch h =>
    refine ⟨?_, fun _ => hd, rfl⟩
    unfold runE
    simp only [h, ← hc]
    rfl

theorem runE_copies {X : Ext} {W : World} {f : Flags} {cmd : Command} {b : Bytes} {e : Option GoErr} (h : Copies W cmd b e) :
    runE X W f cmd = .text b e ∧ (∀ stale, debugAfter stale f cmd = f.debug) ∧ printed cmd = true := by
  have hd : (parseContext f).debug = f.debug := by rw [(C45_context f).1]; rfl
  cases h with
  | @hkp uid server port secure _ hn h =>
    refine ⟨?_, fun _ => hd, rfl⟩
    unfold runE
    simp only
    rw [if_neg (fun h' => hn (List.length_eq_zero_iff.1 h'))]
    have e : serverNew server [.protocol (if secure then 2 else 1), .port port] = ⟨if secure then 2 else 1, server, port⟩ := rfl
    rw [e]
    simp only [h]
    rfl
  | github h =>
    refine ⟨?_, fun _ => hd, rfl⟩
    unfold runE
    simp only [h]
    rfl
  | fetch h =>
    refine ⟨?_, fun _ => hd, rfl⟩
    unfold runE
    simp only [h]
    rfl

theorem runE_noInput {X : Ext} {W : World} {f : Flags} {cmd : Command} {e : FErr} (h : NoInput W cmd e) :
    runE X W f cmd = .fail e ∧ (∀ stale, debugAfter stale f cmd = f.debug) ∧ printed cmd = true := by
  have hd : (parseContext f).debug = f.debug := by rw [(C45_context f).1]; rfl
  have hpos : ∀ {α} {l : List α}, l ≠ [] → l.length > 0 := fun h => List.length_pos_iff.2 h
  cases h with
  | both hn =>
    refine ⟨?_, fun _ => hd, rfl⟩
    unfold runE
    simp only
    rw [if_neg (by simp), if_pos (by simpa using hpos hn)]
  | clipboard h =>
    refine ⟨?_, fun _ => hd, rfl⟩
    unfold runE
    simp only
    rw [if_neg (by simp), if_neg (by simp), if_pos trivial]
    simp only [h]
  | file hn h =>
    refine ⟨?_, fun _ => hd, rfl⟩
    unfold runE
    simp only
    rw [if_neg (by simp), if_neg (by simp), if_neg (by simp), if_pos (hpos hn)]
    simp only [h]
  | @hkpArgs args _ _ _ _ h =>
    refine ⟨?_, fun _ => hd, rfl⟩
    unfold runE
    match args, h with
    | [], _ => rfl
    | [_], h => exact absurd rfl h
    | _ :: _ :: _, _ => rfl
  | hkpServer => exact ⟨rfl, fun _ => hd, rfl⟩
  | @hkp uid server port secure _ _ hn h =>
    refine ⟨?_, fun _ => hd, rfl⟩
    unfold runE
    simp only
    rw [if_neg (fun h' => hn (List.length_eq_zero_iff.1 h'))]
    have e : serverNew server [.protocol (if secure then 2 else 1), .port port] = ⟨if secure then 2 else 1, server, port⟩ := rfl
    rw [e]
    simp only [h]
  | @githubArgs args _ _ h =>
    refine ⟨?_, fun _ => hd, rfl⟩
    unfold runE
    match args, h with
    | [], _ => rfl
    | [_], h => exact absurd rfl h
    | _ :: _ :: _, _ => rfl
  | github h =>
    refine ⟨?_, fun _ => hd, rfl⟩
    unfold runE
    simp only [h]
  | @fetchArgs args _ h =>
    refine ⟨?_, fun _ => hd, rfl⟩
    unfold runE
    match args, h with
    | [], _ => rfl
    | [_], h => exact absurd rfl h
    | _ :: _ :: _, _ => rfl
  | fetch h =>
    refine ⟨?_, fun _ => hd, rfl⟩
    unfold runE
    simp only [h]

theorem execute_fail {X : Ext} {W : World} {f : Flags} {cmd : Command} {e : FErr} (h : runE X W f cmd = .fail e)
    (hd : ∀ stale, debugAfter stale f cmd = f.debug) (hp : printed cmd = true) (stale : Bool) :
    execute X W stale f cmd =
      if f.debug then ⟨some .normal, (W.fmt e).take (W.write (W.fmt e)).1, true⟩ else ⟨some .abnormal, [], false⟩ := by
  unfold execute
  simp only [h, hd, hp, if_true, debugPrint]
  cases f.debug <;> rfl

theorem execute_text {X : Ext} {W : World} {f : Flags} {cmd : Command} {t : Bytes} {a : Option GoErr} (h : runE X W f cmd = .text t a)
    (hd : ∀ stale, debugAfter stale f cmd = f.debug) (hf : f.debug = false) (stale : Bool) :
    execute X W stale f cmd = ⟨some (exitOf (writeFrom W t a).2), (writeFrom W t a).1, false⟩ := by
  unfold execute
  simp only [h, hd, hf]
  cases hw : (writeFrom W t a).2 <;> simp [debugPrint]

/-! ## The claims -/

/-- **C45**: parsing fails: nothing on standard output, abnormal exit code. -/
theorem C45_failure (X : Ext) (W : World) (stale : Bool) (f : Flags) (hf : f.debug = false) (cmd : Command) (src : Src) (forced : Bool)
    (h : Dumps W cmd src forced) (e : GoErr) (he : (parse X (some (cliCtx f forced)) (some src)).res = .err e) :
    execute X W stale f cmd = ⟨some .abnormal, [], false⟩ := by
  obtain ⟨h1, h2, h3⟩ := runE_dumps (X := X) (f := f) h
  rw [dump_eq, he] at h1
  rw [execute_fail h1 h2 h3, if_neg (by simp [hf])]

/-- **C45**: there is no input: nothing on standard output, abnormal exit code. -/
theorem C45_no_input (X : Ext) (W : World) (stale : Bool) (f : Flags) (hf : f.debug = false) (cmd : Command) (e : FErr)
    (h : NoInput W cmd e) : execute X W stale f cmd = ⟨some .abnormal, [], false⟩ := by
  obtain ⟨h1, h2, h3⟩ := runE_noInput (X := X) (f := f) h
  rw [execute_fail h1 h2 h3, if_neg (by simp [hf])]

/-- **C45**: a panic while parsing gives an abnormal exit code (and nothing on standard output), with and without `--debug`. -/
theorem C45_panic (X : Ext) (W : World) (stale : Bool) (f : Flags) (cmd : Command) (src : Src) (forced : Bool)
    (h : Dumps W cmd src forced) (s : Site) (hs : (parse X (some (cliCtx f forced)) (some src)).res = .panic s) :
    execute X W stale f cmd = ⟨some .abnormal, [], f.debug⟩ := by
  obtain ⟨h1, h2, h3⟩ := runE_dumps (X := X) (f := f) h
  rw [dump_eq, hs] at h1
  unfold execute
  simp only [h1, h2]

/-- C45: the same for the panic of `GetKey`. -/
theorem C45_github_panic (X : Ext) (W : World) (stale : Bool) (f : Flags) (user id : Str) (raw : Bool) (h : W.github user id = .panic) :
    (execute X W stale f (.github [user] id raw)).exit = some .abnormal ∧ (execute X W stale f (.github [user] id raw)).stdout = [] := by
  unfold execute runE
  simp only [h]
  exact ⟨trivial, trivial⟩

/-- **C45**, success. The claim has no conditions on the renderer and on standard output; they are needed: see
`C45_json_fails` and `C45_write_fails`. -/
theorem C45_success_partial (X : Ext) (W : World) (stale : Bool) (f : Flags) (cmd : Command) (src : Src)
    (forced : Bool) (h : Dumps W cmd src forced) (hok : (parse X (some (cliCtx f forced)) (some src)).res = .ok ())
    (t : Bytes) (ht : Rendered f (parse X (some (cliCtx f forced)) (some src)).packets t) (hw : W.write t = (t.length, none)) :
    execute X W stale f cmd = ⟨some .normal, t, f.debug⟩ := by
  obtain ⟨h1, h2, h3⟩ := runE_dumps (X := X) (f := f) h
  rw [dump_eq, hok] at h1
  simp only [marshal_iff.2 ht] at h1
  unfold execute
  simp only [h1, h2, writeFrom, hw, List.take_length]
  rw [if_neg (by omega)]
  simp [debugPrint, exitOf]

/-- C45: without `--json` the renderer does not fail; with it, it does not fail for trees of fewer than 5000 levels. -/
theorem C45_rendered (f : Flags) (ps : List Item) (h : f.json = false ∨ f.indent ≤ 0 ∨ levelsAll ps < 5000) : ∃ t, Rendered f ps t := by
  cases hj : f.json with
  | false =>
    by_cases hi : 0 < f.indent
    · exact ⟨_, .spaces hj hi⟩
    · exact ⟨_, .tab hj (by omega)⟩
  | true =>
    obtain ⟨s, hs, -⟩ := C30_json_partial ps f.indent (by
      rcases h with h | h
      · rw [h] at hj; cases hj
      · exact h)
    exact ⟨_, .json hj hs⟩

/-- C45: a command that dumps and exits normally has written the whole text of a successful parse. -/
theorem C45_normal_means_dumped (X : Ext) (W : World) (stale : Bool) (f : Flags) (hf : f.debug = false) (cmd : Command) (src : Src) (forced : Bool)
    (h : Dumps W cmd src forced) (hx : (execute X W stale f cmd).exit = some .normal) :
    (parse X (some (cliCtx f forced)) (some src)).res = .ok () ∧
      Rendered f (parse X (some (cliCtx f forced)) (some src)).packets (execute X W stale f cmd).stdout := by
  obtain ⟨h1, h2, h3⟩ := runE_dumps (X := X) (f := f) h
  rw [dump_eq] at h1
  cases hr : (parse X (some (cliCtx f forced)) (some src)).res with
  | err e => rw [C45_failure X W stale f hf cmd src forced h e hr] at hx; simp at hx
  | panic s => rw [C45_panic X W stale f cmd src forced h s hr] at hx; simp at hx
  | stuck =>
    rw [hr] at h1
    unfold execute at hx
    simp only [h1] at hx
    cases hx
  | ok u =>
    refine ⟨rfl, ?_⟩
    rw [hr] at h1
    simp only at h1
    cases hm : marshalPacketInfo f (parse X (some (cliCtx f forced)) (some src)).packets with
    | none =>
      rw [hm] at h1
      rw [execute_fail h1 h2 h3, if_neg (by simp [hf])] at hx
      simp at hx
    | some t =>
      rw [hm] at h1
      rw [execute_text h1 h2 hf] at hx ⊢
      simp only [Option.some.injEq] at hx ⊢
      rw [marshal_iff] at hm
      unfold writeFrom at hx ⊢
      simp only at hx ⊢
      cases hw : (W.write t).2 with
      | some c => rw [hw] at hx; simp [exitOf] at hx
      | none =>
        rw [hw] at hx
        simp only at hx
        split at hx
        · simp [exitOf] at hx
        · rw [List.take_of_length_le (by omega)]
          exact hm

/-- C45: standard output fails: the exit code is abnormal, and what was written is a beginning of the text. -/
theorem C45_write_fails (X : Ext) (W : World) (stale : Bool) (f : Flags) (hf : f.debug = false) (cmd : Command) (src : Src)
    (forced : Bool) (h : Dumps W cmd src forced) (hok : (parse X (some (cliCtx f forced)) (some src)).res = .ok ())
    (t : Bytes) (ht : Rendered f (parse X (some (cliCtx f forced)) (some src)).packets t)
    (hw : (W.write t).2 ≠ none ∨ (W.write t).1 < t.length) :
    execute X W stale f cmd = ⟨some .abnormal, t.take (W.write t).1, false⟩ := by
  obtain ⟨h1, h2, h3⟩ := runE_dumps (X := X) (f := f) h
  rw [dump_eq, hok] at h1
  simp only [marshal_iff.2 ht] at h1
  rw [execute_text h1 h2 hf]
  unfold writeFrom
  simp only
  cases hc : (W.write t).2 with
  | some c => rfl
  | none =>
    simp only
    rw [if_pos (by rcases hw with hw | hw; exact absurd hc hw; exact hw)]
    rfl

/-- C45, violated: parsing succeeds, but the tree is too deep for the JSON encoder with indentation: nothing is written and the exit
code is abnormal. -/
theorem C45_json_fails (X : Ext) (W : World) (stale : Bool) (f : Flags) (hf : f.debug = false) (cmd : Command) (src : Src)
    (forced : Bool) (h : Dumps W cmd src forced) (hok : (parse X (some (cliCtx f forced)) (some src)).res = .ok ())
    (hj : f.json = true) (hi : 0 < f.indent) (hd : 5000 ≤ levelsAll (parse X (some (cliCtx f forced)) (some src)).packets) :
    execute X W stale f cmd = ⟨some .abnormal, [], false⟩ := by
  obtain ⟨h1, h2, h3⟩ := runE_dumps (X := X) (f := f) h
  rw [dump_eq, hok] at h1
  have hm : marshalPacketInfo f (parse X (some (cliCtx f forced)) (some src)).packets = none := by
    unfold marshalPacketInfo
    rw [if_pos hj, C30_deep _ _ hi hd]
    rfl
  simp only [hm] at h1
  rw [execute_fail h1 h2 h3, if_neg (by simp [hf])]

/-- C45: `--raw` writes the octets that were fetched; the exit code is normal iff all of them were read and written. -/
theorem C45_raw (X : Ext) (W : World) (stale : Bool) (f : Flags) (hf : f.debug = false) (cmd : Command) (b : Bytes) (e : Option GoErr)
    (h : Copies W cmd b e) :
    (execute X W stale f cmd).stdout = b.take (W.write b).1 ∧
    ((execute X W stale f cmd).exit = some .normal ↔ e = none ∧ (W.write b).2 = none ∧ b.length ≤ (W.write b).1) ∧
    (execute X W stale f cmd).exit ≠ none := by
  obtain ⟨h1, h2, h3⟩ := runE_copies (X := X) (f := f) h
  rw [execute_text h1 h2 hf]
  refine ⟨rfl, ?_, by simp⟩
  simp only [Option.some.injEq]
  unfold writeFrom
  simp only
  cases hc : (W.write b).2 with
  | some c => simp [exitOf]
  | none =>
    simp only
    by_cases hl : (W.write b).1 < b.length
    · rw [if_pos hl]
      simp only [exitOf]
      constructor
      · intro h; cases h
      · intro h; omega
    · rw [if_neg hl]
      cases e with
      | none => simp [exitOf]; omega
      | some e => simp [exitOf]

/-- C45: these are all commands (`GetKey` can also panic or go on forever). -/
theorem C45_cases (W : World) (cmd : Command) :
    Info cmd ∨ (∃ src forced, Dumps W cmd src forced) ∨ (∃ b e, Copies W cmd b e) ∨ (∃ e, NoInput W cmd e) ∨
      ∃ user id raw, cmd = .github [user] id raw ∧ (W.github user id = .panic ∨ W.github user id = .running) := by
  cases cmd with
  | usage b => exact .inl .usage
  | version => exact .inl .version
  | root v c name =>
    cases v with
    | true => exact .inl .flag
    | false =>
      right
      cases c with
      | true =>
        by_cases hn : name = []
        · subst hn
          cases h : W.clipboard with
          | error c => exact .inr (.inr (.inl ⟨_, .clipboard h⟩))
          | ok b => exact .inl ⟨_, _, .clipboard h⟩
        · exact .inr (.inr (.inl ⟨_, .both hn⟩))
      | false =>
        by_cases hn : name = []
        · subst hn
          exact .inl ⟨_, _, .stdin⟩
        · cases h : W.file name with
          | error c => exact .inr (.inr (.inl ⟨_, .file hn h⟩))
          | ok b => exact .inl ⟨_, _, .file hn h⟩
  | hkp args server port secure raw =>
    right
    match args with
    | [] => exact .inr (.inr (.inl ⟨_, .hkpArgs (by simp)⟩))
    | _ :: _ :: _ => exact .inr (.inr (.inl ⟨_, .hkpArgs (by simp)⟩))
    | [uid] =>
      by_cases hn : server = []
      · subst hn
        exact .inr (.inr (.inl ⟨_, .hkpServer⟩))
      · cases h : W.hkp ⟨if secure then 2 else 1, server, port⟩ uid with
        | error c => exact .inr (.inr (.inl ⟨_, .hkp hn h⟩))
        | ok s =>
          cases raw with
          | true => exact .inr (.inl ⟨_, _, .hkp hn h⟩)
          | false => exact .inl ⟨_, _, .hkp hn h⟩
  | github args id raw =>
    right
    match args with
    | [] => exact .inr (.inr (.inl ⟨_, .githubArgs (by simp)⟩))
    | _ :: _ :: _ => exact .inr (.inr (.inl ⟨_, .githubArgs (by simp)⟩))
    | [user] =>
      cases h : W.github user id with
      | err e => exact .inr (.inr (.inl ⟨_, .github h⟩))
      | panic => exact .inr (.inr (.inr ⟨_, _, _, rfl, .inl h⟩))
      | running => exact .inr (.inr (.inr ⟨_, _, _, rfl, .inr h⟩))
      | ok b =>
        cases raw with
        | true => exact .inr (.inl ⟨_, _, .github h⟩)
        | false => exact .inl ⟨_, _, .github h⟩
  | fetch args raw =>
    right
    match args with
    | [] => exact .inr (.inr (.inl ⟨_, .fetchArgs (by simp)⟩))
    | _ :: _ :: _ => exact .inr (.inr (.inl ⟨_, .fetchArgs (by simp)⟩))
    | [url] =>
      cases h : W.fetch url with
      | error c => exact .inr (.inr (.inl ⟨_, .fetch h⟩))
      | ok s =>
        cases raw with
        | true => exact .inr (.inl ⟨_, _, .fetch h⟩)
        | false => exact .inl ⟨_, _, .fetch h⟩

/-- C45, why the claim excludes `--debug`: with it a failed parse prints the error to standard output and exits normally. -/
theorem C45_debug (X : Ext) (W : World) (stale : Bool) (f : Flags) (hf : f.debug = true) (cmd : Command) (src : Src) (forced : Bool)
    (h : Dumps W cmd src forced) (e : GoErr) (he : (parse X (some (cliCtx f forced)) (some src)).res = .err e)
    (hw : W.write (W.fmt (.parse e)) = ((W.fmt (.parse e)).length, none)) :
    execute X W stale f cmd = ⟨some .normal, W.fmt (.parse e), true⟩ := by
  obtain ⟨h1, h2, h3⟩ := runE_dumps (X := X) (f := f) h
  rw [dump_eq, he] at h1
  rw [execute_fail h1 h2 h3, if_pos hf, hw, List.take_length]

/-- C45, violated in a process that calls `Execute` twice: the debug flag of an earlier call is still set when `--version` fails, so the
error goes to standard output and the exit code is normal although this call has no `--debug`. -/
theorem C45_stale (X : Ext) (W : World) (f : Flags) (clipboard : Bool) (file : Str) (hs : W.stderrOk = false)
    (hw : W.write (W.fmt .stderr) = ((W.fmt .stderr).length, none)) :
    execute X W true f (.root true clipboard file) = ⟨some .normal, W.fmt .stderr, true⟩ := by
  unfold execute runE
  simp [hs, printed, debugPrint, debugAfter, exitOf, hw]

/-! ## Concrete runs -/

/-- a world with this standard input, in which everything can be written -/
def Tests.world (stdin : Bytes) : World :=
  ⟨Src.ofBytes stdin, .error 1, fun _ => .error 2, fun _ _ => .error 3, fun _ _ => .err .noKey, fun _ => .error 4,
    fun b => (b.length, none), true, fun _ => [33]⟩

def Tests.flags : Flags := ⟨false, 0, false, false, false, false, false, false, false, false⟩

/-- a marker packet is dumped -/
theorem C45_example_success : execute Tests.X (Tests.world [0xca, 3, 0x50, 0x47, 0x50]) false Tests.flags (.root false false []) =
    ⟨some .normal, utf8 (S "Marker Packet (Obsolete Literal Packet) (tag 10) (3 bytes)\n\tLiteral data (3 bytes)\n"), false⟩ := by
  decide +kernel

/-- octets that are no packet, without and with `--debug` -/
theorem C45_example_failure :
    execute Tests.X (Tests.world [0x00, 1]) false Tests.flags (.root false false []) = ⟨some .abnormal, [], false⟩ ∧
    execute Tests.X (Tests.world [0x00, 1]) false { Tests.flags with debug := true } (.root false false []) = ⟨some .normal, [33], true⟩ := by
  decide +kernel

/-- the secret key of `C01_panics_unknown_algorithm` -/
theorem C45_example_panic :
    execute Tests.X (Tests.world [0xc5, 8, 4, 0, 0, 0, 0, 99, 0, 7]) false Tests.flags (.root false false []) = ⟨some .abnormal, [], false⟩ := by
  decide +kernel

end Gpgpdump
