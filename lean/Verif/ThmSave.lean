import Verif.ThmMain
import Verif.ThmArmor

/-!
# C89: an answer that was saved, and armored files

What `--raw` writes can be dumped later, with the result of the command without `--raw`; and a file can be armored or not.
-/

namespace Gpgpdump
open Spec Spec.CL Spec.CLI

namespace Spec.CL

/-- The same request with `--raw` and without; the third: whether the answer has to be armored. -/
inductive Twin : Command → Command → Bool → Prop
  | hkp {args server port secure} : Twin (.hkp args server port secure true) (.hkp args server port secure false) true
  | github {args id} : Twin (.github args id true) (.github args id false) true
  | fetch {args} : Twin (.fetch args true) (.fetch args false) false

/-- standard output of the two is the same -/
def SameOut (W W' : World) : Prop := W.write = W'.write ∧ W.fmt = W'.fmt

/-- the octets are there to be read from the file, or from standard input if there is no name -/
def Saved (W : World) (name : Str) (b : Bytes) : Prop :=
  ∃ sched, (name = [] ∧ W.stdin = Source.src ⟨b, rawErr .eof, sched⟩) ∨ (name ≠ [] ∧ W.file name = .ok (Source.src ⟨b, rawErr .eof, sched⟩))

end Spec.CL

theorem saved_dumps {W name b} (h : Saved W name b) : ∃ sched, Dumps W (.root false false name) (Source.src ⟨b, rawErr .eof, sched⟩) false := by
  obtain ⟨sched, ⟨rfl, h⟩ | ⟨hn, h⟩⟩ := h
  · exact ⟨sched, h ▸ .stdin⟩
  · exact ⟨sched, .file hn h⟩

theorem eqEOF_raw {e : GoErr} (h : e.eqEOF = true) : e = rawErr .eof := by
  obtain ⟨c, w⟩ := e
  simp only [GoErr.eqEOF, Bool.and_eq_true, beq_iff_eq, Bool.not_eq_true'] at h
  obtain ⟨rfl, rfl⟩ := h
  rfl

section
variable {X : Ext} {W W' : World}

/-- two dumps whose parses agree -/
theorem dumps_agree {f f' : Flags} {cmd cmd' src src' forced forced'} (hw : SameOut W W') (h : Dumps W cmd src forced) (h' : Dumps W' cmd' src' forced')
    (hj : f.json = f'.json) (hi : f.indent = f'.indent) (hd : f.debug = f'.debug)
    (hp : parse X (some (cliCtx f forced)) (some src) = parse X (some (cliCtx f' forced')) (some src')) :
    execute X W false f cmd = execute X W' false f' cmd' := by
  obtain ⟨h1, h2, h3⟩ := runE_dumps (X := X) (f := f) h
  obtain ⟨g1, g2, g3⟩ := runE_dumps (X := X) (f := f') h'
  have hm : ∀ is, marshalPacketInfo f is = marshalPacketInfo f' is := by
    intro is
    unfold marshalPacketInfo
    rw [hj, hi]
  have e : runE X W f cmd = runE X W' f' cmd' := by
    rw [h1, g1, dump_eq, dump_eq, hp]
    simp only [hm]
  obtain ⟨w1, w2⟩ := hw
  unfold execute
  rw [← e, h2, g2, h3, g3, hd]
  unfold debugPrint writeFrom
  rw [w1, w2]

/-- the sources of a request with `--raw` and without are the same -/
theorem twin_dumps {raw cmd forced b} (ht : Twin raw cmd forced) (hc : Copies W raw b none) : ∃ s : Src, s.data = b ∧ s.tail = rawErr .eof ∧ Dumps W cmd s forced := by
  have tail : ∀ {s : Src}, (if s.tail.eqEOF then none else some s.tail) = none → s.tail = rawErr .eof := by
    intro s h
    split at h
    · exact eqEOF_raw (by assumption)
    · cases h
  generalize he : (none : Option GoErr) = e at hc
  cases ht with
  | hkp =>
    cases hc with
    | hkp hn h => exact ⟨_, rfl, tail he.symm, .hkp hn h⟩
  | github =>
    cases hc with
    | github h => exact ⟨_, rfl, rfl, .github h⟩
  | fetch =>
    cases hc with
    | fetch h => exact ⟨_, rfl, tail he.symm, .fetch h⟩
end

section
variable (X : Ext) (W W' : World) (other : Nat → Nat) (script : Shell → Bytes)

/-- **C89**: if the request with `--raw` succeeds, dumping what it wrote gives the status and the output of the request without
`--raw`, if `--armor` is added where the request expects armored text. -/
theorem C89_saved (hU : Usual X W) (hw : SameOut W W') {args args' args'' : List Bytes} {f f' f'' : Flags} {raw cmd : Command} {forced : Bool} {name : Str} {b : Bytes}
    (hr : CL.Runs args f raw) (hn : f.debug = false) (ht : Twin raw cmd forced) (hb : mainRun X W other script args = (some 0, b))
    (hr' : CL.Runs args' f' cmd) (hr'' : CL.Runs args'' f'' (.root false false name)) (hs : Saved W' name b)
    (hf : f'' = { f' with armor := f'.armor || forced }) :
    mainRun X W' other script args'' = mainRun X W other script args' := by
  have hc : Copies W raw b none := by
    have he := (main_iff (st := 0) (e := .normal) rfl).1 hb
    rw [runs_execute hr] at he
    rcases C45_cases W raw with hi | ⟨src, fc, hi⟩ | ⟨b', e, hi⟩ | ⟨e, hi⟩ | ⟨user, id, r, rfl, hi⟩
    · cases ht <;> cases hi
    · cases ht <;> cases hi
    · obtain ⟨r1, r2, -⟩ := C45_raw X W false f hn raw b' e hi
      rw [hU.write, he.2, List.take_length] at r1
      obtain ⟨rfl, -⟩ := r2.1 he.1
      exact r1 ▸ hi
    · rw [C45_no_input X W false f hn raw e hi] at he
      cases he.1
    · rcases hi with hi | hi
      · rw [(C45_github_panic X W false f user id r hi).1] at he
        cases he.1
      · unfold execute runE at he
        simp only [hi] at he
        cases he.1
  obtain ⟨s, rfl, hst, hd⟩ := twin_dumps ht hc
  obtain ⟨sched, hd'⟩ := saved_dumps hs
  obtain ⟨⟨d, t, sc⟩, rfl, -⟩ := dumps_good hU hd
  cases hst
  subst hf
  have hx : cliCtx { f' with armor := f'.armor || forced } false = cliCtx f' forced := by
    unfold cliCtx
    simp
  have hp : parse X (some (cliCtx { f' with armor := f'.armor || forced } false)) (some (Source.src ⟨d, rawErr .eof, sched⟩)) =
      parse X (some (cliCtx f' forced)) (some (Source.src ⟨d, rawErr .eof, sc⟩)) := by
    rw [hx]
    exact C07_new X _ d (rawErr .eof) sched sc
  unfold mainRun
  rw [runs_execute hr', runs_execute hr'', dumps_agree (f := { f' with armor := f'.armor || forced }) (f' := f') ⟨hw.1.symm, hw.2.symm⟩ hd' hd rfl rfl rfl hp]

/-- **C89**: a file and its armored form give the same status and the same output, if nothing in the file itself looks like armor. -/
theorem C89_armored (hX : X.armor = armorStream) (hw : SameOut W W') {args args' : List Bytes} {f : Flags} {name name' : Str}
    (hr : CL.Runs args f (.root false false name)) (hr' : CL.Runs args' f (.root false false name')) (ha : f.armor = false)
    {eol : Bytes} (he : EndOfLine eol) {ls : List Bytes} (hl : ∀ l ∈ ls, TextLine l) {data : Bytes} {crc : Option Nat} (hm : Message ls data crc)
    (hi : Intact data crc) (hs : Saved W name (Spec.text eol ls)) (hs' : Saved W' name' data)
    {ls'} (h' : Lines data ls' false data) (hb' : ¬ ∃ block, ArmorBlock ls' block) :
    mainRun X W other script args = mainRun X W' other script args' := by
  obtain ⟨sched, hd⟩ := saved_dumps hs
  obtain ⟨sched', hd'⟩ := saved_dumps hs'
  have hc : ctxFlag Ctx.armor (some (cliCtx f false)) = false := by
    show (cliCtx f false).armor = false
    rw [cliCtx_armor, ha]
    rfl
  unfold mainRun
  rw [runs_execute hr, runs_execute hr', dumps_agree hw hd hd' rfl rfl rfl]
  rw [C67_parse hX _ he hl hm hi, C34_verbatim_partial X _ hc data sched' h' hb']

/-- **C89**: an armored file whose checksum is wrong ends with status 1 and without output. -/
theorem C89_damaged (hX : X.armor = armorStream) (hU : Usual X W) {args : List Bytes} {f : Flags} {name : Str}
    (hr : CL.Runs args f (.root false false name)) (hd : f.debug = false)
    {eol : Bytes} (he : EndOfLine eol) {ls : List Bytes} (hl : ∀ l ∈ ls, TextLine l) {data : Bytes} {crc : Option Nat} (hm : Message ls data crc)
    (hi : ¬ Intact data crc) (hs : Saved W name (Spec.text eol ls)) : mainRun X W other script args = (some 1, []) := by
  obtain ⟨sched, hc⟩ := saved_dumps hs
  refine (main_iff (e := .abnormal) rfl).2 ?_
  rw [runs_execute hr]
  rcases dump_ends hU hd hc with ⟨out, h⟩ | h
  · exfalso
    have hp := C68_reported hX (some (cliCtx f false)) he hl hm hi sched
    obtain ⟨h1, h2, h3⟩ := runE_dumps (X := X) (f := f) hc
    rw [dump_eq] at h1
    cases hq : (parse X (some (cliCtx f false)) (some (Source.src ⟨Spec.text eol ls, rawErr .eof, sched⟩))).res with
    | ok u => exact hp hq
    | err e =>
      rw [hq] at h1
      rw [execute_fail h1 h2 h3, if_neg (by simp [hd])] at h
      cases h
    | panic e =>
      rw [C45_panic X W false f _ _ false hc e hq] at h
      cases h
    | stuck =>
      exact (C02_new X hU.real _ _ (by intro h; cases h)).1 hq
  · rw [h]
    exact ⟨rfl, rfl⟩
end

namespace Case89

def X : Ext := { Tests.X with armor := armorStream }

/-- the armored text of `sampleLines` -/
def letter : Bytes := Spec.text [0x0a] (sampleLines (ascii "zQFB"))

/-- the same with one bit of the data changed -/
def broken : Bytes := Spec.text [0x0a] (sampleLines (ascii "zQFA"))

/-- a key server with one answer -/
def online (b : Bytes) : World := { Tests.world [] with hkp := fun _ _ => .ok (Source.src ⟨b, rawErr .eof, [3]⟩) }

def plain : Flags := ⟨false, 0, false, false, false, false, false, false, false, false⟩

theorem usual (b : Bytes) : Usual X (online b) where
  own := fun zd => ⟨nofun, nofun, nofun, fun z h => by cases h; nofun⟩
  real := ⟨fun d => nofun, fun d => nofun, fun d z h => by cases h; nofun, nofun, fun t z h => ((armorStream_known t).1 z h).1.real,
    fun t e h => by rw [(armorStream_known t).2 e h]; unfold GoErr.real; decide⟩
  armor := C88_armor X rfl
  stdin := good_bytes []
  file := fun n s h => (by cases h)
  hkp := fun v u s h => (by cases h; exact ⟨⟨b, rawErr .eof, [3]⟩, rfl, fun h => by cases h⟩)
  fetch := fun u s h => (by cases h)
  write := fun t => rfl

theorem usual_stdin (b : Bytes) : Usual X (Tests.world b) where
  own := (usual b).own
  real := (usual b).real
  armor := (usual b).armor
  stdin := good_bytes b
  file := fun n s h => (by cases h)
  hkp := fun v u s h => (by cases h)
  fetch := fun u s h => (by cases h)
  write := fun t => rfl

/-- `gpgpdump hkp --raw k` -/
theorem raw : CL.Runs [text "hkp", text "--raw", text "k"] plain (.hkp [text "k"] (text "keys.gnupg.net") 11371 false true) :=
  .hkp (s := [(long "raw" .bool, text "true")])
    ⟨_, (find_iff _ _ [text "--raw", text "k"]).1 (by decide +kernel), by decide, (given_flags _ _ _ _).1 (by decide +kernel)⟩
    (Or.inr ⟨by unfold Unset; decide +kernel, rfl⟩)
    (by refine ⟨?_, ?_, ?_, ?_, ?_, ?_, ?_, ?_, ?_, ?_⟩ <;> exact Or.inr ⟨by unfold Unset; decide +kernel, rfl⟩)
    (Or.inr ⟨by unfold Unset; decide +kernel, rfl⟩) (Or.inr ⟨by unfold Unset; decide +kernel, rfl⟩) (Or.inr ⟨by unfold Unset; decide +kernel, rfl⟩)
    (Or.inl ⟨text "true", ⟨[], long "raw" .bool, [], rfl, rfl, by simp⟩, (scBool_iff _ _).1 (by decide +kernel)⟩)

/-- `gpgpdump hkp k` -/
theorem ask : CL.Runs [text "hkp", text "k"] plain (.hkp [text "k"] (text "keys.gnupg.net") 11371 false false) :=
  .hkp (s := [])
    ⟨_, (find_iff _ _ [text "k"]).1 (by decide +kernel), by decide, (given_flags _ _ _ _).1 (by decide +kernel)⟩
    (Or.inr ⟨by unfold Unset; decide +kernel, rfl⟩)
    (by refine ⟨?_, ?_, ?_, ?_, ?_, ?_, ?_, ?_, ?_, ?_⟩ <;> exact Or.inr ⟨by unfold Unset; decide +kernel, rfl⟩)
    (Or.inr ⟨by unfold Unset; decide +kernel, rfl⟩) (Or.inr ⟨by unfold Unset; decide +kernel, rfl⟩) (Or.inr ⟨by unfold Unset; decide +kernel, rfl⟩)
    (Or.inr ⟨by unfold Unset; decide +kernel, rfl⟩)

/-- `gpgpdump --armor` -/
theorem armored : CL.Runs [text "--armor"] { plain with armor := true } (.root false false []) :=
  .root (s := [(switch "armor" 'a', text "true")]) (p := []) (file := [])
    ⟨_, (find_iff _ _ [text "--armor"]).1 (by decide +kernel), by decide, (given_flags _ _ _ _).1 (by decide +kernel)⟩
    (Or.inr ⟨by unfold Unset; decide +kernel, rfl⟩)
    (by
      refine ⟨?_, ?_, ?_, ?_, ?_, ?_, ?_, ?_, ?_, ?_⟩
      case refine_3 => exact Or.inl ⟨text "true", ⟨[], switch "armor" 'a', [], rfl, rfl, by simp⟩, (scBool_iff _ _).1 (by decide +kernel)⟩
      all_goals exact Or.inr ⟨by unfold Unset; decide +kernel, rfl⟩)
    (Or.inr ⟨by unfold Unset; decide +kernel, rfl⟩) (Or.inr ⟨by unfold Unset; decide +kernel, rfl⟩) (Or.inr ⟨by unfold Unset; decide +kernel, rfl⟩)

/-- `gpgpdump` -/
theorem bare : CL.Runs [] plain (.root false false []) :=
  .root (s := []) (p := []) (file := [])
    ⟨_, (find_iff _ _ []).1 (by decide +kernel), by decide, (given_flags _ _ _ _).1 (by decide +kernel)⟩
    (Or.inr ⟨by unfold Unset; decide +kernel, rfl⟩)
    (by refine ⟨?_, ?_, ?_, ?_, ?_, ?_, ?_, ?_, ?_, ?_⟩ <;> exact Or.inr ⟨by unfold Unset; decide +kernel, rfl⟩)
    (Or.inr ⟨by unfold Unset; decide +kernel, rfl⟩) (Or.inr ⟨by unfold Unset; decide +kernel, rfl⟩) (Or.inr ⟨by unfold Unset; decide +kernel, rfl⟩)

end Case89

/-- `gpgpdump hkp --raw k | gpgpdump --armor` and `gpgpdump hkp k` -/
theorem C89_example (other : Nat → Nat) (script : Shell → Bytes) (b : Bytes) :
    mainRun Case89.X (Tests.world b) other script [text "--armor"] = mainRun Case89.X (Case89.online b) other script [text "hkp", text "k"] :=
  C89_saved Case89.X (Case89.online b) (Tests.world b) other script (Case89.usual b) ⟨rfl, rfl⟩ Case89.raw rfl .hkp
    ((main_iff (e := .normal) rfl).2 (by
      rw [runs_execute Case89.raw]
      exact raw_out (b := b) rfl (Case89.usual b).write (Copies.hkp (s := Source.src ⟨b, rawErr .eof, [3]⟩) (server := text "keys.gnupg.net") (by decide) rfl)))
    Case89.ask Case89.armored ⟨[], .inl ⟨rfl, rfl⟩⟩ rfl

/-- an armored user ID, and the same in binary -/
theorem C89_example_armored (other : Nat → Nat) (script : Shell → Bytes) :
    mainRun Case89.X (Tests.world Case89.letter) other script [] = mainRun Case89.X (Tests.world [0xcd, 1, 0x41]) other script [] :=
  C89_armored Case89.X (Tests.world Case89.letter) (Tests.world [0xcd, 1, 0x41]) other script rfl ⟨rfl, rfl⟩ Case89.bare Case89.bare rfl (eol := [0x0a]) (.inl rfl)
    (ls := sampleLines (ascii "zQFB")) (sampleText _ ⟨by decide, by decide, by decide⟩) (sampleMessage sampleBody (by decide)) (fun c h => by cases h; exact sampleCrc) ⟨[], .inl ⟨rfl, rfl⟩⟩ ⟨[], .inl ⟨rfl, rfl⟩⟩ userIdLines userIdNoBlock

/-- the same block with one bit of the data changed -/
theorem C89_example_damaged (other : Nat → Nat) (script : Shell → Bytes) :
    mainRun Case89.X (Tests.world Case89.broken) other script [] = (some 1, []) :=
  C89_damaged Case89.X (Tests.world Case89.broken) other script rfl (Case89.usual_stdin _) Case89.bare rfl (eol := [0x0a]) (.inl rfl)
    (ls := sampleLines (ascii "zQFA")) (sampleText _ ⟨by decide, by decide, by decide⟩) (sampleMessage damagedBody (by decide))
    (fun hi => Crc24.burst (a := [0xcd, 1, 0x41]) (b := [0xcd, 1, 0x40]) ⟨rfl, 1, 0, by decide, by decide, by decide⟩ sampleCrc (hi _ rfl) rfl) ⟨[], .inl ⟨rfl, rfl⟩⟩

/-- **C89** needs `--armor`: an answer in binary is refused by `hkp`, but what `hkp --raw` wrote is dumped without it. -/
theorem C89_needs_armor (other : Nat → Nat) (script : Shell → Bytes) :
    mainRun Case89.X (Case89.online [0xcd, 1, 0x41]) other script [text "hkp", text "k"] = (some 1, []) ∧
    (mainRun Case89.X (Tests.world [0xcd, 1, 0x41]) other script []).1 = some 0 := by
  unfold mainRun
  rw [runs_execute Case89.ask, runs_execute Case89.bare]
  decide +kernel

end Gpgpdump
