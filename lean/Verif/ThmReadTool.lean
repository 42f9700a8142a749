import Verif.ThmMain
import Verif.ThmReadBack

/-!
# C92: standard output determines the result, whatever the flags are

`C75_tool` compares two runs with the same `--json` and `--indent`. Here both may differ: the form of the output can be read from it.
-/

namespace Gpgpdump
open Spec Spec.Json P Src ReadBack

namespace ReadBack

/-! ## Texts with different indentations -/

theorem blank_split {w w' l l' : Str} (hw : ∀ c ∈ w, c = ' ' ∨ c = '\t') (hw' : ∀ c ∈ w', c = ' ' ∨ c = '\t') (hl : Starts1 l) (hl' : Starts1 l')
    (h : w ++ l = w' ++ l') : w = w' ∧ l = l' := by
  induction w generalizing w' with
  | nil =>
    cases w' with
    | nil => exact ⟨rfl, h⟩
    | cons c w' =>
      rw [List.nil_append] at h
      subst h
      rcases hw' c List.mem_cons_self with e | e
      · exact absurd e hl.1
      · exact absurd e hl.2.1
  | cons c w ih =>
    cases w' with
    | nil =>
      rw [List.nil_append] at h
      subst h
      rcases hw c List.mem_cons_self with e | e
      · exact absurd e hl'.1
      · exact absurd e hl'.2.1
    | cons c' w' =>
      simp only [List.cons_append, List.cons.injEq] at h
      obtain ⟨rfl, h⟩ := h
      obtain ⟨rfl, e⟩ := ih (fun c hc => hw c (List.mem_cons_of_mem _ hc)) (fun c hc => hw' c (List.mem_cons_of_mem _ hc)) h
      exact ⟨rfl, e⟩

/-- the blanks before each line and the lines can be read from the text -/
theorem outs_blanks {a b : Str} (ha : Blank a) (hb : Blank b) : ∀ {L L' : List (Nat × Str)}, (∀ l ∈ L, LineOK l.2) → (∀ l ∈ L', LineOK l.2) →
    (L.map (outLine a)).flatten = (L'.map (outLine b)).flatten →
    L.map (fun l => (repeatStr a l.1, l.2)) = L'.map (fun l => (repeatStr b l.1, l.2))
  | [], [], _, _, _ => rfl
  | [], l :: L', _, _, h => by simp [outLine] at h
  | l :: L, [], _, _, h => by simp [outLine] at h
  | (d, l) :: L, (d', l') :: L', hL, hL', h => by
    have h1 := hL (d, l) (by simp)
    have h2 := hL' (d', l') (by simp)
    have tL : ∀ l ∈ L, LineOK l.2 := fun l hl => hL l (by simp [hl])
    have tL' : ∀ l ∈ L', LineOK l.2 := fun l hl => hL' l (by simp [hl])
    have nb : ∀ {i : Str} (_ : Blank i) {d : Nat} {l : Str}, '\n' ∉ l → '\n' ∉ repeatStr i d ++ l := by
      intro i hi d l hl hm
      rcases List.mem_append.1 hm with hm | hm
      · exact breaks_repeat hi.breaks _ hm
      · exact hl hm
    simp only [List.map_cons, List.flatten_cons, outLine] at h
    rw [List.append_assoc _ ['\n'], List.append_assoc _ ['\n']] at h
    dsimp only at h1 h2
    cases h1 with
    | whole s1 b1 =>
      cases h2 with
      | whole s2 b2 =>
        obtain ⟨e1, e2⟩ := line_inj (nb ha b1) (nb hb b2) h
        obtain ⟨e3, rfl⟩ := blank_split (blanks ha _) (blanks hb _) s1 s2 e1
        rw [List.map_cons, List.map_cons, outs_blanks ha hb tL tL' e2]
        dsimp only
        rw [e3]
      | broken s2 b2 k2 h2 =>
        rw [← List.append_assoc _ _ (_ :: _), List.append_assoc _ (_ :: _)] at h
        obtain ⟨-, e2⟩ := line_inj (nb ha b1) (nb hb b2) h
        exact absurd e2 (next_line ha tL h2)
    | broken s1 b1 k1 h1 =>
      cases h2 with
      | whole s2 b2 =>
        rw [← List.append_assoc _ _ (_ :: _), List.append_assoc _ (_ :: _)] at h
        obtain ⟨-, e2⟩ := line_inj (nb ha b1) (nb hb b2) h
        exact absurd e2.symm (next_line hb tL' h1)
      | broken s2 b2 k2 h2 =>
        rw [← List.append_assoc _ _ (_ :: _), List.append_assoc _ (_ :: _), ← List.append_assoc _ _ (_ :: _), List.append_assoc _ (_ :: _)] at h
        obtain ⟨e1, e2⟩ := line_inj (nb ha b1) (nb hb b2) h
        obtain ⟨e4, rfl⟩ := blank_split (blanks ha _) (blanks hb _) s1 s2 e1
        obtain ⟨rfl, e3⟩ := line_inj k1 k2 e2
        rw [List.map_cons, List.map_cons, outs_blanks ha hb tL tL' e3]
        dsimp only
        rw [e4]

/-- if there is an indented line then there is one that is indented once -/
theorem once_indented : ∀ {ps : List Item} {l : Nat × Str}, l ∈ linesAll 0 ps → l.1 ≠ 0 → ∃ t, (1, t) ∈ linesAll 0 ps
  | [], l, hl, _ => by cases hl
  | .mk n v dm t ks :: ps, l, hl, h0 => by
    rw [linesAll] at hl ⊢
    rcases List.mem_append.1 hl with hl | hl
    · have : ∃ t', (1, t') ∈ lines 0 (.mk n v dm t ks) := by
        rw [lines] at hl ⊢
        by_cases hd : dm = []
        · rw [if_pos hd] at hl ⊢
          cases ks with
          | nil =>
            simp only [linesAll, List.append_nil, List.mem_singleton] at hl
            subst hl
            exact absurd rfl h0
          | cons k ks =>
            rcases k with ⟨n', v', d', t', ks'⟩
            refine ⟨itemLine (.mk n' v' d' t' ks'), ?_⟩
            rw [linesAll, lines]
            simp
        · rw [if_neg hd]
          exact ⟨dm, by simp⟩
      obtain ⟨t', ht⟩ := this
      exact ⟨t', List.mem_append_left _ ht⟩
    · obtain ⟨t', ht⟩ := once_indented hl h0
      exact ⟨t', List.mem_append_right _ ht⟩

theorem repeat_length (s : Str) (d : Nat) : (repeatStr s d).length = d * s.length := by
  unfold repeatStr
  induction d with
  | zero => simp
  | succ d ih => rw [List.replicate_succ, List.flatten_cons, List.length_append, ih, Nat.succ_mul, Nat.add_comm]

theorem repeat_one (s : Str) : repeatStr s 1 = s := by
  unfold repeatStr
  simp

theorem repeat_zero (s : Str) : repeatStr s 0 = [] := rfl

theorem map_flat {a : Str} {L : List (Nat × Str)} (h : ∀ l ∈ L, l.1 = 0) : L.map (fun l => (repeatStr a l.1, l.2)) = L.map fun l => (([] : Str), l.2) :=
  List.map_congr_left fun l hl => by rw [h l hl]; rfl

/-- the depths can be read from the text -/
theorem depths_eq {a b : Str} (ha : Blank a) (hb : Blank b) {ps ps' : List Item}
    (h : (linesAll 0 ps).map (fun l => (repeatStr a l.1, l.2)) = (linesAll 0 ps').map (fun l => (repeatStr b l.1, l.2))) :
    linesAll 0 ps = linesAll 0 ps' := by
  have pos : ∀ {s : Str}, Blank s → 0 < s.length := fun hs => List.length_pos_iff.2 hs.1
  -- once indented lines of one text give a lower bound for the other
  have le : ∀ {a b : Str} {ps ps' : List Item}, Blank a →
      (linesAll 0 ps).map (fun l => (repeatStr a l.1, l.2)) = (linesAll 0 ps').map (fun l => (repeatStr b l.1, l.2)) →
      ∀ {t}, (1, t) ∈ linesAll 0 ps → ∃ d t', (d, t') ∈ linesAll 0 ps' ∧ a = repeatStr b d ∧ d ≠ 0 := by
    intro a b ps ps' ha h t ht
    have hm : (repeatStr a 1, t) ∈ (linesAll 0 ps).map (fun l => (repeatStr a l.1, l.2)) := List.mem_map.2 ⟨_, ht, rfl⟩
    rw [h] at hm
    obtain ⟨l, hl, e⟩ := List.mem_map.1 hm
    rw [Prod.mk.injEq, repeat_one] at e
    refine ⟨l.1, l.2, hl, e.1.symm, fun h0 => ?_⟩
    rw [h0] at e
    exact ha.1 e.1.symm
  by_cases hz : ∃ t, (1, t) ∈ linesAll 0 ps
  · obtain ⟨t, ht⟩ := hz
    obtain ⟨d, t', hd, e, d0⟩ := le ha h ht
    obtain ⟨u, hu⟩ := once_indented hd d0
    obtain ⟨d', -, -, e', d0'⟩ := le hb h.symm hu
    have l1 := congrArg List.length e
    have l2 := congrArg List.length e'
    rw [repeat_length] at l1 l2
    have d1 : d = 1 := by
      have p := pos ha
      have p' := pos hb
      have : b.length ≤ a.length := by rw [l1]; exact Nat.le_mul_of_pos_left _ (Nat.pos_of_ne_zero d0)
      have h3 : a.length ≤ b.length := by rw [l2]; exact Nat.le_mul_of_pos_left _ (Nat.pos_of_ne_zero d0')
      have h4 : d * b.length = 1 * b.length := by omega
      exact Nat.eq_of_mul_eq_mul_right p' h4
    rw [d1, repeat_one] at e
    subst e
    have inj : ∀ l l' : Nat × Str, (repeatStr a l.1, l.2) = (repeatStr a l'.1, l'.2) → l = l' := by
      intro l l' e
      rw [Prod.mk.injEq] at e
      have := congrArg List.length e.1
      rw [repeat_length, repeat_length] at this
      exact Prod.ext (Nat.eq_of_mul_eq_mul_right (pos ha) this) e.2
    exact List.map_inj_right inj |>.1 h
  · have z : ∀ l ∈ linesAll 0 ps, l.1 = 0 := fun l hl => Classical.byContradiction fun h0 => hz (once_indented hl h0)
    have z' : ∀ l ∈ linesAll 0 ps', l.1 = 0 := by
      intro l hl
      refine Classical.byContradiction fun h0 => ?_
      obtain ⟨u, hu⟩ := once_indented hl h0
      obtain ⟨d, t, hd, -, d0⟩ := le hb h.symm hu
      exact d0 (z _ hd)
    rw [map_flat z, map_flat z'] at h
    have : ∀ {L L' : List (Nat × Str)}, (∀ l ∈ L, l.1 = 0) → (∀ l ∈ L', l.1 = 0) →
        L.map (fun l => (([] : Str), l.2)) = L'.map (fun l => (([] : Str), l.2)) → L = L' := by
      intro L
      induction L with
      | nil =>
        intro L' _ _ h
        cases L' with
        | nil => rfl
        | cons => cases h
      | cons l L ih =>
        intro L' h1 h2 h
        cases L' with
        | nil => cases h
        | cons l' L' =>
          simp only [List.map_cons, List.cons.injEq, Prod.mk.injEq, true_and] at h
          rw [ih (fun l hl => h1 l (by simp [hl])) (fun l hl => h2 l (by simp [hl])) h.2,
            Prod.ext ((h1 l (by simp)).trans (h2 l' (by simp)).symm) h.1]
    exact this z z' h

/-- the text of trees that can be read back determines them, whatever the indentations are -/
theorem text_inj_any {a b : Str} (ha : Blank a) (hb : Blank b) {ps ps' : List Item} (h : ∀ i ∈ ps, Each Legible i) (h' : ∀ i ∈ ps', Each Legible i)
    (he : infoToString a ps = infoToString b ps') : ps = ps' := by
  have ok : ∀ {ps : List Item}, (∀ i ∈ ps, Each Legible i) → ∀ l ∈ linesAll 0 ps, LineOK l.2 := fun hp =>
    mem_linesAll (fun l => LineOK l.2) (fun i d hq => hq.lineOK) (fun i d hq hne => hq.dumpOK hne) 0 _ hp
  unfold infoToString at he
  rw [itemsToStr_lines, itemsToStr_lines] at he
  have hl := depths_eq ha hb (outs_blanks ha hb (ok h) (ok h') he)
  refine text_inj ha h h' ?_
  unfold infoToString
  rw [itemsToStr_lines, itemsToStr_lines, hl]

/-! ## Text and JSON -/

theorem json_head {n : Int} {gs : List GItem} {t : Str} (h : infoJSON n gs = some t) : ∃ r, t = '{' :: r := by
  have hm : ∃ r, marshalInfo gs = '{' :: r := by
    cases gs with
    | nil => exact ⟨_, rfl⟩
    | cons g gs => exact ⟨_, rfl⟩
  obtain ⟨r, hr⟩ := hm
  unfold infoJSON at h
  rw [hr] at h
  split at h
  · unfold jsonIndent at h
    rw [indentRun.eq_def] at h
    simp only [Bool.false_eq_true, if_false] at h
    rw [if_neg (by decide), if_neg (by decide), if_pos (.inl trivial)] at h
    split at h
    · cases h
    · rw [Option.map_eq_some_iff] at h
      obtain ⟨r', -, rfl⟩ := h
      exact ⟨r', rfl⟩
  · cases h
    exact ⟨r, rfl⟩

theorem text_head {a : Str} {ps : List Item} (h : ∀ i ∈ ps, Each Legible i) (r : Str) : infoToString a ps ≠ '{' :: r := by
  intro e
  unfold infoToString at e
  cases ps with
  | nil => cases e
  | cons i ps =>
    cases h i List.mem_cons_self with
    | mk hi _ =>
    rcases i with ⟨n, v, d, t, is⟩
    have hn : okName n = true := hi.name
    rw [itemsToStr, Item.toStr, repeat_zero, List.nil_append] at e
    unfold headLine at e
    cases n with
    | nil => exact absurd hn (by decide)
    | cons c n =>
      injection e with ec _
      change c = '{' at ec
      subst ec
      unfold okName upperName at hn
      rw [Bool.or_eq_true] at hn
      rcases hn with hn | hn
      · rw [Bool.and_eq_true, Bool.and_eq_true] at hn
        exact absurd hn.1.1 (by dsimp only; decide)
      · rw [List.contains_iff_mem] at hn
        have : ∀ m ∈ lowerNames, m.head? ≠ some '{' := by decide
        exact this _ hn rfl

open Spec.CLI in
theorem rendered_inj_any {f f' : Flags} {ps ps' : List Item} (h : ∀ i ∈ ps, Each Legible i) (h' : ∀ i ∈ ps', Each Legible i) {out : Bytes}
    (hr : Rendered f ps out) (hr' : Rendered f' ps' out) : ps = ps' := by
  have form : ∀ {f : Flags} {ps : List Item} {out : Bytes}, Rendered f ps out →
      (∃ n t, infoJSON n (goItems ps) = some t ∧ out = utf8 t) ∨ ∃ a, Blank a ∧ out = utf8 (infoToString a ps) := by
    intro f ps out hr
    cases hr with
    | json _ h => exact .inl ⟨_, _, h, rfl⟩
    | spaces _ hn =>
      refine .inr ⟨_, ⟨fun e => ?_, fun c hc => .inl (List.eq_of_mem_replicate hc)⟩, rfl⟩
      have := congrArg List.length e
      rw [List.length_replicate, List.length_nil] at this
      omega
    | tab => exact .inr ⟨_, ⟨by decide, by decide⟩, rfl⟩
  rcases form hr with ⟨n, t, h1, rfl⟩ | ⟨a, h1, rfl⟩ <;> rcases form hr' with ⟨m, u, h2, e⟩ | ⟨b, h2, e⟩
  · rw [utf8_inj e] at h1
    exact json_inj h1 h2
  · obtain ⟨r, rfl⟩ := json_head h1
    exact absurd (utf8_inj e).symm (text_head h' r)
  · obtain ⟨r, rfl⟩ := json_head h2
    exact absurd (utf8_inj e) (text_head h r)
  · exact text_inj_any h1 h2 h h' (utf8_inj e)

end ReadBack

/-! ## C92 -/

/-- C92: two results of `Parse` with the same text are the same, even if the indentations are different. -/
theorem C92_text (X X' : Ext) (hX : OwnErrors X) (hX' : OwnErrors X') (hC : CleanX X) (hC' : CleanX X') (hT : TimeX X) (hT' : TimeX X')
    (x x' : Ctx) (hc : Consistent x) (hc' : Consistent x') (s s' : Source) (a b : Str) (ha : Blank a) (hb : Blank b)
    (he : infoToString a (parseSrc X (some x) s.src).packets = infoToString b (parseSrc X' (some x') s'.src).packets) :
    (parseSrc X (some x) s.src).packets = (parseSrc X' (some x') s'.src).packets :=
  text_inj_any ha hb (result_good X hX hC hT x hc s) (result_good X' hX' hC' hT' x' hc' s') he

/-- C92: no text is the JSON of any tree. -/
theorem C92_form (X : Ext) (hX : OwnErrors X) (hC : CleanX X) (hT : TimeX X) (x : Ctx) (hc : Consistent x) (s : Source) (a : Str) (n : Int)
    (gs : List GItem) (t : Str) (h : infoJSON n gs = some t) : infoToString a (parseSrc X (some x) s.src).packets ≠ t := by
  obtain ⟨r, rfl⟩ := json_head h
  exact text_head (result_good X hX hC hT x hc s) r

section
open Spec.CLI Spec.CL
variable {X X' : Ext} {W W' : World} {f f' : Flags} {cmd cmd' : Command} {forced forced' : Bool} {src src' : Source} {out : Bytes}

theorem shown_result (hU : Usual X W) (hC : CleanX X) (hT : TimeX X) (h : Shown X f forced src out) :
    ∃ r : Source, Reads X (f.armor || forced) src r ∧ r.tail = rawErr .eof ∧ (parseSrc X (some (cliCtx f forced)) r.src).res = .ok () ∧
      parse X (some (cliCtx f forced)) (some src.src) = parseSrc X (some (cliCtx f forced)) r.src ∧
      Rendered f (parseSrc X (some (cliCtx f forced)) r.src).packets out ∧
      ∀ i ∈ (parseSrc X (some (cliCtx f forced)) r.src).packets, Each Legible i := by
  have hcon : Consistent (cliCtx f forced) := ⟨fun d hd => (by cases hd), fun d hd => (by cases hd)⟩
  obtain ⟨r, ps, rows, m, hs, ht, -⟩ := id h
  obtain ⟨h1, h2⟩ := (shown_iff hU out).1 h
  have hp := parse_reads (x := cliCtx f forced) (cliCtx_armor f forced) hs
  rw [hp] at h1 h2
  exact ⟨r, hs, ht, h1, hp, marshal_iff.1 h2, result_good X hU.own hC hT _ hcon r⟩

/-- C92: two inputs with the same display have the same result. Everything may be different: the flags, also `--json` and `--indent`, the
inputs, armored or not, and the environments. -/
theorem C92_result (hU : Usual X W) (hU' : Usual X' W') (hC : CleanX X) (hC' : CleanX X') (hT : TimeX X) (hT' : TimeX X')
    (h : Shown X f forced src out) (h' : Shown X' f' forced' src' out) :
    (parse X (some (cliCtx f forced)) (some src.src)).packets = (parse X' (some (cliCtx f' forced')) (some src'.src)).packets := by
  obtain ⟨r, -, -, -, e, h1, h2⟩ := shown_result hU hC hT h
  obtain ⟨r', -, -, -, e', h1', h2'⟩ := shown_result hU' hC' hT' h'
  rw [e, e']
  exact rendered_inj_any h2 h2' h1 h1'

/-- **C92**: two command lines, without `--debug`, that dump something with status 0 and the same standard output have read the same
result. -/
theorem C92_process (hU : Usual X W) (hU' : Usual X' W') (hC : CleanX X) (hC' : CleanX X') (hT : TimeX X) (hT' : TimeX X')
    (other other' : Nat → Nat) (script script' : Shell → Bytes) {args args' : List Bytes} (hn : NoDebug args) (hn' : NoDebug args')
    (hr : Spec.CL.Runs args f cmd) (hr' : Spec.CL.Runs args' f' cmd') (hd : Dumps W cmd src.src forced) (hd' : Dumps W' cmd' src'.src forced')
    (h : mainRun X W other script args = (some 0, out)) (h' : mainRun X' W' other' script' args' = (some 0, out)) :
    (parse X (some (cliCtx f forced)) (some src.src)).packets = (parse X' (some (cliCtx f' forced')) (some src'.src)).packets := by
  have key : ∀ {X : Ext} {W : World} {other : Nat → Nat} {script : Shell → Bytes} {args : List Bytes} {f cmd forced} {src : Source}, Usual X W →
      NoDebug args → Spec.CL.Runs args f cmd → Dumps W cmd src.src forced → mainRun X W other script args = (some 0, out) → Shown X f forced src out := by
    intro X W other script args f cmd forced src hU hn hr hd h
    obtain ⟨h1, h2⟩ := (main_iff (e := .normal) rfl).1 h
    rw [runs_execute hr] at h1 h2
    obtain ⟨h3, h4⟩ := C45_normal_means_dumped X W false f (runs_debug hn hr) cmd src.src forced hd h1
    rw [h2] at h4
    exact (shown_iff hU out).2 ⟨h3, marshal_iff.2 h4⟩
  exact C92_result hU hU' hC hC' hT hT' (key hU hn hr hd h) (key hU' hn' hr' hd' h')

/-- **C92**: with `--debug` the display determines the packets of the input: two inputs with the same display consist, after removal of
armor, of the same packets. -/
theorem C92_packets (hU : Usual X W) (hU' : Usual X' W') (hC : CleanX X) (hC' : CleanX X') (hT : TimeX X) (hT' : TimeX X')
    (hf : f.debug = true) (hf' : f'.debug = true) (h : Shown X f forced src out) (h' : Shown X' f' forced' src' out) :
    ∃ ps r r', Reads X (f.armor || forced) src r ∧ Reads X' (f'.armor || forced') src' r' ∧ PacketSeq ps r.data ∧ PacketSeq ps r'.data := by
  obtain ⟨⟨d, tl, sc⟩, h1, ht, h2, -, h3, h4⟩ := shown_result hU hC hT h
  obtain ⟨⟨d', tl', sc'⟩, h1', ht', h2', -, h3', h4'⟩ := shown_result hU' hC' hT' h'
  dsimp only at ht ht'
  subst ht ht'
  obtain ⟨ps, hp, hp'⟩ := C16_lossless X X' (cliCtx f forced) (cliCtx f' forced') hf hf' d d' sc sc' h2 h2'
    (by rw [rendered_inj_any h4 h4' h3 h3'])
  exact ⟨ps, _, _, h1, h1', hp, hp'⟩

end

/-! ## Examples -/

open Spec.CL in
/-- an empty packet of tag 15 with a header of the new or the old format, `--indent 2` or no flag: one display. With `--debug` a marker packet
with either header and with `--json`: one display. -/
theorem C92_example :
    let f : Flags := ⟨false, 0, false, false, false, false, false, false, false, false⟩
    Shown Tests.X { f with indent := 2 } false ⟨[0xcf, 0], rawErr .eof, []⟩ (utf8 (S "Unknown (tag 15) (0 bytes)\n")) ∧
    Shown Tests.X f false ⟨[0xbc, 0], rawErr .eof, []⟩ (utf8 (S "Unknown (tag 15) (0 bytes)\n")) ∧
    Shown Tests.X { f with debug := true, json := true } false ⟨[0xca, 3, 0x50, 0x47, 0x50], rawErr .eof, []⟩
      (utf8 (S "{\"Packet\":[{\"name\":\"Marker Packet (Obsolete Literal Packet) (tag 10)\",\"dump\":\"50 47 50\",\"note\":\"3 bytes\",\"Item\":[{\"name\":\"Literal data\",\"dump\":\"50 47 50\",\"note\":\"3 bytes\"}]}]}")) ∧
    Shown Tests.X { f with debug := true, json := true } false ⟨[0xa8, 3, 0x50, 0x47, 0x50], rawErr .eof, []⟩
      (utf8 (S "{\"Packet\":[{\"name\":\"Marker Packet (Obsolete Literal Packet) (tag 10)\",\"dump\":\"50 47 50\",\"note\":\"3 bytes\",\"Item\":[{\"name\":\"Literal data\",\"dump\":\"50 47 50\",\"note\":\"3 bytes\"}]}]}")) := by
  refine ⟨(shown_iff (usual_tests []) _).2 ?_, (shown_iff (usual_tests []) _).2 ?_, (shown_iff (usual_tests []) _).2 ?_, (shown_iff (usual_tests []) _).2 ?_⟩ <;>
    decide +kernel

example := C92_packets (usual_tests []) (usual_tests []) utcX_ok.2.1 utcX_ok.2.1 utcX_ok.2.2 utcX_ok.2.2 rfl rfl C92_example.2.2.1 C92_example.2.2.2
example := C92_result (usual_tests []) (usual_tests []) utcX_ok.2.1 utcX_ok.2.1 utcX_ok.2.2 utcX_ok.2.2 C92_example.1 C92_example.2.1

open Spec.CL in
theorem runs_u : Spec.CL.Runs [Spec.CL.text "-u"] ⟨false, 0, false, false, false, false, false, false, false, true⟩ (.root false false []) :=
  .root (s := [(switch "utc" 'u', Spec.CL.text "true")]) (p := []) (file := []) short_u (Or.inr ⟨by unfold Unset; decide +kernel, rfl⟩)
    (by
      refine ⟨?_, ?_, ?_, ?_, ?_, ?_, ?_, ?_, ?_, ?_⟩
      case refine_10 => exact Or.inl ⟨Spec.CL.text "true", ⟨[], switch "utc" 'u', [], rfl, rfl, by simp⟩, (scBool_iff _ _).1 (by decide +kernel)⟩
      all_goals exact Or.inr ⟨by unfold Unset; decide +kernel, rfl⟩)
    (Or.inr ⟨by unfold Unset; decide +kernel, rfl⟩) (Or.inr ⟨by unfold Unset; decide +kernel, rfl⟩) (Or.inr ⟨by unfold Unset; decide +kernel, rfl⟩)

/-- `gpgpdump -u` with the marker packet under both headers -/
example (script : Shell → Bytes) :=
  have m : ∀ d, d = [0xca, 3, 0x50, 0x47, 0x50] ∨ d = [0xa8, 3, 0x50, 0x47, 0x50] →
      mainRun Tests.X (Tests.world d) id script [Spec.CL.text "-u"] =
        (some 0, utf8 (S "Marker Packet (Obsolete Literal Packet) (tag 10) (3 bytes)\n\tLiteral data (3 bytes)\n")) := by
    intro d hd
    unfold mainRun
    rw [runs_execute runs_u]
    rcases hd with rfl | rfl <;> decide +kernel
  C92_process (usual_tests _) (usual_tests _) utcX_ok.2.1 utcX_ok.2.1 utcX_ok.2.2 utcX_ok.2.2 id id script script short_u_debug short_u_debug runs_u runs_u
    (src := ⟨_, rawErr .eof, []⟩) (src' := ⟨_, rawErr .eof, []⟩) .stdin .stdin (m _ (.inl rfl)) (m _ (.inr rfl))

end Gpgpdump
