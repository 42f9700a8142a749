import Verif.ThmCmdLine

/-!
# C84: flags may be written in any way and anywhere, and where this fails
-/

namespace Gpgpdump
open Spec.CL

/-! ## The name of the command in front -/

theorem name_word {c : CmdName} {w : Bytes} (h : w ∈ (names c).map text) : w ≠ [] ∧ w.head? ≠ some 0x2d := by
  have : ∀ w ∈ (names c).map text, w ≠ [] ∧ w.head? ≠ some 0x2d := by cases c <;> decide +kernel
  exact this w h

/-- With the name of a command in front, the arguments behind it are those of the command. -/
theorem C84_name_first {c : CmdName} {w : Bytes} (h : w ∈ (names c).map text) (r : List Bytes) : Selected (w :: r) c r :=
  Or.inr ⟨w, [], r, .here (name_word h).1 (name_word h).2, h, rfl, by simp, rfl⟩

/-- an argument in front of the name that cannot be mistaken: it begins with a hyphen and does not take the next argument -/
def Spec.CL.Alone (a : Bytes) : Prop := a.head? = some 0x2d ∧ a ≠ text "--" ∧ ¬ Takes a

theorem word_behind {a : List Bytes} (ha : ∀ x ∈ a, Alone x) {r o} (h : Word r o) : Word (a ++ r) o := by
  induction a with
  | nil => exact h
  | cons x a ih =>
    obtain ⟨h1, h2, h3⟩ := ha x (by simp)
    exact .pass (Or.inr h1) h2 h3 (ih fun y hy => ha y (List.mem_cons_of_mem _ hy))

theorem alone_mem {a : List Bytes} (ha : ∀ x ∈ a, Alone x) {w : Bytes} (hw : w.head? ≠ some 0x2d) : w ∉ a :=
  fun h => hw (ha w h).1

/-- Flags in front of the name of the command belong to the command too, if none of them takes the next argument. -/
theorem C84_name_behind_flags {c : CmdName} {w : Bytes} (h : w ∈ (names c).map text) (a r : List Bytes) (ha : ∀ x ∈ a, Alone x) :
    Selected (a ++ w :: r) c (a ++ r) :=
  Or.inr ⟨w, a, r, word_behind ha (.here (name_word h).1 (name_word h).2), h, rfl, alone_mem ha (name_word h).2, rfl⟩

/-- The same for a flag with its value in the next argument, unless the value is the name. -/
theorem C84_name_behind_value_partial {c : CmdName} {w : Bytes} (h : w ∈ (names c).map text) (a r : List Bytes) (ha : ∀ x ∈ a, Alone x) (t v : Bytes)
    (ht : Takes t) (hv : v ≠ w) : Selected (t :: v :: a ++ w :: r) c (t :: v :: a ++ r) := by
  have hw := word_behind ha (.here (r := r) (name_word h).1 (name_word h).2)
  refine Or.inr ⟨w, t :: v :: a, r, ?_, h, rfl, ?_, rfl⟩
  · cases a with
    | nil => exact .pair ht hw
    | cons x a => exact .pair ht hw
  · intro hm
    rcases List.mem_cons.1 hm with e | hm
    · exact (name_word h).2 (e ▸ (takes_dash ht).2)
    · rcases List.mem_cons.1 hm with e | hm
      · exact hv e.symm
      · exact alone_mem ha (name_word h).2 hm

/-! ## The root command -/

/-- flags of the root command, each of which is written apart from the others if its value stands in the next argument -/
inductive Spec.CL.Apart : List Bytes → List (Flag × Bytes) → Prop
  | nil : Apart [] []
  | long {f r s} : f ∈ special .root ++ general → f.type = .bool → Apart r s → Apart ((text "--" ++ f.name) :: r) ((f, text "true") :: s)
  | longEq {f v r s} : f ∈ special .root ++ general → Apart r s → Apart ((text "--" ++ f.name ++ text "=" ++ v) :: r) ((f, v) :: s)
  | longNext {f v r s} : f ∈ special .root ++ general → f.type ≠ .bool → Apart r s → Apart ((text "--" ++ f.name) :: v :: r) ((f, v) :: s)
  | letters {t r s s'} : t ≠ [] → (∀ r, Letters (special .root ++ general) t r s r) → Apart r s' → Apart ((text "-" ++ t) :: r) (s ++ s')
  | letterNext {f c v r s} : f ∈ special .root ++ general → f.short = some c → f.type ≠ .bool → Apart r s → Apart ([0x2d, c] :: v :: r) ((f, v) :: s)

theorem root_sub : ∀ f ∈ special .root ++ general, f ∈ flags .root := fun _ hf => List.mem_cons_of_mem _ hf

theorem root_ordinary : Ordinary (special .root ++ general) := by
  have h := rootFlags_ordinary
  have m := fun f => (rootFlags_mem f).2
  exact ⟨fun f hf g hg => h.names f (m f hf) g (m g hg), fun f hf g hg => h.shorts f (m f hf) g (m g hg), fun f hf => h.name f (m f hf),
    fun f hf => h.letter f (m f hf)⟩

theorem Letters.mono {F G : List Flag} (h : ∀ f ∈ F, f ∈ G) {t r s r'} (hl : Letters F t r s r') : Letters G t r s r' := by
  induction hl with
  | done => exact .done
  | test => exact .test
  | switch hf hc hb _ ih => exact .switch (h _ hf) hc hb ih
  | equals hf hc hv => exact .equals (h _ hf) hc hv
  | joined hf hc hb hv hq => exact .joined (h _ hf) hc hb hv hq
  | next hf hc hb => exact .next (h _ hf) hc hb

theorem apart_line {args s} (h : Apart args s) : Line (flags .root) args s [] := by
  induction h with
  | nil => exact .nil
  | long hf hb _ ih => exact .long (root_sub _ hf) hb ih
  | longEq hf _ ih => exact .longEq (root_sub _ hf) ih
  | longNext hf hb _ ih => exact .longNext (root_sub _ hf) hb ih
  | letters ht hl _ ih =>
    exact .letters ht (letters_head root_ordinary (hl [])).2 (Letters.mono root_sub (hl _)) ih
  | @letterNext f c v r s hf hc hb _ ih =>
    exact .letters (t := [c]) (s := [(f, v)]) (by simp) (by simpa [hc] using (root_ordinary.letter f hf).2.2) (.next (root_sub _ hf) hc hb) ih

theorem not_takes_switch {f : Flag} (hf : f ∈ special .root ++ general) (hb : f.type = .bool) : ¬ Takes (text "--" ++ f.name) := by
  rintro ⟨_, ⟨n, _, e, h⟩ | ⟨c, hc, e, _⟩⟩
  · exact h f hf (List.append_cancel_left e) hb
  · have e' : (0x2d : UInt8) :: f.name = [c] := List.append_cancel_left (as := text "-") e
    exact hc ((List.cons.inj e').1.symm)

theorem takes_long {f : Flag} (hf : f ∈ special .root ++ general) (hb : f.type ≠ .bool) : Takes (text "--" ++ f.name) := by
  obtain ⟨h1, _, h3⟩ := root_ordinary.name f hf
  refine ⟨?_, Or.inl ⟨f.name, h1, rfl, fun g hg hn => ?_⟩⟩
  · intro h
    rcases List.mem_append.1 h with h | h
    · exact absurd h (by decide +kernel)
    · exact h3 h
  · rw [root_ordinary.names g hg f hf hn]; exact hb

theorem takes_letter {f : Flag} {c} (hf : f ∈ special .root ++ general) (hc : f.short = some c) (hb : f.type ≠ .bool) : Takes [0x2d, c] := by
  have h := root_ordinary.letter f hf
  rw [hc] at h
  refine ⟨?_, Or.inr ⟨c, fun e => h.2.2 (by rw [e]), rfl, fun g hg hn => ?_⟩⟩
  · intro hm
    simp only [List.mem_cons, List.not_mem_nil, or_false] at hm
    rcases hm with hm | hm
    · exact absurd hm (by decide)
    · exact h.2.1 (by rw [← hm])
  · rw [root_ordinary.shorts g hg f hf c hn hc]; exact hb

/-- letters that leave the next argument alone are not taken for a flag with a value -/
theorem letters_pass {t s} (ht : t ≠ []) (h : ∀ r, Letters (special .root ++ general) t r s r) : ¬ Takes (text "-" ++ t) := by
  rintro ⟨_, ⟨n, hn, e, _⟩ | ⟨c, hc, e, hs⟩⟩
  · have e' : t = 0x2d :: n := List.append_cancel_left (as := text "-") (e.trans rfl)
    exact (letters_head root_ordinary (h [])).2 (by rw [e']; rfl)
  · have e' : t = [c] := List.append_cancel_left (as := text "-") e
    subst e'
    have := h []
    cases this with
    | switch hf hc hb _ => exact hs _ hf hc hb
    | joined _ _ _ hv _ => exact hv rfl

theorem apart_word {args s} (h : Apart args s) : Word args none := by
  have dash : ∀ {n : Bytes}, n ≠ [] → text "--" ++ n ≠ text "--" := fun hn e => hn (List.append_cancel_left (e.trans (List.append_nil _).symm))
  induction h with
  | nil => exact .nil
  | @long f r s hf hb _ ih => exact .pass (Or.inr rfl) (dash (root_ordinary.name f hf).1) (not_takes_switch hf hb) ih
  | @longEq f v r s hf _ ih =>
    refine .pass (Or.inr rfl) ?_ ?_ ih
    · rw [List.append_assoc, List.append_assoc]
      exact dash (by simp [text])
    · rintro ⟨h, _⟩
      exact h (by simp [text])
  | @longNext f v r s hf hb _ ih =>
    cases r with
    | nil => exact .last (takes_long hf hb) (by simp)
    | cons b r => exact .pair (takes_long hf hb) ih
  | @letters t r s s' ht hl _ ih =>
    refine .pass (Or.inr rfl) ?_ (letters_pass ht hl) ih
    intro e
    have e' : t = [0x2d] := List.append_cancel_left (as := text "-") (e.trans rfl)
    exact (letters_head root_ordinary (hl [])).2 (by rw [e']; rfl)
  | @letterNext f c v r s hf hc hb _ ih =>
    cases r with
    | nil => exact .last (takes_letter hf hc hb) (by simp)
    | cons b r => exact .pair (takes_letter hf hc hb) ih

/-- Flags of the root command in any notation run the root command with these flags. Missing from the full claim: a bundle of letters
(`-uf`) whose value stands in the next argument, see `C84_bundle`. -/
theorem C84_root_partial {args s} (h : Apart args s) (hv : ∀ x ∈ s, Fits x.1.type x.2) : Accepted args .root s [] :=
  ⟨args, Or.inl ⟨apart_word h, rfl, rfl⟩, by decide, apart_line h, hv⟩

/-- A bundle of letters with the value of the last one in the next argument is never the root command: the value is taken for the
name of a command. -/
theorem C84_bundle (t v : Bytes) (ht : 2 ≤ t.length) (hd : t.head? ≠ some 0x2d) (hv : v ≠ []) (hv' : v.head? ≠ some 0x2d) :
    ∀ s p, ¬ Accepted [text "-" ++ t, v] .root s p := by
  rintro s p ⟨rest, h, _, _⟩
  have hn : ¬ Takes (text "-" ++ t) := by
    rintro ⟨_, ⟨n, _, e, _⟩ | ⟨c, _, e, _⟩⟩
    · have e' : t = 0x2d :: n := List.append_cancel_left (as := text "-") (e.trans rfl)
      exact hd (by rw [e']; rfl)
    · have e' : t = [c] := List.append_cancel_left (as := text "-") e
      rw [e'] at ht
      simp at ht
  have hne : text "-" ++ t ≠ text "--" := by
    intro e
    have e' : t = [0x2d] := List.append_cancel_left (as := text "-") (e.trans rfl)
    rw [e'] at ht
    simp at ht
  have hw : Word [text "-" ++ t, v] (some v) := .pass (Or.inr rfl) hne hn (.here hv hv')
  rcases h with ⟨h, _, _⟩ | ⟨w, a, b, h, hm, _⟩
  · exact nomatch ((word_iff _ _).1 hw).symm.trans ((word_iff _ _).1 h)
  · exact nomatch hm

theorem refused_word (X : Ext) (W : World) (other : Nat → Nat) (script : Shell → Bytes) (stale : Bool) {args v} (h : Word args (some v))
    (hn : ∀ c, v ∉ (names c).map text) : executeArgs X W other script stale args = ⟨some .abnormal, [], stale⟩ := by
  have hs : ∀ c rest, ¬ Selected args c rest := by
    rintro c rest (⟨h', _, _⟩ | ⟨w, a, b, h', hm, _⟩)
    · exact nomatch ((word_iff _ _).1 h).symm.trans ((word_iff _ _).1 h')
    · have : v = w := Option.some.inj (((word_iff _ _).1 h).symm.trans ((word_iff _ _).1 h'))
      exact hn c (this ▸ hm)
  exact C83_refused X W other script stale args (fun c s p ⟨rest, h, _⟩ => hs c rest h) (fun ⟨rest, h, _⟩ => hs _ rest h)

/-- If the value is not the name of a command either, the arguments are refused. -/
theorem C84_bundle_refused (X : Ext) (W : World) (other : Nat → Nat) (script : Shell → Bytes) (stale : Bool) (t v : Bytes) (ht : 2 ≤ t.length)
    (hd : t.head? ≠ some 0x2d) (hv : v ≠ []) (hv' : v.head? ≠ some 0x2d) (hn : ∀ c, v ∉ (names c).map text) :
    executeArgs X W other script stale [text "-" ++ t, v] = ⟨some .abnormal, [], stale⟩ := by
  have hnt : ¬ Takes (text "-" ++ t) := by
    rintro ⟨_, ⟨n, _, e, _⟩ | ⟨c, _, e, _⟩⟩
    · have e' : t = 0x2d :: n := List.append_cancel_left (as := text "-") (e.trans rfl)
      exact hd (by rw [e']; rfl)
    · have e' : t = [c] := List.append_cancel_left (as := text "-") e
      rw [e'] at ht
      simp at ht
  have hne : text "-" ++ t ≠ text "--" := by
    intro e
    have e' : t = [0x2d] := List.append_cancel_left (as := text "-") (e.trans rfl)
    rw [e'] at ht
    simp at ht
  exact refused_word X W other script stale (.pass (Or.inr rfl) hne hnt (.here hv hv')) hn

/-- `--help` or `-h` in front of two arguments takes the first one with it: if the second is not the name of a command, help is refused. -/
theorem C84_help_refused (X : Ext) (W : World) (other : Nat → Nat) (script : Shell → Bytes) (stale : Bool) (a v : Bytes) (r : List Bytes)
    (hv : v ≠ []) (hv' : v.head? ≠ some 0x2d) (hn : ∀ c, v ∉ (names c).map text) :
    executeArgs X W other script stale (text "--help" :: a :: v :: r) = ⟨some .abnormal, [], stale⟩ ∧
    executeArgs X W other script stale (text "-h" :: a :: v :: r) = ⟨some .abnormal, [], stale⟩ := by
  have h1 : Takes (text "--help") := (takes_iff (by decide +kernel)).1 (by decide +kernel)
  have h2 : Takes (text "-h") := (takes_iff (by decide +kernel)).1 (by decide +kernel)
  exact ⟨refused_word X W other script stale (.pair h1 (.here hv hv')) hn, refused_word X W other script stale (.pair h2 (.here hv hv')) hn⟩

/-! ## Frequent command lines -/

/-- no flag set -/
def Spec.CL.noFlags : Flags := ⟨false, 0, false, false, false, false, false, false, false, false⟩

theorem options_nil : Options [] noFlags := by
  have h : ∀ name, On [] name false := fun name => Or.inr ⟨by intro x hx; simp at hx, rfl⟩
  exact ⟨h _, Or.inr ⟨by intro x hx; simp at hx, rfl⟩, h _, h _, h _, h _, h _, h _, h _, h _⟩

theorem options_file (f : Flag) (hf : f.name = text "file") (v : Bytes) : Options [(f, v)] noFlags ∧ On [(f, v)] "help" false ∧ On [(f, v)] "version" false ∧
    On [(f, v)] "clipboard" false ∧ Txt [(f, v)] "file" [] v := by
  have h : ∀ name, text name ≠ text "file" → Unset [(f, v)] name := by
    intro name hn x hx
    rw [List.mem_singleton.1 hx, hf]
    exact fun e => hn e.symm
  have o : ∀ name, text name ≠ text "file" → On [(f, v)] name false := fun name hn => Or.inr ⟨h name hn, rfl⟩
  refine ⟨⟨o _ ?_, Or.inr ⟨h _ ?_, rfl⟩, o _ ?_, o _ ?_, o _ ?_, o _ ?_, o _ ?_, o _ ?_, o _ ?_, o _ ?_⟩, o _ ?_, o _ ?_, o _ ?_,
    Or.inl ⟨[], f, [], rfl, hf, by simp⟩⟩ <;> decide +kernel

section
variable (X : Ext) (W : World) (other : Nat → Nat) (script : Shell → Bytes) (stale : Bool)

/-- Without arguments, with a single hyphen, or with anything behind two hyphens, standard input is dumped. -/
theorem C84_stdin (args : List Bytes) (h : args = [] ∨ args = [text "-"] ∨ ∃ r, args = text "--" :: r) :
    executeArgs X W other script stale args = execute X W stale noFlags (.root false false []) := by
  have o : ∀ name, On [] name false := fun name => Or.inr ⟨by intro x hx; simp at hx, rfl⟩
  have ha : ∃ p, Accepted args .root [] p := by
    rcases h with rfl | rfl | ⟨r, rfl⟩
    · exact ⟨_, _, Or.inl ⟨.nil, rfl, rfl⟩, by decide, .nil, by simp⟩
    · refine ⟨_, _, Or.inl ⟨.pass (Or.inr rfl) (by decide +kernel) (fun h => ?_) .nil, rfl, rfl⟩, by decide, .word (Or.inr rfl) .nil, by simp⟩
      exact absurd ((takes_iff (by decide +kernel)).2 h) (by decide +kernel)
    · exact ⟨_, _, Or.inl ⟨.rest, rfl, rfl⟩, by decide, .rest, by simp⟩
  obtain ⟨p, ha⟩ := ha
  exact C83_root X W other script stale args ha (o _) options_nil (o _) (o _) (Or.inr ⟨by intro x hx; simp at hx, rfl⟩)

/-- `-f FILE`, `--file FILE`, `--file=FILE` and, for a name without `=` in front, `-fFILE` dump the file, whatever its name is. -/
theorem C84_file (file : Bytes) (args : List Bytes) (h : args = [text "-f", file] ∨ args = [text "--file", file] ∨ args = [text "--file=" ++ file] ∨
    (args = [text "-f" ++ file] ∧ file ≠ [] ∧ file.head? ≠ some 0x3d)) :
    executeArgs X W other script stale args = execute X W stale noFlags (.root false false (octetStr file)) := by
  have hf : (⟨text "file", some 0x66, .string⟩ : Flag) ∈ special .root ++ general := by decide +kernel
  obtain ⟨h1, h2, h3, h4, h5⟩ := options_file ⟨text "file", some 0x66, .string⟩ rfl file
  have ha : Apart args [(⟨text "file", some 0x66, .string⟩, file)] := by
    rcases h with rfl | rfl | rfl | ⟨rfl, hne, he⟩
    · exact .letterNext hf rfl (by decide) .nil
    · exact .longNext hf (by decide) .nil
    · exact .longEq hf .nil
    · exact .letters (t := 0x66 :: file) (s' := []) (by simp) (fun r => .joined hf rfl (by decide) hne (fun e => absurd e he)) .nil
  exact C83_root X W other script stale args (C84_root_partial ha (fun x hx => by rw [List.mem_singleton.1 hx]; exact trivial)) h2 h1 h3 h4 h5

/-- the switches of the root command that have a letter -/
def Spec.CL.letters : List (Char × String) :=
  [('a', "armor"), ('c', "cert"), ('i', "int"), ('j', "json"), ('l', "literal"), ('m', "marker"), ('p', "private"), ('u', "utc"), ('v', "version")]

def letterName (c : Char) : String := (letters.lookup c).getD ""
def letterSet (c : Char) : Flag × Bytes := (switch (letterName c) c, text "true")

theorem on_letters {t : List Char} (ht : ∀ c ∈ t, c ∈ letters.map Prod.fst) (name : String) (c : Char)
    (hn : ∀ d ∈ letters.map Prod.fst, text (letterName d) = text name ↔ d = c) : On (t.map letterSet) name (decide (c ∈ t)) := by
  by_cases h : c ∈ t
  · rw [decide_eq_true h]
    cases hv : pfValue (t.map letterSet) (O name) with
    | none =>
      have := (value_none _ _).1 hv (letterSet c) (List.mem_map_of_mem h)
      exact absurd ((hn c (ht c h)).2 rfl) this
    | some v =>
      have hl := (value_iff _ _ _).1 hv
      obtain ⟨f, hm, _⟩ := last_mem hl
      obtain ⟨d, _, e⟩ := List.mem_map.1 hm
      have : v = text "true" := (Prod.mk.inj e).2.symm
      subst this
      exact Or.inl ⟨_, hl, Or.inl ⟨rfl, by decide +kernel⟩⟩
  · rw [decide_eq_false h]
    refine Or.inr ⟨?_, rfl⟩
    intro x hx e
    obtain ⟨d, hd, rfl⟩ := List.mem_map.1 hx
    exact h ((hn d (ht d hd)).1 e ▸ hd)

theorem unset_letters {t : List Char} (ht : ∀ c ∈ t, c ∈ letters.map Prod.fst) (name : String)
    (hn : ∀ d ∈ letters.map Prod.fst, text (letterName d) ≠ text name) : Unset (t.map letterSet) name := by
  intro x hx e
  obtain ⟨d, hd, rfl⟩ := List.mem_map.1 hx
  exact hn d (ht d hd) e

theorem letters_bundle {t : List Char} (ht : ∀ c ∈ t, c ∈ letters.map Prod.fst) (r : List Bytes) :
    Letters (special .root ++ general) (t.map fun c => UInt8.ofNat c.toNat) r (t.map letterSet) r := by
  induction t with
  | nil => exact .done
  | cons c t ih =>
    have hc := ht c (by simp)
    have h1 : ∀ c ∈ letters.map Prod.fst, switch (letterName c) c ∈ special .root ++ general := by decide +kernel
    exact .switch (h1 c hc) rfl rfl (ih fun d hd => ht d (List.mem_cons_of_mem _ hd))

/-- Any bundle of the letters `acijlmpuv`, in any order and with repetitions, dumps standard input with exactly these options on. -/
theorem C84_letters (t : List Char) (hne : t ≠ []) (ht : ∀ c ∈ t, c ∈ ['a', 'c', 'i', 'j', 'l', 'm', 'p', 'u', 'v']) :
    executeArgs X W other script stale [text "-" ++ t.map fun c => UInt8.ofNat c.toNat] =
      execute X W stale ⟨decide ('j' ∈ t), 0, decide ('a' ∈ t), decide ('c' ∈ t), false, decide ('i' ∈ t), decide ('l' ∈ t), decide ('m' ∈ t),
        decide ('p' ∈ t), decide ('u' ∈ t)⟩ (.root (decide ('v' ∈ t)) false []) := by
  have ht' : ∀ c ∈ t, c ∈ letters.map Prod.fst := ht
  have ha : Apart [text "-" ++ t.map fun c => UInt8.ofNat c.toNat] (t.map letterSet ++ []) :=
    .letters (by simpa using hne) (letters_bundle ht') .nil
  rw [List.append_nil] at ha
  have hv : ∀ x ∈ t.map letterSet, Fits x.1.type x.2 := by
    intro x hx
    obtain ⟨d, _, rfl⟩ := List.mem_map.1 hx
    exact fits_true (f := switch (letterName d) d) rfl
  have u : ∀ name, (∀ d ∈ letters.map Prod.fst, text (letterName d) ≠ text name) → On (t.map letterSet) name false :=
    fun name h => Or.inr ⟨unset_letters ht' name h, rfl⟩
  refine C83_root X W other script stale _ (C84_root_partial ha hv) (u _ ?_)
    ⟨on_letters ht' _ _ ?_, Or.inr ⟨unset_letters ht' _ ?_, rfl⟩, on_letters ht' _ _ ?_, on_letters ht' _ _ ?_, u _ ?_, on_letters ht' _ _ ?_,
      on_letters ht' _ _ ?_, on_letters ht' _ _ ?_, on_letters ht' _ _ ?_, on_letters ht' _ _ ?_⟩ (on_letters ht' _ _ ?_) (u _ ?_)
    (Or.inr ⟨unset_letters ht' _ ?_, rfl⟩) <;> decide +kernel
end

/-! ## Concrete cases -/

/-- `gpgpdump --keyid github -u github alice`: the value of `--keyid` is removed in place of the name of the command, so that `-u` is
taken for the key ID and there are two user names. -/
theorem C84_example_shadow : Selected [text "--keyid", text "github", text "-u", text "github", text "alice"] .github
    [text "--keyid", text "-u", text "github", text "alice"] :=
  (find_iff _ _ _).1 (by decide +kernel)

/-- `gpgpdump -u gh --keyid=0x1234 alice --indent 0x_10` -/
theorem C83_example : Accepted [text "-u", text "gh", text "--keyid=0x1234", text "alice", text "--indent", text "0x_10"] .github
    [(switch "utc" 'u', text "true"), (long "keyid" .string, text "0x1234"), (long "indent" .int, text "0x_10")] [text "alice"] ∧
    Num [(switch "utc" 'u', text "true"), (long "keyid" .string, text "0x1234"), (long "indent" .int, text "0x_10")] "indent" 0 16 :=
  ⟨⟨_, (find_iff _ _ [text "-u", text "--keyid=0x1234", text "alice", text "--indent", text "0x_10"]).1 (by decide +kernel), by decide,
    (given_flags _ _ _ _).1 (by decide +kernel)⟩, Or.inl ⟨text "0x_10", ⟨[(switch "utc" 'u', text "true"), (long "keyid" .string, text "0x1234")], long "indent" .int, [], rfl, rfl, by simp⟩,
    (scInt_iff _ _).1 (by decide +kernel)⟩⟩

/-- `gpgpdump -uf key.asc` is refused, although `-u -f key.asc` dumps the file. -/
theorem C84_example_bundle (X : Ext) (W : World) (other : Nat → Nat) (script : Shell → Bytes) :
    executeArgs X W other script false [text "-uf", text "key.asc"] = ⟨some .abnormal, [], false⟩ ∧
    Accepted [text "-u", text "-f", text "key.asc"] .root [(switch "utc" 'u', text "true"), (⟨text "file", some 0x66, .string⟩, text "key.asc")] [] :=
  ⟨C84_bundle_refused X W other script false (text "uf") (text "key.asc") (by decide +kernel) (by decide +kernel) (by decide +kernel)
    (by decide +kernel) (by intro c; cases c <;> decide +kernel),
   ⟨_, (find_iff _ _ [text "-u", text "-f", text "key.asc"]).1 (by decide +kernel), by decide, (given_flags _ _ _ _).1 (by decide +kernel)⟩⟩

end Gpgpdump
