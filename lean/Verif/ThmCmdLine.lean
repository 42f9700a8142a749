import Verif.CmdLineParse

/-!
# C83: from the arguments of the process to the command
-/

namespace Gpgpdump
open Spec.CL

/-! ## The word for the command -/

theorem rootFlags_mem (f : Flag) : f ∈ rootFlags ↔ f ∈ special .root ++ general := by
  have h1 : ∀ f ∈ rootFlags, f ∈ special .root ++ general := by decide +kernel
  have h2 : ∀ f ∈ special .root ++ general, f ∈ rootFlags := by decide +kernel
  exact ⟨h1 f, h2 f⟩

theorem rootFlags_ordinary : Ordinary rootFlags := by
  have sub : ∀ f ∈ rootFlags, f ∈ flagsOf .root := fun f hf => List.mem_append_left _ hf
  have h := flagsOf_ordinary .root
  exact ⟨fun f hf g hg => h.names f (sub f hf) g (sub g hg), fun f hf g hg => h.shorts f (sub f hf) g (sub g hg),
    fun f hf => h.name f (sub f hf), fun f hf => h.letter f (sub f hf)⟩

theorem not_switch_name (n : Bytes) : (!(rootFlags.find? (fun f => f.name == n)).any fun f => f.type = .bool) = true ↔
    ∀ f ∈ special .root ++ general, f.name = n → f.type ≠ .bool := by
  constructor
  · intro h f hf hn hb
    rw [← hn, find_name rootFlags_ordinary ((rootFlags_mem f).2 hf)] at h
    simp [hb] at h
  · intro h
    cases e : rootFlags.find? (fun f => f.name == n) with
    | none => rfl
    | some g =>
      have := h g ((rootFlags_mem g).1 (List.mem_of_find?_eq_some e)) (by simpa using List.find?_some e)
      simp [this]

theorem not_switch_short (c : UInt8) : (!(rootFlags.find? (fun f => f.short == some c)).any fun f => f.type = .bool) = true ↔
    ∀ f ∈ special .root ++ general, f.short = some c → f.type ≠ .bool := by
  constructor
  · intro h f hf hn hb
    rw [find_short rootFlags_ordinary ((rootFlags_mem f).2 hf) hn] at h
    simp [hb] at h
  · intro h
    cases e : rootFlags.find? (fun f => f.short == some c) with
    | none => rfl
    | some g =>
      have := h g ((rootFlags_mem g).1 (List.mem_of_find?_eq_some e)) (by simpa using List.find?_some e)
      simp [this]

theorem takes_iff {a : Bytes} (h : a ≠ text "--") : cbTakesNext a = true ↔ Takes a := by
  rw [cbTakesNext, Bool.or_eq_true, Bool.and_eq_true, Bool.and_eq_true, Bool.and_eq_true, Bool.and_eq_true, Bool.and_eq_true]
  have hc : (!a.contains 0x3d) = true ↔ 0x3d ∉ a := by simp
  rw [hc, decide_eq_true_iff, decide_eq_true_iff]
  constructor
  · rintro (⟨⟨⟨n, rfl⟩, he⟩, hb⟩ | ⟨⟨⟨⟨n, rfl⟩, he⟩, hl⟩, hb⟩)
    · refine ⟨he, Or.inl ⟨n, ?_, rfl, ?_⟩⟩
      · rintro rfl; exact h rfl
      · exact (not_switch_name n).1 hb
    · match n, hl with
      | [c], _ =>
        refine ⟨he, Or.inr ⟨c, ?_, rfl, (not_switch_short c).1 hb⟩⟩
        rintro rfl
        exact h rfl
      | [], hl => exact absurd hl (by decide)
      | _ :: _ :: _, hl => simp [O, asciiOctets] at hl
  · rintro ⟨he, ⟨n, hn, rfl, hf⟩ | ⟨c, hc, rfl, hf⟩⟩
    · exact Or.inl ⟨⟨⟨n, rfl⟩, he⟩, (not_switch_name n).2 hf⟩
    · exact Or.inr ⟨⟨⟨⟨[c], rfl⟩, he⟩, rfl⟩, (not_switch_short c).2 hf⟩

theorem strip_word : ∀ {m : Nat} {args : List Bytes}, args.length < m → Word args (cbStrip args).head? := by
  intro m
  induction m with
  | zero => intro args h; exact absurd h (Nat.not_lt_zero _)
  | succ m ih =>
    intro args hm
    cases args with
    | nil => exact .nil
    | cons a r =>
      rw [cbStrip.eq_def]
      simp only
      by_cases h1 : a = O "--"
      · rw [if_pos h1, h1]; exact .rest
      · rw [if_neg h1]
        by_cases h2 : cbTakesNext a = true
        · rw [if_pos h2]
          have ht := (takes_iff h1).1 h2
          match r, hm with
          | [], _ => exact .last ht (by simp)
          | [x], _ => exact .last ht (by simp)
          | x :: b :: r, hm => exact .pair ht (ih (by simp only [List.length_cons] at hm ⊢; omega))
        · rw [if_neg h2]
          by_cases h3 : a ≠ [] ∧ a.head? ≠ some 0x2d
          · rw [if_pos h3]
            exact .here h3.1 h3.2
          · rw [if_neg h3]
            refine .pass ?_ h1 (fun e => h2 ((takes_iff h1).2 e)) (ih (by simp only [List.length_cons] at hm; omega))
            by_cases ha : a = []
            · exact Or.inl ha
            · exact Or.inr (Classical.not_not.1 fun e => h3 ⟨ha, e⟩)

theorem takes_dash {a : Bytes} (h : Takes a) : a ≠ text "--" ∧ a.head? = some 0x2d := by
  obtain ⟨_, ⟨n, hn, rfl, _⟩ | ⟨c, hc, rfl, _⟩⟩ := h
  · exact ⟨fun e => hn (List.append_cancel_left (e.trans (List.append_nil _).symm)), rfl⟩
  · refine ⟨fun e => hc ?_, rfl⟩
    have : [c] = [0x2d] := List.append_cancel_left (as := text "-") (e.trans rfl)
    exact (List.cons.inj this).1

theorem word_strip {args o} (h : Word args o) : o = (cbStrip args).head? := by
  induction h with
  | nil => rfl
  | rest => rw [cbStrip.eq_def]; simp only; rw [if_pos (show text "--" = O "--" from rfl)]; rfl
  | @here w r hw hd =>
    rw [cbStrip.eq_def]
    simp only
    have h1 : w ≠ O "--" := by rintro rfl; exact hd rfl
    rw [if_neg h1, if_neg, if_pos ⟨hw, hd⟩]
    · rfl
    · intro e; exact hd (takes_dash ((takes_iff h1).1 e)).2
  | @pass a r o ha hd ht _ ih =>
    rw [cbStrip.eq_def]
    simp only
    rw [if_neg (show ¬ a = O "--" from hd), if_neg (fun e => ht ((takes_iff hd).1 e)), if_neg]
    · exact ih
    · rintro ⟨h1, h2⟩
      rcases ha with ha | ha
      · exact h1 ha
      · exact h2 ha
  | @pair a x b r o ht _ ih =>
    rw [cbStrip.eq_def]
    simp only
    rw [if_neg (show ¬ a = O "--" from (takes_dash ht).1), if_pos ((takes_iff (takes_dash ht).1).2 ht)]
    exact ih
  | @last a r ht hl =>
    rw [cbStrip.eq_def]
    simp only
    rw [if_neg (show ¬ a = O "--" from (takes_dash ht).1), if_pos ((takes_iff (takes_dash ht).1).2 ht)]
    match r, hl with
    | [], _ => rfl
    | [x], _ => rfl
    | _ :: _ :: _, hl => simp at hl

theorem word_iff (args : List Bytes) (o : Option Bytes) : Word args o ↔ (cbStrip args).head? = o :=
  ⟨fun h => (word_strip h).symm, fun h => h ▸ strip_word (Nat.lt_succ_self _)⟩

theorem word_mem {args o w} (h : Word args o) (e : o = some w) : w ∈ args := by
  induction h with
  | nil => exact nomatch e
  | rest => exact nomatch e
  | here _ _ => cases e; simp
  | pass _ _ _ _ ih => exact List.mem_cons_of_mem _ (ih e)
  | pair _ _ ih => exact List.mem_cons_of_mem _ (List.mem_cons_of_mem _ (ih e))
  | last _ _ => exact nomatch e

theorem next_iff (w : Bytes) (c : CmdName) : cbNext w = some c ↔ w ∈ (names c).map text := by
  constructor
  · intro h
    rw [cbNext, Option.map_eq_some_iff] at h
    obtain ⟨x, hx, rfl⟩ := h
    have h1 : ∀ x ∈ cmdNames, ∀ w ∈ x.2, w ∈ (names x.1).map text := by decide +kernel
    exact h1 x (List.mem_of_find?_eq_some hx) w (by simpa using List.find?_some hx)
  · have h2 : ∀ w ∈ (names c).map text, cbNext w = some c := by cases c <;> decide +kernel
    exact h2 w

theorem find_iff (args : List Bytes) (c : CmdName) (rest : List Bytes) : cbFind args = some (c, rest) ↔ Selected args c rest := by
  rw [cbFind]
  cases hs : cbStrip args with
  | nil =>
    have hw : ∀ o, Word args o ↔ o = none := fun o => by rw [word_iff, hs]; exact ⟨fun h => h.symm, fun h => h.symm⟩
    constructor
    · intro h; cases h; exact Or.inl ⟨(hw _).2 rfl, rfl, rfl⟩
    · rintro (⟨_, rfl, rfl⟩ | ⟨w, _, _, h, _⟩)
      · rfl
      · exact nomatch (hw _).1 h
  | cons w ws =>
    have hw : ∀ o, Word args o ↔ o = some w := fun o => by rw [word_iff, hs]; exact ⟨fun h => h.symm, fun h => h.symm⟩
    simp only
    constructor
    · intro h
      cases hn : cbNext w with
      | none => rw [hn] at h; exact nomatch h
      | some d =>
        rw [hn] at h
        cases h
        obtain ⟨a, b, h1, h2, h3⟩ := List.exists_erase_eq (word_mem ((hw _).2 rfl) rfl)
        exact Or.inr ⟨w, a, b, (hw _).2 rfl, (next_iff _ _).1 hn, h2, h1, h3⟩
    · rintro (⟨h, _, _⟩ | ⟨v, a, b, h, hn, rfl, ha, rfl⟩)
      · exact nomatch (hw _).1 h
      · cases (hw _).1 h
        rw [(next_iff _ _).2 hn]
        simp only
        rw [List.erase_append_right _ ha, List.erase_cons_head]

/-! ## Values -/

theorem value_iff (s : List (Flag × Bytes)) (name : String) (v : Bytes) : pfValue s (O name) = some v ↔ Last s name v := by
  rw [pfValue, Option.map_eq_some_iff]
  constructor
  · rintro ⟨x, hx, rfl⟩
    obtain ⟨hp, as, bs, e, hn⟩ := List.find?_eq_some_iff_append.1 hx
    refine ⟨bs.reverse, x.1, as.reverse, ?_, by simpa [text_eq] using hp, ?_⟩
    · have := congrArg List.reverse e
      simpa using this
    · intro y hy
      have := hn y (by simpa using hy)
      simpa [text_eq] using this
  · rintro ⟨a, f, b, rfl, hf, hb⟩
    refine ⟨(f, v), ?_, rfl⟩
    rw [List.find?_eq_some_iff_append]
    refine ⟨by simpa [text_eq] using hf, b.reverse, a.reverse, by simp, ?_⟩
    intro y hy
    have := hb y (by simpa using hy)
    simpa [text_eq] using this

theorem value_none (s : List (Flag × Bytes)) (name : String) : pfValue s (O name) = none ↔ Unset s name := by
  rw [pfValue, Option.map_eq_none_iff, List.find?_eq_none]
  constructor
  · intro h x hx
    have := h x (by simpa using hx)
    simpa [text_eq] using this
  · intro h x hx
    have := h x (by simpa using hx)
    simpa [text_eq] using this

theorem last_not_unset {s name v} (h : Last s name v) : ¬ Unset s name := by
  obtain ⟨a, f, b, rfl, hf, _⟩ := h
  intro hu
  exact hu (f, v) (by simp) hf

theorem last_mem {s name v} (h : Last s name v) : ∃ f, (f, v) ∈ s ∧ f.name = text name := by
  obtain ⟨a, f, b, rfl, hf, _⟩ := h
  exact ⟨f, by simp, hf⟩

/-- the values given to a name can be given to flags of a type -/
def Typed (s : List (Flag × Bytes)) (name : String) (t : FlagType) : Prop := ∀ x ∈ s, x.1.name = text name → Fits t x.2

theorem on_iff {s name} (h : Typed s name .bool) (b : Bool) : On s name b ↔ pfBool s name = b := by
  rw [pfBool]
  cases hv : pfValue s (O name) with
  | none =>
    have hu := (value_none _ _).1 hv
    constructor
    · rintro (⟨v, hl, _⟩ | ⟨_, rfl⟩)
      · exact absurd hu (last_not_unset hl)
      · rfl
    · intro e; exact Or.inr ⟨hu, e.symm⟩
  | some v =>
    have hl := (value_iff _ _ _).1 hv
    obtain ⟨f, hm, hn⟩ := last_mem hl
    obtain ⟨b', hb'⟩ := h _ hm hn
    rw [Option.bind_some, (scBool_iff _ _).2 hb', Option.getD_some]
    constructor
    · rintro (⟨w, hw, hs⟩ | ⟨hu, _⟩)
      · have : v = w := Option.some.inj (hv.symm.trans ((value_iff _ _ _).2 hw))
        subst this
        exact Option.some.inj (((scBool_iff _ _).2 hb').symm.trans ((scBool_iff _ _).2 hs))
      · exact absurd hu (last_not_unset hl)
    · rintro rfl; exact Or.inl ⟨v, hl, hb'⟩

theorem num_iff {s name} (h : Typed s name .int) (d n : Int) : Num s name d n ↔ pfInt s name d = n := by
  rw [pfInt]
  cases hv : pfValue s (O name) with
  | none =>
    have hu := (value_none _ _).1 hv
    constructor
    · rintro (⟨v, hl, _⟩ | ⟨_, rfl⟩)
      · exact absurd hu (last_not_unset hl)
      · rfl
    · intro e; exact Or.inr ⟨hu, e.symm⟩
  | some v =>
    have hl := (value_iff _ _ _).1 hv
    obtain ⟨f, hm, hn⟩ := last_mem hl
    obtain ⟨b', hb'⟩ := h _ hm hn
    rw [Option.bind_some, (scInt_iff _ _).2 hb', Option.getD_some]
    constructor
    · rintro (⟨w, hw, hs⟩ | ⟨hu, _⟩)
      · have : v = w := Option.some.inj (hv.symm.trans ((value_iff _ _ _).2 hw))
        subst this
        exact Option.some.inj (((scInt_iff _ _).2 hb').symm.trans ((scInt_iff _ _).2 hs))
      · exact absurd hu (last_not_unset hl)
    · rintro rfl; exact Or.inl ⟨v, hl, hb'⟩

theorem txt_iff (s : List (Flag × Bytes)) (name : String) (d v : Bytes) : Txt s name d v ↔ pfString s name d = v := by
  rw [pfString]
  cases hv : pfValue s (O name) with
  | none =>
    have hu := (value_none _ _).1 hv
    constructor
    · rintro (hl | ⟨_, rfl⟩)
      · exact absurd hu (last_not_unset hl)
      · rfl
    · intro e; exact Or.inr ⟨hu, e.symm⟩
  | some w =>
    have hl := (value_iff _ _ _).1 hv
    constructor
    · rintro (h | ⟨hu, _⟩)
      · exact Option.some.inj (hv.symm.trans ((value_iff _ _ _).2 h))
      · exact absurd hu (last_not_unset hl)
    · rintro rfl; exact Or.inl hl

theorem mem_of_cons {F : List Flag} {y : Flag × Bytes} {s : List (Flag × Bytes)} (h : y.1 ∈ F) (hs : ∀ x ∈ s, x.1 ∈ F) :
    ∀ x ∈ y :: s, x.1 ∈ F := by
  intro x hx
  rcases List.mem_cons.1 hx with rfl | hx
  · exact h
  · exact hs x hx

theorem letters_mem {F t r s r'} (h : Letters F t r s r') : ∀ x ∈ s, x.1 ∈ F := by
  induction h with
  | done => simp
  | test => simp
  | switch hf _ _ _ ih => exact mem_of_cons hf ih
  | equals hf _ _ => intro x hx; rw [List.mem_singleton.1 hx]; exact hf
  | joined hf _ _ _ _ => intro x hx; rw [List.mem_singleton.1 hx]; exact hf
  | next hf _ _ => intro x hx; rw [List.mem_singleton.1 hx]; exact hf

theorem line_mem {F args s p} (h : Line F args s p) : ∀ x ∈ s, x.1 ∈ F := by
  induction h with
  | nil => simp
  | rest => simp
  | word _ _ ih => exact ih
  | long hf _ _ ih => exact mem_of_cons hf ih
  | longEq hf _ ih => exact mem_of_cons hf ih
  | longNext hf _ _ ih => exact mem_of_cons hf ih
  | letters _ _ hl _ ih => exact fun x hx => (List.mem_append.1 hx).elim (letters_mem hl x) (ih x)

theorem given_typed {c args s p} (h : Given (flags c) args s p) {name : String} {t : FlagType}
    (ht : ∀ f ∈ flags c, f.name = text name → f.type = t) : Typed s name t :=
  fun x hx hn => ht x.1 (line_mem h.1 x hx) hn ▸ h.2 x hx

/-- the arguments are accepted for a command, with these assignments to flags and these other arguments -/
def Spec.CL.Accepted (args : List Bytes) (c : CmdName) (s : List (Flag × Bytes)) (p : List Bytes) : Prop :=
  ∃ rest, Selected args c rest ∧ c ≠ .complete ∧ Given (flags c) rest s p

/-- the arguments ask for the completions of a shell -/
def Spec.CL.Completes (args : List Bytes) : Prop := ∃ rest, Selected args .complete rest ∧ rest ≠ []

theorem accepted_execute {args c s p} (h : Accepted args c s p) :
    cbExecute args = if pfBool s "help" then .command (flagsFrom s) (.usage false) else cbRun c s p := by
  obtain ⟨rest, h1, h2, h3⟩ := h
  rw [cbExecute, (find_iff _ _ _).2 h1]
  simp only
  rw [if_neg h2, (given_flags _ _ _ _).2 h3]

/-- Arguments are accepted in one way only. -/
theorem C83_unique {args : List Bytes} {c c' : CmdName} {s s' : List (Flag × Bytes)} {p p' : List Bytes} (h : Accepted args c s p)
    (h' : Accepted args c' s' p') : c = c' ∧ s = s' ∧ p = p' := by
  obtain ⟨rest, h1, h2, h3⟩ := h
  obtain ⟨rest', h1', h2', h3'⟩ := h'
  have e := Option.some.inj (((find_iff _ _ _).2 h1).symm.trans ((find_iff _ _ _).2 h1'))
  cases e
  have e := Option.some.inj (((given_flags _ _ _ _).2 h3).symm.trans ((given_flags _ _ _ _).2 h3'))
  cases e
  exact ⟨rfl, rfl, rfl⟩

theorem accepted_typed {args c s p} (h : Accepted args c s p) {name : String} {t : FlagType}
    (ht : ∀ c, ∀ f ∈ flags c, f.name = text name → f.type = t) : Typed s name t := by
  obtain ⟨rest, _, _, h3⟩ := h
  exact given_typed h3 (ht c)

theorem type_of_all (name : String) (t : FlagType)
    (h : ∀ c ∈ [CmdName.root, .version, .hkp, .github, .fetch, .completion, .help, .complete], ∀ f ∈ flags c, f.name = text name → f.type = t) :
    ∀ c, ∀ f ∈ flags c, f.name = text name → f.type = t := fun c => h c (by cases c <;> decide)

theorem on_value {args c s p} (h : Accepted args c s p) {name : String}
    (hn : name ∈ ["json", "armor", "cert", "debug", "int", "literal", "marker", "private", "utc", "help", "version", "clipboard", "secure", "raw"])
    (b : Bool) : On s name b ↔ pfBool s name = b := by
  refine on_iff (accepted_typed h (type_of_all name .bool ?_)) b
  have : ∀ name ∈ ["json", "armor", "cert", "debug", "int", "literal", "marker", "private", "utc", "help", "version", "clipboard", "secure", "raw"],
    ∀ c ∈ [CmdName.root, .version, .hkp, .github, .fetch, .completion, .help, .complete], ∀ f ∈ flags c, f.name = text name → f.type = .bool := by
    decide +kernel
  exact this name hn

theorem num_value {args c s p} (h : Accepted args c s p) {name : String} (hn : name ∈ ["indent", "port"]) (d n : Int) :
    Num s name d n ↔ pfInt s name d = n := by
  refine num_iff (accepted_typed h (type_of_all name .int ?_)) d n
  have : ∀ name ∈ ["indent", "port"],
    ∀ c ∈ [CmdName.root, .version, .hkp, .github, .fetch, .completion, .help, .complete], ∀ f ∈ flags c, f.name = text name → f.type = .int := by
    decide +kernel
  exact this name hn

theorem options_value {args c s p} (h : Accepted args c s p) (f : Flags) : Options s f ↔ f = flagsFrom s := by
  rw [Options, on_value h (by decide), num_value h (by decide), on_value h (by decide), on_value h (by decide), on_value h (by decide),
    on_value h (by decide), on_value h (by decide), on_value h (by decide), on_value h (by decide), on_value h (by decide)]
  constructor
  · rintro ⟨h1, h2, h3, h4, h5, h6, h7, h8, h9, h10⟩
    cases f
    simp only at h1 h2 h3 h4 h5 h6 h7 h8 h9 h10
    rw [flagsFrom, h1, h2, h3, h4, h5, h6, h7, h8, h9, h10]
  · rintro rfl
    exact ⟨rfl, rfl, rfl, rfl, rfl, rfl, rfl, rfl, rfl, rfl⟩

section
variable (X : Ext) (W : World) (other : Nat → Nat) (script : Shell → Bytes) (stale : Bool) (args : List Bytes)

/-- Every flag of accepted arguments has exactly one value. -/
theorem C83_values {c s p} (h : Accepted args c s p) :
    (∃ f, Options s f ∧ ∀ f', Options s f' → f' = f) ∧
    (∀ name ∈ ["help", "version", "clipboard", "secure", "raw"], ∃ b, On s name b ∧ ∀ b', On s name b' → b' = b) ∧
    (∃ n, Num s "port" 11371 n ∧ ∀ n', Num s "port" 11371 n' → n' = n) ∧
    (∀ name d, ∃ v, Txt s name d v ∧ ∀ v', Txt s name d v' → v' = v) := by
  refine ⟨⟨_, (options_value h _).2 rfl, fun f' h' => (options_value h f').1 h'⟩, ?_, ⟨_, (num_value h (by decide) _ _).2 rfl, ?_⟩, ?_⟩
  · intro name hn
    have hn' : name ∈ ["json", "armor", "cert", "debug", "int", "literal", "marker", "private", "utc", "help", "version", "clipboard", "secure", "raw"] :=
      List.mem_append_right ["json", "armor", "cert", "debug", "int", "literal", "marker", "private", "utc"] hn
    exact ⟨_, (on_value h hn' _).2 rfl, fun b' h' => ((on_value h hn' b').1 h').symm⟩
  · intro n' h'
    exact ((num_value h (by decide) _ _).1 h').symm
  · intro name d
    exact ⟨_, (txt_iff _ _ _ _).2 rfl, fun v' h' => ((txt_iff _ _ _ _).1 h').symm⟩

/-- Arguments that are not accepted: nothing is run, nothing is written to standard output, the exit code is abnormal. -/
theorem C83_refused (h : ∀ c s p, ¬ Accepted args c s p) (hc : ¬ Completes args) :
    executeArgs X W other script stale args = ⟨some .abnormal, [], stale⟩ := by
  rw [executeArgs, cbExecute]
  cases hf : cbFind args with
  | none => rfl
  | some x =>
    obtain ⟨c, rest⟩ := x
    have hs := (find_iff _ _ _).1 hf
    simp only
    by_cases h1 : c = .complete
    · subst h1
      rw [if_pos rfl]
      have : rest = [] := Classical.not_not.1 fun e => hc ⟨rest, hs, e⟩
      rw [this]
      rfl
    · rw [if_neg h1]
      cases hp : pfParse (flagsOf c) (rest.length + 1) rest with
      | none => rfl
      | some y => exact absurd ⟨rest, hs, h1, (given_flags c rest y.1 y.2).1 hp⟩ (h c y.1 y.2)

/-- A request for help or for completions writes nothing to standard output, and the exit code is normal. -/
theorem C83_help (h : (∃ c s p, Accepted args c s p ∧ (On s "help" true ∨ c = .help)) ∨ Completes args) :
    executeArgs X W other script stale args = ⟨some .normal, [], stale⟩ := by
  rcases h with ⟨c, s, p, h, ho⟩ | ⟨rest, hs, hne⟩
  · rw [executeArgs, accepted_execute h]
    cases hb : pfBool s "help" with
    | true => rfl
    | false =>
      rcases ho with ho | rfl
      · rw [on_value h (by decide)] at ho
        rw [ho] at hb
        exact nomatch hb
      · rfl
  · rw [executeArgs, cbExecute, (find_iff _ _ _).2 hs]
    simp only
    rw [if_pos trivial, show decide (rest = []) = false from decide_eq_false hne]
    rfl

/-- The root command gets the values of its flags; other arguments have no effect. -/
theorem C83_root {s p f v cb file} (h : Accepted args .root s p) (hh : On s "help" false) (hf : Options s f) (hv : On s "version" v)
    (hc : On s "clipboard" cb) (hp : Txt s "file" [] file) :
    executeArgs X W other script stale args = execute X W stale f (.root v cb (octetStr file)) := by
  rw [on_value h (by decide)] at hh hv hc
  rw [options_value h] at hf
  rw [txt_iff] at hp
  rw [executeArgs, accepted_execute h, hh, hf, ← hv, ← hc, ← hp]
  rfl

theorem C83_version {s p} (h : Accepted args .version s p) (hh : On s "help" false) :
    executeArgs X W other script stale args = ⟨some (if W.stderrOk then .normal else .abnormal), [], stale⟩ := by
  rw [on_value h (by decide)] at hh
  rw [executeArgs, accepted_execute h, hh]
  show execute X W stale (flagsFrom s) .version = _
  rw [execute, runE]
  cases W.stderrOk <;> rfl

theorem C83_hkp {s p f server port secure raw} (h : Accepted args .hkp s p) (hh : On s "help" false) (hf : Options s f)
    (hs : Txt s "keyserver" (text "keys.gnupg.net") server) (hp : Num s "port" 11371 port) (hc : On s "secure" secure) (hr : On s "raw" raw) :
    executeArgs X W other script stale args = execute X W stale f (.hkp p server port secure raw) := by
  rw [on_value h (by decide)] at hh hc hr
  rw [num_value h (by decide)] at hp
  rw [options_value h] at hf
  rw [txt_iff] at hs
  rw [executeArgs, accepted_execute h, hh, hf, ← hp, ← hs, ← hc, ← hr]
  rfl

theorem C83_github {s p f id raw} (h : Accepted args .github s p) (hh : On s "help" false) (hf : Options s f)
    (hi : Txt s "keyid" [] id) (hr : On s "raw" raw) :
    executeArgs X W other script stale args = execute X W stale f (.github (p.map octetStr) (goRunes id.length id) raw) := by
  rw [on_value h (by decide)] at hh hr
  rw [options_value h] at hf
  rw [txt_iff] at hi
  rw [executeArgs, accepted_execute h, hh, hf, ← hi, ← hr]
  rfl

theorem C83_fetch {s p f raw} (h : Accepted args .fetch s p) (hh : On s "help" false) (hf : Options s f) (hr : On s "raw" raw) :
    executeArgs X W other script stale args = execute X W stale f (.fetch (p.map octetStr) raw) := by
  rw [on_value h (by decide)] at hh hr
  rw [options_value h] at hf
  rw [executeArgs, accepted_execute h, hh, hf, ← hr]
  rfl

theorem C83_completion {s p} (h : Accepted args .completion s p) (hh : On s "help" false) :
    executeArgs X W other script stale args = executeCompletion other W script stale p := by
  rw [on_value h (by decide)] at hh
  rw [executeArgs, accepted_execute h, hh]
  rfl
end

end Gpgpdump
