import Verif.ContextApi

/-!
# C70: every history of calls on a `Context`

Specification: what a call returns is a function of the calls made before it. `h` is the history, oldest call first.
-/

namespace Gpgpdump

namespace Spec.CX

/-- the calls that choose a value for an option: by its code, or by its name in any letter case -/
inductive Chooses : CCall → OptCode → Bool → Prop
  | code {code f} : 0 < code → Chooses (.set code f) code f
  | name {p s f} : p ∈ optionNames → Forms s p.1.toList → Chooses (.setByString s f) p.2 f

/-- the calls that choose a mode -/
inductive Mods : CCall → Mode → Prop
  | reset : Mods .resetAlg .notSpecified
  | sym : Mods .setAlgSymEnc .symEnc
  | pub : Mods .setAlgPubEnc .pubEnc

/-- the last call of the history that chooses a value for the option chose true -/
def On (h : List CCall) (code : OptCode) : Prop :=
  ∃ a c b, h = a ++ c :: b ∧ Chooses c code true ∧ ∀ d ∈ b, ∀ f, ¬ Chooses d code f

/-- the mode chosen last -/
def InMode (h : List CCall) (m : Mode) : Prop :=
  (∃ a c b, h = a ++ c :: b ∧ Mods c m ∧ ∀ d ∈ b, ∀ n, ¬ Mods d n) ∨ (m = .notSpecified ∧ ∀ d ∈ h, ∀ n, ¬ Mods d n)

/-- "true" exactly if the proposition holds -/
def Word (P : Prop) (s : String) : Prop := (P ∧ s = "true") ∨ (¬ P ∧ s = "false")

/-- What a call returns, given which options are on and the mode (`none`: there is no context to have a mode).
`store` says whether the calls that choose a value for an option have a map to write to. -/
inductive Returns (store : Prop) (on : OptCode → Prop) (m : Option Mode) : CCall → COut → Prop
  | get {code b} : (b = true ↔ on code) → Returns store on m (.get code) (.flag b)
  | armor {b} : (b = true ↔ on 1) → Returns store on m .armor (.flag b)
  | cert {b} : (b = true ↔ on 2 ∨ on 3) → Returns store on m .cert (.flag b)
  | debug {b} : (b = true ↔ on 3) → Returns store on m .debug (.flag b)
  | gdump {b} : (b = true ↔ on 4 ∨ on 3) → Returns store on m .gdump (.flag b)
  | integer {b} : (b = true ↔ on 5 ∨ on 3) → Returns store on m .integer (.flag b)
  | literal {b} : (b = true ↔ on 6 ∨ on 3) → Returns store on m .literal (.flag b)
  | marker {b} : (b = true ↔ on 7 ∨ on 3) → Returns store on m .marker (.flag b)
  | priv {b} : (b = true ↔ on 8 ∨ on 3) → Returns store on m .priv (.flag b)
  | utc {b} : (b = true ↔ on 9) → Returns store on m .utc (.flag b)
  | string {w1 w2 w3 w4 w5 w6 w7 w8 w9} : Word (on 1) w1 → Word (on 2 ∨ on 3) w2 → Word (on 3) w3 → Word (on 4 ∨ on 3) w4 →
      Word (on 5 ∨ on 3) w5 → Word (on 6 ∨ on 3) w6 → Word (on 7 ∨ on 3) w7 → Word (on 8 ∨ on 3) w8 → Word (on 9) w9 →
      Returns store on m .string (.text ("armor:".toList ++ w1.toList ++ ",cert:".toList ++ w2.toList ++ ",debug:".toList ++ w3.toList ++
        ",gdump:".toList ++ w4.toList ++ ",int:".toList ++ w5.toList ++ ",literal:".toList ++ w6.toList ++ ",marker:".toList ++
        w7.toList ++ ",private:".toList ++ w8.toList ++ ",utc:".toList ++ w9.toList))
  | algMode {n} : m = some n → Returns store on m .algMode (.mode n)
  | isSymEnc {n b} : m = some n → (b = true ↔ n = .symEnc) → Returns store on m .isSymEnc (.flag b)
  | isPubEnc {n b} : m = some n → (b = true ↔ n = .pubEnc) → Returns store on m .isPubEnc (.flag b)
  | unspecified : m = some .notSpecified → Returns store on m .modeString (.text "Mode not Specified".toList)
  | symmetric : m = some .symEnc → Returns store on m .modeString (.text "Sym. Encryption Mode".toList)
  | publicKey : m = some .pubEnc → Returns store on m .modeString (.text "Pubkey Encryption Mode".toList)
  | option {c} : (∃ code f, c = .set code f) ∨ (∃ s f, c = .setByString s f) → store ∨ (∀ code f, ¬ Chooses c code f) →
      Returns store on m c .done
  | noMap {c code f} : Chooses c code f → ¬ store → Returns store on m c .crash
  | mods {c n n'} : m = some n → Mods c n' → Returns store on m c .done
  /-- every method of the mode dereferences the pointer -/
  | noMode {c} : m = none → c = .algMode ∨ c = .isSymEnc ∨ c = .isPubEnc ∨ c = .modeString ∨ (∃ n, Mods c n) →
      Returns store on m c .crash

end Spec.CX

open Spec.CX

theorem chooses_name {s : Str} {f g : Bool} {code : OptCode} :
    Chooses (.setByString s f) code g ↔ g = f ∧ 0 < code ∧ getOptCode s = code := by
  have hpos : ∀ p ∈ optionNames, 0 < p.2 := by decide
  have h := C32_exact s
  constructor
  · intro hc
    cases hc with
    | name hp hf => exact ⟨rfl, hpos _ hp, (h.1 _ hp).mpr hf⟩
  · rintro ⟨rfl, h0, rfl⟩
    obtain ⟨p, hp, he⟩ := h.2.2 (Int.ne_of_gt h0)
    rw [he]
    exact .name hp ((h.1 p hp).mp he)

theorem chooses_code {k code : OptCode} {f g : Bool} : Chooses (.set k f) code g ↔ g = f ∧ 0 < code ∧ k = code := by
  constructor
  · intro hc; cases hc with | code h => exact ⟨rfl, h, rfl⟩
  · rintro ⟨rfl, h, rfl⟩; exact .code h

theorem snoc_cases {α} (l : List α) : l = [] ∨ ∃ l' a, l = l' ++ [a] := by
  induction l using snoc_induction with
  | h0 => exact .inl rfl
  | h1 l a _ => exact .inr ⟨l, a, rfl⟩

theorem on_snoc {h : List CCall} {c : CCall} {code : OptCode} :
    On (h ++ [c]) code ↔ Chooses c code true ∨ (On h code ∧ ∀ f, ¬ Chooses c code f) := by
  constructor
  · rintro ⟨a, x, b, e, hx, hb⟩
    rcases snoc_cases b with rfl | ⟨b', y, rfl⟩
    · have := List.append_inj' e rfl
      simp only [List.cons.injEq, and_true] at this
      left; rw [this.2]; exact hx
    · have e' : h ++ [c] = (a ++ x :: b') ++ [y] := by rw [e]; simp
      have := List.append_inj' e' rfl
      simp only [List.cons.injEq, and_true] at this
      right
      refine ⟨⟨a, x, b', this.1, hx, fun d hd => hb d (by simp [hd])⟩, ?_⟩
      rw [this.2]
      exact hb y (by simp)
  · rintro (hc | ⟨⟨a, x, b, rfl, hx, hb⟩, hn⟩)
    · exact ⟨h, c, [], rfl, hc, by simp⟩
    · refine ⟨a, x, b ++ [c], by simp, hx, ?_⟩
      intro d hd
      rcases List.mem_append.mp hd with hd | hd
      · exact hb d hd
      · rw [List.mem_singleton.mp hd]; exact hn

theorem on_nil (code : OptCode) : ¬ On [] code := by
  rintro ⟨a, x, b, e, -⟩
  cases a <;> simp at e

theorem mode_snoc {h : List CCall} {c : CCall} {m : Mode} (hm : InMode h m) :
    (∀ n, Mods c n → InMode (h ++ [c]) n) ∧ ((∀ n, ¬ Mods c n) → InMode (h ++ [c]) m) := by
  constructor
  · intro n hn
    exact .inl ⟨h, c, [], rfl, hn, by simp⟩
  · intro hn
    rcases hm with ⟨a, x, b, rfl, hx, hb⟩ | ⟨rfl, hb⟩
    · refine .inl ⟨a, x, b ++ [c], by simp, hx, ?_⟩
      intro d hd
      rcases List.mem_append.mp hd with hd | hd
      · exact hb d hd
      · rw [List.mem_singleton.mp hd]; exact hn
    · refine .inr ⟨rfl, ?_⟩
      intro d hd
      rcases List.mem_append.mp hd with hd | hd
      · exact hb d hd
      · rw [List.mem_singleton.mp hd]; exact hn

theorem mods_fun {c : CCall} {m n : Mode} (h : Mods c m) (h' : Mods c n) : m = n := by cases h <;> cases h' <;> rfl

theorem mode_fun {h : List CCall} {m n : Mode} (hm : InMode h m) (hn : InMode h n) : m = n := by
  induction h using snoc_induction with
  | h0 =>
    rcases hm with ⟨a, x, b, e, -⟩ | ⟨rfl, -⟩
    · cases a <;> simp at e
    rcases hn with ⟨a, x, b, e, -⟩ | ⟨rfl, -⟩
    · cases a <;> simp at e
    rfl
  | h1 l c ih =>
    have key : ∀ m, InMode (l ++ [c]) m → Mods c m ∨ ((∀ n, ¬ Mods c n) ∧ InMode l m) := by
      rintro m (⟨a, x, b, e, hx, hb⟩ | ⟨rfl, hb⟩)
      · rcases snoc_cases b with rfl | ⟨b', y, rfl⟩
        · have := List.append_inj' e rfl
          simp only [List.cons.injEq, and_true] at this
          left; rw [this.2]; exact hx
        · have e' : l ++ [c] = (a ++ x :: b') ++ [y] := by rw [e]; simp
          have := List.append_inj' e' rfl
          simp only [List.cons.injEq, and_true] at this
          right
          refine ⟨by rw [this.2]; exact hb y (by simp), .inl ⟨a, x, b', this.1, hx, fun d hd => hb d (by simp [hd])⟩⟩
      · exact .inr ⟨hb c (by simp), .inr ⟨rfl, fun d hd => hb d (by simp [hd])⟩⟩
    rcases key m hm with h1 | ⟨h1, h2⟩
    · rcases key n hn with h3 | ⟨h3, -⟩
      · exact mods_fun h1 h3
      · exact absurd h1 (h3 _)
    · rcases key n hn with h3 | ⟨-, h4⟩
      · exact absurd h3 (h1 _)
      · exact ih h2 h4

/-- the variable after a history, starting with a context that has an option map -/
theorem after_new (h : List CCall) : ∃ o m, CCall.after h CVar.new = some (some o, m) ∧ (∀ code, o code = true ↔ On h code) ∧ InMode h m := by
  induction h using snoc_induction with
  | h0 => exact ⟨_, _, rfl, fun code => ⟨fun h => (by cases h), fun h => absurd h (on_nil code)⟩, .inr ⟨rfl, by simp⟩⟩
  | h1 l c ih =>
    obtain ⟨o, m, e, ho, hm⟩ := ih
    have ea : CCall.after (l ++ [c]) CVar.new = (c.run (some (some o, m))).2 := by
      unfold CCall.after at e ⊢
      rw [List.foldl_append, e]; rfl
    rw [ea]
    have same : (∀ code f, ¬ Chooses c code f) → (∀ n, ¬ Mods c n) → (c.run (some (some o, m))).2 = some (some o, m) →
        ∃ o' m', (c.run (some (some o, m))).2 = some (some o', m') ∧ (∀ code, o' code = true ↔ On (l ++ [c]) code) ∧ InMode (l ++ [c]) m' := by
      intro h1 h2 h3
      refine ⟨o, m, h3, fun code => ?_, (mode_snoc hm).2 h2⟩
      rw [on_snoc, ho]
      exact ⟨fun h => .inr ⟨h, h1 code⟩, fun h => h.elim (fun h => absurd h (h1 code _)) (·.1)⟩
    have chosen : ∀ (k : OptCode) (f : Bool), (∀ code g, Chooses c code g ↔ g = f ∧ 0 < code ∧ k = code) → (∀ n, ¬ Mods c n) →
        (c.run (some (some o, m))).2 = (CVar.set (some (some o, m)) k f).2 →
        ∃ o' m', (c.run (some (some o, m))).2 = some (some o', m') ∧ (∀ code, o' code = true ↔ On (l ++ [c]) code) ∧ InMode (l ++ [c]) m' := by
      intro k f h1 h2 h3
      rw [h3]
      by_cases hk : k > 0
      · refine ⟨fun j => if j = k then f else o j, m, by simp only [CVar.set, if_pos hk], fun code => ?_, (mode_snoc hm).2 h2⟩
        rw [on_snoc]
        simp only
        by_cases he : code = k
        · subst he
          rw [if_pos rfl]
          constructor
          · intro hf; exact .inl ((h1 _ _).mpr ⟨hf.symm, hk, rfl⟩)
          · rintro (h | ⟨-, h⟩)
            · exact ((h1 _ _).mp h).1.symm
            · exact absurd ((h1 code f).mpr ⟨rfl, hk, rfl⟩) (h f)
        · rw [if_neg he, ho]
          have hn : ∀ g, ¬ Chooses c code g := fun g h => he ((h1 _ _).mp h).2.2.symm
          exact ⟨fun h => .inr ⟨h, hn⟩, fun h => h.elim (fun h => absurd h (hn _)) (·.1)⟩
      · have h1' : ∀ code g, ¬ Chooses c code g := by
          intro code g h
          obtain ⟨-, h0, rfl⟩ := (h1 _ _).mp h
          exact hk h0
        have := same h1' h2 (by rw [h3]; simp only [CVar.set, if_neg hk])
        rwa [h3] at this
    have moded : ∀ n, Mods c n → (∀ code f, ¬ Chooses c code f) → (c.run (some (some o, m))).2 = some (some o, n) →
        ∃ o' m', (c.run (some (some o, m))).2 = some (some o', m') ∧ (∀ code, o' code = true ↔ On (l ++ [c]) code) ∧ InMode (l ++ [c]) m' := by
      intro n h1 h2 h3
      refine ⟨o, n, h3, fun code => ?_, (mode_snoc hm).1 n h1⟩
      rw [on_snoc, ho]
      exact ⟨fun h => .inr ⟨h, h2 code⟩, fun h => h.elim (fun h => absurd h (h2 code _)) (·.1)⟩
    cases c with
    | set k f => exact chosen k f (fun _ _ => chooses_code) (fun _ h => (by cases h)) rfl
    | setByString s f => exact chosen (getOptCode s) f (fun _ _ => chooses_name) (fun _ h => (by cases h)) rfl
    | resetAlg => exact moded _ .reset (fun _ _ h => (by cases h)) rfl
    | setAlgSymEnc => exact moded _ .sym (fun _ _ h => (by cases h)) rfl
    | setAlgPubEnc => exact moded _ .pub (fun _ _ h => (by cases h)) rfl
    | _ => exact same (fun _ _ h => (by cases h)) (fun _ h => (by cases h)) rfl


/-- the variable after a history, starting with a nil pointer -/
theorem after_nil (h : List CCall) : CCall.after h none = none := by
  induction h using snoc_induction with
  | h0 => rfl
  | h1 l c ih =>
    unfold CCall.after at ih ⊢
    rw [List.foldl_append, ih]
    cases c <;> rfl

/-- the variable after a history, starting with a zero value -/
theorem after_zero (h : List CCall) : ∃ m, CCall.after h CVar.zero = some (none, m) ∧ InMode h m := by
  induction h using snoc_induction with
  | h0 => exact ⟨_, rfl, .inr ⟨rfl, by simp⟩⟩
  | h1 l c ih =>
    obtain ⟨m, e, hm⟩ := ih
    have ea : CCall.after (l ++ [c]) CVar.zero = (c.run (some (none, m))).2 := by
      unfold CCall.after at e ⊢
      rw [List.foldl_append, e]; rfl
    rw [ea]
    have hset : ∀ k f, (CVar.set (some (none, m)) k f).2 = some (none, m) := by
      intro k f
      simp only [CVar.set]
      split <;> rfl
    cases c with
    | set k f => exact ⟨m, hset k f, (mode_snoc hm).2 fun _ h => (by cases h)⟩
    | setByString n f => exact ⟨m, hset _ f, (mode_snoc hm).2 fun _ h => (by cases h)⟩
    | resetAlg => exact ⟨_, rfl, (mode_snoc hm).1 _ .reset⟩
    | setAlgSymEnc => exact ⟨_, rfl, (mode_snoc hm).1 _ .sym⟩
    | setAlgPubEnc => exact ⟨_, rfl, (mode_snoc hm).1 _ .pub⟩
    | _ => exact ⟨m, rfl, (mode_snoc hm).2 fun _ h => (by cases h)⟩

theorem word_fun {P : Prop} {s t : String} (h : Word P s) (h' : Word P t) : s = t := by
  rcases h with ⟨h, rfl⟩ | ⟨h, rfl⟩ <;> rcases h' with ⟨h', rfl⟩ | ⟨h', rfl⟩ <;> first | rfl | contradiction

theorem word_of {P : Prop} {b : Bool} (h : b = true ↔ P) : Word P (if b then "true" else "false") := by
  cases b
  · exact .inr ⟨fun p => (by cases h.mpr p), rfl⟩
  · exact .inl ⟨h.mp rfl, rfl⟩

theorem bool_fun {P : Prop} {a b : Bool} (h : a = true ↔ P) (h' : b = true ↔ P) : a = b := by
  cases a <;> cases b <;> simp_all

/-- the specification leaves no choice -/
theorem returns_fun {store : Prop} {on : OptCode → Prop} {m : Option Mode} {c : CCall} {o o' : COut}
    (h : Returns store on m c o) (h' : Returns store on m c o') : o = o' := by
  have nomod : ∀ {c m}, Mods c m → (∃ code f, c = .set code f) ∨ (∃ s f, c = .setByString s f) → False := by
    rintro c m hm (⟨_, _, rfl⟩ | ⟨_, _, rfl⟩) <;> cases hm
  have nochoose : ∀ {c m code f}, Mods c m → Chooses c code f → False := by
    intro c m code f hm hc; cases hc <;> cases hm
  cases h with
  | get e => cases h' with
    | get e' => rw [bool_fun e e']
    | option hc => rcases hc with ⟨_, _, hc⟩ | ⟨_, _, hc⟩ <;> cases hc
    | noMap hc => cases hc
    | mods _ hc => cases hc
    | noMode _ hc => rcases hc with hc | hc | hc | hc | ⟨_, hc⟩ <;> cases hc
  | option hc hs =>
    cases h' with
    | option => rfl
    | noMap h1 h2 => exact absurd h1 ((hs.resolve_left h2) _ _)
    | mods _ hm => rfl
    | noMode _ hm =>
      rcases hm with rfl | rfl | rfl | rfl | ⟨_, hm⟩
      all_goals first | exact (nomod hm hc).elim | (rcases hc with ⟨_, _, hc⟩ | ⟨_, _, hc⟩ <;> cases hc)
    | _ => rcases hc with ⟨_, _, hc⟩ | ⟨_, _, hc⟩ <;> cases hc
  | noMap h1 h2 =>
    cases h' with
    | option _ hs => exact absurd h1 ((hs.resolve_left h2) _ _)
    | noMap => rfl
    | mods _ hm => exact (nochoose hm h1).elim
    | noMode => rfl
    | _ => cases h1
  | mods e hm =>
    cases h' with
    | option => rfl
    | noMap h1 => exact (nochoose hm h1).elim
    | mods => rfl
    | noMode e' => rw [e] at e'; cases e'
    | _ => cases hm
  | noMode e hc =>
    cases h' with
    | option h1 =>
      rcases hc with rfl | rfl | rfl | rfl | ⟨_, hm⟩
      all_goals first | exact (nomod hm h1).elim | (rcases h1 with ⟨_, _, h1⟩ | ⟨_, _, h1⟩ <;> cases h1)
    | noMap => rfl
    | mods e' => rw [e] at e'; cases e'
    | noMode => rfl
    | algMode e' => rw [e] at e'; cases e'
    | isSymEnc e' => rw [e] at e'; cases e'
    | isPubEnc e' => rw [e] at e'; cases e'
    | unspecified e' => rw [e] at e'; cases e'
    | symmetric e' => rw [e] at e'; cases e'
    | publicKey e' => rw [e] at e'; cases e'
    | _ => rcases hc with hc | hc | hc | hc | ⟨_, hc⟩ <;> cases hc
  | string a1 a2 a3 a4 a5 a6 a7 a8 a9 =>
    cases h' with
    | string b1 b2 b3 b4 b5 b6 b7 b8 b9 =>
      rw [word_fun a1 b1, word_fun a2 b2, word_fun a3 b3, word_fun a4 b4, word_fun a5 b5, word_fun a6 b6, word_fun a7 b7,
        word_fun a8 b8, word_fun a9 b9]
    | option hc => rcases hc with ⟨_, _, hc⟩ | ⟨_, _, hc⟩ <;> cases hc
    | noMap hc => cases hc
    | mods _ hc => cases hc
    | noMode _ hc => rcases hc with hc | hc | hc | hc | ⟨_, hc⟩ <;> cases hc
  | algMode e => cases h' with
    | algMode e' => rw [e] at e'; cases e'; rfl
    | option hc => rcases hc with ⟨_, _, hc⟩ | ⟨_, _, hc⟩ <;> cases hc
    | noMap hc => cases hc
    | mods _ hc => cases hc
    | noMode e' => rw [e] at e'; cases e'
  | isSymEnc e f => cases h' with
    | isSymEnc e' f' => rw [e] at e'; cases e'; rw [bool_fun f f']
    | option hc => rcases hc with ⟨_, _, hc⟩ | ⟨_, _, hc⟩ <;> cases hc
    | noMap hc => cases hc
    | mods _ hc => cases hc
    | noMode e' => rw [e] at e'; cases e'
  | isPubEnc e f => cases h' with
    | isPubEnc e' f' => rw [e] at e'; cases e'; rw [bool_fun f f']
    | option hc => rcases hc with ⟨_, _, hc⟩ | ⟨_, _, hc⟩ <;> cases hc
    | noMap hc => cases hc
    | mods _ hc => cases hc
    | noMode e' => rw [e] at e'; cases e'
  | unspecified e => cases h' with
    | unspecified => rfl
    | symmetric e' => rw [e] at e'; cases e'
    | publicKey e' => rw [e] at e'; cases e'
    | option hc => rcases hc with ⟨_, _, hc⟩ | ⟨_, _, hc⟩ <;> cases hc
    | noMap hc => cases hc
    | mods _ hc => cases hc
    | noMode e' => rw [e] at e'; cases e'
  | symmetric e => cases h' with
    | symmetric => rfl
    | unspecified e' => rw [e] at e'; cases e'
    | publicKey e' => rw [e] at e'; cases e'
    | option hc => rcases hc with ⟨_, _, hc⟩ | ⟨_, _, hc⟩ <;> cases hc
    | noMap hc => cases hc
    | mods _ hc => cases hc
    | noMode e' => rw [e] at e'; cases e'
  | publicKey e => cases h' with
    | publicKey => rfl
    | symmetric e' => rw [e] at e'; cases e'
    | unspecified e' => rw [e] at e'; cases e'
    | option hc => rcases hc with ⟨_, _, hc⟩ | ⟨_, _, hc⟩ <;> cases hc
    | noMap hc => cases hc
    | mods _ hc => cases hc
    | noMode e' => rw [e] at e'; cases e'
  | armor e | cert e | debug e | gdump e | integer e | literal e | marker e | priv e | utc e => cases h' with
    | option hc => rcases hc with ⟨_, _, hc⟩ | ⟨_, _, hc⟩ <;> cases hc
    | noMap hc => cases hc
    | mods _ hc => cases hc
    | noMode _ hc => rcases hc with hc | hc | hc | hc | ⟨_, hc⟩ <;> cases hc
    | _ e' => rw [bool_fun e e']


/-- every call returns what the specification says for the current options and mode -/
theorem returns_run (c : CVar) (on : OptCode → Prop) (hon : ∀ code, c.get code = true ↔ on code) (call : CCall) :
    Returns (∀ m, c ≠ some (none, m)) on (c.map Prod.snd) call (call.run c).1 := by
  have hor : ∀ code, c.orDebug code = true ↔ on code ∨ on 3 := by
    intro code
    unfold CVar.orDebug
    rw [Bool.or_eq_true, hon, hon]
    exact Iff.rfl
  have hset : ∀ (call : CCall) (k : OptCode) (f : Bool), (∀ code g, Chooses call code g ↔ g = f ∧ 0 < code ∧ k = code) →
      ((∃ code f, call = .set code f) ∨ (∃ s f, call = .setByString s f)) →
      Returns (∀ m, c ≠ some (none, m)) on (c.map Prod.snd) call (c.set k f).1 := by
    intro call k f h1 h2
    rcases c with _ | ⟨_ | o, m⟩
    · exact .option h2 (.inl fun m h => (by cases h))
    · simp only [CVar.set]
      by_cases hk : k > 0
      · rw [if_pos hk]
        exact .noMap ((h1 k f).mpr ⟨rfl, hk, rfl⟩) (fun h => h m rfl)
      · rw [if_neg hk]
        refine .option h2 (.inr ?_)
        intro code g h
        obtain ⟨-, h0, rfl⟩ := (h1 _ _).mp h
        exact hk h0
    · have : (CVar.set (some (some o, m)) k f).1 = .done := by
        simp only [CVar.set]
        split <;> rfl
      rw [this]
      exact .option h2 (.inl fun m h => (by cases h))
  have hmod : ∀ (call : CCall) (n : Mode), Mods call n → Returns (∀ m, c ≠ some (none, m)) on (c.map Prod.snd) call (c.setMode n).1 := by
    intro call n hn
    rcases c with _ | ⟨o, m⟩
    · exact .noMode rfl (.inr (.inr (.inr (.inr ⟨n, hn⟩))))
    · exact .mods rfl hn
  cases call with
  | set k f => exact hset _ k f (fun _ _ => chooses_code) (.inl ⟨k, f, rfl⟩)
  | setByString n f => exact hset _ _ f (fun _ _ => chooses_name) (.inr ⟨n, f, rfl⟩)
  | get code => exact .get (hon code)
  | armor => exact .armor (hon 1)
  | cert => exact .cert (hor 2)
  | debug => exact .debug (hon 3)
  | gdump => exact .gdump (hor 4)
  | integer => exact .integer (hor 5)
  | literal => exact .literal (hor 6)
  | marker => exact .marker (hor 7)
  | priv => exact .priv (hor 8)
  | utc => exact .utc (hon 9)
  | resetAlg => exact hmod _ _ .reset
  | setAlgSymEnc => exact hmod _ _ .sym
  | setAlgPubEnc => exact hmod _ _ .pub
  | string =>
    have e : c.string = "armor:".toList ++ (if c.get 1 then "true" else "false").toList ++
        ",cert:".toList ++ (if c.orDebug 2 then "true" else "false").toList ++
        ",debug:".toList ++ (if c.get 3 then "true" else "false").toList ++
        ",gdump:".toList ++ (if c.orDebug 4 then "true" else "false").toList ++
        ",int:".toList ++ (if c.orDebug 5 then "true" else "false").toList ++
        ",literal:".toList ++ (if c.orDebug 6 then "true" else "false").toList ++
        ",marker:".toList ++ (if c.orDebug 7 then "true" else "false").toList ++
        ",private:".toList ++ (if c.orDebug 8 then "true" else "false").toList ++
        ",utc:".toList ++ (if c.get 9 then "true" else "false").toList := by
      have w : ∀ (a1 a2 a3 a4 a5 a6 a7 a8 a9 : Bool), c.get 1 = a1 → c.orDebug 2 = a2 → c.get 3 = a3 → c.orDebug 4 = a4 →
          c.orDebug 5 = a5 → c.orDebug 6 = a6 → c.orDebug 7 = a7 → c.orDebug 8 = a8 → c.get 9 = a9 →
          c.string = "armor:".toList ++ (if a1 then "true" else "false").toList ++
        ",cert:".toList ++ (if a2 then "true" else "false").toList ++
        ",debug:".toList ++ (if a3 then "true" else "false").toList ++
        ",gdump:".toList ++ (if a4 then "true" else "false").toList ++
        ",int:".toList ++ (if a5 then "true" else "false").toList ++
        ",literal:".toList ++ (if a6 then "true" else "false").toList ++
        ",marker:".toList ++ (if a7 then "true" else "false").toList ++
        ",private:".toList ++ (if a8 then "true" else "false").toList ++
        ",utc:".toList ++ (if a9 then "true" else "false").toList := by
        intro a1 a2 a3 a4 a5 a6 a7 a8 a9 h1 h2 h3 h4 h5 h6 h7 h8 h9
        have hr : List.range optcodeMap.length = [0, 1, 2, 3, 4, 5, 6, 7, 8] := by decide
        unfold CVar.string
        rw [hr]
        simp only [List.map, show ((0 + 1 : Nat) : Int) = ARMOR from rfl, show ((1 + 1 : Nat) : Int) = CERT from rfl,
          show ((2 + 1 : Nat) : Int) = DEBUG from rfl, show ((3 + 1 : Nat) : Int) = GDUMP from rfl,
          show ((4 + 1 : Nat) : Int) = INTEGER from rfl, show ((5 + 1 : Nat) : Int) = LITERAL from rfl,
          show ((6 + 1 : Nat) : Int) = MARKER from rfl, show ((7 + 1 : Nat) : Int) = PRIVATE from rfl,
          show ((8 + 1 : Nat) : Int) = UTC from rfl]
        rw [show c.get ARMOR = a1 from h1, show c.orDebug CERT = a2 from h2, show c.get DEBUG = a3 from h3,
          show c.orDebug GDUMP = a4 from h4, show c.orDebug INTEGER = a5 from h5, show c.orDebug LITERAL = a6 from h6,
          show c.orDebug MARKER = a7 from h7, show c.orDebug PRIVATE = a8 from h8, show c.get UTC = a9 from h9]
        clear h1 h2 h3 h4 h5 h6 h7 h8 h9 hr
        clear hset hmod hor hon
        revert a1 a2 a3 a4 a5 a6 a7 a8 a9
        decide +kernel
      exact w _ _ _ _ _ _ _ _ _ rfl rfl rfl rfl rfl rfl rfl rfl rfl
    show Returns _ _ _ _ (.text c.string)
    rw [e]
    exact .string (word_of (hon 1)) (word_of (hor 2)) (word_of (hon 3)) (word_of (hor 4)) (word_of (hor 5)) (word_of (hor 6))
      (word_of (hor 7)) (word_of (hor 8)) (word_of (hon 9))
  | algMode =>
    rcases c with _ | ⟨o, m⟩
    · exact .noMode rfl (.inl rfl)
    · exact .algMode rfl
  | isSymEnc =>
    rcases c with _ | ⟨o, m⟩
    · exact .noMode rfl (.inr (.inl rfl))
    · exact .isSymEnc rfl decide_eq_true_iff
  | isPubEnc =>
    rcases c with _ | ⟨o, m⟩
    · exact .noMode rfl (.inr (.inr (.inl rfl)))
    · exact .isPubEnc rfl decide_eq_true_iff
  | modeString =>
    rcases c with _ | ⟨o, m⟩
    · exact .noMode rfl (.inr (.inr (.inr (.inl rfl))))
    · cases m
      · exact .unspecified rfl
      · exact .symmetric rfl
      · exact .publicKey rfl

/-- C70: a context made by `New`, after any calls. -/
theorem C70_new (h : List CCall) (c : CCall) (o : COut) :
    (c.run (CCall.after h CVar.new)).1 = o ↔ ∃ m, InMode h m ∧ Returns True (On h) (some m) c o := by
  obtain ⟨opts, m, e, ho, hm⟩ := after_new h
  have hr := returns_run (some (some opts, m)) (On h) ho c
  have hs : (∀ n, (some (some opts, m) : CVar) ≠ some (none, n)) = True := eq_true fun n h => (by cases h)
  rw [hs] at hr
  rw [e]
  constructor
  · rintro rfl; exact ⟨m, hm, hr⟩
  · rintro ⟨n, hn, hr'⟩
    cases mode_fun hm hn
    exact returns_fun hr hr'

/-- C70: a nil pointer, after any calls: options are never set, and every method of the mode panics. -/
theorem C70_nil (h : List CCall) (c : CCall) (o : COut) :
    (c.run (CCall.after h none)).1 = o ↔ Returns True (fun _ => False) none c o := by
  have hr := returns_run none (fun _ => False) (fun _ => ⟨fun h => (by cases h), False.elim⟩) c
  have hs : (∀ n, (none : CVar) ≠ some (none, n)) = True := eq_true fun n h => (by cases h)
  rw [hs] at hr
  rw [after_nil]
  exact ⟨fun h => h ▸ hr, fun h => returns_fun hr h⟩

/-- C70: a zero value (`&Context{}`), after any calls: choosing a value for an option panics. -/
theorem C70_zero (h : List CCall) (c : CCall) (o : COut) :
    (c.run (CCall.after h CVar.zero)).1 = o ↔ ∃ m, InMode h m ∧ Returns False (fun _ => False) (some m) c o := by
  obtain ⟨m, e, hm⟩ := after_zero h
  have hr := returns_run (some (none, m)) (fun _ => False) (fun _ => ⟨fun h => (by cases h), False.elim⟩) c
  have hs : (∀ n, (some (none, m) : CVar) ≠ some (none, n)) = False := eq_false fun h => h m rfl
  rw [hs] at hr
  rw [e]
  constructor
  · rintro rfl; exact ⟨m, hm, hr⟩
  · rintro ⟨n, hn, hr'⟩
    cases mode_fun hm hn
    exact returns_fun hr hr'

/-- set by name, switched off, debugging on, the mode chosen twice -/
example : (CCall.run .string (CCall.after [.setByString (S "MarKer") true, .set 9 true, .setAlgSymEnc, .set 9 false, .set 0 true,
      .setAlgPubEnc, .setByString (S "armor") true] CVar.new)).1 =
      .text (S "armor:true,cert:false,debug:false,gdump:false,int:false,literal:false,marker:true,private:false,utc:false") ∧
    (CCall.run .algMode (CCall.after [.setAlgSymEnc, .set 9 false, .setAlgPubEnc, .utc] CVar.new)).1 = .mode .pubEnc ∧
    (CCall.run (.set 9 true) CVar.zero).1 = .crash ∧ (CCall.run (.set 9 true) none).1 = .done ∧
    (CCall.run .resetAlg none).1 = .crash := by
  decide +kernel

end Gpgpdump
