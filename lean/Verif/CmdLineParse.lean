import Verif.CmdLineLemmas

/-! # Lemmas for C83: the parse of flags is the grammar of lines -/

namespace Gpgpdump
open Spec.CL

theorem set_true {f : Flag} (h : f.type = .bool) : pfSet f (O "true") = true := (pfSet_iff _ _).2 (fits_true h)

theorem until_eq (name : Bytes) (h : name.contains 0x3d = true) :
    name = name.takeWhile (· ≠ 0x3d) ++ 0x3d :: name.drop ((name.takeWhile (· ≠ 0x3d)).length + 1) := by
  induction name with
  | nil => simp at h
  | cons a t ih =>
    by_cases ha : a = 0x3d
    · subst ha; simp
    · have ht : t.contains 0x3d = true := by
        simp only [List.contains_cons, Bool.or_eq_true, beq_iff_eq] at h
        rcases h with h | h
        · exact absurd h.symm ha
        · exact h
      have := ih ht
      simp only [List.takeWhile_cons, ha, ne_eq, not_false_eq_true, decide_true, if_true, List.cons_append, List.length_cons, List.drop_succ_cons]
      exact congrArg _ this

theorem until_all (name : Bytes) (h : 0x3d ∉ name) : name.takeWhile (· ≠ 0x3d) = name := by
  induction name with
  | nil => rfl
  | cons a t ih =>
    have ha : a ≠ 0x3d := fun e => h (by simp [e])
    simp only [List.takeWhile_cons, ha, ne_eq, not_false_eq_true, decide_true, if_true]
    rw [ih (fun e => h (List.mem_cons_of_mem _ e))]

theorem until_append (n v : Bytes) (h : 0x3d ∉ n) : (n ++ 0x3d :: v).takeWhile (· ≠ 0x3d) = n := by
  induction n with
  | nil => simp
  | cons a t ih =>
    have ha : a ≠ 0x3d := fun e => h (by simp [e])
    simp only [List.cons_append, List.takeWhile_cons, ha, ne_eq, not_false_eq_true, decide_true, if_true]
    rw [ih (fun e => h (List.mem_cons_of_mem _ e))]

section
variable {F : List Flag}

theorem long_sound {name args x r} (h : pfLong F name args = some (x, r)) : x.1 ∈ F ∧ Fits x.1.type x.2 ∧
    ((name = x.1.name ∧ x.1.type = .bool ∧ x.2 = text "true" ∧ r = args) ∨ (name = x.1.name ++ text "=" ++ x.2 ∧ r = args) ∨
     (name = x.1.name ∧ x.1.type ≠ .bool ∧ args = x.2 :: r)) := by
  rw [pfLong] at h
  by_cases h0 : name = [] ∨ name.head? = some 0x2d ∨ name.head? = some 0x3d
  · rw [if_pos h0] at h; exact nomatch h
  · rw [if_neg h0] at h
    simp only at h
    cases hf : F.find? (fun f => f.name == name.takeWhile (· ≠ 0x3d)) with
    | none => rw [hf] at h; exact nomatch h
    | some f =>
      rw [hf] at h
      simp only at h
      have hm := List.mem_of_find?_eq_some hf
      have hn : f.name = name.takeWhile (· ≠ 0x3d) := by simpa using List.find?_some hf
      by_cases hc : name.contains 0x3d = true
      · rw [if_pos hc] at h
        obtain ⟨h1, h2⟩ := assign_some.1 h
        cases h2
        refine ⟨hm, h1, Or.inr (Or.inl ⟨?_, rfl⟩)⟩
        have := until_eq name hc
        simp only [hn]
        rw [List.append_assoc]
        exact this
      · rw [if_neg hc] at h
        have he : name = f.name := by rw [hn, until_all _ (by simpa using hc)]
        by_cases hb : f.type = .bool
        · rw [if_pos hb] at h
          obtain ⟨h1, h2⟩ := assign_some.1 h
          cases h2
          exact ⟨hm, h1, Or.inl ⟨he, hb, rfl, rfl⟩⟩
        · rw [if_neg hb] at h
          cases args with
          | nil => exact nomatch h
          | cons v q =>
            obtain ⟨h1, h2⟩ := assign_some.1 h
            cases h2
            exact ⟨hm, h1, Or.inr (Or.inr ⟨he, hb, rfl⟩)⟩

theorem long_alone (hF : Ordinary F) {f : Flag} (hf : f ∈ F) (args : List Bytes) : pfLong F f.name args =
    if f.type = .bool then pfAssign f (O "true") args else
      match args with
      | v :: r => pfAssign f v r
      | [] => none := by
  obtain ⟨h1, h2, h3⟩ := hF.name f hf
  have h4 : f.name.head? ≠ some 0x3d := by
    intro e
    exact h3 (List.mem_of_head? e)
  rw [pfLong, if_neg (by simp [h1, h2, h4])]
  simp only
  rw [until_all _ h3, find_name hF hf]
  simp only
  rw [if_neg (by simpa using h3)]
  cases args <;> rfl

theorem long_equals (hF : Ordinary F) {f : Flag} (hf : f ∈ F) (v : Bytes) (args : List Bytes) :
    pfLong F (f.name ++ text "=" ++ v) args = pfAssign f v args := by
  obtain ⟨h1, h2, h3⟩ := hF.name f hf
  have e : f.name ++ text "=" ++ v = f.name ++ 0x3d :: v := by rw [List.append_assoc]; rfl
  have hh : (f.name ++ 0x3d :: v).head? = f.name.head? := by
    cases hn : f.name with
    | nil => exact absurd hn h1
    | cons a t => rfl
  have h4 : f.name.head? ≠ some 0x3d := by
    intro e
    exact h3 (List.mem_of_head? e)
  rw [e, pfLong, if_neg (by rw [hh]; simp [h2, h4])]
  simp only
  rw [until_append _ _ h3, find_name hF hf]
  simp only
  rw [if_pos (by simp), List.drop_append, List.drop_of_length_le (by omega)]
  simp

theorem letters_head (hF : Ordinary F) {t r s r'} (h : Letters F t r s r') : t.head? ≠ some 0x3d ∧ t.head? ≠ some 0x2d := by
  have k : ∀ {f c}, f ∈ F → f.short = some c → (some c ≠ some (0x3d : UInt8)) ∧ (some c ≠ some (0x2d : UInt8)) := by
    intro f c hf hc
    have := hF.letter f hf
    rw [hc] at this
    exact this.2
  cases h with
  | done => simp
  | test => constructor <;> (show some (0x74 : UInt8) ≠ _; decide)
  | switch hf hc _ _ => exact k hf hc
  | equals hf hc _ => exact k hf hc
  | joined hf hc _ _ _ => exact k hf hc
  | next hf hc _ => exact k hf hc

theorem short_sound : ∀ {t args s r}, pfShort F t args = some (s, r) → Letters F t args s r ∧ ∀ x ∈ s, Fits x.1.type x.2 := by
  intro t
  induction t with
  | nil => intro args s r h; cases h; exact ⟨.done, by simp⟩
  | cons c t ih =>
    intro args s r h
    rw [pfShort] at h
    by_cases ht : O "test." <+: c :: t
    · rw [if_pos ht] at h
      cases h
      obtain ⟨u, hu⟩ := ht
      rw [← hu]
      exact ⟨.test, by simp⟩
    · rw [if_neg ht] at h
      cases hf : F.find? (fun f => f.short == some c) with
      | none => rw [hf] at h; exact nomatch h
      | some f =>
        rw [hf] at h
        simp only at h
        have hm := List.mem_of_find?_eq_some hf
        have hn : f.short = some c := by simpa using List.find?_some hf
        by_cases h1 : 2 ≤ t.length ∧ t.head? = some 0x3d
        · rw [if_pos h1] at h
          cases ha : pfAssign f (t.drop 1) args with
          | none => rw [ha] at h; exact nomatch h
          | some x =>
            rw [ha] at h
            obtain ⟨e1, rfl⟩ := assign_some.1 ha
            cases h
            cases t with
            | nil => exact absurd h1.2 (by simp)
            | cons y t =>
              have hy : y = 0x3d := by simpa using h1.2
              subst hy
              refine ⟨.equals hm hn ?_, by simpa using e1⟩
              intro e
              have e' : t = [] := e
              subst e'
              simp at h1
        · rw [if_neg h1] at h
          by_cases hb : f.type = .bool
          · rw [if_pos hb] at h
            rw [pfAssign, if_pos (set_true hb), Option.bind_some] at h
            cases hr : pfShort F t args with
            | none => rw [hr] at h; exact nomatch h
            | some y =>
              rw [hr] at h
              cases h
              obtain ⟨l, v⟩ := ih hr
              refine ⟨.switch hm hn hb l, ?_⟩
              intro x hx
              rcases List.mem_cons.1 hx with rfl | hx
              · exact fits_true hb
              · exact v x hx
          · rw [if_neg hb] at h
            by_cases hr : t ≠ []
            · rw [if_pos hr] at h
              cases ha : pfAssign f t args with
              | none => rw [ha] at h; exact nomatch h
              | some x =>
                rw [ha] at h
                obtain ⟨e1, rfl⟩ := assign_some.1 ha
                cases h
                refine ⟨.joined hm hn hb hr ?_, by simpa using e1⟩
                intro e
                cases t with
                | nil => exact absurd rfl hr
                | cons y t =>
                  have hy : y = 0x3d := by simpa using e
                  subst hy
                  cases t with
                  | nil => rfl
                  | cons z t => exact absurd ⟨by simp, e⟩ h1
            · rw [if_neg hr] at h
              have : t = [] := Classical.not_not.1 hr
              subst this
              cases args with
              | nil => exact nomatch h
              | cons v a =>
                simp only at h
                cases ha : pfAssign f v a with
                | none => rw [ha] at h; exact nomatch h
                | some x =>
                  rw [ha] at h
                  obtain ⟨e1, rfl⟩ := assign_some.1 ha
                  cases h
                  exact ⟨.next hm hn hb, by simpa using e1⟩

theorem short_complete (hF : Ordinary F) {t args s r} (h : Letters F t args s r) (hv : ∀ x ∈ s, Fits x.1.type x.2) :
    pfShort F t args = some (s, r) := by
  have nt : ∀ {f c t}, f ∈ F → f.short = some c → ¬ O "test." <+: c :: t := by
    intro f c t hf hc hp
    obtain ⟨u, hu⟩ := hp
    have : c = 0x74 := by
      have := congrArg List.head? hu
      exact (Option.some.inj this).symm
    exact (hF.letter f hf).1 (this ▸ hc)
  induction h with
  | done => rfl
  | @test t r =>
    show pfShort F (0x74 :: (O "est." ++ t)) r = _
    rw [pfShort, if_pos ⟨t, rfl⟩]
  | @switch f c t r s r' hf hc hb hl ih =>
    rw [pfShort, if_neg (nt hf hc), find_short hF hf hc]
    simp only
    rw [if_neg (fun e => (letters_head hF hl).1 e.2), if_pos hb, pfAssign, if_pos (set_true hb), Option.bind_some,
      ih (fun x hx => hv x (List.mem_cons_of_mem _ hx))]
    rfl
  | @equals f c v r hf hc hne =>
    rw [pfShort, if_neg (nt hf hc), find_short hF hf hc]
    simp only
    rw [if_pos ⟨by cases v with | nil => exact absurd rfl hne | cons _ _ => simp, rfl⟩, List.drop_succ_cons, List.drop_zero, pfAssign,
      if_pos ((pfSet_iff f v).2 (hv (f, v) (by simp)))]
    rfl
  | @joined f c v r hf hc hb hne hq =>
    rw [pfShort, if_neg (nt hf hc), find_short hF hf hc]
    simp only
    rw [if_neg, if_neg hb, if_pos hne, pfAssign, if_pos ((pfSet_iff f v).2 (hv (f, v) (by simp)))]
    · rfl
    · rintro ⟨h1, h2⟩
      rw [hq h2] at h1
      simp at h1
  | @next f c v r hf hc hb =>
    rw [pfShort, if_neg (nt hf hc), find_short hF hf hc]
    simp only
    rw [if_neg (by simp), if_neg hb, if_neg (by simp), pfAssign, if_pos ((pfSet_iff f v).2 (hv (f, v) (by simp)))]
    rfl

theorem letters_length {t r s r'} (h : Letters F t r s r') : r'.length ≤ r.length := by
  induction h with
  | switch _ _ _ _ ih => exact ih
  | next => simp
  | _ => exact Nat.le_refl _

theorem parse_sound : ∀ {fuel args s p}, pfParse F fuel args = some (s, p) → Line F args s p ∧ ∀ x ∈ s, Fits x.1.type x.2 := by
  intro fuel
  induction fuel with
  | zero => intro args s p h; exact nomatch h
  | succ fuel ih =>
    intro args s p h
    cases args with
    | nil => rw [pfParse] at h; cases h; exact ⟨.nil, by simp⟩; simp
    | cons a args =>
      rw [pfParse] at h
      by_cases h1 : a = [] ∨ a.head? ≠ some 0x2d ∨ a.length = 1
      · rw [if_pos h1] at h
        cases hr : pfParse F fuel args with
        | none => rw [hr] at h; exact nomatch h
        | some y =>
          rw [hr] at h
          cases h
          obtain ⟨l, v⟩ := ih hr
          refine ⟨.word ?_ l, v⟩
          rcases h1 with rfl | h1 | h1
          · exact Or.inl (by simp)
          · exact Or.inl h1
          · match a, h1 with
            | [x], _ =>
              by_cases hx : x = 0x2d
              · exact Or.inr (by rw [hx]; rfl)
              · exact Or.inl (by simpa using hx)
      · rw [if_neg h1] at h
        simp only [not_or, ne_eq, Decidable.not_not] at h1
        obtain ⟨h1, h2, h3⟩ := h1
        match a, h1, h2, h3 with
        | x :: b :: t, _, h2, _ =>
          have hx : x = 0x2d := by simpa using h2
          subst hx
          simp only [List.drop_succ_cons, List.drop_zero, List.head?_cons] at h
          by_cases hb : b = 0x2d
          · subst hb
            rw [if_pos rfl] at h
            by_cases hl : t = []
            · subst hl
              rw [if_pos (show ([0x2d, 0x2d] : Bytes).length = 2 from rfl)] at h
              cases h
              exact ⟨.rest, by simp⟩
            · rw [if_neg (by cases t with | nil => exact absurd rfl hl | cons _ _ => simp)] at h
              cases hg : pfLong F t args with
              | none => rw [hg] at h; exact nomatch h
              | some y =>
                rw [hg, Option.bind_some] at h
                cases hr : pfParse F fuel y.2 with
                | none => rw [hr] at h; exact nomatch h
                | some z =>
                  rw [hr] at h
                  cases h
                  obtain ⟨l, v⟩ := ih hr
                  obtain ⟨g1, g2, g3⟩ := long_sound hg
                  have hv : ∀ x ∈ y.1 :: z.1, Fits x.1.type x.2 := by
                    intro x hx
                    rcases List.mem_cons.1 hx with rfl | hx
                    · exact g2
                    · exact v x hx
                  refine ⟨?_, hv⟩
                  rcases g3 with ⟨e1, e2, e3, e4⟩ | ⟨e1, e4⟩ | ⟨e1, e2, e3⟩
                  · rw [e4] at l
                    rw [e1, show y.1 = (y.1.1, text "true") by rw [← e3]]
                    exact .long g1 e2 l
                  · rw [e4] at l
                    rw [e1]
                    exact .longEq (f := y.1.1) (v := y.1.2) g1 l
                  · rw [e1, e3]
                    exact .longNext (f := y.1.1) (v := y.1.2) g1 e2 l
          · rw [if_neg (by simpa using hb)] at h
            cases hg : pfShort F (b :: t) args with
            | none => rw [hg] at h; exact nomatch h
            | some y =>
              rw [hg, Option.bind_some] at h
              cases hr : pfParse F fuel y.2 with
              | none => rw [hr] at h; exact nomatch h
              | some z =>
                rw [hr] at h
                cases h
                obtain ⟨l, v⟩ := ih hr
                obtain ⟨g1, g2⟩ := short_sound hg
                refine ⟨.letters (t := b :: t) (by simp) (by simpa using hb) g1 l, ?_⟩
                intro x hx
                rcases List.mem_append.1 hx with hx | hx
                · exact g2 x hx
                · exact v x hx

theorem parse_complete (hF : Ordinary F) {args s p} (h : Line F args s p) : ∀ {fuel}, args.length < fuel → (∀ x ∈ s, Fits x.1.type x.2) →
    pfParse F fuel args = some (s, p) := by
  have long_arg : ∀ {n : Bytes}, n ≠ [] → ∀ {fuel r}, pfParse F (fuel + 1) ((text "--" ++ n) :: r) =
      (pfLong F n r).bind fun x => (pfParse F fuel x.2).map fun y => (x.1 :: y.1, y.2) := by
    intro n hn fuel r
    show pfParse F (fuel + 1) ((0x2d :: 0x2d :: n) :: r) = _
    rw [pfParse, if_neg (by simp)]
    simp only [List.drop_succ_cons, List.drop_zero, List.head?_cons, if_true]
    rw [if_neg (by cases n with | nil => exact absurd rfl hn | cons _ _ => simp)]
  induction h with
  | nil => intro fuel hf _; cases fuel with | zero => exact absurd hf (Nat.not_lt_zero _) | succ n => rfl
  | rest => intro fuel hf _; cases fuel with | zero => exact absurd hf (Nat.not_lt_zero _) | succ n => rfl
  | @word a r s p ha _ ih =>
    intro fuel hf hv
    cases fuel with
    | zero => exact absurd hf (Nat.not_lt_zero _)
    | succ n =>
      rw [pfParse, if_pos, ih (by simp only [List.length_cons] at hf; omega) hv]
      · rfl
      · rcases ha with ha | rfl
        · exact Or.inr (Or.inl ha)
        · exact Or.inr (Or.inr rfl)
  | @long f r s p hm hb _ ih =>
    intro fuel hf hv
    cases fuel with
    | zero => exact absurd hf (Nat.not_lt_zero _)
    | succ n =>
      rw [long_arg (hF.name f hm).1, long_alone hF hm, if_pos hb, pfAssign, if_pos (set_true hb), Option.bind_some,
        ih (by simp only [List.length_cons] at hf; omega) (fun x hx => hv x (List.mem_cons_of_mem _ hx))]
      rfl
  | @longEq f v r s p hm _ ih =>
    intro fuel hf hv
    cases fuel with
    | zero => exact absurd hf (Nat.not_lt_zero _)
    | succ n =>
      rw [List.append_assoc, List.append_assoc, ← List.append_assoc f.name, long_arg (by simp [text]), long_equals hF hm, pfAssign,
        if_pos ((pfSet_iff _ _).2 (hv (f, v) (by simp))), Option.bind_some,
        ih (by simp only [List.length_cons] at hf; omega) (fun x hx => hv x (List.mem_cons_of_mem _ hx))]
      rfl
  | @longNext f v r s p hm hb _ ih =>
    intro fuel hf hv
    cases fuel with
    | zero => exact absurd hf (Nat.not_lt_zero _)
    | succ n =>
      rw [long_arg (hF.name f hm).1, long_alone hF hm, if_neg hb]
      simp only
      rw [pfAssign, if_pos ((pfSet_iff _ _).2 (hv (f, v) (by simp))), Option.bind_some,
        ih (by simp only [List.length_cons] at hf; omega) (fun x hx => hv x (List.mem_cons_of_mem _ hx))]
      rfl
  | @letters t r s r' s' p hne hh hl _ ih =>
    intro fuel hf hv
    cases fuel with
    | zero => exact absurd hf (Nat.not_lt_zero _)
    | succ n =>
      cases t with
      | nil => exact absurd rfl hne
      | cons b t =>
        show pfParse F (n + 1) ((0x2d :: b :: t) :: r) = _
        have hb : b ≠ 0x2d := by simpa using hh
        rw [pfParse, if_neg (by simp)]
        simp only [List.drop_succ_cons, List.drop_zero, List.head?_cons]
        rw [if_neg (by simpa using hb), short_complete hF hl (fun x hx => hv x (List.mem_append_left _ hx)), Option.bind_some,
          ih (by have := letters_length hl; simp only [List.length_cons] at hf; omega) (fun x hx => hv x (List.mem_append_right _ hx))]
        rfl

theorem parse_iff (hF : Ordinary F) (args : List Bytes) (s p) : pfParse F (args.length + 1) args = some (s, p) ↔ Given F args s p :=
  ⟨parse_sound, fun h => parse_complete hF h.1 (Nat.lt_succ_self _) h.2⟩

end

theorem Letters.congr {F G : List Flag} (h : ∀ f, f ∈ F ↔ f ∈ G) {t r s r'} (hl : Letters F t r s r') : Letters G t r s r' := by
  induction hl with
  | done => exact .done
  | test => exact .test
  | switch hf hc hb _ ih => exact .switch ((h _).1 hf) hc hb ih
  | equals hf hc hv => exact .equals ((h _).1 hf) hc hv
  | joined hf hc hb hv hq => exact .joined ((h _).1 hf) hc hb hv hq
  | next hf hc hb => exact .next ((h _).1 hf) hc hb

theorem Line.congr {F G : List Flag} (h : ∀ f, f ∈ F ↔ f ∈ G) {args s p} (hl : Line F args s p) : Line G args s p := by
  induction hl with
  | nil => exact .nil
  | rest => exact .rest
  | word ha _ ih => exact .word ha ih
  | long hf hb _ ih => exact .long ((h _).1 hf) hb ih
  | longEq hf _ ih => exact .longEq ((h _).1 hf) ih
  | longNext hf hb _ ih => exact .longNext ((h _).1 hf) hb ih
  | letters hn hh hl _ ih => exact .letters hn hh (Letters.congr h hl) ih

theorem given_flags (c : CmdName) (args s p) : pfParse (flagsOf c) (args.length + 1) args = some (s, p) ↔ Given (flags c) args s p := by
  rw [parse_iff (flagsOf_ordinary c)]
  exact ⟨fun h => ⟨Line.congr (flags_mem c) h.1, h.2⟩, fun h => ⟨Line.congr (fun f => (flags_mem c f).symm) h.1, h.2⟩⟩

end Gpgpdump
