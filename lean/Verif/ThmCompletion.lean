import Verif.Completion

/-!
# C74: the command `completion`
-/

namespace Gpgpdump

namespace Spec

/-- the ways a letter of the name of a shell can be written: lower case, upper case; a long s (U+017F) counts as an s, the Kelvin sign
(U+212A) as a k -/
def writings (c : Char) : List Bytes :=
  [[UInt8.ofNat c.toNat], [UInt8.ofNat (c.toNat - 32)]] ++ (if c = 's' then [[0xc5, 0xbf]] else []) ++ (if c = 'k' then [[0xe2, 0x84, 0xaa]] else [])

/-- the octets are the word, each letter in one of its writings -/
inductive Spells : Str → Bytes → Prop
  | nil : Spells [] []
  | cons {c w cs b} (h : w ∈ writings c) (hs : Spells cs b) : Spells (c :: cs) (w ++ b)

def shellName : Shell → Str
  | .bash => "bash".toList
  | .zsh => "zsh".toList
  | .fish => "fish".toList
  | .powershell => "powershell".toList

end Spec

open Spec Json

def Letter (c : Char) : Prop := 0x61 ≤ c.toNat ∧ c.toNat ≤ 0x7a

theorem runesFold_letter (other : Nat → Nat) (a c : Nat) (hc : 0x61 ≤ c ∧ c ≤ 0x7a) :
    runesFold other a c = true ↔ a = c ∨ a = c - 32 ∨ (c = 0x73 ∧ a = 0x17f) ∨ (c = 0x6b ∧ a = 0x212a) := by
  unfold runesFold
  by_cases h : a = c
  · simp [h]
  · rw [if_neg h]
    simp only
    by_cases hca : c < a
    · rw [if_pos hca, if_pos hca]
      by_cases h8 : a < 0x80
      · rw [if_pos h8]
        simp only [decide_eq_true_eq]
        omega
      · rw [if_neg h8]
        by_cases hs : c = 0x73
        · subst hs
          have e : simpleFold other 0x73 = 0x17f := rfl
          have e1 : simpleFold other 0x17f = 0x53 := rfl
          have e2 : simpleFold other 0x53 = 0x73 := rfl
          rw [e]
          by_cases h17 : 0x17f < a
          · rw [foldLoop, if_pos ⟨by decide, h17⟩, e1, foldLoop, if_pos ⟨by decide, by omega⟩, e2, foldLoop, if_neg (by simp), beq_iff_eq]
            omega
          · rw [foldLoop, if_neg (by omega), beq_iff_eq]
            omega
        · by_cases hk : c = 0x6b
          · subst hk
            have e : simpleFold other 0x6b = 0x212a := rfl
            have e1 : simpleFold other 0x212a = 0x4b := rfl
            have e2 : simpleFold other 0x4b = 0x6b := rfl
            rw [e]
            by_cases h17 : 0x212a < a
            · rw [foldLoop, if_pos ⟨by decide, h17⟩, e1, foldLoop, if_pos ⟨by decide, by omega⟩, e2, foldLoop, if_neg (by simp), beq_iff_eq]
              omega
            · rw [foldLoop, if_neg (by omega), beq_iff_eq]
              omega
          · have e : simpleFold other c = c - 32 := by
              unfold simpleFold
              rw [if_neg hk, if_neg (by omega), if_neg hs, if_neg (by omega), if_neg (by omega), if_pos hc]
            have e1 : simpleFold other (c - 32) = c := by
              unfold simpleFold
              rw [if_neg (by omega), if_neg (by omega), if_neg (by omega), if_neg (by omega), if_pos (by omega)]
              omega
            rw [e, foldLoop, if_pos ⟨by omega, by omega⟩, e1, foldLoop, if_neg (by simp)]
            simp only [beq_iff_eq]
            omega
    · rw [if_neg hca, if_neg hca, if_pos (by omega)]
      simp only [decide_eq_true_eq]
      omega

theorem utf8Char_head {c : Char} {x : UInt8} {r : Bytes} (h : utf8Char c = x :: r) : x < 0x80 ↔ c.toNat < 0x80 := by
  have hval : c.toNat < 0xd800 ∨ 0xdfff < c.toNat ∧ c.toNat < 0x110000 := c.valid
  unfold utf8Char at h
  simp only at h
  rw [UInt8.lt_iff_toNat_lt]
  split at h
  · cases h
    rw [UInt8.toNat_ofNat']
    have : (0x80 : UInt8).toNat = 128 := rfl
    omega
  all_goals try split at h
  all_goals try split at h
  all_goals
    cases h
    rw [UInt8.toNat_ofNat']
    have : (0x80 : UInt8).toNat = 128 := rfl
    omega

theorem nextRune_char (c : Char) (r : Bytes) : ∃ x s, utf8Char c ++ r = x :: s ∧ nextRune x s = (c.toNat, r) := by
  cases hu : utf8Char c with
  | nil => exact absurd hu (utf8Char_ne c)
  | cons x t =>
    refine ⟨x, t ++ r, rfl, ?_⟩
    unfold nextRune
    by_cases h8 : x < 0x80
    · rw [if_pos h8]
      have hc := (utf8Char_head hu).mp h8
      unfold utf8Char at hu
      simp only at hu
      rw [if_pos hc] at hu
      cases hu
      rw [UInt8.toNat_ofNat']
      refine Prod.ext ?_ rfl
      simp only
      omega
    · rw [if_neg h8]
      have := runeStep_char c r
      rw [hu] at this
      rw [← List.cons_append, this]

/-- a code point other than the replacement character is read exactly from its encoding -/
theorem nextRune_inv {x : UInt8} {s : Bytes} : (∃ c r, x :: s = utf8Char c ++ r ∧ nextRune x s = (c.toNat, r)) ∨ nextRune x s = (0xfffd, s) := by
  by_cases h : ∃ c r, x :: s = utf8Char c ++ r
  · obtain ⟨c, r, h⟩ := h
    obtain ⟨x', s', h1, h2⟩ := nextRune_char c r
    rw [← h] at h1
    cases h1
    exact .inl ⟨c, r, h, h2⟩
  · right
    have h8 : ¬ x < 0x80 := by
      intro h8
      refine h ⟨Char.ofNat x.toNat, s, ?_⟩
      have e := h8
      rw [UInt8.lt_iff_toNat_lt, show (0x80 : UInt8).toNat = 128 from rfl] at e
      have e2 : (Char.ofNat x.toNat).toNat = x.toNat := by
        exact toNat_charOfNat _ (.inl (by omega))
      unfold utf8Char
      simp only [e2, if_pos e]
      simp
    unfold nextRune
    rw [if_neg h8, runeStep_bad]
    rintro c ⟨r, hr⟩
    exact h ⟨c, r, hr.symm⟩

theorem ascii_writing {n : Nat} (h : n < 0x80) : utf8Char (Char.ofNat n) = [UInt8.ofNat n] ∧ (Char.ofNat n).toNat = n := by
  have e := toNat_charOfNat n (.inl (by omega))
  refine ⟨?_, e⟩
  unfold utf8Char
  simp only [e, if_pos h]

theorem writings_iff {c : Char} (hc : Letter c) (w : Bytes) :
    w ∈ writings c ↔ ∃ d, w = utf8Char d ∧ (d.toNat = c.toNat ∨ d.toNat = c.toNat - 32 ∨ (c.toNat = 0x73 ∧ d.toNat = 0x17f) ∨ (c.toNat = 0x6b ∧ d.toNat = 0x212a)) := by
  have hs : c = 's' ↔ c.toNat = 0x73 := ⟨fun h => by rw [h]; rfl, fun h => Char.toNat_inj.mp h⟩
  have hk : c = 'k' ↔ c.toNat = 0x6b := ⟨fun h => by rw [h]; rfl, fun h => Char.toNat_inj.mp h⟩
  have inv : ∀ {d : Char} {n : Nat}, d.toNat = n → d = Char.ofNat n := fun h => by rw [← h, Char.ofNat_toNat]
  obtain ⟨h1, h2⟩ := hc
  have a1 := ascii_writing (n := c.toNat) (by omega)
  have a2 := ascii_writing (n := c.toNat - 32) (by omega)
  have a3 : utf8Char (Char.ofNat 0x17f) = [0xc5, 0xbf] := by decide
  have a4 : utf8Char (Char.ofNat 0x212a) = [0xe2, 0x84, 0xaa] := by decide
  unfold writings
  simp only [List.mem_append, List.mem_cons, List.not_mem_nil, or_false]
  constructor
  · rintro (((rfl | rfl) | h) | h)
    · exact ⟨_, a1.1.symm, .inl a1.2⟩
    · exact ⟨_, a2.1.symm, .inr (.inl a2.2)⟩
    · split at h
      · rename_i hc
        cases List.mem_singleton.mp h
        exact ⟨_, a3.symm, .inr (.inr (.inl ⟨hs.mp hc, rfl⟩))⟩
      · cases h
    · split at h
      · rename_i hc
        cases List.mem_singleton.mp h
        exact ⟨_, a4.symm, .inr (.inr (.inr ⟨hk.mp hc, rfl⟩))⟩
      · cases h
  · rintro ⟨d, rfl, h | h | ⟨h, h'⟩ | ⟨h, h'⟩⟩
    · rw [inv h, a1.1]; exact .inl (.inl (.inl rfl))
    · rw [inv h, a2.1]; exact .inl (.inl (.inr rfl))
    · rw [inv h', a3, if_pos (hs.mpr h)]; exact .inl (.inr (List.mem_singleton.mpr rfl))
    · rw [inv h', a4, if_pos (hk.mpr h)]; exact .inr (List.mem_singleton.mpr rfl)

theorem equalFold_iff (other : Nat → Nat) (cs : Str) (hl : ∀ c ∈ cs, Letter c) : ∀ a : Bytes,
    equalFold other cs.length a (cs.map fun c => UInt8.ofNat c.toNat) = true ↔ Spells cs a := by
  induction cs with
  | nil =>
    intro a
    simp only [List.length_nil, List.map_nil, equalFold, beq_iff_eq]
    constructor
    · rintro rfl; exact .nil
    · rintro ⟨⟩; rfl
  | cons c cs ih =>
    intro a
    have hc := hl c List.mem_cons_self
    have ih := ih fun d hd => hl d (List.mem_cons_of_mem _ hd)
    cases a with
    | nil =>
      simp only [List.length_cons, List.map_cons, equalFold, beq_iff_eq]
      constructor
      · intro h; cases h
      · intro h
        generalize hb : ([] : Bytes) = b at h
        cases h with
        | cons hw hs =>
          obtain ⟨d, rfl, -⟩ := (writings_iff hc _).mp hw
          exact absurd (List.append_eq_nil_iff.mp hb.symm).1 (utf8Char_ne d)
    | cons x s =>
      have hy : nextRune (UInt8.ofNat c.toNat) (cs.map fun c => UInt8.ofNat c.toNat) = (c.toNat, cs.map fun c => UInt8.ofNat c.toNat) := by
        have e := (ascii_writing (n := c.toNat) (by unfold Letter at hc; omega)).1
        rw [Char.ofNat_toNat] at e
        obtain ⟨y, t, h1, h2⟩ := nextRune_char c (cs.map fun c => UInt8.ofNat c.toNat)
        rw [e] at h1
        cases h1
        exact h2
      simp only [List.length_cons, List.map_cons, equalFold, hy, Bool.if_false_right, Bool.and_eq_true, decide_eq_true_eq]
      rw [runesFold_letter other _ _ hc, ih]
      constructor
      · rintro ⟨h, hs⟩
        rcases nextRune_inv (x := x) (s := s) with ⟨d, r, he, hn⟩ | hn
        · rw [hn] at h hs
          rw [he]
          exact .cons ((writings_iff hc _).mpr ⟨d, rfl, h⟩) hs
        · rw [hn] at h
          unfold Letter at hc
          simp only at h
          omega
      · intro h
        generalize hb : x :: s = b at h
        cases h with
        | @cons _ w _ b' hw hs =>
          obtain ⟨d, rfl, hd⟩ := (writings_iff hc _).mp hw
          obtain ⟨x', s', h1, h2⟩ := nextRune_char d b'
          rw [← hb] at h1
          cases h1
          rw [h2]
          exact ⟨hd, hs⟩

theorem shell_iff (other : Nat → Nat) (name : String) (h : ∀ c ∈ name.toList, Letter c) (a : Bytes) :
    equalFold other (asciiOctets name).length a (asciiOctets name) = true ↔ Spells name.toList a := by
  unfold asciiOctets
  rw [List.length_map]
  exact equalFold_iff other name.toList h a

theorem letters (name : String) (h : name.toList.all (fun c => decide (0x61 ≤ c.toNat ∧ c.toNat ≤ 0x7a)) = true) : ∀ c ∈ name.toList, Letter c :=
  by
  intro c hc
  have := List.all_eq_true.mp h c hc
  exact of_decide_eq_true (p := 0x61 ≤ c.toNat ∧ c.toNat ≤ 0x7a) this

theorem Spec.Spells.uniq {cs ds : Str} {a : Bytes} (h : Spells cs a) (hc : ∀ c ∈ cs, Letter c) : (∀ d ∈ ds, Letter d) → Spells ds a → cs = ds := by
  induction h generalizing ds with
  | nil =>
    intro hd h
    generalize hb : ([] : Bytes) = b at h
    cases h with
    | nil => rfl
    | cons hw hs =>
      obtain ⟨d, rfl, -⟩ := (writings_iff (hd _ List.mem_cons_self) _).mp hw
      exact absurd (List.append_eq_nil_iff.mp hb.symm).1 (utf8Char_ne d)
  | @cons c w cs b hw hs ih =>
    intro hd h
    obtain ⟨e, rfl, he⟩ := (writings_iff (hc _ List.mem_cons_self) _).mp hw
    generalize hb : utf8Char e ++ b = b' at h
    cases h with
    | nil => exact absurd (List.append_eq_nil_iff.mp hb).1 (utf8Char_ne e)
    | @cons d w' ds b'' hw' hs' =>
      obtain ⟨e', rfl, he'⟩ := (writings_iff (hd _ List.mem_cons_self) _).mp hw'
      have h1 := runeStep_char e b
      rw [hb, runeStep_char e' b''] at h1
      cases h1
      have h2 := hc _ List.mem_cons_self
      have h3 := hd _ List.mem_cons_self
      unfold Letter at h2 h3
      have : c.toNat = d.toNat := by omega
      rw [Char.toNat_inj.mp this, ih (fun x hx => hc x (List.mem_cons_of_mem _ hx)) (fun x hx => hd x (List.mem_cons_of_mem _ hx)) hs']

theorem shellName_letters (s : Shell) : ∀ c ∈ shellName s, Letter c := by
  cases s
  · exact letters "bash" (by decide)
  · exact letters "zsh" (by decide)
  · exact letters "fish" (by decide)
  · exact letters "powershell" (by decide)

/-! ## C74 -/

/-- C74 (the argument): a script is written exactly if there is no argument (bash) or the only argument is the name of a shell, in upper
or lower case letters, a long s for an s; then it is the script of that shell, and no argument names two. `other`: what `unicode.SimpleFold`
does with the code points that do not fold to ASCII. -/
theorem C74_argument (other : Nat → Nat) (args : List Bytes) (s : Shell) :
    completionShell other args = some s ↔ (args = [] ∧ s = .bash) ∨ ∃ a, args = [a] ∧ Spells (shellName s) a := by
  match args with
  | [] =>
    rw [completionShell, Option.some.injEq]
    constructor
    · rintro rfl; exact .inl ⟨rfl, rfl⟩
    · rintro (⟨-, rfl⟩ | ⟨a, h, -⟩)
      · rfl
      · cases h
  | a :: b :: l =>
    simp only [completionShell]
    constructor
    · intro h; cases h
    · rintro (⟨h, -⟩ | ⟨a, h, -⟩) <;> cases h
  | [a] =>
    have e1 := shell_iff other "bash" (letters _ (by decide)) a
    have e2 := shell_iff other "zsh" (letters _ (by decide)) a
    have e3 := shell_iff other "fish" (letters _ (by decide)) a
    have e4 := shell_iff other "powershell" (letters _ (by decide)) a
    have hu : ∀ t, Spells (shellName t) a → (Spells (shellName s) a ↔ t = s) := by
      intro t ht
      constructor
      · intro hs
        have := ht.uniq (shellName_letters t) (shellName_letters s) hs
        revert this
        cases t <;> cases s <;> decide
      · rintro rfl; exact ht
    have hr : ((([a] : List Bytes) = [] ∧ s = Shell.bash) ∨ ∃ a', [a] = [a'] ∧ Spells (shellName s) a') ↔ Spells (shellName s) a := by
      constructor
      · rintro (⟨h, -⟩ | ⟨a', h, hs⟩)
        · cases h
        · cases h; exact hs
      · intro h; exact .inr ⟨a, rfl, h⟩
    rw [hr]
    simp only [completionShell]
    split
    · rename_i h; rw [hu .bash (e1.mp h), Option.some.injEq]
    · rename_i n1
      split
      · rename_i h; rw [hu .zsh (e2.mp h), Option.some.injEq]
      · rename_i n2
        split
        · rename_i h; rw [hu .fish (e3.mp h), Option.some.injEq]
        · rename_i n3
          split
          · rename_i h; rw [hu .powershell (e4.mp h), Option.some.injEq]
          · rename_i n4
            constructor
            · intro h; cases h
            · intro h
              cases s
              · exact absurd (e1.mpr h) n1
              · exact absurd (e2.mpr h) n2
              · exact absurd (e3.mpr h) n3
              · exact absurd (e4.mpr h) n4

/-- C74 (output): in a process without an earlier `--debug` the script, and nothing else, goes to standard output, and the exit code is normal
exactly if all of it is written; with other arguments nothing is written and the exit code is abnormal. -/
theorem C74_output (other : Nat → Nat) (W : World) (script : Shell → Bytes) (args : List Bytes) :
    (∀ s, (args = [] ∧ s = .bash) ∨ (∃ a, args = [a] ∧ Spells (shellName s) a) →
      (executeCompletion other W script false args).stdout = (script s).take (W.write (script s)).1 ∧
      ((executeCompletion other W script false args).exit = some .normal ↔
        (W.write (script s)).2 = none ∧ (script s).length ≤ (W.write (script s)).1)) ∧
    ((∀ s, ¬ ((args = [] ∧ s = .bash) ∨ (∃ a, args = [a] ∧ Spells (shellName s) a))) →
      executeCompletion other W script false args = ⟨some .abnormal, [], false⟩) := by
  constructor
  · intro s h
    rw [← C74_argument other] at h
    unfold executeCompletion
    rw [h]
    simp only [writeFrom]
    rcases hw : W.write (script s) with ⟨n, e⟩
    cases e with
    | some c => simp [debugPrint, exitOf]
    | none =>
      simp only [Option.map_none]
      by_cases hn : n < (script s).length
      · rw [if_pos hn]
        refine ⟨by simp [debugPrint], ?_⟩
        simp [debugPrint, exitOf]
        omega
      · rw [if_neg hn]
        simp [debugPrint, exitOf]
        omega
  · intro h
    have : completionShell other args = none := by
      cases hs : completionShell other args with
      | none => rfl
      | some s => exact absurd ((C74_argument other args s).mp hs) (h s)
    unfold executeCompletion
    rw [this]
    rfl

/-- C74, after `--debug` in the same process: wrong arguments end normally, with the error on standard output. -/
theorem C74_stale (other : Nat → Nat) (W : World) (script : Shell → Bytes) (args : List Bytes)
    (h : ∀ s, ¬ ((args = [] ∧ s = .bash) ∨ (∃ a, args = [a] ∧ Spells (shellName s) a))) :
    executeCompletion other W script true args = ⟨some .normal, (W.fmt .args).take (W.write (W.fmt .args)).1, true⟩ := by
  have : completionShell other args = none := by
    cases hs : completionShell other args with
    | none => rfl
    | some s => exact absurd ((C74_argument other args s).mp hs) (h s)
  unfold executeCompletion
  rw [this]
  rfl

/-- `completion baſH` -/
example (other : Nat → Nat) : completionShell other [[0x62, 0x61, 0xc5, 0xbf, 0x48]] = some .bash :=
  (C74_argument other _ _).mpr (.inr ⟨_, rfl, .cons (w := [0x62]) (by decide) (.cons (w := [0x61]) (by decide)
    (.cons (w := [0xc5, 0xbf]) (by decide) (.cons (w := [0x48]) (by decide) .nil)))⟩)

/-- `completion tcsh` -/
example (other : Nat → Nat) : completionShell other [[0x74, 0x63, 0x73, 0x68]] = none := by rfl

end Gpgpdump
