import Verif.Context

/-!
# C31, C32: options
-/

namespace Gpgpdump

/-! ## C31 -/

/-- the value of the last call for `code` in a history of `Set` calls, false without one -/
def lastSet (sets : List (OptCode × Bool)) (code : OptCode) : Bool :=
  match (sets.reverse.find? fun p => p.1 = code) with
  | some p => p.2
  | none => false

theorem new_snoc (sets : List (OptCode × Bool)) (p : OptCode × Bool) : Ctx.new (sets ++ [p]) = (Ctx.new sets).set p.1 p.2 := by
  simp [Ctx.new, List.foldl_append]

/-- induction over a history from its end -/
theorem snoc_induction {α} {P : List α → Prop} (h0 : P []) (h1 : ∀ l a, P l → P (l ++ [a])) : ∀ l, P l := by
  intro l
  rw [← List.reverse_reverse l]
  induction l.reverse with
  | nil => exact h0
  | cons a l ih => rw [List.reverse_cons]; exact h1 _ _ ih

/-- C31: after any history of `Set` calls, `Get` of a positive code is the last value set for it (false if never set); codes
that are not positive are never stored. -/
theorem C31_get (sets : List (OptCode × Bool)) (code : OptCode) :
    (Ctx.new sets).get code = (decide (code > 0) && lastSet sets code) := by
  induction sets using snoc_induction with
  | h0 => simp [Ctx.new, Ctx.get, Ctx.empty, lastSet]
  | h1 l p ih =>
    rw [new_snoc]
    have hl : lastSet (l ++ [p]) code = if p.1 = code then p.2 else lastSet l code := by
      unfold lastSet
      rw [List.reverse_append, List.reverse_singleton, List.singleton_append, List.find?_cons]
      by_cases h : p.1 = code <;> simp [h]
    rw [hl]
    unfold Ctx.set
    by_cases hp : p.1 > 0
    · rw [if_pos hp]
      unfold Ctx.get at ih ⊢
      simp only
      by_cases hc : code = p.1
      · subst hc; simp [hp]
      · rw [if_neg hc, if_neg (fun h => hc h.symm)]; exact ih
    · rw [if_neg hp, ih]
      by_cases hc : p.1 = code
      · subst hc; simp [hp]
      · rw [if_neg hc]

/-- C31: an unknown (not positive) code changes nothing, at any point of a history. -/
theorem C31_unknown_code (sets sets' : List (OptCode × Bool)) (code : Int) (f : Bool) (h : code ≤ 0) :
    Ctx.new (sets ++ (code, f) :: sets') = Ctx.new (sets ++ sets') := by
  have : (Ctx.new sets).set code f = Ctx.new sets := by
    unfold Ctx.set; rw [if_neg (fun h' => absurd h (Int.not_le.mpr h'))]
  simp only [Ctx.new, List.foldl_append, List.foldl_cons] at this ⊢
  rw [this]

/-- C31: `SetByString` is `Set` with the looked-up code; names that are no option change nothing. -/
theorem C31_by_string (sets : List (Str × Bool)) :
    Ctx.newByString sets = Ctx.new (sets.map fun p => (getOptCode p.1, p.2)) := by
  unfold Ctx.newByString Ctx.new
  rw [List.foldl_map]

/-- C31: the reported options, from the history of `Set` calls: CERT, GDUMP, INTEGER, LITERAL, MARKER and PRIVATE are on iff
they or DEBUG were last set to true; ARMOR, DEBUG, UTC iff they themselves were. -/
theorem C31_reported (sets : List (OptCode × Bool)) :
    let c := Ctx.new sets
    let on := lastSet sets
    c.armor = on 1 ∧ c.debug = on 3 ∧ c.utc = on 9 ∧
    c.cert = (on 2 || on 3) ∧ c.gdump = (on 4 || on 3) ∧ c.integer = (on 5 || on 3) ∧ c.literal = (on 6 || on 3) ∧
    c.marker = (on 7 || on 3) ∧ c.priv = (on 8 || on 3) := by
  simp only [Ctx.armor, Ctx.debug, Ctx.utc, Ctx.cert, Ctx.gdump, Ctx.integer, Ctx.literal, Ctx.marker, Ctx.priv, C31_get,
    ARMOR, CERT, DEBUG, GDUMP, INTEGER, LITERAL, MARKER, PRIVATE, UTC]
  simp

/-- C31: a new context has no session-key mode and no remembered times, whatever options were set. -/
theorem C31_fresh_state (sets : List (OptCode × Bool)) :
    (Ctx.new sets).mode = .notSpecified ∧ (Ctx.new sets).sigTime = none ∧ (Ctx.new sets).keyTime = none := by
  induction sets using snoc_induction with
  | h0 => exact ⟨rfl, rfl, rfl⟩
  | h1 l p ih => rw [new_snoc]; unfold Ctx.set; split <;> exact ih

/-- a non-trivial history: DEBUG on, then off, INTEGER on -/
example : (Ctx.new [(DEBUG, true), (INTEGER, true), (DEBUG, false), (-3, true)]).integer = true ∧
    (Ctx.new [(DEBUG, true), (INTEGER, true), (DEBUG, false), (-3, true)]).cert = false := by decide

/-! ## C32 -/

/-- the documented option names -/
def optionNames : List (String × OptCode) :=
  [("armor", 1), ("cert", 2), ("debug", 3), ("gdump", 4), ("int", 5), ("literal", 6), ("marker", 7), ("private", 8), ("utc", 9)]

/-- C32: looking up the name of any of the nine options gives the option. -/
theorem C32_round_trip : ∀ code : Int, 1 ≤ code → code ≤ 9 → getOptCode (optName code) = code := by
  have : ∀ i : Fin 9, getOptCode (optName ((i.val : Int) + 1)) = (i.val : Int) + 1 := by decide +kernel
  intro code h1 h2
  have h := this ⟨(code - 1).toNat, by omega⟩
  simp only at h
  rw [show (((code - 1).toNat : Nat) : Int) + 1 = code by omega] at h
  exact h

/-- C32: the names shown for the options are the documented ones; every other code is shown as `unknown`. -/
theorem C32_names : (∀ p ∈ optionNames, optName p.2 = p.1.toList) ∧
    ∀ code : Int, code < 1 ∨ 9 < code → optName code = S "unknown" := by
  constructor
  · decide +kernel
  · intro code h
    unfold optName
    have : optcodeMap.find? (fun kv => kv.1 == code) = none := by
      rw [List.find?_eq_none]
      intro x hx
      have key : ∀ x ∈ optcodeMap, (1 : Int) ≤ x.1 ∧ (x.1 : Int) ≤ 9 := by decide
      have := key x hx
      rw [beq_iff_eq]
      intro he
      have he : (x.1 : Int) = code := he
      rw [he] at this
      rcases h with h | h
      · exact absurd this.1 (Int.not_le.mpr h)
      · exact absurd this.2 (Int.not_le.mpr h)
    rw [this]

/-- ASCII lower case -/
def asciiLower (s : Str) : Str := s.map Char.toLower

/-- C32: a string of ASCII characters is looked up without regard to letter case; it is an option exactly when its lower-case
form is one of the documented names, otherwise the result is 0 (UNKNOWN). -/
theorem C32_lookup (s : Str) (hs : ∀ c ∈ s, c.toNat < 128) :
    (∀ p ∈ optionNames, asciiLower s = p.1.toList → getOptCode s = p.2) ∧
    ((∀ p ∈ optionNames, asciiLower s ≠ p.1.toList) → getOptCode s = 0) := by
  have hl : s.map toLower = asciiLower s := by
    apply List.map_congr_left
    intro c hc
    have key : ∀ n : Fin 128, toLower (Char.ofNat n) = (Char.ofNat n).toLower := by decide +kernel
    have := key ⟨c.toNat, hs c hc⟩
    simpa using this
  constructor
  · intro p hp he
    have key : ∀ p ∈ optionNames, (match optcodeMap.find? (fun kv => p.1.toList == kv.2) with
      | some kv => kv.1
      | none => 0) = p.2 := by decide +kernel
    unfold getOptCode getOptCodeWith
    rw [hl, he]
    exact key p hp
  · intro h
    unfold getOptCode getOptCodeWith
    have : optcodeMap.find? (fun kv => s.map toLower == kv.2) = none := by
      rw [List.find?_eq_none, hl]
      intro kv hkv
      have key : ∀ kv ∈ optcodeMap, ∃ p ∈ optionNames, kv.2 = p.1.toList := by decide +kernel
      obtain ⟨p, hp, he⟩ := key kv hkv
      rw [he]
      simpa using h p hp
    rw [this]

/-- `c` is a form of the lower-case letter `l`: the letter, its upper-case form, or one of the two letters outside ASCII whose
Unicode lower-case form is an ASCII letter (U+0130 for `i`, U+212A for `k`) -/
def FormOf (c l : Char) : Prop :=
  c = l ∨ c.toNat + 32 = l.toNat ∨ (l = 'i' ∧ c.toNat = 0x130) ∨ (l = 'k' ∧ c.toNat = 0x212A)

theorem toLower_iff {l : Char} (hl : 'a' ≤ l ∧ l ≤ 'z') (c : Char) : toLower c = l ↔ FormOf c l := by
  have nat : ∀ a b : Char, a = b ↔ a.toNat = b.toNat := fun a b =>
    ⟨fun h => h ▸ rfl, fun h => Char.ext (UInt32.toNat_inj.mp h)⟩
  have le : ∀ a b : Char, a ≤ b ↔ a.toNat ≤ b.toNat := fun a b => Iff.rfl
  have h1 : 97 ≤ l.toNat ∧ l.toNat ≤ 122 := by
    obtain ⟨ha, hb⟩ := hl
    rw [le] at ha hb
    exact ⟨ha, hb⟩
  unfold toLower FormOf
  rw [nat c l, nat l 'i', nat l 'k']
  show _ ↔ c.toNat = l.toNat ∨ _ ∨ (l.toNat = 105 ∧ _) ∨ (l.toNat = 107 ∧ _)
  by_cases hu : 65 ≤ c.toNat ∧ c.toNat ≤ 90
  · rw [if_pos (show 'A' ≤ c ∧ c ≤ 'Z' from hu), nat]
    have : (Char.ofNat (c.toNat + 32)).toNat = c.toNat + 32 := by
      have key : ∀ n : Fin 91, (Char.ofNat (n.val + 32)).toNat = n.val + 32 := by decide +kernel
      exact key ⟨c.toNat, by omega⟩
    rw [this]
    omega
  · rw [if_neg (show ¬ ('A' ≤ c ∧ c ≤ 'Z') from hu)]
    by_cases hk : c.toNat = 0x212A
    · rw [if_pos hk, nat]
      show 107 = _ ↔ _
      omega
    · rw [if_neg hk]
      by_cases hi : c.toNat = 0x130
      · rw [if_pos hi, nat]
        show 105 = _ ↔ _
        omega
      · rw [if_neg hi, nat]
        omega

/-- the strings that are a lower-case word up to letter case -/
inductive Forms : Str → Str → Prop
  | nil : Forms [] []
  | cons {c l s w} : FormOf c l → Forms s w → Forms (c :: s) (l :: w)

theorem map_toLower_iff : ∀ {name : Str}, (∀ l ∈ name, 'a' ≤ l ∧ l ≤ 'z') → ∀ s : Str,
    s.map toLower = name ↔ Forms s name := by
  intro name
  induction name with
  | nil =>
    intro _ s
    constructor
    · intro h
      rw [List.map_eq_nil_iff] at h
      subst h
      exact .nil
    · intro h
      cases h
      rfl
  | cons l name ih =>
    intro h s
    have h' := ih fun x hx => h x (List.mem_cons_of_mem _ hx)
    have hl := toLower_iff (h l List.mem_cons_self)
    constructor
    · intro he
      cases s with
      | nil => cases he
      | cons c s =>
        rw [List.map_cons, List.cons.injEq] at he
        exact .cons ((hl c).mp he.1) ((h' s).mp he.2)
    · intro hf
      cases hf with
      | cons h1 h2 => rw [List.map_cons, (hl _).mpr h1, (h' _).mpr h2]

/-- C32: for every string and every code: the string is looked up as that option exactly when it is the option's name up to
letter case, and as UNKNOWN exactly when it is none of the names up to letter case. -/
theorem C32_exact (s : Str) :
    (∀ p ∈ optionNames, getOptCode s = p.2 ↔ Forms s p.1.toList) ∧
    (getOptCode s = 0 ↔ ∀ p ∈ optionNames, ¬ Forms s p.1.toList) ∧
    (getOptCode s ≠ 0 → ∃ p ∈ optionNames, getOptCode s = p.2) := by
  have low : ∀ p ∈ optionNames, ∀ l ∈ p.1.toList, 'a' ≤ l ∧ l ≤ 'z' := by decide +kernel
  have found : ∀ p ∈ optionNames, s.map toLower = p.1.toList → getOptCode s = p.2 := by
    intro p hp he
    have key : ∀ p ∈ optionNames, (match optcodeMap.find? (fun kv => p.1.toList == kv.2) with
      | some kv => kv.1
      | none => 0) = p.2 := by decide +kernel
    unfold getOptCode getOptCodeWith
    rw [he]
    exact key p hp
  have missing : (∀ p ∈ optionNames, s.map toLower ≠ p.1.toList) → getOptCode s = 0 := by
    intro h
    unfold getOptCode getOptCodeWith
    have : optcodeMap.find? (fun kv => s.map toLower == kv.2) = none := by
      rw [List.find?_eq_none]
      intro kv hkv
      have key : ∀ kv ∈ optcodeMap, ∃ p ∈ optionNames, kv.2 = p.1.toList := by decide +kernel
      obtain ⟨p, hp, he⟩ := key kv hkv
      rw [he]
      simpa using h p hp
    rw [this]
  have apart : ∀ p ∈ optionNames, ∀ q ∈ optionNames, p.2 = q.2 → p.1.toList = q.1.toList := by decide +kernel
  have nonzero : ∀ p ∈ optionNames, p.2 ≠ 0 := by decide
  refine ⟨?_, ?_, ?_⟩
  · intro p hp
    rw [← map_toLower_iff (low p hp)]
    refine ⟨fun h => ?_, found p hp⟩
    by_cases hall : ∃ q ∈ optionNames, s.map toLower = q.1.toList
    · obtain ⟨q, hq, hqe⟩ := hall
      exact hqe.trans (apart q hq p hp ((found q hq hqe).symm.trans h))
    · exact absurd (h.symm.trans (missing fun q hq he => hall ⟨q, hq, he⟩)) (nonzero p hp)
  · constructor
    · intro h p hp hf
      exact nonzero p hp ((found p hp ((map_toLower_iff (low p hp) s).mpr hf)).symm.trans h)
    · intro h
      exact missing fun p hp he => h p hp ((map_toLower_iff (low p hp) s).mp he)
  · intro h
    by_cases hall : ∃ q ∈ optionNames, s.map toLower = q.1.toList
    · obtain ⟨q, hq, hqe⟩ := hall
      exact ⟨q, hq, found q hq hqe⟩
    · exact absurd (missing fun q hq he => hall ⟨q, hq, he⟩) h

/-- Two letters outside ASCII have ASCII lower-case forms, so `PRİVATE` and
`MARKER` are accepted as option names. -/
theorem C32_non_ascii : ∃ s t : Str, (∃ c ∈ s, 128 ≤ c.toNat) ∧ (∃ c ∈ t, 128 ≤ c.toNat) ∧
    getOptCode s = PRIVATE ∧ getOptCode t = MARKER := by
  refine ⟨S "PRİVATE", S "MARKER", by decide, by decide, by decide +kernel, by decide +kernel⟩

example : getOptCode (S "LiTeRaL") = LITERAL ∧ getOptCode (S "literals") = 0 := by decide +kernel

end Gpgpdump
