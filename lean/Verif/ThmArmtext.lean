import Verif.Armtext

/-!
# C33: armor extraction, on the lines of the input
-/

namespace Gpgpdump

namespace Spec

/-- the line starts an armor block -/
def BeginLine (l : Bytes) : Prop := ascii "-----BEGIN PGP" <+: l ∧ ¬ ascii "-----BEGIN PGP SIGNED" <+: l
/-- the line ends an armor block -/
def EndLine (l : Bytes) : Prop := ascii "-----END PGP" <+: l

/-- every line followed by a line feed -/
def unlines (ls : List Bytes) : Bytes := ls.flatMap fun l => l ++ [0x0a]

/-- `block` is the armor block of the lines `ls`: from the first line that starts one to the next line that ends one -/
def ArmorBlock (ls : List Bytes) (block : List Bytes) : Prop :=
  ∃ before b mid e after, ls = before ++ b :: mid ++ e :: after ∧ block = b :: mid ++ [e] ∧
    (∀ l ∈ before, ¬ BeginLine l) ∧ BeginLine b ∧ (∀ l ∈ mid, ¬ EndLine l) ∧ EndLine e

end Spec

open Spec

theorem begin_iff (l : Bytes) :
    (armorBoundery.isPrefixOf l && !armorBounderyExcept.isPrefixOf l) = true ↔ BeginLine l := by
  rw [Bool.and_eq_true, List.isPrefixOf_iff_prefix, Bool.not_eq_true', ← Bool.not_eq_true, List.isPrefixOf_iff_prefix]
  rfl

theorem end_iff (l : Bytes) : armorBounderyTerminate.isPrefixOf l = true ↔ EndLine l := by
  simp [EndLine, armorBounderyTerminate]

theorem begin_not_end (l : Bytes) (h : BeginLine l) : ¬ EndLine l := by
  intro he
  obtain ⟨t, rfl⟩ := h.1
  obtain ⟨u, hu⟩ := he
  have : (ascii "-----END PGP" ++ u)[5]? = (ascii "-----BEGIN PGP" ++ t)[5]? := by rw [hu]
  revert this
  have h1 : (ascii "-----END PGP" ++ u)[5]? = some 0x45 := rfl
  have h2 : (ascii "-----BEGIN PGP" ++ t)[5]? = some 0x42 := rfl
  rw [h1, h2]
  decide

theorem armLoop_done (ls : List Bytes) (buf : Bytes) : armLoop ls (buf, true, true) = (buf, true, true) := by
  induction ls with
  | nil => rfl
  | cons l ls ih => simp [armLoop, ih]

theorem armLoop_before (before ls : List Bytes) (hb : ∀ l ∈ before, ¬ BeginLine l) (buf : Bytes) :
    armLoop (before ++ ls) (buf, false, false) = armLoop ls (buf, false, false) := by
  induction before with
  | nil => rfl
  | cons l before ih =>
    have h1 : (armorBoundery.isPrefixOf l && !armorBounderyExcept.isPrefixOf l) = false := by
      have := hb l List.mem_cons_self
      rw [← begin_iff] at this
      simpa using this
    rw [List.cons_append, armLoop]
    simp only [Bool.not_false, if_true, h1, Bool.false_and, Bool.false_eq_true, if_false]
    exact ih (fun l hl => hb l (List.mem_cons_of_mem _ hl))

theorem armLoop_mid (mid ls : List Bytes) (hm : ∀ l ∈ mid, ¬ EndLine l) (buf : Bytes) :
    armLoop (mid ++ ls) (buf, true, false) = armLoop ls (buf ++ unlines mid, true, false) := by
  induction mid generalizing buf with
  | nil => simp [unlines]
  | cons l mid ih =>
    have h1 : armorBounderyTerminate.isPrefixOf l = false := by
      have := hm l List.mem_cons_self
      rw [← end_iff] at this
      exact Bool.not_eq_true _ ▸ this
    rw [List.cons_append, armLoop]
    simp only [Bool.not_true, Bool.false_eq_true, if_false, Bool.not_false, Bool.and_self, if_true, h1]
    rw [ih (fun l hl => hm l (List.mem_cons_of_mem _ hl))]
    simp [unlines]

theorem armLoop_begin (b : Bytes) (ls : List Bytes) (hb : BeginLine b) (buf : Bytes) :
    armLoop (b :: ls) (buf, false, false) = armLoop ls (buf ++ (b ++ [0x0a]), true, false) := by
  have h1 := (begin_iff b).mpr hb
  have h2 : armorBounderyTerminate.isPrefixOf b = false := by
    have := begin_not_end b hb
    rw [← end_iff] at this
    exact Bool.not_eq_true _ ▸ this
  rw [armLoop]
  simp only [Bool.not_false, if_true, h1, Bool.and_self, h2, List.append_assoc]

theorem armLoop_end (e : Bytes) (ls : List Bytes) (he : EndLine e) (buf : Bytes) :
    armLoop (e :: ls) (buf, true, false) = (buf ++ (e ++ [0x0a]), true, true) := by
  rw [armLoop]
  simp only [Bool.not_true, Bool.false_eq_true, if_false, Bool.not_false, Bool.and_self, if_true, (end_iff e).mpr he,
    armLoop_done, List.append_assoc]

/-- split a list at the first element with a property -/
theorem first_split {α} (p : α → Prop) (l : List α) : (∀ x ∈ l, ¬ p x) ∨
    ∃ a x b, l = a ++ x :: b ∧ (∀ y ∈ a, ¬ p y) ∧ p x := by
  induction l with
  | nil => left; intro x hx; cases hx
  | cons y l ih =>
    by_cases hy : p y
    · right; exact ⟨[], y, l, rfl, by simp, hy⟩
    · rcases ih with h | ⟨a, x, b, rfl, ha, hx⟩
      · left; intro x hx; rcases List.mem_cons.mp hx with rfl | hx
        · exact hy
        · exact h x hx
      · right
        refine ⟨y :: a, x, b, rfl, ?_, hx⟩
        intro z hz; rcases List.mem_cons.mp hz with rfl | hz
        · exact hy
        · exact ha z hz

/-- C33: when the input is read without error, `armtext.Get` returns exactly the armor block (every line ended by a line
feed) if there is one; text before and after is irrelevant. -/
theorem C33_found (src : Src) (ls : List Bytes) (c : Bytes) (hs : scanAll src = (ls, none, c)) (block : List Bytes)
    (h : ArmorBlock ls block) : (armtextGet src).1 = .ok (unlines block) := by
  obtain ⟨before, b, mid, e, after, rfl, rfl, hb, hbl, hm, he⟩ := h
  unfold armtextGet
  rw [hs]
  have : armLoop (before ++ b :: mid ++ e :: after) ([], false, false) = (unlines (b :: mid ++ [e]), true, true) := by
    rw [List.append_assoc, armLoop_before _ _ hb, List.cons_append, armLoop_begin _ _ hbl, armLoop_mid _ _ hm,
      armLoop_end _ _ he]
    simp [unlines]
  simp only [this, Bool.not_true, Bool.or_self, Bool.false_eq_true, if_false]

/-- C33: without an armor block the result is `ErrArmorText`. -/
theorem C33_not_found (src : Src) (ls : List Bytes) (c : Bytes) (hs : scanAll src = (ls, none, c))
    (h : ¬ ∃ block, ArmorBlock ls block) : (armtextGet src).1 = .error (wrapErr .armorText) := by
  unfold armtextGet
  rw [hs]
  rcases first_split BeginLine ls with hn | ⟨before, b, rest, rfl, hb, hbl⟩
  · have := armLoop_before ls [] hn []
    rw [List.append_nil] at this
    simp only [this]
    rfl
  · rcases first_split EndLine rest with hn | ⟨mid, e, after, rfl, hm, he⟩
    · have : armLoop (before ++ b :: rest) ([], false, false) = ([] ++ (b ++ [0x0a]) ++ unlines rest, true, false) := by
        rw [armLoop_before _ _ hb, armLoop_begin _ _ hbl]
        have := armLoop_mid rest [] hn ([] ++ (b ++ [0x0a]))
        rw [List.append_nil] at this
        rw [this]; rfl
      simp only [this]
      rfl
    · exact absurd ⟨_, before, b, mid, e, after, by simp, rfl, hb, hbl, hm, he⟩ h

/-- C33: there is at most one armor block. -/
theorem C33_unique (ls : List Bytes) (b1 b2 : List Bytes) (h1 : ArmorBlock ls b1) (h2 : ArmorBlock ls b2) :
    unlines b1 = unlines b2 := by
  have key : ∀ blk, ArmorBlock ls blk → armLoop ls ([], false, false) = (unlines blk, true, true) := by
    rintro blk ⟨before, b, mid, e, after, rfl, rfl, hb, hbl, hm, he⟩
    rw [List.append_assoc, armLoop_before _ _ hb, List.cons_append, armLoop_begin _ _ hbl, armLoop_mid _ _ hm,
      armLoop_end _ _ he]
    simp [unlines]
  have := (key b1 h1).symm.trans (key b2 h2)
  exact (Prod.mk.inj this).1

/-- C33: a read error (other than end of file) or an over-long line is reported. -/
theorem C33_read_error (src : Src) (ls : List Bytes) (e : GoErr) (c : Bytes) (hs : scanAll src = (ls, some e, c)) :
    (armtextGet src).1 = .error e.wrap := by
  unfold armtextGet
  rw [hs]

/-- a signed message followed by its signature block, with text around it -/
example : ArmorBlock [ascii "-----BEGIN PGP SIGNED MESSAGE-----", ascii "hello", ascii "-----BEGIN PGP SIGNATURE-----", ascii "",
    ascii "iQ==", ascii "-----END PGP SIGNATURE-----", ascii "bye"]
    [ascii "-----BEGIN PGP SIGNATURE-----", ascii "", ascii "iQ==", ascii "-----END PGP SIGNATURE-----"] := by
  refine ⟨[ascii "-----BEGIN PGP SIGNED MESSAGE-----", ascii "hello"], ascii "-----BEGIN PGP SIGNATURE-----", [ascii "", ascii "iQ=="],
    ascii "-----END PGP SIGNATURE-----", [ascii "bye"], rfl, rfl, ?_, ?_, ?_, ?_⟩
  · simp only [← begin_iff]; decide
  · simp only [← begin_iff]; decide
  · simp only [← end_iff]; decide
  · simp only [← end_iff]; decide

end Gpgpdump
