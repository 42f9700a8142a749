import Verif.GithubScan

/-!
# C81, second part: strings, field names and the types of the members
-/

namespace Gpgpdump
open Spec
namespace GJ
open Spec.GJ

/-! ## the first value of a body -/

mutual
theorem depth_nested : ∀ (v : JVal) (n : Nat), v.depth ≤ n → Nested n v
  | .null, _, _ => .null
  | .bool _, _, _ => .bool
  | .num _, _, _ => .num
  | .str _, _, _ => .str
  | .arr l, n, h => by
    rw [JVal.depth] at h
    obtain ⟨m, rfl⟩ : ∃ m, n = m + 1 := ⟨n - 1, by omega⟩
    exact .arr (depths_nested l m (by omega))
  | .obj l, n, h => by
    rw [JVal.depth] at h
    obtain ⟨m, rfl⟩ : ∃ m, n = m + 1 := ⟨n - 1, by omega⟩
    exact .obj (memberDepths_nested l m (by omega))
theorem depths_nested : ∀ (l : List JVal) (n : Nat), JVal.depths l ≤ n → ∀ v ∈ l, Nested n v
  | [], _, _, _, hv => by simp at hv
  | w :: l, n, h, v, hv => by
    rw [JVal.depths] at h
    rw [List.mem_cons] at hv
    rcases hv with rfl | hv
    · exact depth_nested v n (by omega)
    · exact depths_nested l n (by omega) v hv
theorem memberDepths_nested : ∀ (l : List (Bytes × JVal)) (n : Nat), JVal.memberDepths l ≤ n → ∀ m ∈ l, Nested n m.2
  | [], _, _, _, hv => by simp at hv
  | (k, w) :: l, n, h, m, hm => by
    rw [JVal.memberDepths] at h
    rw [List.mem_cons] at hm
    rcases hm with rfl | hm
    · exact depth_nested w n (by simp only at h; omega)
    · exact memberDepths_nested l n (by omega) m hm
end

mutual
theorem nested_depth : ∀ (v : JVal) (n : Nat), Nested n v → v.depth ≤ n
  | .null, _, _ => by simp [JVal.depth]
  | .bool _, _, _ => by simp [JVal.depth]
  | .num _, _, _ => by simp [JVal.depth]
  | .str _, _, _ => by simp [JVal.depth]
  | .arr l, _, .arr h => by
    rw [JVal.depth]
    have := nested_depths l _ h
    omega
  | .obj l, _, .obj h => by
    rw [JVal.depth]
    have := nested_memberDepths l _ h
    omega
theorem nested_depths : ∀ (l : List JVal) (n : Nat), (∀ v ∈ l, Nested n v) → JVal.depths l ≤ n
  | [], _, _ => by simp [JVal.depths]
  | w :: l, n, h => by
    rw [JVal.depths]
    have h1 := nested_depth w n (h w (by simp))
    have h2 := nested_depths l n fun v hv => h v (by simp [hv])
    omega
theorem nested_memberDepths : ∀ (l : List (Bytes × JVal)) (n : Nat), (∀ m ∈ l, Nested n m.2) → JVal.memberDepths l ≤ n
  | [], _, _ => by simp [JVal.memberDepths]
  | (k, w) :: l, n, h => by
    rw [JVal.memberDepths]
    have h1 := nested_depth w n (h (k, w) (by simp))
    have h2 := nested_memberDepths l n fun v hv => h v (by simp [hv])
    simp only
    omega
end

theorem first_sound {body : Bytes} {v : JVal} (h : jsFirst body = some v) :
    ∃ w t rest, Ws w ∧ Val v t ∧ body = w ++ t ++ rest ∧ Nested 10000 v := by
  unfold jsFirst at h
  obtain ⟨w, hw, hb⟩ := skip_sound body
  split at h
  · rename_i u rest hv
    split at h
    · rename_i hd
      simp only [Option.some.injEq] at h
      subst h
      obtain ⟨t, ht, he⟩ := (value_sound _).1 _ _ _ hv
      refine ⟨w, t, rest, hw, ht, ?_, depth_nested _ _ hd⟩
      rw [List.append_assoc, ← he]
      exact hb
    · cases h
  · cases h

theorem first_value {w t rest : Bytes} {v : JVal} (hw : Ws w) (h : Val v t) (he : Ends v rest) :
    jsFirst (w ++ t ++ rest) = if v.depth ≤ 10000 then some v else none := by
  unfold jsFirst
  have hB : Black t := by
    obtain ⟨c, r, rfl, h1, -⟩ := val_black h
    exact ⟨c, r, rfl, h1⟩
  rw [List.append_assoc, skip_ws hw hB.append, value_complete h _ rest (by simp; omega) he]
  rfl

theorem first_complete {w t rest : Bytes} {v : JVal} (hw : Ws w) (h : Val v t) (he : Ends v rest) (hd : Nested 10000 v) :
    jsFirst (w ++ t ++ rest) = some v := by
  rw [first_value hw h he, if_pos (nested_depth v _ hd)]

/-! ## strings -/

theorem char_octets (c : Char) : (c.toNat < 0x80 ∧ utf8Char c = [UInt8.ofNat c.toNat]) ∨ (0x80 ≤ c.toNat ∧ ∀ b ∈ utf8Char c, 0x80 ≤ b.toNat) := by
  unfold utf8Char
  simp only
  have hc : c.toNat < 0x110000 := by
    have := c.valid
    unfold Char.toNat
    unfold UInt32.isValidChar Nat.isValidChar at this
    omega
  split
  · left; exact ⟨by assumption, rfl⟩
  · right
    refine ⟨by omega, ?_⟩
    split
    · intro b hb
      simp only [List.mem_cons, List.not_mem_nil, or_false] at hb
      rcases hb with rfl | rfl <;> rw [ofNat_toNat_lt _ (by omega)] <;> omega
    · split
      · intro b hb
        simp only [List.mem_cons, List.not_mem_nil, or_false] at hb
        rcases hb with rfl | rfl | rfl <;> rw [ofNat_toNat_lt _ (by omega)] <;> omega
      · intro b hb
        simp only [List.mem_cons, List.not_mem_nil, or_false] at hb
        rcases hb with rfl | rfl | rfl | rfl <;> rw [ofNat_toNat_lt _ (by omega)] <;> omega

/-- the first octet of a character -/
theorem char_first (c : Char) : ∃ b bs, utf8Char c = b :: bs ∧ ((b.toNat = c.toNat ∧ c.toNat < 0x80) ∨ (0x80 ≤ b.toNat ∧ 0x80 ≤ c.toNat)) := by
  rcases char_octets c with ⟨h, e⟩ | ⟨h, e⟩
  · exact ⟨_, _, e, .inl ⟨ofNat_toNat_lt _ (by omega), h⟩⟩
  · cases hc : utf8Char c with
    | nil => exact absurd hc (Json.utf8Char_ne c)
    | cons b bs => exact ⟨b, bs, rfl, .inr ⟨e b (by rw [hc]; simp), h⟩⟩

theorem raw_drop : ∀ {a r : Bytes}, (∀ b ∈ a, 0x80 ≤ b.toNat) → Raw (a ++ r) → Raw r := by
  intro a
  induction a with
  | nil => intro r _ h; exact h
  | cons b a ih =>
    intro r ha h
    have hb := ha b (by simp)
    refine ih (fun x hx => ha x (by simp [hx])) ?_
    generalize hx : b :: a ++ r = x at h
    rw [List.cons_append] at hx
    cases h with
    | nil => cases hx
    | plain _ _ _ hr => simp only [List.cons.injEq] at hx; rw [hx.2]; exact hr
    | escape _ _ =>
      simp only [List.cons.injEq] at hx
      rw [hx.1] at hb
      simp at hb
    | unicode _ _ =>
      simp only [List.cons_append, List.cons.injEq] at hx
      rw [hx.1] at hb
      simp at hb

theorem pair_sound {n : Nat} {d q : Bytes} {c : Char} (h : jsPair n d = some (c, q)) : ∃ y, Pair n y c ∧ d = y ++ q := by
  unfold jsPair at h
  split at h
  · rename_i a b x y r
    split at h
    · rename_i hx
      simp only at h
      split at h
      · rename_i hr
        simp only [Option.some.injEq, Prod.mk.injEq] at h
        obtain ⟨rfl, rfl⟩ := h
        refine ⟨[0x5c, 0x75, a, b, x, y], ?_, rfl⟩
        have := Pair.mk (n := n) ⟨hr.1, hr.2.1⟩ (hex4_of hx) ⟨hr.2.2.1, hr.2.2.2⟩
        rw [Nat.add_assoc, Nat.add_comm] at this
        exact this
      · cases h
    · cases h
  · cases h

theorem pair_complete {n : Nat} {y r : Bytes} {c : Char} (h : Pair n y c) : jsPair n (y ++ r) = some (c, r) ∧ Surrogate n := by
  cases h with
  | mk hn hx hm =>
    obtain ⟨a, b, c, d, rfl, h1, h2⟩ := hex4_to hx
    subst h2
    refine ⟨?_, hn.1, by omega⟩
    simp only [List.cons_append, List.nil_append]
    unfold jsPair
    simp only
    rw [if_pos h1, if_pos ⟨hn.1, hn.2, hm.1, hm.2⟩, Nat.add_assoc 0x10000, Nat.add_comm 0x10000]

theorem unquote_plain {f : Nat} {c : UInt8} {r : Bytes} (h : c ≠ 0x5c) : jsUnquote (f + 1) (c :: r) =
    match runeStep (c :: r) with
    | some (x, q) => x :: jsUnquote f q
    | none => Char.ofNat 0xfffd :: jsUnquote f r := by
  rw [jsUnquote.eq_def]
  simp only
  rw [if_neg h]
  rfl

theorem unquote_escape {f : Nat} {e : UInt8} {r : Bytes} (h : e ≠ 0x75) : jsUnquote (f + 1) (0x5c :: e :: r) = jsEscChar e :: jsUnquote f r := by
  rw [jsUnquote.eq_def]
  simp only
  rw [if_pos trivial, if_neg h]

theorem unquote_unicode {f : Nat} {a b c d : UInt8} {r : Bytes} : jsUnquote (f + 1) (0x5c :: 0x75 :: a :: b :: c :: d :: r) =
    if 0xd800 ≤ jsHex4 a b c d ∧ jsHex4 a b c d < 0xe000 then
      match jsPair (jsHex4 a b c d) r with
      | some (x, q) => x :: jsUnquote f q
      | none => Char.ofNat 0xfffd :: jsUnquote f r
    else Char.ofNat (jsHex4 a b c d) :: jsUnquote f r := by
  rw [jsUnquote.eq_def]
  simp only
  rw [if_pos trivial, if_pos trivial]
  rfl

theorem denotes_unquote {raw : Bytes} {s : Str} (h : Denotes raw s) : ∀ f, raw.length ≤ f → jsUnquote f raw = s := by
  induction h with
  | nil => intro f _; cases f <;> simp [jsUnquote]
  | @char c r s h h1 h2 hr ih =>
    intro f hf
    obtain ⟨b, bs, he, hb⟩ := char_first c
    rw [List.length_append, he] at hf
    obtain ⟨f, rfl⟩ : ∃ g, f = g + 1 := ⟨f - 1, by simp at hf; omega⟩
    have hne : b ≠ 0x5c := by
      rintro rfl
      rcases hb with ⟨hb, -⟩ | ⟨hb, -⟩
      · exact h2 (Char.toNat_inj.1 hb.symm)
      · simp at hb
    have hs := Json.runeStep_char c r
    rw [he, List.cons_append] at hs
    rw [he, List.cons_append, unquote_plain hne, hs]
    simp only
    rw [ih f (by simp at hf; omega)]
  | @bad b r s h hr ih =>
    intro f hf
    obtain ⟨f, rfl⟩ : ∃ g, f = g + 1 := ⟨f - 1, by simp at hf; omega⟩
    have hne : b ≠ 0x5c := by
      rintro rfl
      exact h '\\' ⟨r, rfl⟩
    rw [unquote_plain hne, Json.runeStep_bad h]
    simp only
    rw [ih f (by simp at hf; omega)]
  | @escape e c r s h hr ih =>
    intro f hf
    obtain ⟨f, rfl⟩ : ∃ g, f = g + 1 := ⟨f - 1, by simp at hf; omega⟩
    obtain ⟨-, h1, h2⟩ := esc_to h
    rw [unquote_escape h2, h1, ih f (by simp at hf; omega)]
  | @unicode x n r s h hn hr ih =>
    intro f hf
    obtain ⟨a, b, c, d, rfl, -, rfl⟩ := hex4_to h
    simp only [List.cons_append, List.nil_append] at hf ⊢
    obtain ⟨f, rfl⟩ : ∃ g, f = g + 1 := ⟨f - 1, by simp at hf; omega⟩
    rw [unquote_unicode, if_neg (show ¬ (0xd800 ≤ jsHex4 a b c d ∧ jsHex4 a b c d < 0xe000) from hn), ih f (by simp at hf; omega)]
  | @pair x n y z r s h hy hr ih =>
    intro f hf
    obtain ⟨h1, h2⟩ := pair_complete (r := r) hy
    obtain ⟨a, b, c, d, rfl, -, rfl⟩ := hex4_to h
    simp only [List.cons_append, List.nil_append] at hf ⊢
    obtain ⟨f, rfl⟩ : ∃ g, f = g + 1 := ⟨f - 1, by simp at hf; omega⟩
    rw [unquote_unicode, if_pos (show 0xd800 ≤ jsHex4 a b c d ∧ jsHex4 a b c d < 0xe000 from h2), h1]
    simp only
    rw [ih f (by simp at hf; omega)]
  | @lone x n r s h hn hy hr ih =>
    intro f hf
    obtain ⟨a, b, c, d, rfl, -, rfl⟩ := hex4_to h
    simp only [List.cons_append, List.nil_append] at hf ⊢
    obtain ⟨f, rfl⟩ : ∃ g, f = g + 1 := ⟨f - 1, by simp at hf; omega⟩
    have hp : jsPair (jsHex4 a b c d) r = none := by
      cases hp : jsPair (jsHex4 a b c d) r with
      | none => rfl
      | some z =>
        obtain ⟨y, h1, h2⟩ := pair_sound (c := z.1) (q := z.2) hp
        exact absurd ⟨z.2, h2.symm⟩ (hy y z.1 h1)
    rw [unquote_unicode, if_pos (show 0xd800 ≤ jsHex4 a b c d ∧ jsHex4 a b c d < 0xe000 from hn), hp]
    simp only
    rw [ih f (by simp at hf; omega)]

/-- a string goes on like a string behind a surrogate pair -/
theorem raw_pair {n : Nat} {y r : Bytes} {c : Char} (h : Pair n y c) (hr : Raw (y ++ r)) : Raw r := by
  cases h with
  | mk hn hx hm =>
    obtain ⟨a, b, c, d, rfl, -, -⟩ := hex4_to hx
    simp only [List.cons_append, List.nil_append] at hr
    generalize hz : (0x5c : UInt8) :: 0x75 :: a :: b :: c :: d :: r = z at hr
    cases hr with
    | nil => cases hz
    | plain _ _ h2 _ => simp only [List.cons.injEq] at hz; exact absurd hz.1.symm h2
    | escape he _ =>
      simp only [List.cons.injEq] at hz
      exact absurd hz.2.1.symm (esc_to he).2.2
    | unicode hx hr =>
      obtain ⟨a, b, c, d, rfl, -, -⟩ := hex4_to hx
      simp only [List.cons_append, List.nil_append, List.cons.injEq] at hz
      rw [hz.2.2.2.2.2.2]
      exact hr

theorem unquote_denotes : ∀ (f : Nat) (raw : Bytes), raw.length ≤ f → Raw raw → Denotes raw (jsUnquote f raw) := by
  intro f
  induction f with
  | zero =>
    intro raw hf _
    have : raw = [] := List.length_eq_zero_iff.1 (by omega)
    subst this
    exact .nil
  | succ f ih =>
    intro raw hf h
    cases h with
    | nil => exact .nil
    | @plain b r h h1 h2 hr =>
      rw [unquote_plain h2]
      by_cases hc : ∃ c, utf8Char c <+: b :: r
      · obtain ⟨c, q, hq⟩ := hc
        have hs := Json.runeStep_char c q
        rw [hq] at hs
        rw [hs]
        simp only
        obtain ⟨x, xs, he, hx⟩ := char_first c
        have hxb : x = b := by
          rw [he, List.cons_append] at hq
          simp only [List.cons.injEq] at hq
          exact hq.1
        subst hxb
        have hl : q.length ≤ f := by
          have := congrArg List.length hq
          rw [he] at this
          simp at this hf
          omega
        have hq' : Raw q := by
          rcases char_octets c with ⟨hc, e⟩ | ⟨hc, e⟩
          · rw [e] at hq
            simp only [List.cons_append, List.nil_append, List.cons.injEq] at hq
            rw [hq.2]
            exact hr
          · exact raw_drop e (hq ▸ .plain h h1 h2 hr)
        rw [← hq]
        refine .char ?_ ?_ ?_ (ih q hl hq')
        · omega
        · rintro rfl
          rcases hx with ⟨hx, -⟩ | ⟨-, hx⟩
          · exact h1 (UInt8.toNat_inj.1 hx)
          · exact absurd hx (by decide)
        · rintro rfl
          rcases hx with ⟨hx, -⟩ | ⟨-, hx⟩
          · exact h2 (UInt8.toNat_inj.1 hx)
          · exact absurd hx (by decide)
      · have hb : ∀ c, ¬ utf8Char c <+: b :: r := fun c h => hc ⟨c, h⟩
        rw [Json.runeStep_bad hb]
        exact .bad hb (ih r (by simp at hf; omega) hr)
    | @escape e c r h hr =>
      obtain ⟨h1, h2, h3⟩ := esc_to h
      rw [unquote_escape h3, h2]
      exact .escape h (ih r (by simp at hf; omega) hr)
    | @unicode x n r h hr =>
      have hx := h
      obtain ⟨a, b, c, d, rfl, -, rfl⟩ := hex4_to h
      simp only [List.cons_append, List.nil_append] at hf ⊢
      rw [unquote_unicode]
      by_cases hn : 0xd800 ≤ jsHex4 a b c d ∧ jsHex4 a b c d < 0xe000
      · rw [if_pos hn]
        cases hp : jsPair (jsHex4 a b c d) r with
        | none =>
          refine .lone (x := [a, b, c, d]) hx hn ?_ (ih r (by simp at hf; omega) hr)
          rintro y z hy ⟨q, rfl⟩
          rw [(pair_complete hy).1] at hp
          cases hp
        | some z =>
          obtain ⟨y, h1, rfl⟩ := pair_sound (c := z.1) (q := z.2) hp
          exact .pair (x := [a, b, c, d]) hx h1 (ih z.2 (by simp at hf; omega) (raw_pair h1 hr))
      · rw [if_neg hn]
        exact .unicode (x := [a, b, c, d]) hx hn (ih r (by simp at hf; omega) hr)

theorem denotes_iff {raw : Bytes} (h : Raw raw) (s : Str) : Denotes raw s ↔ s = unquote raw :=
  ⟨fun hd => (denotes_unquote hd _ (Nat.le_refl _)).symm, fun e => e ▸ unquote_denotes _ _ (Nat.le_refl _) h⟩

/-! ## names -/

/-- what the names of the fields are made of -/
def NameChar (c : Char) : Prop := c = '_' ∨ (97 ≤ c.toNat ∧ c.toNat ≤ 122)

instance (c : Char) : Decidable (NameChar c) := inferInstanceAs (Decidable (_ ∨ _))

/-- the character of a name that a character stands for -/
def canon (c : Char) : Char :=
  if 65 ≤ c.toNat ∧ c.toNat ≤ 90 then Char.ofNat (c.toNat + 32) else if c.toNat = 0x17f then 's' else if c.toNat = 0x212a then 'k' else c

theorem alpha_iff (c : Char) : c.isAlpha = true ↔ (65 ≤ c.toNat ∧ c.toNat ≤ 90) ∨ (97 ≤ c.toNat ∧ c.toNat ≤ 122) := by
  unfold Char.isAlpha Char.isUpper Char.isLower Char.toNat
  simp only [Bool.or_eq_true, Bool.and_eq_true, decide_eq_true_eq, ge_iff_le, UInt32.le_iff_toNat_le]
  rfl

theorem foldChar_iff {s : Char} (hs : NameChar s) (t : Char) : jsFoldChar s t = true ↔ SameChar s t := by
  have hs' : s.toNat = 95 ∨ (97 ≤ s.toNat ∧ s.toNat ≤ 122) := by
    rcases hs with rfl | h
    · exact .inl rfl
    · exact .inr h
  unfold jsFoldChar
  constructor
  · intro h
    split at h
    · simp only [Bool.or_eq_true, Bool.and_eq_true, beq_iff_eq, alpha_iff] at h
      rcases h with rfl | ⟨⟨h1, h2⟩, h3⟩
      · exact .refl
      · exact .upper (by omega) (by omega)
    · simp only [Bool.or_eq_true, Bool.and_eq_true, beq_iff_eq] at h
      have hS : s ≠ 'S' := by rintro rfl; revert hs; decide
      have hK : s ≠ 'K' := by rintro rfl; revert hs; decide
      rcases h with ⟨rfl | h1, h2⟩ | ⟨rfl | h1, h2⟩
      · have : t = Char.ofNat 0x17f := Char.toNat_inj.1 h2
        rw [this]; exact .longS
      · exact absurd h1 hS
      · have : t = Char.ofNat 0x212a := Char.toNat_inj.1 h2
        rw [this]; exact .kelvin
      · exact absurd h1 hK
  · intro h
    cases h with
    | refl => rw [if_pos (by omega)]; simp
    | upper h hd =>
      rw [if_pos (by omega)]
      simp only [Bool.or_eq_true, Bool.and_eq_true, beq_iff_eq, alpha_iff]
      right
      exact ⟨⟨.inr h, .inr hd⟩, .inl (by omega)⟩
    | longS => decide
    | kelvin => decide

theorem same_canon {s t : Char} (hs : NameChar s) (h : SameChar s t) : s = canon t := by
  have hs' : s.toNat = 95 ∨ (97 ≤ s.toNat ∧ s.toNat ≤ 122) := by
    rcases hs with rfl | h
    · exact .inl rfl
    · exact .inr h
  cases h with
  | refl =>
    unfold canon
    rw [if_neg (by omega), if_neg (by omega), if_neg (by omega)]
  | upper h hd =>
    unfold canon
    rw [if_pos (by omega), hd, Char.ofNat_toNat]
  | longS => decide
  | kelvin => decide

theorem fold_iff : ∀ {n : Str} (_ : ∀ c ∈ n, NameChar c) (s : Str), jsFold n s = true ↔ List.Forall₂ SameChar n s
  | [], _, [] => by simp [jsFold]
  | [], _, _ :: _ => by simp [jsFold]
  | _ :: _, _, [] => by simp [jsFold]
  | a :: n, h, b :: s => by
    rw [jsFold, Bool.and_eq_true, foldChar_iff (h a (by simp)), fold_iff (fun c hc => h c (by simp [hc])) s, List.forall₂_cons]

theorem fold_canon : ∀ {n s : Str}, (∀ c ∈ n, NameChar c) → List.Forall₂ SameChar n s → n = s.map canon := by
  intro n s hn h
  induction h with
  | nil => rfl
  | cons h _ ih => rw [List.map_cons, ← same_canon (hn _ (by simp)) h, ← ih fun c hc => hn c (by simp [hc])]

theorem same_refl (n : Str) : List.Forall₂ SameChar n n := by
  induction n with
  | nil => exact .nil
  | cons c n ih => exact .cons .refl ih

/-- names that cannot be confused -/
structure Fields (fields : List (String × GHType)) : Prop where
  chars : ∀ f ∈ fields, ∀ c ∈ f.1.toList, NameChar c
  names : ∀ f ∈ fields, ∀ g ∈ fields, f.1.toList = g.1.toList → f = g

theorem key_fields : Fields keyFields := ⟨by decide +kernel, by decide +kernel⟩
theorem email_fields : Fields emailFields := ⟨by decide +kernel, by decide +kernel⟩

theorem field_some {fields} (hF : Fields fields) {s : Str} {f : String × GHType} :
    jsField fields s = some f ↔ f ∈ fields ∧ List.Forall₂ SameChar f.1.toList s := by
  have uniq : ∀ g ∈ fields, f ∈ fields → List.Forall₂ SameChar g.1.toList s → List.Forall₂ SameChar f.1.toList s → g = f := by
    intro g hg hf h1 h2
    exact hF.names g hg f hf ((fold_canon (hF.chars g hg) h1).trans (fold_canon (hF.chars f hf) h2).symm)
  unfold jsField
  constructor
  · intro h
    split at h
    · rename_i g hg
      simp only [Option.some.injEq] at h
      subst h
      have h1 := List.find?_some hg
      simp only [beq_iff_eq] at h1
      exact ⟨List.mem_of_find?_eq_some hg, h1 ▸ same_refl _⟩
    · have h1 := List.mem_of_find?_eq_some h
      exact ⟨h1, (fold_iff (hF.chars f h1) s).1 (by simpa using List.find?_some h)⟩
  · rintro ⟨hf, hs⟩
    split
    · rename_i g hg
      have h1 := List.find?_some hg
      simp only [beq_iff_eq] at h1
      rw [uniq g (List.mem_of_find?_eq_some hg) hf (h1 ▸ same_refl _) hs]
    · cases hg : fields.find? (fun f => jsFold f.1.toList s) with
      | none =>
        rw [List.find?_eq_none] at hg
        exact absurd ((fold_iff (hF.chars f hf) s).2 hs) (hg f hf)
      | some g =>
        have h1 := List.mem_of_find?_eq_some hg
        rw [uniq g h1 hf ((fold_iff (hF.chars g h1) s).1 (by simpa using List.find?_some hg)) hs]

theorem named_iff {name : String} {m : Bytes × JVal} (hm : Raw m.1) : HasName name m ↔ List.Forall₂ SameChar name.toList (unquote m.1) := by
  constructor
  · rintro ⟨s, h1, h2⟩
    rw [(denotes_iff hm s).1 h1] at h2
    exact h2
  · intro h
    exact ⟨_, (denotes_iff hm _).2 rfl, h⟩

theorem int64_iff {x : Bytes} : jsInt64 x = true ↔ Spec.GJ.Int64 x := by
  have hall : ∀ t : Bytes, (t.all jsDigit && decide (t ≠ [])) = true ↔ Digits t := by
    intro t
    rw [Bool.and_eq_true, List.all_eq_true, decide_eq_true_eq]
    unfold Digits
    constructor
    · rintro ⟨h1, h2⟩; exact ⟨h2, fun b hb => (digit_iff b).1 (h1 b hb)⟩
    · rintro ⟨h1, h2⟩; exact ⟨fun b hb => (digit_iff b).2 (h2 b hb), h1⟩
  unfold jsInt64
  by_cases hm : x.head? = some 0x2d
  · cases x with
    | nil => cases hm
    | cons c t =>
      rw [List.head?_cons, Option.some.injEq] at hm
      subst hm
      simp only [List.head?_cons, BEq.rfl, if_pos, List.drop_succ_cons, List.drop_zero]
      rw [Bool.and_eq_true, hall, decide_eq_true_eq]
      constructor
      · rintro ⟨h1, h2⟩; exact .neg h1 rfl h2
      · intro h
        generalize hx : (0x2d : UInt8) :: t = x at h
        cases h with
        | pos h hn h1 =>
          subst hx
          have := (h.2 _ (List.mem_cons_self)).1
          simp at this
        | neg h hn h1 =>
          simp only [List.cons.injEq, true_and] at hx
          subst hx
          exact ⟨h, hn ▸ h1⟩
  · have hm' : (x.head? == some 0x2d) = false := by simpa using hm
    simp only [hm', Bool.false_eq_true, if_false]
    rw [Bool.and_eq_true, hall, decide_eq_true_eq]
    constructor
    · rintro ⟨h1, h2⟩; exact .pos h1 rfl h2
    · intro h
      cases h with
      | pos h hn h1 => exact ⟨h, hn ▸ h1⟩
      | neg h hn h1 => exact absurd rfl hm

/-! ## values whose strings are strings -/

mutual
def Clean : JVal → Prop
  | .null => True
  | .bool _ => True
  | .num _ => True
  | .str raw => Raw raw
  | .arr l => Cleans l
  | .obj l => CleanMembers l
def Cleans : List JVal → Prop
  | [] => True
  | v :: l => Clean v ∧ Cleans l
def CleanMembers : List (Bytes × JVal) → Prop
  | [] => True
  | (k, v) :: l => Raw k ∧ Clean v ∧ CleanMembers l
end

mutual
theorem val_clean : ∀ {v t}, Val v t → Clean v
  | _, _, .null => by simp [Clean]
  | _, _, .true => by simp [Clean]
  | _, _, .false => by simp [Clean]
  | _, _, .num _ => by simp [Clean]
  | _, _, .str h => by simpa [Clean] using h
  | _, _, .arr0 _ => by simp [Clean, Cleans]
  | _, _, .arr h => by rw [Clean]; exact elems_clean h
  | _, _, .obj0 _ => by simp [Clean, CleanMembers]
  | _, _, .obj h => by rw [Clean]; exact members_clean h
theorem elems_clean : ∀ {l t}, Elems l t → Cleans l
  | _, _, .one _ h _ => by rw [Cleans, Cleans]; exact ⟨val_clean h, trivial⟩
  | _, _, .more _ h _ hl => by rw [Cleans]; exact ⟨val_clean h, elems_clean hl⟩
theorem members_clean : ∀ {l t}, Members l t → CleanMembers l
  | _, _, .one _ hk _ _ h _ => by rw [CleanMembers, CleanMembers]; exact ⟨hk, val_clean h, trivial⟩
  | _, _, .more _ hk _ _ h _ hl => by rw [CleanMembers]; exact ⟨hk, val_clean h, members_clean hl⟩
end

theorem cleans_mem : ∀ {l : List JVal}, Cleans l → ∀ v ∈ l, Clean v := by
  intro l
  induction l with
  | nil => intro _ v hv; simp at hv
  | cons w l ih =>
    intro h v hv
    rw [Cleans] at h
    rw [List.mem_cons] at hv
    rcases hv with rfl | hv
    · exact h.1
    · exact ih h.2 v hv

theorem cleanMembers_mem : ∀ {l : List (Bytes × JVal)}, CleanMembers l → ∀ m ∈ l, Raw m.1 ∧ Clean m.2 := by
  intro l
  induction l with
  | nil => intro _ v hv; simp at hv
  | cons w l ih =>
    intro h v hv
    rw [CleanMembers] at h
    rw [List.mem_cons] at hv
    rcases hv with rfl | hv
    · exact ⟨h.1, h.2.1⟩
    · exact ih h.2.2 v hv

/-! ## types -/

section
variable (T : Bytes → Bool)

theorem mem_keyTypes (f : String × GHType) : f ∈ keyFields ↔ f ∈ keyTypes := by
  have h1 : ∀ f ∈ keyFields, f ∈ keyTypes := by decide +kernel
  have h2 : ∀ f ∈ keyTypes, f ∈ keyFields := by decide +kernel
  exact ⟨h1 f, h2 f⟩

theorem literal_iff (t : GHType) (v : JVal) (ht : t ≠ .emails) (hk : t ≠ .keys) : jsLiteral T t v = true ↔ Fits T t v := by
  constructor
  · intro h
    cases v with
    | null => exact .null
    | bool b => cases t <;> simp [jsLiteral] at h; exact .bool
    | num x => cases t <;> simp [jsLiteral] at h; exact .int (int64_iff.1 h)
    | str x =>
      cases t <;> simp [jsLiteral] at h
      · exact .string
      · exact .stringPtr
      · exact .time h
    | arr l => cases t <;> simp [jsLiteral] at h
    | obj l => cases t <;> simp [jsLiteral] at h
  · intro h
    cases h with
    | null => cases t <;> rfl
    | int h => exact int64_iff.2 h
    | string => rfl
    | stringPtr => rfl
    | bool => rfl
    | time h => exact h
    | emails => exact absurd rfl ht
    | keys => exact absurd rfl hk

theorem email_iff {v : JVal} (hv : Clean v) : jsEmail T v = true ↔ EmailOK T v := by
  have hty : ∀ f ∈ emailFields, f.2 ≠ .emails ∧ f.2 ≠ .keys := by decide +kernel
  cases v with
  | null => simp only [jsEmail, true_iff]; exact .null
  | obj l =>
    rw [Clean] at hv
    rw [jsEmail, List.all_eq_true]
    constructor
    · intro h
      refine .obj fun m hm f hf hn => ?_
      have := h m hm
      rw [(field_some email_fields).2 ⟨hf, (named_iff (cleanMembers_mem hv m hm).1).1 hn⟩] at this
      exact (literal_iff T _ _ (hty f hf).1 (hty f hf).2).1 this
    · intro h m hm
      cases h with
      | obj h =>
        cases hf : jsField emailFields (unquote m.1) with
        | none => rfl
        | some f =>
          obtain ⟨h1, h2⟩ := (field_some email_fields).1 hf
          exact (literal_iff T _ _ (hty f h1).1 (hty f h1).2).2 (h m hm f h1 ((named_iff (cleanMembers_mem hv m hm).1).2 h2))
  | bool b => simp only [jsEmail, Bool.false_eq_true, false_iff]; intro h; cases h
  | num b => simp only [jsEmail, Bool.false_eq_true, false_iff]; intro h; cases h
  | str b => simp only [jsEmail, Bool.false_eq_true, false_iff]; intro h; cases h
  | arr b => simp only [jsEmail, Bool.false_eq_true, false_iff]; intro h; cases h

mutual
theorem key_iff : ∀ (v : JVal), Clean v → ((jsKey T v).isSome = true ↔ KeyOK T v)
  | .null, _ => by simp only [jsKey, Option.isSome_some, true_iff]; exact .null
  | .obj l, hv => by
    rw [Clean] at hv
    rw [jsKey, Option.isSome_map, store_iff l hv]
    exact ⟨fun h => .obj h, fun h => by cases h with | obj h => exact h⟩
  | .bool _, _ => by simp only [jsKey, Option.isSome_none, Bool.false_eq_true, false_iff]; intro h; cases h
  | .num _, _ => by simp only [jsKey, Option.isSome_none, Bool.false_eq_true, false_iff]; intro h; cases h
  | .str _, _ => by simp only [jsKey, Option.isSome_none, Bool.false_eq_true, false_iff]; intro h; cases h
  | .arr _, _ => by simp only [jsKey, Option.isSome_none, Bool.false_eq_true, false_iff]; intro h; cases h
theorem keys_iff : ∀ (l : List JVal), Cleans l → ((jsKeys T l).isSome = true ↔ ∀ v ∈ l, KeyOK T v)
  | [], _ => by simp [jsKeys]
  | v :: l, h => by
    rw [Cleans] at h
    have h1 := key_iff v h.1
    have h2 := keys_iff l h.2
    rw [jsKeys, List.forall_mem_cons, ← h1, ← h2]
    cases jsKey T v <;> simp
theorem store_iff : ∀ (l : List (Bytes × JVal)), CleanMembers l → ∀ (k : GHKey),
    ((jsStore T k l).isSome = true ↔ ∀ m ∈ l, ∀ f ∈ keyTypes, HasName f.1 m → Fits T f.2 m.2)
  | [], _, _ => by simp [jsStore]
  | (key, v) :: l, h, k => by
    rw [CleanMembers] at h
    rw [jsStore, List.forall_mem_cons]
    cases hf : jsField keyFields (unquote key) with
    | none =>
      simp only
      rw [store_iff l h.2.2]
      constructor
      · intro h1
        refine ⟨fun f hf' hn => ?_, h1⟩
        rw [(field_some key_fields).2 ⟨(mem_keyTypes f).2 hf', (named_iff (m := (key, v)) h.1).1 hn⟩] at hf
        cases hf
      · exact fun h1 => h1.2
    | some g =>
      obtain ⟨name, t⟩ := g
      simp only
      have hm : jsMember T t v = true ↔ ∀ f ∈ keyTypes, HasName f.1 (key, v) → Fits T f.2 v := by
        rw [member_iff t v h.2.1]
        constructor
        · intro h1 f hf' hn
          rw [(field_some key_fields).2 ⟨(mem_keyTypes f).2 hf', (named_iff (m := (key, v)) h.1).1 hn⟩] at hf
          simp only [Option.some.injEq] at hf
          rw [hf]
          exact h1
        · intro h1
          obtain ⟨h2, h3⟩ := (field_some key_fields).1 hf
          exact h1 (name, t) ((mem_keyTypes _).1 h2) ((named_iff (m := (key, v)) h.1).2 h3)
      rw [← hm]
      cases hj : jsMember T t v with
      | true => simp only [if_pos, true_and]; exact store_iff l h.2.2 _
      | false => simp
theorem member_iff : ∀ (t : GHType) (v : JVal), Clean v → (jsMember T t v = true ↔ Fits T t v)
  | t, .arr l, h => by
    rw [Clean] at h
    by_cases h1 : t = .emails
    · subst h1
      rw [jsMember, List.all_eq_true]
      constructor
      · exact fun h2 => .emails fun v hv => (email_iff T (cleans_mem h v hv)).1 (h2 v hv)
      · intro h2 v hv
        cases h2 with
        | emails h2 => exact (email_iff T (cleans_mem h v hv)).2 (h2 v hv)
    by_cases h2 : t = .keys
    · subst h2
      rw [jsMember, keys_iff l h]
      exact ⟨fun h2 => .keys h2, fun h2 => by cases h2 with | keys h2 => exact h2⟩
    rw [← literal_iff T t _ h1 h2]
    cases t <;> first | rfl | simp_all
  | t, .null, _ => by
    have : jsMember T t .null = true := by cases t <;> simp [jsMember, jsLiteral]
    exact ⟨fun _ => .null, fun _ => this⟩
  | t, .bool b, _ => by
    cases t <;> first
      | (simp only [jsMember, jsLiteral, Bool.false_eq_true, false_iff]; intro h; cases h)
      | (simp only [jsMember]; exact literal_iff T _ _ (by simp) (by simp))
  | t, .num b, _ => by
    cases t <;> first
      | (simp only [jsMember, jsLiteral, Bool.false_eq_true, false_iff]; intro h; cases h)
      | (simp only [jsMember]; exact literal_iff T _ _ (by simp) (by simp))
  | t, .str b, _ => by
    cases t <;> first
      | (simp only [jsMember, jsLiteral, Bool.false_eq_true, false_iff]; intro h; cases h)
      | (simp only [jsMember]; exact literal_iff T _ _ (by simp) (by simp))
  | t, .obj b, _ => by
    cases t <;> (simp only [jsMember, jsLiteral, Bool.false_eq_true, false_iff]; intro h; cases h)
end
end

end GJ
end Gpgpdump
