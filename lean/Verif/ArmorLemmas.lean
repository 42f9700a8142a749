import Verif.CrcLemmas

/-! # Reading an armored block -/

namespace Gpgpdump
namespace Armor
open Spec

/-! ## Lines -/

theorem readLine_short {l r : Bytes} (h : ShortLine l) : readLine (l ++ 0x0a :: r) = (some (dropCR l, false), r) := by
  have ht : (l ++ 0x0a :: r).take 100 = l ++ 0x0a :: r.take (99 - l.length) := by
    have hl := h.2
    rw [List.take_append, List.take_of_length_le (by omega)]
    obtain ⟨k, hk⟩ : ∃ k, 100 - l.length = k + 1 := ⟨99 - l.length, by omega⟩
    rw [hk, List.take_succ_cons, show k = 99 - l.length by omega]
  have hi : indexNL ((l ++ 0x0a :: r).take 100) = some l.length := by
    rw [ht]
    unfold indexNL
    rw [List.findIdx?_append, List.findIdx?_cons]
    have : l.findIdx? (· == 0x0a) = none := by
      rw [List.findIdx?_eq_none_iff]
      intro x hx
      cases hc : (x == 0x0a) with
      | false => rfl
      | true => exact absurd (eq_of_beq hc ▸ hx) h.1
    rw [this]
    simp
  unfold readLine
  rw [hi]
  simp only [List.take_left']
  rw [show l.length + 1 = (l ++ [0x0a]).length by simp, show l ++ 0x0a :: r = (l ++ [0x0a]) ++ r by simp, List.drop_left]

theorem dropCR_visible {core w : Bytes} (hw : Blank w) {x : UInt8} (hx : core.getLast? = some x) (hv : Visible x) :
    ∃ w', Blank w' ∧ dropCR (core ++ w) = core ++ w' := by
  unfold dropCR
  split
  · by_cases h0 : w = []
    · subst h0
      rename_i hc
      rw [List.append_nil, hx] at hc
      cases hc
      exact absurd hv (by unfold Visible; decide)
    · refine ⟨w.dropLast, fun y hy => hw y ((List.dropLast_sublist _).mem hy), ?_⟩
      rw [List.dropLast_append_of_ne_nil h0]
  · exact ⟨w, hw, rfl⟩

theorem dropCR_blank {w : Bytes} (hw : Blank w) : Blank (dropCR w) := by
  unfold dropCR
  split
  · exact fun y hy => hw y ((List.dropLast_sublist _).mem hy)
  · exact hw

theorem octets {p : UInt8 → Prop} (h : ∀ i : Fin 256, p (UInt8.ofNat i.val)) (b : UInt8) : p b := by
  have := h ⟨b.toNat, b.toNat_lt⟩
  simpa using this

theorem visible_facts (x : UInt8) : 0x21 ≤ x ∧ x ≤ 0x7e → ¬ ((0x09 ≤ x ∧ x ≤ 0x0d) ∨ x = 0x20) ∧ x ≠ 0xc2 ∧ x ≠ 0xe1 ∧ x ≠ 0xe2 ∧
    x ≠ 0xe3 ∧ ¬ (x = 0x85 ∨ x = 0xa0) ∧ x ≠ 0x80 ∧ ¬ ((0x80 ≤ x ∧ x ≤ 0x8a) ∨ x = 0xa8 ∨ x = 0xa9 ∨ x = 0xaf) ∧ x ≠ 0x9f ∧ x ≠ 0x0a ∧ x ≠ 0x0d :=
  octets (p := fun x => 0x21 ≤ x ∧ x ≤ 0x7e → ¬ ((0x09 ≤ x ∧ x ≤ 0x0d) ∨ x = 0x20) ∧ x ≠ 0xc2 ∧ x ≠ 0xe1 ∧ x ≠ 0xe2 ∧
    x ≠ 0xe3 ∧ ¬ (x = 0x85 ∨ x = 0xa0) ∧ x ≠ 0x80 ∧ ¬ ((0x80 ≤ x ∧ x ≤ 0x8a) ∨ x = 0xa8 ∨ x = 0xa9 ∨ x = 0xaf) ∧ x ≠ 0x9f ∧ x ≠ 0x0a ∧ x ≠ 0x0d)
    (by decide +kernel) x

theorem blank_fact {x : UInt8} (h : x = 0x20 ∨ x = 0x09 ∨ x = 0x0b ∨ x = 0x0c ∨ x = 0x0d) : (0x09 ≤ x ∧ x ≤ 0x0d) ∨ x = 0x20 := by
  rcases h with h | h | h | h | h <;> subst h <;> decide

theorem spaceLen_visible {x : UInt8} (h : Visible x) (xs : Bytes) : spaceLen (x :: xs) = 0 := by
  obtain ⟨h1, h2, h3, h4, h5, -⟩ := visible_facts x h
  simp only [spaceLen]
  rw [if_neg h1, if_neg h2, if_neg h3, if_neg h4, if_neg h5]

theorem spaceLenRev_visible {x : UInt8} (h : Visible x) (xs : Bytes) : spaceLenRev (x :: xs) = 0 := by
  obtain ⟨h1, -, -, -, -, h2, h3, h4, h5, -⟩ := visible_facts x h
  simp only [spaceLenRev]
  rw [if_neg h1]
  split <;> simp only [if_neg h2, if_neg h3, if_neg h4, if_neg h5]

theorem trimWith_blank (len : Bytes → Nat) (h0 : len [] = 0)
    (hb : ∀ x xs, ((0x09 ≤ x ∧ x ≤ 0x0d) ∨ x = 0x20) → len (x :: xs) = 1) (hv : ∀ x xs, Visible x → len (x :: xs) = 0) {w : Bytes} (hw : Blank w)
    {core : Bytes} (hc : core = [] ∨ ∃ x, core.head? = some x ∧ Visible x) {f : Nat} (hf : w.length ≤ f) :
    trimWith len f (w ++ core) = core := by
  induction w generalizing f with
  | nil =>
    cases f with
    | zero => rfl
    | succ f =>
      have : len core = 0 := by
        rcases hc with rfl | ⟨x, hx, hvx⟩
        · exact h0
        · cases core with
          | nil => cases hx
          | cons y ys => cases hx; exact hv _ _ hvx
      rw [List.nil_append, trimWith, if_pos this]
  | cons y w ih =>
    cases f with
    | zero => simp at hf
    | succ f =>
      have h1 := hb y (w ++ core) (blank_fact (hw y (by simp)))
      rw [List.cons_append, trimWith, h1, if_neg (by decide)]
      exact ih (fun z hz => hw z (List.mem_cons_of_mem _ hz)) (by simp at hf; exact hf)

theorem trimSpace_core {w core w' : Bytes} (hw : Blank w) (hw' : Blank w')
    (hc : core = [] ∨ (∃ x, core.head? = some x ∧ Visible x) ∧ ∃ x, core.getLast? = some x ∧ Visible x) :
    trimSpace (w ++ core ++ w') = core := by
  have hb1 : ∀ x xs, ((0x09 ≤ x ∧ x ≤ 0x0d) ∨ x = 0x20) → spaceLen (x :: xs) = 1 := fun x xs h => by simp only [spaceLen]; rw [if_pos h]
  have hb2 : ∀ x xs, ((0x09 ≤ x ∧ x ≤ 0x0d) ∨ x = 0x20) → spaceLenRev (x :: xs) = 1 := fun x xs h => by simp only [spaceLenRev]; rw [if_pos h]
  have hrev : Blank w'.reverse := fun x hx => hw' x (by simpa using hx)
  unfold trimSpace
  rcases hc with rfl | ⟨⟨x, hx, hvx⟩, y, hy, hvy⟩
  · have h1 : trimWith spaceLen (w ++ [] ++ w').length (w ++ [] ++ w') = [] := by
      have hb : Blank (w ++ w') := fun z hz => (List.mem_append.mp hz).elim (hw z) (hw' z)
      have := trimWith_blank spaceLen rfl hb1 (fun _ _ h => spaceLen_visible h _) hb (core := []) (.inl rfl) (Nat.le_refl _)
      simpa using this
    simp only [h1]
    rfl
  · have h1 : trimWith spaceLen (w ++ core ++ w').length (w ++ core ++ w') = core ++ w' := by
      rw [List.append_assoc]
      refine trimWith_blank spaceLen rfl hb1 (fun _ _ h => spaceLen_visible h _) hw (.inr ⟨x, ?_, hvx⟩) (by simp)
      cases core with
      | nil => cases hx
      | cons z zs => exact hx
    simp only [h1]
    rw [List.reverse_append, trimWith_blank spaceLenRev rfl hb2 (fun _ _ h => spaceLenRev_visible h _) hrev (.inr ⟨y, ?_, hvy⟩) (by simp),
      List.reverse_reverse]
    rw [List.head?_reverse]; exact hy

theorem hasColon_mem (k v : Bytes) : hasColon (k ++ ascii ": " ++ v) = true := by
  induction k with
  | nil => rfl
  | cons x k ih => rw [List.cons_append, List.cons_append, hasColon, ih, Bool.or_true]

theorem headers_skip {hs : List Bytes} (h : ∀ l ∈ hs, ArmorHeader l) {b r : Bytes} (hb : ArmorBlank b) {f : Nat} (hf : hs.length < f) :
    headers f false (unlines hs ++ (b ++ 0x0a :: r)) = .body r := by
  induction hs generalizing f with
  | nil =>
    obtain ⟨f, rfl⟩ : ∃ k, f = k + 1 := ⟨f - 1, by simp at hf; omega⟩
    show headers (f + 1) false (b ++ 0x0a :: r) = _
    have : trimSpace (dropCR b) = [] := by
      have := trimSpace_core (w := dropCR b) (core := []) (w' := []) (dropCR_blank hb.2) (by intro x hx; cases hx) (.inl rfl)
      simpa using this
    rw [headers, readLine_short hb.1]
    simp only [this, Bool.false_eq_true, if_false, List.isEmpty_nil, if_true]
  | cons l hs ih =>
    obtain ⟨f, rfl⟩ : ∃ k, f = k + 1 := ⟨f - 1, by simp at hf; omega⟩
    have hl := h l (by simp)
    obtain ⟨hs', w, k, v, w', rfl, hw, hw', ⟨x, hx, hvx⟩, y, hy, hvy⟩ := hl
    have hlast : (k ++ ascii ": " ++ v).getLast? = some y := by rw [List.getLast?_append, hy]; rfl
    have hhead : (k ++ ascii ": " ++ v).head? = some x := by
      cases k with
      | nil => cases hx
      | cons z zs => exact hx
    have hlast' : (w ++ (k ++ ascii ": " ++ v)).getLast? = some y := by rw [List.getLast?_append, hlast]; rfl
    obtain ⟨w'', hw'', e⟩ := dropCR_visible hw' hlast' hvy
    have ht := trimSpace_core hw hw'' (core := k ++ ascii ": " ++ v) (.inr ⟨⟨x, hhead, hvx⟩, y, hlast, hvy⟩)
    have hsp : unlines ((w ++ (k ++ ascii ": " ++ v) ++ w') :: hs) ++ (b ++ 0x0a :: r) =
        (w ++ (k ++ ascii ": " ++ v) ++ w') ++ 0x0a :: (unlines hs ++ (b ++ 0x0a :: r)) := by
      simp [unlines]
    have hne : (k ++ ascii ": " ++ v).isEmpty = false := by
      cases hc : (k ++ ascii ": " ++ v) with
      | nil => rw [hc] at hhead; cases hhead
      | cons => rfl
    rw [hsp, headers, readLine_short hs', e]
    simp only [ht, Bool.false_eq_true, if_false, hne, hasColon_mem, if_true]
    exact ih (fun l hl => h l (List.mem_cons_of_mem _ hl)) (by simp at hf; omega)

theorem findBody_block {start : Bytes} {hs : List Bytes} {b r : Bytes} (h0 : ArmorStart start) (h : ∀ l ∈ hs, ArmorHeader l)
    (hb : ArmorBlank b) {f : Nat} : findBody (f + 1) false (start ++ 0x0a :: (unlines hs ++ (b ++ 0x0a :: r))) = .ok r := by
  obtain ⟨hs0, t, w, rfl, ht, hw⟩ := h0
  have hlast : (ascii "-----BEGIN " ++ t ++ ascii "-----").getLast? = some 0x2d := by rw [List.getLast?_append]; rfl
  have hhead : (ascii "-----BEGIN " ++ t ++ ascii "-----").head? = some 0x2d := rfl
  have hv : Visible 0x2d := by unfold Visible; decide
  obtain ⟨w', hw', e⟩ := dropCR_visible hw hlast hv
  have htr := trimSpace_core (w := []) (by intro x hx; cases hx) hw' (core := ascii "-----BEGIN " ++ t ++ ascii "-----")
    (.inr ⟨⟨_, hhead, hv⟩, _, hlast, hv⟩)
  rw [List.nil_append] at htr
  have hlen : (decide ((ascii "-----BEGIN " ++ t ++ ascii "-----").length > armorStart.length + armorEndOfLine.length) &&
      armorStart.isPrefixOf (ascii "-----BEGIN " ++ t ++ ascii "-----")) = true := by
    rw [Bool.and_eq_true, List.isPrefixOf_iff_prefix, decide_eq_true_iff]
    refine ⟨?_, by rw [List.append_assoc]; exact List.prefix_append _ _⟩
    have : 0 < t.length := List.length_pos_iff.mpr ht
    rw [List.length_append, List.length_append, show (ascii "-----BEGIN ").length = armorStart.length from rfl,
      show (ascii "-----").length = armorEndOfLine.length from rfl]
    omega
  rw [findBody, readLine_short hs0, e]
  simp only [htr, Bool.false_eq_true, if_false, hlen, if_true]
  rw [headers_skip h hb]
  have : ∀ hs : List Bytes, hs.length ≤ (unlines hs).length := by
    intro hs
    induction hs with
    | nil => simp
    | cons a l ih => simp [unlines] at *; omega
  have := this hs
  simp
  omega

/-! ## Base64 -/

theorem sextet_lt {c : UInt8} {v : Nat} (h : Sextet c v) : v < 64 := by
  have := (List.getElem?_eq_some_iff.mp h).1
  exact this

theorem sextet_facts {c : UInt8} {v : Nat} (h : Sextet c v) : value c = some v ∧ notNL c = true ∧ c ≠ 0x3d ∧ c ≠ 0x2d := by
  have hd : ∀ v : Fin 64, ∀ c, alphabet[v.val]? = some c → value c = some v.val ∧ notNL c = true ∧ c ≠ 0x3d ∧ c ≠ 0x2d := by
    have : ∀ v : Fin 64, value (alphabet[v.val]?.getD 0) = some v.val ∧ notNL (alphabet[v.val]?.getD 0) = true ∧
      alphabet[v.val]?.getD 0 ≠ 0x3d ∧ alphabet[v.val]?.getD 0 ≠ 0x2d := by decide +kernel
    intro v c hc
    have := this v
    rwa [hc] at this
  exact hd ⟨v, sextet_lt h⟩ c h

theorem value_pad : value 0x3d = none := by decide

theorem ofNat_octet {n : Nat} {o : UInt8} (h : n = o.toNat) : UInt8.ofNat n = o := by rw [h]; simp

theorem decodeQ_spec {cs os : Bytes} (h : Base64 cs os) : decodeQ cs = (os, none) := by
  induction h with
  | nil => rfl
  | @four c1 c2 c3 c4 v1 v2 v3 v4 o1 o2 o3 cs os h1 h2 h3 h4 h hr ih =>
    have e1 := (sextet_facts h1).1
    have e2 := (sextet_facts h2).1
    have e3 := (sextet_facts h3).1
    have e4 := (sextet_facts h4).1
    have l2 := sextet_lt h2
    have l3 := sextet_lt h3
    have l4 := sextet_lt h4
    simp only [decodeQ, e1, e2, e3, e4, ih]
    simp only [beNat, List.foldl_cons, List.foldl_nil] at h
    have b1 := o1.toNat_lt
    have b2 := o2.toNat_lt
    have b3 := o3.toNat_lt
    rw [ofNat_octet (o := o1) (by omega), ofNat_octet (o := o2) (by omega), ofNat_octet (o := o3) (by omega)]
  | @three c1 c2 c3 v1 v2 v3 o1 o2 h1 h2 h3 h =>
    have e1 := (sextet_facts h1).1
    have e2 := (sextet_facts h2).1
    have e3 := (sextet_facts h3).1
    have l2 := sextet_lt h2
    have l3 := sextet_lt h3
    simp only [decodeQ, e1, e2, e3, value_pad]
    simp only [beNat, List.foldl_cons, List.foldl_nil] at h
    have b1 := o1.toNat_lt
    have b2 := o2.toNat_lt
    rw [ofNat_octet (o := o1) (by omega), ofNat_octet (o := o2) (by omega)]
    simp
  | @two c1 c2 v1 v2 o1 h1 h2 h =>
    have e1 := (sextet_facts h1).1
    have e2 := (sextet_facts h2).1
    have l2 := sextet_lt h2
    simp only [decodeQ, e1, e2, value_pad]
    simp only [beNat, List.foldl_cons, List.foldl_nil] at h
    have b1 := o1.toNat_lt
    rw [ofNat_octet (o := o1) (by omega)]
    simp

theorem base64_chars {cs os : Bytes} (h : Base64 cs os) : ∀ c ∈ cs, notNL c = true ∧ c ≠ 0x2d := by
  have hp : notNL 0x3d = true ∧ (0x3d : UInt8) ≠ 0x2d := by decide
  have hs : ∀ {c v}, Sextet c v → notNL c = true ∧ c ≠ 0x2d := fun h => ⟨(sextet_facts h).2.1, (sextet_facts h).2.2.2⟩
  induction h with
  | nil => intro c hc; cases hc
  | four h1 h2 h3 h4 _ _ ih =>
    intro c hc
    rcases List.mem_cons.mp hc with rfl | hc
    · exact hs h1
    rcases List.mem_cons.mp hc with rfl | hc
    · exact hs h2
    rcases List.mem_cons.mp hc with rfl | hc
    · exact hs h3
    rcases List.mem_cons.mp hc with rfl | hc
    · exact hs h4
    exact ih c hc
  | three h1 h2 h3 _ =>
    intro c hc
    simp only [List.mem_cons, List.not_mem_nil, or_false] at hc
    rcases hc with rfl | rfl | rfl | rfl
    · exact hs h1
    · exact hs h2
    · exact hs h3
    · exact hp
  | two h1 h2 _ =>
    intro c hc
    simp only [List.mem_cons, List.not_mem_nil, or_false, or_self] at hc
    rcases hc with rfl | rfl | rfl
    · exact hs h1
    · exact hs h2
    · exact hp

theorem decode64_spec {cs os : Bytes} (h : Base64 cs os) : decode64 cs = (os, none) := by
  unfold decode64
  rw [List.filter_eq_self.mpr fun c hc => (base64_chars h c hc).1]
  exact decodeQ_spec h

theorem base64_length {cs os : Bytes} (h : Base64 cs os) : cs.length % 4 = 0 ∧ os.length ≤ cs.length / 4 * 3 ∧ cs.length / 4 ≤ os.length := by
  induction h with
  | nil => decide
  | four _ _ _ _ _ _ ih => simp only [List.length_cons]; omega
  | three => simp
  | two => simp

theorem base64_split {cs os : Bytes} (h : Base64 cs os) (k : Nat) :
    ∃ o1 o2, os = o1 ++ o2 ∧ Base64 (cs.take (4 * k)) o1 ∧ Base64 (cs.drop (4 * k)) o2 := by
  induction h generalizing k with
  | nil => exact ⟨[], [], rfl, by simpa using .nil, by simpa using .nil⟩
  | four h1 h2 h3 h4 he hr ih =>
    cases k with
    | zero => exact ⟨[], _, rfl, .nil, .four h1 h2 h3 h4 he hr⟩
    | succ k =>
      obtain ⟨o1, o2, rfl, ha, hb⟩ := ih k
      exact ⟨_ :: _ :: _ :: o1, o2, rfl, .four h1 h2 h3 h4 he ha, hb⟩
  | three h1 h2 h3 he =>
    cases k with
    | zero => exact ⟨[], _, rfl, .nil, .three h1 h2 h3 he⟩
    | succ k =>
      refine ⟨_, [], (List.append_nil _).symm, ?_, ?_⟩
      · rw [List.take_of_length_le (by simp; omega)]; exact .three h1 h2 h3 he
      · rw [List.drop_eq_nil_of_le (by simp; omega)]; exact .nil
  | two h1 h2 he =>
    cases k with
    | zero => exact ⟨[], _, rfl, .nil, .two h1 h2 he⟩
    | succ k =>
      refine ⟨_, [], (List.append_nil _).symm, ?_, ?_⟩
      · rw [List.take_of_length_le (by simp; omega)]; exact .two h1 h2 he
      · rw [List.drop_eq_nil_of_le (by simp; omega)]; exact .nil

/-- after a `=` there is at most one more character -/
theorem base64_pad {cs os : Bytes} (h : Base64 cs os) {p r : Bytes} (he : cs = p ++ 0x3d :: r) : r.length ≤ 1 := by
  induction h generalizing p with
  | nil => simp at he
  | four h1 h2 h3 h4 _ _ ih =>
    have n1 := (sextet_facts h1).2.2.1
    have n2 := (sextet_facts h2).2.2.1
    have n3 := (sextet_facts h3).2.2.1
    have n4 := (sextet_facts h4).2.2.1
    rcases p with _ | ⟨_, _ | ⟨_, _ | ⟨_, _ | ⟨_, p⟩⟩⟩⟩ <;> simp only [List.nil_append, List.cons_append, List.cons.injEq] at he
    · exact absurd he.1 n1
    · exact absurd he.2.1 n2
    · exact absurd he.2.2.1 n3
    · exact absurd he.2.2.2.1 n4
    · exact ih he.2.2.2.2
  | three h1 h2 h3 _ =>
    have n1 := (sextet_facts h1).2.2.1
    have n2 := (sextet_facts h2).2.2.1
    rcases p with _ | ⟨_, _ | ⟨_, p⟩⟩ <;> simp only [List.nil_append, List.cons_append, List.cons.injEq] at he
    · exact absurd he.1 n1
    · exact absurd he.2.1 n2
    · have := congrArg List.length he.2.2
      simp at this
      omega
  | two h1 h2 _ =>
    have n1 := (sextet_facts h1).2.2.1
    have n2 := (sextet_facts h2).2.2.1
    rcases p with _ | ⟨_, _ | ⟨_, p⟩⟩ <;> simp only [List.nil_append, List.cons_append, List.cons.injEq] at he
    · exact absurd he.1 n1
    · exact absurd he.2.1 n2
    · have := congrArg List.length he.2.2
      simp at this
      omega

/-! ## The line reader -/

/-- a line of base64 as the reader accepts it -/
def GoodLine (l : Bytes) : Prop :=
  (∀ c ∈ l, notNL c = true ∧ c ≠ 0x2d) ∧ l.length ≤ 96 ∧ ¬ (l.length = 5 ∧ l.head? = some 0x3d)

/-- the text at which the base64 ends -/
def Ends (crc : Option Nat) (tl : Bytes) : Prop :=
  ∀ n, ∃ r, LineReader.read n ⟨tl, [], false, none⟩ = ([], some (rawErr .eof), ⟨r, [], true, crc⟩)

/-- the characters `cs` are left to the line reader -/
def Left (crc : Option Nat) (cs : Bytes) (l : LineReader) : Prop :=
  l.eof = false ∧ l.crc = none ∧ (∀ c ∈ cs, notNL c = true) ∧
    ∃ ls tl, l.rest = unlines ls ++ tl ∧ (∀ x ∈ ls, GoodLine x) ∧ cs = l.buf ++ ls.flatten ∧ Ends crc tl

theorem ends_stop {l r : Bytes} (h : ArmorStop l) : Ends none (l ++ 0x0a :: r) := by
  intro n
  refine ⟨r, ?_⟩
  have hp : armorEnd.isPrefixOf (dropCR l) = true := by
    rw [List.isPrefixOf_iff_prefix]
    obtain ⟨t, rfl⟩ := h.2
    unfold dropCR
    split
    · by_cases h0 : t = []
      · subst h0; rename_i hc; exact absurd hc (by decide)
      · rw [List.dropLast_append_of_ne_nil h0]; exact List.prefix_append _ _
    · exact List.prefix_append _ _
  simp only [LineReader.read, readLine_short h.1, Bool.false_eq_true, if_false, List.isEmpty_nil, Bool.not_true, hp, if_true]

theorem dropCR_good {l : Bytes} (h : ∀ c ∈ l, notNL c = true) : dropCR l = l := by
  unfold dropCR
  rw [if_neg]
  intro hc
  have hm := h _ (List.mem_of_getLast? hc)
  exact absurd hm (by decide)

theorem short_good {l : Bytes} (h : ∀ c ∈ l, notNL c = true) (hl : l.length ≤ 99) : ShortLine l :=
  ⟨fun hc => absurd (h _ hc) (by decide), hl⟩

theorem not_end {l : Bytes} (h : ∀ c ∈ l, c ≠ 0x2d) : armorEnd.isPrefixOf l = false := by
  cases hc : armorEnd.isPrefixOf l with
  | false => rfl
  | true =>
    rw [List.isPrefixOf_iff_prefix] at hc
    obtain ⟨t, rfl⟩ := hc
    exact absurd rfl (h 0x2d (List.mem_append_left _ (by decide)))

theorem ends_sum {c o l r : Bytes} (hb : Base64 c o) (ho : o.length = 3) (h : ArmorStop l) :
    Ends (some (beNat o)) ((0x3d :: c) ++ 0x0a :: (l ++ 0x0a :: r)) := by
  intro n
  refine ⟨r, ?_⟩
  have hlen := base64_length hb
  have hc4 : c.length = 4 := by
    cases hb with
    | four _ _ _ _ _ hr =>
      have := base64_length hr
      simp only [List.length_cons] at ho ⊢
      omega
    | nil => cases ho
    | three => cases ho
    | two => cases ho
  have hg : ∀ x ∈ (0x3d :: c : Bytes), notNL x = true ∧ x ≠ 0x2d := by
    intro x hx
    rcases List.mem_cons.mp hx with rfl | hx
    · decide
    · exact base64_chars hb x hx
  have hs : ShortLine (0x3d :: c) := short_good (fun x hx => (hg x hx).1) (by simp [hc4])
  obtain ⟨r', hr'⟩ := ends_stop (r := r) h n
  have hp : armorEnd.isPrefixOf (dropCR l) = true := by
    cases hp : armorEnd.isPrefixOf (dropCR l) with
    | true => rfl
    | false =>
      obtain ⟨t, rfl⟩ := h.2
      rw [← Bool.not_eq_true, List.isPrefixOf_iff_prefix] at hp
      exfalso; apply hp
      unfold dropCR
      split
      · by_cases h0 : t = []
        · subst h0; rename_i hc; exact absurd hc (by decide)
        · rw [List.dropLast_append_of_ne_nil h0]; exact List.prefix_append _ _
      · exact List.prefix_append _ _
  have h5 : (0x3d :: c : Bytes).length = 5 ∧ (0x3d :: c : Bytes).head? = some 0x3d := ⟨by simp [hc4], rfl⟩
  simp only [LineReader.read, readLine_short hs, dropCR_good fun x hx => (hg x hx).1, not_end fun x hx => (hg x hx).2,
    Bool.false_eq_true, if_false, List.isEmpty_nil, Bool.not_true, h5.1, h5.2, and_self, if_true, List.drop_succ_cons, List.drop_zero,
    decode64_spec hb, ho, ne_eq, not_true_eq_false, or_self, readLine_short h.1, hp]

theorem LineReader.read_left {crc : Option Nat} {cs : Bytes} {l : LineReader} (h : Left crc cs l) {n : Nat} (hn : 0 < n) :
    (∃ b cs' l', l.read n = (b, none, l') ∧ b.length ≤ n ∧ cs = b ++ cs' ∧ Left crc cs' l' ∧
      l'.rest.length + l'.buf.length < l.rest.length + l.buf.length) ∨
    (cs = [] ∧ ∃ l', l.read n = ([], some (rawErr .eof), l') ∧ l'.crc = crc) := by
  obtain ⟨rest, buf, eof, c⟩ := l
  obtain ⟨h1, h2, hcs, ls, tl, h3, h4, h5, h6⟩ := h
  simp only at h1 h2 h3 h5
  subst h1 h2 h3
  by_cases hb : buf = []
  · subst hb
    cases ls with
    | nil =>
      right
      obtain ⟨r, hr⟩ := h6 n
      exact ⟨by simpa using h5, _, hr, rfl⟩
    | cons x ls =>
      left
      obtain ⟨hg, h96, h5'⟩ := h4 x (by simp)
      have hs : ShortLine x := short_good (fun c hc => (hg c hc).1) (by omega)
      refine ⟨x.take n, x.drop n ++ ls.flatten, ⟨unlines ls ++ tl, x.drop n, false, none⟩, ?_, ?_, ?_, ?_, ?_⟩
      · have hsp : unlines (x :: ls) ++ tl = x ++ 0x0a :: (unlines ls ++ tl) := by simp [unlines]
        simp only [LineReader.read, hsp, readLine_short hs, dropCR_good fun c hc => (hg c hc).1, not_end fun c hc => (hg c hc).2,
          Bool.false_eq_true, if_false, List.isEmpty_nil, Bool.not_true, h5', show ¬ x.length > 96 by omega]
      · rw [List.length_take]; omega
      · rw [h5, ← List.append_assoc, List.take_append_drop]; simp
      · refine ⟨rfl, rfl, ?_, ls, tl, rfl, fun y hy => h4 y (List.mem_cons_of_mem _ hy), rfl, h6⟩
        intro c hc
        refine hcs c ?_
        rw [h5]
        rcases List.mem_append.mp hc with hc | hc
        · simp; exact .inl (List.mem_of_mem_drop hc)
        · simp at hc ⊢; exact .inr hc
      · simp [unlines]; omega
  · left
    have hl : 0 < buf.length := List.length_pos_iff.mpr hb
    have he : buf.isEmpty = false := by cases buf with
      | nil => exact absurd rfl hb
      | cons => rfl
    refine ⟨buf.take n, buf.drop n ++ ls.flatten, ⟨unlines ls ++ tl, buf.drop n, false, none⟩, ?_, ?_, ?_, ?_, ?_⟩
    · simp only [LineReader.read, Bool.false_eq_true, if_false, he, Bool.not_false, if_true]
    · rw [List.length_take]; omega
    · rw [h5, ← List.append_assoc, List.take_append_drop]
    · refine ⟨rfl, rfl, ?_, ls, tl, rfl, h4, rfl, h6⟩
      intro c hc
      refine hcs c ?_
      rw [h5]
      rcases List.mem_append.mp hc with hc | hc
      · exact List.mem_append_left _ (List.mem_of_mem_drop hc)
      · exact List.mem_append_right _ hc
    · simp; omega

theorem readFiltered_left {crc : Option Nat} {cs : Bytes} {l : LineReader} (h : Left crc cs l) {n : Nat} (hn : 0 < n) (f : Nat) :
    (∃ b cs' l', readFiltered n (f + 1) l = (b, none, l') ∧ b.length ≤ n ∧ cs = b ++ cs' ∧ Left crc cs' l' ∧
      l'.rest.length + l'.buf.length < l.rest.length + l.buf.length) ∨
    (cs = [] ∧ ∃ l', readFiltered n (f + 1) l = ([], some (rawErr .eof), l') ∧ l'.crc = crc) := by
  rcases LineReader.read_left h hn with ⟨b, cs', l', h1, h2, h3, h4, h5⟩ | ⟨h1, l', h2, h3⟩
  · left
    refine ⟨b, cs', l', ?_, h2, h3, h4, h5⟩
    have hf : b.filter notNL = b := List.filter_eq_self.mpr fun c hc => h.2.2.1 c (by rw [h3]; exact List.mem_append_left _ hc)
    rw [readFiltered, h1]
    simp only [hf]
    cases b with
    | nil => rfl
    | cons => rfl
  · right
    refine ⟨h1, l', ?_, h3⟩
    rw [readFiltered, h2]
    rfl

theorem refill_left {crc : Option Nat} {nn : Nat} (hn : 4 ≤ nn) {f : Nat} {cs : Bytes} {d : Decoder} (h : Left crc cs d.lr)
    (he : d.readErr = none) (hf : d.lr.rest.length + d.lr.buf.length < f) :
    (refill nn f d).err = d.err ∧ (refill nn f d).out = d.out ∧
    ((4 ≤ (refill nn f d).buf.length ∧ (refill nn f d).readErr = none ∧
        ∃ cs', d.buf ++ cs = (refill nn f d).buf ++ cs' ∧ Left crc cs' (refill nn f d).lr) ∨
      ((refill nn f d).buf.length < 4 ∧ (refill nn f d).readErr = some (rawErr .eof) ∧ (refill nn f d).buf = d.buf ++ cs ∧
        (refill nn f d).lr.crc = crc)) := by
  induction f generalizing d cs with
  | zero => omega
  | succ f ih =>
    by_cases hb : d.buf.length < 4
    · rw [refill, if_pos ⟨hb, he⟩]
      rcases readFiltered_left h (n := nn - d.buf.length) (by omega) (d.lr.rest.length + d.lr.buf.length + 1) with
        ⟨b, cs', l', h1, h2, h3, h4, h5⟩ | ⟨h1, l', h2, h3⟩
      · rw [h1]
        have := ih (cs := cs') (d := { d with lr := l', readErr := none, buf := d.buf ++ b }) h4 rfl (by simp only; omega)
        simp only at this ⊢
        rw [h3, ← List.append_assoc]
        exact this
      · rw [h2]
        simp only
        have hr : ∀ f, refill nn f { d with lr := l', readErr := some (rawErr .eof), buf := d.buf ++ [] } =
            { d with lr := l', readErr := some (rawErr .eof), buf := d.buf ++ [] } := by
          intro f
          cases f with
          | zero => rfl
          | succ f => rw [refill, if_neg (by simp)]
        rw [hr]
        refine ⟨rfl, rfl, .inr ⟨by simpa using hb, rfl, by rw [h1], h3⟩⟩
    · rw [refill, if_neg (by omega)]
      exact ⟨rfl, rfl, .inl ⟨by omega, he, cs, rfl, h⟩⟩

/-! ## The decoder -/

/-- the octets `rem` are left to the decoder -/
def Holds (crc : Option Nat) (rem : Bytes) (d : Decoder) : Prop :=
  (d.err = none ∧ d.readErr = none ∧ ∃ cs os, rem = d.out ++ os ∧ Left crc cs d.lr ∧ Base64 (d.buf ++ cs) os) ∨
  (d.err = some (rawErr .eof) ∧ d.out = [] ∧ d.lr.crc = crc ∧ rem = [])

theorem Decoder.read_holds {crc : Option Nat} {rem : Bytes} {d : Decoder} (h : Holds crc rem d) {n : Nat} (hn : 0 < n) :
    (rem ≠ [] ∧ ∃ b rem' d', d.read n = (b, none, d') ∧ b ≠ [] ∧ b.length ≤ n ∧ rem = b ++ rem' ∧ Holds crc rem' d') ∨
    (rem = [] ∧ ∃ d', d.read n = ([], some (rawErr .eof), d') ∧ Holds crc [] d' ∧ d'.lr.crc = crc) := by
  rcases h with ⟨h1, h2, cs, os, h3, h4, h5⟩ | ⟨h1, h2, h3, h4⟩
  · by_cases ho : d.out = []
    · rw [ho, List.nil_append] at h3
      subst h3
      have hr := refill_left (nn := min 1024 (max 4 (n / 3 * 4))) (by omega) h4 h2 (f := d.lr.rest.length + d.lr.buf.length + 6) (by omega)
      generalize hd : refill (min 1024 (max 4 (n / 3 * 4))) (d.lr.rest.length + d.lr.buf.length + 6) d = d1 at hr
      have hread : d.read n =
          if d1.buf.length < 4 then
            ([], (if d1.readErr = some (rawErr .eof) ∧ !d1.buf.isEmpty then some (rawErr .unexpectedEOF) else d1.readErr),
              { d1 with err := (if d1.readErr = some (rawErr .eof) ∧ !d1.buf.isEmpty then some (rawErr .unexpectedEOF) else d1.readErr) })
          else
            match decode64 (d1.buf.take (d1.buf.length / 4 * 4)) with
            | (o, e) =>
              if d1.buf.length / 4 * 3 > n then
                (o.take n, e, { d1 with err := e, out := o.drop n, buf := d1.buf.drop (d1.buf.length / 4 * 4) })
              else (o, e, { d1 with err := e, buf := d1.buf.drop (d1.buf.length / 4 * 4) }) := by
        rw [← hd]
        simp only [Decoder.read, ho, List.isEmpty_nil, Bool.not_true, Bool.false_eq_true, if_false, h1]
      obtain ⟨e1, e2, hr⟩ := hr
      rcases hr with ⟨hb, hre, cs', hcs, hl⟩ | ⟨hb, hre, hbuf, hc⟩
      · left
        rw [if_neg (by omega)] at hread
        rw [hcs] at h5
        obtain ⟨o1, o2, rfl, ha, hb2⟩ := base64_split h5 (d1.buf.length / 4)
        rw [List.take_append_of_le_length (by omega)] at ha
        rw [List.drop_append_of_le_length (by omega)] at hb2
        rw [Nat.mul_comm] at ha hb2
        rw [decode64_spec ha] at hread
        have hla := base64_length ha
        rw [List.length_take, Nat.min_eq_left (by omega)] at hla
        have ho1 : 0 < o1.length := by omega
        have hne : o1 ≠ [] := List.length_pos_iff.mp ho1
        refine ⟨by simp [hne], ?_⟩
        simp only at hread
        by_cases hw : d1.buf.length / 4 * 3 > n
        · rw [if_pos hw] at hread
          refine ⟨_, o1.drop n ++ o2, _, hread, ?_, ?_, ?_, ?_⟩
          · intro hc
            have := congrArg List.length hc
            simp at this
            rcases this with h | h
            · omega
            · exact hne h
          · rw [List.length_take]; omega
          · rw [← List.append_assoc, List.take_append_drop]
          · exact .inl ⟨rfl, hre, cs', o2, rfl, hl, hb2⟩
        · rw [if_neg hw] at hread
          refine ⟨_, o2, _, hread, hne, by omega, rfl, ?_⟩
          refine .inl ⟨rfl, hre, cs', o2, ?_, hl, hb2⟩
          simp only [e2, ho, List.nil_append]
      · right
        have hlen := base64_length h5
        rw [← hbuf] at hlen h5
        have hb0 : d1.buf = [] := List.length_eq_zero_iff.mp (by omega)
        rw [hb0] at h5
        have hos : rem = [] := by cases h5; rfl
        rw [if_pos hb, hre, hb0] at hread
        refine ⟨hos, _, hread, ?_, hc⟩
        exact .inr ⟨by simp, by simp only [e2, ho], hc, rfl⟩
    · left
      have hl : 0 < d.out.length := List.length_pos_iff.mpr ho
      have he : d.out.isEmpty = false := by
        cases hc : d.out with
        | nil => exact absurd hc ho
        | cons => rfl
      refine ⟨by rw [h3]; simp [ho], d.out.take n, d.out.drop n ++ os, { d with out := d.out.drop n }, ?_, ?_, ?_, ?_, ?_⟩
      · simp only [Decoder.read, he, Bool.not_false, if_true]
      · intro hc
        have := congrArg List.length hc
        simp at this
        rcases this with h | h
        · omega
        · exact ho h
      · rw [List.length_take]; omega
      · rw [h3, ← List.append_assoc, List.take_append_drop]
      · exact .inl ⟨h1, h2, cs, os, rfl, h4, h5⟩
  · right
    refine ⟨h4, d, ?_, .inr ⟨h1, h2, h3, rfl⟩, h3⟩
    simp only [Decoder.read, h2, h1, List.isEmpty_nil, Bool.not_true, Bool.false_eq_true, if_false]

/-! ## The body -/

/-- how a body ends: with an error if there is a checksum and it is not that of the octets -/
def ending (crc : Option Nat) (data : Bytes) : GoErr :=
  match crc with
  | some c => if c ≠ crc24 crcInit data then corrupt else rawErr .eof
  | none => rawErr .eof

theorem crc24_append (c : Nat) (a b : Bytes) : crc24 c (a ++ b) = crc24 (crc24 c a) b := by
  unfold crc24; rw [List.foldl_append]

theorem crc24_lt (data : Bytes) : crc24 crcInit data < 2 ^ 24 := (crc24_spec data).1

/-- the reads of the given sizes -/
def Body.reads : List Nat → Body → List (Bytes × Option GoErr)
  | [], _ => []
  | n :: ns, r =>
    match r.read n with
    | (b, e, r') => (b, e) :: Body.reads ns r'

def BodyHolds (crc : Option Nat) (data rem : Bytes) (r : Body) : Prop :=
  Holds crc rem r.dec ∧ ∃ pre, data = pre ++ rem ∧ r.crc = crc24 crcInit pre

theorem Body.read_holds {crc : Option Nat} {data rem : Bytes} {r : Body} (h : BodyHolds crc data rem r) {n : Nat} (hn : 0 < n) :
    (rem ≠ [] ∧ ∃ b rem' r', r.read n = (b, none, r') ∧ b ≠ [] ∧ b.length ≤ n ∧ rem = b ++ rem' ∧ BodyHolds crc data rem' r') ∨
    (rem = [] ∧ ∃ r', r.read n = ([], some (ending crc data), r') ∧ BodyHolds crc data [] r') := by
  obtain ⟨hh, pre, hp, hc⟩ := h
  rcases Decoder.read_holds hh hn with ⟨h0, b, rem', d', h1, h2, h3, h4, h5⟩ | ⟨h0, d', h1, h2, h3⟩
  · left
    refine ⟨h0, b, rem', ⟨d', crc24 r.crc b⟩, ?_, h2, h3, h4, h5, pre ++ b, by rw [hp, h4, List.append_assoc], by rw [crc24_append, hc]⟩
    simp only [Body.read, h1]
    cases d'.lr.crc with
    | none => rfl
    | some c => simp
  · right
    subst h0
    rw [List.append_nil] at hp
    subst hp
    have hrd : crc24 r.crc [] = crc24 crcInit data := by rw [← hc]; rfl
    refine ⟨rfl, ⟨d', crc24 r.crc []⟩, ?_, h2, data, by simp, hrd⟩
    simp only [Body.read, h1, h3, ending, hrd, Nat.mod_eq_of_lt (crc24_lt data)]
    cases crc with
    | none => rfl
    | some c =>
      by_cases hcc : c = crc24 crcInit data
      · simp [hcc]
      · simp [hcc]

theorem Body.reads_serves {crc : Option Nat} {data rem : Bytes} {r : Body} (h : BodyHolds crc data rem r) {ns : List Nat}
    (hn : ∀ n ∈ ns, 0 < n) : Serves rem (ending crc data) ns (r.reads ns) := by
  induction ns generalizing rem r with
  | nil => exact .stop
  | cons n ns ih =>
    have hn' := fun m hm => hn m (List.mem_cons_of_mem _ hm)
    rcases Body.read_holds h (hn n (by simp)) with ⟨-, b, rem', r', h1, h2, h3, rfl, h5⟩ | ⟨rfl, r', h1, h2⟩
    · rw [Body.reads, h1]
      exact .some h2 h3 (ih h5 hn')
    · rw [Body.reads, h1]
      exact .done (ih h2 hn')

theorem drain_holds {crc : Option Nat} {data rem : Bytes} {r : Body} (h : BodyHolds crc data rem r) {f : Nat} (hf : rem.length < f) :
    drain f r = (rem, ending crc data) := by
  induction f generalizing rem r with
  | zero => omega
  | succ f ih =>
    rcases Body.read_holds h (n := 1) (by decide) with ⟨-, b, rem', r', h1, h2, h3, rfl, h5⟩ | ⟨rfl, r', h1, h2⟩
    · have : 0 < b.length := List.length_pos_iff.mpr h2
      rw [drain, h1]
      simp only
      rw [ih h5 (by rw [List.length_append] at hf; omega)]
    · rw [drain, h1]

/-- the block opens, and holds its data -/
theorem decode_armored {ls : List Bytes} {data : Bytes} {crc : Option Nat} (h : Armored ls data crc) :
    ∃ r, decode (unlines ls) = .ok r ∧ BodyHolds crc data data r ∧ data.length ≤ (unlines ls).length := by
  obtain ⟨start, hs, blank, body, sum, stop, rfl, h1, h2, h3, h4, h5, h6, h7⟩ := h
  have hsplit : unlines (start :: hs ++ blank :: body ++ sum ++ [stop]) =
      start ++ 0x0a :: (unlines hs ++ (blank ++ 0x0a :: (unlines body ++ (unlines sum ++ (stop ++ 0x0a :: []))))) := by
    simp [unlines]
  refine ⟨⟨⟨⟨unlines body ++ (unlines sum ++ (stop ++ 0x0a :: [])), [], false, none⟩, none, none, [], []⟩, crcInit⟩, ?_, ⟨.inl ⟨rfl, rfl, body.flatten, data, rfl, ?_, h5⟩, [], rfl, rfl⟩, ?_⟩
  · rw [hsplit, decode, findBody_block h1 h2 h3]
  · refine ⟨rfl, rfl, fun c hc => (base64_chars h5 c hc).1, body, unlines sum ++ (stop ++ 0x0a :: []), rfl, ?_, rfl, ?_⟩
    · intro x hx
      obtain ⟨p, q, hpq⟩ := List.append_of_mem hx
      have hfl : body.flatten = p.flatten ++ (x ++ q.flatten) := by rw [hpq]; simp
      refine ⟨fun c hc => base64_chars h5 c ?_, h4 x hx, ?_⟩
      · rw [hfl]; exact List.mem_append_right _ (List.mem_append_left _ hc)
      · rintro ⟨hl, hh⟩
        cases x with
        | nil => cases hh
        | cons y ys =>
          cases hh
          have := base64_pad h5 (p := p.flatten) (r := ys ++ q.flatten) (by rw [hfl]; rfl)
          simp at this hl
          omega
    · rcases h6 with ⟨rfl, rfl⟩ | ⟨c, o, rfl, hb, ho, rfl⟩
      · exact ends_stop h7
      · have := ends_sum (r := []) hb ho h7
        simpa [unlines] using this
  · have hb := base64_length h5
    have : ∀ ls : List Bytes, ls.flatten.length ≤ (unlines ls).length := by
      intro ls
      induction ls with
      | nil => simp
      | cons a l ih => simp [unlines] at *; omega
    have := this body
    rw [hsplit]
    simp only [List.length_append, List.length_cons]
    omega

end Armor

/-- the stream of an armored block -/
theorem armorStream_armored {ls : List Bytes} {data : Bytes} {crc : Option Nat} (h : Spec.Armored ls data crc) :
    armorStream (Spec.unlines ls) = .ok ⟨data, Armor.ending crc data, [], false⟩ := by
  obtain ⟨r, h1, h2, h3⟩ := Armor.decode_armored h
  unfold armorStream
  rw [h1]
  simp only
  rw [Armor.drain_holds h2 (by omega)]

end Gpgpdump
