import Verif.Url
import Verif.ThmHkp
import Verif.NumLemmas

/-!
# C85: what is asked of GitHub for a user name, and C86: the URL of the command `fetch`
-/

namespace Gpgpdump
open Spec

/-! ## Vocabulary -/

namespace Spec

/-- octets as characters -/
def chars (b : Bytes) : Str := b.map fun c => Char.ofNat c.toNat

/-- percent-decoding of octets -/
inductive Unescaped : Bytes → Bytes → Prop
  | nil : Unescaped [] []
  | octet {r d} (c : UInt8) (h : c ≠ 0x25) : Unescaped r d → Unescaped (c :: r) (c :: d)
  | pct {a b x y r d} : hexValue (Char.ofNat a.toNat) = some x → hexValue (Char.ofNat b.toNat) = some y → Unescaped r d →
      Unescaped (0x25 :: a :: b :: r) (UInt8.ofNat (x * 16 + y) :: d)

/-- the parts in front of the first question mark, from there to the first number sign, and behind it -/
def UrlParts (t p : Bytes) (q f : Option Bytes) : Prop :=
  t = p ++ (q.elim [] fun q => 0x3f :: q) ++ (f.elim [] fun f => 0x23 :: f) ∧ 0x3f ∉ p ∧ 0x23 ∉ p ∧ ∀ x, q = some x → 0x23 ∉ x

/-- a control character of ASCII -/
def CtlOctet (c : UInt8) : Prop := c.toNat < 32 ∨ c.toNat = 127

/-- a visible character of ASCII other than those that end a path -/
def pathChar (c : Char) : Prop := 33 ≤ c.toNat ∧ c.toNat ≤ 126 ∧ c ≠ '?' ∧ c ≠ '#'

end Spec

/-! ## Cutting -/

theorem cutByte_append {sep : UInt8} {a : Bytes} (h : sep ∉ a) (b : Bytes) : cutByte sep (a ++ b) = (a ++ (cutByte sep b).1, (cutByte sep b).2) := by
  induction a with
  | nil => rfl
  | cons c a ih =>
    rw [List.cons_append, cutByte, if_neg (fun e => h (by simp [e])), ih (fun hm => h (List.mem_cons_of_mem _ hm))]
    rfl

theorem cutByte_sep (sep : UInt8) (r : Bytes) : cutByte sep (sep :: r) = ([], some r) := by rw [cutByte, if_pos rfl]

theorem cutByte_none {sep : UInt8} {a : Bytes} (h : sep ∉ a) : cutByte sep a = (a, none) := by
  have := cutByte_append h []
  rw [List.append_nil] at this
  rw [this, cutByte, List.append_nil]

theorem cutByte_join {sep : UInt8} {a : Bytes} (h : sep ∉ a) (q : Option Bytes) : cutByte sep (a ++ q.elim [] fun q => sep :: q) = (a, q) := by
  cases q with
  | none => show cutByte sep (a ++ []) = _; rw [List.append_nil, cutByte_none h]
  | some q => show cutByte sep (a ++ sep :: q) = _; rw [cutByte_append h, cutByte_sep, List.append_nil]

theorem cutByte_eq (sep : UInt8) (s : Bytes) : sep ∉ (cutByte sep s).1 ∧ s = (cutByte sep s).1 ++ (cutByte sep s).2.elim [] fun q => sep :: q := by
  induction s with
  | nil => exact ⟨by simp [cutByte], rfl⟩
  | cons c s ih =>
    rw [cutByte]
    by_cases h : c = sep
    · rw [if_pos h]; subst h; exact ⟨by simp, rfl⟩
    · rw [if_neg h]
      refine ⟨?_, ?_⟩
      · intro hm
        rcases List.mem_cons.1 hm with e | hm
        · exact h e.symm
        · exact ih.1 hm
      · show c :: s = c :: ((cutByte sep s).1 ++ _)
        rw [← ih.2]

theorem parts_exist (t : Bytes) : ∃ p q f, UrlParts t p q f := by
  obtain ⟨h1, h2⟩ := cutByte_eq 0x23 t
  obtain ⟨h3, h4⟩ := cutByte_eq 0x3f (cutByte 0x23 t).1
  refine ⟨(cutByte 0x3f (cutByte 0x23 t).1).1, (cutByte 0x3f (cutByte 0x23 t).1).2, (cutByte 0x23 t).2, ?_, h3, ?_, ?_⟩
  · rw [← h4]; exact h2
  · intro h; apply h1; rw [h4]; exact List.mem_append_left _ h
  · intro x hx h; apply h1; rw [h4, hx]; exact List.mem_append_right _ (List.mem_cons_of_mem _ h)

theorem parts_cut {t p q f} (h : UrlParts t p q f) : cutByte 0x23 t = (p ++ (q.elim [] fun q => 0x3f :: q), f) ∧
    cutByte 0x3f (p ++ (q.elim [] fun q => 0x3f :: q)) = (p, q) := by
  obtain ⟨rfl, h1, h2, h3⟩ := h
  refine ⟨cutByte_join ?_ f, cutByte_join h1 q⟩
  intro hm
  rcases List.mem_append.1 hm with hm | hm
  · exact h2 hm
  · cases q with
    | none => cases hm
    | some q =>
      rcases List.mem_cons.1 hm with e | hm
      · revert e; decide
      · exact h3 q rfl hm

/-! ## Escaping -/

theorem unhex_eq (c : UInt8) : unhex c = hexValue (Char.ofNat c.toNat) := by
  refine forall_byte (p := fun c => unhex c = hexValue (Char.ofNat c.toNat)) ?_ c
  decide +kernel

theorem unescape_iff {m : UrlMode} (hm : m = .path ∨ m = .fragment) (s d : Bytes) : urlUnescape m s = some d ↔ Unescaped s d := by
  have m1 : m ≠ .host := by rcases hm with rfl | rfl <;> decide
  have m2 : m ≠ .zone := by rcases hm with rfl | rfl <;> decide
  have m3 : m ≠ .query := by rcases hm with rfl | rfl <;> decide
  have hb : ∀ x y, badTriple m x y = false := by intro x y; simp [badTriple, m1, m2]
  have plain : ∀ (c : UInt8) r, c ≠ 0x25 → urlUnescape m (c :: r) = (urlUnescape m r).map (c :: ·) := by
    intro c r hc
    rw [urlUnescape.eq_def]
    simp only [if_neg hc, m1, m2, m3]
    split <;> simp
  have pct : ∀ (a b : UInt8) r x y, unhex a = some x → unhex b = some y →
      urlUnescape m (0x25 :: a :: b :: r) = (urlUnescape m r).map (UInt8.ofNat (x * 16 + y) :: ·) := by
    intro a b r x y ha hbb
    rw [urlUnescape.eq_def]
    simp [ha, hbb, hb]
  constructor
  · have key : ∀ (n : Nat) (s d : Bytes), s.length ≤ n → urlUnescape m s = some d → Unescaped s d := by
      intro n
      induction n with
      | zero =>
        intro s d hl h
        have : s = [] := List.length_eq_zero_iff.1 (by omega)
        subst this
        cases h
        exact .nil
      | succ n ih =>
        intro s d hl h
        match s, hl, h with
        | [], _, h => cases h; exact .nil
        | c :: r, hl, h =>
          by_cases hc : c = 0x25
          · subst hc
            match r, hl, h with
            | [], _, h => simp [urlUnescape] at h
            | [_], _, h => simp [urlUnescape] at h
            | a :: b :: r, hl, h =>
              cases ha : unhex a with
              | none => rw [urlUnescape.eq_def] at h; simp [ha] at h
              | some x =>
                cases hbb : unhex b with
                | none => rw [urlUnescape.eq_def] at h; simp [ha, hbb] at h
                | some y =>
                  rw [pct a b r x y ha hbb] at h
                  obtain ⟨d', hd, rfl⟩ := Option.map_eq_some_iff.1 h
                  exact .pct ((unhex_eq a).symm.trans ha) ((unhex_eq b).symm.trans hbb) (ih r d' (by simp at hl; omega) hd)
          · rw [plain c r hc] at h
            obtain ⟨d', hd, rfl⟩ := Option.map_eq_some_iff.1 h
            exact .octet c hc (ih r d' (by simp at hl; omega) hd)
    exact key s.length s d (Nat.le_refl _)
  · intro h
    induction h with
    | nil => rfl
    | octet c h _ ih => rw [plain c _ h, ih]; rfl
    | pct ha hb' _ ih => rw [pct _ _ _ _ _ ((unhex_eq _).trans ha) ((unhex_eq _).trans hb'), ih]; rfl

/-- what a part of a URL consists of -/
def partChar (m : UrlMode) (c : UInt8) : Bool := isOneOf "!$&'()*+,;=:@[]%" c || !shouldEscape c m

theorem partChar_path (c : UInt8) : partChar .path c = true → pathChar (Char.ofNat c.toNat) := by
  refine forall_byte (p := fun c => partChar .path c = true → pathChar (Char.ofNat c.toNat)) ?_ c
  unfold pathChar
  decide +kernel

theorem escape_partChar (c : UInt8) : ∀ x ∈ asciiBytes (pctEscape c), partChar .path x = true := by
  refine forall_byte (p := fun c => ∀ x ∈ asciiBytes (pctEscape c), partChar .path x = true) ?_ c
  decide +kernel

theorem path_chars (raw d : Bytes) : ∀ x ∈ escapedPart .path raw d, partChar .path x = true := by
  intro x hx
  unfold escapedPart at hx
  split at hx
  · rename_i h
    simp only [Bool.and_eq_true] at h
    exact List.all_eq_true.1 h.1.2 x hx
  split at hx
  · simp at hx; subst hx; decide
  · rw [urlEscape, List.mem_flatMap] at hx
    obtain ⟨c, -, hx⟩ := hx
    simp only [show ¬ (UrlMode.path = UrlMode.query) by decide, decide_false, Bool.and_false, Bool.false_eq_true, if_false] at hx
    split at hx
    · exact escape_partChar c x hx
    · rename_i h
      rw [List.mem_singleton] at hx
      subst hx
      simp [partChar, h]

theorem chars_pct (c : UInt8) : chars (asciiBytes (pctEscape c)) = pctEscape c := by
  refine forall_byte (p := fun c => chars (asciiBytes (pctEscape c)) = pctEscape c) ?_ c
  decide +kernel

theorem partChar_small (c : UInt8) : partChar .path c = true → c.toNat < 128 := by
  refine forall_byte (p := fun c => partChar .path c = true → c.toNat < 128) ?_ c
  decide +kernel

theorem unescaped_char (c : UInt8) : shouldEscape c .path = false → Char.ofNat c.toNat ≠ '%' ∧ c.toNat < 128 := by
  refine forall_byte (p := fun c => shouldEscape c .path = false → Char.ofNat c.toNat ≠ '%' ∧ c.toNat < 128) ?_ c
  decide +kernel

theorem ofNat_ne_pct (c : UInt8) : c ≠ 0x25 → Char.ofNat c.toNat ≠ '%' := by
  refine forall_byte (p := fun c => c ≠ 0x25 → Char.ofNat c.toNat ≠ '%') ?_ c
  decide +kernel

/-- the text of a path decodes to the path -/
theorem decode_escape (d : Bytes) : percentDecode false (chars (urlEscape .path d)) = some d := by
  induction d with
  | nil => rfl
  | cons c d ih =>
    rw [urlEscape, List.flatMap_cons, ← urlEscape]
    simp only [show ¬ (UrlMode.path = UrlMode.query) by decide, decide_false, Bool.and_false, Bool.false_eq_true, if_false]
    unfold chars
    rw [List.map_append, ← chars, ← chars]
    split
    · rw [chars_pct, percentDecode_pct, ih]; rfl
    · rename_i h
      obtain ⟨h1, h2⟩ := unescaped_char c (by simpa using h)
      show percentDecode false (Char.ofNat c.toNat :: chars (urlEscape .path d)) = _
      rw [percentDecode_char false c h1 (by simp) h2, ih]; rfl

theorem decode_raw {s d : Bytes} (h : Unescaped s d) (hs : ∀ x ∈ s, x.toNat < 128) : percentDecode false (chars s) = some d := by
  induction h with
  | nil => rfl
  | octet c h _ ih =>
    show percentDecode false (Char.ofNat c.toNat :: chars _) = _
    rw [percentDecode_char false c (ofNat_ne_pct c h) (by simp) (hs c (by simp)), ih (fun x hx => hs x (List.mem_cons_of_mem _ hx))]
    rfl
  | pct ha hb _ ih =>
    show percentDecode false ('%' :: Char.ofNat _ :: Char.ofNat _ :: chars _) = _
    rw [percentDecode, if_pos rfl]
    simp only [ha, hb]
    rw [ih (fun x hx => hs x (by simp [hx]))]
    rfl

theorem decode_part {raw d : Bytes} : percentDecode false (chars (escapedPart .path raw d)) = some d := by
  have hc := path_chars raw d
  unfold escapedPart at hc ⊢
  split
  · rename_i h
    rw [if_pos h] at hc
    simp only [Bool.and_eq_true, decide_eq_true_eq] at h
    exact decode_raw ((unescape_iff (Or.inl rfl) _ _).1 h.2) fun x hx => partChar_small x (hc x hx)
  split
  · rename_i h
    have : d = [0x2a] := by simpa using h
    subst this; decide
  · exact decode_escape d

/-! ## `Parse` of a URL with a fixed beginning -/

/-- the fields for the query -/
def withQuery (u : GoURL) : Option Bytes → GoURL
  | none => u
  | some [] => { u with forceQuery := true }
  | some q => { u with rawQuery := q }

/-- scheme and host are kept by all later steps -/
def baseURL (host : Bytes) : GoURL := { scheme := asciiBytes (S "https"), host := host }

theorem hasCTL_iff (s : Bytes) : hasCTL s = true ↔ ∃ c ∈ s, CtlOctet c := by
  unfold hasCTL CtlOctet
  simp only [List.any_eq_true, Bool.or_eq_true, decide_eq_true_eq]
  constructor
  · rintro ⟨c, hc, h | rfl⟩
    · exact ⟨c, hc, .inl h⟩
    · exact ⟨_, hc, .inr rfl⟩
  · rintro ⟨c, hc, h | h⟩
    · exact ⟨c, hc, .inl h⟩
    · exact ⟨c, hc, .inr (UInt8.toNat_inj.1 h)⟩

theorem hasCTL_append (a b : Bytes) : hasCTL (a ++ b) = (hasCTL a || hasCTL b) := List.any_append

/-- the hosts of the program -/
def IsHost (h : Bytes) : Prop := h = asciiBytes (S "api.github.com") ∨ h = asciiBytes (S "github.com")

theorem parseRest_host {h : Bytes} (hh : IsHost h) (u : GoURL) (hu : u.scheme = asciiBytes (S "https")) (hn : u.user = none) (p : Bytes) :
    parseRest u (asciiBytes (S "//") ++ h ++ 0x2f :: p) = GoURL.setPath { u with host := h } (0x2f :: p) := by
  unfold parseRest
  have e1 : (asciiBytes (S "//") ++ h ++ 0x2f :: p).head? = some 0x2f := rfl
  have e2 : asciiBytes (S "//") <+: asciiBytes (S "//") ++ h ++ 0x2f :: p := ⟨h ++ 0x2f :: p, by simp⟩
  have e3 : (asciiBytes (S "//") ++ h ++ 0x2f :: p).drop 2 = h ++ 0x2f :: p := by
    rw [List.append_assoc]; rfl
  have e4 : 0x2f ∉ h := by rcases hh with rfl | rfl <;> decide
  have e5 : parseAuthority h = some (none, h) := by rcases hh with rfl | rfl <;> decide +kernel
  have e6 : u.scheme ≠ [] := by rw [hu]; decide
  rw [e1, e3, cutByte_append e4, cutByte_sep, List.append_nil]
  simp only [e5, ne_eq, not_true_eq_false, decide_false, Bool.false_and, Bool.false_eq_true, if_false, e6, not_false_eq_true, decide_true,
    Bool.true_or, Bool.true_and, e2, if_true, ← hn]

theorem getScheme_https (t : Bytes) : getScheme (asciiBytes (S "https:") ++ t) 0 (asciiBytes (S "https:") ++ t) = some (asciiBytes (S "https"), t) := by
  rfl

theorem urlParse1_host {h : Bytes} (hh : IsHost h) (t : Bytes) :
    urlParse1 (asciiBytes (S "https://") ++ h ++ 0x2f :: t) =
      if hasCTL t then none else (withQuery (baseURL h) (cutByte 0x3f t).2).setPath (0x2f :: (cutByte 0x3f t).1) := by
  have c : hasCTL (asciiBytes (S "https://") ++ h ++ 0x2f :: t) = hasCTL t := by
    rw [hasCTL_append, hasCTL_append, show hasCTL (0x2f :: t) = hasCTL t from rfl]
    rcases hh with rfl | rfl <;> simp [show hasCTL (asciiBytes (S "https://")) = false from by decide,
      show hasCTL (asciiBytes (S "api.github.com")) = false from by decide, show hasCTL (asciiBytes (S "github.com")) = false from by decide]
  have e : asciiBytes (S "https://") ++ h ++ 0x2f :: t = asciiBytes (S "https:") ++ (asciiBytes (S "//") ++ h ++ 0x2f :: t) := by
    simp [asciiBytes, S]
  have nq : 0x3f ∉ asciiBytes (S "//") ++ h ++ [0x2f] := by rcases hh with rfl | rfl <;> decide
  have e2 : asciiBytes (S "//") ++ h ++ 0x2f :: t = (asciiBytes (S "//") ++ h ++ [0x2f]) ++ t := by simp
  have low : (asciiBytes (S "https")).map lowerByte = asciiBytes (S "https") := by decide
  unfold urlParse1
  rw [c]
  split
  · rfl
  · rw [if_neg (by rw [e]; intro h; cases h), e, getScheme_https]
    simp only [low]
    rw [e2, cutByte_append nq]
    rcases cutByte 0x3f t with ⟨p, q⟩
    have e3 : asciiBytes (S "//") ++ h ++ [0x2f] ++ p = asciiBytes (S "//") ++ h ++ 0x2f :: p := by simp
    cases q with
    | none => simp only [e3]; rw [parseRest_host hh _ rfl rfl]; rfl
    | some q =>
      cases q with
      | nil => simp only [e3]; rw [parseRest_host hh _ rfl rfl]; rfl
      | cons x q => simp only [e3]; rw [parseRest_host hh _ rfl rfl]; rfl

/-- what `Parse` makes of the parts -/
structure Parsed (h p : Bytes) (q f : Option Bytes) (u : GoURL) : Prop where
  scheme : u.scheme = asciiBytes (S "https")
  rootless : u.rootless = []
  user : u.user = none
  host : u.host = h
  path : Unescaped (0x2f :: p) u.path
  query : u.rawQuery = q.getD [] ∧ (u.forceQuery = true ↔ q = some [])
  fragment : Unescaped (f.getD []) u.fragment
  raw : u.rawPath = [] ∨ u.rawPath = 0x2f :: p

theorem withQuery_fields (u : GoURL) (q : Option Bytes) (h1 : u.rawQuery = []) (h2 : u.forceQuery = false) :
    (withQuery u q).scheme = u.scheme ∧ (withQuery u q).rootless = u.rootless ∧ (withQuery u q).user = u.user ∧ (withQuery u q).host = u.host ∧
    (withQuery u q).fragment = u.fragment ∧ (withQuery u q).rawQuery = q.getD [] ∧ ((withQuery u q).forceQuery = true ↔ q = some []) := by
  cases q with
  | none => simp [withQuery, h1, h2]
  | some q => cases q <;> simp [withQuery, h1, h2]

theorem urlParse_host {h : Bytes} (hh : IsHost h) {t p q f} (hp : UrlParts t p q f) :
    ((∃ u, urlParse (asciiBytes (S "https://") ++ h ++ 0x2f :: t) = some u) ↔
      (∀ c ∈ p ++ q.getD [], ¬ CtlOctet c) ∧ (∃ d, Unescaped p d) ∧ ∃ d, Unescaped (f.getD []) d) ∧
    ∀ u, urlParse (asciiBytes (S "https://") ++ h ++ 0x2f :: t) = some u → Parsed h p q f u := by
  obtain ⟨c1, c2⟩ := parts_cut hp
  have nh : 0x23 ∉ asciiBytes (S "https://") ++ h ++ [0x2f] := by rcases hh with rfl | rfl <;> decide
  have e : asciiBytes (S "https://") ++ h ++ 0x2f :: t = (asciiBytes (S "https://") ++ h ++ [0x2f]) ++ t := by simp
  have e' : (asciiBytes (S "https://") ++ h ++ [0x2f]) ++ (p ++ (q.elim [] fun q => 0x3f :: q)) =
      asciiBytes (S "https://") ++ h ++ 0x2f :: (p ++ (q.elim [] fun q => 0x3f :: q)) := by simp
  have k := urlParse1_host hh (p ++ (q.elim [] fun q => 0x3f :: q))
  rw [c2] at k
  have ctl : hasCTL (p ++ (q.elim [] fun q => 0x3f :: q)) = true ↔ ∃ c ∈ p ++ q.getD [], CtlOctet c := by
    rw [hasCTL_iff]
    cases q with
    | none => exact Iff.rfl
    | some q =>
      constructor
      · rintro ⟨c, hc, h⟩
        refine ⟨c, ?_, h⟩
        rcases List.mem_append.1 hc with hc | hc
        · exact List.mem_append_left _ hc
        · rcases List.mem_cons.1 hc with rfl | hc
          · exact absurd h (by unfold CtlOctet; decide)
          · exact List.mem_append_right _ hc
      · rintro ⟨c, hc, h⟩
        refine ⟨c, ?_, h⟩
        rcases List.mem_append.1 hc with hc | hc
        · exact List.mem_append_left _ hc
        · exact List.mem_append_right _ (List.mem_cons_of_mem _ hc)
  have slash : ∀ d, Unescaped (0x2f :: p) d ↔ ∃ d', d = 0x2f :: d' ∧ Unescaped p d' := by
    intro d
    constructor
    · intro h
      cases h with
      | octet c _ h => exact ⟨_, rfl, h⟩
    · rintro ⟨d', rfl, h⟩
      exact .octet _ (by decide) h
  obtain ⟨w1, w2, w3, w4, w5, w6, w7⟩ := withQuery_fields (baseURL h) q rfl rfl
  have one : (∃ u, urlParse1 (asciiBytes (S "https://") ++ h ++ 0x2f :: (p ++ (q.elim [] fun q => 0x3f :: q))) = some u) ↔
      (∀ c ∈ p ++ q.getD [], ¬ CtlOctet c) ∧ ∃ d, Unescaped p d := by
    rw [k]
    by_cases hc : hasCTL (p ++ (q.elim [] fun q => 0x3f :: q)) = true
    · rw [if_pos hc]
      constructor
      · rintro ⟨u, h⟩; cases h
      · rintro ⟨h, -⟩
        obtain ⟨c, h1, h2⟩ := ctl.1 hc
        exact absurd h2 (h c h1)
    · rw [if_neg hc]
      unfold GoURL.setPath
      constructor
      · rintro ⟨u, h⟩
        obtain ⟨d, hd, -⟩ := Option.map_eq_some_iff.1 h
        obtain ⟨d', -, hd'⟩ := (slash d).1 ((unescape_iff (Or.inl rfl) _ _).1 hd)
        exact ⟨fun c hc1 hc2 => hc (ctl.2 ⟨c, hc1, hc2⟩), d', hd'⟩
      · rintro ⟨-, d, hd⟩
        rw [(unescape_iff (Or.inl rfl) _ _).2 ((slash _).2 ⟨d, rfl, hd⟩)]
        exact ⟨_, rfl⟩
  have fields : ∀ u, urlParse1 (asciiBytes (S "https://") ++ h ++ 0x2f :: (p ++ (q.elim [] fun q => 0x3f :: q))) = some u →
      Parsed h p q none u := by
    intro u hu
    rw [k] at hu
    split at hu
    · cases hu
    · unfold GoURL.setPath at hu
      obtain ⟨d, hd, rfl⟩ := Option.map_eq_some_iff.1 hu
      exact ⟨w1, w2, w3, w4, (unescape_iff (Or.inl rfl) _ _).1 hd, ⟨w6, w7⟩, by
        show Unescaped [] (withQuery (baseURL h) q).fragment
        rw [w5]; exact .nil, by
        show (if _ then _ else _) = _ ∨ (if _ then _ else _) = _
        split
        · exact .inl rfl
        · exact .inr rfl⟩
  rw [e]
  unfold urlParse
  rw [cutByte_append nh, c1, e']
  cases f with
  | none =>
    refine ⟨?_, fields⟩
    simp only
    rw [one]
    exact ⟨fun h => ⟨h.1, h.2, [], .nil⟩, fun h => ⟨h.1, h.2.1⟩⟩
  | some f =>
    simp only
    cases hu : urlParse1 (asciiBytes (S "https://") ++ h ++ 0x2f :: (p ++ (q.elim [] fun q => 0x3f :: q))) with
    | none =>
      refine ⟨⟨?_, ?_⟩, ?_⟩
      · rintro ⟨u, h⟩; cases h
      · rintro ⟨h1, h2, -⟩
        obtain ⟨u, h⟩ := one.2 ⟨h1, h2⟩
        rw [hu] at h; cases h
      · intro u h; cases h
    | some u =>
      have F := fields u hu
      obtain ⟨o1, o2⟩ := one.1 ⟨u, hu⟩
      simp only [Option.bind_eq_bind, Option.bind_some]
      by_cases hf : f = []
      · subst hf
        rw [if_pos rfl]
        exact ⟨⟨fun _ => ⟨o1, o2, [], .nil⟩, fun _ => ⟨u, rfl⟩⟩, fun v hv => by cases hv; exact ⟨F.1, F.2, F.3, F.4, F.5, F.6, F.7, F.8⟩⟩
      · rw [if_neg hf]
        unfold GoURL.setFragment
        refine ⟨⟨?_, ?_⟩, ?_⟩
        · rintro ⟨v, hv⟩
          obtain ⟨d, hd, -⟩ := Option.map_eq_some_iff.1 hv
          exact ⟨o1, o2, d, (unescape_iff (Or.inr rfl) _ _).1 hd⟩
        · rintro ⟨-, -, d, hd⟩
          rw [(unescape_iff (Or.inr rfl) f d).2 hd]
          exact ⟨_, rfl⟩
        · intro v hv
          obtain ⟨d, hd, rfl⟩ := Option.map_eq_some_iff.1 hv
          exact ⟨F.1, F.2, F.3, F.4, F.5, F.6, (unescape_iff (Or.inr rfl) _ _).1 hd, F.8⟩

/-! ## The text of a URL -/

theorem uri_join (scheme host p : Str) (hs : ∀ c ∈ scheme, c ≠ ':' ∧ c ≠ '/' ∧ c ≠ '?' ∧ c ≠ '#') (hh : ∀ c ∈ host, c ≠ '/' ∧ c ≠ '?' ∧ c ≠ '#')
    (hp : ∀ c ∈ p, c ≠ '?' ∧ c ≠ '#') (q f : Option Str) (hq : ∀ x, q = some x → '#' ∉ x) :
    uri (scheme ++ ':' :: '/' :: '/' :: (host ++ '/' :: (p ++ ((q.elim [] fun q => '?' :: q) ++ (f.elim [] fun f => '#' :: f))))) =
      some ⟨scheme, host, '/' :: p, q, f⟩ := by
  unfold uri untilAny
  have s1 := fun r => Prod.mk.inj (span_stop (p := fun c => ![':', '/', '?', '#'].contains c) (a := scheme)
    (fun c hc => by have := hs c hc; simp [this.1, this.2.1, this.2.2.1, this.2.2.2]) (d := ':') (by decide) r)
  have s2 := fun r => Prod.mk.inj (span_stop (p := fun c => !['/', '?', '#'].contains c) (a := host)
    (fun c hc => by have := hh c hc; simp [this.1, this.2.1, this.2.2]) (d := '/') (by decide) r)
  have hp' : ∀ c ∈ '/' :: p, (!['?', '#'].contains c) = true := by
    intro c hc
    rcases List.mem_cons.1 hc with rfl | hc
    · decide
    · have := hp c hc; simp [this.1, this.2]
  simp only [(s1 _).1, (s1 _).2, (s2 _).1, (s2 _).2]
  cases q with
  | none =>
    cases f with
    | none =>
      have s3 := Prod.mk.inj (span_all hp')
      simp only [Option.elim, List.append_nil, s3.1, s3.2]
    | some f =>
      have s3 := Prod.mk.inj (span_stop hp' (d := '#') (by decide) f)
      rw [List.cons_append] at s3
      simp only [Option.elim, List.nil_append, s3.1, s3.2]
  | some q =>
    have hq' : ∀ c ∈ q, (!['#'].contains c) = true := by
      intro c hc
      have : c ≠ '#' := fun e => hq q rfl (e ▸ hc)
      simp [this]
    have s3 := fun r => Prod.mk.inj (span_stop hp' (d := '?') (by decide) r)
    simp only [List.cons_append] at s3
    cases f with
    | none =>
      have s4 := Prod.mk.inj (span_all hq')
      simp only [Option.elim, List.append_nil, (s3 _).1, (s3 _).2, s4.1, s4.2]
    | some f =>
      have s4 := Prod.mk.inj (span_stop hq' (d := '#') (by decide) f)
      simp only [Option.elim, List.cons_append, (s3 _).1, (s3 _).2, s4.1, s4.2]

theorem escaped_slash (raw d : Bytes) (hd : d.head? = some 0x2f) (hr : raw = [] ∨ raw.head? = some 0x2f) :
    ∃ p, escapedPart .path raw d = 0x2f :: p := by
  have cons : ∀ l : Bytes, l.head? = some 0x2f → ∃ p, l = 0x2f :: p := by
    intro l hl
    cases l with
    | nil => cases hl
    | cons c l => cases hl; exact ⟨l, rfl⟩
  unfold escapedPart
  split
  · rename_i h
    rcases hr with rfl | hr
    · simp at h
    · exact cons raw hr
  obtain ⟨l, rfl⟩ := cons d hd
  rw [if_neg (by simp)]
  exact ⟨urlEscape .path l, rfl⟩

theorem chars_append (a b : Bytes) : chars (a ++ b) = chars a ++ chars b := List.map_append

theorem pound_of {c : UInt8} : Char.ofNat c.toNat = '#' → c = 0x23 := by
  refine forall_byte (p := fun c => Char.ofNat c.toNat = '#' → c = 0x23) ?_ c
  decide +kernel

/-- the parts of the text of a URL to one of the hosts -/
theorem text_uri {h : Bytes} (hh : IsHost h) (u : GoURL) (h1 : u.scheme = asciiBytes (S "https")) (h2 : u.rootless = []) (h3 : u.user = none)
    (h4 : u.host = h) (h5 : u.path.head? = some 0x2f) (h6 : u.rawPath = [] ∨ u.rawPath.head? = some 0x2f) (h7 : 0x23 ∉ u.rawQuery) :
    uri (chars u.text) = some ⟨"https".toList, chars h, chars (escapedPart .path u.rawPath u.path),
      if u.forceQuery || u.rawQuery ≠ [] then some (chars u.rawQuery) else none,
      if u.fragment ≠ [] then some (chars (escapedPart .fragment u.rawFragment u.fragment)) else none⟩ := by
  obtain ⟨p, ep⟩ := escaped_slash u.rawPath u.path h5 h6
  have hc := path_chars u.rawPath u.path
  rw [ep] at hc
  have eh : urlEscape .host h = h := by rcases hh with rfl | rfl <;> decide +kernel
  have hne : h ≠ [] := by rcases hh with rfl | rfl <;> decide
  have ef : u.front = asciiBytes (S "https") ++ [0x3a] ++ (asciiBytes (S "//") ++ h) := by
    unfold GoURL.front
    rw [h1, h3, h4, eh, if_pos (by decide), if_pos (by simp [hne]), if_pos (by simp [hne])]
    simp
  have et : u.text = asciiBytes (S "https") ++ 0x3a :: 0x2f :: 0x2f :: (h ++ 0x2f :: (p ++
      ((if u.forceQuery || u.rawQuery ≠ [] then 0x3f :: u.rawQuery else []) ++
       (if u.fragment ≠ [] then 0x23 :: escapedPart .fragment u.rawFragment u.fragment else [])))) := by
    unfold GoURL.text
    rw [if_neg (by rw [h2]; simp), ep, ef]
    simp only [List.head?_cons, ne_eq, not_true_eq_false, decide_false, Bool.and_false, Bool.false_and, Bool.false_eq_true, if_false, List.append_nil]
    rw [if_neg (by simp [asciiBytes, S])]
    simp [asciiBytes, S]
  have hq : (chars (if u.forceQuery || u.rawQuery ≠ [] then 0x3f :: u.rawQuery else [])) =
      ((if u.forceQuery || u.rawQuery ≠ [] then some (chars u.rawQuery) else none).elim [] fun q => '?' :: q) := by
    split <;> rfl
  have hf : (chars (if u.fragment ≠ [] then 0x23 :: escapedPart .fragment u.rawFragment u.fragment else [])) =
      ((if u.fragment ≠ [] then some (chars (escapedPart .fragment u.rawFragment u.fragment)) else none).elim [] fun f => '#' :: f) := by
    split <;> rfl
  rw [et, ep]
  show uri (chars (_ ++ (0x3a :: 0x2f :: 0x2f :: (h ++ 0x2f :: (p ++ _))))) = _
  rw [chars_append]
  have e2 : ∀ r : Bytes, chars (0x3a :: 0x2f :: 0x2f :: (h ++ 0x2f :: (p ++ r))) = ':' :: '/' :: '/' :: (chars h ++ '/' :: (chars p ++ chars r)) := by
    intro r
    simp [chars]
  rw [e2, chars_append, hq, hf]
  refine uri_join (chars (asciiBytes (S "https"))) (chars h) (chars p) ?_ ?_ ?_ _ _ ?_
  · decide +kernel
  · rcases hh with rfl | rfl <;> decide +kernel
  · intro c hm
    obtain ⟨x, hx, rfl⟩ := List.mem_map.1 hm
    exact (partChar_path x (hc x (List.mem_cons_of_mem _ hx))).2.2
  · intro x hx hm
    split at hx
    · cases hx
      obtain ⟨c, hc, e⟩ := List.mem_map.1 hm
      exact h7 (pound_of e ▸ hc)
    · cases hx

/-! ## Values -/

theorem bytesLt_irrefl (a : Bytes) : bytesLt a a = false := by
  induction a with
  | nil => rfl
  | cons c a ih => simp [bytesLt, ih]

theorem insert_filter (k : Bytes) (kv : Bytes × Bytes) (l : List (Bytes × Bytes)) :
    (insertKey kv l).filter (fun x => x.1 = k) = [kv].filter (fun x => x.1 = k) ++ l.filter (fun x => x.1 = k) := by
  induction l with
  | nil => simp [insertKey]
  | cons x l ih =>
    unfold insertKey
    split
    · rename_i h
      rw [List.filter_cons, ih, List.filter_cons (x := x)]
      by_cases hx : x.1 = k
      · have : kv.1 ≠ k := by
          intro e
          rw [hx, ← e, bytesLt_irrefl] at h
          cases h
        simp [hx, this]
      · simp [hx]
    · rw [List.filter_cons, List.filter_cons (x := kv) (xs := [])]
      split <;> simp

theorem sort_filter (k : Bytes) (l : List (Bytes × Bytes)) : (sortKeys l).filter (fun x => x.1 = k) = l.filter (fun x => x.1 = k) := by
  induction l with
  | nil => rfl
  | cons kv l ih =>
    rw [sortKeys, insert_filter, ih, ← List.filter_append]
    rfl

theorem insert_ne (kv : Bytes × Bytes) (l : List (Bytes × Bytes)) : insertKey kv l ≠ [] := by
  cases l with
  | nil => simp [insertKey]
  | cons x l => unfold insertKey; split <;> simp

theorem sort_ne {l : List (Bytes × Bytes)} (h : l ≠ []) : sortKeys l ≠ [] := by
  cases l with
  | nil => exact absurd rfl h
  | cons kv l => exact insert_ne kv _

theorem filter_set_same (vs : List (Bytes × Bytes)) (k v : Bytes) : (valuesSet vs k v).filter (fun x => x.1 = k) = [(k, v)] := by
  unfold valuesSet
  rw [List.filter_append, List.filter_filter]
  simp

theorem filter_set_other (vs : List (Bytes × Bytes)) {k k' : Bytes} (v : Bytes) (h : k ≠ k') :
    (valuesSet vs k v).filter (fun x => x.1 = k') = vs.filter (fun x => x.1 = k') := by
  unfold valuesSet
  rw [List.filter_append, List.filter_filter]
  have e : [(k, v)].filter (fun x => x.1 = k') = [] := by simp [h]
  rw [e, List.append_nil]
  apply List.filter_congr
  intro x _
  by_cases hx : x.1 = k'
  · simp [hx, Ne.symm h]
  · simp [hx]

theorem encode_isQuery : ∀ l : List (Bytes × Bytes), IsQuery (encodePairs l)
  | [] => .nil
  | [(k, v)] => isQuery_append (isQuery_append (isQuery_escape k) (.char '=' (by decide) .nil)) (isQuery_escape v)
  | (k, v) :: x :: l => by
    rw [encodePairs.eq_3 _ _ _ (by simp)]
    exact isQuery_append (isQuery_append (isQuery_append (isQuery_append (isQuery_escape k) (.char '=' (by decide) .nil)) (isQuery_escape v))
      (.char '&' (by decide) .nil)) (encode_isQuery (x :: l))

theorem queryChar_small (c : Char) (h : queryChar c = true) : c.toNat < 128 := by
  unfold queryChar at h
  rw [Bool.or_eq_true] at h
  rcases h with h | h
  · unfold Char.isAlphanum Char.isAlpha Char.isUpper Char.isLower Char.isDigit at h
    simp only [Bool.or_eq_true, Bool.and_eq_true, decide_eq_true_eq] at h
    have e : c.val.toNat = c.toNat := rfl
    rcases h with (h | h) | h
    · have := UInt32.le_iff_toNat_le.1 h.2; simp at this; omega
    · have := UInt32.le_iff_toNat_le.1 h.2; simp at this; omega
    · have := UInt32.le_iff_toNat_le.1 h.2; simp at this; omega
  · have hm := List.contains_iff_mem.1 h
    clear h
    revert c
    decide

theorem hexValue_small (c : Char) (h : (hexValue c).isSome) : c.toNat < 128 := by
  unfold hexValue at h
  repeat (split at h; · omega)
  cases h

theorem chars_ascii {t : Str} (h : ∀ c ∈ t, c.toNat < 128) : chars (asciiBytes t) = t := by
  induction t with
  | nil => rfl
  | cons c t ih =>
    have hc := h c (by simp)
    show Char.ofNat (UInt8.ofNat c.toNat).toNat :: chars (asciiBytes t) = _
    rw [ih fun x hx => h x (List.mem_cons_of_mem _ hx)]
    have : (UInt8.ofNat c.toNat).toNat = c.toNat := by
      show c.toNat % 256 = c.toNat
      omega
    rw [this]
    simp

theorem isQuery_facts {t : Str} (h : IsQuery t) : ∀ c ∈ t, c.toNat < 128 ∧ c ≠ '#' := by
  induction h with
  | nil => simp
  | char c h _ ih =>
    intro x hx
    rcases List.mem_cons.1 hx with rfl | hx
    · exact ⟨queryChar_small _ h, by rintro rfl; revert h; decide⟩
    · exact ih x hx
  | pct ha hb _ ih =>
    intro x hx
    have nh : ∀ y : Char, (hexValue y).isSome → y ≠ '#' := by rintro y hy rfl; revert hy; decide
    simp only [List.mem_cons] at hx
    rcases hx with rfl | rfl | rfl | hx
    · decide
    · exact ⟨hexValue_small _ ha, nh _ ha⟩
    · exact ⟨hexValue_small _ hb, nh _ hb⟩
    · exact ih x hx

/-! ## C85 -/

theorem parts_prefix {a t p q f} (h : UrlParts t p q f) (h1 : 0x3f ∉ a) (h2 : 0x23 ∉ a) : UrlParts (a ++ t) (a ++ p) q f := by
  obtain ⟨rfl, h3, h4, h5⟩ := h
  refine ⟨by simp, ?_, ?_, h5⟩
  · simp [h1, h3]
  · simp [h2, h4]

theorem unescaped_cons {c : UInt8} (hc : c ≠ 0x25) {r d : Bytes} (h : Unescaped (c :: r) d) : ∃ d', d = c :: d' ∧ Unescaped r d' := by
  cases h with
  | octet _ _ h => exact ⟨_, rfl, h⟩
  | pct => exact absurd rfl hc

theorem unescaped_prefix {a : Bytes} (ha : 0x25 ∉ a) {p d : Bytes} : Unescaped (a ++ p) d ↔ ∃ d', d = a ++ d' ∧ Unescaped p d' := by
  induction a generalizing d with
  | nil => simp
  | cons c a ih =>
    have hc : c ≠ 0x25 := fun e => ha (by simp [e])
    have ha' : 0x25 ∉ a := fun h => ha (List.mem_cons_of_mem _ h)
    constructor
    · intro h
      obtain ⟨e, rfl, he⟩ := unescaped_cons hc h
      obtain ⟨d', rfl, hd⟩ := (ih ha').1 he
      exact ⟨d', rfl, hd⟩
    · rintro ⟨d', rfl, h⟩
      exact .octet c hc ((ih ha').2 ⟨d', rfl, h⟩)

/-- the query of a page -/
def Spec.pageQuery (n : Nat) : List (Bytes × Bytes) :=
  [(asciiBytes "page".toList, asciiBytes (dec n)), (asciiBytes "per_page".toList, asciiBytes "100".toList)]

theorem api_parts {name p : Bytes} {q f : Option Bytes} (h : UrlParts (name ++ asciiBytes (S "/gpg_keys")) p q f) :
    UrlParts (asciiBytes (S "users/") ++ (name ++ asciiBytes (S "/gpg_keys"))) (asciiBytes (S "users/") ++ p) q f :=
  parts_prefix h (by decide) (by decide)

theorem makeURLAPI_eq (name : Bytes) (n : Nat) (hn : 1 ≤ n) :
    makeURLAPI name n = (urlParse (asciiBytes (S "https://") ++ asciiBytes (S "api.github.com") ++
      0x2f :: (asciiBytes (S "users/") ++ (name ++ asciiBytes (S "/gpg_keys"))))).map fun u =>
        { u with rawQuery := asciiBytes (valuesEncode (valuesSet (valuesSet (parseQuery u.rawQuery) (asciiBytes (S "page")) (asciiBytes (dec n)))
          (asciiBytes (S "per_page")) (asciiBytes (S "100")))) } := by
  unfold makeURLAPI
  have e : decInt (if (n : Int) < 1 then 1 else (n : Int)) = dec n := by
    rw [if_neg (by omega)]
    unfold decInt
    rw [if_neg (by omega)]
    rfl
  simp only [e]
  have e2 : asciiBytes (S "https://api.github.com/users/") ++ name ++ asciiBytes (S "/gpg_keys") =
      asciiBytes (S "https://") ++ asciiBytes (S "api.github.com") ++ 0x2f :: (asciiBytes (S "users/") ++ (name ++ asciiBytes (S "/gpg_keys"))) := by
    simp [asciiBytes, S]
  rw [e2]

/-- **C85**: when a user name is refused: a control character in front of a number sign, or a percent sign that does not begin an
escape sequence, in front of a question mark or behind a number sign. -/
theorem C85_accepted (name : Bytes) (n : Nat) (hn : 1 ≤ n) (p : Bytes) (q f : Option Bytes) (h : UrlParts (name ++ asciiBytes "/gpg_keys".toList) p q f) :
    (∃ u, makeURLAPI name n = some u) ↔ (∀ c ∈ p ++ q.getD [], ¬ CtlOctet c) ∧ (∃ d, Unescaped p d) ∧ ∃ d, Unescaped (f.getD []) d := by
  rw [makeURLAPI_eq name n hn]
  have k := (urlParse_host (Or.inl rfl) (api_parts h)).1
  have e : (∃ u, urlParse (asciiBytes (S "https://") ++ asciiBytes (S "api.github.com") ++
      0x2f :: (asciiBytes (S "users/") ++ (name ++ asciiBytes (S "/gpg_keys")))) = some u) ↔
      (∀ c ∈ p ++ q.getD [], ¬ CtlOctet c) ∧ (∃ d, Unescaped p d) ∧ ∃ d, Unescaped (f.getD []) d := by
    rw [k, List.append_assoc]
    have c1 : (∀ c ∈ asciiBytes (S "users/") ++ (p ++ q.getD []), ¬ CtlOctet c) ↔ ∀ c ∈ p ++ q.getD [], ¬ CtlOctet c := by
      constructor
      · intro h c hc; exact h c (List.mem_append_right _ hc)
      · intro h c hc
        rcases List.mem_append.1 hc with hc' | hc
        · clear hc
          revert c
          unfold CtlOctet
          decide
        · exact h c hc
    have c2 : (∃ d, Unescaped (asciiBytes (S "users/") ++ p) d) ↔ ∃ d, Unescaped p d := by
      constructor
      · rintro ⟨d, h⟩
        obtain ⟨d', -, h⟩ := (unescaped_prefix (by decide)).1 h
        exact ⟨d', h⟩
      · rintro ⟨d, h⟩
        exact ⟨_, (unescaped_prefix (by decide)).2 ⟨d, rfl, h⟩⟩
    rw [c1, c2]
  rw [← e]
  constructor
  · rintro ⟨u, h⟩
    obtain ⟨v, hv, -⟩ := Option.map_eq_some_iff.1 h
    exact ⟨v, hv⟩
  · rintro ⟨v, hv⟩
    exact ⟨_, Option.map_eq_some_iff.2 ⟨v, hv, rfl⟩⟩

/-- **C85**: where a request for a page goes, whatever the user name is: to `https://api.github.com`, with a path of visible ASCII
characters that decodes to `/users/` and the part of the name and of `/gpg_keys` in front of a question mark or number sign, and with
exactly one page number and one page size, which are those of the program. -/
theorem C85_request (name : Bytes) (n : Nat) (hn : 1 ≤ n) (p : Bytes) (q f : Option Bytes) (h : UrlParts (name ++ asciiBytes "/gpg_keys".toList) p q f)
    (u : GoURL) (hu : makeURLAPI name n = some u) :
    ∃ path query frag pairs d, uri (chars u.text) = some ⟨"https".toList, "api.github.com".toList, path, some query, frag⟩ ∧
      (∀ c ∈ path, pathChar c) ∧ Unescaped p d ∧ percentDecode false path = some (asciiBytes "/users/".toList ++ d) ∧
      IsQuery query ∧ formPairs query = some pairs ∧
      pairs.filter (fun x => x.1 = asciiBytes "page".toList) = [(asciiBytes "page".toList, asciiBytes (dec n))] ∧
      pairs.filter (fun x => x.1 = asciiBytes "per_page".toList) = [(asciiBytes "per_page".toList, asciiBytes "100".toList)] ∧
      (q = none → pairs = pageQuery n) ∧ (f = none → frag = none) := by
  rw [makeURLAPI_eq name n hn] at hu
  obtain ⟨v, hv, rfl⟩ := Option.map_eq_some_iff.1 hu
  have F := (urlParse_host (Or.inl rfl) (api_parts h)).2 v hv
  obtain ⟨d, hd, hd'⟩ := (unescaped_prefix (a := 0x2f :: asciiBytes (S "users/")) (by decide)).1 F.path
  generalize hvs : valuesSet (valuesSet (parseQuery v.rawQuery) (asciiBytes (S "page")) (asciiBytes (dec n))) (asciiBytes (S "per_page")) (asciiBytes (S "100")) = vs
  have hne : vs ≠ [] := by rw [← hvs]; unfold valuesSet; simp
  have hq : IsQuery (valuesEncode vs) := encode_isQuery _
  have hc := isQuery_facts hq
  have ec : chars (asciiBytes (valuesEncode vs)) = valuesEncode vs := chars_ascii fun c h => (hc c h).1
  have hp := formPairs_encode (sortKeys vs) (sort_ne hne)
  have t := text_uri (Or.inl rfl) { v with rawQuery := asciiBytes (valuesEncode vs) } F.scheme F.rootless F.user F.host
    (by show v.path.head? = _; rw [hd]; rfl) (by
      show v.rawPath = [] ∨ v.rawPath.head? = _
      rcases F.raw with h | h
      · exact .inl h
      · exact .inr (by rw [h]; rfl)) (by
      show 0x23 ∉ asciiBytes (valuesEncode vs)
      intro hm
      obtain ⟨c, hm, e⟩ := List.mem_map.1 hm
      have := (hc c hm)
      apply this.2
      have e1 : (UInt8.ofNat c.toNat).toNat = 0x23 := by rw [e]; rfl
      have e2 : c.toNat % 256 = 0x23 := e1
      have e3 : c.toNat = ('#' : Char).toNat := by
        show c.toNat = 35
        omega
      exact Char.toNat_inj.1 e3)
  have hne' : asciiBytes (valuesEncode vs) ≠ [] := by
    intro e
    rw [e] at ec
    have : formPairs (valuesEncode vs) = some (sortKeys vs) := hp
    rw [← ec] at this
    have e2 : formPairs (chars []) = none ∨ formPairs (chars []) = some [([], [])] := by decide
    rcases e2 with e2 | e2
    · rw [e2] at this; cases this
    · rw [e2] at this
      have k1 : vs.filter (fun x => x.1 = asciiBytes (S "per_page")) = [(asciiBytes (S "per_page"), asciiBytes (S "100"))] := by
        rw [← hvs, filter_set_same]
      rw [← sort_filter, ← Option.some.inj this] at k1
      revert k1
      decide
  rw [if_pos (by simp [hne'])] at t
  simp only [ec] at t
  refine ⟨_, _, _, sortKeys vs, d, t, ?_, hd', ?_, hq, hp, ?_, ?_, ?_, ?_⟩
  · intro c hc
    obtain ⟨x, hx, rfl⟩ := List.mem_map.1 hc
    exact partChar_path x (path_chars _ _ x hx)
  · rw [decode_part, hd]; rfl
  · rw [sort_filter, ← hvs, filter_set_other _ _ (by decide)]
    exact filter_set_same _ _ _
  · rw [sort_filter, ← hvs]
    exact filter_set_same _ _ _
  · intro e
    rw [F.query.1, e] at hvs
    rw [← hvs]
    have : parseQuery (Option.getD none []) = [] := by
      show parseQuery [] = []
      rw [parseQuery]
      rfl
    rw [this]
    rfl
  · intro e
    have := F.fragment
    rw [e] at this
    have : v.fragment = [] := by
      generalize v.fragment = g at this
      cases this
      rfl
    rw [if_neg (by simp [this])]

/-- **C85**: the profile page, in the same way: the host is `github.com`, and the path decodes to the part of the name and of `.gpg`
in front of a question mark or number sign. -/
theorem C85_profile (name p : Bytes) (q f : Option Bytes) (h : UrlParts (name ++ asciiBytes ".gpg".toList) p q f) :
    ((∃ u, makeURL name = some u) ↔ (∀ c ∈ p ++ q.getD [], ¬ CtlOctet c) ∧ (∃ d, Unescaped p d) ∧ ∃ d, Unescaped (f.getD []) d) ∧
    ∀ u, makeURL name = some u → ∃ path frag d, uri (chars u.text) = some ⟨"https".toList, "github.com".toList, path, q.map chars, frag⟩ ∧
      (∀ c ∈ path, pathChar c) ∧ Unescaped p d ∧ percentDecode false path = some (0x2f :: d) ∧ (f = none → frag = none) := by
  have e : makeURL name = urlParse (asciiBytes (S "https://") ++ asciiBytes (S "github.com") ++ 0x2f :: (name ++ asciiBytes (S ".gpg"))) := by
    unfold makeURL
    congr 1
  rw [e]
  obtain ⟨k1, k2⟩ := urlParse_host (Or.inr rfl) h
  refine ⟨k1, ?_⟩
  intro u hu
  have F := k2 u hu
  obtain ⟨d, hd, hd'⟩ := (unescaped_prefix (a := [0x2f]) (by decide)).1 F.path
  have h7 : 0x23 ∉ u.rawQuery := by
    rw [F.query.1]
    cases q with
    | none => simp
    | some q => exact h.2.2.2 q rfl
  have t := text_uri (Or.inr rfl) u F.scheme F.rootless F.user F.host (by rw [hd]; rfl) (by
      rcases F.raw with h | h
      · exact .inl h
      · exact .inr (by rw [h]; rfl)) h7
  have hq : (if u.forceQuery || u.rawQuery ≠ [] then some (chars u.rawQuery) else none) = q.map chars := by
    cases q with
    | none =>
      have e1 : u.rawQuery = [] := F.query.1
      have e2 : u.forceQuery = false := by
        cases e : u.forceQuery with
        | false => rfl
        | true => exact absurd (F.query.2.1 e) (by simp)
      rw [e1, e2]; rfl
    | some q =>
      have e1 : u.rawQuery = q := F.query.1
      cases q with
      | nil => rw [F.query.2.2 rfl, e1]; rfl
      | cons x q => rw [e1]; simp
  rw [hq] at t
  refine ⟨_, _, d, t, ?_, hd', ?_, ?_⟩
  · intro c hc
    obtain ⟨x, hx, rfl⟩ := List.mem_map.1 hc
    exact partChar_path x (path_chars _ _ x hx)
  · rw [decode_part, hd]; rfl
  · intro e
    have := F.fragment
    rw [e] at this
    have : u.fragment = [] := by
      generalize u.fragment = g at this
      cases this
      rfl
    rw [if_neg (by simp [this])]

/-- no control characters, percent signs, question marks and number signs -/
def Spec.PlainName (name : Bytes) : Prop := ∀ c ∈ name, ¬ CtlOctet c ∧ c ≠ 0x25 ∧ c ≠ 0x3f ∧ c ≠ 0x23

theorem plain_parts {name t : Bytes} (h : PlainName (name ++ t)) : UrlParts (name ++ t) (name ++ t) none none :=
  ⟨by simp, fun hm => (h _ hm).2.2.1 rfl, fun hm => (h _ hm).2.2.2 rfl, by simp⟩

theorem plain_unescaped {s d : Bytes} (h : PlainName s) : Unescaped s d ↔ d = s := by
  have := unescaped_prefix (a := s) (p := []) (d := d) fun hm => (h _ hm).2.1 rfl
  rw [List.append_nil] at this
  rw [this]
  constructor
  · rintro ⟨d', rfl, hd⟩
    cases hd
    rw [List.append_nil]
  · rintro rfl
    exact ⟨[], by rw [List.append_nil], .nil⟩

theorem plain_append {a b : Bytes} (ha : PlainName a) (hb : PlainName b) : PlainName (a ++ b) := by
  intro c hc
  rcases List.mem_append.1 hc with h | h
  · exact ha c h
  · exact hb c h

/-- **C85**: for a name without control characters, percent signs, question marks and number signs, exactly the keys of this name are
asked for. Missing from the full claim: the other names, see `C85_cut`. -/
theorem C85_plain_partial (name : Bytes) (hn : PlainName name) (n : Nat) (h1 : 1 ≤ n) :
    (∃ u path q, makeURLAPI name n = some u ∧ uri (chars u.text) = some ⟨"https".toList, "api.github.com".toList, path, some q, none⟩ ∧
      percentDecode false path = some (asciiBytes "/users/".toList ++ name ++ asciiBytes "/gpg_keys".toList) ∧ formPairs q = some (pageQuery n)) ∧
    (∃ u path, makeURL name = some u ∧ uri (chars u.text) = some ⟨"https".toList, "github.com".toList, path, none, none⟩ ∧
      percentDecode false path = some (asciiBytes "/".toList ++ name ++ asciiBytes ".gpg".toList)) := by
  have p1 : PlainName (name ++ asciiBytes "/gpg_keys".toList) := plain_append hn (by unfold PlainName CtlOctet; decide)
  have p2 : PlainName (name ++ asciiBytes ".gpg".toList) := plain_append hn (by unfold PlainName CtlOctet; decide)
  constructor
  · obtain ⟨u, hu⟩ := (C85_accepted name n h1 _ _ _ (plain_parts p1)).2
      ⟨fun c hc => (p1 c (by simpa using hc)).1, ⟨_, (plain_unescaped p1).2 rfl⟩, [], .nil⟩
    obtain ⟨path, q, frag, pairs, d, t1, -, t3, t4, -, t6, -, -, t9, t10⟩ := C85_request name n h1 _ _ _ (plain_parts p1) u hu
    have := (plain_unescaped p1).1 t3
    subst this
    rw [t10 rfl] at t1
    rw [t9 rfl] at t6
    exact ⟨u, path, q, hu, t1, by rw [t4, List.append_assoc], t6⟩
  · obtain ⟨k1, k2⟩ := C85_profile name _ _ _ (plain_parts p2)
    obtain ⟨u, hu⟩ := k1.2 ⟨fun c hc => (p2 c (by simpa using hc)).1, ⟨_, (plain_unescaped p2).2 rfl⟩, [], .nil⟩
    obtain ⟨path, frag, d, t1, -, t3, t4, t5⟩ := k2 u hu
    have := (plain_unescaped p2).1 t3
    subst this
    rw [t5 rfl] at t1
    exact ⟨u, path, hu, t1, by rw [t4]; rfl⟩

/-- **C85**: so different names of this kind, and different pages, are different requests. -/
theorem C85_injective_partial (name name' : Bytes) (h : PlainName name) (h' : PlainName name') (n n' : Nat) (hn : 1 ≤ n) (hn' : 1 ≤ n') (u v : GoURL)
    (hu : makeURLAPI name n = some u) (hv : makeURLAPI name' n' = some v) (e : u.text = v.text) : name = name' ∧ n = n' := by
  obtain ⟨⟨u1, path, q, e1, e2, e3, e4⟩, -⟩ := C85_plain_partial name h n hn
  obtain ⟨⟨v1, path', q', e1', e2', e3', e4'⟩, -⟩ := C85_plain_partial name' h' n' hn'
  rw [hu] at e1
  rw [hv] at e1'
  cases e1
  cases e1'
  rw [e, e2'] at e2
  cases e2
  rw [e3'] at e3
  rw [e4'] at e4
  have a := List.append_cancel_left (List.append_cancel_right (Option.some.inj e3))
  refine ⟨a.symm, ?_⟩
  have b : asciiBytes (dec n') = asciiBytes (dec n) := by
    have := Option.some.inj e4
    unfold pageQuery at this
    simp only [List.cons.injEq, Prod.mk.injEq, true_and] at this
    exact this.1
  have small : ∀ m, ∀ c ∈ dec m, c.toNat < 128 := by
    intro m c hc
    have := dec_isDigit hc
    unfold Char.isDigit at this
    simp only [Bool.and_eq_true, decide_eq_true_eq] at this
    have h2 := UInt32.le_iff_toNat_le.1 this.2
    have e : c.val.toNat = c.toNat := rfl
    simp at h2
    omega
  apply dec_inj
  rw [← chars_ascii (small n), ← chars_ascii (small n'), b]

/-- **C85**, why the full claim is false: behind a question mark the rest of the name and `/gpg_keys` are not part of the path. -/
theorem C85_cut (user rest : Bytes) (hu : PlainName user) (n : Nat) (hn : 1 ≤ n) (u : GoURL) (h : makeURLAPI (user ++ 0x3f :: rest) n = some u) :
    ∃ path query frag, uri (chars u.text) = some ⟨"https".toList, "api.github.com".toList, path, some query, frag⟩ ∧
      percentDecode false path = some (asciiBytes "/users/".toList ++ user) := by
  obtain ⟨h1, h2⟩ := cutByte_eq 0x23 (rest ++ asciiBytes "/gpg_keys".toList)
  have hp : UrlParts ((user ++ 0x3f :: rest) ++ asciiBytes "/gpg_keys".toList) user (some (cutByte 0x23 (rest ++ asciiBytes "/gpg_keys".toList)).1)
      (cutByte 0x23 (rest ++ asciiBytes "/gpg_keys".toList)).2 := by
    refine ⟨?_, fun hm => (hu _ hm).2.2.1 rfl, fun hm => (hu _ hm).2.2.2 rfl, ?_⟩
    · rw [List.append_assoc, List.append_assoc]
      congr 1
      show 0x3f :: (rest ++ asciiBytes "/gpg_keys".toList) = 0x3f :: (_ ++ _)
      rw [← h2]
    · intro x hx
      cases hx
      exact h1
  obtain ⟨path, q, frag, pairs, d, t1, -, t3, t4, -⟩ := C85_request _ n hn _ _ _ hp u h
  have := (plain_unescaped hu).1 t3
  subst this
  exact ⟨path, q, frag, t1, t4⟩

/-- `gpgpdump github 'a?page=7;x=1' --keyid ID`: the keys of nobody, but the page number stays; a name with a slash leads to another
resource of the API, with an escape sequence to another name; a broken one is refused. -/
theorem C85_example :
    (makeURLAPI (asciiBytes (S "a?page=7;x=1")) 3).map GoURL.text = some (asciiBytes (S "https://api.github.com/users/a?page=3&per_page=100&x=1%2Fgpg_keys")) ∧
    (makeURLAPI (asciiBytes (S "../orgs/o")) 1).map GoURL.text = some (asciiBytes (S "https://api.github.com/users/../orgs/o/gpg_keys?page=1&per_page=100")) ∧
    (makeURLAPI (asciiBytes (S "%61lice")) 1).map GoURL.text = some (asciiBytes (S "https://api.github.com/users/%61lice/gpg_keys?page=1&per_page=100")) ∧
    (makeURLAPI (asciiBytes (S "a b@c:d")) 2).map GoURL.text = some (asciiBytes (S "https://api.github.com/users/a%20b@c:d/gpg_keys?page=2&per_page=100")) ∧
    makeURLAPI (asciiBytes (S "a%")) 1 = none ∧ makeURL (asciiBytes (S "a\nb")) = none := by
  decide +kernel

/-! ## C86 -/

namespace Spec

/-- percent signs only in escape sequences -/
def WellEscaped (p : Bytes) : Prop := ∃ d, Unescaped p d

/-- RFC 3986: the characters of a path, and brackets -/
def pathOctet (c : UInt8) : Prop := isAlnum c = true ∨ c ∈ asciiBytes "-._~!$&'()*+,;=:@/[]%".toList

/-- a host name with an optional port -/
def HostPort (h : Bytes) : Prop :=
  ∃ name port, h = name ++ port ∧ name ≠ [] ∧ (∀ c ∈ name, isAlnum c = true ∨ c ∈ asciiBytes "-._~".toList) ∧
    (port = [] ∨ ∃ ds, port = 0x3a :: ds ∧ ∀ c ∈ ds, 0x30 ≤ c.toNat ∧ c.toNat ≤ 0x39)

/-- a URL for the Web without fragment, and its parts -/
structure WebURL (s scheme host path : Bytes) (query : Option Bytes) : Prop where
  joined : s = scheme ++ asciiBytes "://".toList ++ host ++ path ++ query.elim [] fun q => 0x3f :: q
  isScheme : scheme = asciiBytes "http".toList ∨ scheme = asciiBytes "https".toList
  isHost : HostPort host
  rooted : path = [] ∨ path.head? = some 0x2f
  octets : ∀ c ∈ path, pathOctet c
  escapes : WellEscaped path
  isQuery : ∀ q, query = some q → ∀ c ∈ q, ¬ CtlOctet c ∧ c ≠ 0x23

end Spec

theorem hostName_facts (c : UInt8) : isAlnum c = true ∨ c ∈ asciiBytes "-._~".toList →
    c ≠ 0x23 ∧ c ≠ 0x3f ∧ c ≠ 0x2f ∧ c ≠ 0x40 ∧ c ≠ 0x5b ∧ c ≠ 0x3a ∧ c ≠ 0x25 ∧ c ≠ 0x2b ∧ ¬ CtlOctet c ∧ shouldEscape c .host = false := by
  refine forall_byte (p := fun c => isAlnum c = true ∨ c ∈ asciiBytes "-._~".toList →
    c ≠ 0x23 ∧ c ≠ 0x3f ∧ c ≠ 0x2f ∧ c ≠ 0x40 ∧ c ≠ 0x5b ∧ c ≠ 0x3a ∧ c ≠ 0x25 ∧ c ≠ 0x2b ∧ ¬ CtlOctet c ∧ shouldEscape c .host = false) ?_ c
  unfold CtlOctet
  decide +kernel

theorem port_facts (c : UInt8) : (c = 0x3a ∨ (0x30 ≤ c.toNat ∧ c.toNat ≤ 0x39)) →
    c ≠ 0x23 ∧ c ≠ 0x3f ∧ c ≠ 0x2f ∧ c ≠ 0x40 ∧ c ≠ 0x5b ∧ c ≠ 0x25 ∧ c ≠ 0x2b ∧ ¬ CtlOctet c ∧ shouldEscape c .host = false := by
  refine forall_byte (p := fun c => (c = 0x3a ∨ (0x30 ≤ c.toNat ∧ c.toNat ≤ 0x39)) →
    c ≠ 0x23 ∧ c ≠ 0x3f ∧ c ≠ 0x2f ∧ c ≠ 0x40 ∧ c ≠ 0x5b ∧ c ≠ 0x25 ∧ c ≠ 0x2b ∧ ¬ CtlOctet c ∧ shouldEscape c .host = false) ?_ c
  unfold CtlOctet
  decide +kernel

theorem pathOctet_facts (c : UInt8) : pathOctet c → c ≠ 0x23 ∧ c ≠ 0x3f ∧ ¬ CtlOctet c ∧ partChar .path c = true := by
  refine forall_byte (p := fun c => pathOctet c → c ≠ 0x23 ∧ c ≠ 0x3f ∧ ¬ CtlOctet c ∧ partChar .path c = true) ?_ c
  unfold CtlOctet pathOctet
  decide +kernel

theorem hostPort_facts {h : Bytes} (hh : HostPort h) : h ≠ [] ∧ h.head? ≠ some 0x5b ∧ ∀ c ∈ h,
    c ≠ 0x23 ∧ c ≠ 0x3f ∧ c ≠ 0x2f ∧ c ≠ 0x40 ∧ c ≠ 0x5b ∧ c ≠ 0x25 ∧ c ≠ 0x2b ∧ ¬ CtlOctet c ∧ shouldEscape c .host = false := by
  obtain ⟨name, port, rfl, hne, hn, hp⟩ := hh
  have all : ∀ c ∈ name ++ port, c ≠ 0x23 ∧ c ≠ 0x3f ∧ c ≠ 0x2f ∧ c ≠ 0x40 ∧ c ≠ 0x5b ∧ c ≠ 0x25 ∧ c ≠ 0x2b ∧ ¬ CtlOctet c ∧ shouldEscape c .host = false := by
    intro c hc
    rcases List.mem_append.1 hc with hc | hc
    · have := hostName_facts c (hn c hc)
      exact ⟨this.1, this.2.1, this.2.2.1, this.2.2.2.1, this.2.2.2.2.1, this.2.2.2.2.2.2⟩
    · apply port_facts
      rcases hp with rfl | ⟨ds, rfl, hd⟩
      · cases hc
      · rcases List.mem_cons.1 hc with rfl | hc
        · exact .inl rfl
        · exact .inr (hd c hc)
  refine ⟨by simp [hne], ?_, all⟩
  intro e
  exact (all _ (List.mem_of_head? e)).2.2.2.2.1 rfl

theorem unescape_host {h : Bytes} (hh : ∀ c ∈ h, c ≠ 0x25 ∧ c ≠ 0x2b ∧ shouldEscape c .host = false) : urlUnescape .host h = some h := by
  induction h with
  | nil => rfl
  | cons c h ih =>
    obtain ⟨h1, h2, h3⟩ := hh c (by simp)
    rw [urlUnescape.eq_def]
    simp only [if_neg h1, if_neg h2, h3, Bool.and_false, Bool.false_eq_true, if_false]
    rw [ih fun x hx => hh x (List.mem_cons_of_mem _ hx)]
    rfl

theorem escape_host {h : Bytes} (hh : ∀ c ∈ h, shouldEscape c .host = false) : urlEscape .host h = h := by
  induction h with
  | nil => rfl
  | cons c h ih =>
    rw [urlEscape, List.flatMap_cons, ← urlEscape, ih fun x hx => hh x (List.mem_cons_of_mem _ hx)]
    simp [hh c (by simp)]

theorem cutLast_none {sep : UInt8} {s : Bytes} (h : sep ∉ s) : cutLast sep s = none := by
  unfold cutLast
  rw [cutByte_none (by simpa using h)]

theorem cutLast_some {sep : UInt8} {a b : Bytes} (h : sep ∉ b) : cutLast sep (a ++ sep :: b) = some (a, b) := by
  unfold cutLast
  have e : (a ++ sep :: b).reverse = b.reverse ++ sep :: a.reverse := by simp
  rw [e, cutByte_append (by simpa using h), cutByte_sep]
  simp

theorem parse_hostPort {h : Bytes} (hh : HostPort h) : parseAuthority h = some (none, h) := by
  obtain ⟨-, h2, h3⟩ := hostPort_facts hh
  have hu := unescape_host (h := h) fun c hc => ⟨(h3 c hc).2.2.2.2.2.1, (h3 c hc).2.2.2.2.2.2.1, (h3 c hc).2.2.2.2.2.2.2.2⟩
  unfold parseAuthority
  rw [cutLast_none fun hm => (h3 _ hm).2.2.2.1 rfl]
  have : parseHost h = some h := by
    unfold parseHost
    rw [if_neg h2]
    obtain ⟨name, port, rfl, hne, hn, hp⟩ := hh
    rcases hp with rfl | ⟨ds, rfl, hd⟩
    · rw [List.append_nil] at hu ⊢
      rw [cutLast_none fun hm => (hostName_facts _ (hn _ hm)).2.2.2.2.2.1 rfl]
      exact hu
    · have hc : (0x3a : UInt8) ∉ ds := by
        intro hm
        have := hd _ hm
        revert this
        decide
      rw [cutLast_some hc]
      simp only
      rw [if_pos ?_, hu]
      unfold validOptionalPort
      simp only [decide_true, Bool.true_and, List.all_eq_true, Bool.and_eq_true, decide_eq_true_eq]
      exact hd
  rw [this]
  rfl

theorem getScheme_http (t : Bytes) : getScheme (asciiBytes (S "http:") ++ t) 0 (asciiBytes (S "http:") ++ t) = some (asciiBytes (S "http"), t) := by
  rfl

theorem part_raw {p d : Bytes} (hd : Unescaped p d) (hp : ∀ c ∈ p, partChar .path c = true) (hs : d ≠ [0x2a]) :
    escapedPart .path (if urlEscape .path d = p then [] else p) d = p := by
  unfold escapedPart
  by_cases e : urlEscape .path d = p
  · rw [if_pos e, if_neg (by simp)]
    split
    · rename_i h
      exact absurd (by simpa using h) hs
    · exact e
  · rw [if_neg e]
    have hne : p ≠ [] := by
      rintro rfl
      cases hd
      exact e rfl
    have hv : validEncoded p .path = true := List.all_eq_true.2 hp
    rw [if_pos (by simp [hne, hv, (unescape_iff (Or.inl rfl) _ _).2 hd])]

theorem parseRest_web {h : Bytes} (hh : HostPort h) (u : GoURL) (hu : u.scheme ≠ []) (hn : u.user = none) (p : Bytes) (hp : p = [] ∨ p.head? = some 0x2f) :
    parseRest u (asciiBytes (S "//") ++ h ++ p) = GoURL.setPath { u with host := h } p := by
  unfold parseRest
  obtain ⟨-, -, h3⟩ := hostPort_facts hh
  have e1 : (asciiBytes (S "//") ++ h ++ p).head? = some 0x2f := rfl
  have e2 : asciiBytes (S "//") <+: asciiBytes (S "//") ++ h ++ p := ⟨h ++ p, by simp⟩
  have e3 : (asciiBytes (S "//") ++ h ++ p).drop 2 = h ++ p := by
    rw [List.append_assoc]; rfl
  have e4 : 0x2f ∉ h := fun hm => (h3 _ hm).2.2.1 rfl
  have e5 := parse_hostPort hh
  rw [e1, e3]
  rcases hp with rfl | hp
  · have e7 : cutByte 0x2f (h ++ []) = (h, none) := by rw [List.append_nil, cutByte_none e4]
    rw [e7]
    simp only [e5, ne_eq, not_true_eq_false, decide_false, Bool.false_and, Bool.false_eq_true, if_false, hu, not_false_eq_true, decide_true,
      Bool.true_or, Bool.true_and, e2, if_true, ← hn]
  · cases p with
    | nil => cases hp
    | cons c p =>
      cases hp
      rw [cutByte_append e4, cutByte_sep, List.append_nil]
      simp only [e5, ne_eq, not_true_eq_false, decide_false, Bool.false_and, Bool.false_eq_true, if_false, hu, not_false_eq_true, decide_true,
        Bool.true_or, Bool.true_and, e2, if_true, ← hn]

/-- **C86**: the command `fetch` asks for exactly the URL it is given: a URL of this form is accepted, and its text is the same. -/
theorem C86_url (s scheme host path : Bytes) (query : Option Bytes) (h : WebURL s scheme host path query) :
    ∃ u, urlParse s = some u ∧ u.text = s ∧ u.scheme = scheme ∧ u.host = host ∧ u.user = none ∧ Unescaped path u.path ∧ u.rawQuery = query.getD [] ∧
      u.fragment = [] := by
  obtain ⟨hs, h1, h2, h3, h4, ⟨d, hd⟩, h6⟩ := h
  obtain ⟨g1, g2, g3⟩ := hostPort_facts h2
  have sne : scheme ≠ [] := by rcases h1 with rfl | rfl <;> decide
  have es : s = scheme ++ 0x3a :: (asciiBytes (S "//") ++ host ++ path ++ query.elim [] fun q => 0x3f :: q) := by
    rw [hs]; simp [asciiBytes, S]
  have slit : ∀ c ∈ scheme, c ≠ 0x23 ∧ ¬ CtlOctet c := by
    unfold CtlOctet
    rcases h1 with rfl | rfl <;> decide
  have mem : ∀ c ∈ s, c ≠ 0x23 ∧ ¬ CtlOctet c := by
    rw [hs]
    intro c hc
    simp only [List.mem_append] at hc
    rcases hc with (((hc | hc) | hc) | hc) | hc
    · exact slit c hc
    · clear hs es
      revert c
      unfold CtlOctet
      decide
    · exact ⟨(g3 c hc).1, (g3 c hc).2.2.2.2.2.2.2.1⟩
    · exact ⟨(pathOctet_facts c (h4 c hc)).1, (pathOctet_facts c (h4 c hc)).2.2.1⟩
    · cases query with
      | none => cases hc
      | some q =>
        rcases List.mem_cons.1 hc with rfl | hc
        · unfold CtlOctet; decide
        · exact ⟨(h6 q rfl c hc).2, (h6 q rfl c hc).1⟩
  have nctl : hasCTL s = false := by
    cases e : hasCTL s with
    | false => rfl
    | true =>
      obtain ⟨c, hc, hx⟩ := (hasCTL_iff s).1 e
      exact absurd hx (mem c hc).2
  have gs : getScheme s 0 s = some (scheme, asciiBytes (S "//") ++ host ++ path ++ query.elim [] fun q => 0x3f :: q) := by
    rw [es]
    rcases h1 with rfl | rfl <;> rfl
  have nq : 0x3f ∉ asciiBytes (S "//") ++ host ++ path := by
    intro hm
    simp only [List.mem_append] at hm
    rcases hm with (hm | hm) | hm
    · revert hm; decide
    · exact (g3 _ hm).2.1 rfl
    · exact (pathOctet_facts _ (h4 _ hm)).2.1 rfl
  have low : scheme.map lowerByte = scheme := by rcases h1 with rfl | rfl <;> decide
  have star : s ≠ [0x2a] := by
    rw [es]
    rcases h1 with rfl | rfl <;> exact fun e => (by cases e)
  have k : urlParse s = (withQuery { scheme := scheme, host := host } query).setPath path := by
    unfold urlParse
    rw [cutByte_none fun hm => (mem _ hm).1 rfl]
    simp only
    unfold urlParse1
    rw [nctl, if_neg (by simp), if_neg star, gs]
    simp only [low]
    rw [cutByte_join nq query]
    cases query with
    | none => exact parseRest_web h2 _ sne rfl path h3
    | some q =>
      cases q with
      | nil => exact parseRest_web h2 _ sne rfl path h3
      | cons x q => exact parseRest_web h2 _ sne rfl path h3
  obtain ⟨w1, w2, w3, w4, w5, w6, w7⟩ := withQuery_fields ({ scheme := scheme, host := host } : GoURL) query rfl rfl
  have dne : d ≠ [0x2a] := by
    rintro rfl
    rcases h3 with rfl | h3
    · cases hd
    · cases path with
      | nil => cases h3
      | cons c p =>
        cases h3
        obtain ⟨d', e, -⟩ := unescaped_cons (by decide) hd
        cases e
  unfold GoURL.setPath at k
  rw [(unescape_iff (Or.inl rfl) _ _).2 hd] at k
  refine ⟨_, k, ?_, w1, w4, w3, hd, w6, w5⟩
  have pr := part_raw hd (fun c hc => (pathOctet_facts c (h4 c hc)).2.2.2) dne
  generalize withQuery ({ scheme := scheme, host := host } : GoURL) query = u at w1 w2 w3 w4 w5 w6 w7
  simp only at w1 w2 w3 w4 w5
  have ef : ({ u with path := d, rawPath := if urlEscape .path d = path then [] else path } : GoURL).front =
      scheme ++ [0x3a] ++ (asciiBytes (S "//") ++ host) := by
    unfold GoURL.front
    simp only [w1, w3, w4]
    rw [if_pos sne, if_pos (by simp [g1]), if_pos (by simp [g1]), escape_host fun c hc => (g3 c hc).2.2.2.2.2.2.2.2]
    simp
  unfold GoURL.text
  rw [ef]
  simp only [w2, w4, w5, pr]
  rw [if_neg (by simp), if_neg (by
    rcases h3 with rfl | h3
    · simp
    · simp [h3]), if_neg (by simp), if_neg (show ¬ (([] : Bytes) ≠ []) by simp), hs]
  have eq : (if u.forceQuery || u.rawQuery ≠ [] then 0x3f :: u.rawQuery else []) = query.elim [] fun q => 0x3f :: q := by
    rw [w6]
    cases query with
    | none =>
      have e2 : u.forceQuery = false := by
        cases e : u.forceQuery with
        | false => rfl
        | true => exact absurd (w7.1 e) (by simp)
      rw [e2]; rfl
    | some q =>
      cases q with
      | nil => rw [w7.2 rfl]; rfl
      | cons x q => simp
  rw [eq]
  simp [asciiBytes, S]

theorem C86_example : ∃ u, urlParse (asciiBytes "https://keys.example.net:8443/a%2Fb/k.asc?x=%zz y".toList) = some u ∧
    u.text = asciiBytes "https://keys.example.net:8443/a%2Fb/k.asc?x=%zz y".toList := by
  obtain ⟨u, h1, h2, -⟩ := C86_url _ (asciiBytes "https".toList) (asciiBytes "keys.example.net:8443".toList) (asciiBytes "/a%2Fb/k.asc".toList)
    (some (asciiBytes "x=%zz y".toList)) ⟨rfl, .inr rfl, ⟨asciiBytes "keys.example.net".toList, asciiBytes ":8443".toList, rfl, by decide,
      by decide +kernel, .inr ⟨asciiBytes "8443".toList, rfl, by decide⟩⟩, .inr rfl, by unfold pathOctet; decide +kernel,
      ⟨asciiBytes "/a/b/k.asc".toList, (unescape_iff (Or.inl rfl) _ _).1 (by decide +kernel)⟩, by
        intro q hq
        cases hq
        unfold CtlOctet
        decide⟩
  exact ⟨u, h1, h2⟩

end Gpgpdump
