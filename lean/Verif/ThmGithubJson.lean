import Verif.GithubDecode
import Verif.ThmGithub

/-!
# C81: which bodies of the GitHub API are accepted, and which keys they give
-/

namespace Gpgpdump
open Spec
namespace GJ
open Spec.GJ

/-! ## the last member with a name -/

open Classical in
/-- the same as `Last`, as a function -/
noncomputable def lastOf (name : String) (p : JVal → Prop) (l : List (Bytes × JVal)) : Option JVal :=
  ((l.filter fun m => decide (HasName name m ∧ p m.2)).getLast?).map (·.2)

open Classical in
theorem last_eq {name : String} {p : JVal → Prop} {l : List (Bytes × JVal)} {o : Option JVal} (h : Last name p l o) : lastOf name p l = o := by
  have hnil : ∀ post : List (Bytes × JVal), (∀ m ∈ post, HasName name m → ¬ p m.2) →
      (post.filter fun m => decide (HasName name m ∧ p m.2)) = [] := by
    intro post hp
    rw [List.filter_eq_nil_iff]
    intro m hm h
    have := of_decide_eq_true h
    exact hp m hm this.1 this.2
  unfold lastOf
  cases h with
  | some h hn hp hl =>
    subst h
    rw [List.filter_append, List.filter_cons, if_pos (decide_eq_true ⟨hn, hp⟩), hnil _ hl, List.getLast?_append]
    rfl
  | none h => rw [hnil _ h]; rfl

theorem last_cons_of_some {name p m l v} (h : Last name p l (some v)) : Last name p (m :: l) (some v) := by
  cases h with
  | some h hn hp hl => subst h; exact .some (pre := m :: _) rfl hn hp hl

theorem last_cons_hit {name p k v l} (h : Last name p l none) (hn : HasName name (k, v)) (hp : p v) : Last name p ((k, v) :: l) (some v) := by
  cases h with
  | none h => exact .some (pre := []) rfl hn hp h

theorem last_cons_miss {name p m l} (h : Last name p l none) (hm : ¬ (HasName name m ∧ p m.2)) : Last name p (m :: l) none := by
  cases h with
  | none h =>
    refine .none fun x hx hn hp => ?_
    rw [List.mem_cons] at hx
    rcases hx with rfl | hx
    · exact hm ⟨hn, hp⟩
    · exact h x hx hn hp

/-- `HasID` with the value the field has before -/
def IDFrom (l : List (Bytes × JVal)) (old id : Str) : Prop :=
  (Last "key_id" (· ≠ .null) l none ∧ id = old) ∨ ∃ raw, Last "key_id" (· ≠ .null) l (some (.str raw)) ∧ Denotes raw id

/-- `HasText` with the value the field has before -/
def TextFrom (l : List (Bytes × JVal)) (old text : Option Bytes) : Prop :=
  (Last "raw_key" (fun _ => True) l none ∧ text = old) ∨ (Last "raw_key" (fun _ => True) l (some .null) ∧ text = none) ∨
  ∃ raw s, Last "raw_key" (fun _ => True) l (some (.str raw)) ∧ Denotes raw s ∧ text = some (utf8 s)

section
variable (T : Bytes → Bool)

theorem name_of_field {key : Bytes} {v : JVal} {name : String} {t : GHType} (hk : Raw key) (h : jsField keyFields (unquote key) = some (name, t))
    {other : String} (ho : other ∈ keyFields.map (·.1)) : HasName other (key, v) ↔ name = other := by
  obtain ⟨h1, h2⟩ := (field_some key_fields).1 h
  constructor
  · intro hn
    rw [List.mem_map] at ho
    obtain ⟨f, hf, rfl⟩ := ho
    have := (field_some key_fields).2 ⟨hf, (named_iff (m := (key, v)) hk).1 hn⟩
    rw [h] at this
    simp only [Option.some.injEq] at this
    rw [← this]
  · rintro rfl
    exact (named_iff (m := (key, v)) hk).2 h2

theorem store_id {k : GHKey} {name : String} {v : JVal} (h : name ≠ "key_id") : (k.store name v).keyID = k.keyID := by
  unfold GHKey.store
  rw [if_neg h]
  split
  · cases v <;> rfl
  · rfl

theorem store_text {k : GHKey} {name : String} {v : JVal} (h : name ≠ "raw_key") : (k.store name v).rawKey = k.rawKey := by
  unfold GHKey.store
  rw [if_neg h]
  split
  · cases v <;> rfl
  · rfl

theorem store_sound : ∀ (l : List (Bytes × JVal)) (k k' : GHKey), CleanMembers l → jsStore T k l = some k' →
    IDFrom l k.keyID k'.keyID ∧ TextFrom l k.rawKey k'.rawKey := by
  intro l
  induction l with
  | nil =>
    intro k k' _ h
    rw [jsStore] at h
    simp only [Option.some.injEq] at h
    subst h
    exact ⟨.inl ⟨.none (by simp), rfl⟩, .inl ⟨.none (by simp), rfl⟩⟩
  | cons m l ih =>
    intro k k' hc h
    obtain ⟨key, v⟩ := m
    rw [CleanMembers] at hc
    obtain ⟨hk, hv, hl⟩ := hc
    rw [jsStore] at h
    cases hf : jsField keyFields (unquote key) with
    | none =>
      rw [hf] at h
      simp only at h
      obtain ⟨h1, h2⟩ := ih k k' hl h
      have miss : ∀ other ∈ keyFields.map (·.1), ¬ HasName other (key, v) := by
        intro other ho hn
        rw [List.mem_map] at ho
        obtain ⟨f, hf', rfl⟩ := ho
        rw [(field_some key_fields).2 ⟨hf', (named_iff (m := (key, v)) hk).1 hn⟩] at hf
        cases hf
      constructor
      · rcases h1 with ⟨h1, h3⟩ | ⟨raw, h1, h3⟩
        · exact .inl ⟨last_cons_miss h1 fun h => miss _ (by decide +kernel) h.1, h3⟩
        · exact .inr ⟨raw, last_cons_of_some h1, h3⟩
      · rcases h2 with ⟨h1, h3⟩ | ⟨h1, h3⟩ | ⟨raw, s, h1, h3⟩
        · exact .inl ⟨last_cons_miss h1 fun h => miss _ (by decide +kernel) h.1, h3⟩
        · exact .inr (.inl ⟨last_cons_of_some h1, h3⟩)
        · exact .inr (.inr ⟨raw, s, last_cons_of_some h1, h3⟩)
    | some g =>
      obtain ⟨name, t⟩ := g
      rw [hf] at h
      simp only at h
      have hid := name_of_field (v := v) hk hf (other := "key_id") (by decide +kernel)
      have htx := name_of_field (v := v) hk hf (other := "raw_key") (by decide +kernel)
      have htype : ∀ n t, (n, t) ∈ keyFields → (n = "key_id" → t = .string) ∧ (n = "raw_key" → t = .stringPtr) := by
        have : ∀ f ∈ keyFields, (f.1 = "key_id" → f.2 = .string) ∧ (f.1 = "raw_key" → f.2 = .stringPtr) := by decide +kernel
        exact fun n t h => this (n, t) h
      obtain ⟨ht1, ht2⟩ := htype name t ((field_some key_fields).1 hf).1
      split at h
      · rename_i hm
        have hfit := (member_iff T t v hv).1 hm
        obtain ⟨h1, h2⟩ := ih _ k' hl h
        constructor
        · rcases h1 with ⟨h1, h3⟩ | ⟨raw, h1, h3⟩
          · by_cases hn : name = "key_id"
            · have := ht1 hn
              subst this
              cases hfit with
              | null =>
                rw [GHKey.store, if_pos hn] at h3
                exact .inl ⟨last_cons_miss h1 fun h => h.2 rfl, h3⟩
              | @string x =>
                rw [Clean] at hv
                rw [GHKey.store, if_pos hn] at h3
                exact .inr ⟨x, last_cons_hit h1 (hid.2 hn) (by simp), (denotes_iff hv _).2 h3⟩
            · refine .inl ⟨last_cons_miss h1 fun h => hn (hid.1 h.1), ?_⟩
              rw [h3, store_id hn]
          · exact .inr ⟨raw, last_cons_of_some h1, h3⟩
        · rcases h2 with ⟨g1, h3⟩ | ⟨g1, h3⟩ | ⟨raw, s, g1, h3⟩
          · by_cases hn : name = "raw_key"
            · have := ht2 hn
              subst this
              cases hfit with
              | null =>
                rw [GHKey.store, if_neg (by rw [hn]; decide), if_pos hn] at h3
                exact .inr (.inl ⟨last_cons_hit g1 (htx.2 hn) trivial, h3⟩)
              | @stringPtr x =>
                rw [Clean] at hv
                rw [GHKey.store, if_neg (by rw [hn]; decide), if_pos hn] at h3
                exact .inr (.inr ⟨x, _, last_cons_hit g1 (htx.2 hn) trivial, (denotes_iff hv _).2 rfl, h3⟩)
            · refine .inl ⟨last_cons_miss g1 fun h => hn (htx.1 h.1), ?_⟩
              rw [h3, store_text hn]
          · exact .inr (.inl ⟨last_cons_of_some g1, h3⟩)
          · exact .inr (.inr ⟨raw, s, last_cons_of_some g1, h3⟩)
      · cases h

theorem denotes_unique {raw : Bytes} {s s' : Str} (h : Denotes raw s) (h' : Denotes raw s') : s = s' :=
  (denotes_unquote h _ (Nat.le_refl _)).symm.trans (denotes_unquote h' _ (Nat.le_refl _))

theorem hasID_unique {l : List (Bytes × JVal)} {a b : Str} (h : HasID l a) (h' : HasID l b) : a = b := by
  rcases h with ⟨h, rfl⟩ | ⟨r, h, hd⟩ <;> rcases h' with ⟨h', rfl⟩ | ⟨r', h', hd'⟩
  · rfl
  · exact nomatch (last_eq h).symm.trans (last_eq h')
  · exact nomatch (last_eq h).symm.trans (last_eq h')
  · have := (last_eq h).symm.trans (last_eq h')
    simp only [Option.some.injEq, JVal.str.injEq] at this
    subst this
    exact denotes_unique hd hd'

theorem hasText_unique {l : List (Bytes × JVal)} {a b : Option Bytes} (h : HasText l a) (h' : HasText l b) : a = b := by
  rcases h with ⟨h, rfl⟩ | ⟨r, s, h, hd, rfl⟩ <;> rcases h' with ⟨h', rfl⟩ | ⟨r', s', h', hd', rfl⟩
  · rfl
  · rcases h with h | h <;> exact nomatch (last_eq h).symm.trans (last_eq h')
  · rcases h' with h' | h' <;> exact nomatch (last_eq h).symm.trans (last_eq h')
  · have := (last_eq h).symm.trans (last_eq h')
    simp only [Option.some.injEq, JVal.str.injEq] at this
    subst this
    rw [denotes_unique hd hd']

theorem key_holds {v : JVal} (hv : Clean v) (k : Option GHKey) : jsKey T v = some k ↔ Holds T v k := by
  have fwd : ∀ k, jsKey T v = some k → Holds T v k := by
    intro k h
    have hok := (key_iff T v hv).1 (by rw [h]; rfl)
    cases hok with
    | null => rw [jsKey] at h; simp only [Option.some.injEq] at h; subst h; exact .null
    | @obj l hl =>
      rw [jsKey] at h
      rw [Clean] at hv
      cases hs : jsStore T ⟨[], none⟩ l with
      | none => rw [hs] at h; cases h
      | some k' =>
        rw [hs] at h
        simp only [Option.map_some, Option.some.injEq] at h
        subst h
        obtain ⟨h1, h2⟩ := store_sound T l _ k' hv hs
        refine .key (.obj hl) h1 ?_
        rcases h2 with ⟨h2, h3⟩ | ⟨h2, h3⟩ | h2
        · exact .inl ⟨.inl h2, h3⟩
        · exact .inl ⟨.inr h2, h3⟩
        · exact .inr h2
  constructor
  · exact fwd k
  · intro h
    cases h with
    | null => rw [jsKey]
    | @key l k hok hi ht =>
      have hs := (key_iff T _ hv).2 hok
      cases hj : jsKey T (.obj l) with
      | none => rw [hj] at hs; cases hs
      | some k' =>
        have := fwd k' hj
        cases this with
        | @key _ k'' _ hi' ht' =>
          obtain ⟨a, b⟩ := k
          obtain ⟨a', b'⟩ := k''
          cases hasID_unique hi hi'
          cases hasText_unique ht ht'
          rfl

theorem keys_hold : ∀ (l : List JVal) (_ : Cleans l) (ks : List (Option GHKey)), jsKeys T l = some ks ↔ List.Forall₂ (Holds T) l ks := by
  intro l
  induction l with
  | nil =>
    intro _ ks
    rw [jsKeys, List.forall₂_nil_left_iff]
    exact ⟨fun h => (Option.some.inj h).symm, fun h => congrArg some h.symm⟩
  | cons v l ih =>
    intro h ks
    rw [Cleans] at h
    rw [jsKeys, List.forall₂_cons_left_iff]
    constructor
    · intro hk
      cases hv : jsKey T v with
      | none => rw [hv] at hk; cases hk
      | some k =>
        rw [hv, Option.bind_some] at hk
        cases hl : jsKeys T l with
        | none => rw [hl] at hk; cases hk
        | some ks' =>
          rw [hl] at hk
          simp only [Option.map_some, Option.some.injEq] at hk
          exact ⟨k, ks', (key_holds T h.1 k).1 hv, (ih h.2 ks').1 hl, hk.symm⟩
    · rintro ⟨k, ks', h1, h2, rfl⟩
      rw [(key_holds T h.1 k).2 h1, Option.bind_some, (ih h.2 ks').2 h2]
      rfl

end
end GJ
open Spec.GJ

/-- **C81**: a body is accepted exactly if it begins with a JSON array of keys (or `null`), and it gives these keys. -/
theorem C81_page (T : Bytes → Bool) (body : Bytes) (ks : List (Option GHKey)) : pageKeys T body = some ks ↔ Page T body ks := by
  unfold pageKeys
  constructor
  · intro h
    split at h
    · rename_i hv
      simp only [Option.some.injEq] at h
      subst h
      obtain ⟨w, t, rest, hw, ht, rfl, -⟩ := GJ.first_sound hv
      cases ht
      exact .null hw
    · rename_i l hv
      obtain ⟨w, t, rest, hw, ht, rfl, hd⟩ := GJ.first_sound hv
      have hc := GJ.val_clean ht
      rw [GJ.Clean] at hc
      exact .keys hw ht hd ((GJ.keys_hold T l hc ks).1 h)
    · cases h
  · intro h
    cases h with
    | null hw =>
      rw [GJ.first_complete hw .null (fun x h => nomatch h) .null]
    | keys hw ht hd hk =>
      have hc := GJ.val_clean ht
      rw [GJ.Clean] at hc
      rw [GJ.first_complete hw ht (fun x h => nomatch h) hd]
      exact (GJ.keys_hold T _ hc ks).2 hk

/-- **C81**: nothing else is accepted: every other body is `ErrInvalidRequest`, and errors of the client are passed on. -/
theorem C81_answer (T : Bytes → Bool) (r : Except GHErr Bytes) :
    (∀ ks, getInPage T r = .ok ks ↔ ∃ body, r = .ok body ∧ Page T body ks) ∧
    (∀ e, getInPage T r = .error e ↔ r = .error e ∨ ∃ body, r = .ok body ∧ (∀ ks, ¬ Page T body ks) ∧ e = .request 0) := by
  cases r with
  | error e' =>
    rw [getInPage]
    refine ⟨fun ks => ⟨fun h => (nomatch h), fun ⟨_, h, _⟩ => (nomatch h)⟩, fun e => ⟨fun h => .inl (by simpa using h), ?_⟩⟩
    rintro (h | ⟨_, h, _⟩)
    · simpa using h
    · exact nomatch h
  | ok body =>
    rw [getInPage]
    cases hp : pageKeys T body with
    | none =>
      have hno : ∀ ks, ¬ Page T body ks := by
        intro ks h
        rw [(C81_page T body ks).2 h] at hp
        cases hp
      refine ⟨fun ks => ⟨fun h => (nomatch h), ?_⟩, fun e => ⟨fun h => ?_, ?_⟩⟩
      · rintro ⟨b, h, h'⟩
        cases h
        exact absurd h' (hno ks)
      · simp only [Except.error.injEq] at h
        exact .inr ⟨body, rfl, hno, h.symm⟩
      · rintro (h | ⟨b, -, -, rfl⟩)
        · exact nomatch h
        · rfl
    | some ks' =>
      have hyes := (C81_page T body ks').1 hp
      refine ⟨fun ks => ⟨fun h => ?_, ?_⟩, fun e => ⟨fun h => (nomatch h), ?_⟩⟩
      · simp only [Except.ok.injEq] at h
        exact ⟨body, rfl, h ▸ hyes⟩
      · rintro ⟨b, h, h'⟩
        cases h
        rw [(C81_page T body ks).2 h'] at hp
        simp only [Option.some.injEq] at hp
        rw [hp]
      · rintro (h | ⟨b, h, h', -⟩)
        · exact nomatch h
        · cases h
          exact absurd hyes (h' ks')

/-- **C81**: what follows the array has no effect, valid or not. -/
theorem C81_rest (T : Bytes → Bool) (w t : Bytes) (l : List JVal) (hw : Ws w) (h : Val (.arr l) t) (rest rest' : Bytes) :
    pageKeys T (w ++ t ++ rest) = pageKeys T (w ++ t ++ rest') := by
  unfold pageKeys
  rw [GJ.first_value hw h (fun x h => nomatch h), GJ.first_value hw h (fun x h => nomatch h)]

/-- **C81**: the elements of the array decide one by one, and one that is no key spoils the page. -/
theorem C81_spoiled (T : Bytes → Bool) (w t rest : Bytes) (l : List JVal) (hw : Ws w) (h : Val (.arr l) t) (v : JVal) (hv : v ∈ l)
    (hk : ¬ KeyOK T v) : getInPage T (.ok (w ++ t ++ rest)) = .error (.request 0) := by
  have hc := GJ.val_clean h
  rw [GJ.Clean] at hc
  rw [getInPage]
  have : pageKeys T (w ++ t ++ rest) = none := by
    unfold pageKeys
    rw [GJ.first_value hw h (fun x h => nomatch h)]
    split
    · rename_i heq
      split at heq <;> cases heq
    · rename_i l' heq
      split at heq
      · simp only [Option.some.injEq, JVal.arr.injEq] at heq
        subst heq
        cases hj : jsKeys T l with
        | none => rfl
        | some ks => exact absurd ((GJ.keys_iff T l hc).1 (by rw [hj]; rfl) v hv) hk
      · cases heq
    · rfl
  rw [this]

/-- **C81**: strings. For a string of characters as RFC 8259 has them, written in UTF-8, the meaning is the one of RFC 8259. -/
theorem C81_string {s t : Str} (h : Spec.Json.Chars s t) : Denotes (utf8 t) s := by
  have hx : ∀ {c n}, Spec.Json.HexDigit c n → ∃ b, utf8Char c = [b] ∧ Hex b n := by
    intro c n h
    cases h with
    | dec n h =>
      refine ⟨UInt8.ofNat (48 + n), ?_, .inl ?_⟩
      · revert n; decide
      · rw [ofNat_toNat_lt _ (by omega)]; omega
    | lower n h =>
      refine ⟨UInt8.ofNat (97 + n), ?_, .inr (.inr ?_)⟩
      · revert n; decide
      · rw [ofNat_toNat_lt _ (by omega)]; omega
    | upper n h =>
      refine ⟨UInt8.ofNat (65 + n), ?_, .inr (.inl ?_)⟩
      · revert n; decide
      · rw [ofNat_toNat_lt _ (by omega)]; omega
  have h4 : ∀ {x n}, Spec.Json.Hex4 x n → Spec.GJ.Hex4 (utf8 x) n := by
    intro x n h
    cases h with
    | mk ha hb hc hd =>
      obtain ⟨a, ha, ha'⟩ := hx ha
      obtain ⟨b, hb, hb'⟩ := hx hb
      obtain ⟨c, hc, hc'⟩ := hx hc
      obtain ⟨d, hd, hd'⟩ := hx hd
      simp only [utf8, List.flatMap_cons, List.flatMap_nil, ha, hb, hc, hd, List.cons_append, List.nil_append]
      exact .mk ha' hb' hc' hd'
  have app : ∀ a b : Str, utf8 (a ++ b) = utf8 a ++ utf8 b := fun a b => List.flatMap_append
  have bs : utf8Char '\\' = [0x5c] := by decide
  have cons : ∀ (c : Char) (r : Str), utf8 (c :: r) = utf8Char c ++ utf8 r := fun c r => List.flatMap_cons
  induction h with
  | nil => exact .nil
  | plain c h0 h1 h2 h ih => rw [cons]; exact .char h0 h1 h2 ih
  | @escape s t e c he h ih =>
    rw [cons, cons, bs]
    cases he
    · exact .escape (e := 0x22) .quote ih
    · exact .escape (e := 0x5c) .backslash ih
    · exact .escape (e := 0x2f) .slash ih
    · exact .escape (e := 0x62) .b ih
    · exact .escape (e := 0x66) .f ih
    · exact .escape (e := 0x6e) .n ih
    · exact .escape (e := 0x72) .r ih
    · exact .escape (e := 0x74) .t ih
  | @unicode s t x n hx hn h ih =>
    rw [app, cons, cons, bs]
    exact .unicode (h4 hx) (by unfold Surrogate; omega) ih
  | @pair s t x y n m hx hn hy hm h ih =>
    rw [app, app, cons, cons, cons, cons, bs]
    have := Denotes.pair (h4 hx) (.mk (n := n) ⟨hn.1, by omega⟩ (h4 hy) ⟨hm.1, by omega⟩) ih
    simpa [show utf8Char 'u' = [0x75] by decide] using this

end Gpgpdump
