import Verif.Github
import Verif.ThmHkp

/-!
# C44: keys from GitHub
-/

namespace Gpgpdump
open Spec

namespace Spec.GH

/-- lower case of ASCII letters -/
def asciiLower (c : Char) : Char := if 65 ≤ c.toNat ∧ c.toNat ≤ 90 then Char.ofNat (c.toNat + 32) else c

/-- equal up to the case of ASCII letters -/
def SameLetters (a b : Str) : Prop := a.map asciiLower = b.map asciiLower

def IsHex (c : Char) : Prop := (48 ≤ c.toNat ∧ c.toNat ≤ 57) ∨ (65 ≤ c.toNat ∧ c.toNat ≤ 70) ∨ (97 ≤ c.toNat ∧ c.toNat ≤ 102)

/-- what package unicode says about hexadecimal digits and the letter x: they have the ASCII lower case, and only the other case of
the same digit folds to a digit -/
structure Tables (U : Unicode) : Prop where
  lower : ∀ c, IsHex c ∨ c = 'x' ∨ c = 'X' → U.lower c = asciiLower c
  fold : ∀ c d, IsHex c → (U.fold d = U.fold c ↔ asciiLower d = asciiLower c)

/-- a key ID: hexadecimal digits, perhaps with `0x` in front -/
inductive KeyID : Str → Str → Prop
  | plain {ds} (h : ∀ c ∈ ds, IsHex c) : KeyID ds ds
  | prefixed {ds x} (hx : x = 'x' ∨ x = 'X') (h : ∀ c ∈ ds, IsHex c) : KeyID ('0' :: x :: ds) ds

/-- what package unicode says about the prefix: only `0` has the lower case `0`, only `x` and `X` have the lower case `x` -/
structure PrefixTables (U : Unicode) : Prop where
  zero : ∀ c, U.lower c = '0' ↔ c = '0'
  ex : ∀ c, U.lower c = 'x' ↔ c = 'x' ∨ c = 'X'

/-- without `0x` or `0X` in front -/
def strip : Str → Str
  | '0' :: 'x' :: r => r
  | '0' :: 'X' :: r => r
  | s => s

/-- `k` is a key with another ID -/
def Other (U : Unicode) (id : Str) (k : Option GHKey) : Prop := ∃ x, k = some x ∧ sameKeyID U x.keyID id = false

/-- a page that sends the search to the next one: at least 100 keys, all of them others -/
def Full (U : Unicode) (id : Str) (p : GHPage) : Prop := ∃ ks, p = .ok ks ∧ 100 ≤ ks.length ∧ ∀ k ∈ ks, Other U id k

/-- the pages before page `n` are full -/
def Before (U : Unicode) (srv : GHServer) (id : Str) (n : Nat) : Prop := ∀ i, 1 ≤ i → i < n → Full U id (srv.page i)

/-- pages 1 to n, in order -/
def pages (n : Nat) : List GHReq := (List.range' 1 n).map GHReq.page

end Spec.GH

open Spec.GH

theorem asciiLower_eq_self {c} (h : IsHex c) : IsHex (asciiLower c) := by
  unfold asciiLower
  split
  · rename_i hc
    have : c.toNat < 128 := by omega
    have hv : (Char.ofNat (c.toNat + 32)).toNat = c.toNat + 32 := by
      have : ∀ n < 128, (Char.ofNat n).toNat = n := by decide
      exact this _ (by omega)
    unfold IsHex at *
    rw [hv]
    omega
  · exact h

theorem asciiLower_idem (c : Char) : asciiLower (asciiLower c) = asciiLower c := by
  by_cases hc : 65 ≤ c.toNat ∧ c.toNat ≤ 90
  · have e : asciiLower c = Char.ofNat (c.toNat + 32) := by unfold asciiLower; rw [if_pos hc]
    have hv : (Char.ofNat (c.toNat + 32)).toNat = c.toNat + 32 := by
      have : ∀ n < 128, (Char.ofNat n).toNat = n := by decide
      exact this _ (by omega)
    rw [e]
    show (if _ then _ else _) = _
    rw [if_neg (by omega)]
  · have e : asciiLower c = c := by unfold asciiLower; rw [if_neg hc]
    rw [e, e]

theorem fold_lists {U : Unicode} (hU : Tables U) : ∀ (kid ds : Str), (∀ c ∈ ds, IsHex c) →
    (kid.map U.fold = (ds.map asciiLower).map U.fold ↔ SameLetters kid ds)
  | [], [], _ => by simp [SameLetters]
  | [], c :: ds, _ => by simp [SameLetters]
  | d :: kid, [], _ => by simp [SameLetters]
  | d :: kid, c :: ds, h => by
    have ih := fold_lists hU kid ds (fun c hc => h c (by simp [hc]))
    unfold SameLetters at *
    simp only [List.map_cons, List.cons.injEq]
    rw [ih, hU.fold (asciiLower c) d (asciiLower_eq_self (h c (by simp))), asciiLower_idem]

/-- **C44**: which keys count as the requested one: those whose ID has the same digits up to letter case, whether or not the requested
ID has `0x` in front. -/
theorem C44_same_key {U : Unicode} (hU : Tables U) (kid id ds : Str) (h : KeyID id ds) :
    sameKeyID U kid id = true ↔ SameLetters kid ds := by
  unfold sameKeyID
  rw [beq_iff_eq]
  cases h with
  | plain h =>
    have e : id.map U.lower = id.map asciiLower := List.map_congr_left (fun c hc => hU.lower c (.inl (h c hc)))
    have ht : trim0x (id.map asciiLower) = id.map asciiLower := by
      unfold trim0x
      split
      · rename_i r hr
        exfalso
        cases id with
        | nil => simp at hr
        | cons a id =>
          cases id with
          | nil => simp at hr
          | cons b id =>
            simp only [List.map_cons, List.cons.injEq] at hr
            have hb := asciiLower_eq_self (h b (by simp))
            rw [hr.2.1] at hb
            revert hb
            unfold IsHex
            decide
      · rfl
    rw [e, ht]
    exact fold_lists hU kid id h
  | @prefixed _ x hx h =>
    have e : ds.map U.lower = ds.map asciiLower := List.map_congr_left (fun c hc => hU.lower c (.inl (h c hc)))
    have e0 : U.lower '0' = '0' := by rw [hU.lower '0' (.inl (by unfold IsHex; decide))]; rfl
    have ex : U.lower x = 'x' := by
      rw [hU.lower x (.inr hx)]
      rcases hx with rfl | rfl <;> rfl
    rw [List.map_cons, List.map_cons, e0, ex, e]
    show _ = List.map U.fold (ds.map asciiLower) ↔ _
    exact fold_lists hU kid ds h

/-- **C44**: the same for any requested string: equal code point by code point up to folding, after removing the prefix; as long as the
lower case of the code points of the requested string folds like them. (U+0130 is one that does not: its lower case is `i`, and it
folds only to itself, so a key whose ID has a U+0130 would not be found; see `C44_dotted`.) -/
theorem C44_same_key_any_partial {U : Unicode} (hU : PrefixTables U) (kid id : Str) (h : ∀ c ∈ id, U.fold (U.lower c) = U.fold c) :
    sameKeyID U kid id = true ↔ kid.map U.fold = (strip id).map U.fold := by
  have key : (trim0x (id.map U.lower)).map U.fold = (strip id).map U.fold := by
    have hm : ∀ l : Str, (∀ c ∈ l, U.fold (U.lower c) = U.fold c) → (l.map U.lower).map U.fold = l.map U.fold := by
      intro l hl
      rw [List.map_map]
      exact List.map_congr_left hl
    unfold strip
    split
    · rename_i r
      rw [List.map_cons, List.map_cons, (hU.zero _).2 rfl, (hU.ex _).2 (.inl rfl)]
      exact hm r (fun c hc => h c (by simp [hc]))
    · rename_i r
      rw [List.map_cons, List.map_cons, (hU.zero _).2 rfl, (hU.ex _).2 (.inr rfl)]
      exact hm r (fun c hc => h c (by simp [hc]))
    · rename_i h1 h2
      have : trim0x (id.map U.lower) = id.map U.lower := by
        unfold trim0x
        split
        · rename_i r hr
          exfalso
          cases id with
          | nil => simp at hr
          | cons a id =>
            cases id with
            | nil => simp at hr
            | cons b id =>
              simp only [List.map_cons, List.cons.injEq] at hr
              have ha := (hU.zero a).1 hr.1
              rcases (hU.ex b).1 hr.2.1 with hb | hb
              · exact h1 id (by rw [ha, hb])
              · exact h2 id (by rw [ha, hb])
        · rfl
      rw [this]
      exact hm id h
  unfold sameKeyID
  rw [beq_iff_eq, key]

/-- tables that agree with package unicode on ASCII and on U+0130 -/
def dottedTables : Unicode := ⟨fun c => if c.toNat = 0x130 then 'i' else asciiLower c, asciiLower⟩

/-- C44, violated for a string that is no key ID: the request does not match a key with exactly this ID. -/
theorem C44_dotted : sameKeyID dottedTables [Char.ofNat 0x130] [Char.ofNat 0x130] = false := by decide +kernel

theorem findKey_others {U : Unicode} {id : Str} : ∀ {pre : List (Option GHKey)} (_ : ∀ k ∈ pre, Other U id k) (r : List (Option GHKey)),
    findKey U id (pre ++ r) = findKey U id r
  | [], _, _ => rfl
  | k :: pre, h, r => by
    obtain ⟨x, rfl, hx⟩ := h k (by simp)
    rw [List.cons_append, findKey, if_neg (by simp [hx])]
    exact findKey_others (fun k hk => h k (by simp [hk])) r

theorem findKey_none {U : Unicode} {id : Str} {ks : List (Option GHKey)} (h : ∀ k ∈ ks, Other U id k) : findKey U id ks = none := by
  have := findKey_others h []
  rwa [List.append_nil] at this

/-- the rounds before page `n` -/
theorem getKeyLoop_before {U : Unicode} {srv : GHServer} {id : Str} : ∀ (m i fuel : Nat),
    (∀ j, i ≤ j → j < i + m → Full U id (srv.page j)) →
    getKeyLoop U srv id (m + fuel) i =
      ((getKeyLoop U srv id fuel (i + m)).1, (List.range' i m).map GHReq.page ++ (getKeyLoop U srv id fuel (i + m)).2)
  | 0, i, fuel, _ => by simp
  | m + 1, i, fuel, h => by
    obtain ⟨ks, hp, hl, ho⟩ := h i (Nat.le_refl _) (by omega)
    have ih := getKeyLoop_before m (i + 1) fuel (fun j h1 h2 => h j (by omega) (by omega))
    rw [show m + 1 + fuel = (m + fuel) + 1 by omega, getKeyLoop]
    simp only [hp, findKey_none ho]
    rw [if_neg (by omega), ih, show i + 1 + m = i + (m + 1) by omega, List.range'_succ]
    rfl

theorem getKey_at {U : Unicode} {srv : GHServer} {id : Str} (hid : id ≠ []) {n : Nat} (hn : 1 ≤ n) (hb : Before U srv id n) (fuel : Nat)
    (hf : n ≤ fuel) {r : GHRes}
    (hr : ∀ f, getKeyLoop U srv id (f + 1) n = (r, [GHReq.page n])) : getKey U srv id fuel = (r, pages n) := by
  unfold getKey
  rw [if_neg (fun h => hid (List.length_eq_zero_iff.1 h))]
  have h := getKeyLoop_before (n - 1) 1 (fuel - (n - 1)) (fun j h1 h2 => hb j h1 (by omega))
  rw [show n - 1 + (fuel - (n - 1)) = fuel by omega, show 1 + (n - 1) = n by omega,
    show fuel - (n - 1) = (fuel - n) + 1 by omega, hr] at h
  rw [h]
  unfold pages
  rw [show n = (n - 1) + 1 by omega, List.range'_concat, List.map_append]
  simp only [Nat.one_mul, List.map_cons, List.map_nil, Nat.add_sub_cancel]
  rw [show 1 + (n - 1) = n by omega, show n - 1 + 1 = n by omega]

/-- **C44**: found. The pages are asked for in order, up to the first one with the key; its text is the result. (All rounds of the
model beyond the n-th are not used.) -/
theorem C44_found (U : Unicode) (srv : GHServer) (id : Str) (hid : id ≠ []) (n : Nat) (hn : 1 ≤ n) (hb : Before U srv id n)
    (pre post : List (Option GHKey)) (k : GHKey) (t : Bytes) (hp : srv.page n = .ok (pre ++ some k :: post))
    (ho : ∀ x ∈ pre, Other U id x) (hk : sameKeyID U k.keyID id = true) (ht : k.rawKey = some t) (fuel : Nat) (hf : n ≤ fuel) :
    getKey U srv id fuel = (.ok t, pages n) := by
  refine getKey_at hid hn hb fuel hf (fun f => ?_)
  rw [getKeyLoop]
  simp only [hp]
  rw [findKey_others ho, findKey, if_pos hk]
  simp only [ht]

/-- **C44**: a page with fewer than 100 keys and without the key ends the search: `ErrNoKey`. -/
theorem C44_no_key (U : Unicode) (srv : GHServer) (id : Str) (hid : id ≠ []) (n : Nat) (hn : 1 ≤ n) (hb : Before U srv id n)
    (ks : List (Option GHKey)) (hp : srv.page n = .ok ks) (hl : ks.length < 100) (ho : ∀ x ∈ ks, Other U id x) (fuel : Nat) (hf : n ≤ fuel) :
    getKey U srv id fuel = (.err .noKey, pages n) := by
  refine getKey_at hid hn hb fuel hf (fun f => ?_)
  rw [getKeyLoop]
  simp only [hp, findKey_none ho]
  rw [if_pos hl]

/-- **C44**: an error on a page is returned. -/
theorem C44_page_error (U : Unicode) (srv : GHServer) (id : Str) (hid : id ≠ []) (n : Nat) (hn : 1 ≤ n) (hb : Before U srv id n)
    (e : GHErr) (hp : srv.page n = .error e) (fuel : Nat) (hf : n ≤ fuel) : getKey U srv id fuel = (.err e, pages n) := by
  refine getKey_at hid hn hb fuel hf (fun f => ?_)
  rw [getKeyLoop]
  simp only [hp]

/-- C44, not in the claim: a key without text gives `ErrNoKey`, even if a later key has the same ID and a text. -/
theorem C44_no_text (U : Unicode) (srv : GHServer) (id : Str) (hid : id ≠ []) (n : Nat) (hn : 1 ≤ n) (hb : Before U srv id n)
    (pre post : List (Option GHKey)) (k : GHKey) (hp : srv.page n = .ok (pre ++ some k :: post))
    (ho : ∀ x ∈ pre, Other U id x) (hk : sameKeyID U k.keyID id = true) (ht : k.rawKey = none) (fuel : Nat) (hf : n ≤ fuel) :
    getKey U srv id fuel = (.err .noKey, pages n) := by
  refine getKey_at hid hn hb fuel hf (fun f => ?_)
  rw [getKeyLoop]
  simp only [hp]
  rw [findKey_others ho, findKey, if_pos hk]
  simp only [ht]

/-- C44, violated by servers that send `null` in the list: a panic. -/
theorem C44_null_panics (U : Unicode) (srv : GHServer) (id : Str) (hid : id ≠ []) (n : Nat) (hn : 1 ≤ n) (hb : Before U srv id n)
    (pre post : List (Option GHKey)) (hp : srv.page n = .ok (pre ++ none :: post)) (ho : ∀ x ∈ pre, Other U id x)
    (fuel : Nat) (hf : n ≤ fuel) : getKey U srv id fuel = (.panic, pages n) := by
  refine getKey_at hid hn hb fuel hf (fun f => ?_)
  rw [getKeyLoop]
  simp only [hp]
  rw [findKey_others ho, findKey]

/-- C44: as long as every page is full and has only other keys, the search goes on; there is no other end. -/
theorem C44_endless (U : Unicode) (srv : GHServer) (id : Str) (hid : id ≠ []) (hb : ∀ i, 1 ≤ i → Full U id (srv.page i)) (fuel : Nat) :
    getKey U srv id fuel = (.running, pages fuel) := by
  unfold getKey
  rw [if_neg (fun h => hid (List.length_eq_zero_iff.1 h))]
  have h := getKeyLoop_before fuel 1 0 (fun j h1 _ => hb j h1)
  rw [Nat.add_zero] at h
  rw [h, getKeyLoop]
  simp only [List.append_nil]
  rfl

/-- C44: the cases above are all there is. -/
theorem C44_cases (U : Unicode) (srv : GHServer) (id : Str) :
    (∀ i, 1 ≤ i → Full U id (srv.page i)) ∨
    ∃ n, 1 ≤ n ∧ Before U srv id n ∧
      ((∃ e, srv.page n = .error e) ∨ ∃ ks, srv.page n = .ok ks ∧
        ((ks.length < 100 ∧ ∀ x ∈ ks, Other U id x) ∨
         ∃ pre x post, ks = pre ++ x :: post ∧ (∀ y ∈ pre, Other U id y) ∧
           (x = none ∨ ∃ k, x = some k ∧ sameKeyID U k.keyID id = true))) := by
  by_cases h : ∀ i, 1 ≤ i → Full U id (srv.page i)
  · exact .inl h
  right
  have hex : ∃ n, 1 ≤ n ∧ ¬ Full U id (srv.page n) := by
    apply Classical.byContradiction
    intro hn
    exact h (fun i hi => Classical.byContradiction (fun hf => hn ⟨i, hi, hf⟩))
  have hmin : ∃ n, (1 ≤ n ∧ ¬ Full U id (srv.page n)) ∧ Before U srv id n := by
    obtain ⟨n, hn⟩ := hex
    induction n using Nat.strongRecOn with
    | ind n ih =>
      by_cases hb : Before U srv id n
      · exact ⟨n, hn, hb⟩
      · have : ∃ i, 1 ≤ i ∧ i < n ∧ ¬ Full U id (srv.page i) := by
          apply Classical.byContradiction
          intro hx
          exact hb (fun i h1 h2 => Classical.byContradiction (fun hf => hx ⟨i, h1, h2, hf⟩))
        obtain ⟨i, h1, h2, h3⟩ := this
        exact ih i h2 ⟨h1, h3⟩
  obtain ⟨n, ⟨hn, hnf⟩, hb⟩ := hmin
  refine ⟨n, hn, hb, ?_⟩
  cases hp : srv.page n with
  | error e => exact .inl ⟨e, rfl⟩
  | ok ks =>
    right
    refine ⟨ks, rfl, ?_⟩
    have split : ∀ l : List (Option GHKey), (∀ x ∈ l, Other U id x) ∨ ∃ pre x post, l = pre ++ x :: post ∧ (∀ y ∈ pre, Other U id y) ∧
        (x = none ∨ ∃ k, x = some k ∧ sameKeyID U k.keyID id = true) := by
      intro l
      induction l with
      | nil => exact .inl (by simp)
      | cons x l ih =>
        cases x with
        | none => exact .inr ⟨[], none, l, rfl, by simp, .inl rfl⟩
        | some k =>
          cases hk : sameKeyID U k.keyID id with
          | true => exact .inr ⟨[], some k, l, rfl, by simp, .inr ⟨k, rfl, hk⟩⟩
          | false =>
            rcases ih with ih | ⟨pre, x, post, rfl, h1, h2⟩
            · refine .inl (fun x hx => ?_)
              rcases List.mem_cons.1 hx with rfl | hx
              · exact ⟨k, rfl, hk⟩
              · exact ih x hx
            · refine .inr ⟨some k :: pre, x, post, rfl, fun y hy => ?_, h2⟩
              rcases List.mem_cons.1 hy with rfl | hy
              · exact ⟨k, rfl, hk⟩
              · exact h1 y hy
    rcases split ks with ho | hx
    · left
      refine ⟨?_, ho⟩
      apply Classical.byContradiction
      intro hl
      exact hnf ⟨ks, hp, by omega, ho⟩
    · exact .inr hx

theorem page_query (username : Str) (n : Nat) (hn : 1 ≤ n) :
    (apiURL username n).rawQuery = encodePairs [(asciiBytes "page".toList, asciiBytes (dec n)), (asciiBytes "per_page".toList, asciiBytes "100".toList)] := by
  have e : (apiURL username n).rawQuery = encodePairs [(asciiBytes (S "page"), asciiBytes (decInt (if n < 1 then (1 : Int) else (n : Int)))),
      (asciiBytes (S "per_page"), asciiBytes (S "100"))] := rfl
  rw [e, if_neg (by omega)]
  have : decInt (n : Int) = dec n := by
    unfold decInt
    rw [if_neg (by omega)]
    rfl
  rw [this]
  rfl

/-- **C44**: the URL of page `n` for a user name of letters, digits and hyphens: the user is in the path, and the query decodes to the
page number and the page size. -/
theorem C44_page_url (username : Str) (hu : ∀ c ∈ username, c.isAlphanum = true ∨ c = '-') (n : Nat) (hn : 1 ≤ n) :
    ∃ q, uri (apiURL username n).text =
        some ⟨"https".toList, "api.github.com".toList, "/users/".toList ++ username ++ "/gpg_keys".toList, some q, none⟩ ∧
      formPairs q = some [(asciiBytes "page".toList, asciiBytes (dec n)), (asciiBytes "per_page".toList, asciiBytes "100".toList)] := by
  refine ⟨(apiURL username n).rawQuery, ?_, by rw [page_query username n hn]; exact formPairs_encode _ (by simp)⟩
  have e0 : encodePairs [(asciiBytes "page".toList, asciiBytes (dec n)), (asciiBytes "per_page".toList, asciiBytes "100".toList)] =
      queryEscape (asciiBytes (S "page")) ++ ['='] ++ queryEscape (asciiBytes (dec n)) ++ ['&'] ++ S "per_page=100" := rfl
  have hq : ∀ c ∈ (apiURL username n).rawQuery, (!['#'].contains c) = true := by
    intro c hc
    rw [page_query username n hn, e0] at hc
    simp only [List.mem_append] at hc
    rcases hc with (((hc | hc) | hc) | hc) | hc
    · have := (query_chars _ c hc).2.2
      simpa using this
    · revert c; decide
    · have := (query_chars _ c hc).2.2
      simpa using this
    · revert c; decide
    · revert c; decide
  have hne : (apiURL username n).rawQuery ≠ [] := by
    rw [page_query username n hn, e0]; simp
  unfold URL.text
  rw [if_neg hne]
  generalize (apiURL username n).rawQuery = q at hq
  have hp : ∀ c ∈ '/' :: ("users/".toList ++ username ++ "/gpg_keys".toList), (!['?', '#'].contains c) = true := by
    intro c hc
    rw [List.mem_cons, List.mem_append, List.mem_append] at hc
    rcases hc with rfl | (hc | hc) | hc
    · decide
    · revert c; decide
    · rcases hu c hc with h | rfl
      · have h1 : c ≠ '?' := by rintro rfl; revert h; decide
        have h2 : c ≠ '#' := by rintro rfl; revert h; decide
        simp [h1, h2]
      · decide
    · revert c; decide
  have e : (apiURL username n).scheme ++ S "://" ++ hostEscape (apiURL username n).host ++ (apiURL username n).path ++ (['?'] ++ q) =
      "https".toList ++ ':' :: ('/' :: '/' :: ("api.github.com".toList ++ '/' :: ("users/".toList ++ username ++ "/gpg_keys".toList ++ '?' :: q))) := by
    have eh : hostEscape (apiURL username n).host = "api.github.com".toList := by
      show hostEscape (asciiBytes (S "api.github.com")) = _
      decide +kernel
    rw [eh]
    simp [S, apiURL]
  rw [e]
  unfold uri untilAny
  have s1 := Prod.mk.inj (span_stop (p := fun c => ![':', '/', '?', '#'].contains c) (a := "https".toList) (by decide) (d := ':') (by decide)
    ('/' :: '/' :: ("api.github.com".toList ++ '/' :: ("users/".toList ++ username ++ "/gpg_keys".toList ++ '?' :: q))))
  have s2 := Prod.mk.inj (span_stop (p := fun c => !['/', '?', '#'].contains c) (a := "api.github.com".toList) (by decide)
    (d := '/') (by decide) ("users/".toList ++ username ++ "/gpg_keys".toList ++ '?' :: q))
  have s3 := Prod.mk.inj (span_stop hp (d := '?') (by decide) q)
  have s4 := Prod.mk.inj (span_all hq)
  rw [List.cons_append] at s3
  simp only [s1.1, s1.2, s2.1, s2.2, s3.1, s3.2, s4.1, s4.2]
  rfl

/-- the ASCII part of the tables satisfies `Tables` -/
theorem C44_tables : Tables ⟨asciiLower, asciiLower⟩ := ⟨fun _ _ => rfl, fun _ _ _ => Iff.rfl⟩

theorem C44_prefix_tables : PrefixTables ⟨asciiLower, asciiLower⟩ := by
  have hv : ∀ n < 128, (Char.ofNat n).toNat = n := by decide
  have key : ∀ (c t : Char), t.toNat < 128 → (asciiLower c = t → c = t ∨ (65 ≤ c.toNat ∧ c.toNat ≤ 90 ∧ c.toNat + 32 = t.toNat)) := by
    intro c t _ h
    unfold asciiLower at h
    split at h
    · rename_i hc
      right
      have := hv (c.toNat + 32) (by omega)
      rw [h] at this
      omega
    · exact .inl h
  constructor
  · intro c
    constructor
    · intro h
      rcases key c '0' (by decide) h with h | ⟨h1, h2, h3⟩
      · exact h
      · exfalso
        have : '0'.toNat = 48 := by decide
        omega
    · rintro rfl; rfl
  · intro c
    constructor
    · intro h
      rcases key c 'x' (by decide) h with h | ⟨h1, h2, h3⟩
      · exact .inl h
      · right
        have e : 'x'.toNat = 120 := by decide
        have : c.toNat = 88 := by omega
        have hc := Char.ofNat_toNat c
        rw [this] at hc
        exact hc.symm
    · rintro (rfl | rfl) <;> rfl

/-- A server with a full first page; the key is on the second one, in lower case. -/
theorem C44_example :
    let other : Option GHKey := some ⟨S "0000000000000000", some [0]⟩
    let srv : GHServer := ⟨.error .noKey, fun n => if n = 1 then .ok (List.replicate 100 other) else .ok [other, some ⟨S "3b460ba9a59048c9", some [65]⟩]⟩
    getKey ⟨asciiLower, asciiLower⟩ srv (S "0x3B460BA9A59048C9") 5 = (.ok [65], [.page 1, .page 2]) := by
  decide +kernel

end Gpgpdump
