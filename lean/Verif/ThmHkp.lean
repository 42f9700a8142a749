import Verif.Hkp
import Verif.SpecURL

/-!
# C46: the URL requested from a key server
-/

namespace Gpgpdump
open Spec

theorem forall_byte {p : UInt8 → Prop} (h : ∀ n : Fin 256, p (UInt8.ofNat n.val)) (b : UInt8) : p b := by
  have := h ⟨b.toNat, b.toNat_lt⟩
  simpa using this

theorem hexValue_upper (n : Nat) (h : n < 16) : hexValue (upperHex n) = some n := by
  revert n; decide

/-- an escaped octet -/
theorem percentDecode_pct (plus : Bool) (b : UInt8) (r : Str) :
    percentDecode plus (pctEscape b ++ r) = (percentDecode plus r).map (b :: ·) := by
  have h1 := hexValue_upper (b.toNat / 16) (by have := b.toNat_lt; omega)
  have h2 := hexValue_upper (b.toNat % 16) (by omega)
  show percentDecode plus ('%' :: upperHex (b.toNat / 16) :: upperHex (b.toNat % 16) :: r) = _
  rw [percentDecode, if_pos rfl]
  simp only [h1, h2]
  have : UInt8.ofNat (b.toNat / 16 * 16 + b.toNat % 16) = b := by
    rw [show b.toNat / 16 * 16 + b.toNat % 16 = b.toNat by omega]; simp
  cases percentDecode plus r with
  | none => rfl
  | some s =>
    show some (UInt8.ofNat (b.toNat / 16 * 16 + b.toNat % 16) :: s) = _
    rw [this]; rfl

/-- an octet that stands for itself -/
theorem percentDecode_char (plus : Bool) (b : UInt8) (h1 : Char.ofNat b.toNat ≠ '%') (h2 : ¬(Char.ofNat b.toNat = '+' ∧ plus = true))
    (h3 : b.toNat < 128) (r : Str) :
    percentDecode plus (Char.ofNat b.toNat :: r) = (percentDecode plus r).map (b :: ·) := by
  have hv : (Char.ofNat b.toNat).toNat = b.toNat := by
    revert h1 h2 h3
    refine forall_byte (p := fun b => Char.ofNat b.toNat ≠ '%' → _ → b.toNat < 128 → (Char.ofNat b.toNat).toNat = b.toNat) ?_ b
    intro n _ _
    revert n; decide +kernel
  rw [percentDecode.eq_def]
  simp only
  rw [if_neg h1, if_neg h2, hv, if_pos h3]
  simp

theorem alnum_facts (b : UInt8) (h : (isAlnum b || isMark b) = true) :
    Char.ofNat b.toNat ≠ '%' ∧ Char.ofNat b.toNat ≠ '+' ∧ b.toNat < 128 ∧ Char.ofNat b.toNat ≠ '&' ∧ Char.ofNat b.toNat ≠ '=' ∧
      queryChar (Char.ofNat b.toNat) = true := by
  revert h
  refine forall_byte (p := fun b => (isAlnum b || isMark b) = true → Char.ofNat b.toNat ≠ '%' ∧ Char.ofNat b.toNat ≠ '+' ∧ b.toNat < 128 ∧
    Char.ofNat b.toNat ≠ '&' ∧ Char.ofNat b.toNat ≠ '=' ∧ queryChar (Char.ofNat b.toNat) = true) ?_ b
  decide +kernel

theorem percentDecode_queryByte (b : UInt8) (r : Str) :
    percentDecode true (queryEscapeByte b ++ r) = (percentDecode true r).map (b :: ·) := by
  unfold queryEscapeByte
  by_cases h : b = 32
  · subst h
    rw [if_pos rfl]
    show percentDecode true ('+' :: r) = _
    rw [percentDecode.eq_def]
    simp only
    rw [if_neg (by decide), if_pos (by simp)]
  rw [if_neg h]
  split
  · rename_i ha
    obtain ⟨h1, h2, h3, -⟩ := alnum_facts b ha
    exact percentDecode_char true b h1 (fun h => h2 h.1) h3 r
  · exact percentDecode_pct true b r

theorem percentDecode_query (b : Bytes) : percentDecode true (queryEscape b) = some b := by
  induction b with
  | nil => rfl
  | cons x b ih =>
    rw [queryEscape, List.flatMap_cons, percentDecode_queryByte, ← queryEscape, ih]; rfl

theorem upperHex_facts (n : Nat) (h : n < 16) :
    upperHex n ≠ '&' ∧ upperHex n ≠ '=' ∧ upperHex n ≠ '#' ∧ upperHex n ≠ '/' ∧ upperHex n ≠ '?' := by
  revert n; decide

theorem queryByte_chars (b : UInt8) : ∀ c ∈ queryEscapeByte b, c ≠ '&' ∧ c ≠ '=' ∧ c ≠ '#' := by
  refine forall_byte (p := fun b => ∀ c ∈ queryEscapeByte b, c ≠ '&' ∧ c ≠ '=' ∧ c ≠ '#') ?_ b
  decide +kernel

theorem query_chars (b : Bytes) : ∀ c ∈ queryEscape b, c ≠ '&' ∧ c ≠ '=' ∧ c ≠ '#' := by
  intro c hc
  rw [queryEscape, List.mem_flatMap] at hc
  obtain ⟨x, -, hx⟩ := hc
  exact queryByte_chars x c hx

theorem isQuery_append {a b : Str} (ha : IsQuery a) (hb : IsQuery b) : IsQuery (a ++ b) := by
  induction ha with
  | nil => exact hb
  | char c h _ ih => exact .char c h ih
  | pct h1 h2 _ ih => exact .pct h1 h2 ih

theorem isQuery_byte (b : UInt8) : IsQuery (queryEscapeByte b) := by
  unfold queryEscapeByte
  split
  · exact .char '+' (by decide) .nil
  split
  · rename_i ha
    exact .char _ (alnum_facts b ha).2.2.2.2.2 .nil
  · refine .pct ?_ ?_ .nil
    · rw [hexValue_upper _ (by have := b.toNat_lt; omega)]; rfl
    · rw [hexValue_upper _ (by omega)]; rfl

theorem isQuery_escape (b : Bytes) : IsQuery (queryEscape b) := by
  induction b with
  | nil => exact .nil
  | cons x b ih => rw [queryEscape, List.flatMap_cons]; exact isQuery_append (isQuery_byte x) ih

theorem splitAt_none {sep : Char} : ∀ {t : Str}, (∀ c ∈ t, c ≠ sep) → Spec.splitAt sep t = [t]
  | [], _ => rfl
  | c :: t, h => by
    rw [Spec.splitAt, if_neg (h c (by simp)), splitAt_none (fun c hc => h c (by simp [hc]))]

theorem splitAt_sep {sep : Char} : ∀ {t : Str} (_ : ∀ c ∈ t, c ≠ sep) (r : Str), Spec.splitAt sep (t ++ sep :: r) = t :: Spec.splitAt sep r
  | [], _, r => by rw [List.nil_append, Spec.splitAt, if_pos rfl]
  | c :: t, h, r => by
    rw [List.cons_append, Spec.splitAt, if_neg (h c (by simp)), splitAt_sep (fun c hc => h c (by simp [hc]))]

theorem cutAt_sep {sep : Char} : ∀ {t : Str} (_ : ∀ c ∈ t, c ≠ sep) (r : Str), cutAt sep (t ++ sep :: r) = (t, r)
  | [], _, r => by rw [List.nil_append, cutAt, if_pos rfl]
  | c :: t, h, r => by
    rw [List.cons_append, cutAt, if_neg (h c (by simp)), cutAt_sep (fun c hc => h c (by simp [hc]))]

theorem formPair_encode (k v : Bytes) : formPair (queryEscape k ++ ['='] ++ queryEscape v) = some (k, v) := by
  unfold formPair
  rw [List.append_assoc, List.singleton_append, cutAt_sep (fun c hc => (query_chars k c hc).2.1)]
  simp only [percentDecode_query]
  rfl

theorem pair_no_amp (k v : Bytes) : ∀ c ∈ queryEscape k ++ ['='] ++ queryEscape v, c ≠ '&' := by
  intro c hc
  simp only [List.mem_append, List.mem_singleton] at hc
  rcases hc with (hc | rfl) | hc
  · exact (query_chars k c hc).1
  · decide
  · exact (query_chars v c hc).1

/-- Encoding pairs and decoding the text gives the pairs. -/
theorem formPairs_encode : ∀ (l : List (Bytes × Bytes)), l ≠ [] → formPairs (encodePairs l) = some l
  | [], h => absurd rfl h
  | [(k, v)], _ => by
    unfold formPairs
    rw [encodePairs, splitAt_none (pair_no_amp k v), List.mapM_cons, formPair_encode]
    rfl
  | (k, v) :: x :: l, _ => by
    have ih := formPairs_encode (x :: l) (by simp)
    unfold formPairs at ih ⊢
    rw [encodePairs.eq_3 _ _ _ (by simp), List.append_assoc _ ['&'], List.singleton_append, splitAt_sep (pair_no_amp k v), List.mapM_cons,
      formPair_encode, ih]
    rfl

/-! ## The host -/

theorem hostByte_facts (b : UInt8) :
    (∀ c ∈ hostEscapeByte b, c ≠ '/' ∧ c ≠ '?' ∧ c ≠ '#') := by
  refine forall_byte (p := fun b => ∀ c ∈ hostEscapeByte b, c ≠ '/' ∧ c ≠ '?' ∧ c ≠ '#') ?_ b
  decide +kernel

theorem host_chars (b : Bytes) : ∀ c ∈ hostEscape b, c ≠ '/' ∧ c ≠ '?' ∧ c ≠ '#' := by
  intro c hc
  rw [hostEscape, List.mem_flatMap] at hc
  obtain ⟨x, -, hx⟩ := hc
  exact hostByte_facts x c hx

theorem host_kept (b : UInt8) :
    (isAlnum b || isMark b || [33, 36, 38, 39, 40, 41, 42, 43, 44, 59, 61, 58, 91, 93, 60, 62, 34].contains b.toNat) = true →
      Char.ofNat b.toNat ≠ '%' ∧ b.toNat < 128 := by
  refine forall_byte (p := fun b => (isAlnum b || isMark b || [33, 36, 38, 39, 40, 41, 42, 43, 44, 59, 61, 58, 91, 93, 60, 62, 34].contains b.toNat) = true →
      Char.ofNat b.toNat ≠ '%' ∧ b.toNat < 128) ?_ b
  decide +kernel

theorem percentDecode_host (b : Bytes) : percentDecode false (hostEscape b) = some b := by
  induction b with
  | nil => rfl
  | cons x b ih =>
    rw [hostEscape, List.flatMap_cons, ← hostEscape]
    unfold hostEscapeByte
    split
    · rename_i h
      obtain ⟨h1, h2⟩ := host_kept x h
      rw [List.singleton_append, percentDecode_char false x h1 (by simp) h2, ih]; rfl
    · rw [percentDecode_pct, ih]; rfl

theorem span_stop {p : Char → Bool} : ∀ {a : Str} (_ : ∀ c ∈ a, p c = true) {d : Char} (_ : p d = false) (r : Str),
    ((a ++ d :: r).takeWhile p, (a ++ d :: r).dropWhile p) = (a, d :: r) := by
  intro a ha d hd r
  have h1 : (a ++ d :: r).takeWhile p = a := by
    rw [List.takeWhile_append_of_pos ha, List.takeWhile_cons_of_neg (by simp [hd]), List.append_nil]
  have h2 : (a ++ d :: r).dropWhile p = d :: r := by
    rw [List.dropWhile_append_of_pos ha, List.dropWhile_cons_of_neg (by simp [hd])]
  rw [h1, h2]

theorem span_all {p : Char → Bool} {a : Str} (ha : ∀ c ∈ a, p c = true) : (a.takeWhile p, a.dropWhile p) = (a, []) := by
  have h1 : a.takeWhile p = a := by
    have := List.takeWhile_append_of_pos (l₂ := []) ha
    simpa using this
  have h2 : a.dropWhile p = [] := by
    have := List.dropWhile_append_of_pos (l₂ := []) ha
    simpa using this
  rw [h1, h2]

/-! ## C46 -/

/-- the query of the request -/
def Spec.lookup (userID : Bytes) : List (Bytes × Bytes) := [(asciiBytes (S "op"), asciiBytes (S "get")), (asciiBytes (S "search"), userID)]

theorem serverFetch_some (s : Server) (uid : Bytes) : serverFetch (some s) uid =
    .ok ⟨s.prt.str, s.host ++ asciiBytes (S ":") ++ asciiBytes (decInt s.port), S "/pks/lookup", encodePairs (Spec.lookup uid)⟩ := by
  unfold serverFetch serverURL Res.map valuesEncode
  rfl

/-- **C46**: the text of the URL that is requested: its parts are the scheme of the protocol, `host:port` (escaped), the path
`/pks/lookup` and a query; the query has the syntax of RFC 3986 and decodes to exactly `op=get` and `search=<user ID>`, in this
order, whatever octets the host and the user ID contain. -/
theorem C46_url (s : Server) (uid : Bytes) :
    ∃ u authority q, serverFetch (some s) uid = .ok u ∧
      uri u.text = some ⟨s.prt.str, authority, "/pks/lookup".toList, some q, none⟩ ∧
      percentDecode false authority = some (s.host ++ asciiBytes (':' :: decInt s.port)) ∧
      IsQuery q ∧ formPairs q = some [(asciiBytes "op".toList, asciiBytes "get".toList), (asciiBytes "search".toList, uid)] := by
  refine ⟨_, hostEscape (s.host ++ asciiBytes (S ":") ++ asciiBytes (decInt s.port)), encodePairs (Spec.lookup uid),
    serverFetch_some s uid, ?_, ?_, ?_, formPairs_encode _ (by simp [Spec.lookup])⟩
  · have hq : ∀ c ∈ encodePairs (Spec.lookup uid), (!['#'].contains c) = true := by
      have e : encodePairs (Spec.lookup uid) = S "op=get&search=" ++ queryEscape uid := rfl
      intro c hc
      rw [e, List.mem_append] at hc
      rcases hc with hc | hc
      · revert c; decide
      · have := (query_chars uid c hc).2.2
        simpa using this
    have hne : encodePairs (Spec.lookup uid) ≠ [] := by
      have e : encodePairs (Spec.lookup uid) = S "op=get&search=" ++ queryEscape uid := rfl
      rw [e]; simp [S]
    generalize encodePairs (Spec.lookup uid) = q at hq hne
    generalize hh : s.host ++ asciiBytes (S ":") ++ asciiBytes (decInt s.port) = host
    have hs : ∀ c ∈ s.prt.str, (![':', '/', '?', '#'].contains c) = true := by
      unfold Protocol.str
      split
      · decide
      split <;> decide
    unfold URL.text
    simp only
    rw [if_neg hne]
    have e : s.prt.str ++ S "://" ++ hostEscape host ++ S "/pks/lookup" ++ (['?'] ++ q) =
        s.prt.str ++ ':' :: ('/' :: '/' :: (hostEscape host ++ '/' :: ("pks/lookup".toList ++ '?' :: q))) := by
      simp [S]
    rw [e]
    unfold uri untilAny
    have s1 := Prod.mk.inj (span_stop hs (d := ':') (by decide) ('/' :: '/' :: (hostEscape host ++ '/' :: ("pks/lookup".toList ++ '?' :: q))))
    have s2 := Prod.mk.inj (span_stop (p := fun c => !['/', '?', '#'].contains c) (a := hostEscape host)
      (fun c hc => by have := host_chars host c hc; simp [this.1, this.2.1, this.2.2]) (d := '/') (by decide) ("pks/lookup".toList ++ '?' :: q))
    have s3 := Prod.mk.inj (span_stop (p := fun c => !['?', '#'].contains c) (a := '/' :: "pks/lookup".toList) (by decide) (d := '?') (by decide) q)
    have s4 := Prod.mk.inj (span_all hq)
    rw [List.cons_append] at s3
    simp only [s1.1, s1.2, s2.1, s2.2, s3.1, s3.2, s4.1, s4.2]
    rfl
  · rw [percentDecode_host]
    simp [asciiBytes, S]
  · have e : encodePairs (Spec.lookup uid) = S "op=get&search=" ++ queryEscape uid := rfl
    rw [e]
    refine isQuery_append ?_ (isQuery_escape uid)
    simp only [S]
    repeat (first | exact .nil | refine .char _ (by decide) ?_)

/-- **C46**: the options: without them the scheme is `http` and the port 11371; the last option of a kind wins. -/
theorem C46_options (host : Bytes) (opts : List ServerOpt) :
    (serverNew host opts).host = host ∧
    (serverNew host opts).port = ((opts.filterMap (fun o => match o with | .port n => some n | _ => none)).getLast?).getD 11371 ∧
    (serverNew host opts).prt = ((opts.filterMap (fun o => match o with | .protocol p => some p | _ => none)).getLast?).getD 1 := by
  have key : ∀ (opts : List ServerOpt) (s : Server),
      (opts.foldl ServerOpt.apply s).host = s.host ∧
      (opts.foldl ServerOpt.apply s).port = ((opts.filterMap (fun o => match o with | .port n => some n | _ => none)).getLast?).getD s.port ∧
      (opts.foldl ServerOpt.apply s).prt = ((opts.filterMap (fun o => match o with | .protocol p => some p | _ => none)).getLast?).getD s.prt := by
    intro opts
    induction opts with
    | nil => intro s; exact ⟨rfl, rfl, rfl⟩
    | cons o opts ih =>
      intro s
      obtain ⟨h1, h2, h3⟩ := ih (o.apply s)
      rw [List.foldl_cons, h1, h2, h3]
      cases o with
      | port n =>
        refine ⟨rfl, ?_, rfl⟩
        rw [List.filterMap_cons]
        simp only [ServerOpt.apply]
        rw [List.getLast?_cons]
        rfl
      | protocol p =>
        refine ⟨rfl, rfl, ?_⟩
        rw [List.filterMap_cons]
        simp only [ServerOpt.apply]
        rw [List.getLast?_cons]
        rfl
  exact key opts _

/-- **C46**: different user IDs are different requests. -/
theorem C46_injective (s : Server) (uid uid' : Bytes) (h : serverFetch (some s) uid = serverFetch (some s) uid') : uid = uid' := by
  rw [serverFetch_some, serverFetch_some] at h
  simp only [Res.ok.injEq, URL.mk.injEq, true_and] at h
  have h1 := formPairs_encode (Spec.lookup uid) (by simp [Spec.lookup])
  rw [h, formPairs_encode _ (by simp [Spec.lookup])] at h1
  simp only [Spec.lookup, Option.some.injEq, List.cons.injEq, Prod.mk.injEq, true_and, and_true] at h1
  exact h1.symm

/-- A nil server panics (also in `String`, which tests for nil afterwards). -/
theorem C46_nil_server (uid : Bytes) : serverFetch none uid = .panic .nilDeref ∧ serverString none = .panic .nilDeref :=
  ⟨rfl, rfl⟩

/-- a user ID with spaces, separators, a line break and an octet that is not ASCII -/
theorem C46_example : (serverFetch (some (serverNew (asciiBytes (S "keys.example.net")) [.protocol 2, .port 443]))
    (asciiBytes (S "A B <a+b@c.de>&op=index\n#é"))).map URL.text =
    .ok (S "https://keys.example.net:443/pks/lookup?op=get&search=A+B+%3Ca%2Bb%40c.de%3E%26op%3Dindex%0A%23%E9") := by
  decide +kernel

end Gpgpdump
