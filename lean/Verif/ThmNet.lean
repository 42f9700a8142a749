import Verif.Net
import Verif.ThmUrl
import Verif.ThmUsage
import Verif.ThmCLI

/-!
# C87: the commands that use the network, from arguments to standard output
-/

namespace Gpgpdump
open Spec Spec.CL Spec.CLI Spec.GH Spec.GJ

/-- a body that was received completely -/
def WholeBody (a : Except Nat Src) (b : Bytes) : Prop := ∃ s, a = .ok s ∧ s.data = b ∧ s.tail = rawErr .eof

/-- standard output takes everything -/
def TakesAll (W : World) : Prop := ∀ t, W.write t = (t.length, none)

section
variable (X : Ext) (W : World) (other : Nat → Nat) (script : Shell → Bytes) (stale : Bool) (U : Unicode) (net : Net)

theorem raw_out {X W stale f cmd b} (hf : f.debug = false) (hw : TakesAll W) (h : Copies W cmd b none) :
    (execute X W stale f cmd).exit = some .normal ∧ (execute X W stale f cmd).stdout = b := by
  obtain ⟨h1, h2, -⟩ := C45_raw X W stale f hf cmd b none h
  rw [hw b] at h1 h2
  exact ⟨h2.2 ⟨rfl, rfl, Nat.le_refl _⟩, by rw [h1]; simp⟩

/-- **C87**, `gpgpdump fetch --raw URL`: exactly this URL is asked for, and exactly the answer is written. -/
theorem C87_fetch_raw {args s f url scheme host path query b} (ho : Online U net W) (h : Accepted args .fetch s [url]) (hh : On s "help" false)
    (hf : Options s f) (hd : f.debug = false) (hr : On s "raw" true) (hu : WebURL url scheme host path query) (hb : WholeBody (net.get url) b)
    (hw : TakesAll W) :
    (executeArgs X W other script stale args).exit = some .normal ∧ (executeArgs X W other script stale args).stdout = b := by
  rw [C83_fetch X W other script stale args h hh hf hr]
  obtain ⟨u, h1, h2, -⟩ := C86_url url scheme host path query hu
  obtain ⟨src, h3, rfl, h5⟩ := hb
  have e : W.fetch (octetStr url) = .ok src := by
    rw [ho.fetch, netFetch, h1]
    simp only
    rw [h2, h3]
  have c := Copies.fetch e
  rw [h5] at c
  exact raw_out hd hw c

/-- **C87**, `gpgpdump fetch URL`: the answer is dumped; the text on standard output is the one of C60. -/
theorem C87_fetch_dump (hX : OwnErrors X) {args s f url scheme host path query} {src src' : Source} (ho : Online U net W) (h : Accepted args .fetch s [url])
    (hh : On s "help" false) (hf : Options s f) (hd : f.debug = false) (hr : On s "raw" false) (hu : WebURL url scheme host path query)
    (hb : net.get url = .ok src.src) (hs : Reads X f.armor src src') (ht : src'.tail = rawErr .eof) (hw : TakesAll W) (out : Bytes) :
    executeArgs X W other script stale args = ⟨some .normal, out, false⟩ ↔
      ∃ ps rows m, PacketSeq ps src'.data ∧ FullTops (cliCtx f false).opts X {} ps rows m ∧ Rendered f rows out := by
  rw [C83_fetch X W other script stale args h hh hf hr]
  obtain ⟨u, h1, h2, -⟩ := C86_url url scheme host path query hu
  have e : W.fetch (octetStr url) = .ok src.src := by
    rw [ho.fetch, netFetch, h1]
    simp only
    rw [h2, hb]
  exact C60_output X hX W stale f hd _ false src src' (Dumps.fetch e) (by rw [Bool.or_false]; exact hs) ht hw out

/-- what a key server is asked for: the parts of the URL, which decode to the arguments -/
def Spec.KeyQuery (url server : Bytes) (port : Int) (secure : Bool) (userID : Bytes) : Prop :=
  ∃ authority q, uri (chars url) = some ⟨(if secure then "https" else "http").toList, authority, "/pks/lookup".toList, some q, none⟩ ∧
    percentDecode false authority = some (server ++ asciiBytes (':' :: decInt port)) ∧ IsQuery q ∧
    formPairs q = some [(asciiBytes "op".toList, asciiBytes "get".toList), (asciiBytes "search".toList, userID)]

theorem hkp_ascii (s : Server) (uid : Bytes) {u} (h : serverFetch (some s) uid = .ok u) : ∀ c ∈ u.text, c.toNat < 128 := by
  rw [serverFetch_some] at h
  cases h
  unfold URL.text
  intro c hc
  simp only [List.mem_append] at hc
  have host : ∀ b : Bytes, ∀ c ∈ hostEscape b, c.toNat < 128 := by
    intro b c hc
    rw [hostEscape, List.mem_flatMap] at hc
    obtain ⟨x, -, hx⟩ := hc
    revert c
    refine forall_byte (p := fun x => ∀ c ∈ hostEscapeByte x, c.toNat < 128) ?_ x
    decide +kernel
  rcases hc with (((hc | hc) | hc) | hc) | hc
  · revert c
    unfold Protocol.str
    split
    · decide
    split <;> decide
  · revert c; decide
  · exact host _ c hc
  · revert c; decide
  · split at hc
    · cases hc
    · rcases List.mem_append.1 hc with h1 | hc
      · clear hc
        revert c
        decide
      · exact (isQuery_facts (encode_isQuery _) c hc).1

theorem hkp_asked (server uid : Bytes) (port : Int) (secure : Bool) :
    ∃ url, (∀ net : Net, netHkp net ⟨if secure then 2 else 1, server, port⟩ uid = net.get url) ∧ KeyQuery url server port secure uid := by
  obtain ⟨u, authority, q, h1, h2, h3, h4, h5⟩ := C46_url ⟨if secure then 2 else 1, server, port⟩ uid
  refine ⟨asciiBytes u.text, ?_, authority, q, ?_, h3, h4, h5⟩
  · intro net
    rw [netHkp, h1]
  · rw [chars_ascii (hkp_ascii _ _ h1), h2]
    cases secure <;> rfl

/-- **C87**, `gpgpdump hkp --raw USERID`: the URL asked for has the scheme, the server, the port and the user ID of the arguments, and
exactly the answer is written. -/
theorem C87_hkp_raw {args s f uid server port secure} (ho : Online U net W) (h : Accepted args .hkp s [uid]) (hh : On s "help" false)
    (hf : Options s f) (hd : f.debug = false) (hs : Txt s "keyserver" (text "keys.gnupg.net") server) (hp : Num s "port" 11371 port)
    (hc : On s "secure" secure) (hr : On s "raw" true) (hn : server ≠ []) (hw : TakesAll W) :
    ∃ url, KeyQuery url server port secure uid ∧ ∀ b, WholeBody (net.get url) b →
      (executeArgs X W other script stale args).exit = some .normal ∧ (executeArgs X W other script stale args).stdout = b := by
  obtain ⟨url, h1, h2⟩ := hkp_asked server uid port secure
  refine ⟨url, h2, ?_⟩
  rintro b ⟨src, h3, rfl, h5⟩
  rw [C83_hkp X W other script stale args h hh hf hs hp hc hr]
  have c := Copies.hkp (W := W) (uid := uid) (port := port) (secure := secure) (s := src) hn (by rw [ho.hkp, h1, h3])
  rw [h5] at c
  exact raw_out hd hw c

/-- **C87**, `gpgpdump hkp USERID`: the armored text of the answer is dumped. -/
theorem C87_hkp_dump (hX : OwnErrors X) {args s f uid server port secure} (ho : Online U net W) (h : Accepted args .hkp s [uid]) (hh : On s "help" false)
    (hf : Options s f) (hd : f.debug = false) (hs : Txt s "keyserver" (text "keys.gnupg.net") server) (hp : Num s "port" 11371 port)
    (hc : On s "secure" secure) (hr : On s "raw" false) (hn : server ≠ []) (hw : TakesAll W) :
    ∃ url, KeyQuery url server port secure uid ∧ ∀ (src src' : Source), net.get url = .ok src.src → Reads X true src src' → src'.tail = rawErr .eof →
      ∀ out, executeArgs X W other script stale args = ⟨some .normal, out, false⟩ ↔
        ∃ ps rows m, PacketSeq ps src'.data ∧ FullTops (cliCtx f true).opts X {} ps rows m ∧ Rendered f rows out := by
  obtain ⟨url, h1, h2⟩ := hkp_asked server uid port secure
  refine ⟨url, h2, ?_⟩
  intro src src' h3 h4 h5 out
  rw [C83_hkp X W other script stale args h hh hf hs hp hc hr]
  exact C60_output X hX W stale f hd _ true src src' (Dumps.hkp hn (by rw [ho.hkp, h1, h3])) (by rw [Bool.or_true]; exact h4) h5 hw out

/-- **C87**: a request of `fetch` that fails: nothing is written, the exit code is abnormal. -/
theorem C87_fetch_failed {args s f url scheme host path query raw c} (ho : Online U net W) (h : Accepted args .fetch s [url]) (hh : On s "help" false)
    (hf : Options s f) (hd : f.debug = false) (hr : On s "raw" raw) (hu : WebURL url scheme host path query) (hb : net.get url = .error c) :
    executeArgs X W other script stale args = ⟨some .abnormal, [], false⟩ := by
  rw [C83_fetch X W other script stale args h hh hf hr]
  obtain ⟨u, h1, h2, -⟩ := C86_url url scheme host path query hu
  have e : W.fetch (octetStr url) = .error c := by
    rw [ho.fetch, netFetch, h1]
    simp only
    rw [h2, hb]
  exact C45_no_input X W stale f hd _ _ (NoInput.fetch e)

/-- **C87**: a request of `hkp` that fails, or no key server: nothing is written, the exit code is abnormal. -/
theorem C87_hkp_failed {args s f uid server port secure raw} (ho : Online U net W) (h : Accepted args .hkp s [uid]) (hh : On s "help" false)
    (hf : Options s f) (hd : f.debug = false) (hs : Txt s "keyserver" (text "keys.gnupg.net") server) (hp : Num s "port" 11371 port)
    (hc : On s "secure" secure) (hr : On s "raw" raw) :
    ∃ url, KeyQuery url server port secure uid ∧ (server = [] ∨ (∃ c, net.get url = .error c) →
      executeArgs X W other script stale args = ⟨some .abnormal, [], false⟩) := by
  obtain ⟨url, h1, h2⟩ := hkp_asked server uid port secure
  refine ⟨url, h2, fun he => ?_⟩
  rw [C83_hkp X W other script stale args h hh hf hs hp hc hr]
  by_cases hn : server = []
  · subst hn
    exact C45_no_input X W stale f hd _ _ NoInput.hkpServer
  · obtain ⟨c, h3⟩ := he.resolve_left hn
    exact C45_no_input X W stale f hd _ _ (NoInput.hkp hn (by rw [ho.hkp, h1, h3]))

/-- the page `n` of the keys of a user, at the API -/
def Spec.PageURL (url name : Bytes) (n : Nat) : Prop :=
  ∃ path q, uri (chars url) = some ⟨"https".toList, "api.github.com".toList, path, some q, none⟩ ∧
    percentDecode false path = some (asciiBytes "/users/".toList ++ name ++ asciiBytes "/gpg_keys".toList) ∧ formPairs q = some (pageQuery n)

/-- all keys of a user -/
def Spec.ProfileURL (url name : Bytes) : Prop :=
  ∃ path, uri (chars url) = some ⟨"https".toList, "github.com".toList, path, none, none⟩ ∧
    percentDecode false path = some (asciiBytes "/".toList ++ name ++ asciiBytes ".gpg".toList)

/-- nothing but `null` -/
def OnlyNull (b : Bytes) : Prop := ∃ w, Ws w ∧ b = w ++ [0x6e, 0x75, 0x6c, 0x6c]

/-- what has been received for a page: all of it, or the octets before an error (then a lone `null` does not count) -/
def Received (a : Except Nat Src) (b : Bytes) : Prop := ∃ s, a = .ok s ∧ s.data = b ∧ (s.tail = rawErr .eof ∨ ¬ OnlyNull b)

/-- the answer is a page with these keys -/
def Answered (a : Except Nat Src) (ks : List (Option GHKey)) : Prop := ∃ b, Received a b ∧ Page goTime b ks

/-- full pages without the key in front of page `n` -/
def EarlierPages (U : Unicode) (a : Nat → Except Nat Src) (id : Str) (n : Nat) : Prop :=
  ∀ i, 1 ≤ i → i < n → ∃ ks, Answered (a i) ks ∧ 100 ≤ ks.length ∧ ∀ k ∈ ks, Other U id k

/-- `t` is the text of the first key with the ID in the pages -/
def FirstKey (U : Unicode) (a : Nat → Except Nat Src) (id : Str) (t : Bytes) : Prop :=
  ∃ n pre k post, 1 ≤ n ∧ EarlierPages U a id n ∧ Answered (a n) (pre ++ some k :: post) ∧ (∀ x ∈ pre, Other U id x) ∧
    sameKeyID U k.keyID id = true ∧ k.rawKey = some t

/-- the pages end before a key with the ID: with a page that is not full, an error, or a body that is
no page -/
def NoSuchKey (U : Unicode) (a : Nat → Except Nat Src) (id : Str) : Prop :=
  ∃ n, 1 ≤ n ∧ EarlierPages U a id n ∧ ((∃ ks, Answered (a n) ks ∧ ks.length < 100 ∧ ∀ k ∈ ks, Other U id k) ∨ (∃ c, a n = .error c) ∨
    (∃ b, Received (a n) b ∧ ∀ ks, ¬ Page goTime b ks) ∨ ∃ s, a n = .ok s ∧ s.tail ≠ rawErr .eof ∧ OnlyNull s.data)

theorem eof_body {a : Except Nat Src} {b : Bytes} (h : WholeBody a b) : netBody a = .ok b := by
  obtain ⟨s, rfl, rfl, h⟩ := h
  show (if s.tail.eqEOF then _ else _) = _
  rw [h]
  rfl

theorem blank_null : ∀ {b : Bytes}, b.dropWhile (fun c => c = 0x20 || c = 0x09 || c = 0x0a || c = 0x0d) = [0x6e, 0x75, 0x6c, 0x6c] → OnlyNull b
  | [], h => (by cases h)
  | c :: r, h => by
    rw [List.dropWhile_cons] at h
    split at h
    · rename_i hc
      obtain ⟨w, h1, h2⟩ := blank_null h
      refine ⟨c :: w, ?_, by rw [h2]; rfl⟩
      intro x hx
      rcases List.mem_cons.1 hx with rfl | hx
      · simpa [or_assoc] using hc
      · exact h1 x hx
    · exact ⟨[], by simp [Ws], h⟩

theorem null_blank {b : Bytes} (h : OnlyNull b) : b.dropWhile (fun c => c = 0x20 || c = 0x09 || c = 0x0a || c = 0x0d) = [0x6e, 0x75, 0x6c, 0x6c] := by
  obtain ⟨w, hw, rfl⟩ := h
  induction w with
  | nil => rfl
  | cons c w ih =>
    rw [List.cons_append, List.dropWhile_cons, if_pos (by simpa [or_assoc] using hw c (by simp))]
    exact ih fun x hx => hw x (List.mem_cons_of_mem _ hx)

theorem null_body {s : Src} (ht : s.tail ≠ rawErr .eof) (h : OnlyNull s.data) : pageBody (.ok s) = .error (.request 0) := by
  unfold pageBody
  simp only
  refine if_neg ?_
  rw [Bool.or_eq_true, decide_eq_true_eq, null_blank h]
  rintro (h | h)
  · apply ht
    rcases e : s.tail with ⟨c, w⟩
    rw [e] at h
    simp [GoErr.eqEOF] at h
    rw [h.1, h.2]
    rfl
  · exact h rfl

theorem page_body {a : Except Nat Src} {b : Bytes} (h : Received a b) : pageBody a = .ok b := by
  obtain ⟨s, rfl, rfl, h⟩ := h
  unfold pageBody
  simp only
  refine if_pos ?_
  rw [Bool.or_eq_true, decide_eq_true_eq]
  rcases h with h | h
  · left
    rw [h]
    rfl
  · exact .inr fun e => h (blank_null e)

/-- the URL of each page -/
theorem page_urls {name : Bytes} (hn : PlainName name) :
    ∃ url : Nat → Bytes, (∀ n, 1 ≤ n → PageURL (url n) name n) ∧ ∀ n : Nat, 1 ≤ n → ∃ u, makeURLAPI name n = some u ∧ u.text = url n := by
  refine ⟨fun n => ((makeURLAPI name n).map GoURL.text).getD [], ?_, ?_⟩
  · intro n h
    obtain ⟨⟨u, path, q, h1, h2, h3, h4⟩, -⟩ := C85_plain_partial name hn n h
    exact ⟨path, q, by simp only [h1]; exact h2, h3, h4⟩
  · intro n h
    obtain ⟨⟨u, path, q, h1, -⟩, -⟩ := C85_plain_partial name hn n h
    exact ⟨u, h1, by simp only [h1]; rfl⟩

section
variable {U : Unicode} {net : Net} {W : World} {name : Bytes} {id : Str} {url : Nat → Bytes}

/-- the answers as `netServer` hands them on -/
def pageResp (net : Net) (name : Bytes) (n : Nat) : Except GHErr Bytes :=
  match makeURLAPI name n with
  | none => .error (.request 0)
  | some u => pageBody (net.api u.text)

theorem pageResp_eq (hu : ∀ n : Nat, 1 ≤ n → ∃ u, makeURLAPI name n = some u ∧ u.text = url n) {n : Nat} (h : 1 ≤ n) :
    pageResp net name n = pageBody (net.api (url n)) := by
  obtain ⟨u, h1, h2⟩ := hu n h
  unfold pageResp
  rw [h1]
  simp only
  rw [h2]

theorem sends_answered (hu : ∀ n : Nat, 1 ≤ n → ∃ u, makeURLAPI name n = some u ∧ u.text = url n) {n : Nat} (h : 1 ≤ n) {ks}
    (ha : Answered (net.api (url n)) ks) : Sends (pageResp net name) n ks := by
  obtain ⟨b, h1, h2⟩ := ha
  exact ⟨b, by rw [pageResp_eq hu h]; exact page_body h1, h2⟩

theorem earlier_others (hu : ∀ n : Nat, 1 ≤ n → ∃ u, makeURLAPI name n = some u ∧ u.text = url n) {n : Nat}
    (h : EarlierPages U (fun n => net.api (url n)) id n) : OthersBefore U (pageResp net name) id n := by
  intro i h1 h2
  obtain ⟨ks, h3, h4, h5⟩ := h i h1 h2
  exact ⟨ks, sends_answered hu h1 h3, h4, h5⟩

theorem github_found (ho : Online U net W) (hid : id ≠ []) (hu : ∀ n : Nat, 1 ≤ n → ∃ u, makeURLAPI name n = some u ∧ u.text = url n) {t}
    (h : FirstKey U (fun n => net.api (url n)) id t) : W.github (octetStr name) id = .ok t := by
  obtain ⟨n, pre, k, post, hn, hb, hp, hpre, hk, ht⟩ := h
  have g : (getKey U (netServer net name) id n).1 = .ok t := congrArg Prod.fst
    (C81_found U _ (pageResp net name) id hid n hn (earlier_others hu hb) pre post k t (sends_answered hu hn hp) hpre hk ht n (Nat.le_refl _))
  rw [ho.github name id n (by rw [g]; intro h; cases h), g]

theorem github_missing (ho : Online U net W) (hid : id ≠ []) (hu : ∀ n : Nat, 1 ≤ n → ∃ u, makeURLAPI name n = some u ∧ u.text = url n)
    (h : NoSuchKey U (fun n => net.api (url n)) id) : ∃ e, W.github (octetStr name) id = .err e := by
  obtain ⟨n, hn, hb, h⟩ := h
  have fin : ∀ e, (getKey U (netServer net name) id n).1 = .err e → ∃ e, W.github (octetStr name) id = .err e := fun e g =>
    ⟨e, by rw [ho.github name id n (by rw [g]; intro h; cases h), g]⟩
  rcases h with ⟨ks, h1, h2, h3⟩ | ⟨c, hc⟩ | ⟨b, h1, h2⟩ | ⟨s, h1, h2, h3⟩
  · exact fin _ (congrArg Prod.fst (C44_no_key U _ id hid n hn (before_of (earlier_others hu hb)) ks (sends_iff.2 (sends_answered hu hn h1)) h2 h3 n (Nat.le_refl _)))
  · have e : pageResp net name n = .error (.request c) := by
      rw [pageResp_eq hu hn]
      simp only at hc
      rw [hc]
      rfl
    exact fin _ (congrArg Prod.fst (C44_page_error U _ id hid n hn (before_of (earlier_others hu hb)) _ (((C81_answer goTime (pageResp net name n)).2 _).2 (.inl e)) n (Nat.le_refl _)))
  · exact fin _ (congrArg Prod.fst (C81_refused U _ (pageResp net name) id hid n hn (earlier_others hu hb) b
      (by rw [pageResp_eq hu hn]; exact page_body h1) h2 n (Nat.le_refl _)))
  · have e : pageResp net name n = .error (.request 0) := by
      rw [pageResp_eq hu hn]
      simp only at h1
      rw [h1]
      exact null_body h2 h3
    exact fin _ (congrArg Prod.fst (C44_page_error U _ id hid n hn (before_of (earlier_others hu hb)) _
      (((C81_answer goTime (pageResp net name n)).2 _).2 (.inl e)) n (Nat.le_refl _)))

theorem github_profile (ho : Online U net W) {u b} (hu : makeURL name = some u) (hb : WholeBody (net.get u.text) b) :
    W.github (octetStr name) [] = .ok b := by
  have g : (getKey U (netServer net name) [] 0).1 = .ok b := by
    unfold getKey netServer apiServer
    simp only [hu, eof_body hb, List.length_nil, if_true]
  rw [ho.github name [] 0 (by rw [g]; intro h; cases h), g]
end

/-- **C87**, `gpgpdump github --keyid ID --raw USER`: the pages of exactly this user are asked for, and the text of the first key with
this ID is written; without one nothing is written and the exit code is abnormal. -/
theorem C87_github_raw {args s f user id} (ho : Online U net W) (h : Accepted args .github s [user]) (hh : On s "help" false) (hf : Options s f)
    (hd : f.debug = false) (hi : Txt s "keyid" [] id) (hne : goRunes id.length id ≠ []) (hr : On s "raw" true) (hw : TakesAll W) (hn : PlainName user) :
    ∃ url : Nat → Bytes, (∀ n, 1 ≤ n → PageURL (url n) user n) ∧
      (∀ t, FirstKey U (fun n => net.api (url n)) (goRunes id.length id) t →
        (executeArgs X W other script stale args).exit = some .normal ∧ (executeArgs X W other script stale args).stdout = t) ∧
      (NoSuchKey U (fun n => net.api (url n)) (goRunes id.length id) → executeArgs X W other script stale args = ⟨some .abnormal, [], false⟩) := by
  obtain ⟨url, h1, h2⟩ := page_urls hn
  rw [C83_github X W other script stale args h hh hf hi hr]
  refine ⟨url, h1, fun t hk => raw_out hd hw (Copies.github (github_found ho hne h2 hk)), fun hk => ?_⟩
  obtain ⟨e, he⟩ := github_missing ho hne h2 hk
  exact C45_no_input X W stale f hd _ _ (NoInput.github he)

/-- **C87**, the same without `--raw`: the armored text of the key is dumped. -/
theorem C87_github_dump (hX : OwnErrors X) {args s f user id} (ho : Online U net W) (h : Accepted args .github s [user]) (hh : On s "help" false)
    (hf : Options s f) (hd : f.debug = false) (hi : Txt s "keyid" [] id) (hne : goRunes id.length id ≠ []) (hr : On s "raw" false) (hw : TakesAll W)
    (hn : PlainName user) :
    ∃ url : Nat → Bytes, (∀ n, 1 ≤ n → PageURL (url n) user n) ∧
      (∀ t (src' : Source), FirstKey U (fun n => net.api (url n)) (goRunes id.length id) t → Reads X true ⟨t, rawErr .eof, []⟩ src' →
        src'.tail = rawErr .eof → ∀ out, executeArgs X W other script stale args = ⟨some .normal, out, false⟩ ↔
          ∃ ps rows m, PacketSeq ps src'.data ∧ FullTops (cliCtx f true).opts X {} ps rows m ∧ Rendered f rows out) ∧
      (NoSuchKey U (fun n => net.api (url n)) (goRunes id.length id) → executeArgs X W other script stale args = ⟨some .abnormal, [], false⟩) := by
  obtain ⟨url, h1, h2⟩ := page_urls hn
  rw [C83_github X W other script stale args h hh hf hi hr]
  refine ⟨url, h1, fun t src' hk hs ht out => ?_, fun hk => ?_⟩
  · exact C60_output X hX W stale f hd _ true ⟨t, rawErr .eof, []⟩ src' (Dumps.github (github_found ho hne h2 hk)) (by rw [Bool.or_true]; exact hs) ht hw out
  · obtain ⟨e, he⟩ := github_missing ho hne h2 hk
    exact C45_no_input X W stale f hd _ _ (NoInput.github he)

/-- **C87**, `gpgpdump github --raw USER`: without a key ID the file with all keys of this user is written. -/
theorem C87_profile_raw {args s f user} (ho : Online U net W) (h : Accepted args .github s [user]) (hh : On s "help" false) (hf : Options s f)
    (hd : f.debug = false) (hi : Unset s "keyid") (hr : On s "raw" true) (hw : TakesAll W) (hn : PlainName user) :
    ∃ url, ProfileURL url user ∧ ∀ b, WholeBody (net.get url) b →
      (executeArgs X W other script stale args).exit = some .normal ∧ (executeArgs X W other script stale args).stdout = b := by
  obtain ⟨-, u, path, h1, h2, h3⟩ := C85_plain_partial user hn 1 (Nat.le_refl _)
  refine ⟨u.text, ⟨path, h2, h3⟩, fun b hb => ?_⟩
  rw [C83_github X W other script stale args h hh hf (Or.inr ⟨hi, rfl⟩) hr]
  exact raw_out hd hw (Copies.github (github_profile ho h1 hb))

/-- **C87**: another number of arguments behind the name of the command: whatever the network is, nothing is written and the exit code is abnormal. -/
theorem C87_arguments {args s p f c} (h : Accepted args c s p) (hc : c = .hkp ∨ c = .github ∨ c = .fetch) (hh : On s "help" false) (hf : Options s f)
    (hd : f.debug = false) (hp : p.length ≠ 1) : executeArgs X W other script stale args = ⟨some .abnormal, [], false⟩ := by
  obtain ⟨-, hv, ⟨port, hport, -⟩, htxt⟩ := C83_values args h
  obtain ⟨raw, hraw, -⟩ := hv "raw" (by decide)
  obtain ⟨sec, hsec, -⟩ := hv "secure" (by decide)
  obtain ⟨srv, hsrv, -⟩ := htxt "keyserver" (text "keys.gnupg.net")
  obtain ⟨id, hid, -⟩ := htxt "keyid" []
  rcases hc with rfl | rfl | rfl
  · rw [C83_hkp X W other script stale args h hh hf hsrv hport hsec hraw]
    exact C45_no_input X W stale f hd _ _ (NoInput.hkpArgs hp)
  · rw [C83_github X W other script stale args h hh hf hid hraw]
    exact C45_no_input X W stale f hd _ _ (NoInput.githubArgs (by simpa using hp))
  · rw [C83_fetch X W other script stale args h hh hf hraw]
    exact C45_no_input X W stale f hd _ _ (NoInput.fetchArgs (by simpa using hp))
end

/-! ## There are such worlds, and a concrete case -/

theorem loop_more {U : Unicode} {srv : GHServer} {id : Str} : ∀ {f g i : Nat}, f ≤ g → (getKeyLoop U srv id f i).1 ≠ .running →
    (getKeyLoop U srv id g i).1 = (getKeyLoop U srv id f i).1
  | 0, _, _, _, h => absurd rfl h
  | f + 1, 0, _, hg, _ => by omega
  | f + 1, g + 1, i, hg, h => by
    rw [getKeyLoop] at h ⊢
    rw [getKeyLoop]
    cases hp : srv.page i with
    | error e => rfl
    | ok ks =>
      simp only [hp] at h ⊢
      cases hk : findKey U id ks with
      | some r => rfl
      | none =>
        simp only [hk] at h ⊢
        by_cases hl : ks.length < 100
        · simp only [if_pos hl]
        · simp only [if_neg hl] at h ⊢
          exact loop_more (Nat.le_of_succ_le_succ hg) h

theorem getKey_same {U : Unicode} {srv : GHServer} {id : Str} {f g : Nat} (hf : (getKey U srv id f).1 ≠ .running) (hg : (getKey U srv id g).1 ≠ .running) :
    (getKey U srv id f).1 = (getKey U srv id g).1 := by
  unfold getKey at hf hg ⊢
  split
  · rfl
  · rename_i h
    rw [if_neg h] at hf hg
    rcases Nat.le_total f g with k | k
    · exact (loop_more k hf).symm
    · exact loop_more k hg

theorem octetStr_inj {a b : Bytes} (h : octetStr a = octetStr b) : a = b := by
  have key : ∀ x : Bytes, (octetStr x).map (fun c => UInt8.ofNat c.toNat) = x := by
    intro x
    rw [octetStr, List.map_map]
    have : ∀ c : UInt8, ((fun c : Char => UInt8.ofNat c.toNat) ∘ fun x : UInt8 => Char.ofNat x.toNat) c = c := by
      refine forall_byte ?_
      decide +kernel
    rw [show ((fun c : Char => UInt8.ofNat c.toNat) ∘ fun x : UInt8 => Char.ofNat x.toNat) = id from funext this, List.map_id]
  rw [← key a, ← key b, h]

open Classical in
/-- For every client there is such a world. -/
theorem C87_world (U : Unicode) (net : Net) (W : World) : ∃ W', Online U net W' ∧ W'.write = W.write := by
  refine ⟨{ W with
    hkp := netHkp net
    fetch := fun s => if h : ∃ b, s = octetStr b then netFetch net h.choose else .error 0
    github := fun s id => if h : ∃ b f, s = octetStr b ∧ (getKey U (netServer net b) id f).1 ≠ .running then
      (getKey U (netServer net h.choose) id h.choose_spec.choose).1 else .running }, ⟨rfl, ?_, ?_⟩, rfl⟩
  · intro url
    have h : ∃ b, octetStr url = octetStr b := ⟨url, rfl⟩
    simp only [dif_pos h]
    rw [← octetStr_inj h.choose_spec]
  · intro name id fuel hf
    have h : ∃ b f, octetStr name = octetStr b ∧ (getKey U (netServer net b) id f).1 ≠ .running := ⟨name, fuel, rfl, hf⟩
    simp only [dif_pos h]
    have key : ∀ b f, octetStr name = octetStr b → (getKey U (netServer net b) id f).1 ≠ .running →
        (getKey U (netServer net b) id f).1 = (getKey U (netServer net name) id fuel).1 := by
      intro b f e g
      cases octetStr_inj e
      exact getKey_same g hf
    exact key _ _ h.choose_spec.choose_spec.1 h.choose_spec.choose_spec.2

/-- `gpgpdump fetch --raw https://example.net/k.asc` -/
theorem C87_example (X : Ext) (W : World) (other : Nat → Nat) (script : Shell → Bytes) (U : Unicode) (net : Net) (ho : Online U net W) (hw : TakesAll W)
    (b : Bytes) (hb : WholeBody (net.get (text "https://example.net/k.asc")) b) :
    (executeArgs X W other script false [text "fetch", text "--raw", text "https://example.net/k.asc"]).stdout = b :=
  (C87_fetch_raw X W other script false U net (s := [(long "raw" .bool, text "true")]) (f := ⟨false, 0, false, false, false, false, false, false, false, false⟩)
    (scheme := text "https") (host := text "example.net") (path := text "/k.asc") (query := none) ho
    ⟨_, (find_iff _ _ [text "--raw", text "https://example.net/k.asc"]).1 (by decide +kernel), by decide, (given_flags _ _ _ _).1 (by decide +kernel)⟩
    (Or.inr ⟨by unfold Unset; decide +kernel, rfl⟩)
    (by refine ⟨?_, ?_, ?_, ?_, ?_, ?_, ?_, ?_, ?_, ?_⟩ <;> exact Or.inr ⟨by unfold Unset; decide +kernel, rfl⟩) rfl
    (Or.inl ⟨text "true", ⟨[], long "raw" .bool, [], rfl, rfl, by simp⟩, (scBool_iff _ _).1 (by decide +kernel)⟩)
    ⟨by decide +kernel, .inr (by decide +kernel), ⟨text "example.net", [], rfl, by decide, by decide +kernel, .inl rfl⟩, .inr rfl, by unfold pathOctet; decide +kernel,
      ⟨text "/k.asc", (unescape_iff (Or.inl rfl) _ _).1 (by decide +kernel)⟩, by intro q hq; cases hq⟩ hb hw).2

/-- `gpgpdump github --raw --keyid=0x3262eff25ba0d270 alice`, with a server that has this key -/
theorem C87_example_github (X : Ext) (W : World) (other : Nat → Nat) (script : Shell → Bytes) (net : Net) (ho : Online ⟨Spec.GH.asciiLower, Spec.GH.asciiLower⟩ net W)
    (hw : TakesAll W) (hb : ∀ url, WholeBody (net.api url) GJ.sample) :
    (executeArgs X W other script false [text "github", text "--raw", text "--keyid=0x3262eff25ba0d270", text "alice"]).stdout = [0x61, 0x0a, 0xc3, 0xa9] := by
  obtain ⟨url, -, h, -⟩ := C87_github_raw X W other script false ⟨Spec.GH.asciiLower, Spec.GH.asciiLower⟩ net
    (args := [text "github", text "--raw", text "--keyid=0x3262eff25ba0d270", text "alice"])
    (s := [(long "raw" .bool, text "true"), (long "keyid" .string, text "0x3262eff25ba0d270")])
    (f := ⟨false, 0, false, false, false, false, false, false, false, false⟩) (user := text "alice") (id := text "0x3262eff25ba0d270") ho
    ⟨_, (find_iff _ _ [text "--raw", text "--keyid=0x3262eff25ba0d270", text "alice"]).1 (by decide +kernel), by decide, (given_flags _ _ _ _).1 (by decide +kernel)⟩
    (Or.inr ⟨by unfold Unset; decide +kernel, rfl⟩)
    (by refine ⟨?_, ?_, ?_, ?_, ?_, ?_, ?_, ?_, ?_, ?_⟩ <;> exact Or.inr ⟨by unfold Unset; decide +kernel, rfl⟩) rfl
    (Or.inl ⟨[(long "raw" .bool, text "true")], long "keyid" .string, [], rfl, rfl, by simp⟩) (by decide +kernel)
    (Or.inl ⟨text "true", ⟨[], long "raw" .bool, [(long "keyid" .string, text "0x3262eff25ba0d270")], rfl, rfl, by decide +kernel⟩, (scBool_iff _ _).1 (by decide +kernel)⟩)
    hw (by unfold PlainName CtlOctet; decide +kernel)
  exact (h _ ⟨1, [], ⟨S "3262EFF25BA0D270", some [0x61, 0x0a, 0xc3, 0xa9]⟩, [], Nat.le_refl _, fun i h1 h2 => by omega,
    ⟨GJ.sample, (let ⟨s, h1, h2, h3⟩ := hb _; ⟨s, h1, h2, .inl h3⟩), (C81_page _ _ _).1 C81_example.1⟩, by simp, by decide +kernel, rfl⟩).2

end Gpgpdump
