import Verif.ThmTagsFull

/-!
# C98: what the context remembers after `Parse` of a packet made by `NewTag`, whatever the outcome
-/

namespace Gpgpdump
open P Spec

/-- What is remembered after a packet with these contents, if it is not a signature: whatever the call returns. -/
def Spec.remembered (tag : Nat) (body : Bytes) (h : History) : History :=
  if tag = 1 then { h with session := .pubEnc }
  else if tag = 3 then { h with session := .symEnc }
  else if tag ∈ [9, 18] then { h with session := .notSpecified }
  else if tag ∈ [5, 6, 7, 14] then
    match body with
    | v :: a :: b :: c :: d :: _ => if v ∈ [3, 4, 5] then { h with key := some (beNat [a, b, c, d]) } else h
    | _ => h
  else h

variable {X : Ext}

theorem ctx_bind {α β} {m : P α} {f : α → P β} (h : ∀ a, Moves sameCtx (f a)) (st : St) : ((m >>= f) st).2.ctx = (m st).2.ctx := by
  rw [bind_run]
  rcases m st with ⟨r, s⟩
  cases r with
  | ok a => exact ((h a).run s : s.ctx = _).symm
  | _ => rfl

theorem ctx_same {α} {m : P α} (h : Moves sameCtx m) (st : St) : (m st).2.ctx = st.ctx := (h.run st : st.ctx = _).symm

theorem ctx_session {m : Mode} {k : P Unit} (hk : Moves sameCtx k) (x : Ctx) (rd : Reader) (j : Item) :
    ((P.setMode m >>= fun _ => k) ⟨some x, rd, j⟩).2.ctx = some { x with mode := m } :=
  ctx_same hk ⟨some { x with mode := m }, rd, j⟩

theorem ctx_tagParse (recur : TagParser) (tag : Nat) (body : Bytes) (st : St) :
    (tagParse X recur tag body st).2.ctx = (tagBody X recur tag ⟨st.ctx, Reader.new body, tagItem tag body (ctxFlag (tagDumpFlag tag) st.ctx)⟩).2.ctx := by
  have e : (tagParse X recur tag body st).2.ctx =
      ((tagBody X recur tag >>= fun _ => getCur) ⟨st.ctx, Reader.new body, tagItem tag body (ctxFlag (tagDumpFlag tag) st.ctx)⟩).2.ctx := rfl
  rw [e]
  exact ctx_bind (fun _ => .getCur) _

/-- the context after the creation time of a key -/
def keyCtx (x : Ctx) (q : Bytes) : Ctx := if 4 ≤ q.length then { x with keyTime := some ⟨q.take 4, x.utc⟩ } else x

theorem ctx_pubkeyTime (x : Ctx) (p q : Bytes) (j : Item) : (pubkeyTime X ⟨some x, rdAt p q, j⟩).2.ctx = some (keyCtx x q) := by
  have e : (pubkeyTime X ⟨some x, rdAt p q, j⟩).2.ctx = ((readBytes 4 >>= fun b => setKeyTime (some ⟨b, x.utc⟩)) ⟨some x, rdAt p q, j⟩).2.ctx := by
    unfold Gpgpdump.pubkeyTime newDateTime
    simp only [bind_run]
    rw [show P.flag Ctx.utc ⟨some x, rdAt p q, j⟩ = (.ok x.utc, ⟨some x, rdAt p q, j⟩) from rfl]
    simp only
    have hc : (readBytes 4 ⟨some x, rdAt p q, j⟩).2.ctx = some x := rfl
    generalize readBytes 4 ⟨some x, rdAt p q, j⟩ = w at hc ⊢
    rcases w with ⟨r, c, s⟩
    cases hc
    cases r <;> rfl
  rw [e, bind_run]
  unfold keyCtx
  by_cases hn : q.length < 4
  · rw [show readBytes 4 ⟨some x, rdAt p q, j⟩ = _ from readBytes_err (some x) p q j 4 hn, if_neg (show ¬ 4 ≤ q.length by omega)]; rfl
  · rw [show readBytes 4 ⟨some x, rdAt p q, j⟩ = _ from readBytes_ok (some x) p q j 4 (by omega), if_pos (by omega)]; rfl

theorem ctx_pubkeyParse (v : UInt8) (x : Ctx) (p q : Bytes) (j : Item) :
    (pubkeyParse X (pubVer v) ⟨some x, rdAt p q, j⟩).2.ctx = some (if v ∈ [3, 4, 5] then keyCtx x q else x) := by
  unfold Gpgpdump.pubkeyParse
  rcases Lang.ver_cases v with ⟨rfl, h⟩ | ⟨rfl, h, h'⟩ | ⟨rfl, h, h', h''⟩ | ⟨hv, h, h', h''⟩ <;> simp only [h]
  · rw [if_pos trivial, ctx_bind (fun _ => by moves; apply Moves.parsePub), ctx_pubkeyTime]; rfl
  · rw [if_neg (by simp), h', if_pos rfl, ctx_bind (fun _ => by moves; apply Moves.parsePub), ctx_pubkeyTime]; rfl
  · rw [if_neg (by simp), h', if_neg (by simp), h'', if_pos rfl, ctx_bind (fun _ => by moves; apply Moves.parsePub), ctx_pubkeyTime]; rfl
  · rw [if_neg (by simp), h', if_neg (by simp), h'', if_neg (by simp), if_neg hv]; rfl

/-- the context after a key packet -/
def keyPacketCtx (x : Ctx) : Bytes → Ctx
  | v :: q => if v ∈ [3, 4, 5] then keyCtx x q else x
  | [] => x

theorem ctx_tag06 (x : Ctx) (b : Bytes) (j : Item) : (tag06 X ⟨some x, Reader.new b, j⟩).2.ctx = some (keyPacketCtx x b) := by
  unfold Gpgpdump.tag06
  rw [bind_run]
  cases b with
  | nil => rw [show readByte ⟨some x, Reader.new [], j⟩ = _ from readByte_nil (some x) [] j]; rfl
  | cons v q =>
    rw [show readByte ⟨some x, Reader.new (v :: q), j⟩ = _ from readByte_cons (some x) [] v q j]
    show ((pubkeyParse X (pubVer v) >>= fun _ => unknownData) ⟨some x, rdAt [v] q, _⟩).2.ctx = _
    rw [ctx_bind (fun _ => .unknownData), ctx_pubkeyParse]; rfl

theorem ctx_tag05 (x : Ctx) (b : Bytes) (j : Item) : (tag05 X ⟨some x, Reader.new b, j⟩).2.ctx = some (keyPacketCtx x b) := by
  unfold Gpgpdump.tag05
  rw [bind_run]
  cases b with
  | nil => rw [show readByte ⟨some x, Reader.new [], j⟩ = _ from readByte_nil (some x) [] j]; rfl
  | cons v q =>
    rw [show readByte ⟨some x, Reader.new (v :: q), j⟩ = _ from readByte_cons (some x) [] v q j]
    show ((nested (newItem (S "Public-Key")) (pubkeyParse X (pubVer v)) >>= fun a => nested (newItem (S "Secret-Key")) (seckeyParse (pubVer v) a) >>= fun _ =>
      unknownData) ⟨some x, rdAt [v] q, _⟩).2.ctx = _
    rw [ctx_bind (fun _ => .bind (.nested _ (.seckeyParse _ _)) fun _ => .unknownData)]
    exact ctx_pubkeyParse v x [v] q _

theorem keyPacketCtx_opts (x : Ctx) (b : Bytes) : (keyPacketCtx x b).opts = x.opts := by
  unfold keyPacketCtx keyCtx
  split
  · split
    · split <;> rfl
    · rfl
  · rfl

theorem keyPacketCtx_consistent (x : Ctx) (hx : Consistent x) (b : Bytes) : Consistent (keyPacketCtx x b) := by
  unfold keyPacketCtx keyCtx
  split
  · split
    · split
      · exact ⟨fun d hd => by cases hd; rfl, hx.2⟩
      · exact hx
    · exact hx
  · exact hx

theorem keyPacketCtx_hist (x : Ctx) (b : Bytes) (t : Nat) (ht : t ∈ [5, 6, 7, 14]) : hist (some (keyPacketCtx x b)) = remembered t b (hist (some x)) := by
  have e : remembered t b (hist (some x)) = (match b with
      | v :: a :: b :: c :: d :: _ => if v ∈ [3, 4, 5] then { hist (some x) with key := some (beNat [a, b, c, d]) } else hist (some x)
      | _ => hist (some x)) := by
    simp only [List.mem_cons, List.not_mem_nil, or_false] at ht
    rcases ht with rfl | rfl | rfl | rfl <;> rfl
  rw [e]
  match b with
  | [] => rfl
  | [v] => unfold keyPacketCtx keyCtx; simp
  | [v, _] => unfold keyPacketCtx keyCtx; simp
  | [v, _, _] => unfold keyPacketCtx keyCtx; simp
  | [v, _, _, _] => unfold keyPacketCtx keyCtx; simp
  | v :: a :: b :: c :: d :: r =>
    unfold keyPacketCtx keyCtx
    simp only
    split
    · rw [if_pos (by simp)]
      simp only [hist, Option.map, List.take]
      rw [RetH.unix_tm rfl]
    · rfl

/-- The context after the first call, for every tag but 2 and every outcome: a session key packet counts even if it is cut behind its tag, a key of
version 3, 4 or 5 as soon as its creation time is there, and nothing else is remembered. In particular a call that returns an error
is not undone. -/
theorem C98_memory (x : Ctx) (tag : Nat) (body : Bytes) (ht : tag ≠ 2) :
    ∃ y, (tagOnce X (some x) tag body).2 = some y ∧ y.opts = x.opts ∧ (Consistent x → Consistent y) ∧
      hist (some y) = remembered tag body (hist (some x)) := by
  have hf := congrArg (fun s : Res Item × St => s.2.ctx) (C98_fresh (X := X) tag body (St.at (some x) [] [] (newItem [] [] [] [])))
  have hf : (tagParse X (parseTagF X body.length) tag body (St.at (some x) [] [] (newItem [] [] [] []))).2.ctx = (tagOnce X (some x) tag body).2 := hf
  rw [← hf, ctx_tagParse]
  generalize tagItem tag body _ = j
  show ∃ y, (tagBody X (parseTagF X body.length) tag ⟨some x, Reader.new body, j⟩).2.ctx = some y ∧ _
  generalize parseTagF X body.length = recur
  by_cases h1 : tag = 1
  · subst h1
    refine ⟨{ x with mode := .pubEnc }, ?_, rfl, fun h => h, rfl⟩
    show (tag01 ⟨some x, Reader.new body, j⟩).2.ctx = _
    unfold Gpgpdump.tag01
    refine ctx_session ?_ x _ j
    moves <;> first | apply Moves.parseSes | apply Moves.unknownData
  by_cases h3 : tag = 3
  · subst h3
    refine ⟨{ x with mode := .symEnc }, ?_, rfl, fun h => h, rfl⟩
    show (tag03 ⟨some x, Reader.new body, j⟩).2.ctx = _
    unfold Gpgpdump.tag03
    refine ctx_session ?_ x _ j
    moves <;> first | apply Moves.s2kParse | apply Moves.unknownData
  by_cases h9 : tag ∈ [9, 18]
  · refine ⟨{ x with mode := .notSpecified }, ?_, rfl, fun h => h, ?_⟩
    · simp only [List.mem_cons, List.not_mem_nil, or_false] at h9
      rcases h9 with rfl | rfl <;> rfl
    · unfold remembered; rw [if_neg h1, if_neg h3, if_pos h9]; rfl
  by_cases hk : tag ∈ [5, 6, 7, 14]
  · refine ⟨keyPacketCtx x body, ?_, keyPacketCtx_opts x body, fun h => keyPacketCtx_consistent x h body, keyPacketCtx_hist x body tag hk⟩
    simp only [List.mem_cons, List.not_mem_nil, or_false] at hk
    rcases hk with rfl | rfl | rfl | rfl
    · exact ctx_tag05 x body j
    · exact ctx_tag06 x body j
    · exact ctx_tag05 x body j
    · exact ctx_tag06 x body j
  · refine ⟨x, ?_, rfl, fun h => h, ?_⟩
    · simp only [List.mem_cons, List.not_mem_nil, or_false] at hk h9
      exact ctx_same (.tagBody X tag (fun h => absurd h h1) (fun h => absurd h ht) (fun h => absurd h h3) (fun h => absurd h hk) fun h => absurd h h9) _
    · unfold remembered; rw [if_neg h1, if_neg h3, if_neg h9, if_neg hk]

/-- No call changes the options of the context, whatever the tag and the outcome, and none makes a context where there is none. -/
theorem C98_options (c : Option Ctx) (tag : Nat) (body : Bytes) : (tagOnce X c tag body).2.map Ctx.opts = c.map Ctx.opts := by
  have hf := congrArg (fun s : Res Item × St => s.2.ctx) (C98_fresh (X := X) tag body (St.at c [] [] (newItem [] [] [] [])))
  have hf : (parseTag X tag body (St.at c [] [] (newItem [] [] [] []))).2.ctx = (tagOnce X c tag body).2 := hf
  rw [← hf]
  exact ((parseTagF_opts X (body.length + 1) tag body).run _).symm

/-- Hypotheses met, with an error each time: a public key cut behind its algorithm, one cut inside the creation time, and an empty session key packet. -/
theorem C98_memory_example : (withError (tagOnce Tests.X (some Ctx.later) 6 [4, 0, 0, 0, 10, 1])).isSome ∧
    remembered 6 [4, 0, 0, 0, 10, 1] (hist (some Ctx.later)) = { key := some 10 } ∧
    (withError (tagOnce Tests.X (some Ctx.later) 6 [4, 0, 0, 0])).isSome ∧
    remembered 6 [4, 0, 0, 0] (hist (some Ctx.later)) = { key := some 1 } ∧
    (withError (tagOnce Tests.X (some Ctx.later) 3 [])).isSome ∧
    remembered 3 [] (hist (some Ctx.later)) = { session := .symEnc, key := some 1 } :=
  ⟨by decide +kernel, rfl, by decide +kernel, rfl, by decide +kernel, rfl⟩

end Gpgpdump
