import Verif.TagsApi
import Verif.ThmSubsOutcome

/-!
# C98: what `Parse` of a packet made by `NewTag` gives, for any packet and any number of calls
-/

namespace Gpgpdump
open P Spec

namespace Spec

/-- the first call of `Parse` on a new packet: the answer and the context afterwards -/
def tagOnce (X : Ext) (c : Option Ctx) (tag : Nat) (body : Bytes) : Returned × Option Ctx :=
  (((TagObj.new tag body).full X c).1, ((TagObj.new tag body).full X c).2.1)

/-- calls of `Parse` on a packet with contents of `n` octets, where `u` is not yet read and `left` tells what one call leaves -/
def tagCalls (X : Ext) (left : Option Ctx → Bytes → Bytes) (tag : Nat) (n : Nat) : List (Option Ctx) → Bytes → List (Returned × Option Ctx)
  | [], _ => []
  | c :: cs, u => (sized n (tagOnce X c tag u).1, (tagOnce X c tag u).2) :: tagCalls X left tag n cs (left c u)

end Spec

variable {X : Ext}

theorem full_start (tag : Nat) (b : Bytes) : TagObj.start ⟨tag, Reader.new b⟩ = Reader.new b := by unfold TagObj.start; split <;> rfl

theorem full_obj (o : TagObj) (c : Option Ctx) : (o.full X c).2.2 = (o.parse X c).2.2 ∧ (o.full X c).2.1 = (o.parse X c).2.1 := by
  unfold TagObj.full
  have : (o.parse X c).2.1 = (o.body X ⟨c, o.start, o.header c⟩).2.ctx := rfl
  rw [this]
  rcases o.body X ⟨c, o.start, o.header c⟩ with ⟨r, s⟩
  cases r <;> exact ⟨rfl, rfl⟩

/-- the item is the header line with what was added to it -/
theorem full_cur (o : TagObj) (c : Option Ctx) : ∃ l, (o.body X ⟨c, o.start, o.header c⟩).2.cur = (o.header c).addAll l ∧
    ∀ x, (o.body X ⟨c, o.start, o.header c⟩).1 = .ok x → x.1 = (o.header c).addAll l := by
  have key : ∀ {α β} {m : P α} (_ : Keeps m) (g : α → β) (st : St), ∃ l,
      ((m >>= fun a => getCur >>= fun i => (Pure.pure (i, g a) : P (Item × β))) st).2.cur = st.cur.addAll l ∧
      ∀ x, ((m >>= fun a => getCur >>= fun i => (Pure.pure (i, g a) : P (Item × β))) st).1 = .ok x → x.1 = st.cur.addAll l := by
    intro α β m h g st
    obtain ⟨l, hl⟩ := h.run st
    refine ⟨l, ?_⟩
    rw [bind_run]
    rcases hm : m st with ⟨r, s⟩
    rw [hm] at hl
    cases r with
    | ok a =>
      refine ⟨hl, fun x hx => ?_⟩
      have hx : Res.ok (s.cur, g a) = Res.ok x := hx
      cases hx
      exact hl
    | _ => exact ⟨hl, nofun⟩
  unfold TagObj.body
  split
  · exact key (.tag08 X) (fun a => a) _
  · exact key (.tagBody X _ _) (fun _ => (none : Option Bytes)) _

/-- Whatever was called before: `Parse` never gives a nil item; with or without an error it is the header line, with rows added: the name is
that of the tag, the note the size of the whole contents, the dump that of the octets not yet read, if it is asked for. -/
theorem C98_item (o : TagObj) (c : Option Ctx) (i : Option Item) (e : Option GoErr) (h : (o.full X c).1 = .ret i e) :
    ∃ j, i = some j ∧ j.name = tagStr o.tag ∧ j.value = [] ∧ j.note = nBytes o.start.size ∧
      j.dump = dumpRest o.start (ctxFlag (tagDumpFlag o.tag) c) := by
  obtain ⟨l, h1, h2⟩ := full_cur (X := X) o c
  unfold TagObj.full at h
  rcases hz : o.body X ⟨c, o.start, o.header c⟩ with ⟨r, st⟩
  rw [hz] at h h1 h2
  cases r with
  | ok a => cases h; exact ⟨_, rfl, by rw [h2 a rfl]; exact ⟨rfl, rfl, rfl, rfl⟩⟩
  | err x => cases h; exact ⟨_, rfl, by rw [h1]; exact ⟨rfl, rfl, rfl, rfl⟩⟩
  | panic x => cases h
  | stuck => cases h

/-- The call inside a packet sequence is the first call on a new packet, but its item is dropped when there is an error. -/
theorem C98_fresh (tag : Nat) (body : Bytes) (st : St) : parseTag X tag body st =
    ((match ((TagObj.new tag body).full X st.ctx).1 with
      | .ret (some i) none => .ok i
      | .ret _ (some e) => .err e
      | .panic s => .panic s
      | _ => .stuck), { st with ctx := ((TagObj.new tag body).full X st.ctx).2.1 }) := by
  have hstart := full_start tag body
  have hhead : TagObj.header ⟨tag, Reader.new body⟩ st.ctx = tagItem tag body (ctxFlag (tagDumpFlag tag) st.ctx) := by
    unfold TagObj.header; rw [hstart]; rfl
  have hrem : (TagObj.start ⟨tag, Reader.new body⟩).remaining.length = body.length := by rw [hstart]; rfl
  have hbody : ∀ s, (tagBody X (parseTagF X body.length) tag >>= fun _ => getCur) s =
      ((TagObj.body X ⟨tag, Reader.new body⟩ s).1.map (·.1), (TagObj.body X ⟨tag, Reader.new body⟩ s).2) := by
    intro s
    unfold TagObj.body
    by_cases h8 : tag = 8
    · subst h8
      have ht : tagBody X (parseTagF X body.length) 8 = (tag08 X >>= fun _ => (Pure.pure () : P Unit)) := rfl
      rw [if_pos rfl, bind_run, ht, bind_run, bind_run]
      rcases tag08 X s with ⟨r, s'⟩
      cases r <;> rfl
    · simp only [if_neg h8]
      rw [hrem, bind_run, bind_run]
      rcases tagBody X (parseTagF X body.length) tag s with ⟨r, s'⟩
      cases r <;> rfl
  have hp : parseTag X tag body st =
      (((tagBody X (parseTagF X body.length) tag >>= fun _ => getCur) ⟨st.ctx, Reader.new body, tagItem tag body (ctxFlag (tagDumpFlag tag) st.ctx)⟩).1,
        { st with ctx := ((tagBody X (parseTagF X body.length) tag >>= fun _ => getCur) ⟨st.ctx, Reader.new body, tagItem tag body (ctxFlag (tagDumpFlag tag) st.ctx)⟩).2.ctx }) := rfl
  rw [hp, hbody]
  unfold TagObj.new TagObj.full
  rw [hstart, hhead]
  rcases TagObj.body X ⟨tag, Reader.new body⟩ ⟨st.ctx, Reader.new body, tagItem tag body (ctxFlag (tagDumpFlag tag) st.ctx)⟩ with ⟨r, s⟩
  cases r <;> rfl

/-- What the first `Parse` gives on any packet: with a context it succeeds exactly on the packets of the grammar, gives an error exactly where
the grammar of errors says and with that cause, and panics exactly where the grammar of panics says. Without a context it panics for want of it
exactly on the packets that need one. -/
theorem C98_outcome (hX : OwnErrors X) (tag : Nat) (body : Bytes) :
    (∀ x, (∃ i, (tagOnce X (some x) tag body).1 = .ret i none) ↔ Spec.Acc X tag body) ∧
    (∀ x c, (∃ i e, (tagOnce X (some x) tag body).1 = .ret i (some e) ∧ e.cause = c) ↔ Fails X c tag body) ∧
    (∀ x site, (tagOnce X (some x) tag body).1 = .panic site ↔ Pan X site tag body) ∧
    ((tagOnce X none tag body).1 = .panic .nilCtx ↔ Needs X tag body) := by
  have hf := fun c => C98_fresh (X := X) tag body (St.at c [] body (newItem [] [] [] []))
  have hc : ∀ c, (St.at c [] body (newItem [] [] [] [])).ctx = c := fun _ => rfl
  simp only [hc] at hf
  have hit : ∀ c e, ((TagObj.new tag body).full X c).1 ≠ .ret none e := fun c e h => by
    obtain ⟨j, h, -⟩ := C98_item _ c _ _ h; cases h
  have all : ∀ c, ((∃ i, (tagOnce X c tag body).1 = .ret i none) ↔ ∃ a s, parseTag X tag body (St.at c [] body (newItem [] [] [] [])) = (.ok a, s)) ∧
      (∀ k, (∃ i e, (tagOnce X c tag body).1 = .ret i (some e) ∧ e.cause = k) ↔
        ∃ e s, parseTag X tag body (St.at c [] body (newItem [] [] [] [])) = (.err e, s) ∧ e.cause = k) ∧
      (∀ site, (tagOnce X c tag body).1 = .panic site ↔ ∃ s, parseTag X tag body (St.at c [] body (newItem [] [] [] [])) = (.panic site, s)) := by
    intro c
    rw [hf c]
    have hn := hit c
    unfold tagOnce
    generalize (TagObj.new tag body).full X c = z at hn
    obtain ⟨r, s⟩ := z
    simp only at hn ⊢
    cases r with
    | ret i e =>
      cases i with
      | none => exact absurd rfl (hn e)
      | some i => cases e <;> simp
    | _ => simp
  have s0 := Sub.parseTag (X := X) tag body
  refine ⟨fun x => ?_, fun x c => ?_, fun x site => ?_, ?_⟩
  · rw [(all _).1, ← innerOK_iff hX]
    exact ⟨fun ⟨a, s, h⟩ => (s0.sound x _ _ _ a s h).1, fun h => by obtain ⟨a, x', h⟩ := s0.complete x _ _ _ h; exact ⟨a, _, h⟩⟩
  · rw [(all _).2.1, (Errs.parseTag hX tag body).run x]
  · rw [(all _).2.2, (Pans.parseTag hX tag body).run x]
  · rw [(all _).2.2, (Nils.parseTag hX tag body).run]

/-- one call is the first call on a new packet with the octets not yet read -/
theorem full_renew (o : TagObj) (h : o.Ok) (c : Option Ctx) : (o.full X c).1 = sized o.rd.size (o.renew.full X c).1 := by
  by_cases hu : o.tag ∈ usesUp
  · have h7 : ¬ (o.tag = 7 ∨ o.tag = 14) := by rintro (h | h) <;> rw [h] at hu <;> exact absurd hu (by decide)
    by_cases hb : o.rd.off ≤ o.rd.size
    · obtain ⟨tag, rd⟩ := o
      simp only at hu h7 hb
      have hsplit := reader_split rd hb
      generalize hq : rd.remaining = q
      generalize hp : rd.buf.take rd.off = p
      have hrd : rd = ⟨p ++ q, p.length⟩ := by rw [← hq, ← hp]; exact hsplit
      clear hsplit hp hq h
      subst hrd
      have hrem : ∀ p : Bytes, (⟨p ++ q, p.length⟩ : Reader).remaining = q := fun p => by simp [Reader.remaining]
      have hst : ∀ p : Bytes, TagObj.start ⟨tag, ⟨p ++ q, p.length⟩⟩ = ⟨p ++ q, p.length⟩ := fun p => by unfold TagObj.start; exact if_neg h7
      have key : ∃ (r : Res (Option Bytes)) (c' : Option Ctx) (l : List Item), ∀ p j, ∃ rd : Reader,
          TagObj.body X ⟨tag, ⟨p ++ q, p.length⟩⟩ ⟨c, ⟨p ++ q, p.length⟩, j⟩ = (r.map fun d => (j.addAll l, d), ⟨c', rd, j.addAll l⟩) := by
        by_cases h8 : tag = 8
        · obtain ⟨r, u, c', l, -, hr⟩ := (Loose.tag08 X).cur (fun a => a) c q
          refine ⟨r, c', l, fun p j => ?_⟩
          obtain ⟨rd, h1, -⟩ := hr p j
          refine ⟨rd, ?_⟩
          unfold TagObj.body
          simp only [if_pos h8]
          exact h1
        · obtain ⟨r, u, c', l, -, hr⟩ := (Loose.of (over := false) (Local.tagBody X (parseTagF X q.length) hu h8)).cur (fun _ => (none : Option Bytes)) c q
          refine ⟨r.map fun _ => none, c', l, fun p j => ?_⟩
          obtain ⟨rd, h1, -⟩ := hr p j
          refine ⟨rd, ?_⟩
          unfold TagObj.body
          simp only [if_neg h8, hst, hrem]
          refine Eq.trans h1 ?_
          cases r <;> rfl
      obtain ⟨r, c', l, hk⟩ := key
      have hren : TagObj.renew ⟨tag, ⟨p ++ q, p.length⟩⟩ = ⟨tag, ⟨[] ++ q, ([] : Bytes).length⟩⟩ := by
        unfold TagObj.renew
        rw [hrem]
        rfl
      obtain ⟨rd1, h1⟩ := hk p (TagObj.header ⟨tag, ⟨p ++ q, p.length⟩⟩ c)
      obtain ⟨rd2, h2⟩ := hk [] (TagObj.header ⟨tag, ⟨[] ++ q, ([] : Bytes).length⟩⟩ c)
      rw [hren]
      unfold TagObj.full
      rw [hst, hst, h1, h2, header_at _ _ _ _ h7]
      cases r <;> rfl
    · have h8 : o.tag = 8 := Classical.byContradiction fun h8 => absurd (h.bound h8) hb
      obtain ⟨tag, rd⟩ := o
      cases h8
      simp only at hb
      have hrem : rd.remaining = [] := by
        unfold Reader.remaining
        exact List.drop_eq_nil_of_le (by have : rd.size = rd.buf.length := rfl; omega)
      have hn : TagObj.renew ⟨8, rd⟩ = ⟨8, Reader.new []⟩ := by unfold TagObj.renew; rw [hrem]
      have hst : ∀ rd, TagObj.start ⟨8, rd⟩ = rd := fun _ => rfl
      have he : ∀ (rd : Reader) (j : Item), rd.size ≤ rd.off → TagObj.body X ⟨8, rd⟩ ⟨c, rd, j⟩ = (.err (wrapErr .eof), ⟨c, rd, j⟩) := fun rd j h => by
        unfold TagObj.body
        rw [if_pos rfl, bind_run, tag08_end X _ h]
      rw [hn]
      unfold TagObj.full
      rw [hst, hst, he rd _ (by omega), he (Reader.new []) _ (by decide)]
      have hd : ∀ f, dumpRest rd f = dumpRest (Reader.new []) f := fun f => by
        rw [dumpRest_new]
        unfold dumpRest Reader.dumpString
        rw [if_pos (show rd.off ≥ rd.size by omega)]
        cases f <;> rfl
      unfold TagObj.header
      simp only [hst, hd]
      rfl
  · obtain ⟨tag, buf, off⟩ := o
    cases h.still hu
    have hn : TagObj.renew ⟨tag, ⟨buf, 0⟩⟩ = TagObj.new tag buf := rfl
    rw [hn]
    show ((TagObj.new tag buf).full X c).1 = _
    have hi := C98_item (X := X) (TagObj.new tag buf) c
    have hs : (TagObj.new tag buf).start = Reader.new buf := full_start tag buf
    rw [hs] at hi
    rcases hz : ((TagObj.new tag buf).full X c).1 with ⟨i, e⟩ | _ | _
    · obtain ⟨⟨n, v, d, t, k⟩, rfl, -, -, hnote, -⟩ := hi i e hz
      have hnote : t = nBytes buf.length := hnote
      subst hnote
      rfl
    · rfl
    · rfl

/-- a program that, with a context, reads at least one octet if there is one -/
def Gains {α} (m : P α) : Prop := ∀ x p b q j, (m (St.at (some x) p (b :: q) j)).2.rd.remaining <:+ q

namespace Gains
theorem read {α} {f : UInt8 → P α} (h : ∀ b, Loose true (f b)) : Gains (readByte >>= f) := fun x p b q j => by
  obtain ⟨r, u, c', l, hu, hr⟩ := (h b).run (some x) q
  obtain ⟨rd, h1, -, h3, -⟩ := hr (p ++ [b]) j
  rw [bind_run, readByte_cons]
  show ((f b (St.at (some x) (p ++ [b]) q j)).2.rd.remaining) <:+ q
  rw [h1]
  exact h3 ▸ hu
theorem mode {α} {m : Mode} {n : P α} (h : Gains n) : Gains (setMode m >>= fun _ => n) := fun x p b q j => h { x with mode := m } p b q j
theorem cur {α β} {m : P α} (h : Gains m) (g : α → β) : Gains (m >>= fun a => getCur >>= fun i => (Pure.pure (i, g a) : P (Item × β))) := fun x p b q j => by
  have := h x p b q j
  rw [bind_run]
  rcases hm : m (St.at (some x) p (b :: q) j) with ⟨r, s⟩
  rw [hm] at this
  cases r <;> exact this

theorem tagBody (X : Ext) (recur : TagParser) {t : Nat} (h : t ∈ usesUp) (h8 : t ≠ 8) : Gains (tagBody X recur t) := by
  simp only [usesUp, List.mem_cons, List.not_mem_nil, or_false] at h
  rcases h with rfl | rfl | rfl | rfl | rfl | rfl | rfl | rfl | rfl
  · show Gains tag01
    unfold tag01
    exact mode (read fun _ => .of (by islocal))
  · show Gains (tag02 X recur)
    have := Local.tag02v3 X
    have := Local.tag02v4 X recur
    unfold tag02
    exact read fun _ => .of (by islocal)
  · show Gains tag03
    unfold tag03
    exact mode (read fun _ => .of (by islocal))
  · show Gains tag04
    unfold tag04
    exact read fun _ => .of (by islocal)
  · show Gains (tag05 X)
    unfold tag05
    exact read fun v => .of (.bind (.flag _) fun _ => .bind (.add _) fun _ => .bind (.nested _ (.of (.pubkeyParse X _))) fun _ =>
      .bind (.nested _ (Local.seckeyParse _ _)) fun _ => .unknownData)
  · show Gains (tag06 X)
    unfold tag06
    exact read fun v => .of (.bind (.flag _) fun _ => .bind (.add _) fun _ => .bind (.pubkeyParse X _) fun _ => .unknownData)
  · exact absurd rfl h8
  · show Gains (tag11 X)
    unfold tag11
    exact read fun _ => .of (by islocal)
  · show Gains tag20
    unfold tag20
    exact read fun _ => .of (by islocal)
end Gains

theorem gains (x : Ctx) (tag : Nat) (b : UInt8) (q : Bytes) (h : tag ∈ usesUp) : leftBy X (some x) tag (b :: q) <:+ q := by
  have h7 : ¬ (tag = 7 ∨ tag = 14) := by rintro (rfl | rfl) <;> (revert h; decide)
  obtain ⟨rd', hp, hr⟩ := parse_new X (some x) tag (b :: q)
  have hl : leftBy X (some x) tag (b :: q) = rd'.remaining := by unfold leftBy; rw [hp]
  rw [hl, hr h7]
  unfold TagObj.body
  split
  · obtain ⟨f, hf, h'⟩ := tag08_head X
    rw [hf]
    exact (Gains.read h').cur (fun a => a) x [] b q _
  · rename_i h8
    exact (Gains.tagBody X _ h h8).cur (fun _ => (none : Option Bytes)) x [] b q _

/-- Any calls of `Parse`, whatever is done with the context in between: each gives the item, the error or the panic that the first call on a
new packet with the octets not yet read gives, but the note says the size of the whole contents. What a call leaves are last octets of what it
got: all of them, if the packet is not one of those that are used up, and otherwise fewer, with or without an error. The last row of a session
key, one-pass signature, key or literal packet tells how many. -/
theorem C98_history (X : Ext) : ∃ left : Option Ctx → Nat → Bytes → Bytes,
    (∀ cs tag body, (TagObj.new tag body).fulls X cs = tagCalls X (fun c => left c tag) tag body.length cs body) ∧
    (∀ c tag u, left c tag u <:+ u) ∧ (∀ c tag u, tag ∉ usesUp → left c tag u = u) ∧
    (∀ x tag b q, tag ∈ usesUp → left (some x) tag (b :: q) <:+ q) ∧
    (∀ c tag u i, tag ∈ showsRest → (tagOnce X c tag u).1 = .ret (some i) none →
      ∃ l rows, i.items = l ++ rows ∧ RestRows tag (left c tag u) rows) := by
  refine ⟨leftBy X, ?_, fun c tag u => (renewed X c (ok_new tag u)).suffix, fun c tag u h => (renewed X c (ok_new tag u)).same h,
    gains, fun c tag u i h e => shows_rest X c tag u i h ?_⟩
  rotate_left
  · have h8 : tag ≠ 8 := by rintro rfl; revert h; decide
    unfold tagOnce TagObj.new TagObj.full at e
    unfold once PacketsObj.parse PacketsObj.show TagObj.parse
    dsimp only at e ⊢
    rcases hb : TagObj.body X ⟨tag, Reader.new u⟩ ⟨c, TagObj.start ⟨tag, Reader.new u⟩, TagObj.header ⟨tag, Reader.new u⟩ c⟩ with ⟨r, st⟩
    rw [hb] at e
    cases r with
    | ok a =>
      obtain ⟨a, d⟩ := a
      cases e
      cases d with
      | none => rfl
      | some d =>
        unfold TagObj.body at hb
        simp only [if_neg h8] at hb
        rw [bind_run] at hb
        split at hb
        · cases hb
        all_goals cases hb
    | err y => exact absurd e (by nofun)
    | panic y => exact absurd e (by nofun)
    | stuck => exact absurd e (by nofun)
  have key : ∀ cs (o : TagObj), o.Ok → o.fulls X cs = tagCalls X (fun c => leftBy X c o.tag) o.tag o.rd.size cs o.rd.remaining := by
    intro cs
    induction cs with
    | nil => exact fun _ _ => rfl
    | cons c cs ih =>
      intro o ho
      have R := renewed X c ho
      have hobj := full_obj (X := X) o c
      have hobj' := full_obj (X := X) o.renew c
      unfold TagObj.fulls tagCalls
      rw [hobj.1, ih _ R.ok, R.tag, R.size, R.unread, full_renew o ho c, hobj.2, R.ctx, ← hobj'.2]
      rfl
  exact fun cs tag body => key cs _ (ok_new tag body)

/-- what the user sees of an answer: names of the header line and the rows, the note, and the cause of the error -/
def Spec.peek : Returned × Option Ctx → List Str × Option Cause
  | (.ret i e, _) => ((i.map fun i => i.name :: i.note :: i.items.map Item.name).getD [], e.map GoErr.cause)
  | _ => ([], none)

/-- A cut one-pass signature: the first call gives the version row and an error, the second one only the header line. A whole one is read once;
a marker packet as often as wanted. -/
theorem C98_example :
    ((TagObj.new 4 [3]).fulls Tests.X [some Ctx.empty, some Ctx.empty]).map peek =
      [([S "One-Pass Signature Packet (tag 4)", S "1 bytes", S "Version"], some .eof),
        ([S "One-Pass Signature Packet (tag 4)", S "1 bytes"], some .eof)] ∧
    ((TagObj.new 10 [0x50, 0x47, 0x50]).fulls Tests.X [some Ctx.empty, none]).map peek =
      [([S "Marker Packet (Obsolete Literal Packet) (tag 10)", S "3 bytes", S "Literal data"], none),
        ([S "Marker Packet (Obsolete Literal Packet) (tag 10)", S "3 bytes", S "Literal data"], none)] ∧
    Fails Tests.X .eof 4 [3] ∧ Spec.Acc Tests.X 10 [0x50, 0x47, 0x50] := by
  have hx := C98_outcome tests_own
  have h : ∀ tag b, (match (tagOnce Tests.X (some Ctx.empty) tag b).1 with | .ret _ (some e) => decide (e.cause = .eof) | _ => false) = true →
      Fails Tests.X .eof tag b := fun tag b h => by
    refine ((hx tag b).2.1 Ctx.empty .eof).mp ?_
    split at h
    · rename_i i e heq; exact ⟨i, e, heq, of_decide_eq_true h⟩
    · cases h
  have h' : ∀ tag b, (match (tagOnce Tests.X (some Ctx.empty) tag b).1 with | .ret _ none => true | _ => false) = true →
      Spec.Acc Tests.X tag b := fun tag b h => by
    refine ((hx tag b).1 Ctx.empty).mp ?_
    split at h
    · rename_i i heq; exact ⟨i, heq⟩
    · cases h
  exact ⟨by decide +kernel, by decide +kernel, h _ _ (by decide +kernel), h' _ _ (by decide +kernel)⟩

end Gpgpdump
