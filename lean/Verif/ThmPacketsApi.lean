import Verif.PacketsApi
import Verif.LocalTags
import Verif.Tests

/-!
# C76: `tags.Packets` with `Next` and `Parse` called in any order

`Parse` shows the current packet as if it consisted of the octets that no earlier `Parse` has read; only the number of bytes in the
header line is that of the whole packet. A failing `Next` leaves the current packet in place.
-/

namespace Gpgpdump
open Spec P Src

namespace Spec

/-- the tags of packets whose octets are used up by `Parse` -/
def usesUp : List Nat := [1, 2, 3, 4, 5, 6, 8, 11, 20]

/-- the current packet: its tag, the size of its contents, and the octets of them that are not yet read -/
structure Current where
  tag : Nat
  size : Nat
  unread : Bytes

/-- the header line shows `n` bytes -/
def sized (n : Nat) : Returned → Returned
  | .ret i e => .ret (i.map (·.setNote (nBytes n))) e
  | .panic s => .panic s
  | .stuck => .stuck

/-- `Parse` right after a successful `Next` that delivered a packet with tag `tag` and contents `body`: the answer and the
context afterwards -/
def once (X : Ext) (c : Option Ctx) (tag : Nat) (body : Bytes) : Returned × Option Ctx :=
  (((⟨Src.ofBytes [], c, some ⟨tag, Reader.new body⟩⟩ : PacketsObj).parse X).1,
    ((⟨Src.ofBytes [], c, some ⟨tag, Reader.new body⟩⟩ : PacketsObj).parse X).2.ctx)

/-- what a caller needs to know: the rest of the input, the context and the current packet -/
structure Place where
  src : Src
  ctx : Option Ctx
  cur : Option Current

/-- `Next` moves to the next packet of the input, if there is one -/
def Place.next (X : Ext) (k : Place) : Option GoErr × Place :=
  match opaqueNext X k.src with
  | (.error e, s) => (some e.wrap, { k with src := s })
  | (.ok (tag, body), s) => (none, ⟨s, k.ctx, some ⟨tag, body.length, body⟩⟩)

/-- `Parse` with a current packet; `left` tells what is not read -/
def Place.show (X : Ext) (left : Option Ctx → Nat → Bytes → Bytes) (k : Place) (q : Current) : Returned × Place :=
  (sized q.size (once X k.ctx q.tag q.unread).1,
    ⟨k.src, (once X k.ctx q.tag q.unread).2, some { q with unread := left k.ctx q.tag q.unread }⟩)

/-- `Parse` -/
def Place.parse (X : Ext) (left : Option Ctx → Nat → Bytes → Bytes) (k : Place) : Returned × Place :=
  match k.cur with
  | some q => k.show X left q
  | none =>
    match opaqueNext X k.src with
    | (.error e, s) => (.ret none (if e.isEOF then none else some e.wrap), { k with src := s })
    | (.ok (tag, body), s) => (⟨s, k.ctx, none⟩ : Place).show X left ⟨tag, body.length, body⟩

def Place.call (X : Ext) (left : Option Ctx → Nat → Bytes → Bytes) (k : Place) : PacketsCall → PacketsAnswer × Place
  | .next => (.next (k.next X).1, (k.next X).2)
  | .parse => (.parse (k.parse X left).1, (k.parse X left).2)

def Place.calls (X : Ext) (left : Option Ctx → Nat → Bytes → Bytes) : List PacketsCall → Place → List PacketsAnswer × Option Ctx
  | [], k => ([], k.ctx)
  | m :: ms, k => ((k.call X left m).1 :: (Place.calls X left ms (k.call X left m).2).1, (Place.calls X left ms (k.call X left m).2).2)

/-- the packets at whose end `Parse` shows how much it has left unread -/
def showsRest : List Nat := [1, 3, 4, 5, 6, 11]

/-- the rows at the end of a packet of which the octets `u` are not read -/
def RestRows (tag : Nat) (u : Bytes) (rows : List Item) : Prop :=
  if tag = 11 then ∃ d, rows = [newItem (S "Literal data") [] (nBytes u.length) d]
  else if u = [] then rows = [] else ∃ d, rows = [newItem (S "Unknown data") [] (nBytes u.length) d]

/-- the same outcome, an error wrapped once more -/
def wrapped : Res Unit → Res Unit
  | .err e => .err e.wrap
  | r => r

end Spec

/-! ## Methods that do not look at the reader -/

structure Blind {α} (m : P α) : Prop where
  run : ∀ c, ∃ r c' l, ∀ rd j, m ⟨c, rd, j⟩ = (r, ⟨c', rd, j.addAll l⟩)

namespace Blind
theorem pure {α} (a : α) : Blind (Pure.pure a : P α) := ⟨fun c => ⟨.ok a, c, [], fun rd j => by rw [pure_run, Item.addAll_nil]⟩⟩
theorem fail {α} (e : GoErr) : Blind (P.fail e : P α) := ⟨fun c => ⟨.err e, c, [], fun rd j => by rw [fail_run, Item.addAll_nil]⟩⟩
theorem stuck {α} : Blind (P.stuck : P α) := ⟨fun c => ⟨.stuck, c, [], fun _ _ => by rw [Item.addAll_nil]; rfl⟩⟩
theorem flag (f) : Blind (P.flag f) := ⟨fun c => ⟨.ok (ctxFlag f c), c, [], fun rd j => by rw [flag_run, Item.addAll_nil]⟩⟩
theorem add (i) : Blind (P.add i) := ⟨fun c => ⟨.ok (), c, [i], fun _ _ => rfl⟩⟩
theorem scope {α} (body : Bytes) (hdr : Item) (m : P α) : Blind (P.scope body hdr m) :=
  ⟨fun c => ⟨(m (St.at c [] body hdr)).1, (m (St.at c [] body hdr)).2.ctx, [], fun rd j => by rw [scope_run, Item.addAll_nil]⟩⟩
theorem bind {α β} {m : P α} {f : α → P β} (h : Blind m) (h' : ∀ a, Blind (f a)) : Blind (m >>= f) := by
  constructor
  intro c
  obtain ⟨r, c1, l, h1⟩ := h.run c
  cases r with
  | ok a =>
    obtain ⟨r, c2, l', h2⟩ := (h' a).run c1
    refine ⟨r, c2, l ++ l', fun rd j => ?_⟩
    rw [bind_run, h1]
    show f a _ = _
    rw [h2, Item.addAll_addAll]
  | err e => exact ⟨.err e, c1, l, fun rd j => by rw [bind_run, h1]⟩
  | panic e => exact ⟨.panic e, c1, l, fun rd j => by rw [bind_run, h1]⟩
  | stuck => exact ⟨.stuck, c1, l, fun rd j => by rw [bind_run, h1]⟩

variable (X : Ext)
theorem parseTagF (f t b) : Blind (parseTagF X f t b) := by
  cases f with
  | zero => exact stuck
  | succ f => exact bind (flag _) fun _ => scope _ _ _
theorem forPackets {recur : TagParser} (h : ∀ t b, Blind (recur t b)) (f s) : Blind (forPackets X recur f s) := by
  induction f generalizing s with
  | zero => exact stuck
  | succ f ih =>
    unfold Gpgpdump.forPackets
    split
    · split
      · exact pure _
      · exact fail _
    · exact bind (h _ _) fun _ => bind (add _) fun _ => ih _
theorem packetLoop (s) : Blind (packetLoop X (parseTag X) s) := forPackets X (fun t b => parseTagF X _ t b) _ _
end Blind

/-! ## One call -/

/-- `Local`, where the reader may also have been moved behind the end (if `over` is set) -/
structure Loose (over : Bool) {α} (m : P α) : Prop where
  run : ∀ c q, ∃ r u c' l, u <:+ q ∧ ∀ p j, ∃ rd, m (St.at c p q j) = (r, ⟨c', rd, j.addAll l⟩) ∧ rd.buf = p ++ q ∧ rd.remaining = u ∧
    (over = false → rd.off ≤ rd.size)

theorem Loose.of {over α} {m : P α} (h : Local m) : Loose over m := ⟨fun c q => by
  obtain ⟨r, n, c', l, hn, h⟩ := h.run c q
  exact ⟨r, q.drop n, c', l, List.drop_suffix _ _, fun p j => ⟨_, h p j, by simp, by simp [Reader.remaining], fun _ => by simp [Reader.size]; omega⟩⟩⟩

theorem Blind.isLocal {α} {m : P α} (h : Blind m) : Local m := ⟨fun c q => by
  obtain ⟨r, c', l, h⟩ := h.run c
  exact ⟨r, 0, c', l, by simp, fun p j => by rw [St.at, h]; simp [St.at]⟩⟩

theorem Loose.bind {over α β} {m : P α} {f : α → P β} (h : Local m) (h' : ∀ a, Loose over (f a)) : Loose over (m >>= f) := by
  constructor
  intro c q
  obtain ⟨r, n, c1, l, hn, h1⟩ := h.run c q
  cases r with
  | ok a =>
    obtain ⟨r, u, c2, l', hu, h2⟩ := (h' a).run c1 (q.drop n)
    refine ⟨r, u, c2, l ++ l', hu.trans (List.drop_suffix _ _), fun p j => ?_⟩
    obtain ⟨rd, h3, h4, h5⟩ := h2 (p ++ q.take n) (j.addAll l)
    refine ⟨rd, ?_, by rw [h4]; simp, h5⟩
    rw [bind_run, h1]
    show f a _ = _
    rw [h3, Item.addAll_addAll]
  | err e => exact ⟨.err e, _, c1, l, List.drop_suffix n q, fun p j => ⟨_, by rw [bind_run, h1]; rfl, by simp, by simp [Reader.remaining], fun _ => by simp [Reader.size]; omega⟩⟩
  | panic e => exact ⟨.panic e, _, c1, l, List.drop_suffix n q, fun p j => ⟨_, by rw [bind_run, h1]; rfl, by simp, by simp [Reader.remaining], fun _ => by simp [Reader.size]; omega⟩⟩
  | stuck => exact ⟨.stuck, _, c1, l, List.drop_suffix n q, fun p j => ⟨_, by rw [bind_run, h1]; rfl, by simp, by simp [Reader.remaining], fun _ => by simp [Reader.size]; omega⟩⟩

theorem Loose.reader {over β} {f : Reader → P β} (g : Bytes → P β) (h : ∀ p q, f ⟨p ++ q, p.length⟩ = g q) (hg : ∀ q, Loose over (g q)) :
    Loose over (P.reader >>= f) := by
  constructor
  intro c q
  obtain ⟨r, u, c', l, hu, h'⟩ := (hg q).run c q
  refine ⟨r, u, c', l, hu, fun p j => ?_⟩
  obtain ⟨rd, h1, h2⟩ := h' p j
  exact ⟨rd, by rw [bind_run, reader_run]; simp only [St.at_rd, h, h1], h2⟩

theorem Loose.read2EOF {β} {f : Bytes → P β} (h : ∀ b, Blind (f b)) : Loose true (P.read2EOF >>= f) := by
  constructor
  intro c q
  by_cases hq : q = []
  · subst hq
    refine ⟨.err (wrapErr .eof), [], c, [], List.suffix_refl _, fun p j => ⟨(St.at c p [] j).rd, ?_, rfl, by simp [Reader.remaining], fun h => by cases h⟩⟩
    rw [bind_run]
    have : P.read2EOF (St.at c p [] j) = (.err (wrapErr .eof), St.at c p [] j) := by simp [P.read2EOF, Reader.read2EOF, St.at, Reader.size]
    rw [this, Item.addAll_nil]
    rfl
  · obtain ⟨r, c', l, h'⟩ := (h q).run c
    refine ⟨r, [], c', l, List.nil_suffix, fun p j => ⟨⟨p ++ q, p.length + (p ++ q).length⟩, ?_, rfl, ?_, fun h => by cases h⟩⟩
    · have hl : 0 < q.length := List.length_pos_iff.mpr hq
      have : P.read2EOF (St.at c p q j) = (.ok q, ⟨c, ⟨p ++ q, p.length + (p ++ q).length⟩, j⟩) := by
        have hr : (⟨p ++ q, p.length⟩ : Reader).read2EOF = (.ok q, ⟨p ++ q, p.length + (p ++ q).length⟩) := by
          unfold Reader.read2EOF
          rw [if_neg (by simp [Reader.size]; omega)]
          simp [Reader.size]
        show ((⟨p ++ q, p.length⟩ : Reader).read2EOF.1, (⟨c, (⟨p ++ q, p.length⟩ : Reader).read2EOF.2, j⟩ : St)) = _
        rw [hr]
      rw [bind_run, this]
      show f q _ = _
      rw [h']
    · simp [Reader.remaining]

theorem tag08_head (X : Ext) : ∃ f, tag08 X = readByte >>= f ∧ ∀ b, Loose true (f b) := by
  unfold Gpgpdump.tag08
  refine ⟨_, rfl, fun b => .bind (.flag _) fun d => .bind (.add _) fun _ => ?_⟩
  refine .reader (fun q => if (q.length : Int) > 0 then
    (if b.toNat ≤ 3 then P.read2EOF else Pure.pure [] : P Bytes) >>= fun zd =>
      match (match b.toNat with
        | 0 => .ok zd
        | 1 => copyFrom (X.flate zd)
        | 2 => match X.zlib zd with
          | .error e => .error e.wrap
          | .ok z => copyFrom z
        | 3 => copyFrom (X.bzip2 zd)
        | _ => .ok [] : Except GoErr Bytes) with
      | .ok data => do
        add (newItem (S "Compressed data") [] (nBytes q.length) (if d then Reader.dumpHex q else []))
        return some data
      | .error e =>
        if e.cause = .tooLarge then do
          add ((newItem (S "Compressed data") [] (nBytes q.length) (if d then Reader.dumpHex q else [])).setValue (S "<too laege decompressed data>"))
          return none
        else do
          add (newItem (S "Compressed data") [] (nBytes q.length) (if d then Reader.dumpHex q else []))
          P.fail e.wrap
    else return some []) (fun p q => ?_) fun q => ?_
  · simp only [rest_eq, rawData_at]
    rfl
  · have hb : ∀ zd : Bytes, Blind (match (match b.toNat with
        | 0 => .ok zd
        | 1 => copyFrom (X.flate zd)
        | 2 => match X.zlib zd with
          | .error e => .error e.wrap
          | .ok z => copyFrom z
        | 3 => copyFrom (X.bzip2 zd)
        | _ => .ok [] : Except GoErr Bytes) with
      | .ok data => do
        add (newItem (S "Compressed data") [] (nBytes q.length) (if d then Reader.dumpHex q else []))
        return some data
      | .error e =>
        if e.cause = .tooLarge then do
          add ((newItem (S "Compressed data") [] (nBytes q.length) (if d then Reader.dumpHex q else [])).setValue (S "<too laege decompressed data>"))
          return none
        else do
          add (newItem (S "Compressed data") [] (nBytes q.length) (if d then Reader.dumpHex q else []))
          P.fail e.wrap : P (Option Bytes)) := by
      intro zd
      split
      · exact .bind (.add _) fun _ => .pure _
      · split
        · exact .bind (.add _) fun _ => .pure _
        · exact .bind (.add _) fun _ => .fail _
    split
    · split
      · exact .read2EOF hb
      · exact .of (.bind (.pure _) fun _ => (hb _).isLocal)
    · exact .of (.pure _)

theorem Loose.tag08 (X : Ext) : Loose true (tag08 X) := by
  obtain ⟨f, hf, h⟩ := tag08_head X
  rw [hf]
  exact .bind .readByte h

/-- the reader stays where it is -/
def Still {α} (m : P α) : Prop := ∀ st, (m st).2.rd = st.rd

namespace Still
theorem of_blind {α} {m : P α} (h : Blind m) : Still m := fun st => by
  obtain ⟨r, c', l, h⟩ := h.run st.ctx
  have := h st.rd st.cur
  rw [show (⟨st.ctx, st.rd, st.cur⟩ : St) = st from rfl] at this
  rw [this]
theorem bind {α β} {m : P α} {f : α → P β} (h : Still m) (h' : ∀ a, Still (f a)) : Still (m >>= f) := by
  intro st
  have h1 := h st
  rw [bind_run]
  rcases hm : m st with ⟨r, s⟩
  rw [hm] at h1
  cases r with
  | ok a => exact (h' a s).trans h1
  | _ => exact h1
theorem reader : Still P.reader := fun _ => rfl
theorem build (hdr) {m : P Unit} (h : Still m) : Still (P.build hdr m) := fun st => h { st with cur := hdr }
theorem getMode : Still P.getMode := fun st => by unfold P.getMode P.getCtx; split <;> rfl
theorem setMode (m) : Still (P.setMode m) := fun st => by unfold P.setMode; split <;> rfl
theorem flag (f) : Still (P.flag f) := fun _ => rfl
theorem add (i) : Still (P.add i) := fun _ => rfl
theorem addRaw (n f) : Still (addRaw n f) := fun _ => rfl
theorem subLoop (l) : Still (subLoop parseSub17 l) := by
  induction l with
  | nil => exact fun _ => rfl
  | cons x l ih => exact bind (fun _ => rfl) fun _ => bind (add _) fun _ => ih
theorem tagBody (X : Ext) (recur : TagParser) {t : Nat} (h : t ∉ usesUp) (h7 : t ≠ 7) (h14 : t ≠ 14) : Still (tagBody X recur t) := by
  unfold Gpgpdump.tagBody
  split
  case h_9 => exact bind reader fun _ => bind (flag _) fun _ => bind getMode fun _ => bind (add _) fun _ => setMode _
  case h_10 => exact fun _ => rfl
  case h_12 => exact fun _ => rfl
  case h_13 => exact fun _ => rfl
  case h_15 =>
    refine bind (fun _ => rfl) fun _ => ?_
    unfold addSubpackets
    refine bind (flag _) fun _ => ?_
    split
    · exact fun _ => rfl
    · exact bind (build _ (subLoop _)) fun _ => add _
  case h_16 => exact bind reader fun _ => bind (flag _) fun _ => bind getMode fun _ => bind (add _) fun _ => setMode _
  case h_17 => exact fun _ => rfl
  case h_19 => exact fun _ => rfl
  all_goals first | exact absurd rfl h7 | exact absurd rfl h14 | exact absurd (by decide) h
end Still

theorem Local.tagBody (X : Ext) (recur : TagParser) {t : Nat} (h : t ∈ usesUp) (h8 : t ≠ 8) : Local (tagBody X recur t) := by
  simp only [usesUp, List.mem_cons, List.not_mem_nil, or_false] at h
  rcases h with rfl | rfl | rfl | rfl | rfl | rfl | rfl | rfl | rfl
  · exact tag01
  · exact tag02 X recur
  · exact tag03
  · exact tag04
  · exact tag05 X
  · exact tag06 X
  · exact absurd rfl h8
  · exact tag11 X
  · exact tag20

/-- the reader of a packet that is not used up has not moved; otherwise it is at most at the end, or the packet is compressed data -/
structure TagObj.Ok (o : TagObj) : Prop where
  still : o.tag ∉ usesUp → o.rd.off = 0
  bound : o.tag ≠ 8 → o.rd.off ≤ o.rd.size

/-- a new packet with the octets that are not yet read -/
def TagObj.renew (o : TagObj) : TagObj := ⟨o.tag, Reader.new o.rd.remaining⟩

theorem reader_split (r : Reader) (h : r.off ≤ r.size) : r = ⟨r.buf.take r.off ++ r.buf.drop r.off, (r.buf.take r.off).length⟩ := by
  have : (r.buf.take r.off).length = r.off := by simp only [List.length_take]; exact Nat.min_eq_left h
  rw [List.take_append_drop, this]

theorem Item.setNote_addAll (i : Item) (l : List Item) (n : Str) : (i.addAll l).setNote n = (i.setNote n).addAll l := rfl

structure TagObj.Renewed (X : Ext) (c : Option Ctx) (o : TagObj) : Prop where
  res : (o.parse X c).1 = (o.renew.parse X c).1.map fun x => (x.1.setNote (nBytes o.rd.size), x.2)
  ctx : (o.parse X c).2.1 = (o.renew.parse X c).2.1
  tag : (o.parse X c).2.2.tag = o.tag
  size : (o.parse X c).2.2.rd.size = o.rd.size
  unread : (o.parse X c).2.2.rd.remaining = (o.renew.parse X c).2.2.rd.remaining
  suffix : (o.renew.parse X c).2.2.rd.remaining <:+ o.rd.remaining
  same : o.tag ∉ usesUp → (o.renew.parse X c).2.2.rd.remaining = o.rd.remaining
  ok : (o.parse X c).2.2.Ok

theorem keeps_cur {α β} {m : P α} (h : Keeps m) (g : α → β) {st x st'}
    (e : (m >>= fun a => getCur >>= fun i => (Pure.pure (i, g a) : P (Item × β))) st = (.ok x, st')) : ∃ l, x.1 = st.cur.addAll l := by
  obtain ⟨l, hl⟩ := h.run st
  rw [bind_run] at e
  rcases hm : m st with ⟨r, s⟩
  rw [hm] at e hl
  cases r with
  | ok a =>
    have e : (Res.ok (s.cur, g a), s) = (Res.ok x, st') := e
    cases e
    exact ⟨l, hl⟩
  | _ => cases e

theorem body_cur (X : Ext) (o : TagObj) {st x st'} (e : o.body X st = (.ok x, st')) : ∃ l, x.1 = st.cur.addAll l := by
  unfold TagObj.body at e
  split at e
  · exact keeps_cur (.tag08 X) (fun a => a) e
  · exact keeps_cur (.tagBody X _ _) (fun _ => (none : Option Bytes)) e

/-- the header line of a packet shows its size -/
theorem parse_note (X : Ext) (o : TagObj) (c : Option Ctx) {x p} (e : o.parse X c = (.ok x, p)) : x.1.setNote (nBytes o.start.size) = x.1 := by
  unfold TagObj.parse at e
  rcases hb : o.body X ⟨c, o.start, o.header c⟩ with ⟨r, s⟩
  rw [hb] at e
  simp only [Prod.mk.injEq] at e
  obtain ⟨rfl, -⟩ := e
  obtain ⟨l, hl⟩ := body_cur X o hb
  rw [hl, Item.setNote_addAll]
  rfl

/-- a packet that has not been read -/
theorem renewed_new (X : Ext) (c : Option Ctx) {tag : Nat} {b : Bytes} (h : tag ∉ usesUp) : TagObj.Renewed X c ⟨tag, Reader.new b⟩ := by
  have hn : TagObj.renew ⟨tag, Reader.new b⟩ = ⟨tag, Reader.new b⟩ := rfl
  have h8 : tag ≠ 8 := fun e => h (e ▸ by decide)
  have hs : (TagObj.start ⟨tag, Reader.new b⟩) = Reader.new b := by unfold TagObj.start; split <;> rfl
  have hrd : ((TagObj.parse X ⟨tag, Reader.new b⟩ c).2.2) = ⟨tag, Reader.new b⟩ := by
    unfold TagObj.parse
    by_cases h7 : tag = 7 ∨ tag = 14
    · simp only [if_pos h7]
    · simp only [if_neg h7, TagObj.mk.injEq, true_and]
      have : ∀ st, ((TagObj.body X ⟨tag, Reader.new b⟩) st).2.rd = st.rd := by
        unfold TagObj.body
        simp only [if_neg h8]
        exact Still.bind (Still.tagBody X _ h (by omega) (by omega)) fun _ _ => rfl
      rw [this, hs]
  refine ⟨?_, rfl, by rw [hrd], by rw [hrd], rfl, by rw [hn, hrd]; exact List.suffix_refl _, fun _ => by rw [hn, hrd], ?_⟩
  · rw [hn]
    rcases hp : TagObj.parse X ⟨tag, Reader.new b⟩ c with ⟨r, p⟩
    cases r with
    | ok x =>
      have := parse_note X _ c hp
      rw [hs] at this
      simp only [Res.map]
      rw [this]
    | _ => rfl
  · rw [hrd]
    exact ⟨fun _ => rfl, fun _ => Nat.zero_le _⟩

theorem Loose.cur {over α β} {m : P α} (h : Loose over m) (g : α → β) (c q) : ∃ (r : Res α) (u : Bytes) (c' : Option Ctx) (l : List Item), u <:+ q ∧
    ∀ p j, ∃ rd, (m >>= fun a => getCur >>= fun i => (Pure.pure (i, g a) : P (Item × β))) (St.at c p q j) =
      (r.map (fun a => (j.addAll l, g a)), ⟨c', rd, j.addAll l⟩) ∧ rd.buf = p ++ q ∧ rd.remaining = u ∧ (over = false → rd.off ≤ rd.size) := by
  obtain ⟨r, u, c', l, hu, hr⟩ := h.run c q
  refine ⟨r, u, c', l, hu, fun p j => ?_⟩
  obtain ⟨rd, h1, h2⟩ := hr p j
  refine ⟨rd, ?_, h2⟩
  rw [bind_run, h1]
  cases r <;> rfl

/-- the header of a packet of which `p` is read and `q` is not -/
theorem header_at (tag : Nat) (p q : Bytes) (c : Option Ctx) (h7 : ¬ (tag = 7 ∨ tag = 14)) :
    TagObj.header ⟨tag, ⟨p ++ q, p.length⟩⟩ c = (TagObj.header ⟨tag, Reader.new q⟩ c).setNote (nBytes (p ++ q).length) := by
  have h1 : ∀ f, dumpRest ⟨p ++ q, p.length⟩ f = if f then Reader.dumpHex q else [] := fun f => congrArg Item.dump (rawData_at p q [] f)
  unfold TagObj.header TagObj.start
  simp only [if_neg h7, h1, dumpRest_new]
  rfl

theorem renewed_loose (X : Ext) (c : Option Ctx) {o : TagObj} (h7 : ¬ (o.tag = 7 ∨ o.tag = 14)) (hb : o.rd.off ≤ o.rd.size) (hu : o.tag ∈ usesUp) : o.Renewed X c := by
  obtain ⟨tag, rd⟩ := o
  simp only at hu h7 hb
  have hsplit := reader_split rd hb
  generalize hq : rd.remaining = q
  generalize hp : rd.buf.take rd.off = p
  have hrd : rd = ⟨p ++ q, p.length⟩ := by rw [← hq, ← hp]; exact hsplit
  clear hsplit hp hq
  subst hrd
  have hrem : (⟨p ++ q, p.length⟩ : Reader).remaining = q := by simp [Reader.remaining]
  have hsz : (⟨p ++ q, p.length⟩ : Reader).size = (p ++ q).length := rfl
  have key : ∃ (r : Res (Option Bytes)) (u : Bytes) (c' : Option Ctx) (l : List Item), u <:+ q ∧ ∀ p, ∃ rd : Reader,
      TagObj.parse X ⟨tag, ⟨p ++ q, p.length⟩⟩ c = (r.map fun d => ((TagObj.header ⟨tag, ⟨p ++ q, p.length⟩⟩ c).addAll l, d), c', ⟨tag, rd⟩) ∧
        rd.buf = p ++ q ∧ rd.remaining = u ∧ (tag ≠ 8 → rd.off ≤ rd.size) := by
    by_cases h8 : tag = 8
    · obtain ⟨r, u, c', l, hu', hr⟩ := (Loose.tag08 X).cur (fun a => a) c q
      refine ⟨r, u, c', l, hu', fun p => ?_⟩
      obtain ⟨rd, h1, h2, h3, h4⟩ := hr p (TagObj.header ⟨tag, ⟨p ++ q, p.length⟩⟩ c)
      refine ⟨rd, ?_, h2, h3, fun h => absurd h8 h⟩
      unfold TagObj.parse TagObj.body TagObj.start
      simp only [if_neg h7, if_pos h8]
      have h1 := h1
      unfold St.at at h1
      rw [h1]
    · obtain ⟨r, u, c', l, hu', hr⟩ := (Loose.of (over := false) (Local.tagBody X (parseTagF X q.length) hu h8)).cur (fun _ => (none : Option Bytes)) c q
      refine ⟨r.map fun _ => none, u, c', l, hu', fun p => ?_⟩
      obtain ⟨rd, h1, h2, h3, h4⟩ := hr p (TagObj.header ⟨tag, ⟨p ++ q, p.length⟩⟩ c)
      refine ⟨rd, ?_, h2, h3, fun _ => h4 rfl⟩
      have hrem : (⟨p ++ q, p.length⟩ : Reader).remaining = q := by simp [Reader.remaining]
      unfold TagObj.parse TagObj.body TagObj.start
      simp only [if_neg h7, if_neg h8, hrem]
      have h1 := h1
      unfold St.at at h1
      rw [h1]
      cases r <;> rfl
  obtain ⟨r, u, c', l, hu', hk⟩ := key
  obtain ⟨rd1, h1, h1b, h1r, h1o⟩ := hk p
  obtain ⟨rd2, h2, h2b, h2r, h2o⟩ := hk []
  have hren : TagObj.renew ⟨tag, ⟨p ++ q, p.length⟩⟩ = ⟨tag, ⟨[] ++ q, ([] : Bytes).length⟩⟩ := by
    unfold TagObj.renew
    rw [hrem]
    rfl
  refine ⟨?_, ?_, ?_, ?_, ?_, ?_, fun h => absurd hu h, ?_⟩
  · rw [hren, h1, h2, header_at _ _ _ _ h7]
    cases r <;> rfl
  · rw [hren, h1, h2]
  · rw [h1]
  · rw [h1]; exact congrArg List.length h1b
  · rw [hren, h1, h2, h1r, h2r]
  · rw [hren, h2, h2r, hrem]; exact hu'
  · rw [h1]
    exact ⟨fun h => absurd hu h, h1o⟩

theorem tag08_end (X : Ext) (st : St) (h : st.rd.size ≤ st.rd.off) : tag08 X st = (.err (wrapErr .eof), st) := by
  have hr : st.rd.readBytes 1 = (.err (wrapErr .eof), st.rd) := by
    unfold Reader.readBytes
    rw [if_neg (by decide), if_pos h]
  have hb : readByte st = (.err (wrapErr .eof), st) := by
    show ((st.rd.readByte).1, ({ st with rd := (st.rd.readByte).2 } : St)) = _
    unfold Reader.readByte
    rw [hr]
    rfl
  unfold tag08
  rw [bind_run, hb]

theorem parse_end (X : Ext) (c : Option Ctx) (rd : Reader) (h : rd.size ≤ rd.off) : TagObj.parse X ⟨8, rd⟩ c = (.err (wrapErr .eof), c, ⟨8, rd⟩) := by
  unfold TagObj.parse TagObj.body TagObj.start
  simp only [if_neg (show ¬ ((8 : Nat) = 7 ∨ (8 : Nat) = 14) by decide)]
  rw [if_pos trivial, bind_run, tag08_end X _ h]

theorem renewed (X : Ext) (c : Option Ctx) {o : TagObj} (h : o.Ok) : o.Renewed X c := by
  by_cases hu : o.tag ∈ usesUp
  · by_cases hb : o.rd.off ≤ o.rd.size
    · exact renewed_loose X c (by rintro (h | h) <;> rw [h] at hu <;> exact absurd hu (by decide)) hb hu
    · by_cases h8 : o.tag = 8
      · obtain ⟨tag, rd⟩ := o
        cases h8
        simp only at hb
        have hrem : rd.remaining = [] := by
          unfold Reader.remaining
          exact List.drop_eq_nil_of_le (by have : rd.size = rd.buf.length := rfl; omega)
        have e1 := parse_end X c rd (by omega)
        have e2 := parse_end X c (Reader.new []) (by decide)
        have hn : TagObj.renew ⟨8, rd⟩ = ⟨8, Reader.new []⟩ := by unfold TagObj.renew; rw [hrem]
        refine ⟨by rw [hn, e1, e2]; rfl, by rw [hn, e1, e2], by rw [e1], by rw [e1], by rw [hn, e1, e2]; exact hrem,
          by rw [hn, e2, hrem]; exact List.suffix_refl _, fun h => absurd hu h, by rw [e1]; exact h⟩
      · exact absurd (h.bound h8) hb
  · obtain ⟨tag, buf, off⟩ := o
    cases h.still hu
    exact renewed_new X c hu

/-- what is not read by `Parse` -/
def leftBy (X : Ext) (c : Option Ctx) (tag : Nat) (u : Bytes) : Bytes := (TagObj.parse X ⟨tag, Reader.new u⟩ c).2.2.rd.remaining

theorem show_renew (X : Ext) {p : PacketsObj} {o : TagObj} (h : o.Ok) : ∃ o' : TagObj, o'.Ok ∧
    (p.show X o).1 = sized o.rd.size (once X p.ctx o.tag o.rd.remaining).1 ∧
    (p.show X o).2 = ⟨p.src, (once X p.ctx o.tag o.rd.remaining).2, some o'⟩ ∧ o'.tag = o.tag ∧ o'.rd.size = o.rd.size ∧
    o'.rd.remaining = leftBy X p.ctx o.tag o.rd.remaining := by
  have R := renewed X p.ctx h
  unfold once
  rw [show (⟨o.tag, Reader.new o.rd.remaining⟩ : TagObj) = o.renew from rfl]
  unfold PacketsObj.parse PacketsObj.show
  simp only
  have h1 := R.res; have h2 := R.ctx; have h3 := R.tag; have h4 := R.size; have h5 := R.unread; have h8 := R.ok
  have h9 : leftBy X p.ctx o.tag o.rd.remaining = (o.renew.parse X p.ctx).2.2.rd.remaining := rfl
  rw [h9]
  rcases e1 : o.parse X p.ctx with ⟨r1, c1, o1⟩
  rcases e2 : o.renew.parse X p.ctx with ⟨r2, c2, o2⟩
  rw [e1] at h1 h2 h3 h4 h5 h8
  rw [e2] at h1 h2 h5
  simp only at h1 h2 h3 h4 h5 h8
  subst h1 h2
  refine ⟨o1, h8, ?_⟩
  cases r2 with
  | ok x =>
    obtain ⟨i, d⟩ := x
    cases d with
    | none => exact ⟨rfl, rfl, h3, h4, h5⟩
    | some z =>
      obtain ⟨r, c', l, hl⟩ := (Blind.packetLoop X (Src.ofBytes z)).run c1
      simp only [Res.map, hl]
      cases r <;> exact ⟨rfl, rfl, h3, h4, h5⟩
  | _ => exact ⟨rfl, rfl, h3, h4, h5⟩

/-! ## Any sequence of calls -/

structure Follows (p : PacketsObj) (k : Place) : Prop where
  src : k.src = p.src
  ctx : k.ctx = p.ctx
  cur : k.cur = p.tag.map fun o => ⟨o.tag, o.rd.size, o.rd.remaining⟩
  ok : ∀ o, p.tag = some o → o.Ok

theorem ok_new (tag : Nat) (b : Bytes) : TagObj.Ok ⟨tag, Reader.new b⟩ := ⟨fun _ => rfl, fun _ => Nat.zero_le _⟩

theorem Follows.show {X : Ext} {p : PacketsObj} {k : Place} (hs : k.src = p.src) (hc : k.ctx = p.ctx) {o : TagObj} (ho : o.Ok) :
    (p.show X o).1 = (k.show X (leftBy X) ⟨o.tag, o.rd.size, o.rd.remaining⟩).1 ∧
    Follows (p.show X o).2 (k.show X (leftBy X) ⟨o.tag, o.rd.size, o.rd.remaining⟩).2 := by
  obtain ⟨o', h1, h2, h3, h4, h5, h6⟩ := show_renew X (p := p) ho
  unfold Place.show
  rw [h2, h3, hc, hs]
  refine ⟨rfl, rfl, rfl, ?_, fun o e => by cases e; exact h1⟩
  simp only [Option.map, h4, h5, h6]

theorem Follows.call {X : Ext} {p : PacketsObj} {k : Place} (h : Follows p k) (m : PacketsCall) :
    (p.call X m).1 = (k.call X (leftBy X) m).1 ∧ Follows (p.call X m).2 (k.call X (leftBy X) m).2 := by
  obtain ⟨src, ctx, cur⟩ := k
  obtain ⟨hs, hc, hcur, hok⟩ := h
  simp only at hs hc hcur
  subst hs hc hcur
  cases m with
  | next =>
    unfold PacketsObj.call Place.call PacketsObj.next Place.next
    simp only
    rcases opaqueNext X p.src with ⟨r, s⟩
    cases r with
    | error e => exact ⟨rfl, rfl, rfl, rfl, hok⟩
    | ok q => exact ⟨rfl, rfl, rfl, rfl, fun o e => by cases e; exact ok_new _ _⟩
  | parse =>
    unfold PacketsObj.call Place.call PacketsObj.parse Place.parse
    simp only
    cases ht : p.tag with
    | some o =>
      obtain ⟨h1, h2⟩ := Follows.show (X := X) (p := p) (k := ⟨p.src, p.ctx, p.tag.map fun o => ⟨o.tag, o.rd.size, o.rd.remaining⟩⟩) rfl rfl (hok o ht)
      rw [ht] at h1 h2
      exact ⟨congrArg _ h1, h2⟩
    | none =>
      unfold PacketsObj.next
      simp only [Option.map]
      rcases opaqueNext X p.src with ⟨r, s⟩
      cases r with
      | error e => exact ⟨rfl, rfl, rfl, by simp [ht], fun o e => by rw [ht] at e; cases e⟩
      | ok q =>
        obtain ⟨h1, h2⟩ := Follows.show (X := X) (p := ⟨s, p.ctx, some ⟨q.1, Reader.new q.2⟩⟩) (k := ⟨s, p.ctx, none⟩) rfl rfl (ok_new q.1 q.2)
        exact ⟨congrArg _ h1, h2⟩

theorem Follows.calls {X : Ext} {p : PacketsObj} {k : Place} (h : Follows p k) (ms : List PacketsCall) :
    p.calls X ms = k.calls X (leftBy X) ms := by
  induction ms generalizing p k with
  | nil => exact Prod.ext rfl h.ctx.symm
  | cons m ms ih =>
    obtain ⟨h1, h2⟩ := h.call (X := X) m
    rw [PacketsObj.calls, Place.calls, h1, ih h2]

/-! ## What is left -/

/-- at the end of `m` the rows tell what is left -/
def EndsRest (tag : Nat) (m : P Unit) : Prop := ∀ c p q j x st', m (St.at c p q j) = (.ok x, st') →
  ∃ l rows, RestRows tag st'.rd.remaining rows ∧ st'.cur = j.addAll (l ++ rows)

namespace EndsRest
theorem bind {tag α} {m : P α} {f : α → P Unit} (h : Local m) (h' : ∀ a, EndsRest tag (f a)) : EndsRest tag (m >>= f) := by
  intro c p q j x st' e
  obtain ⟨r, n, c1, l, hn, h1⟩ := h.run c q
  rw [bind_run, h1] at e
  cases r with
  | ok a =>
    obtain ⟨l', rows, hr, hc⟩ := h' a _ _ _ _ _ _ e
    exact ⟨l ++ l', rows, hr, by rw [hc, Item.addAll_addAll, List.append_assoc]⟩
  | _ => cases e

theorem unknownData {tag} (h : tag ≠ 11) : EndsRest tag unknownData := by
  intro c p q j x st' e
  rw [unknownData_run] at e
  cases e
  have hrem : (St.at c p q j).rd.remaining = q := by simp [St.at, Reader.remaining]
  by_cases hq : q = []
  · rw [if_pos hq]
    refine ⟨[], [], ?_, (Item.addAll_nil j).symm⟩
    unfold RestRows
    rw [if_neg h, if_pos (hrem.trans hq)]
  · rw [if_neg hq]
    refine ⟨[], [newItem (S "Unknown data") [] (nBytes q.length) (if ctxFlag Ctx.debug c then Reader.dumpHex q else [])], ?_, rfl⟩
    unfold RestRows
    rw [if_neg h, show (St.at c p q (j.add _)).rd.remaining = q from hrem, if_neg hq]
    exact ⟨_, rfl⟩

theorem addRaw (f) : EndsRest 11 (addRaw (S "Literal data") f) := by
  intro c p q j x st' e
  rw [addRaw_run] at e
  cases e
  have hrem : (St.at c p q j).rd.remaining = q := by simp [St.at, Reader.remaining]
  refine ⟨[], [newItem (S "Literal data") [] (nBytes q.length) (if f then Reader.dumpHex q else [])], ?_, rfl⟩
  show if 11 = 11 then ∃ d, _ = [newItem (S "Literal data") [] (nBytes (St.at c p q j).rd.remaining.length) d] else _
  rw [if_pos rfl, hrem]
  exact ⟨_, rfl⟩

theorem tagBody (X : Ext) (recur : TagParser) {tag : Nat} (h : tag ∈ showsRest) : EndsRest tag (tagBody X recur tag) := by
  simp only [showsRest, List.mem_cons, List.not_mem_nil, or_false] at h
  rcases h with rfl | rfl | rfl | rfl | rfl | rfl
  · show EndsRest 1 tag01
    unfold tag01
    repeat' (first | exact unknownData (by decide) | (refine EndsRest.bind (by islocal; done) fun _ => ?_))
  · show EndsRest 3 tag03
    unfold tag03
    repeat' (first | (dsimp only; split) | exact unknownData (by decide) | (refine EndsRest.bind (by islocal; done) fun _ => ?_))
  · show EndsRest 4 tag04
    unfold tag04
    repeat' (first | exact unknownData (by decide) | (refine EndsRest.bind (by islocal; done) fun _ => ?_))
  · show EndsRest 5 (tag05 X)
    unfold tag05
    exact bind .readByte fun v => bind (.flag _) fun _ => bind (.add _) fun _ => bind (.nested _ (.of (.pubkeyParse X _))) fun _ =>
      bind (.nested _ (Local.seckeyParse _ _)) fun _ => unknownData (by decide)
  · show EndsRest 6 (tag06 X)
    unfold tag06
    exact bind .readByte fun v => bind (.flag _) fun _ => bind (.add _) fun _ => bind (.pubkeyParse X _) fun _ => unknownData (by decide)
  · show EndsRest 11 (tag11 X)
    unfold tag11
    repeat' (first | exact addRaw _ | (refine EndsRest.bind (by islocal; done) fun _ => ?_))
end EndsRest

theorem parse_new (X : Ext) (c : Option Ctx) (tag : Nat) (b : Bytes) : ∃ rd', TagObj.parse X ⟨tag, Reader.new b⟩ c =
    ((TagObj.body X ⟨tag, Reader.new b⟩ (St.at c [] b (tagItem tag b (ctxFlag (tagDumpFlag tag) c)))).1,
      (TagObj.body X ⟨tag, Reader.new b⟩ (St.at c [] b (tagItem tag b (ctxFlag (tagDumpFlag tag) c)))).2.ctx, ⟨tag, rd'⟩) ∧
    (¬ (tag = 7 ∨ tag = 14) → rd' = (TagObj.body X ⟨tag, Reader.new b⟩ (St.at c [] b (tagItem tag b (ctxFlag (tagDumpFlag tag) c)))).2.rd) := by
  have hstart : TagObj.start ⟨tag, Reader.new b⟩ = Reader.new b := by unfold TagObj.start; split <;> rfl
  have hhead : TagObj.header ⟨tag, Reader.new b⟩ c = tagItem tag b (ctxFlag (tagDumpFlag tag) c) := by
    unfold TagObj.header; rw [hstart]; rfl
  unfold TagObj.parse
  rw [hstart, hhead]
  by_cases h : tag = 7 ∨ tag = 14
  · exact ⟨Reader.new b, Prod.ext rfl (Prod.ext rfl (if_pos h)), fun h' => absurd h h'⟩
  · exact ⟨_, Prod.ext rfl (Prod.ext rfl (if_neg h)), fun _ => rfl⟩

theorem shows_rest (X : Ext) (c : Option Ctx) (tag : Nat) (u : Bytes) (i : Item) (h : tag ∈ showsRest) (e : (once X c tag u).1 = .ret (some i) none) :
    ∃ l rows, i.items = l ++ rows ∧ RestRows tag (leftBy X c tag u) rows := by
  have h8 : tag ≠ 8 := by rintro rfl; revert h; decide
  have h7 : ¬ (tag = 7 ∨ tag = 14) := by rintro (rfl | rfl) <;> (revert h; decide)
  obtain ⟨rd', hp, hr⟩ := parse_new X c tag u
  have hr := hr h7
  have hl : leftBy X c tag u = rd'.remaining := by unfold leftBy; rw [hp]
  rw [hl]
  have hstart : TagObj.start ⟨tag, Reader.new u⟩ = Reader.new u := by unfold TagObj.start; split <;> rfl
  unfold once PacketsObj.parse PacketsObj.show at e
  dsimp only at e
  rw [hp] at e
  unfold TagObj.body at e hr
  rw [hstart] at e hr
  simp only [if_neg h8] at e hr
  rw [bind_run] at e hr
  rcases hb : tagBody X (parseTagF X (Reader.new u).remaining.length) tag (St.at c [] u (tagItem tag u (ctxFlag (tagDumpFlag tag) c))) with ⟨r, st⟩
  rw [hb] at e hr
  cases r with
  | ok x =>
    obtain ⟨l, rows, h1, h2⟩ := EndsRest.tagBody X _ h _ _ _ _ _ _ hb
    have hi : st.cur = i := by cases e; rfl
    have hr : rd' = st.rd := hr
    refine ⟨l, rows, ?_, by rw [hr]; exact h1⟩
    rw [← hi, h2]
    rfl
  | _ => cases e

/-- **C76**: for every input, every context and every sequence of calls of `Next` and `Parse`, the answers and the context are those of
a caller that knows the rest of the input and the octets of the current packet that are not yet read: `Next` moves on only if there is
another packet, and `Parse` shows those octets as a packet of their own, with the size of the whole packet in the header line. What
`Parse` leaves unread is an end of what was unread before, and all of it for packets that it does not read step by step; the last row of
a session key, one-pass signature, key or literal packet tells how much it is. -/
theorem C76_history (X : Ext) : ∃ left : Option Ctx → Nat → Bytes → Bytes,
    (∀ c tag u, left c tag u <:+ u) ∧ (∀ c tag u, tag ∉ usesUp → left c tag u = u) ∧
    (∀ c tag u i, tag ∈ showsRest → (once X c tag u).1 = .ret (some i) none →
      ∃ l rows, i.items = l ++ rows ∧ RestRows tag (left c tag u) rows) ∧
    ∀ c s p, PacketsObj.new c (some s) = .ok p → ∀ ms, p.calls X ms = (⟨s, c, none⟩ : Place).calls X left ms := by
  refine ⟨leftBy X, fun c tag u => ?_, fun c tag u h => ?_, shows_rest X, fun c s p hp ms => ?_⟩
  · exact (renewed X c (ok_new tag u)).suffix
  · exact (renewed X c (ok_new tag u)).same h
  · cases hp
    exact Follows.calls ⟨rfl, rfl, rfl, fun o e => by cases e⟩ ms

/-! ## `Next` and `Parse` in turn -/

/-- the answer of `Packets.Parse` for an outcome of `packetsParse` -/
inductive Answers : Res Item → Returned → Prop
  | ok (i) : Answers (.ok i) (.ret (some i) none)
  | err (e i) : Answers (.err e) (.ret i (some e.wrap))
  | panic (x) : Answers (.panic x) (.panic x)
  | stuck : Answers .stuck .stuck

theorem show_of (X : Ext) (p : PacketsObj) (tag : Nat) (b : Bytes) (rd : Reader) (j : Item) :
    Answers (packetsParse X tag b ⟨p.ctx, rd, j⟩).1 (p.show X ⟨tag, Reader.new b⟩).1 ∧
      (p.show X ⟨tag, Reader.new b⟩).2.ctx = (packetsParse X tag b ⟨p.ctx, rd, j⟩).2.ctx ∧
      (p.show X ⟨tag, Reader.new b⟩).2.src = p.src := by
  obtain ⟨s, c, tg⟩ := p
  obtain ⟨rd', hp, -⟩ := parse_new X c tag b
  have hstart : TagObj.start ⟨tag, Reader.new b⟩ = Reader.new b := by unfold TagObj.start; split <;> rfl
  unfold PacketsObj.show packetsParse
  dsimp only
  rw [hp]
  unfold TagObj.body
  rw [hstart]
  dsimp only
  by_cases h8 : tag = 8
  · subst h8
    rw [if_pos rfl, if_pos rfl, bind_run, tagScope_run, scope_run]
    generalize (do let data ← tag08 X; return (← getCur, data) : P (Item × Option Bytes)) = m
    dsimp only
    rcases m (St.at c [] b (tagItem 8 b (ctxFlag (tagDumpFlag 8) c))) with ⟨r, st⟩
    cases r with
    | ok x =>
      obtain ⟨i, data⟩ := x
      cases data with
      | none => exact ⟨.ok _, rfl, rfl⟩
      | some z =>
        obtain ⟨r, c', l, h⟩ := (Blind.packetLoop X (Src.ofBytes z)).run st.ctx
        show Answers (build i (packetLoop X (parseTag X) (Src.ofBytes z)) ⟨st.ctx, rd, j⟩).1 (match packetLoop X (parseTag X) (Src.ofBytes z) ⟨st.ctx, rd', i⟩ with | _ => _ : Returned × PacketsObj).1 ∧ _
        unfold build
        dsimp only
        rw [h, h]
        cases r
        · exact ⟨.ok _, rfl, rfl⟩
        · exact ⟨.err _ _, rfl, rfl⟩
        · exact ⟨.panic _, rfl, rfl⟩
        · exact ⟨.stuck, rfl, rfl⟩
    | err e => exact ⟨.err _ _, rfl, rfl⟩
    | panic e => exact ⟨.panic _, rfl, rfl⟩
    | stuck => exact ⟨.stuck, rfl, rfl⟩
  · rw [if_neg h8, if_neg h8]
    unfold parseTag
    rw [parseTagF]
    unfold tagParse
    dsimp only
    rw [tagScope_run, scope_run]
    dsimp only
    rw [bind_run, bind_run]
    rw [show (Reader.new b).remaining.length = b.length from rfl]
    rcases tagBody X (parseTagF X b.length) tag (St.at c [] b (tagItem tag b (ctxFlag (tagDumpFlag tag) c))) with ⟨r, st⟩
    cases r
    · exact ⟨.ok _, rfl, rfl⟩
    · exact ⟨.err _ _, rfl, rfl⟩
    · exact ⟨.panic _, rfl, rfl⟩
    · exact ⟨.stuck, rfl, rfl⟩

/-- the caller's loop, whatever packet is current at first -/
theorem drain_of (X : Ext) (f : Nat) (s : Src) (c : Option Ctx) (tg : Option TagObj) (info : List Item) :
    (ParserObj.loop X f ⟨s, c, info⟩).2.info = info ++ (PacketsObj.drain X f ⟨s, c, tg⟩).1 ∧
      (PacketsObj.drain X f ⟨s, c, tg⟩).2 = (wrapped (ParserObj.loop X f ⟨s, c, info⟩).1, (ParserObj.loop X f ⟨s, c, info⟩).2.ctx) := by
  induction f generalizing s c tg info with
  | zero => exact ⟨(List.append_nil _).symm, rfl⟩
  | succ f ih =>
    unfold ParserObj.loop PacketsObj.drain PacketsObj.next
    dsimp only
    rcases opaqueNext X s with ⟨r, s'⟩
    cases r with
    | error e =>
      dsimp only
      rw [show e.wrap.isEOF = e.isEOF from rfl]
      cases e.isEOF
      · exact ⟨(List.append_nil _).symm, rfl⟩
      · exact ⟨(List.append_nil _).symm, rfl⟩
    | ok x =>
      obtain ⟨tag, body⟩ := x
      dsimp only [PacketsObj.parse]
      obtain ⟨h1, h2, h3⟩ := show_of X ⟨s', c, some ⟨tag, Reader.new body⟩⟩ tag body (Reader.new []) (newItem [])
      dsimp only at h1 h2 h3
      rcases hq : packetsParse X tag body ⟨c, Reader.new [], newItem []⟩ with ⟨r, st⟩
      rw [hq] at h1 h2
      rcases hs : PacketsObj.show X ⟨s', c, some ⟨tag, Reader.new body⟩⟩ ⟨tag, Reader.new body⟩ with ⟨a, p2⟩
      rw [hs] at h1 h2 h3
      obtain ⟨s2, c2, t2⟩ := p2
      dsimp only at h1 h2 h3
      subst h2 h3
      cases h1 with
      | ok i =>
        obtain ⟨g1, g2⟩ := ih s2 st.ctx t2 (info ++ [i])
        refine ⟨?_, g2⟩
        show (ParserObj.loop X f ⟨s2, st.ctx, info ++ [i]⟩).2.info = _
        rw [g1, List.append_assoc]
        rfl
      | err e i => cases i <;> exact ⟨(List.append_nil _).symm, rfl⟩
      | panic x => exact ⟨(List.append_nil _).symm, rfl⟩
      | stuck => exact ⟨(List.append_nil _).symm, rfl⟩

/-- **C76**: a caller that calls `Next` and `Parse` in turn until the first error gets the items, the error (wrapped once more) and the
context of `Parser.Parse`, for every reader. -/
theorem C76_drain (X : Ext) {c : Option Ctx} {s : Src} {p : PacketsObj} (hp : PacketsObj.new c (some s) = .ok p) :
    p.drain X (s.data.length + 1) = ((ParserObj.call X ⟨s, c, []⟩).2.info, wrapped (ParserObj.call X ⟨s, c, []⟩).1, (ParserObj.call X ⟨s, c, []⟩).2.ctx) := by
  cases hp
  obtain ⟨h1, h2⟩ := drain_of X (s.data.length + 1) s c none []
  unfold ParserObj.call
  rw [h1, List.nil_append]
  exact Prod.ext rfl h2

/-- **C76**: `NewPackets` refuses a nil reader, and nothing else. -/
theorem C76_new (c : Option Ctx) (r : Option Src) :
    (r = none ∧ PacketsObj.new c r = .error (wrapErr .nullPointer)) ∨ ∃ s, r = some s ∧ PacketsObj.new c r = .ok ⟨s, c, none⟩ := by
  cases r with
  | none => exact .inl ⟨rfl, rfl⟩
  | some s => exact .inr ⟨s, rfl, rfl⟩

/-- **C76**: when all octets of a packet that `Parse` reads step by step are used up, the next `Parse` returns nil and an error with
cause EOF. (A nil context makes it panic for tags 1 and 3, as it did the first time.) -/
theorem C76_used_up (X : Ext) (x : Ctx) {tag : Nat} (h : tag ∈ usesUp) : (once X (some x) tag []).1 = .ret none (some (wrapErr .eof)) := by
  simp only [usesUp, List.mem_cons, List.not_mem_nil, or_false] at h
  rcases h with rfl | rfl | rfl | rfl | rfl | rfl | rfl | rfl | rfl <;> rfl

/-! A one-pass signature packet whose contents are two one-pass signatures, and a user ID. `Parse` (without `Next`) shows the first
signature and 13 bytes of unknown data; the next one shows the second signature; the third fails. The user ID is shown by every `Parse`,
also after `Next` has met the end of the input. -/

def Spec.glance : PacketsAnswer → Option (Str × List Str) × Option Cause
  | .next e => (none, e.map (·.cause))
  | .parse (.ret i e) => (i.map fun i => (i.note, (i.items.drop 5).map Item.name), e.map (·.cause))
  | .parse _ => (none, some .nullPointer)

theorem C76_example :
    let one : Bytes := [3, 0, 2, 1, 1, 2, 3, 4, 5, 6, 7, 8, 1]
    (((⟨Src.ofBytes ([0xc4, 26] ++ one ++ one ++ [0xcd, 1, 0x61]), some Ctx.empty, none⟩ : PacketsObj).calls Tests.X
      [.parse, .parse, .parse, .next, .parse, .parse, .next, .parse]).1.map glance) =
    [(some ("26 bytes".toList, ["Encrypted session key".toList, "Unknown data".toList]), none),
      (some ("26 bytes".toList, ["Encrypted session key".toList]), none), (none, some .eof), (none, none),
      (some ("1 bytes".toList, []), none), (some ("1 bytes".toList, []), none), (none, some .eof), (some ("1 bytes".toList, []), none)] := by
  decide +kernel

end Gpgpdump
