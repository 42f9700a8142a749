import Verif.Stream

/-!
# C03, C04, C06, C07, C22: properties of the packet sequence

All statements are about `parseSrc`, i.e. `Parse` on the (binary) packet stream; `ThmScanner` connects them to `New`.
-/

namespace Gpgpdump
open Spec P Src

/-- a byte source: any data, any final error, any short reads (`Read` returning some octets together with the final error is
not covered, see DESIGN.md) -/
structure Source where
  data : Bytes
  tail : GoErr
  sched : List Nat

/-- as a modelled `io.Reader` -/
def Source.src (s : Source) : Src := ⟨s.data, s.tail, s.sched, false, false⟩

theorem Source.isLazy (s : Source) : Lazy s.src := .inr rfl

/-! ## The loop and the parser -/

theorem packetLoop_eq (X : Ext) (p : TagParser) (hp : Scoped p) (src : Src) (hl : Lazy src) (hs : src.strict = false) (st : St) :
    packetLoop X p src st = stepped st (thenErr (seqPackets p (loopEnd (split src.data) src.tail).1 st.ctx)
      (loopEnd (split src.data) src.tail).2) :=
  forPackets_eq X p hp _ src hl hs (by omega) st

theorem ofBytes_lazy (b : Bytes) : Lazy (Src.ofBytes b) := .inr rfl

/-- a compressed packet: its own fields, then the packets inside -/
def expand (X : Ext) (c : Option Ctx) (r : Res (Item × Option Bytes)) : Res Item × Option Ctx :=
  match r with
  | .ok (item, none) => (.ok item, c)
  | .ok (item, some z) =>
    let o := thenErr (seqPackets (parseTag X) (loopEnd (split z) (rawErr .eof)).1 c) (loopEnd (split z) (rawErr .eof)).2
    (o.2.1.map fun _ => item.addAll o.1, o.2.2)
  | .err e => (.err e, c)
  | .panic s => (.panic s, c)
  | .stuck => (.stuck, c)

/-- tag 8 without the inner packets -/
def compressed (X : Ext) (body : Bytes) : P (Item × Option Bytes) := tagScope 8 body (do
  let data ← tag08 X
  return (← getCur, data))

theorem packetsParse_8 (X : Ext) (body : Bytes) (st : St) : packetsParse X 8 body st =
    ((expand X (compressed X body st).2.ctx (compressed X body st).1).1,
      { st with ctx := (expand X (compressed X body st).2.ctx (compressed X body st).1).2 }) := by
  have h := tagScope_scoped 8 body (do
    let data ← tag08 X
    return (← getCur, data)) st st rfl
  have hd : packetsParse X 8 body = (do
    let (item, data) ← compressed X body
    match data with
    | none => return item
    | some z => build item (packetLoop X (parseTag X) (Src.ofBytes z))) := rfl
  rw [hd, bind_run]
  change compressed X body st = ((compressed X body st).1, { st with ctx := (compressed X body st).2.ctx }) at h
  rw [h]
  rcases (compressed X body st) with ⟨r, st'⟩
  simp only
  cases r with
  | ok x =>
    obtain ⟨item, z⟩ := x
    cases z with
    | none => rfl
    | some z =>
      simp only [expand]
      have hb : build item (packetLoop X (parseTag X) (Src.ofBytes z)) ({ st with ctx := st'.ctx } : St) =
        ((packetLoop X (parseTag X) (Src.ofBytes z) { st with ctx := st'.ctx, cur := item }).1.map
          (fun _ => (packetLoop X (parseTag X) (Src.ofBytes z) { st with ctx := st'.ctx, cur := item }).2.cur),
        { (packetLoop X (parseTag X) (Src.ofBytes z) { st with ctx := st'.ctx, cur := item }).2 with cur := st.cur }) := rfl
      rw [hb, packetLoop_eq X _ (parseTag_scoped X) _ (ofBytes_lazy z) rfl]
      rfl
  | _ => rfl

theorem packetsParse_other (X : Ext) (tag : Nat) (body : Bytes) (h : tag ≠ 8) : packetsParse X tag body = parseTag X tag body := by
  unfold packetsParse
  rw [if_neg h]

theorem compressed_ctx (X : Ext) (body : Bytes) (st st' : St) (h : st.ctx = st'.ctx) :
    (compressed X body st).1 = (compressed X body st').1 ∧ (compressed X body st).2.ctx = (compressed X body st').2.ctx := by
  have := tagScope_scoped 8 body (do
    let data ← tag08 X
    return (← getCur, data)) st st' h
  change compressed X body st = ((compressed X body st').1, { st with ctx := (compressed X body st').2.ctx }) at this
  rw [this]
  exact ⟨rfl, rfl⟩

theorem packetsParse_scoped (X : Ext) : Scoped (packetsParse X) := by
  intro tag body st
  by_cases h : tag = 8
  · subst h
    unfold onePacket
    rw [packetsParse_8, packetsParse_8]
    obtain ⟨h1, h2⟩ := compressed_ctx X body st ⟨st.ctx, Reader.new [], newItem []⟩ rfl
    rw [h1, h2]
  · unfold onePacket
    rw [packetsParse_other X tag body h]
    exact parseTag_scoped X tag body st

theorem Item.items_addAll_new (l : List Item) : ((newItem []).addAll l).items = l := by
  simp [newItem, Item.items, Item.addAll]

/-- `Parse` on a byte stream depends only on the octets and the final error. -/
theorem parseSrc_eq (X : Ext) (ctx : Option Ctx) (src : Src) (hl : Lazy src) (hs : src.strict = false) :
    parseSrc X ctx src =
      let o := thenErr (seqPackets (packetsParse X) (loopEnd (split src.data) src.tail).1 ctx) (loopEnd (split src.data) src.tail).2
      ⟨o.1, o.2.1, o.2.2⟩ := by
  unfold parseSrc
  rw [forPackets_eq X _ (packetsParse_scoped X) _ src hl hs (by omega)]
  simp only [stepped, Item.items_addAll_new]

/-! ## C07 -/

/-- C07: the outcome does not depend on how reads split the octets. -/
theorem C07_stream (X : Ext) (ctx : Option Ctx) (d : Bytes) (tail : GoErr) (sched sched' : List Nat) :
    parseSrc X ctx (Source.src ⟨d, tail, sched⟩) = parseSrc X ctx (Source.src ⟨d, tail, sched'⟩) := by
  rw [parseSrc_eq X ctx _ (Source.isLazy _) rfl, parseSrc_eq X ctx _ (Source.isLazy _) rfl]
  rfl

/-! ## C03 -/

theorem seqPackets_append (p : TagParser) (ps qs : List (Nat × Bytes)) (c : Option Ctx) :
    seqPackets p (ps ++ qs) c = match seqPackets p ps c with
      | (is, .ok (), c') => (is ++ (seqPackets p qs c').1, (seqPackets p qs c').2)
      | o => o := by
  induction ps generalizing c with
  | nil => rfl
  | cons q ps ih =>
    obtain ⟨tag, body⟩ := q
    simp only [List.cons_append, seqPackets]
    rcases onePacket p tag body c with ⟨r, c'⟩
    cases r with
    | ok i =>
      simp only [ih]
      rcases seqPackets p ps c' with ⟨is, r, c''⟩
      cases r <;> rfl
    | _ => rfl

theorem thenErr_append (p : TagParser) (ps qs : List (Nat × Bytes)) (e : Option GoErr) (c : Option Ctx) :
    thenErr (seqPackets p (ps ++ qs) c) e = match seqPackets p ps c with
      | (is, .ok (), c') => (is ++ (thenErr (seqPackets p qs c') e).1, (thenErr (seqPackets p qs c') e).2)
      | o => o := by
  rw [seqPackets_append]
  rcases seqPackets p ps c with ⟨is, r, c'⟩
  cases r with
  | ok u =>
    cases u
    simp only
    unfold thenErr
    rcases seqPackets p qs c' with ⟨js, r, c''⟩
    cases r <;> cases e <;> rfl
  | _ => cases e <;> rfl

theorem loopEnd_append (ps qs : List (Nat × Bytes)) (s : Stop) (tail : GoErr) :
    loopEnd (ps ++ qs, s) tail = (ps ++ (loopEnd (qs, s) tail).1, (loopEnd (qs, s) tail).2) := by
  induction ps with
  | nil => rfl
  | cons p ps ih => rw [List.cons_append, loopEnd_cons, ih]; rfl

/-- a complete packet sequence on its own -/
theorem parseSrc_closed (X : Ext) (ctx : Option Ctx) {ps a} (h : ClosedSeq ps a) (sched : List Nat) :
    parseSrc X ctx (Source.src ⟨a, rawErr .eof, sched⟩) =
      let o := seqPackets (packetsParse X) ps ctx
      ⟨o.1, o.2.1, o.2.2⟩ := by
  rw [parseSrc_eq X ctx _ (Source.isLazy _) rfl]
  have hs := split_closed h []
  rw [List.append_nil, split_nil, List.append_nil] at hs
  simp only [Source.src, hs]
  have : loopEnd (ps, .clean) (rawErr .eof) = (ps, none) := rfl
  rw [this]
  unfold thenErr
  rcases seqPackets (packetsParse X) ps ctx with ⟨is, r, c⟩
  cases r <;> rfl

/-- C03: parsing is compositional. When the complete packet sequence `a` parses on its own, parsing `a ++ b` gives the items of
`a` followed by those of `b` parsed in the context `a` left, with the outcome of `b`. -/
theorem C03_append (X : Ext) (ctx : Option Ctx) {ps a} (h : ClosedSeq ps a) (b : Bytes) (tail : GoErr) (sched sched' sched'' : List Nat)
    (hok : (parseSrc X ctx (Source.src ⟨a, rawErr .eof, sched⟩)).res = .ok ()) :
    let oa := parseSrc X ctx (Source.src ⟨a, rawErr .eof, sched⟩)
    let ob := parseSrc X oa.ctx (Source.src ⟨b, tail, sched'⟩)
    parseSrc X ctx (Source.src ⟨a ++ b, tail, sched''⟩) = ⟨oa.packets ++ ob.packets, ob.res, ob.ctx⟩ := by
  intro oa ob
  have ha := parseSrc_closed X ctx h sched
  rw [parseSrc_eq X ctx _ (Source.isLazy _) rfl]
  simp only [Source.src]
  rw [split_closed h b, loopEnd_append]
  simp only
  rw [thenErr_append]
  have hb : ob = _ := parseSrc_eq X oa.ctx _ (Source.isLazy _) rfl
  rw [hb]
  simp only [Source.src]
  have hoa : oa = _ := ha
  change oa.res = .ok () at hok
  rw [hoa] at hok ⊢
  simp only at hok ⊢
  revert hok
  rcases seqPackets (packetsParse X) ps ctx with ⟨is, r, c⟩
  intro hok
  simp only at hok
  subst hok
  rfl

/-- C03: when a packet of the complete sequence `a` fails, the rest of the input is irrelevant and the items before the failing
packet are in the result. -/
theorem C03_append_fail (X : Ext) (ctx : Option Ctx) {ps a} (h : ClosedSeq ps a) (b : Bytes) (tail : GoErr) (sched sched' : List Nat)
    (hno : (parseSrc X ctx (Source.src ⟨a, rawErr .eof, sched⟩)).res ≠ .ok ()) :
    parseSrc X ctx (Source.src ⟨a ++ b, tail, sched'⟩) = parseSrc X ctx (Source.src ⟨a, rawErr .eof, sched⟩) := by
  have ha := parseSrc_closed X ctx h sched
  rw [ha] at hno ⊢
  rw [parseSrc_eq X ctx _ (Source.isLazy _) rfl]
  simp only [Source.src]
  rw [split_closed h b, loopEnd_append]
  simp only
  rw [thenErr_append]
  revert hno
  rcases seqPackets (packetsParse X) ps ctx with ⟨is, r, c⟩
  intro hno
  simp only at hno
  cases r with
  | ok u => cases u; exact absurd rfl hno
  | _ => rfl

/-- C03: whatever follows, everything parsed before is kept. -/
theorem C03_prefix_kept (X : Ext) (ctx : Option Ctx) {ps a} (h : ClosedSeq ps a) (b : Bytes) (tail : GoErr) (sched sched' : List Nat) :
    (parseSrc X ctx (Source.src ⟨a, rawErr .eof, sched⟩)).packets <+:
      (parseSrc X ctx (Source.src ⟨a ++ b, tail, sched'⟩)).packets := by
  by_cases hok : (parseSrc X ctx (Source.src ⟨a, rawErr .eof, sched⟩)).res = .ok ()
  · have := C03_append X ctx h b tail sched sched' sched' hok
    simp only at this
    rw [this]
    exact List.prefix_append _ _
  · rw [C03_append_fail X ctx h b tail sched sched' hok]
    exact List.prefix_refl _

/-! ## C04 -/

/-- C04: an input that ends inside a packet is never parsed successfully; `tail` is end of file or a read error. -/
theorem C04_truncated (X : Ext) (ctx : Option Ctx) {ps a} (h : ClosedSeq ps a) {tag body p s}
    (henc : Encodes tag body (p ++ s)) (hp : p ≠ []) (hs : s ≠ []) (tail : GoErr) (ht : tail = rawErr .eof ∨ tail.isEOF = false)
    (sched : List Nat) :
    (parseSrc X ctx (Source.src ⟨a ++ p, tail, sched⟩)).res ≠ .ok () ∧
    ((parseSrc X ctx (Source.src ⟨a, rawErr .eof, sched⟩)).res = .ok () → tail = rawErr .eof →
      parseSrc X ctx (Source.src ⟨a ++ p, tail, sched⟩) =
        { parseSrc X ctx (Source.src ⟨a, rawErr .eof, sched⟩) with res := .err (wrapErr .unexpectedEOF) }) := by
  have hd := decNext_prefix henc rfl hp hs
  have hsp : split p = ([], .truncated) := by
    unfold split; rw [splitF]; simp only [hd]
  have hne : (trunc tail).isEOF = false := by
    rcases ht with rfl | ht
    · rfl
    · unfold trunc
      split
      · rfl
      · exact ht
  have hfin : ∀ c, parseSrc X c (Source.src ⟨p, tail, sched⟩) = ⟨[], .err (trunc tail).wrap, c⟩ := by
    intro c
    rw [parseSrc_eq X c _ (Source.isLazy _) rfl]
    simp only [Source.src, hsp]
    have : loopEnd ([], .truncated) tail = ([], some (trunc tail).wrap) := by
      unfold loopEnd; simp only [hne, Bool.false_eq_true, if_false]
    rw [this]
    rfl
  by_cases hok : (parseSrc X ctx (Source.src ⟨a, rawErr .eof, sched⟩)).res = .ok ()
  · have := C03_append X ctx h p tail sched sched sched hok
    simp only at this
    rw [this, hfin]
    refine ⟨by simp, ?_⟩
    intro _ ht'
    subst ht'
    simp [trunc, GoErr.eqEOF, rawErr, wrapErr, GoErr.wrap]
  · rw [C03_append_fail X ctx h p tail sched sched hok]
    exact ⟨hok, fun h' => absurd h' hok⟩

/-- C04: so is a packet header without its most significant bit. -/
theorem C04_bad_header (X : Ext) (ctx : Option Ctx) {ps a} (h : ClosedSeq ps a) (b : UInt8) (hb : b.toNat < 128) (rest : Bytes)
    (tail : GoErr) (sched : List Nat) :
    (parseSrc X ctx (Source.src ⟨a ++ b :: rest, tail, sched⟩)).res ≠ .ok () := by
  have hd : decNext (b :: rest) = .noMSB := decNext_noMSB.mpr hb
  have hsp : split (b :: rest) = ([], .noMSB) := by
    unfold split; rw [splitF]; simp only [hd]
  by_cases hok : (parseSrc X ctx (Source.src ⟨a, rawErr .eof, sched⟩)).res = .ok ()
  · have := C03_append X ctx h (b :: rest) tail sched sched sched hok
    simp only at this
    rw [this]
    generalize (parseSrc X ctx (Source.src ⟨a, rawErr .eof, sched⟩)).ctx = c
    rw [parseSrc_eq X c _ (Source.isLazy _) rfl]
    simp only [Source.src, hsp]
    have : loopEnd ([], .noMSB) tail = ([], some (wrapErr .noMSB)) := rfl
    rw [this]
    simp [thenErr, seqPackets]
  · rw [C03_append_fail X ctx h (b :: rest) tail sched sched hok]
    exact hok

/-! ## C06 -/

theorem loopEnd_packetSeq {ps d} (h : PacketSeq ps d) : loopEnd (split d) (rawErr .eof) = (ps, none) := by
  rcases packetSeq_iff.mp h with h | ⟨qs, t, b, h', rfl⟩
  · rw [h]; rfl
  · rw [h']; rfl

/-- C06: two encodings of the same packet sequence give the same outcome. -/
theorem C06_encoding (X : Ext) (ctx : Option Ctx) {ps a a'} (h : PacketSeq ps a) (h' : PacketSeq ps a') (sched sched' : List Nat) :
    parseSrc X ctx (Source.src ⟨a, rawErr .eof, sched⟩) = parseSrc X ctx (Source.src ⟨a', rawErr .eof, sched'⟩) := by
  rw [parseSrc_eq X ctx _ (Source.isLazy _) rfl, parseSrc_eq X ctx _ (Source.isLazy _) rfl]
  simp only [Source.src, loopEnd_packetSeq h, loopEnd_packetSeq h']

/-- C06: also in front of an arbitrary remainder. -/
theorem C06_encoding_prefix (X : Ext) (ctx : Option Ctx) {ps a a'} (h : ClosedSeq ps a) (h' : ClosedSeq ps a') (b : Bytes)
    (tail : GoErr) (sched sched' : List Nat) :
    parseSrc X ctx (Source.src ⟨a ++ b, tail, sched⟩) = parseSrc X ctx (Source.src ⟨a' ++ b, tail, sched'⟩) := by
  rw [parseSrc_eq X ctx _ (Source.isLazy _) rfl, parseSrc_eq X ctx _ (Source.isLazy _) rfl]
  simp only [Source.src, split_closed h, split_closed h']

/-- the user ID "A" in old format (one-octet length), new format (one octet; five octets), and split into a partial chunk of one
octet and an empty last chunk -/
example : ∃ e1 e2 e3 e4 : Bytes, e1 = [0xb4, 1, 0x41] ∧ e2 = [0xcd, 1, 0x41] ∧ e3 = [0xcd, 0xff, 0, 0, 0, 1, 0x41] ∧
    e4 = [0xcd, 0xe0, 0x41, 0] ∧ PacketSeq [(13, [0x41])] e1 ∧ PacketSeq [(13, [0x41])] e2 ∧ PacketSeq [(13, [0x41])] e3 ∧
    PacketSeq [(13, [0x41])] e4 := by
  refine ⟨_, _, _, _, rfl, rfl, rfl, rfl, ?_, ?_, ?_, ?_⟩
  · exact .cons (enc := [0xb4, 1, 0x41]) (.old (tag := 13) (lt := 0) (by decide) (by decide) (by decide)) .nil
  · exact .cons (enc := [0xcd, 1, 0x41]) (.new (by decide) (.last (.one (by decide)))) .nil
  · exact .cons (enc := [0xcd, 0xff, 0, 0, 0, 1, 0x41]) (.new (by decide) (.last (.five (by decide)))) .nil
  · exact .cons (enc := [0xcd, 0xe0, 0x41, 0]) (.new (by decide) (.part (chunk := [0x41]) (k := 0) (by decide) rfl
      (.last (body := []) (.one (by decide))))) .nil

/-! ## C22 -/

/-- the tags the tool knows (RFC 4880, RFC 4880bis and the private range) -/
def Spec.KnownTag (t : Nat) : Prop := (1 ≤ t ∧ t ≤ 14) ∨ (17 ≤ t ∧ t ≤ 20) ∨ (60 ≤ t ∧ t ≤ 63)

theorem tagBody_unknown (X : Ext) (recur : TagParser) (tag : Nat) (h : ¬ (1 ≤ tag ∧ tag ≤ 14)) (h' : ¬ (17 ≤ tag ∧ tag ≤ 20)) :
    tagBody X recur tag = Pure.pure () := by
  unfold tagBody
  split <;> first | rfl | omega

theorem parseTag_run (X : Ext) (tag : Nat) (body : Bytes) (st : St) :
    parseTag X tag body st = scope body (tagItem tag body (ctxFlag (tagDumpFlag tag) st.ctx)) (do
      tagBody X (parseTagF X body.length) tag
      getCur) st := by
  simp only [parseTag, parseTagF, tagParse, tagScope_run]

theorem Spec.Encodes.tag_lt {tag body enc} (h : Encodes tag body enc) : tag < 64 := by
  cases h <;> omega

theorem unknown_tag_name : ∀ t : Fin 64, ¬ KnownTag t.val → tagNames.get t.val Unknown =
    if t.val = 0 then S "Reserved" else S "Unknown" := by
  unfold KnownTag
  decide

theorem onePacket_unknown (X : Ext) (ctx : Option Ctx) (tag : Nat) (body enc : Bytes) (he : Encodes tag body enc)
    (h : ¬ KnownTag tag) : onePacket (packetsParse X) tag body ctx =
      (.ok (.mk ((if tag = 0 then S "Reserved" else S "Unknown") ++ S " (tag " ++ dec tag ++ S ")") [] (if ctxFlag Ctx.debug ctx then Reader.dumpHex body else [])
        (nBytes body.length) []), ctx) := by
  have hk : ¬ (1 ≤ tag ∧ tag ≤ 14) := fun x => h (.inl x)
  have hk' : ¬ (17 ≤ tag ∧ tag ≤ 20) := fun x => h (.inr (.inl x))
  have hk'' : ¬ (60 ≤ tag ∧ tag ≤ 63) := fun x => h (.inr (.inr x))
  unfold onePacket
  rw [packetsParse_other X tag body (by omega), parseTag_run, scope_run, tagBody_unknown X _ tag hk hk']
  simp only [bind_run, pure_run, getCur_run, St.at_cur, St.at_ctx, tagItem, dumpRest_new, tagDumpFlag, if_neg hk'', newItem, tagStr]
  rw [unknown_tag_name ⟨tag, he.tag_lt⟩ h]

theorem closed_single {tag body enc} (he : Encodes tag body enc) : ClosedSeq [(tag, body)] enc := by
  have := ClosedSeq.cons he .nil
  rwa [List.append_nil] at this

/-- C22: a packet with an unknown tag gives one item without children, named and sized as usual, no error and no change of the
context. -/
theorem C22_unknown_tag (X : Ext) (ctx : Option Ctx) (tag : Nat) (body enc : Bytes) (he : Encodes tag body enc)
    (h : ¬ KnownTag tag) (sched : List Nat) :
    parseSrc X ctx (Source.src ⟨enc, rawErr .eof, sched⟩) =
      ⟨[.mk ((if tag = 0 then S "Reserved" else S "Unknown") ++ S " (tag " ++ dec tag ++ S ")") [] (if ctxFlag Ctx.debug ctx then Reader.dumpHex body else [])
        (nBytes body.length) []], .ok (), ctx⟩ := by
  rw [parseSrc_closed X ctx (closed_single he)]
  simp only [seqPackets, onePacket_unknown X ctx tag body enc he h]

/-- C22: it does not disturb the packets around it: taking the packet out of the input takes its item out of the result and
changes nothing else. -/
theorem C22_transparent (X : Ext) (ctx : Option Ctx) {ps a} (ha : ClosedSeq ps a) (tag : Nat) (body enc : Bytes)
    (he : Encodes tag body enc) (h : ¬ KnownTag tag) (b : Bytes) (tail : GoErr) (sched : List Nat) :
    let o := parseSrc X ctx (Source.src ⟨a ++ enc ++ b, tail, sched⟩)
    parseSrc X ctx (Source.src ⟨a ++ b, tail, sched⟩) = ⟨o.packets.eraseIdx ps.length, o.res, o.ctx⟩ := by
  intro o
  have hl : ∀ c, (seqPackets (packetsParse X) ps c).1.length ≤ ps.length ∧
      ((seqPackets (packetsParse X) ps c).2.1 = .ok () → (seqPackets (packetsParse X) ps c).1.length = ps.length) := by
    clear ha
    induction ps with
    | nil => intro c; simp [seqPackets]
    | cons p ps ih =>
      intro c
      obtain ⟨t, bd⟩ := p
      simp only [seqPackets]
      rcases onePacket (packetsParse X) t bd c with ⟨r, c'⟩
      cases r with
      | ok i =>
        simp only [List.length_cons]
        exact ⟨by have := (ih c').1; omega, fun hh => by rw [(ih c').2 hh]⟩
      | _ => simp
  by_cases hok : (parseSrc X ctx (Source.src ⟨a, rawErr .eof, sched⟩)).res = .ok ()
  · have h1 := C03_append X ctx ha b tail sched sched sched hok
    have h2 := C03_append X ctx ha (enc ++ b) tail sched sched sched hok
    have h3 : ∀ c, parseSrc X c (Source.src ⟨enc ++ b, tail, sched⟩) = _ := fun c =>
      C03_append X c (closed_single he) b tail sched sched sched (by rw [C22_unknown_tag X c tag body enc he h])
    simp only at h1 h2 h3
    have hlen : (parseSrc X ctx (Source.src ⟨a, rawErr .eof, sched⟩)).packets.length = ps.length := by
      rw [parseSrc_closed X ctx ha] at hok ⊢
      exact (hl ctx).2 hok
    have ho : o = parseSrc X ctx (Source.src ⟨a ++ (enc ++ b), tail, sched⟩) := by rw [← List.append_assoc]
    rw [h1, ho, h2, h3]
    rw [C22_unknown_tag X _ tag body enc he h]
    simp only [← hlen]
    congr 1
    rw [List.singleton_append, List.eraseIdx_append_of_length_le (Nat.le_refl _)]
    simp
  · have h1 := C03_append_fail X ctx ha b tail sched sched hok
    have h2 := C03_append_fail X ctx ha (enc ++ b) tail sched sched hok
    have ho : o = parseSrc X ctx (Source.src ⟨a ++ (enc ++ b), tail, sched⟩) := by rw [← List.append_assoc]
    rw [h1, ho, h2]
    rw [parseSrc_closed X ctx ha]
    simp only
    rw [List.eraseIdx_of_length_le (hl ctx).1]

example : ∃ enc, Encodes 40 [1, 2, 3] enc ∧ ¬ KnownTag 40 := ⟨_, .new (by decide) (.last (.one (by decide))), by unfold KnownTag; omega⟩

end Gpgpdump
