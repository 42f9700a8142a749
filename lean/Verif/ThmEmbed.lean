import Verif.ThmParse
import Verif.ThmReader

namespace Gpgpdump

open Spec P Src Cmp

/-! ## C16 -/

/-- a packet leaves the options alone -/
theorem onePacket_opts (X : Ext) (tag : Nat) (body : Bytes) (x : Ctx) {r c} (h : onePacket (packetsParse X) tag body (some x) = (r, c)) :
    ∃ x', c = some x' ∧ x'.opts = x.opts := by
  have hr := r_packetsParse (k := selfCmp x.opts false true false) X (by simp [selfCmp]) (by simp [selfCmp]) tag body (.inl rfl)
  have hitem : (selfCmp x.opts false true false).item (newItem []) (newItem []) := item_refl fun _ => .mk .nil (.inl .nil) .nil .nil (by simp)
  have := hr.run ⟨some x, Reader.new [], newItem []⟩ ⟨some x, Reader.new [], newItem []⟩ ⟨selfCmp_ctxs x _ _ _, rfl, hitem⟩
  unfold onePacket at h
  generalize packetsParse X tag body ⟨some x, Reader.new [], newItem []⟩ = z at this h
  have key : ∀ s s' : St, (selfCmp x.opts false true false).sts s s' → ∃ x', s.ctx = some x' ∧ x'.opts = x.opts := by
    intro s s' hs
    obtain ⟨y, y', e, -, e', -⟩ := hs.ctx.some rfl
    exact ⟨y, e, e'⟩
  cases h
  cases this with
  | ok _ hs => exact key _ _ hs
  | err _ hs => exact key _ _ hs
  | panic _ hs => exact key _ _ hs
  | nil h => cases h

theorem seqPackets_dumps (X : Ext) {ps : List (Nat × Bytes)} {x : Ctx} (hx : x.opts DEBUG = true) {c' : Option Ctx} {is : List Item}
    (h : seqPackets (packetsParse X) ps (some x) = (is, .ok (), c')) : is.map Item.dump = ps.map (fun p => Reader.dumpHex p.2) := by
  induction ps generalizing x is with
  | nil =>
    simp only [seqPackets, Prod.mk.injEq] at h
    rw [← h.1]; rfl
  | cons p ps ih =>
    obtain ⟨tag, body⟩ := p
    simp only [seqPackets] at h
    rcases ho : onePacket (packetsParse X) tag body (some x) with ⟨r, c1⟩
    rw [ho] at h
    cases r with
    | ok i =>
      simp only at h
      rcases hs : seqPackets (packetsParse X) ps c1 with ⟨js, r, c2⟩
      rw [hs] at h
      simp only [Prod.mk.injEq] at h
      obtain ⟨rfl, rfl, rfl⟩ := h
      obtain ⟨x', rfl, hx'⟩ := onePacket_opts X tag body x ho
      obtain ⟨l, rfl⟩ := onePacket_header X ho
      simp only [List.map_cons]
      rw [ih (by rw [hx']; exact hx) hs]
      congr 1
      have hd : ctxFlag Ctx.debug (some x) = true := hx
      rw [debug_flag_implies _ hd tag]
      rw [Item.addAll_dump]
      exact (dumpRest_new body true).trans (if_pos rfl)
    | _ => simp at h

/-- C16: with DEBUG the dumps of the top-level items are the complete packet bodies. -/
theorem C16_dumps (X : Ext) (x : Ctx) (hx : x.opts DEBUG = true) (d : Bytes) (sched : List Nat)
    (h : (parseSrc X (some x) (Source.src ⟨d, rawErr .eof, sched⟩)).res = .ok ()) :
    ∃ ps, PacketSeq ps d ∧
      (parseSrc X (some x) (Source.src ⟨d, rawErr .eof, sched⟩)).packets.map Item.dump = ps.map (fun p => Reader.dumpHex p.2) := by
  obtain ⟨ps, hps, hs⟩ := parseSrc_ok X (some x) (s := ⟨d, rawErr .eof, sched⟩) rfl h
  exact ⟨ps, hps, seqPackets_dumps X hx hs⟩

/-- C16: two accepted inputs with the same output (even only the same first lines and dumps of the top-level items) consist of the
same packets; the environments, options other than DEBUG and earlier histories may differ. -/
theorem C16_lossless (X X' : Ext) (x x' : Ctx) (hx : x.opts DEBUG = true) (hx' : x'.opts DEBUG = true) (d d' : Bytes)
    (sched sched' : List Nat)
    (h : (parseSrc X (some x) (Source.src ⟨d, rawErr .eof, sched⟩)).res = .ok ())
    (h' : (parseSrc X' (some x') (Source.src ⟨d', rawErr .eof, sched'⟩)).res = .ok ())
    (he : (parseSrc X (some x) (Source.src ⟨d, rawErr .eof, sched⟩)).packets.map (fun i => (i.name, i.dump)) =
      (parseSrc X' (some x') (Source.src ⟨d', rawErr .eof, sched'⟩)).packets.map (fun i => (i.name, i.dump))) :
    ∃ ps, PacketSeq ps d ∧ PacketSeq ps d' := by
  obtain ⟨ps, hps, hn⟩ := C05_success X _ d sched h
  obtain ⟨ps', hps', hn'⟩ := C05_success X' _ d' sched' h'
  obtain ⟨qs, hqs, hd⟩ := C16_dumps X x hx d sched h
  obtain ⟨qs', hqs', hd'⟩ := C16_dumps X' x' hx' d' sched' h'
  obtain rfl := C05_unique hps hqs
  obtain rfl := C05_unique hps' hqs'
  refine ⟨ps, hps, ?_⟩
  have e1 : ps.map (fun p => tagStr p.1) = ps'.map (fun p => tagStr p.1) := by
    have a := congrArg (List.map (fun t : Str × Str × Str => t.1)) hn
    have a' := congrArg (List.map (fun t : Str × Str × Str => t.1)) hn'
    have b := congrArg (List.map (fun t : Str × Str => t.1)) he
    simp only [List.map_map] at a a' b
    have c : ∀ qs : List (Nat × Bytes), (∀ p ∈ qs, p.1 < 64) →
        List.map ((fun t : Str × Str × Str => t.1) ∘ heading) qs = qs.map (fun p => tagStr p.1) := by
      intro qs hq
      apply List.map_congr_left
      intro p hp
      rw [tagStr_title (hq p hp)]; rfl
    rw [c _ hps.tag_lt] at a
    rw [c _ hps'.tag_lt] at a'
    rw [← a, ← a']
    exact b
  have e2 : ps.map (fun p => Reader.dumpHex p.2) = ps'.map (fun p => Reader.dumpHex p.2) := by
    have b := congrArg (List.map (fun t : Str × Str => t.2)) he
    simp only [List.map_map] at b
    rw [← hd, ← hd']
    exact b
  have ht := hps.tag_lt
  have ht' := hps'.tag_lt
  have : ps = ps' := by
    clear hps hps' hn hn' hqs hqs' hd hd' he h h'
    induction ps generalizing ps' with
    | nil => cases ps' with
      | nil => rfl
      | cons => simp at e1
    | cons p ps ih => cases ps' with
      | nil => simp at e1
      | cons p' ps' =>
        simp only [List.map_cons, List.cons.injEq] at e1 e2
        rw [ih ps' e1.2 e2.2 (fun q hq => ht q (List.mem_cons_of_mem _ hq)) (fun q hq => ht' q (List.mem_cons_of_mem _ hq))]
        congr 1
        exact Prod.ext (tagStr_inj (ht p List.mem_cons_self) (ht' p' List.mem_cons_self) e1.1) (C11_dump_injective e2.1)
  rw [this]; exact hps'

/-- an accepted input with DEBUG: a trust packet and a user ID in two encodings give the same output -/
example : (parseSrc Tests.X (some (Ctx.new [(DEBUG, true)])) (Source.src ⟨[0xcc, 1, 0xff, 0xcd, 1, 0x41], rawErr .eof, []⟩)).res = .ok () ∧
    (parseSrc Tests.X (some (Ctx.new [(DEBUG, true)])) (Source.src ⟨[0xcc, 1, 0xff, 0xb4, 1, 0x41], rawErr .eof, []⟩)).packets.map
      (fun i => (i.name, i.dump)) =
    (parseSrc Tests.X (some (Ctx.new [(DEBUG, true)])) (Source.src ⟨[0xcc, 1, 0xff, 0xcd, 1, 0x41], rawErr .eof, []⟩)).packets.map
      (fun i => (i.name, i.dump)) := by decide +kernel

/-! ## C25 -/

/-- the recursion bound is irrelevant for a packet on its own -/
theorem parseTagF_eq (X : Ext) (tag : Nat) (body : Bytes) (f f' : Nat) (hf : body.length < f) (hf' : body.length < f') (x : Ctx) :
    onePacket (parseTagF X f) tag body (some x) = onePacket (parseTagF X f') tag body (some x) := by
  have h := r_parseTagF (k := selfCmp x.opts false true false) X (by simp [selfCmp]) (by simp [selfCmp]) f f' tag body hf hf' (.inl rfl)
  have hitem : (selfCmp x.opts false true false).item (newItem []) (newItem []) := item_refl fun _ => .mk .nil (.inl .nil) .nil .nil (by simp)
  have := h.run ⟨some x, Reader.new [], newItem []⟩ ⟨some x, Reader.new [], newItem []⟩ ⟨selfCmp_ctxs x _ _ _, rfl, hitem⟩
  have key : ∀ s s' : St, (selfCmp x.opts false true false).sts s s' → s.ctx = s'.ctx := by
    intro s s' hs
    obtain ⟨y, y', e, e', h1, h2, h3, h4, h5⟩ := hs.ctx.some rfl
    rw [e, e']
    congr 1
    rcases y with ⟨a, b, c, d⟩
    rcases y' with ⟨a', b', c', d'⟩
    simp only at h1 h2 h3 h4 h5
    rw [h1, h2, h3, h4, h5]; rfl
  unfold onePacket
  generalize parseTagF X f tag body ⟨some x, Reader.new [], newItem []⟩ = r at this ⊢
  generalize parseTagF X f' tag body ⟨some x, Reader.new [], newItem []⟩ = r' at this ⊢
  cases this with
  | ok h hs => simp only; rw [h.same rfl, key _ _ hs]
  | err _ hs => simp only; rw [key _ _ hs]
  | panic _ hs => simp only; rw [key _ _ hs]
  | nil h => cases h

/-- what `Parse` gives for a single packet other than a compressed one -/
theorem parseSrc_single (X : Ext) (ctx : Option Ctx) {tag : Nat} {body enc : Bytes} (he : Encodes tag body enc) (h8 : tag ≠ 8) (sched : List Nat) :
    (parseSrc X ctx (Source.src ⟨enc, rawErr .eof, sched⟩)).res = (onePacket (parseTag X) tag body ctx).1.map (fun _ => ()) ∧
    (parseSrc X ctx (Source.src ⟨enc, rawErr .eof, sched⟩)).ctx = (onePacket (parseTag X) tag body ctx).2 ∧
    ∀ i, (onePacket (parseTag X) tag body ctx).1 = .ok i → (parseSrc X ctx (Source.src ⟨enc, rawErr .eof, sched⟩)).packets = [i] := by
  have hc : ClosedSeq [(tag, body)] enc := by have := ClosedSeq.cons he .nil; simpa using this
  rw [parseSrc_closed X ctx hc sched]
  have ho : onePacket (packetsParse X) tag body ctx = onePacket (parseTag X) tag body ctx := by
    unfold onePacket; rw [packetsParse_other X tag body h8]
  simp only [seqPackets, ho]
  rcases onePacket (parseTag X) tag body ctx with ⟨r, c⟩
  cases r <;> simp [Res.map]

theorem subScope_run (st : UInt8) (sb : Bytes) (m : P Item) (x : Ctx) (rd cur) :
    subScope st sb m ⟨some x, rd, cur⟩ = ((m ⟨some x, Reader.new sb, subItem st sb x.debug⟩).1,
      { (m ⟨some x, Reader.new sb, subItem st sb x.debug⟩).2 with rd := rd, cur := cur }) := rfl

theorem sub32_run (recur : TagParser) (c : Option Ctx) (sb : Bytes) (cur) :
    sub32 recur ⟨c, Reader.new sb, cur⟩ =
      match recur 2 sb ⟨c, Reader.new sb, cur⟩ with
      | (.ok i, s) => (.ok (s.cur.add i), { s with cur := s.cur.add i })
      | (.err e, s) => (.err e, s)
      | (.panic p, s) => (.panic p, s)
      | (.stuck, s) => (.stuck, s) := by
  have : sub32 recur ⟨c, Reader.new sb, cur⟩ = (recur 2 sb >>= fun itm => do add itm; getCur) ⟨c, Reader.new sb, cur⟩ := rfl
  rw [this, bind_run]
  rcases recur 2 sb _ with ⟨q, s⟩
  cases q <;> rfl

theorem parseSub02_32 (X : Ext) {recur : TagParser} (hsc : Scoped recur) {sb : Bytes} {st : UInt8} (ht : st.toNat % 128 = 32)
    (x : Ctx) (rd cur) :
    parseSub02 X recur st sb ⟨some x, rd, cur⟩ =
      ((onePacket recur 2 sb (some x)).1.map (subItem st sb x.debug).add, ⟨(onePacket recur 2 sb (some x)).2, rd, cur⟩) := by
  unfold parseSub02
  rw [and_7f, ht, sub02Body_32, subScope_run, sub32_run, hsc 2 sb]
  rcases onePacket recur 2 sb (some x) with ⟨q, s⟩
  cases q <;> rfl

/-- C25: in a signature packet, at any depth, the parser of an embedded-signature subpacket gives its header followed by exactly
the item that `Parse` gives for a stand-alone signature packet with the same body in the same context, fails when that fails, and
leaves the same context. (`parseTagF X body.length` is what `parseTag X 2 body` uses for packets inside it.) -/
theorem C25_embedded (X : Ext) (x : Ctx) {body area : Bytes} {subs : List (UInt8 × Bytes)} {st : UInt8} {sb : Bytes}
    (ha : SigArea body area) (hs : SubSeq subs area) (hm : (st, sb) ∈ subs) (ht : st.toNat % 128 = 32)
    {enc : Bytes} (he : Encodes 2 sb enc) (sched : List Nat) (rd : Reader) (cur : Item) :
    let o := parseSrc X (some x) (Source.src ⟨enc, rawErr .eof, sched⟩)
    let r := parseSub02 X (parseTagF X body.length) st sb ⟨some x, rd, cur⟩
    r.1 = o.res.map (fun _ => (subItem st sb x.debug).addAll o.packets) ∧ r.2 = ⟨o.ctx, rd, cur⟩ := by
  have hlen : sb.length < body.length := (Inside.embedded ha hs hm ht).shorter
  have hr := parseSub02_32 X (parseTagF_scoped X body.length) (sb := sb) ht x rd cur
  rw [parseTagF_eq X 2 sb _ (sb.length + 1) hlen (by omega)] at hr
  have hp : onePacket (parseTagF X (sb.length + 1)) 2 sb (some x) = onePacket (parseTag X) 2 sb (some x) := by
    unfold onePacket parseTag; with_reducible rfl
  rw [hp] at hr
  obtain ⟨h1, h2, h3⟩ := parseSrc_single X (some x) he (by omega) sched
  show (parseSub02 X (parseTagF X body.length) st sb ⟨some x, rd, cur⟩).1 = _ ∧ (parseSub02 X (parseTagF X body.length) st sb ⟨some x, rd, cur⟩).2 = _
  rw [hr, h1, h2]
  revert h3
  generalize (parseSrc X (some x) (Source.src ⟨enc, rawErr .eof, sched⟩)).packets = l
  generalize onePacket (parseTag X) 2 sb (some x) = q
  rcases q with ⟨q, c⟩
  intro h3
  cases q with
  | ok i =>
    rw [h3 i rfl]
    exact ⟨rfl, rfl⟩
  | _ => exact ⟨rfl, rfl⟩

/-- a signature with an embedded signature in its unhashed area, which has a subpacket of its own -/
example : ∃ body area subs, SigArea body area ∧ SubSeq subs area ∧
    ((0x20, [4, 0x19, 1, 8, 0, 3, 2, 2, 0x41, 0, 0, 0xa0, 0xff]) : UInt8 × Bytes) ∈ subs :=
  have h := SubSeq.cons (t := 0x20) (body := [4, 0x19, 1, 8, 0, 3, 2, 2, 0x41, 0, 0, 0xa0, 0xff]) (.one (by decide)) .nil
  ⟨_, _, _, .unhashed (v := 4) (s := 0x18) (p := 1) (h := 8) (first := [2, 2, 0x41]) (rest := [0xa0, 0xff]) (.inl rfl) (by decide) (by decide), h,
    List.mem_cons_self⟩

end Gpgpdump
