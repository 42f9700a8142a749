import Verif.ParserApi
import Verif.ThmPackets
import Verif.SrcAny
import Verif.Tests

/-!
# C72: calling `Parse` again

`Parse` keeps its place: a later call goes on behind the packet, or the octet, that made the previous one fail.
-/

namespace Gpgpdump
open Spec P Src

namespace Spec

/-- `d` is empty, or starts with the header of a packet that is not complete in `d` or has no length -/
def Unfinished (d : Bytes) : Prop :=
  (∀ tag body enc rest, Encodes tag body enc → d ≠ enc ++ rest) ∧ ∀ x rest, d = x :: rest → 128 ≤ x.toNat

/-- complete packets that are parsed without an error -/
def Accepted (X : Ext) (c : Option Ctx) (a : Bytes) : Prop :=
  (∃ ps, ClosedSeq ps a) ∧ (parseSrc X c (Source.src ⟨a, rawErr .eof, []⟩)).res = .ok ()

/-- what a call of `Parse` leaves of the octets `d`: what is behind the packet that is not accepted, or behind an octet that starts
no packet; and nothing if the end of the input was met -/
inductive Left (X : Ext) (c : Option Ctx) : Bytes → Bytes → Prop
  | packet {a tag body enc rest} : Accepted X c a → Encodes tag body enc →
      (parseSrc X c (Source.src ⟨a ++ enc, rawErr .eof, []⟩)).res ≠ .ok () → Left X c (a ++ (enc ++ rest)) rest
  | octet {a x rest} : Accepted X c a → x.toNat < 128 → Left X c (a ++ x :: rest) rest
  | all {a b} : Accepted X c a → Unfinished b → Left X c (a ++ b) []

end Spec

/-! ## What is left after an error -/

/-- a source that delivers an error only after all octets -/
def PlainSrc (s : Src) : Prop := s.strict = false ∧ s.eager = false

theorem PlainSrc.kin {s s'} (h : PlainSrc s) (k : Kin s s') : PlainSrc s' := ⟨k.strict.trans h.1, k.eager.trans h.2⟩
theorem PlainSrc.isLazy {s} (h : PlainSrc s) : Lazy s := .inr h.2

theorem read_left {s : Src} (p : PlainSrc s) {n b e s'} (h : s.read n = (b, some e, s')) : s'.data = [] := by
  unfold Src.read at h
  rw [if_neg (by simp [p.1])] at h
  split at h
  · rename_i hd
    cases h
    exact List.isEmpty_iff.mp hd
  · simp [p.2] at h

theorem fill_left {f : Nat} {s : Src} (p : PlainSrc s) {n : Nat} (hf : n < f) {b e s'} (h : fill f s n = (b, some e, s')) : s'.data = [] := by
  induction f generalizing s n b e s' with
  | zero => omega
  | succ f ih =>
    cases n with
    | zero => rw [fill] at h; cases h
    | succ n =>
      rw [fill] at h
      rcases hr : s.read (n + 1) with ⟨b1, e1, s1⟩
      rw [hr] at h
      cases e1 with
      | some x => cases h; exact read_left p hr
      | none =>
        simp only at h
        obtain ⟨h1, h2, h3, h4⟩ := took_read (by omega) hr
        have := h4 rfl
        rcases hr' : fill f s1 (n + 1 - b1.length) with ⟨b2, e2, s2⟩
        rw [hr'] at h
        simp only [Prod.mk.injEq] at h
        obtain ⟨rfl, rfl, rfl⟩ := h
        exact ih (p.kin h1.kin) (by omega) hr'

theorem readFullIO_left {s : Src} (p : PlainSrc s) {n e s'} (h : s.readFullIO n = (.error e, s')) : s'.data = [] := by
  unfold readFullIO at h
  rcases hr : fill (n + 1) s n with ⟨b, e1, s1⟩
  rw [hr] at h
  simp only at h
  split at h
  · cases h
  · cases e1 with
    | none => cases h
    | some x => cases h; exact fill_left p (by omega) hr

theorem readFull_left {s : Src} (p : PlainSrc s) {n e s'} (h : s.readFull n = (.error e, s')) : s'.data = [] := by
  unfold readFull at h
  rcases hr : s.readFullIO n with ⟨r1, s1⟩
  rw [hr] at h
  cases r1 with
  | ok b => cases h
  | error x => cases h; exact readFullIO_left p hr

theorem readLength_left {s : Src} (p : PlainSrc s) {e s'} (h : readLength s = (.error e, s')) : s'.data = [] := by
  unfold readLength at h
  rcases hr : s.readFull 1 with ⟨r1, s1⟩
  rw [hr] at h
  cases r1 with
  | error x => cases h; exact readFull_left p hr
  | ok b =>
    have p1 := p.kin (took_readFull hr).1.kin
    simp only at h
    split at h
    · cases h
    · split at h
      · rcases hr2 : s1.readFull 1 with ⟨r2, s2⟩
        rw [hr2] at h
        cases r2 with
        | error x => cases h; exact readFull_left p1 hr2
        | ok b => cases h
      · split at h
        · cases h
        · rcases hr2 : s1.readFull 4 with ⟨r2, s2⟩
          rw [hr2] at h
          cases r2 with
          | error x => cases h; exact readFull_left p1 hr2
          | ok b => cases h

theorem readHeader_left {s : Src} (p : PlainSrc s) {e s'} (h : readHeader s = (.error e, s')) :
    s'.data = [] ∨ ∃ x, s.data = x :: s'.data ∧ x.toNat < 128 := by
  unfold readHeader at h
  rcases hr : s.readFullIO 1 with ⟨r1, s1⟩
  rw [hr] at h
  cases r1 with
  | error x => cases h; exact .inl (readFullIO_left p hr)
  | ok b =>
    have p1 := p.kin (took_full hr).1.kin
    simp only at h
    split at h
    · rename_i hlt
      cases h
      right
      rcases readFullIO_spec p.isLazy (n := 1) with ⟨s2, h1, hl1, hd1, k1⟩ | ⟨e, s2, h1, -⟩
      · rw [hr] at h1
        cases h1
        cases hd : s.data with
        | nil => rw [hd] at hl1; simp at hl1
        | cons x r =>
          rw [hd] at hlt hd1
          refine ⟨x, ?_, ?_⟩
          · simpa using hd1.symm
          · simpa [beNat] using hlt
      · rw [hr] at h1; cases h1
    · split at h
      · split at h
        · cases h
        · rcases hr2 : s1.readFull (2 ^ (beNat b % 4)) with ⟨r2, s2⟩
          rw [hr2] at h
          cases r2 with
          | error x => cases h; exact .inl (readFull_left p1 hr2)
          | ok b => cases h
      · rcases hr2 : readLength s1 with ⟨r2, s2⟩
        rw [hr2] at h
        cases r2 with
        | error x => cases h; exact .inl (readLength_left p1 hr2)
        | ok b =>
          obtain ⟨n, q⟩ := b
          cases q <;> cases h

theorem body_left {c : Body} {s : Src} (p : PlainSrc s) {n : Nat} {b e c' s'} (h : c.read s n = (b, some e, c', s')) (he : e.eqEOF = false) :
    s'.data = [] := by
  cases c with
  | indeterminate =>
    simp only [Body.read] at h
    rcases hr : s.read n with ⟨b1, e1, s1⟩
    rw [hr] at h
    simp only [Prod.mk.injEq] at h
    obtain ⟨rfl, rfl, rfl, rfl⟩ := h
    exact read_left p hr
  | span m =>
    cases m with
    | zero =>
      simp only [Body.read] at h
      cases h
      cases he
    | succ m =>
      simp only [Body.read] at h
      rcases hr : s.read (min n (m + 1)) with ⟨b1, e1, s1⟩
      rw [hr] at h
      simp only [Prod.mk.injEq] at h
      obtain ⟨rfl, h2, rfl, rfl⟩ := h
      cases e1 with
      | none => cases h2
      | some y => exact read_left p hr
  | partialLen m q =>
    simp only [Body.read] at h
    have hstart : ∀ r s1, (if m > 0 then (Except.ok (m, q), s) else if q = true then readLength s else (.error (rawErr .eof), s)) = (r, s1) →
        PlainSrc s1 ∧ ∀ e, r = .error e → e.eqEOF = false → s1.data = [] := by
      intro r s1 hh
      split at hh
      · cases hh; exact ⟨p, (fun _ h => by cases h)⟩
      · split at hh
        · exact ⟨p.kin (took_length hh).1.kin, fun e h _ => readLength_left p (h ▸ hh)⟩
        · cases hh; exact ⟨p, fun _ h h' => by cases h; cases h'⟩
    generalize (if m > 0 then (Except.ok (m, q), s) else if q = true then readLength s else (.error (rawErr .eof), s)) = st at h hstart
    obtain ⟨r, s1⟩ := st
    obtain ⟨p1, h0⟩ := hstart r s1 rfl
    cases r with
    | error x =>
      cases h
      exact h0 _ rfl he
    | ok mp =>
      obtain ⟨m', p'⟩ := mp
      cases m' with
      | zero =>
        cases h
        cases he
      | succ m' =>
        simp only at h
        rcases hr : s1.read (min n (m' + 1)) with ⟨b1, e1, s2⟩
        rw [hr] at h
        simp only [Prod.mk.injEq] at h
        obtain ⟨rfl, h2, rfl, rfl⟩ := h
        cases e1 with
        | none => cases h2
        | some y => exact read_left p1 hr

theorem readAllLoop_left {X : Ext} {f : Nat} {c : Body} {s : Src} (p : PlainSrc s) {len cap : Nat} (hc : len ≤ cap) (hf : s.data.length < f)
    {b e c' s'} (h : readAllLoop X f c s len cap = (b, some e, c', s')) : s'.data = [] := by
  induction f generalizing c s len cap b e c' s' with
  | zero => omega
  | succ f ih =>
    rw [readAllLoop] at h
    simp only at h
    have hcap : len < (if len ≥ cap then max (cap + 1) (X.grow cap) else cap) ∧
        len ≤ (if len ≥ cap then max (cap + 1) (X.grow cap) else cap) := by split <;> omega
    generalize (if len ≥ cap then max (cap + 1) (X.grow cap) else cap) = cap' at h hcap
    rcases hr : c.read s (cap' - len) with ⟨b1, e1, c1, s1⟩
    obtain ⟨h1, h2, h3⟩ := took_body (by omega) hr
    rw [hr] at h
    cases e1 with
    | some x =>
      simp only [Prod.mk.injEq] at h
      obtain ⟨-, h4, -, rfl⟩ := h
      split at h4
      · cases h4
      · rename_i hx
        exact body_left p hr (by simpa using hx)
    | none =>
      simp only at h
      rcases hr' : readAllLoop X f c1 s1 (len + b1.length) cap' with ⟨b2, e2, c2, s2⟩
      rw [hr'] at h
      simp only [Prod.mk.injEq] at h
      obtain ⟨-, rfl, -, rfl⟩ := h
      have h3 := h3 rfl
      have := h3.le
      exact ih (p.kin h1.kin) (by omega) (by omega) hr'

theorem consumeAll_kin (f : Nat) (c : Body) (s : Src) :
    Kin s (consumeAll f c s) ∧ (consumeAll f c s).data.length ≤ s.data.length := by
  induction f generalizing c s with
  | zero => exact ⟨.refl _, Nat.le_refl _⟩
  | succ f ih =>
    rw [consumeAll]
    rcases hr : c.read s 1024 with ⟨b1, e1, c1, s1⟩
    obtain ⟨h1, -, -⟩ := took_body (by omega) hr
    have := h1.le
    cases e1 with
    | some x => exact ⟨h1.kin, by simpa using this⟩
    | none =>
      obtain ⟨k, l⟩ := ih c1 s1
      exact ⟨h1.kin.trans k, by simp only at *; omega⟩

/-- `opaqueNext` is `nextPacket`, and after an error all octets, or one that starts no packet, have been read -/
theorem opaqueNext_spec {X : Ext} {s : Src} (p : PlainSrc s) :
    (opaqueNext X s).1 = (nextPacket X s).1 ∧ Kin s (opaqueNext X s).2 ∧
    (∀ q, (nextPacket X s).1 = .ok q → (opaqueNext X s).2 = (nextPacket X s).2) ∧
    (∀ e, (nextPacket X s).1 = .error e → (opaqueNext X s).2.data = [] ∨ ∃ x, s.data = x :: (opaqueNext X s).2.data ∧ x.toNat < 128) := by
  unfold opaqueNext nextPacket
  rcases hr : readHeader s with ⟨r1, s1⟩
  have k1 := (took_header hr).1.kin
  cases r1 with
  | error e =>
    exact ⟨rfl, k1, (fun _ h => by cases h), fun _ _ => readHeader_left p hr⟩
  | ok tc =>
    obtain ⟨tag, c⟩ := tc
    simp only [readAll]
    rcases hr' : readAllLoop X (s1.data.length + 2) c s1 0 512 with ⟨b, e, c', s2⟩
    have k2 := (took_loop (by omega) (by omega) hr').kin
    cases e with
    | none => exact ⟨rfl, k1.trans k2, fun _ _ => rfl, (fun _ h => by cases h)⟩
    | some x =>
      obtain ⟨k3, l3⟩ := consumeAll_kin (s2.data.length + 1) c' s2
      have h2 := readAllLoop_left (p.kin k1) (by omega) (by omega) hr'
      refine ⟨rfl, (k1.trans k2).trans k3, (fun _ h => by cases h), fun _ _ => .inl ?_⟩
      have l4 : (consumeAll (s2.data.length + 1) c' s2).data.length ≤ 0 := by rw [h2] at l3 ⊢; exact l3
      exact List.length_eq_zero_iff.mp (Nat.le_zero.mp l4)

theorem opaqueNext_octet {X : Ext} {s : Src} (p : PlainSrc s) {x : UInt8} {rest : Bytes} (hd : s.data = x :: rest) (hx : x.toNat < 128) :
    (opaqueNext X s).1 = .error (rawErr .noMSB) ∧ (opaqueNext X s).2.data = rest := by
  unfold opaqueNext readHeader
  rcases readFullIO_spec p.isLazy (n := 1) with ⟨s2, h1, hl1, hd1, k1⟩ | ⟨e, s2, h1, hlt, -⟩
  · rw [h1]
    have hb : beNat (List.take 1 s.data) < 128 := by rw [hd]; simpa [beNat] using hx
    simp only [if_pos hb]
    rw [hd] at hd1
    exact ⟨trivial, by simpa using hd1⟩
  · rw [hd] at hlt
    simp at hlt

theorem closedSeq_append {ps a qs b} (h : ClosedSeq ps a) (h' : ClosedSeq qs b) : ClosedSeq (ps ++ qs) (a ++ b) := by
  induction h with
  | nil => exact h'
  | cons he _ ih => rw [List.append_assoc]; exact .cons he ih

/-! ## One call -/

/-- the loop with an explicit source is the loop of the model -/
theorem loop_eq (X : Ext) (f : Nat) (p : ParserObj) (hp : PlainSrc p.src) :
    Kin p.src (p.loop X f).2.src ∧ ∃ new, (p.loop X f).2.info = p.info ++ new ∧ ∀ st : St, st.ctx = p.ctx →
      forPackets X (packetsParse X) f p.src st = ((p.loop X f).1, { st with ctx := (p.loop X f).2.ctx, cur := st.cur.addAll new }) := by
  induction f generalizing p with
  | zero =>
    refine ⟨.refl _, [], (List.append_nil _).symm, fun st hs => ?_⟩
    show (Res.stuck, st) = _
    simp only [ParserObj.loop, Item.addAll_nil, ← hs]
  | succ f ih =>
    obtain ⟨h1, h2, h3, h4⟩ := opaqueNext_spec (X := X) hp
    rcases hn : nextPacket X p.src with ⟨r, s1⟩
    rcases ho : opaqueNext X p.src with ⟨r', s1'⟩
    rw [hn, ho] at h1 h3
    rw [ho] at h2
    simp only at h1
    subst h1
    cases r' with
    | error e =>
      have hl : p.loop X (f + 1) = (if e.isEOF then .ok () else .err e.wrap, { p with src := s1' }) := by
        rw [ParserObj.loop, ho]
      rw [hl]
      refine ⟨h2, [], (List.append_nil _).symm, fun st hs => ?_⟩
      have hf : forPackets X (packetsParse X) (f + 1) p.src = if e.isEOF then Pure.pure () else P.fail e.wrap := by
        rw [forPackets, hn]
      rw [hf]
      simp only [Item.addAll_nil, ← hs]
      split <;> rfl
    | ok q =>
      obtain ⟨tag, body⟩ := q
      have h3 : s1' = s1 := h3 _ rfl
      subst h3
      have hf : forPackets X (packetsParse X) (f + 1) p.src = (do
          let itm ← packetsParse X tag body
          add itm
          forPackets X (packetsParse X) f s1') := by
        rw [forPackets, hn]
      rw [hf]
      rcases hq : packetsParse X tag body ⟨p.ctx, Reader.new [], newItem []⟩ with ⟨r, st1⟩
      have hone : onePacket (packetsParse X) tag body p.ctx = (r, st1.ctx) := by
        unfold onePacket; rw [hq]
      have hrun : ∀ st : St, st.ctx = p.ctx → packetsParse X tag body st = (r, { st with ctx := st1.ctx }) := by
        intro st hs
        rw [packetsParse_scoped X tag body st, hs, hone]
      have hl : p.loop X (f + 1) = match (r, st1) with
          | (.ok i, st) => ParserObj.loop X f ⟨s1', st.ctx, p.info ++ [i]⟩
          | (.err e, st) => (.err e, ⟨s1', st.ctx, p.info⟩)
          | (.panic x, st) => (.panic x, ⟨s1', st.ctx, p.info⟩)
          | (.stuck, st) => (.stuck, ⟨s1', st.ctx, p.info⟩) := by
        rw [ParserObj.loop, ho]
        simp only [hq]
        cases r <;> rfl
      rw [hl]
      have stop : ∀ r' : Res Unit, (∀ st : St, st.ctx = p.ctx → (do
          let itm ← packetsParse X tag body
          add itm
          forPackets X (packetsParse X) f s1') st = (r', { st with ctx := st1.ctx })) →
          Kin p.src s1' ∧ ∃ new, p.info = p.info ++ new ∧ ∀ st : St, st.ctx = p.ctx → (do
          let itm ← packetsParse X tag body
          add itm
          forPackets X (packetsParse X) f s1') st = (r', { st with ctx := st1.ctx, cur := st.cur.addAll new }) := by
        intro r' h
        exact ⟨h2, [], (List.append_nil _).symm, fun st hs => by rw [h st hs, Item.addAll_nil]⟩
      cases r with
      | ok i =>
        simp only
        obtain ⟨k, new, e1, e2⟩ := ih ⟨s1', st1.ctx, p.info ++ [i]⟩ (hp.kin h2)
        refine ⟨h2.trans k, i :: new, by rw [e1]; simp, fun st hs => ?_⟩
        rw [bind_run, hrun st hs]
        simp only [bind_run]
        have hadd : add i ({ st with ctx := st1.ctx } : St) = (.ok (), { st with ctx := st1.ctx, cur := st.cur.add i }) := rfl
        rw [hadd]
        simp only
        have e3 := e2 { st with ctx := st1.ctx, cur := st.cur.add i } rfl
        simp only at e3
        rw [e3]
        simp only [Item.add_eq, Item.addAll_addAll, List.singleton_append]
      | err e => exact stop (.err e) fun st hs => by rw [bind_run, hrun st hs]
      | panic x => exact stop (.panic x) fun st hs => by rw [bind_run, hrun st hs]
      | stuck => exact stop .stuck fun st hs => by rw [bind_run, hrun st hs]

/-- what a call returns and leaves, apart from the source -/
theorem call_eq (X : Ext) (p : ParserObj) (hp : PlainSrc p.src) :
    Kin p.src (p.call X).2.src ∧ (p.call X).1 = (parseSrc X p.ctx p.src).res ∧ (p.call X).2.ctx = (parseSrc X p.ctx p.src).ctx ∧
      (p.call X).2.info = p.info ++ (parseSrc X p.ctx p.src).packets := by
  obtain ⟨k, new, e1, e2⟩ := loop_eq X (p.src.data.length + 1) p hp
  have e2 := e2 ⟨p.ctx, Reader.new [], newItem []⟩ rfl
  unfold ParserObj.call parseSrc
  rw [e2]
  refine ⟨k, rfl, rfl, ?_⟩
  rw [e1]
  simp only [Item.items_addAll_new]

/-- the loop reads complete packets -/
theorem loop_run (X : Ext) {ps a} (h : ClosedSeq ps a) : ∀ (d : Bytes) (f : Nat) (p : ParserObj) (is : List Item) (c : Option Ctx),
    PlainSrc p.src → p.src.data = a ++ d → (a ++ d).length < f → seqPackets (packetsParse X) ps p.ctx = (is, .ok (), c) →
    ∃ f' s, d.length < f' ∧ Kin p.src s ∧ s.data = d ∧ p.loop X f = ParserObj.loop X f' ⟨s, c, p.info ++ is⟩ := by
  induction h with
  | nil =>
    intro d f p is c hp hd hf hs
    rw [seqPackets] at hs
    cases hs
    exact ⟨f, p.src, hf, .refl _, hd, by rw [List.append_nil]⟩
  | @cons tag body ps enc inp he hs ih =>
    intro d f p is c hp hd hf hq
    cases f with
    | zero => omega
    | succ f =>
      obtain ⟨k, hm⟩ := nextPacket_spec (X := X) hp.isLazy
      rw [List.append_assoc] at hd
      rw [hd, decNext_complete he] at hm
      simp only at hm
      obtain ⟨h1, h2, h3, -⟩ := opaqueNext_spec (X := X) hp
      have h3 := h3 _ hm.1
      rw [hm.1] at h1
      have ho : opaqueNext X p.src = (.ok (tag, body), (nextPacket X p.src).2) := by rw [← h1, ← h3]
      rw [seqPackets] at hq
      have hone : onePacket (packetsParse X) tag body p.ctx = ((packetsParse X tag body ⟨p.ctx, Reader.new [], newItem []⟩).1,
        (packetsParse X tag body ⟨p.ctx, Reader.new [], newItem []⟩).2.ctx) := rfl
      rw [hone] at hq
      rw [ParserObj.loop, ho]
      simp only
      rcases hpq : packetsParse X tag body ⟨p.ctx, Reader.new [], newItem []⟩ with ⟨r, st1⟩
      rw [hpq] at hq
      cases r with
      | ok i =>
        simp only [Prod.mk.injEq] at hq ⊢
        obtain ⟨rfl, hq1⟩ := hq
        have hlt := he.length_lt
        obtain ⟨f', s, g1, g2, g3, g4⟩ := ih d f ⟨(nextPacket X p.src).2, st1.ctx, p.info ++ [i]⟩ _ c (hp.kin k) hm.2
          (by simp only [List.length_append] at hf ⊢; omega)
          (show seqPackets (packetsParse X) ps st1.ctx = ((seqPackets (packetsParse X) ps st1.ctx).1, .ok (), c) by rw [← hq1])
        refine ⟨f', s, g1, k.trans g2, g3, ?_⟩
        rw [g4]
        simp
      | err e => cases hq
      | panic e => cases hq
      | stuck => cases hq

theorem Spec.Accepted.seq {X c a} (h : Accepted X c a) : ∃ ps is c', ClosedSeq ps a ∧ seqPackets (packetsParse X) ps c = (is, .ok (), c') := by
  obtain ⟨⟨ps, hps⟩, hr⟩ := h
  rw [parseSrc_closed X c hps] at hr
  exact ⟨ps, (seqPackets (packetsParse X) ps c).1, (seqPackets (packetsParse X) ps c).2.2, hps, by rw [← hr]⟩

theorem decNext_unfinished {b : Bytes} (h : Unfinished b) :
    decNext b = .atEnd ∨ decNext b = .truncated ∨ ∃ t c, decNext b = .toEnd t c := by
  cases hd : decNext b with
  | atEnd => exact .inl rfl
  | truncated => exact .inr (.inl rfl)
  | toEnd t c => exact .inr (.inr ⟨t, c, rfl⟩)
  | packet t c r =>
    obtain ⟨enc, he, rfl⟩ := decNext_sound hd
    exact absurd rfl (h.1 _ _ _ _ he)
  | noMSB =>
    exfalso
    cases b with
    | nil => simp [decNext] at hd
    | cons x r =>
      have := h.2 x r rfl
      unfold decNext at hd
      simp only at hd
      rw [if_neg (by omega)] at hd
      repeat' split at hd
      all_goals cases hd

theorem unfinished_of_decNext {b : Bytes} (h : decNext b = .atEnd ∨ decNext b = .truncated ∨ ∃ t c, decNext b = .toEnd t c) :
    Unfinished b := by
  constructor
  · rintro tag body enc rest he rfl
    rw [decNext_complete he] at h
    rcases h with h | h | ⟨t, c, h⟩ <;> cases h
  · rintro x rest rfl
    by_cases hx : x.toNat < 128
    · unfold decNext at h
      simp only [if_pos hx] at h
      rcases h with h | h | ⟨t, c, h⟩ <;> cases h
    · omega

/-- after the unfinished end of the input nothing is left -/
theorem loop_unfinished (X : Ext) (f : Nat) (p : ParserObj) (hp : PlainSrc p.src) (hf : p.src.data.length < f) (h : Unfinished p.src.data) :
    (p.loop X f).2.src.data = [] := by
  induction f generalizing p with
  | zero => omega
  | succ f ih =>
    obtain ⟨h1, h2, h3, h4⟩ := opaqueNext_spec (X := X) hp
    rcases ho : opaqueNext X p.src with ⟨r, s1⟩
    rw [ho] at h1 h2 h3 h4
    simp only at h1 h2 h3 h4
    rw [ParserObj.loop, ho]
    cases r with
    | error e =>
      rcases h4 e h1.symm with h4 | ⟨x, h4, h5⟩
      · exact h4
      · have := h.2 _ _ h4
        omega
    | ok q =>
      obtain ⟨tag, body⟩ := q
      obtain ⟨k, hm⟩ := nextPacket_spec (X := X) hp.isLazy
      rw [← h1, ← h3 _ h1.symm] at hm
      have hs1 : s1.data = [] ∧ p.src.data ≠ [] := by
        rcases decNext_unfinished h with hd | hd | ⟨t, c, hd⟩
        · rw [hd] at hm
          obtain ⟨e, he, -⟩ := hm
          cases he
        · rw [hd] at hm
          obtain ⟨e, he, -⟩ := hm
          cases he
        · rw [hd] at hm
          obtain ⟨hm, -⟩ := hm
          obtain ⟨m1, m2⟩ := hm hp.1
          refine ⟨?_, by intro hnil; rw [hnil] at hd; simp [decNext] at hd⟩
          cases ht : p.src.tail.eqEOF with
          | true => exact (m1 ht).2
          | false => have := m2 ht; cases this
      simp only
      rcases packetsParse X tag body ⟨p.ctx, Reader.new [], newItem []⟩ with ⟨r, st1⟩
      have hpos := List.length_pos_iff.mpr hs1.2
      cases r with
      | ok i =>
        refine ih _ (hp.kin h2) (by simp only [hs1.1, List.length_nil]; omega) ?_
        simp only [hs1.1]
        exact unfinished_of_decNext (.inl rfl)
      | err e => exact hs1.1
      | panic e => exact hs1.1
      | stuck => exact hs1.1

/-- the octets a call leaves -/
theorem call_left (X : Ext) (p : ParserObj) (hp : PlainSrc p.src) {rest} (h : Left X p.ctx p.src.data rest) :
    (p.call X).2.src.data = rest := by
  unfold ParserObj.call
  generalize hd : p.src.data = d at h
  cases h with
  | @packet a tag body enc rest ha he hno =>
    obtain ⟨ps, is, c', hps, hs⟩ := ha.seq
    obtain ⟨f', s, g1, g2, g3, g4⟩ := loop_run X hps (enc ++ rest) ((a ++ (enc ++ rest)).length + 1) p is c' hp hd (by omega) hs
    rw [g4]
    cases f' with
    | zero => omega
    | succ f' =>
      have hp' := hp.kin g2
      obtain ⟨k, hm⟩ := nextPacket_spec (X := X) hp'.isLazy
      rw [g3, decNext_complete he] at hm
      simp only at hm
      obtain ⟨h1, h2, h3, -⟩ := opaqueNext_spec (X := X) hp'
      have h3 := h3 _ hm.1
      rw [hm.1] at h1
      have ho : opaqueNext X s = (.ok (tag, body), (nextPacket X s).2) := by rw [← h1, ← h3]
      have hseq : seqPackets (packetsParse X) (ps ++ [(tag, body)]) p.ctx =
          (is ++ (seqPackets (packetsParse X) [(tag, body)] c').1, (seqPackets (packetsParse X) [(tag, body)] c').2) := by
        rw [seqPackets_append, hs]
      have hcl : ClosedSeq (ps ++ [(tag, body)]) (a ++ enc) := by
        have := closedSeq_append hps (.cons he .nil)
        rw [List.append_nil] at this
        exact this
      rw [parseSrc_closed X p.ctx hcl] at hno
      simp only [hseq] at hno
      rw [seqPackets] at hno
      have hone : onePacket (packetsParse X) tag body c' = ((packetsParse X tag body ⟨c', Reader.new [], newItem []⟩).1,
        (packetsParse X tag body ⟨c', Reader.new [], newItem []⟩).2.ctx) := rfl
      rw [hone] at hno
      rw [ParserObj.loop]
      simp only [ho]
      rcases hpq : packetsParse X tag body ⟨c', Reader.new [], newItem []⟩ with ⟨r, st1⟩
      rw [hpq] at hno
      cases r with
      | ok i => exact absurd rfl hno
      | err e => exact hm.2
      | panic e => exact hm.2
      | stuck => exact hm.2
  | @octet a x rest ha hx =>
    obtain ⟨ps, is, c', hps, hs⟩ := ha.seq
    obtain ⟨f', s, g1, g2, g3, g4⟩ := loop_run X hps (x :: rest) ((a ++ x :: rest).length + 1) p is c' hp hd (by omega) hs
    rw [g4]
    cases f' with
    | zero => omega
    | succ f' =>
      have hp' := hp.kin g2
      obtain ⟨h1, h2⟩ := opaqueNext_octet (X := X) hp' g3 hx
      rcases ho : opaqueNext X s with ⟨r, s1⟩
      rw [ho] at h1 h2
      simp only at h1 h2
      subst h1
      rw [ParserObj.loop]
      simp only [ho]
      exact h2
  | @all a b ha hb =>
    obtain ⟨ps, is, c', hps, hs⟩ := ha.seq
    obtain ⟨f', s, g1, g2, g3, g4⟩ := loop_run X hps b ((a ++ b).length + 1) p is c' hp hd (by omega) hs
    rw [g4]
    exact loop_unfinished X f' _ (hp.kin g2) (by rw [g3]; exact g1) (by rw [g3]; exact hb)

theorem closed_split {qs rs : List (Nat × Bytes)} : ∀ {a : Bytes}, ClosedSeq (qs ++ rs) a →
    ∃ b c, a = b ++ c ∧ ClosedSeq qs b ∧ ClosedSeq rs c := by
  induction qs with
  | nil => exact fun h => ⟨[], _, rfl, .nil, h⟩
  | cons q qs ih =>
    intro a h
    cases h with
    | cons he hs =>
      obtain ⟨b, c, rfl, h1, h2⟩ := ih hs
      exact ⟨_ ++ b, c, by rw [List.append_assoc], .cons he h1, h2⟩

theorem seq_fail (p : TagParser) : ∀ (ps : List (Nat × Bytes)) (c : Option Ctx), (seqPackets p ps c).2.1 ≠ .ok () →
    ∃ qs q rs, ps = qs ++ q :: rs ∧ (seqPackets p qs c).2.1 = .ok () ∧ (seqPackets p (qs ++ [q]) c).2.1 ≠ .ok () := by
  intro ps
  induction ps with
  | nil => intro c h; exact absurd rfl h
  | cons q ps ih =>
    intro c h
    by_cases h1 : (seqPackets p [q] c).2.1 = .ok ()
    · obtain ⟨tag, body⟩ := q
      rw [seqPackets] at h h1
      rcases ho : onePacket p tag body c with ⟨r, c1⟩
      rw [ho] at h h1
      cases r with
      | ok i =>
        simp only at h
        obtain ⟨qs, q, rs, rfl, e1, e2⟩ := ih c1 h
        refine ⟨(tag, body) :: qs, q, rs, rfl, ?_, ?_⟩
        · rw [seqPackets, ho]; exact e1
        · rw [List.cons_append, seqPackets, ho]; exact e2
      | err e => cases h1
      | panic e => cases h1
      | stuck => cases h1
    · exact ⟨[], q, ps, rfl, rfl, h1⟩

theorem accepted_of_seq {X c ps a} (h : ClosedSeq ps a) (hs : (seqPackets (packetsParse X) ps c).2.1 = .ok ()) : Accepted X c a :=
  ⟨⟨ps, h⟩, by rw [parseSrc_closed X c h]; exact hs⟩

theorem left_exists (X : Ext) (c : Option Ctx) (d : Bytes) : ∃ rest, Left X c d rest := by
  obtain ⟨a, b, h1, rfl, h3, h4, h5⟩ := split_spec d
  generalize (split (a ++ b)).1 = ps at h1
  by_cases hs : (seqPackets (packetsParse X) ps c).2.1 = .ok ()
  · have ha := accepted_of_seq h1 hs
    cases hd : decNext b with
    | packet t b' r => exact absurd hd (h5 _ _ _)
    | noMSB =>
      cases b with
      | nil => simp [decNext] at hd
      | cons x r =>
        by_cases hx : x.toNat < 128
        · exact ⟨r, .octet ha hx⟩
        · exfalso
          unfold decNext at hd
          simp only at hd
          rw [if_neg hx] at hd
          repeat' split at hd
          all_goals cases hd
    | atEnd => exact ⟨[], .all ha (unfinished_of_decNext (.inl hd))⟩
    | truncated => exact ⟨[], .all ha (unfinished_of_decNext (.inr (.inl hd)))⟩
    | toEnd t e => exact ⟨[], .all ha (unfinished_of_decNext (.inr (.inr ⟨t, e, hd⟩)))⟩
  · obtain ⟨qs, ⟨tag, body⟩, rs, rfl, e1, e2⟩ := seq_fail _ _ _ hs
    obtain ⟨a1, a2, rfl, g1, g2⟩ := closed_split h1
    cases g2 with
    | @cons _ _ _ enc inp he hr =>
      refine ⟨inp ++ b, ?_⟩
      rw [List.append_assoc, List.append_assoc]
      refine .packet (accepted_of_seq g1 e1) he ?_
      have hcl : ClosedSeq (qs ++ [(tag, body)]) (a1 ++ enc) := by
        have := closedSeq_append g1 (.cons he .nil)
        rw [List.append_nil] at this
        exact this
      rw [parseSrc_closed X c hcl]
      exact e2

theorem source_plain (s : Source) : PlainSrc s.src := ⟨rfl, rfl⟩

theorem plain_source {s : Src} (h : PlainSrc s) : s = Source.src ⟨s.data, s.tail, s.sched⟩ := by
  cases s
  obtain ⟨h1, h2⟩ := h
  simp only at h1 h2
  subst h1
  subst h2
  rfl

/-! ## C72 -/

/-- **C72**: every call of `Parse` on a parser returns what the first call on a new parser with the octets that are left and the
present context returns, behind the items of the calls before. What is left is laid down by `Left`. -/
theorem C72_call (X : Ext) (c : Option Ctx) (is : List Item) (s : Source) :
    ∃ rest sched, Left X c s.data rest ∧
      (ParserObj.call X ⟨s.src, c, is⟩) = ((parseSrc X c s.src).res,
        ⟨Source.src ⟨rest, s.tail, sched⟩, (parseSrc X c s.src).ctx, is ++ (parseSrc X c s.src).packets⟩) := by
  obtain ⟨k, h1, h2, h3⟩ := call_eq X ⟨s.src, c, is⟩ (source_plain s)
  obtain ⟨rest, hl⟩ := left_exists X c s.data
  have hd := call_left X ⟨s.src, c, is⟩ (source_plain s) hl
  rcases hc : ParserObj.call X ⟨s.src, c, is⟩ with ⟨r, src', c', is'⟩
  rw [hc] at k h1 h2 h3 hd
  simp only at k h1 h2 h3 hd
  refine ⟨rest, src'.sched, hl, ?_⟩
  have hp := (source_plain s).kin k
  rw [plain_source hp, hd, k.tail, ← h1, ← h2, ← h3]
  rfl

/-- `Left` leaves nothing open. -/
theorem C72_left (X : Ext) (c : Option Ctx) (d : Bytes) : ∃ rest, Left X c d rest ∧ ∀ rest', Left X c d rest' → rest' = rest := by
  obtain ⟨rest, h⟩ := left_exists X c d
  let p : ParserObj := ⟨Source.src ⟨d, rawErr .eof, []⟩, c, []⟩
  have hp : PlainSrc p.src := ⟨rfl, rfl⟩
  exact ⟨rest, h, fun rest' h' => (call_left X p hp h').symm.trans (call_left X p hp h)⟩

theorem parseSrc_nothing (X : Ext) (c : Option Ctx) (sched : List Nat) :
    parseSrc X c (Source.src ⟨[], rawErr .eof, sched⟩) = ⟨[], .ok (), c⟩ := by
  rw [parseSrc_closed X c .nil]
  rfl

theorem parseSrc_octet (X : Ext) (c : Option Ctx) {x : UInt8} (hx : x.toNat < 128) (rest : Bytes) (tail : GoErr) (sched : List Nat) :
    parseSrc X c (Source.src ⟨x :: rest, tail, sched⟩) = ⟨[], .err (wrapErr .noMSB), c⟩ := by
  rw [parseSrc_eq X _ _ (Source.isLazy _) rfl]
  have hdn : decNext (x :: rest) = .noMSB := by unfold decNext; simp only [if_pos hx]
  have hsp : split (x :: rest) = ([], .noMSB) := by
    unfold split; rw [splitF]; simp only [hdn]
  simp only [Source.src, hsp]
  rfl

theorem accepted_nil (X : Ext) (c : Option Ctx) : Accepted X c [] := ⟨⟨[], .nil⟩, by rw [parseSrc_nothing]⟩

theorem left_nil (X : Ext) (c : Option Ctx) : Left X c [] [] :=
  .all (a := []) (accepted_nil X c) (unfinished_of_decNext (.inl rfl))

theorem left_eq {X c d r r'} (h : Left X c d r) (h' : Left X c d r') : r = r' := by
  obtain ⟨x, -, hx⟩ := C72_left X c d
  rw [hx r h, hx r' h']

/-- nothing left: every further call returns the same result and no error -/
theorem calls_nothing (X : Ext) (c : Option Ctx) (is : List Item) (sched : List Nat) (n : Nat) :
    ParserObj.calls X n ⟨Source.src ⟨[], rawErr .eof, sched⟩, c, is⟩ = List.replicate n (.ok (), is) := by
  induction n generalizing sched with
  | zero => rfl
  | succ n ih =>
    obtain ⟨rest, sched', hl, hc⟩ := C72_call X c is ⟨[], rawErr .eof, sched⟩
    cases left_eq hl (left_nil X c)
    rw [parseSrc_nothing] at hc
    rw [ParserObj.calls, hc, List.replicate_succ]
    simp only [List.append_nil]
    rw [ih]

/-- what a call leaves is shorter, unless there was nothing or the call met the end of the input -/
theorem left_shorter {X c d rest} (h : Left X c d rest) : rest.length < d.length ∨ rest = [] := by
  cases h with
  | packet ha he hno =>
    have := he.length_lt
    left
    simp only [List.length_append]
    omega
  | octet ha hx => left; simp only [List.length_append, List.length_cons]; omega
  | all => exact .inr rfl

theorem left_ok {X c d rest} (h : Left X c d rest) {sched} (hok : (parseSrc X c (Source.src ⟨d, rawErr .eof, sched⟩)).res = .ok ()) : rest = [] := by
  cases h with
  | @packet a tag body enc rest ha he hno =>
    exfalso
    obtain ⟨⟨ps, hps⟩, hr⟩ := ha
    have hcl : ClosedSeq (ps ++ [(tag, body)]) (a ++ enc) := by
      have := closedSeq_append hps (.cons he .nil)
      rw [List.append_nil] at this
      exact this
    rw [← List.append_assoc, C03_append_fail X c hcl rest (rawErr .eof) [] sched hno] at hok
    exact hno hok
  | @octet a x rest ha hx =>
    exfalso
    obtain ⟨⟨ps, hps⟩, hr⟩ := ha
    have := C03_append X c hps (x :: rest) (rawErr .eof) [] sched sched hr
    simp only at this
    rw [this, parseSrc_octet X _ hx] at hok
    cases hok
  | all => rfl

/-- **C72**: after a success, every further call returns the same result without an error. -/
theorem C72_success (X : Ext) (c : Option Ctx) (d : Bytes) (sched : List Nat) (n : Nat)
    (h : (parseSrc X c (Source.src ⟨d, rawErr .eof, sched⟩)).res = .ok ()) :
    ParserObj.calls X n ⟨Source.src ⟨d, rawErr .eof, sched⟩, c, []⟩ =
      List.replicate n (.ok (), (parseSrc X c (Source.src ⟨d, rawErr .eof, sched⟩)).packets) := by
  cases n with
  | zero => rfl
  | succ n =>
    obtain ⟨rest, sched', hl, hc⟩ := C72_call X c [] ⟨d, rawErr .eof, sched⟩
    cases left_ok hl h
    rw [ParserObj.calls, hc, List.replicate_succ, h]
    simp only [List.nil_append]
    rw [calls_nothing]

/-- **C72**: that the input ends inside a packet is reported once; every further call returns the same result without an error. -/
theorem C72_reported_once (X : Ext) (c : Option Ctx) {a b : Bytes} (ha : Accepted X c a) (hb : Unfinished b) (sched : List Nat) (n : Nat) :
    ParserObj.calls X (n + 1) ⟨Source.src ⟨a ++ b, rawErr .eof, sched⟩, c, []⟩ =
      ((parseSrc X c (Source.src ⟨a ++ b, rawErr .eof, sched⟩)).res, (parseSrc X c (Source.src ⟨a ++ b, rawErr .eof, sched⟩)).packets) ::
        List.replicate n (.ok (), (parseSrc X c (Source.src ⟨a ++ b, rawErr .eof, sched⟩)).packets) := by
  obtain ⟨rest, sched', hl, hc⟩ := C72_call X c [] ⟨a ++ b, rawErr .eof, sched⟩
  cases left_eq hl (.all ha hb)
  rw [ParserObj.calls, hc]
  simp only [List.nil_append]
  rw [calls_nothing]

/-- **C72**: octets that start no packet are skipped, one with each call; the packets behind them are shown then. -/
theorem C72_skips (X : Ext) (c : Option Ctx) (g d : Bytes) (hg : ∀ x ∈ g, x.toNat < 128) (sched : List Nat) (n : Nat) :
    ∃ sched', ParserObj.calls X (g.length + n) ⟨Source.src ⟨g ++ d, rawErr .eof, sched⟩, c, []⟩ =
      List.replicate g.length (.err (wrapErr .noMSB), []) ++ ParserObj.calls X n ⟨Source.src ⟨d, rawErr .eof, sched'⟩, c, []⟩ := by
  induction g generalizing sched with
  | nil => exact ⟨sched, by rw [List.length_nil, Nat.zero_add]; rfl⟩
  | cons x g ih =>
    obtain ⟨rest, sched1, hl, hc⟩ := C72_call X c [] ⟨x :: (g ++ d), rawErr .eof, sched⟩
    have hx := hg x List.mem_cons_self
    have hr : rest = g ++ d := left_eq hl (.octet (a := []) (accepted_nil X c) hx)
    subst hr
    have hp : parseSrc X c (Source.src ⟨x :: (g ++ d), rawErr .eof, sched⟩) = ⟨[], .err (wrapErr .noMSB), c⟩ := parseSrc_octet X c hx _ _ _
    obtain ⟨sched2, h2⟩ := ih (fun y hy => hg y (List.mem_cons_of_mem _ hy)) sched1
    refine ⟨sched2, ?_⟩
    rw [List.length_cons, Nat.add_right_comm, ParserObj.calls, List.cons_append, hc, hp]
    simp only [List.append_nil]
    rw [h2, List.replicate_succ, List.cons_append]

/-- **C72**: an input of `n` octets is used up after at most `n` failing calls. -/
theorem C72_ends (X : Ext) (c : Option Ctx) (is : List Item) (d : Bytes) (sched : List Nat) :
    ∃ k bad js, k ≤ d.length ∧ bad.length = k ∧ (∀ o ∈ bad, o.1 ≠ .ok ()) ∧
      ∀ n, ParserObj.calls X (k + n) ⟨Source.src ⟨d, rawErr .eof, sched⟩, c, is⟩ = bad ++ List.replicate n (.ok (), js) := by
  induction hn : d.length using Nat.strongRecOn generalizing d c is sched with
  | _ m ih =>
    obtain ⟨rest, sched1, hl, hc⟩ := C72_call X c is ⟨d, rawErr .eof, sched⟩
    by_cases hok : (parseSrc X c (Source.src ⟨d, rawErr .eof, sched⟩)).res = .ok ()
    · cases left_ok hl hok
      refine ⟨0, [], is ++ (parseSrc X c (Source.src ⟨d, rawErr .eof, sched⟩)).packets, by omega, rfl, by simp, fun n => ?_⟩
      rw [Nat.zero_add, List.nil_append]
      cases n with
      | zero => rfl
      | succ n =>
        rw [ParserObj.calls, hc, hok, List.replicate_succ]
        simp only
        rw [calls_nothing]
    · have hpos : d ≠ [] := by
        rintro rfl
        exact hok (by rw [parseSrc_nothing])
      have hlt : rest.length < m := by
        have := List.length_pos_iff.mpr hpos
        rcases left_shorter hl with h | h
        · simp only at h; omega
        · subst h; simp only [List.length_nil]; omega
      obtain ⟨k, bad, js, h1, h2, h3, h4⟩ := ih rest.length hlt
        (parseSrc X c (Source.src ⟨d, rawErr .eof, sched⟩)).ctx (is ++ (parseSrc X c (Source.src ⟨d, rawErr .eof, sched⟩)).packets) rest sched1 rfl
      refine ⟨k + 1, ((parseSrc X c (Source.src ⟨d, rawErr .eof, sched⟩)).res, is ++ (parseSrc X c (Source.src ⟨d, rawErr .eof, sched⟩)).packets) :: bad,
        js, by omega, by simp [h2], ?_, fun n => ?_⟩
      · intro o ho
        rcases List.mem_cons.mp ho with rfl | ho
        · exact hok
        · exact h3 o ho
      · rw [Nat.add_right_comm, ParserObj.calls, hc]
        simp only [List.cons_append]
        rw [h4]

/-! A user ID, a signature without a body, an octet that starts no packet, a user ID, and a user ID that is cut: three calls fail,
and all that is complete is in the result of the fourth. -/

theorem C72_example :
    (ParserObj.calls Tests.X 5 ⟨Source.src ⟨[0xcd, 1, 0x61, 0xc2, 0, 0x0a, 0xcd, 1, 0x62, 0xcd, 5, 0x63], rawErr .eof, [0, 2]⟩,
      some Ctx.empty, []⟩).map (fun o => (o.1, o.2.map fun i => i.items.map Item.value)) =
    [(.err (wrapErr .eof), [["a".toList]]), (.err (wrapErr .noMSB), [["a".toList]]),
      (.err (wrapErr .unexpectedEOF), [["a".toList], ["b".toList]]), (.ok (), [["a".toList], ["b".toList]]),
      (.ok (), [["a".toList], ["b".toList]])] := by decide +kernel

end Gpgpdump
