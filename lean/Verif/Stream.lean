import Verif.Parser
import Verif.SrcLemmas
import Verif.Run
import Verif.ThmValues

/-!
# The packet loop

`forPackets` (parse.go:15-27, packets.go:63-75, sub38.go:54-66) on a lazy byte source equals a loop over the packets the
reference decoder finds.
-/

namespace Gpgpdump
open Spec P Src

/-- where a packet sequence stops -/
inductive Stop
  | clean
  | truncated
  | noMSB
  | toEnd (tag : Nat) (body : Bytes)
  deriving DecidableEq, Repr

/-- the self-delimiting packets at the start of `d`, and what follows them -/
def splitF : Nat → Bytes → List (Nat × Bytes) × Stop
  | 0, _ => ([], .clean)
  | f + 1, d =>
    match decNext d with
    | .atEnd => ([], .clean)
    | .truncated => ([], .truncated)
    | .noMSB => ([], .noMSB)
    | .toEnd t b => ([], .toEnd t b)
    | .packet t b r => ((t, b) :: (splitF f r).1, (splitF f r).2)

def split (d : Bytes) : List (Nat × Bytes) × Stop := splitF (d.length + 1) d

theorem decNext_shorter {d t b r} (h : decNext d = .packet t b r) : r.length < d.length := by
  obtain ⟨enc, he, rfl⟩ := decNext_sound h
  have := he.length_lt
  simp; omega

theorem splitF_fuel {f g : Nat} {d : Bytes} (hf : d.length < f) (hg : d.length < g) : splitF f d = splitF g d := by
  induction f generalizing g d with
  | zero => omega
  | succ f ih =>
    cases g with
    | zero => omega
    | succ g =>
      simp only [splitF]
      cases hd : decNext d with
      | packet t b r =>
        have := decNext_shorter hd
        simp only
        rw [ih (g := g) (by omega) (by omega)]
      | _ => rfl

theorem split_packet {d t b r} (h : decNext d = .packet t b r) : split d = ((t, b) :: (split r).1, (split r).2) := by
  have := decNext_shorter h
  unfold split
  rw [splitF]
  simp only [h]
  rw [splitF_fuel (f := d.length) (g := r.length + 1) (by omega) (by omega)]

theorem split_stop {d} (h : ∀ t b r, decNext d ≠ .packet t b r) : (split d).1 = [] := by
  unfold split
  rw [splitF]
  cases hd : decNext d with
  | packet t b r => exact absurd hd (h t b r)
  | _ => rfl

theorem split_nil : split [] = ([], .clean) := rfl

theorem split_closed {ps a} (h : ClosedSeq ps a) (b : Bytes) : split (a ++ b) = (ps ++ (split b).1, (split b).2) := by
  induction h with
  | nil => simp
  | @cons tag body ps enc inp he hs ih =>
    rw [List.append_assoc, split_packet (decNext_complete he _), ih]
    rfl

theorem split_toEnd {tag body enc} (h : EncodesToEnd tag body enc) : split enc = ([], .toEnd tag body) := by
  unfold split
  rw [splitF]
  simp only [decNext_toEnd_complete h]

/-- how `d` splits: a closed sequence, then the rest -/
theorem split_spec (d : Bytes) : ∃ a b, ClosedSeq (split d).1 a ∧ d = a ++ b ∧ (split b).1 = [] ∧ (split b).2 = (split d).2 ∧
    (∀ t b' r, decNext b ≠ .packet t b' r) := by
  induction hn : d.length using Nat.strongRecOn generalizing d with
  | _ n ih =>
    by_cases hp : ∃ t b r, decNext d = .packet t b r
    · obtain ⟨t, b, r, hd⟩ := hp
      obtain ⟨a, b', h1, h2, h3, h4, h5⟩ := ih r.length (by have := decNext_shorter hd; omega) r rfl
      obtain ⟨enc, he, rfl⟩ := decNext_sound hd
      refine ⟨enc ++ a, b', ?_, by rw [List.append_assoc, ← h2], h3, ?_, h5⟩
      · rw [split_packet hd]; exact .cons he h1
      · rw [split_packet hd]; exact h4
    · have hp' : ∀ t b r, decNext d ≠ .packet t b r := fun t b r h => hp ⟨t, b, r, h⟩
      exact ⟨[], d, by rw [split_stop hp']; exact .nil, rfl, split_stop hp', rfl, hp'⟩

theorem decNext_of_stop {b : Bytes} (h : ∀ t b' r, decNext b ≠ .packet t b' r) :
    ((split b).2 = .clean ↔ decNext b = .atEnd) ∧ ((split b).2 = .truncated ↔ decNext b = .truncated) ∧
    ((split b).2 = .noMSB ↔ decNext b = .noMSB) ∧ (∀ t c, (split b).2 = .toEnd t c ↔ decNext b = .toEnd t c) := by
  unfold split
  rw [splitF]
  cases hd : decNext b with
  | packet t b' r => exact absurd hd (h t b' r)
  | _ => simp

/-- exactly the inputs that are packet sequences -/
theorem split_clean {d} : (split d).2 = .clean ↔ ClosedSeq (split d).1 d := by
  obtain ⟨a, b, h1, h2, h3, h4, h5⟩ := split_spec d
  constructor
  · intro h
    rw [h] at h4
    have := decNext_atEnd.mp ((decNext_of_stop h5).1.mp h4)
    subst this
    rw [List.append_nil] at h2
    rw [h2] at h1 ⊢
    exact h1
  · intro h
    have := split_closed h []
    rw [List.append_nil] at this
    rw [this]; rfl

theorem packetSeq_iff {ps d} : PacketSeq ps d ↔
    (split d = (ps, .clean)) ∨ (∃ qs t b, split d = (qs, .toEnd t b) ∧ ps = qs ++ [(t, b)]) := by
  constructor
  · intro h
    induction h with
    | nil => left; rfl
    | @cons tag body ps enc inp he hs ih =>
      have hd := decNext_complete he inp
      rcases ih with ih | ⟨qs, t, b, ih, rfl⟩
      · left; rw [split_packet hd, ih]
      · right; refine ⟨(tag, body) :: qs, t, b, by rw [split_packet hd, ih], rfl⟩
    | @toEnd tag body enc h => right; exact ⟨[], tag, body, split_toEnd h, rfl⟩
  · rintro (h | ⟨qs, t, b, h, rfl⟩)
    · have := split_clean.mp (congrArg Prod.snd h)
      rw [h] at this
      exact this.packetSeq
    · obtain ⟨a, b', h1, h2, h3, h4, h5⟩ := split_spec d
      rw [h] at h1 h4
      have hd := decNext_toEnd (((decNext_of_stop h5).2.2.2 t b).mp h4)
      subst h2
      simp only at h1
      clear h h4 h3 h5
      induction h1 with
      | nil => exact .toEnd hd
      | cons he hs ih => rw [List.append_assoc]; exact .cons he ih

/-! ## Per-packet parsers -/

/-- run a packet parser in a context -/
def onePacket (p : TagParser) (tag : Nat) (body : Bytes) (c : Option Ctx) : Res Item × Option Ctx :=
  ((p tag body ⟨c, Reader.new [], newItem []⟩).1, (p tag body ⟨c, Reader.new [], newItem []⟩).2.ctx)

/-- the packet parser looks at and changes nothing of its caller but the context -/
def Scoped (p : TagParser) : Prop := ∀ tag body st,
  p tag body st = ((onePacket p tag body st.ctx).1, { st with ctx := (onePacket p tag body st.ctx).2 })

/-- parse the packets one after the other, each in the context left by its predecessors; stops at the first that fails -/
def seqPackets (p : TagParser) : List (Nat × Bytes) → Option Ctx → List Item × Res Unit × Option Ctx
  | [], c => ([], .ok (), c)
  | (tag, body) :: ps, c =>
    match onePacket p tag body c with
    | (.ok i, c') => (i :: (seqPackets p ps c').1, (seqPackets p ps c').2)
    | (.err e, c') => ([], .err e, c')
    | (.panic s, c') => ([], .panic s, c')
    | (.stuck, c') => ([], .stuck, c')

theorem scope_scoped {α} (body : Bytes) (hdr : Option Ctx → Item) (m : P α) (st st' : St) (h : st.ctx = st'.ctx) :
    scope body (hdr st.ctx) m st = ((scope body (hdr st'.ctx) m st').1, { st with ctx := (scope body (hdr st'.ctx) m st').2.ctx }) := by
  simp only [scope_run, h]

theorem tagScope_run {α} (tag : Nat) (body : Bytes) (m : P α) (st : St) :
    tagScope tag body m st = scope body (tagItem tag body (ctxFlag (tagDumpFlag tag) st.ctx)) m st := rfl

theorem tagScope_scoped {α} (tag : Nat) (body : Bytes) (m : P α) (st st' : St) (h : st.ctx = st'.ctx) :
    tagScope tag body m st = ((tagScope tag body m st').1, { st with ctx := (tagScope tag body m st').2.ctx }) := by
  rw [tagScope_run, tagScope_run]
  exact scope_scoped body (fun c => tagItem tag body (ctxFlag (tagDumpFlag tag) c)) m st st' h

theorem parseTagF_scoped (X : Ext) (f : Nat) : Scoped (parseTagF X f) := by
  intro tag body st
  cases f with
  | zero => rfl
  | succ f =>
    unfold onePacket
    simp only [parseTagF, tagParse]
    exact tagScope_scoped tag body _ st ⟨st.ctx, Reader.new [], newItem []⟩ rfl

theorem parseTag_scoped (X : Ext) : Scoped (parseTag X) := by
  intro tag body st
  have := parseTagF_scoped X (body.length + 1) tag body st
  unfold onePacket at this ⊢
  unfold parseTag
  exact this


/-- a packet parser run `st` with items added -/
def stepped (st : St) (o : List Item × Res Unit × Option Ctx) : Res Unit × St :=
  (o.2.1, { st with ctx := o.2.2, cur := st.cur.addAll o.1 })

/-- how the loop continues behind the self-delimiting packets: the packets, and the error for the end of the input -/
def loopEnd (ps : List (Nat × Bytes) × Stop) (tail : GoErr) : List (Nat × Bytes) × Option GoErr :=
  match ps.2 with
  | .clean => (ps.1, if tail.isEOF then none else some tail.wrap)
  | .truncated => (ps.1, if (trunc tail).isEOF then none else some (trunc tail).wrap)
  | .noMSB => (ps.1, some (wrapErr .noMSB))
  | .toEnd t b => if tail.eqEOF then (ps.1 ++ [(t, b)], none) else (ps.1, if tail.isEOF then none else some tail.wrap)

/-- after the packets, report the error of the input if all of them were fine -/
def thenErr (o : List Item × Res Unit × Option Ctx) (e : Option GoErr) : List Item × Res Unit × Option Ctx :=
  match o.2.1, e with
  | .ok (), some e => (o.1, .err e, o.2.2)
  | _, _ => o

theorem loopEnd_cons (p : Nat × Bytes) (ps s) (tail : GoErr) :
    loopEnd (p :: ps, s) tail = (p :: (loopEnd (ps, s) tail).1, (loopEnd (ps, s) tail).2) := by
  unfold loopEnd
  cases s <;> simp
  split <;> simp

theorem eqEOF_isEOF {e : GoErr} (h : e.eqEOF = true) : e.isEOF = true := by
  unfold GoErr.eqEOF at h; unfold GoErr.isEOF
  simp only [Bool.and_eq_true] at h
  exact h.1

/-- one more packet in front -/
theorem seq_cons (p : TagParser) (tag : Nat) (body : Bytes) (ps : List (Nat × Bytes)) (e : Option GoErr) (c : Option Ctx) :
    thenErr (seqPackets p ((tag, body) :: ps) c) e = match onePacket p tag body c with
      | (.ok i, c') => (i :: (thenErr (seqPackets p ps c') e).1, (thenErr (seqPackets p ps c') e).2)
      | (.err e', c') => ([], .err e', c')
      | (.panic s, c') => ([], .panic s, c')
      | (.stuck, c') => ([], .stuck, c') := by
  rw [seqPackets]
  cases h : onePacket p tag body c with
  | mk r c' =>
    cases r with
    | ok i =>
      simp only
      unfold thenErr
      rcases seqPackets p ps c' with ⟨is, r, c''⟩
      cases r <;> cases e <;> rfl
    | _ => cases e <;> rfl

/-- one round of the loop: the end of the input -/
theorem forPackets_err {X : Ext} {p : TagParser} {f : Nat} {src src' : Src} {e : GoErr} (st : St)
    (hn : nextPacket X src = (.error e, src')) :
    forPackets X p (f + 1) src st = stepped st (thenErr (seqPackets p [] st.ctx) (if e.isEOF then none else some e.wrap)) := by
  have h : forPackets X p (f + 1) src = if e.isEOF then Pure.pure () else P.fail e.wrap := by
    rw [forPackets, hn]
  rw [h]
  unfold stepped
  split <;> simp [thenErr, seqPackets, P.fail, pure_run]

/-- one round of the loop: a packet -/
theorem forPackets_ok {X : Ext} {p : TagParser} (hp : Scoped p) {f : Nat} {src src' : Src} {tag : Nat} {body : Bytes} (st : St)
    (hn : nextPacket X src = (.ok (tag, body), src')) (ps : List (Nat × Bytes)) (e : Option GoErr)
    (h : ∀ st, forPackets X p f src' st = stepped st (thenErr (seqPackets p ps st.ctx) e)) :
    forPackets X p (f + 1) src st = stepped st (thenErr (seqPackets p ((tag, body) :: ps) st.ctx) e) := by
  have hd : forPackets X p (f + 1) src = (do
      let itm ← p tag body
      add itm
      forPackets X p f src') := by
    rw [forPackets, hn]
  rw [hd, seq_cons, bind_run, hp tag body st]
  rcases onePacket p tag body st.ctx with ⟨r, c'⟩
  cases r with
  | ok i =>
    simp only [bind_run]
    have hadd : add i ({ st with ctx := c' } : St) = (.ok (), { st with ctx := c', cur := st.cur.add i }) := rfl
    rw [hadd]
    simp only
    rw [h]
    simp only [stepped, Item.add_eq, Item.addAll_addAll, List.singleton_append]
  | _ => simp [stepped]

/-- The packet loop on a byte stream: it depends only on the octets and the final error. -/
theorem forPackets_eq (X : Ext) (p : TagParser) (hp : Scoped p) (f : Nat) (src : Src) (hl : Lazy src) (hs : src.strict = false)
    (hf : src.data.length < f) (st : St) :
    forPackets X p f src st = stepped st (thenErr (seqPackets p (loopEnd (split src.data) src.tail).1 st.ctx)
      (loopEnd (split src.data) src.tail).2) := by
  induction f generalizing src st with
  | zero => omega
  | succ f ih =>
    have hspec := nextPacket_spec (X := X) hl
    unfold NextSpec at hspec
    obtain ⟨hk, hm⟩ := hspec
    have cont : ∀ (tag : Nat) (body : Bytes) (src' : Src), nextPacket X src = (.ok (tag, body), src') → Kin src src' →
        src'.data.length < f →
        forPackets X p (f + 1) src st =
        stepped st (thenErr (seqPackets p ((tag, body) :: (loopEnd (split src'.data) src'.tail).1) st.ctx)
          (loopEnd (split src'.data) src'.tail).2) := by
      intro tag body src' hn hk' hlen
      exact forPackets_ok hp st hn _ _ fun st => ih src' (hk'.isLazy hl) (by rw [hk'.strict]; exact hs) hlen st
    have stop := fun e src' (hn : nextPacket X src = (.error e, src')) => forPackets_err (p := p) (f := f) st hn
    cases hd : decNext src.data with
    | packet tag body rest =>
      rw [hd] at hm
      simp only at hm
      obtain ⟨h1, h2⟩ := hm
      rw [split_packet hd, loopEnd_cons]
      have hlt := decNext_shorter hd
      have hn : nextPacket X src = (.ok (tag, body), (nextPacket X src).2) := by rw [← h1]
      rw [cont tag body _ hn hk (by rw [h2]; omega), h2, hk.tail]
    | atEnd =>
      rw [hd] at hm
      simp only at hm
      obtain ⟨e, h1, h2⟩ := hm
      have hn : nextPacket X src = (.error e, (nextPacket X src).2) := by rw [← h1]
      rw [stop e _ hn]
      have : e = src.tail := by
        rcases h2 with ⟨_, h2⟩ | ⟨h2, _⟩
        · exact h2
        · rw [hs] at h2; cases h2
      subst this
      rw [decNext_atEnd.mp hd]
      rfl
    | truncated =>
      rw [hd] at hm
      simp only at hm
      obtain ⟨e, h1, h2⟩ := hm
      have hn : nextPacket X src = (.error e, (nextPacket X src).2) := by rw [← h1]
      rw [stop e _ hn]
      have : e = trunc src.tail := by
        rcases h2 with ⟨_, h2⟩ | ⟨h2, _⟩
        · exact h2
        · rw [hs] at h2; cases h2
      subst this
      have hsp : split src.data = ([], .truncated) := by
        unfold split; rw [splitF]; simp only [hd]
      rw [hsp]; rfl
    | noMSB =>
      rw [hd] at hm
      simp only at hm
      have hn : nextPacket X src = (.error (rawErr .noMSB), (nextPacket X src).2) := by rw [← hm]
      rw [stop _ _ hn]
      have hsp : split src.data = ([], .noMSB) := by
        unfold split; rw [splitF]; simp only [hd]
      rw [hsp]; rfl
    | toEnd tag body =>
      rw [hd] at hm
      simp only at hm
      have hsp : split src.data = ([], .toEnd tag body) := by
        unfold split; rw [splitF]; simp only [hd]
      rw [hsp]
      by_cases ht : src.tail.eqEOF = true
      · obtain ⟨h1, h2⟩ := (hm.1 hs).1 ht
        have hn : nextPacket X src = (.ok (tag, body), (nextPacket X src).2) := by rw [← h1]
        have hlen : (nextPacket X src).2.data.length < f := by
          have : src.data ≠ [] := by intro h; rw [h] at hd; simp [decNext] at hd
          have := List.length_pos_iff.mpr this
          rw [h2]; simp; omega
        rw [cont tag body _ hn hk hlen, h2, hk.tail]
        have e1 : loopEnd (split []) src.tail = ([], none) := by
          rw [split_nil]; unfold loopEnd; simp only [eqEOF_isEOF ht, if_true]
        have e2 : loopEnd ([], .toEnd tag body) src.tail = ([(tag, body)], none) := by
          unfold loopEnd; simp only [ht, if_true, List.nil_append]
        rw [e1, e2]
      · have ht' : src.tail.eqEOF = false := by simpa using ht
        have h1 := (hm.1 hs).2 ht'
        have hn : nextPacket X src = (.error src.tail, (nextPacket X src).2) := by rw [← h1]
        rw [stop _ _ hn]
        have e2 : loopEnd ([], .toEnd tag body) src.tail = ([], if src.tail.isEOF then none else some src.tail.wrap) := by
          unfold loopEnd; simp only [ht', Bool.false_eq_true, if_false]
        rw [e2]

end Gpgpdump
