import Verif.ThmEmbed
import Verif.Inv
import Verif.Keeps
import Verif.Tests

/-!
# C23, C24: subpackets and subpacket areas
-/

namespace Gpgpdump
open Spec P

/-! ## The name of a subpacket's item -/

/-- the method does not change the name of the current item -/
structure NK {α} (m : P α) : Prop where
  run : ∀ st, (m st).2.cur.name = st.cur.name

/-- the method returns an item named as the current one -/
structure Named (m : P Item) : Prop where
  run : ∀ st i s, m st = (.ok i, s) → i.name = st.cur.name

/-- the method returns an item with this name -/
structure NamedAs (n : Str) (m : P Item) : Prop where
  run : ∀ st i s, m st = (.ok i, s) → i.name = n

theorem Keeps.nk {α} {m : P α} (h : Keeps m) : NK m := ⟨fun st => by obtain ⟨l, hl⟩ := h.run st; rw [hl]; rfl⟩
theorem NK.setValue (v) : NK (setValue v) := ⟨fun _ => rfl⟩
theorem NK.setNote (v) : NK (setNote v) := ⟨fun _ => rfl⟩
theorem NK.setDump (v) : NK (setDump v) := ⟨fun _ => rfl⟩
theorem NK.bind {α β} {m : P α} {f : α → P β} (h : NK m) (h' : ∀ a, NK (f a)) : NK (m >>= f) := by
  constructor
  intro st
  rw [bind_run]
  have := h.run st
  rcases hm : m st with ⟨r, st'⟩
  rw [hm] at this
  cases r with
  | ok a => simp only; rw [(h' a).run, this]
  | _ => exact this

theorem Named.getCur : Named getCur := ⟨fun st i s h => by rw [getCur_run] at h; simp at h; rw [h.1]⟩
theorem Named.bind {α} {m : P α} {f : α → P Item} (h : NK m) (h' : ∀ a, Named (f a)) : Named (m >>= f) := by
  constructor
  intro st i s hr
  obtain ⟨a, s1, h1, h2⟩ := bind_inv hr
  rw [(h' a).run _ _ _ h2]
  have := h.run st
  rw [h1] at this
  exact this
theorem Named.root {f : Item → P Item} (h : ∀ r, NamedAs r.name (f r)) : Named (P.getCur >>= f) := by
  constructor
  intro st i s hr
  obtain ⟨a, s1, h1, h2⟩ := bind_inv hr
  rw [getCur_run] at h1
  simp at h1
  rw [(h a).run _ _ _ h2, h1.1]
theorem NamedAs.bind {α n} {m : P α} {f : α → P Item} (h' : ∀ a, NamedAs n (f a)) : NamedAs n (m >>= f) := by
  constructor
  intro st i s hr
  obtain ⟨a, s1, h1, h2⟩ := bind_inv hr
  exact (h' a).run _ _ _ h2
theorem NamedAs.pure {n} {i : Item} (h : i.name = n) : NamedAs n (Pure.pure i) := by
  constructor
  intro st j s hr
  rw [(pure_inv hr).1, h]

theorem Keeps.addOpt (i) : Keeps (addOpt i) := by
  cases i with
  | none => exact Keeps.of_same fun _ => rfl
  | some i => exact Keeps.add i
theorem Keeps.forEach {α} (l : List α) {f : α → P Unit} (h : ∀ a, Keeps (f a)) : Keeps (forEach l f) := by
  induction l with
  | nil => exact Keeps.pure _
  | cons a l ih => unfold Gpgpdump.forEach; exact Keeps.bind (h a) fun _ => ih
theorem Keeps.otherFlags (n bs) : Keeps (otherFlags n bs) := by
  induction bs generalizing n with
  | nil => exact Keeps.pure _
  | cons b bs ih => unfold Gpgpdump.otherFlags; exact Keeps.bind (Keeps.addOpt _) fun _ => ih _
theorem Keeps.trailingFlags : Keeps trailingFlags := by
  have := Keeps.rest
  unfold Gpgpdump.trailingFlags; keeps; apply Keeps.otherFlags

theorem textItem_name (n b f) : (textItem n b f).name = n := by
  unfold textItem
  split
  · rfl
  · split <;> rfl

/-- apply the rules -/
macro "named" : tactic => `(tactic| repeat' (first
  | with_reducible exact Named.getCur
  | with_reducible apply Named.bind
  | with_reducible apply NamedAs.bind
  | intro _
  | with_reducible exact NK.setValue _
  | with_reducible exact NK.setDump _
  | with_reducible exact NK.setNote _
  | with_reducible exact Keeps.nk (Keeps.addOpt _)
  | with_reducible exact Keeps.nk (Keeps.trailingFlags)
  | with_reducible exact Keeps.nk (Keeps.addRaw _ _)
  | with_reducible exact Keeps.nk (Keeps.rest)
  | with_reducible exact Keeps.nk (Keeps.getBody)
  | with_reducible exact Keeps.nk (Keeps.readByte)
  | with_reducible exact Keeps.nk (Keeps.readBytes _)
  | with_reducible exact Keeps.nk (Keeps.read2EOF)
  | with_reducible exact Keeps.nk (Keeps.reader)
  | with_reducible exact Keeps.nk (Keeps.flag _)
  | with_reducible exact Keeps.nk (Keeps.add _)
  | with_reducible exact Keeps.nk (Keeps.build _ _)
  | with_reducible exact Keeps.nk (Keeps.pure _)
  | with_reducible exact NamedAs.pure rfl
  | with_reducible exact NamedAs.pure (textItem_name _ _ _)
  | split
  | dsimp only))

section
variable (X : Ext) (recur : TagParser) (hrec : ∀ t b, Keeps (recur t b))
include hrec

theorem Named.sub02Body (t) : Named (sub02Body X recur t) := by
  unfold Gpgpdump.sub02Body
  split
  · unfold sub02; exact Named.root fun _ => by named
  · unfold sub03; exact Named.root fun _ => by named
  · unfold sub04; named
  · unfold sub05; named
  · unfold subText; exact Named.root fun _ => by named
  · unfold sub07; named
  · unfold sub09; exact Named.root fun _ => by named
  · exact Named.getCur
  · unfold subList; named; exact Keeps.nk (Keeps.forEach _ fun _ => Keeps.add _)
  · unfold sub12; named
  · unfold sub16; exact Named.root fun _ => by named
  · unfold sub20; named
  · unfold subList; named; exact Keeps.nk (Keeps.forEach _ fun _ => Keeps.add _)
  · unfold subList; named; exact Keeps.nk (Keeps.forEach _ fun _ => Keeps.add _)
  · unfold sub23; named
  · unfold subText; exact Named.root fun _ => by named
  · unfold sub25; named
  · unfold subText; exact Named.root fun _ => by named
  · unfold sub27; named
  · unfold subText; exact Named.root fun _ => by named
  · unfold sub29; named
  · unfold sub30; named
  · unfold sub31; named
  · unfold sub32; named; exact Keeps.nk (hrec _ _)
  · unfold subFingerprint; named
  · unfold subList; named; exact Keeps.nk (Keeps.forEach _ fun _ => Keeps.add _)
  · unfold subFingerprint; named
  · unfold sub37; named
  · unfold sub38; named
  · exact Named.getCur

end

theorem Named.sub17Body (t) : Named (sub17Body t) := by
  unfold Gpgpdump.sub17Body
  split
  · unfold sub01; named
  · exact Named.getCur

/-! ## Running a subpacket area -/

/-- a single subpacket in a given context: its result and the context after it -/
def oneSub (p : UInt8 → Bytes → P Item) (t : UInt8) (b : Bytes) (c : Option Ctx) : Res Item × Option Ctx :=
  ((p t b ⟨c, Reader.new [], newItem []⟩).1, (p t b ⟨c, Reader.new [], newItem []⟩).2.ctx)

/-- the subpacket parser looks at and changes nothing of its caller but the context -/
def SubScoped (p : UInt8 → Bytes → P Item) : Prop := ∀ t b st,
  p t b st = ((oneSub p t b st.ctx).1, { st with ctx := (oneSub p t b st.ctx).2 })

theorem subScope_scoped (m : UInt8 → P Item) : SubScoped (fun t b => subScope t b (m t)) := by
  intro t b st
  exact scope_scoped b (fun c => subItem t b (ctxFlag Ctx.debug c)) (m t) st ⟨st.ctx, Reader.new [], newItem []⟩ rfl

theorem parseSub02_scoped (X : Ext) (recur : TagParser) : SubScoped (parseSub02 X recur) := subScope_scoped _
theorem parseSub17_scoped : SubScoped parseSub17 := subScope_scoped _

/-- the subpackets are parsed one after the other, each in the context left by its predecessors -/
inductive SubItems (p : UInt8 → Bytes → P Item) : List (UInt8 × Bytes) → Option Ctx → List Item → Option Ctx → Prop
  | nil {c} : SubItems p [] c [] c
  | cons {t b subs c i c1 is c2} (h : oneSub p t b c = (.ok i, c1)) (hs : SubItems p subs c1 is c2) :
      SubItems p ((t, b) :: subs) c (i :: is) c2

theorem subLoop_inv {p} (hp : SubScoped p) {l : List (UInt8 × Bytes)} {c pre post j u s}
    (h : subLoop p l (St.at c pre post j) = (.ok u, s)) : ∃ is c', SubItems p l c is c' ∧ s = St.at c' pre post (j.addAll is) := by
  induction l generalizing c j with
  | nil =>
    rw [subLoop] at h
    exact ⟨[], c, .nil, by rw [(pure_inv h).2]; simp⟩
  | cons a l ih =>
    obtain ⟨t, b⟩ := a
    rw [subLoop] at h
    obtain ⟨i, s1, h1, h⟩ := bind_inv h
    rw [hp] at h1
    obtain ⟨_, s2, h2, h'⟩ := bind_inv h
    rcases ho : oneSub p t b c with ⟨r, c1⟩
    simp only [St.at_ctx, ho] at h1
    simp only [Prod.mk.injEq] at h1
    obtain ⟨rfl, rfl⟩ := h1
    rw [St.at_setCtx] at h2
    rw [add_inv h2] at h'
    obtain ⟨is, c', h3, h4⟩ := ih h'
    exact ⟨i :: is, c', .cons ho h3, by rw [h4, Item.addAll_addAll]; rfl⟩

theorem addSubpackets_inv {p} (hp : SubScoped p) {name : Str} {area : Bytes} {c pre post j u s}
    (h : addSubpackets p name area (St.at c pre post j) = (.ok u, s)) :
    ∃ subs is c', SubSeq subs area ∧ SubItems p subs c is c' ∧ s = St.at c' pre post
      (j.addAll [(newItem name [] (nBytes area.length) (dumpBytes area (ctxFlag Ctx.debug c))).addAll is]) := by
  unfold addSubpackets at h
  obtain ⟨d, s1, h1, h⟩ := bind_inv h
  obtain ⟨rfl, rfl⟩ := flag_inv h1
  cases ho : opaqueSubpackets area with
  | error e => rw [ho] at h; simp only [fail_run] at h; simp at h
  | ok l =>
    rw [ho] at h
    simp only at h
    obtain ⟨i, s1, h1, h⟩ := bind_inv h
    rw [build_run] at h1
    rcases hl : subLoop p l (St.at c pre post (newItem name [] (nBytes area.length) (dumpBytes area (ctxFlag Ctx.debug c)))) with ⟨r, s2⟩
    simp only [St.at_ctx] at h1
    rw [hl] at h1
    cases r with
    | ok u =>
      obtain ⟨is, c', h3, h4⟩ := subLoop_inv hp hl
      subst h4
      simp only [Res.map, Prod.mk.injEq, Res.ok.injEq, St.at_cur] at h1
      obtain ⟨rfl, rfl⟩ := h1
      rw [St.at_setCur] at h
      exact ⟨l, is, c', opaqueSubpackets_ok.mp ho, h3, add_inv h⟩
    | _ => simp [Res.map] at h1

/-- areas that are not sequences of subpackets are rejected -/
theorem SubItems.names {p} (hn : ∀ t b st i s, p t b st = (.ok i, s) → i.name = subStr t) {subs c is c'} (h : SubItems p subs c is c') :
    List.Forall₂ (fun i s => i.name = subStr s.1) is subs := by
  induction h with
  | nil => exact .nil
  | @cons t b subs c i c1 is c2 h hs ih =>
    refine .cons ?_ ih
    have : p t b ⟨c, Reader.new [], newItem []⟩ = (.ok i, (p t b ⟨c, Reader.new [], newItem []⟩).2) := by
      have h1 := congrArg Prod.fst h
      simp only [oneSub] at h1
      rw [← h1]
    exact hn _ _ _ _ _ this

theorem parseTagF_keeps (X : Ext) (f : Nat) (t b) : Keeps (parseTagF X f t b) := by
  refine Keeps.of_same fun st => ?_
  rw [parseTagF_scoped X f t b st]

theorem parseSub02_name (X : Ext) {recur : TagParser} (hrec : ∀ t b, Keeps (recur t b)) (t b st i s)
    (h : parseSub02 X recur t b st = (.ok i, s)) : i.name = subStr t := by
  unfold parseSub02 subScope at h
  obtain ⟨d, s1, h1, h⟩ := bind_inv h
  rw [scope_run] at h
  rcases hm : sub02Body X recur (t &&& 0x7f).toNat (St.at s1.ctx [] b (subItem t b d)) with ⟨r, s2⟩
  rw [hm] at h
  simp only [Prod.mk.injEq] at h
  obtain ⟨rfl, -⟩ := h
  rw [(Named.sub02Body X recur hrec _).run _ _ _ hm]
  rfl

theorem parseSub17_name (t b st i s) (h : parseSub17 t b st = (.ok i, s)) : i.name = subStr t := by
  unfold parseSub17 subScope at h
  obtain ⟨d, s1, h1, h⟩ := bind_inv h
  rw [scope_run] at h
  rcases hm : sub17Body (t &&& 0x7f).toNat (St.at s1.ctx [] b (subItem t b d)) with ⟨r, s2⟩
  rw [hm] at h
  simp only [Prod.mk.injEq] at h
  obtain ⟨rfl, -⟩ := h
  rw [(Named.sub17Body _).run _ _ _ hm]
  rfl

/-! ## C24 -/

namespace Spec

/-- what is shown for a subpacket area of a signature: nothing if it is empty, otherwise one item with the given name and the size
of the area, whose inner items are those of the subpackets in order -/
def AreaShown (name : Str) (area : Bytes) (subs : List (UInt8 × Bytes)) (shown : List Item) : Prop :=
  (area = [] ∧ subs = [] ∧ shown = []) ∨
  ∃ i, shown = [i] ∧ i.name = name ∧ i.note = dec area.length ++ " bytes".toList ∧
    List.Forall₂ (fun i s => i.name = subStr s.1) i.items subs

end Spec

theorem subArea_inv {X : Ext} {recur : TagParser} (hrec : ∀ t b, Keeps (recur t b)) {name : Str} {c p q j u s}
    (h : subArea X recur name (St.at c p q j) = (.ok u, s)) :
    ∃ area subs q' l c', q = beOctets 2 area.length ++ area ++ q' ∧ area.length < 65536 ∧ SubSeq subs area ∧
      AreaShown name area subs l ∧ s = St.at c' (p ++ (beOctets 2 area.length ++ area)) q' (j.addAll l) := by
  unfold subArea at h
  obtain ⟨sz, s1, h1, h⟩ := bind_inv h
  obtain ⟨q1, rfl, hl, rfl⟩ := readBytes_inv (n := 2) h1
  have hlt := beNat2 sz hl
  dsimp only at h
  split at h
  · obtain ⟨area, s2, h2, h⟩ := bind_inv h
    obtain ⟨q2, rfl, hl2, rfl⟩ := readBytes_inv h2
    obtain ⟨subs, is, c', h3, h4, h5⟩ := addSubpackets_inv (parseSub02_scoped X recur) h
    have hsz : beOctets 2 area.length = sz := by rw [hl2, ← hl, beOctets_beNat]
    refine ⟨area, subs, q2, [(newItem name [] (nBytes area.length) (dumpBytes area (ctxFlag Ctx.debug c))).addAll is], c', ?_, by omega, h3,
      .inr ⟨_, rfl, rfl, rfl, h4.names (parseSub02_name X hrec)⟩, ?_⟩
    · rw [hsz]; simp
    · rw [h5, hsz]; simp
  · have h0 : beNat sz = 0 := by omega
    have hsz : beOctets 2 0 = sz := by rw [← h0, ← hl, beOctets_beNat]
    obtain ⟨-, rfl⟩ := pure_inv h
    refine ⟨[], [], q1, [], c, ?_, by simp, .nil, .inl ⟨rfl, rfl, rfl⟩, ?_⟩
    · simp [hsz]
    · simp [hsz]

/-- `tag02v4` after the four leading octets -/
theorem tag02v4_inv {X : Ext} {recur : TagParser} (hrec : ∀ t b, Keeps (recur t b)) {c p q j u s}
    (h : tag02v4 X recur (St.at c p q j) = (.ok u, s)) :
    ∃ t a h a1 a2 l0 l1 rest subs1 subs2 x1 x2 x3 is1 is2 more,
      q = t :: a :: h :: (beOctets 2 a1.length ++ a1 ++ (beOctets 2 a2.length ++ a2 ++ (l0 :: l1 :: rest))) ∧
      a1.length < 65536 ∧ a2.length < 65536 ∧ SubSeq subs1 a1 ∧ SubSeq subs2 a2 ∧
      AreaShown (S "Hashed Subpacket") a1 subs1 is1 ∧ AreaShown (S "Unhashed Subpacket") a2 subs2 is2 ∧
      s.cur = j.addAll ([x1, x2, x3] ++ is1 ++ is2 ++ more) := by
  unfold tag02v4 at h
  ibyte t q1 at h; iflag at h; iadd at h
  ibyte a q2 at h; iflag at h; iadd at h
  ibyte b q3 at h; iflag at h; iadd at h
  obtain ⟨_, s1, h1, h'⟩ := bind_inv h
  obtain ⟨a1, subs1, q4, is1, c1, rfl, hl1, hs1, hsh1, rfl⟩ := subArea_inv hrec h1
  clear h h1
  obtain ⟨_, s1, h1, h⟩ := bind_inv h'
  obtain ⟨a2, subs2, q5, is2, c2, rfl, hl2, hs2, hsh2, rfl⟩ := subArea_inv hrec h1
  clear h' h1
  ibytes hv q6 hl at h; iadd at h
  obtain ⟨l, hl'⟩ := (Keeps.parseSig a).run _
  rw [h] at hl'
  clear h
  match hv, hl with
  | [l0, l1], _ =>
    refine ⟨t, a, b, a1, a2, l0, l1, q6, subs1, subs2, sigItem t (ctxFlag Ctx.debug c), pubItem a (ctxFlag Ctx.debug c),
      hashItem b (ctxFlag Ctx.debug c), is1, is2, [hashLeft2 [l0, l1]] ++ l, rfl, hl1, hl2, hs1, hs2, hsh1, hsh2, ?_⟩
    rw [hl']
    simp only [Item.addAll_addAll, List.append_assoc, List.cons_append, List.nil_append, St.at_cur]

theorem Keeps.after {α β} {m : P α} {f : α → P β} {st b s} (h : (m >>= f) st = (.ok b, s)) (hf : ∀ a, Keeps (f a)) :
    ∃ a s1 l, m st = (.ok a, s1) ∧ s.cur = s1.cur.addAll l := by
  obtain ⟨a, s1, h1, h2⟩ := bind_inv h
  obtain ⟨l, hl⟩ := (hf a).run s1
  rw [h2] at hl
  exact ⟨a, s1, l, h1, hl⟩

/-- the item of a parsed packet other than a compressed one -/
theorem onePacket_inv {X : Ext} {tag : Nat} {body : Bytes} {c : Option Ctx} {i c'} (h : onePacket (parseTag X) tag body c = (.ok i, c')) :
    ∃ u s, tagBody X (parseTagF X body.length) tag (St.at c [] body (tagItem tag body (ctxFlag (tagDumpFlag tag) c))) = (.ok u, s) ∧
      i = s.cur ∧ c' = s.ctx := by
  unfold onePacket at h
  rw [parseTag_run, scope_run] at h
  simp only [Prod.mk.injEq] at h
  rcases hm : ((tagBody X (parseTagF X body.length) tag >>= fun _ => getCur)
    (St.at c [] body (tagItem tag body (ctxFlag (tagDumpFlag tag) c)))) with ⟨r, s⟩
  rw [hm] at h
  obtain ⟨rfl, rfl⟩ := h
  obtain ⟨u, s1, h1, h2⟩ := bind_inv hm
  rw [getCur_run] at h2
  simp only [Prod.mk.injEq, Res.ok.injEq] at h2
  obtain ⟨rfl, rfl⟩ := h2
  exact ⟨u, _, h1, rfl, rfl⟩

theorem parseSrc_one_inv {X : Ext} {c : Option Ctx} {tag : Nat} {body enc : Bytes} (he : Encodes tag body enc) (h8 : tag ≠ 8) {sched : List Nat}
    (h : (parseSrc X c (Source.src ⟨enc, rawErr .eof, sched⟩)).res = .ok ()) :
    ∃ u s, tagBody X (parseTagF X body.length) tag (St.at c [] body (tagItem tag body (ctxFlag (tagDumpFlag tag) c))) = (.ok u, s) ∧
      (parseSrc X c (Source.src ⟨enc, rawErr .eof, sched⟩)).packets = [s.cur] ∧
      (parseSrc X c (Source.src ⟨enc, rawErr .eof, sched⟩)).ctx = s.ctx := by
  obtain ⟨h1, h2, h3⟩ := parseSrc_single X c he h8 sched
  rcases ho : onePacket (parseTag X) tag body c with ⟨r, c'⟩
  rw [ho] at h1 h2 h3
  rw [h] at h1
  cases r with
  | ok i =>
    obtain ⟨u, s, h4, rfl, rfl⟩ := onePacket_inv ho
    exact ⟨u, s, h4, h3 _ rfl, h2⟩
  | _ => simp [Res.map] at h1

/-- C24: a version 4 or 5 signature that parses has two subpacket areas that are sequences of subpackets, and both are shown with one
item for each subpacket, in order; nothing between or after the subpackets is left over, and their octets follow each other. -/
theorem C24_signature (X : Ext) (c : Option Ctx) {v : UInt8} {q enc : Bytes} (hv : v = 4 ∨ v = 5) (he : Encodes 2 (v :: q) enc)
    (sched : List Nat) (hok : (parseSrc X c (Source.src ⟨enc, rawErr .eof, sched⟩)).res = .ok ()) :
    ∃ t a h a1 a2 l0 l1 rest subs1 subs2,
      q = t :: a :: h :: (beOctets 2 a1.length ++ a1 ++ (beOctets 2 a2.length ++ a2 ++ (l0 :: l1 :: rest))) ∧
      a1.length < 65536 ∧ a2.length < 65536 ∧ SubSeq subs1 a1 ∧ SubSeq subs2 a2 ∧
      ∃ i x0 x1 x2 x3 is1 is2 more, (parseSrc X c (Source.src ⟨enc, rawErr .eof, sched⟩)).packets = [i] ∧
        i.items = [x0, x1, x2, x3] ++ is1 ++ is2 ++ more ∧
        AreaShown "Hashed Subpacket".toList a1 subs1 is1 ∧ AreaShown "Unhashed Subpacket".toList a2 subs2 is2 := by
  obtain ⟨u, s, h1, h2, -⟩ := parseSrc_one_inv he (by omega) hok
  rw [tagBody_2] at h1
  unfold tag02 at h1
  ibyte b q1 at h1; iflag at h1; iadd at h1
  have key : ∃ s1 l, tag02v4 X (parseTagF X (v :: q).length) (St.at c ([] ++ [v]) q
      ((tagItem 2 (v :: q) (ctxFlag (tagDumpFlag 2) c)).addAll [(sigVer v).item (ctxFlag Ctx.debug c)])) = (.ok (), s1) ∧ s.cur = s1.cur.addAll l := by
    rcases hv with rfl | rfl
    · obtain ⟨_, s1, l, h4, h5⟩ := Keeps.after h1 fun _ => Keeps.unknownData
      exact ⟨s1, l, h4, h5⟩
    · obtain ⟨_, s1, l, h4, h5⟩ := Keeps.after h1 fun _ => Keeps.unknownData
      exact ⟨s1, l, h4, h5⟩
  obtain ⟨s1, l, h4, h5⟩ := key
  obtain ⟨t, a, h, a1, a2, l0, l1, rest, subs1, subs2, x1, x2, x3, is1, is2, more, hq, hl1, hl2, hs1, hs2, ha1, ha2, hc⟩ :=
    tag02v4_inv (parseTagF_keeps X _) h4
  refine ⟨t, a, h, a1, a2, l0, l1, rest, subs1, subs2, hq, hl1, hl2, hs1, hs2, s.cur, (sigVer v).item (ctxFlag Ctx.debug c),
    x1, x2, x3, is1, is2, more ++ l, h2, ?_, ha1, ha2⟩
  rw [h5, hc]
  simp only [Item.addAll_addAll, Item.addAll_items, List.append_assoc]
  rfl

/-- C24: a signature is rejected if one of its areas is not a sequence of subpackets. -/
theorem C24_rejected (X : Ext) (c : Option Ctx) {body area enc : Bytes} (ha : SigArea body area) (hn : ∀ subs, ¬ SubSeq subs area)
    (he : Encodes 2 body enc) (sched : List Nat) : (parseSrc X c (Source.src ⟨enc, rawErr .eof, sched⟩)).res ≠ .ok () := by
  intro hok
  have split2 : ∀ {a b x y : Bytes}, a.length < 65536 → b.length < 65536 →
      beOctets 2 a.length ++ a ++ x = beOctets 2 b.length ++ b ++ y → a = b ∧ x = y := by
    intro a b x y hla hlb h
    rw [List.append_assoc, List.append_assoc] at h
    obtain ⟨h1, h2⟩ := List.append_inj h (by simp)
    have hl : a.length = b.length := by
      have := congrArg beNat h1
      rwa [beNat_beOctets _ _ (by omega), beNat_beOctets _ _ (by omega)] at this
    exact List.append_inj h2 hl
  cases ha with
  | hashed hv hl =>
    obtain ⟨t, a, h, a1, a2, l0, l1, rest, subs1, subs2, hq, hl1, hl2, hs1, hs2, -⟩ := C24_signature X c hv he sched hok
    simp only [List.cons.injEq] at hq
    obtain ⟨rfl, -⟩ := split2 hl hl1 hq.2.2.2
    exact hn _ hs1
  | unhashed hv hl hl' =>
    obtain ⟨t, a, h, a1, a2, l0, l1, rest, subs1, subs2, hq, hl1, hl2, hs1, hs2, -⟩ := C24_signature X c hv he sched hok
    simp only [List.cons.injEq] at hq
    obtain ⟨rfl, hq2⟩ := split2 hl hl1 hq.2.2.2
    obtain ⟨rfl, -⟩ := split2 hl' hl2 hq2
    exact hn _ hs2

/-- C24: there is at most one way to read an area as a sequence of subpackets. -/
theorem C24_unique {subs subs' area} (h : SubSeq subs area) (h' : SubSeq subs' area) : subs = subs' := by
  have := opaqueSubpackets_ok.mpr h
  rw [opaqueSubpackets_ok.mpr h'] at this
  cases this; rfl

/-- C24: the body of a user attribute packet is such an area, too. -/
theorem C24_user_attribute (X : Ext) (c : Option Ctx) {body enc : Bytes} (he : Encodes 17 body enc) (sched : List Nat)
    (hok : (parseSrc X c (Source.src ⟨enc, rawErr .eof, sched⟩)).res = .ok ()) :
    ∃ subs, SubSeq subs body ∧ ∃ i j, (parseSrc X c (Source.src ⟨enc, rawErr .eof, sched⟩)).packets = [i] ∧ i.items = [j] ∧
      j.name = "Subpacket".toList ∧ j.note = dec body.length ++ " bytes".toList ∧
      List.Forall₂ (fun i s => i.name = subStr s.1) j.items subs := by
  obtain ⟨u, s, h1, h2, -⟩ := parseSrc_one_inv he (by omega) hok
  have hb : tagBody X (parseTagF X body.length) 17 = tag17 := rfl
  rw [hb] at h1
  unfold tag17 at h1
  obtain ⟨b, s1, h3, h1⟩ := bind_inv h1
  rw [getBody_run] at h3
  simp only [Prod.mk.injEq, Res.ok.injEq, List.nil_append] at h3
  obtain ⟨rfl, rfl⟩ := h3
  obtain ⟨subs, is, c', h4, h5, rfl⟩ := addSubpackets_inv parseSub17_scoped h1
  exact ⟨subs, h4, _, _, h2, rfl, rfl, rfl, h5.names parseSub17_name⟩

/-- a version 4 signature with two subpackets in the hashed area and one in the unhashed area that parses -/
example : ∃ (body enc : Bytes), Encodes 2 (4 :: body) enc ∧ SigArea (4 :: body) [5, 2, 0x5f, 0, 0, 0, 2, 0x99, 1] ∧
    (parseSrc Tests.X none (Source.src ⟨enc, rawErr .eof, []⟩)).res = .panic .nilCtx ∧
    (parseSrc Tests.X (some Ctx.empty) (Source.src ⟨enc, rawErr .eof, []⟩)).res = .ok () :=
  ⟨[0x13, 1, 8, 0, 9, 5, 2, 0x5f, 0, 0, 0, 2, 0x99, 1, 0, 10, 9, 16, 1, 2, 3, 4, 5, 6, 7, 8, 0xab, 0xcd, 0, 9, 1, 0x55], _,
    .old (lt := 0) (by decide) (by decide) (by decide), .hashed (area := [5, 2, 0x5f, 0, 0, 0, 2, 0x99, 1]) (.inl rfl) (by decide), by decide +kernel, by decide +kernel⟩

/-- an area that ends within a subpacket -/
example : ∀ subs, ¬ SubSeq subs [5, 2, 0x5f] := by
  intro subs h
  have := opaqueSubpackets_ok.mpr h
  have hn : (opaqueSubpackets [5, 2, 0x5f]).toOption = none := by decide +kernel
  rw [this] at hn; cases hn

end Gpgpdump
