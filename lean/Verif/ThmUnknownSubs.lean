import Verif.ThmSubs
import Verif.Local

/-!
# C23: unknown subpackets
-/

namespace Gpgpdump
open Spec P Cmp

namespace Spec

/-- the subpacket types of signature packets that have a meaning in RFC 4880, its errata and its draft successor -/
def knownSigSubs : List Nat :=
  [2, 3, 4, 5, 6, 7, 9, 11, 12, 16, 20, 21, 22, 23, 24, 25, 26, 27, 28, 29, 30, 31, 32, 33, 34, 35, 37, 38]

/-- bit 7 of the type octet is the critical flag and not part of the type -/
def UnknownSigSub (t : UInt8) : Prop := t.toNat % 128 ∉ knownSigSubs

/-- user attribute packets only have image attributes (type 1) -/
def UnknownAttrSub (t : UInt8) : Prop := t.toNat % 128 ≠ 1

/-- `some` is the list `all` without some of the subpackets that satisfy `u` -/
inductive Fewer (u : UInt8 → Prop) : List (UInt8 × Bytes) → List (UInt8 × Bytes) → Prop
  | nil : Fewer u [] []
  | keep {s all some} (h : Fewer u all some) : Fewer u (s :: all) (s :: some)
  | drop {t b all some} (hu : u t) (h : Fewer u all some) : Fewer u ((t, b) :: all) some

/-- the same for the shown items: those of the subpackets left out are header-only items -/
inductive FewerItems (u : UInt8 → Prop) (debug : Bool) : List (UInt8 × Bytes) → List (UInt8 × Bytes) → List Item → List Item → Prop
  | nil : FewerItems u debug [] [] [] []
  | keep {s all some i is is'} (h : FewerItems u debug all some is is') : FewerItems u debug (s :: all) (s :: some) (i :: is) (i :: is')
  | drop {t b all some i is is'} (hu : u t) (hn : i.name = subStr t) (hv : i.value = []) (ht : i.note = dec b.length ++ " bytes".toList)
      (hd : i.dump = if debug then Reader.dumpHex b else []) (hi : i.items = []) (h : FewerItems u debug all some is is') :
      FewerItems u debug ((t, b) :: all) some (i :: is) is'

end Spec

/-! ## The names -/

theorem and_80 (b : UInt8) : (b &&& 0x80 ≠ 0) ↔ 128 ≤ b.toNat := by
  have : ∀ n : Fin 256, (UInt8.ofNat n.val &&& 0x80 ≠ 0) ↔ 128 ≤ (UInt8.ofNat n.val).toNat := by decide +kernel
  have h' := this ⟨b.toNat, b.toNat_lt⟩
  simpa using h'

/-- C23: the name of a subpacket item is determined by the seven low bits of its type, with "<critical>" between the type's name and
number exactly when bit 7 is set; unknown and reserved types have the names "Unknown", "Reserved", "Private or experimental", the
placeholder's, and the image attribute's (which is known, but in user attributes only). -/
theorem C23_name (t : UInt8) : ∃ base,
    subStr t = base ++ (if 128 ≤ t.toNat then " <critical>".toList else []) ++ " (sub ".toList ++ dec (t.toNat % 128) ++ ")".toList ∧
    subStr (t ^^^ 0x80) = base ++ (if 128 ≤ t.toNat then [] else " <critical>".toList) ++ " (sub ".toList ++ dec (t.toNat % 128) ++ ")".toList ∧
    (UnknownSigSub t → base ∈ ["Unknown".toList, "Reserved".toList, "Private or experimental".toList,
      "Placeholder for backward compatibility".toList, "Image Attribute".toList]) := by
  refine ⟨if 100 ≤ t.toNat % 128 ∧ t.toNat % 128 ≤ 110 then S "Private or experimental" else subpacketNames.get (t.toNat % 128) Unknown, ?_, ?_, ?_⟩
  · unfold subStr
    simp only [and_7f, and_80]
    rfl
  · have hx : (t ^^^ 0x80).toNat % 128 = t.toNat % 128 ∧ (128 ≤ (t ^^^ 0x80).toNat ↔ ¬ 128 ≤ t.toNat) := by
      have : ∀ n : Fin 256, (UInt8.ofNat n.val ^^^ 0x80).toNat % 128 = (UInt8.ofNat n.val).toNat % 128 ∧
        (128 ≤ (UInt8.ofNat n.val ^^^ 0x80).toNat ↔ ¬ 128 ≤ (UInt8.ofNat n.val).toNat) := by decide +kernel
      have h' := this ⟨t.toNat, t.toNat_lt⟩
      simpa using h'
    unfold subStr
    simp only [and_7f, and_80, hx.1, hx.2]
    by_cases h : 128 ≤ t.toNat <;> simp [h] <;> rfl
  · have : ∀ n : Fin 128, n.val ∉ knownSigSubs → (if 100 ≤ n.val ∧ n.val ≤ 110 then S "Private or experimental" else subpacketNames.get n.val Unknown) ∈
      ["Unknown".toList, "Reserved".toList, "Private or experimental".toList, "Placeholder for backward compatibility".toList,
        "Image Attribute".toList] := by decide +kernel
    exact this ⟨t.toNat % 128, by omega⟩

/-! ## One subpacket -/

theorem sub02Body_unknown (X : Ext) (recur : TagParser) {n : Nat} (h : n ∉ knownSigSubs) : sub02Body X recur n = getCur := by
  unfold sub02Body
  split <;> first | rfl | exact absurd (by decide) h

theorem sub17Body_unknown {n : Nat} (h : n ≠ 1) : sub17Body n = getCur := by
  unfold sub17Body
  split
  · exact absurd rfl h
  · rfl

/-- the parser shows only the header of a subpacket of this type -/
def HeaderOnly (p : UInt8 → Bytes → P Item) (t : UInt8) : Prop := ∀ b st, p t b st = (.ok (subItem t b (ctxFlag Ctx.debug st.ctx)), st)

theorem parseSub02_unknown (X : Ext) (recur : TagParser) {t : UInt8} (h : UnknownSigSub t) : HeaderOnly (parseSub02 X recur) t := by
  intro b st
  unfold parseSub02
  rw [and_7f, sub02Body_unknown X recur h]
  rfl

theorem parseSub17_unknown {t : UInt8} (h : UnknownAttrSub t) : HeaderOnly parseSub17 t := by
  intro b st
  unfold parseSub17
  rw [and_7f, sub17Body_unknown h]
  rfl

/-! ## An area -/

/-- parse the subpackets one after the other, each in the context left by its predecessors; stops at the first that fails -/
def seqSubs (p : UInt8 → Bytes → P Item) : List (UInt8 × Bytes) → Option Ctx → List Item × Res Unit × Option Ctx
  | [], c => ([], .ok (), c)
  | (t, b) :: l, c =>
    match oneSub p t b c with
    | (.ok i, c') => (i :: (seqSubs p l c').1, (seqSubs p l c').2)
    | (.err e, c') => ([], .err e, c')
    | (.panic s, c') => ([], .panic s, c')
    | (.stuck, c') => ([], .stuck, c')

theorem subLoop_run {p} (hp : SubScoped p) (l : List (UInt8 × Bytes)) (c pre post j) :
    subLoop p l (St.at c pre post j) = ((seqSubs p l c).2.1, St.at (seqSubs p l c).2.2 pre post (j.addAll (seqSubs p l c).1)) := by
  induction l generalizing c j with
  | nil => rw [subLoop, pure_run]; simp [seqSubs]
  | cons a l ih =>
    obtain ⟨t, b⟩ := a
    rw [subLoop, bind_run, hp]
    simp only [St.at_ctx, seqSubs]
    rcases oneSub p t b c with ⟨r, c'⟩
    cases r with
    | ok i =>
      simp only
      rw [St.at_setCtx, bind_run, add_run]
      simp only [ih]
      congr 2
      show (j.addAll [i]).addAll _ = _
      rw [Item.addAll_addAll]; rfl
    | _ => simp; rfl

/-- what a subpacket area does: result, items and context -/
def areaOut (p : UInt8 → Bytes → P Item) (name : Str) (area : Bytes) (subs : List (UInt8 × Bytes)) (c : Option Ctx) : Res Unit × List Item × Option Ctx :=
  match (seqSubs p subs c).2.1 with
  | .ok () => (.ok (), [(newItem name [] (nBytes area.length) (dumpBytes area (ctxFlag Ctx.debug c))).addAll (seqSubs p subs c).1], (seqSubs p subs c).2.2)
  | r => (r, [], (seqSubs p subs c).2.2)

theorem addSubpackets_run {p} (hp : SubScoped p) (name : Str) {area : Bytes} {subs} (hs : SubSeq subs area) (c pre post j) :
    addSubpackets p name area (St.at c pre post j) =
      ((areaOut p name area subs c).1, St.at (areaOut p name area subs c).2.2 pre post (j.addAll (areaOut p name area subs c).2.1)) := by
  unfold addSubpackets areaOut
  rw [bind_run, flag_run]
  simp only [St.at_ctx]
  rw [opaqueSubpackets_ok.mpr hs]
  simp only
  rw [bind_run, build_run, subLoop_run hp]
  rcases seqSubs p subs c with ⟨l, r, c'⟩
  cases r with
  | ok u => simp only [Res.map, St.at_setCur]; rfl
  | _ => simp [Res.map]; rfl

/-- a subpacket does not change the options -/
theorem oneSub_opts (X : Ext) {f : Nat} {t : UInt8} {sb : Bytes} (hf : sb.length < f) (x : Ctx) :
    ∃ z, (oneSub (parseSub02 X (parseTagF X f)) t sb (some x)).2 = some z ∧ z.opts = x.opts := by
  have hr : (selfCmp x.opts false true false).R (parseSub02 X (parseTagF X f) t sb) (parseSub02 X (parseTagF X f) t sb)
      (selfCmp x.opts false true false).item := by
    have h1 : (selfCmp x.opts false true false).clean = true → CleanX X := by simp [selfCmp]
    have h2 : (selfCmp x.opts false true false).real = true → RealX X := by simp [selfCmp]
    refine r_subScope X h1 h2 (r_sub02Body X h1 h2 (fun ht => ?_) fun ht ps a rest p hp hps hpm => ?_)
    · exact r_parseTagF X h1 h2 f f 2 sb hf hf (.inl rfl)
    · have := hps.mem_length p hpm
      have hl : p.2.length < f := by rw [hp] at hf; simp at hf; omega
      exact r_parseTagF X h1 h2 f f p.1 p.2 hl hl (.inl rfl)
  have hitem : (selfCmp x.opts false true false).item (newItem []) (newItem []) := item_refl fun _ => .mk .nil (.inl .nil) .nil .nil (by simp)
  have := hr.run ⟨some x, Reader.new [], newItem []⟩ ⟨some x, Reader.new [], newItem []⟩ ⟨selfCmp_ctxs x _ _ _, rfl, hitem⟩
  unfold oneSub
  generalize parseSub02 X (parseTagF X f) t sb ⟨some x, Reader.new [], newItem []⟩ = r at this ⊢
  have key : ∀ s s' : St, (selfCmp x.opts false true false).sts s s' → ∃ z, s.ctx = some z ∧ z.opts = x.opts := by
    intro s s' hs
    obtain ⟨y, y', e, e', h1, -⟩ := hs.ctx.some rfl
    exact ⟨y, e, h1⟩
  cases this with
  | ok _ hs => exact key _ _ hs
  | err _ hs => exact key _ _ hs
  | panic _ hs => exact key _ _ hs
  | nil h => cases h

theorem debug_opts {x y : Ctx} (h : x.opts = y.opts) : x.debug = y.debug := by unfold Ctx.debug Ctx.get; rw [h]

theorem FewerItems_of {u : UInt8 → Prop} {p} (hu : ∀ t, u t → HeaderOnly p t) {all some} (hf : Fewer u all some) (x : Ctx)
    (hopt : ∀ s ∈ some, ∀ y, ∃ z, (oneSub p s.1 s.2 (Option.some y)).2 = Option.some z ∧ z.opts = y.opts) :
    (seqSubs p all (Option.some x)).2 = (seqSubs p some (Option.some x)).2 ∧
    (∃ z, (seqSubs p some (Option.some x)).2.2 = Option.some z ∧ z.opts = x.opts) ∧
    ((seqSubs p some (Option.some x)).2.1 = .ok () →
      FewerItems u x.debug all some (seqSubs p all (Option.some x)).1 (seqSubs p some (Option.some x)).1) := by
  induction hf generalizing x with
  | nil => exact ⟨rfl, ⟨x, rfl, rfl⟩, fun _ => .nil⟩
  | @keep s all some h ih =>
    obtain ⟨t, b⟩ := s
    simp only [seqSubs]
    obtain ⟨z, hz, hd⟩ := hopt (t, b) (by simp) x
    rcases ho : oneSub p t b (Option.some x) with ⟨r, c'⟩
    simp only [ho] at hz
    subst hz
    cases r with
    | ok i =>
      obtain ⟨h1, ⟨w, h2, h2'⟩, h3⟩ := ih z fun s hs => hopt s (by simp [hs])
      simp only
      refine ⟨h1, ⟨w, h2, h2'.trans hd⟩, fun h => ?_⟩
      have := h3 h
      rw [debug_opts hd] at this
      exact .keep this
    | _ => exact ⟨rfl, ⟨z, rfl, hd⟩, by simp⟩
  | @drop t b all some ht h ih =>
    have ho : oneSub p t b (Option.some x) = (.ok (subItem t b x.debug), Option.some x) := by
      unfold oneSub
      rw [hu t ht b]
      rfl
    simp only [seqSubs, ho]
    obtain ⟨h1, h2, h3⟩ := ih x hopt
    refine ⟨h1, h2, fun h => ?_⟩
    refine .drop ht rfl rfl rfl ?_ rfl (h3 h)
    exact dumpRest_new b x.debug

/-! ## A signature -/

theorem subArea_run (X : Ext) (recur : TagParser) (name : Str) {area : Bytes} {subs} (hs : SubSeq subs area) (hl : area.length < 65536) (c p q j) :
    subArea X recur name (St.at c p (beOctets 2 area.length ++ area ++ q) j) =
      if area = [] then (.ok (), St.at c (p ++ beOctets 2 area.length ++ area) q j)
      else ((areaOut (parseSub02 X recur) name area subs c).1, St.at (areaOut (parseSub02 X recur) name area subs c).2.2
        (p ++ beOctets 2 area.length ++ area) q (j.addAll (areaOut (parseSub02 X recur) name area subs c).2.1)) := by
  unfold subArea
  have h2 := readBytes_append c p (beOctets 2 area.length) (area ++ q) j
  rw [beOctets_length] at h2
  rw [bind_run, List.append_assoc, show (2 : Int) = ((2 : Nat) : Int) from rfl, h2]
  simp only [beNat_beOctets 2 area.length (by omega)]
  by_cases ha : area = []
  · subst ha
    simp [pure_run]
  · have : 0 < area.length := List.length_pos_iff.mpr ha
    rw [if_pos (by omega), if_neg ha, bind_run, readBytes_append]
    exact addSubpackets_run (parseSub02_scoped X recur) name hs _ _ _ _

namespace Spec
/-- the body of a version 4 or 5 signature with these subpacket areas -/
def sigBody (v t a h : UInt8) (a1 a2 rest : Bytes) : Bytes :=
  v :: t :: a :: h :: (beOctets 2 a1.length ++ a1 ++ (beOctets 2 a2.length ++ a2 ++ rest))

/-- an area is shown as nothing if it is empty, otherwise as one item for the area; the items inside -/
def inside (shown : List Item) : List Item := shown.flatMap Item.items
end Spec

/-- an area of a signature: result, items and context -/
def areaRes (X : Ext) (recur : TagParser) (name : Str) (area : Bytes) (subs : List (UInt8 × Bytes)) (c : Option Ctx) : Res Unit × List Item × Option Ctx :=
  if area = [] then (.ok (), [], c) else areaOut (parseSub02 X recur) name area subs c

theorem subArea_res (X : Ext) (recur : TagParser) (name : Str) {area : Bytes} {subs} (hs : SubSeq subs area) (hl : area.length < 65536) (c p q j) :
    subArea X recur name (St.at c p (beOctets 2 area.length ++ area ++ q) j) =
      ((areaRes X recur name area subs c).1, St.at (areaRes X recur name area subs c).2.2
        (p ++ beOctets 2 area.length ++ area) q (j.addAll (areaRes X recur name area subs c).2.1)) := by
  rw [subArea_run X recur name hs hl]
  unfold areaRes
  split <;> simp

theorem SubSeq.nil_left {subs} {area : Bytes} (h : SubSeq subs area) : area = [] ↔ subs = [] := by
  cases h <;> simp

theorem areaRes_fewer (X : Ext) {f : Nat} (name : Str) {all some a b} (hf : Fewer UnknownSigSub all some) (ha : SubSeq all a) (hb : SubSeq some b)
    (hlt : ∀ s ∈ some, s.2.length < f) (x : Ctx) :
    (areaRes X (parseTagF X f) name a all (Option.some x)).1 = (areaRes X (parseTagF X f) name b some (Option.some x)).1 ∧
    (areaRes X (parseTagF X f) name a all (Option.some x)).2.2 = (areaRes X (parseTagF X f) name b some (Option.some x)).2.2 ∧
    (∃ z, (areaRes X (parseTagF X f) name b some (Option.some x)).2.2 = Option.some z ∧ z.opts = x.opts) ∧
    ((areaRes X (parseTagF X f) name b some (Option.some x)).1 = .ok () → FewerItems UnknownSigSub x.debug all some
      (inside (areaRes X (parseTagF X f) name a all (Option.some x)).2.1) (inside (areaRes X (parseTagF X f) name b some (Option.some x)).2.1)) ∧
    (areaRes X (parseTagF X f) name a all (Option.some x)).2.1.length ≤ 1 ∧ (areaRes X (parseTagF X f) name b some (Option.some x)).2.1.length ≤ 1 := by
  have ho : ∀ area subs, SubSeq subs area → areaRes X (parseTagF X f) name area subs (Option.some x) =
      ((seqSubs (parseSub02 X (parseTagF X f)) subs (Option.some x)).2.1, (areaRes X (parseTagF X f) name area subs (Option.some x)).2.1,
        (seqSubs (parseSub02 X (parseTagF X f)) subs (Option.some x)).2.2) ∧
      ((seqSubs (parseSub02 X (parseTagF X f)) subs (Option.some x)).2.1 = .ok () →
        inside (areaRes X (parseTagF X f) name area subs (Option.some x)).2.1 = (seqSubs (parseSub02 X (parseTagF X f)) subs (Option.some x)).1) ∧
      (areaRes X (parseTagF X f) name area subs (Option.some x)).2.1.length ≤ 1 := by
    intro area subs hs
    unfold areaRes
    by_cases h : area = []
    · have := (SubSeq.nil_left hs).mp h
      subst this
      rw [if_pos h]
      exact ⟨rfl, fun _ => rfl, by simp⟩
    · rw [if_neg h]
      unfold areaOut
      rcases seqSubs (parseSub02 X (parseTagF X f)) subs (Option.some x) with ⟨l, r, c⟩
      cases r <;> simp [inside, newItem, Item.addAll, Item.items]
  obtain ⟨e1, e2, e3⟩ := ho a all ha
  obtain ⟨e1', e2', e3'⟩ := ho b some hb
  obtain ⟨h1, h2, h3⟩ := FewerItems_of (fun t ht => parseSub02_unknown X (parseTagF X f) ht) hf x fun s hs y => oneSub_opts X (hlt s hs) y
  rw [h1] at e1 e2
  refine ⟨?_, ?_, ?_, ?_, e3, e3'⟩
  · rw [e1, e1']
  · rw [e1, e1']
  · rw [e1']; exact h2
  · intro hok
    have hok' : (seqSubs (parseSub02 X (parseTagF X f)) some (Option.some x)).2.1 = .ok () := by rw [e1'] at hok; exact hok
    rw [e2 hok', e2' hok']
    exact h3 hok'

/-- what follows the subpacket areas -/
def sigTail (a : UInt8) : P Unit := do
  let hv ← readBytes 2
  add (hashLeft2 hv)
  parseSig a
  unknownData

theorem sigTail_local (a : UInt8) : Local (sigTail a) :=
  .bind .readBytes2 fun _ => .bind (.add _) fun _ => .bind (.parseSig _) fun _ => .unknownData

theorem Item.add4 (j a b c d : Item) : (((j.add a).add b).add c).add d = j.addAll [a, b, c, d] := by
  show (((j.addAll [a]).addAll [b]).addAll [c]).addAll [d] = _
  simp only [Item.addAll_addAll]; rfl

theorem tag02_areas (X : Ext) (recur : TagParser) {v t a h : UInt8} (hv : v = 4 ∨ v = 5) (q : Bytes) (c j) :
    tag02 X recur (St.at c [] (v :: t :: a :: h :: q) j) = (do
        subArea X recur (S "Hashed Subpacket")
        subArea X recur (S "Unhashed Subpacket")
        sigTail a)
      (St.at c [v, t, a, h] q (j.addAll [(sigVer v).item (ctxFlag Ctx.debug c), sigItem t (ctxFlag Ctx.debug c), pubItem a (ctxFlag Ctx.debug c),
        hashItem h (ctxFlag Ctx.debug c)])) := by
  unfold tag02
  simp only [bind_run, readByte_cons, flag_run, add_run, St.at_ctx]
  have : (if (sigVer v).isDraft = true then (do tag02v4 X recur; unknownData) else
      if (sigVer v).isCurrent = true then (do tag02v4 X recur; unknownData) else
      if ((sigVer v).isOld && v == 3) = true then (do if ← failed (tag02v3 X) then Pure.pure () else unknownData) else unknownData)
      = (do tag02v4 X recur; unknownData) := by
    rcases hv with rfl | rfl
    · rfl
    · rfl
  rw [this]
  unfold tag02v4 sigTail
  simp only [bind_assoc_P]
  simp only [bind_run, readByte_cons, flag_run, add_run, St.at_ctx, Item.add4]
  rfl

/-- C23: unknown and reserved subpackets in a signature are tolerated and change nothing else: leaving any of them out of the two
subpacket areas changes neither success nor the error nor the context, and of the result only takes away their items, which
are mere headers. (The sizes shown for the areas and the packet differ, too.) -/
theorem C23_signature (X : Ext) (x : Ctx) {v t a h : UInt8} (hv : v = 4 ∨ v = 5) {a1 a2 b1 b2 rest : Bytes} {all1 some1 all2 some2}
    (h1 : SubSeq all1 a1) (h2 : SubSeq all2 a2) (h1' : SubSeq some1 b1) (h2' : SubSeq some2 b2)
    (l1 : a1.length < 65536) (l2 : a2.length < 65536) (l1' : b1.length < 65536) (l2' : b2.length < 65536)
    (f1 : Fewer UnknownSigSub all1 some1) (f2 : Fewer UnknownSigSub all2 some2) {enc enc' : Bytes}
    (he : Encodes 2 (sigBody v t a h a1 a2 rest) enc) (he' : Encodes 2 (sigBody v t a h b1 b2 rest) enc') (sched : List Nat) :
    let o := parseSrc X (some x) (Source.src ⟨enc, rawErr .eof, sched⟩)
    let o' := parseSrc X (some x) (Source.src ⟨enc', rawErr .eof, sched⟩)
    o.res = o'.res ∧ o.ctx = o'.ctx ∧
    (o.res = .ok () → ∃ i i' hd s1 s2 s1' s2' tl, o.packets = [i] ∧ o'.packets = [i'] ∧ hd.length = 4 ∧
      i.items = hd ++ s1 ++ s2 ++ tl ∧ i'.items = hd ++ s1' ++ s2' ++ tl ∧
      s1.length ≤ 1 ∧ s2.length ≤ 1 ∧ s1'.length ≤ 1 ∧ s2'.length ≤ 1 ∧
      FewerItems UnknownSigSub x.debug all1 some1 (inside s1) (inside s1') ∧
      FewerItems UnknownSigSub x.debug all2 some2 (inside s2) (inside s2')) := by
  generalize hB : sigBody v t a h a1 a2 rest = B at he
  generalize hB' : sigBody v t a h b1 b2 rest = B' at he'
  intro o o'
  -- one bound for both
  let f := B.length + B'.length
  have hp : ∀ C : Bytes, C.length ≤ f → onePacket (parseTag X) 2 C (some x) = onePacket (parseTagF X (f + 1)) 2 C (some x) := by
    intro C hC
    rw [parseTagF_eq X 2 C (f + 1) (C.length + 1) (by omega) (by omega)]
    unfold onePacket parseTag; with_reducible rfl
  have hone : ∀ C : Bytes, onePacket (parseTagF X (f + 1)) 2 C (some x) =
      (match tag02 X (parseTagF X f) (St.at (some x) [] C (tagItem 2 C x.debug)) with
      | (.ok _, s) => (.ok s.cur, s.ctx)
      | (.err e, s) => (.err e, s.ctx)
      | (.panic e, s) => (.panic e, s.ctx)
      | (.stuck, s) => (.stuck, s.ctx)) := by
    intro C
    have : onePacket (parseTagF X (f + 1)) 2 C (some x) = ((tag02 X (parseTagF X f) >>= fun _ => getCur) (St.at (some x) [] C (tagItem 2 C x.debug)) |>.1,
      ((tag02 X (parseTagF X f) >>= fun _ => getCur) (St.at (some x) [] C (tagItem 2 C x.debug))).2.ctx) := rfl
    rw [this, bind_run]
    rcases tag02 X (parseTagF X f) (St.at (some x) [] C (tagItem 2 C x.debug)) with ⟨r, s⟩
    cases r <;> rfl
  obtain ⟨r1, r2, r3⟩ := parseSrc_single X (some x) he (by omega) sched
  obtain ⟨r1', r2', r3'⟩ := parseSrc_single X (some x) he' (by omega) sched
  have e1 := (hp B (by omega)).trans (hone B)
  have e2 := (hp B' (by omega)).trans (hone B')
  rw [e1] at r1 r2 r3
  rw [e2] at r1' r2' r3'
  clear hp hone e1 e2
  have lt : ∀ s ∈ some1, s.2.length < f := by
    intro s hs
    have := h1'.mem_length s hs
    have hl : B'.length = b1.length + b2.length + rest.length + 8 := by rw [← hB']; simp [sigBody]; omega
    omega
  have lt2 : ∀ s ∈ some2, s.2.length < f := by
    intro s hs
    have := h2'.mem_length s hs
    have hl : B'.length = b1.length + b2.length + rest.length + 8 := by rw [← hB']; simp [sigBody]; omega
    omega
  obtain ⟨g1, g2, ⟨y, g3, g3'⟩, g4, g5, g6⟩ := areaRes_fewer X (S "Hashed Subpacket") f1 h1 h1' lt x
  obtain ⟨k1, k2, ⟨z, k3, k3'⟩, k4, k5, k6⟩ := areaRes_fewer X (S "Unhashed Subpacket") f2 h2 h2' lt2 y
  have key : ∀ (c1 c2 : Bytes) (u1 u2), SubSeq u1 c1 → SubSeq u2 c2 → c1.length < 65536 → c2.length < 65536 →
      (areaRes X (parseTagF X f) (S "Hashed Subpacket") c1 u1 (some x)).2.2 = some y →
      ∀ C, sigBody v t a h c1 c2 rest = C →
      tag02 X (parseTagF X f) (St.at (some x) [] C (tagItem 2 C x.debug)) =
      match (areaRes X (parseTagF X f) (S "Hashed Subpacket") c1 u1 (some x)).1 with
      | .ok () =>
        (match (areaRes X (parseTagF X f) (S "Unhashed Subpacket") c2 u2 (some y)).1 with
        | .ok () => sigTail a (St.at (areaRes X (parseTagF X f) (S "Unhashed Subpacket") c2 u2 (some y)).2.2
            ([v, t, a, h] ++ beOctets 2 c1.length ++ c1 ++ beOctets 2 c2.length ++ c2) rest
            ((tagItem 2 C x.debug).addAll ([(sigVer v).item x.debug, sigItem t x.debug, pubItem a x.debug, hashItem h x.debug] ++
              (areaRes X (parseTagF X f) (S "Hashed Subpacket") c1 u1 (some x)).2.1 ++ (areaRes X (parseTagF X f) (S "Unhashed Subpacket") c2 u2 (some y)).2.1)))
        | r => (r, St.at (areaRes X (parseTagF X f) (S "Unhashed Subpacket") c2 u2 (some y)).2.2
            ([v, t, a, h] ++ beOctets 2 c1.length ++ c1 ++ beOctets 2 c2.length ++ c2) rest
            ((tagItem 2 C x.debug).addAll ([(sigVer v).item x.debug, sigItem t x.debug, pubItem a x.debug, hashItem h x.debug] ++
              (areaRes X (parseTagF X f) (S "Hashed Subpacket") c1 u1 (some x)).2.1 ++ (areaRes X (parseTagF X f) (S "Unhashed Subpacket") c2 u2 (some y)).2.1))))
      | r => (r, St.at (some y) ([v, t, a, h] ++ beOctets 2 c1.length ++ c1) (beOctets 2 c2.length ++ c2 ++ rest)
            ((tagItem 2 C x.debug).addAll ([(sigVer v).item x.debug, sigItem t x.debug, pubItem a x.debug, hashItem h x.debug] ++
              (areaRes X (parseTagF X f) (S "Hashed Subpacket") c1 u1 (some x)).2.1))) := by
    intro c1 c2 u1 u2 hs1 hs2 hl1 hl2 hy C hC
    rw [← hC]
    unfold sigBody
    rw [tag02_areas X _ hv, bind_run, subArea_res X _ _ hs1 hl1, hy]
    generalize areaRes X (parseTagF X f) (S "Hashed Subpacket") c1 u1 (some x) = ar
    rcases ar with ⟨r, is, cc⟩
    cases r with
    | ok u =>
      simp only
      rw [bind_run, subArea_res X _ _ hs2 hl2]
      generalize areaRes X (parseTagF X f) (S "Unhashed Subpacket") c2 u2 (some y) = ar2
      rcases ar2 with ⟨r2, is2, cc2⟩
      cases r2 <;> simp [Item.addAll_addAll] <;> rfl
    | _ => simp [Item.addAll_addAll] <;> rfl
  rw [key a1 a2 all1 all2 h1 h2 l1 l2 (g2.trans g3) B hB] at r1 r2 r3
  rw [key b1 b2 some1 some2 h1' h2' l1' l2' g3 B' hB'] at r1' r2' r3'
  rw [g1] at r1 r2 r3
  clear key
  have hdbg := debug_opts g3'
  generalize areaRes X (parseTagF X f) (S "Hashed Subpacket") a1 all1 (some x) = A1 at r1 r2 r3 g4 g5
  generalize areaRes X (parseTagF X f) (S "Hashed Subpacket") b1 some1 (some x) = B1 at r1 r2 r3 r1' r2' r3' g4 g6
  generalize areaRes X (parseTagF X f) (S "Unhashed Subpacket") a2 all2 (some y) = A2 at r1 r2 r3 k1 k2 k4 k5
  generalize areaRes X (parseTagF X f) (S "Unhashed Subpacket") b2 some2 (some y) = B2 at r1' r2' r3' k1 k2 k3 k4 k6
  rcases A1 with ⟨ra1, ia1, ca1⟩
  rcases B1 with ⟨rb1, ib1, cb1⟩
  rcases A2 with ⟨ra2, ia2, ca2⟩
  rcases B2 with ⟨rb2, ib2, cb2⟩
  simp only at g4 g5 g6 k1 k2 k3 k4 k5 k6 r1 r2 r3 r1' r2' r3'
  subst k1 k2
  cases rb1 with
  | ok u =>
    cases ra2 with
    | ok u =>
      simp only at r1 r2 r3 r1' r2' r3'
      obtain ⟨r, n, c', l, hn, ht⟩ := (sigTail_local a).run ca2 rest
      rw [ht] at r1 r2 r3 r1' r2' r3'
      cases r with
      | ok u =>
        simp only [St.at_ctx, St.at_cur] at r1 r2 r3 r1' r2' r3'
        refine ⟨r1.trans r1'.symm, r2.trans r2'.symm, fun _ => ⟨_, _, [(sigVer v).item x.debug, sigItem t x.debug, pubItem a x.debug, hashItem h x.debug], ia1, ia2, ib1, ib2, l,
          r3 _ rfl, r3' _ rfl, rfl, ?_, ?_, g5, k5, g6, k6, g4 rfl, ?_⟩⟩
        · rw [Item.addAll_addAll]; rfl
        · rw [Item.addAll_addAll]; rfl
        · have := k4 rfl
          rw [hdbg] at this
          exact this
      | _ =>
        simp only [St.at_ctx, Res.map] at r1 r2 r1' r2'
        exact ⟨r1.trans r1'.symm, r2.trans r2'.symm, fun h => by rw [show o.res = _ from r1] at h; cases h⟩
    | _ =>
      simp only [St.at_ctx, Res.map] at r1 r2 r1' r2'
      exact ⟨r1.trans r1'.symm, r2.trans r2'.symm, fun h => by rw [show o.res = _ from r1] at h; cases h⟩
  | _ =>
    simp only [St.at_ctx, Res.map] at r1 r2 r1' r2'
    exact ⟨r1.trans r1'.symm, r2.trans r2'.symm, fun h => by rw [show o.res = _ from r1] at h; cases h⟩

theorem oneSub17_opts (X : Ext) {t : UInt8} {sb : Bytes} (x : Ctx) :
    ∃ z, (oneSub parseSub17 t sb (some x)).2 = some z ∧ z.opts = x.opts := by
  have hr : (selfCmp x.opts false true false).R (parseSub17 t sb) (parseSub17 t sb) (selfCmp x.opts false true false).item := by
    have h1 : (selfCmp x.opts false true false).clean = true → CleanX X := by simp [selfCmp]
    have h2 : (selfCmp x.opts false true false).real = true → RealX X := by simp [selfCmp]
    refine r_subScope X h1 h2 ?_
    unfold sub17Body
    split
    · exact r_sub01.at _ _
    · exact R.getCur.at _ _
  have hitem : (selfCmp x.opts false true false).item (newItem []) (newItem []) := item_refl fun _ => .mk .nil (.inl .nil) .nil .nil (by simp)
  have := hr.run ⟨some x, Reader.new [], newItem []⟩ ⟨some x, Reader.new [], newItem []⟩ ⟨selfCmp_ctxs x _ _ _, rfl, hitem⟩
  unfold oneSub
  generalize parseSub17 t sb ⟨some x, Reader.new [], newItem []⟩ = r at this ⊢
  have key : ∀ s s' : St, (selfCmp x.opts false true false).sts s s' → ∃ z, s.ctx = some z ∧ z.opts = x.opts := by
    intro s s' hs
    obtain ⟨y, y', e, e', h1, -⟩ := hs.ctx.some rfl
    exact ⟨y, e, h1⟩
  cases this with
  | ok _ hs => exact key _ _ hs
  | err _ hs => exact key _ _ hs
  | panic _ hs => exact key _ _ hs
  | nil h => cases h

theorem onePacket_17 (X : Ext) {body : Bytes} {subs} (h : SubSeq subs body) (c : Option Ctx) :
    onePacket (parseTag X) 17 body c = ((areaOut parseSub17 (S "Subpacket") body subs c).1.map
      (fun _ => (tagItem 17 body (ctxFlag Ctx.debug c)).addAll (areaOut parseSub17 (S "Subpacket") body subs c).2.1),
      (areaOut parseSub17 (S "Subpacket") body subs c).2.2) := by
  have hd : onePacket (parseTag X) 17 body c = (((tag17 >>= fun _ => getCur) (St.at c [] body (tagItem 17 body (ctxFlag Ctx.debug c)))).1,
    ((tag17 >>= fun _ => getCur) (St.at c [] body (tagItem 17 body (ctxFlag Ctx.debug c)))).2.ctx) := rfl
  rw [hd]
  have ht : tag17 (St.at c [] body (tagItem 17 body (ctxFlag Ctx.debug c))) =
      addSubpackets parseSub17 (S "Subpacket") body (St.at c [] body (tagItem 17 body (ctxFlag Ctx.debug c))) := by
    unfold tag17
    rw [bind_run, getBody_run]; rfl
  rw [bind_run, ht, addSubpackets_run parseSub17_scoped (S "Subpacket") h]
  rcases areaOut parseSub17 (S "Subpacket") body subs c with ⟨r, is, c'⟩
  cases r <;> rfl

/-- C23: the same for the subpackets of user attribute packets. -/
theorem C23_user_attribute (X : Ext) (x : Ctx) {a b : Bytes} {all some} (ha : SubSeq all a) (hb : SubSeq some b) (hf : Fewer UnknownAttrSub all some)
    {enc enc' : Bytes} (he : Encodes 17 a enc) (he' : Encodes 17 b enc') (sched : List Nat) :
    let o := parseSrc X (Option.some x) (Source.src ⟨enc, rawErr .eof, sched⟩)
    let o' := parseSrc X (Option.some x) (Source.src ⟨enc', rawErr .eof, sched⟩)
    o.res = o'.res ∧ o.ctx = o'.ctx ∧
    (o.res = .ok () → ∃ i i' j j', o.packets = [i] ∧ o'.packets = [i'] ∧ i.items = [j] ∧ i'.items = [j'] ∧
      FewerItems UnknownAttrSub x.debug all some j.items j'.items) := by
  intro o o'
  obtain ⟨r1, r2, r3⟩ := parseSrc_single X (Option.some x) he (by omega) sched
  obtain ⟨r1', r2', r3'⟩ := parseSrc_single X (Option.some x) he' (by omega) sched
  rw [onePacket_17 X ha] at r1 r2 r3
  rw [onePacket_17 X hb] at r1' r2' r3'
  obtain ⟨h1, h2, h3⟩ := FewerItems_of (fun t ht => parseSub17_unknown ht) hf x fun s hs y => oneSub17_opts X y
  unfold areaOut at r1 r2 r3 r1' r2' r3'
  rcases hs : seqSubs parseSub17 some (Option.some x) with ⟨l, r, c⟩
  rcases hs' : seqSubs parseSub17 all (Option.some x) with ⟨l', r', c'⟩
  rw [hs, hs'] at h1 h3
  simp only [Prod.mk.injEq] at h1
  obtain ⟨rfl, rfl⟩ := h1
  rw [hs] at r1' r2' r3'
  rw [hs'] at r1 r2 r3
  cases r' with
  | ok u =>
    simp only [Res.map] at r1 r2 r3 r1' r2' r3'
    refine ⟨r1.trans r1'.symm, r2.trans r2'.symm, fun _ => ⟨_, _, _, _, r3 _ rfl, r3' _ rfl, rfl, rfl, ?_⟩⟩
    exact h3 rfl
  | _ =>
    simp only [Res.map] at r1 r2 r1' r2'
    exact ⟨r1.trans r1'.symm, r2.trans r2'.symm, fun h => by rw [show o.res = _ from r1] at h; cases h⟩

/-- a hashed area with a creation time between a critical subpacket of type 127 and a reserved one of type 8; an unhashed area with
a private one only -/
example : ∃ (a1 a2 b1 b2 : Bytes) (all1 all2 some1 some2 : List (UInt8 × Bytes)),
    SubSeq all1 a1 ∧ SubSeq all2 a2 ∧ SubSeq some1 b1 ∧ SubSeq some2 b2 ∧ Fewer UnknownSigSub all1 some1 ∧ Fewer UnknownSigSub all2 some2 ∧
    all1.length = 3 ∧ some1.length = 1 ∧ all2.length = 1 ∧ some2.length = 0 ∧
    (∃ enc, Encodes 2 (sigBody 4 0x13 1 8 a1 a2 [0, 0, 0, 9, 1, 0x55]) enc) ∧ ∃ enc, Encodes 2 (sigBody 4 0x13 1 8 b1 b2 [0, 0, 0, 9, 1, 0x55]) enc := by
  refine ⟨_, _, _, _, _, _, _, _,
    SubSeq.cons (t := 0xff) (body := [1, 2, 3]) (.one (by decide)) (SubSeq.cons (t := 2) (body := [0x5f, 0, 0, 0]) (.one (by decide))
      (SubSeq.cons (t := 8) (body := []) (.one (by decide)) .nil)),
    SubSeq.cons (t := 100) (body := [7]) (.one (by decide)) .nil,
    SubSeq.cons (t := 2) (body := [0x5f, 0, 0, 0]) (.one (by decide)) .nil, .nil,
    .drop (by unfold UnknownSigSub; decide +kernel) (.keep (.drop (by unfold UnknownSigSub; decide +kernel) .nil)), .drop (by unfold UnknownSigSub; decide +kernel) .nil, rfl, rfl, rfl, rfl,
    ⟨_, .old (lt := 0) (by decide) (by decide) (by decide)⟩, ⟨_, .old (lt := 0) (by decide) (by decide) (by decide)⟩⟩

end Gpgpdump
