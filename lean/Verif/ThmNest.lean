import Verif.Nest
import Verif.ThmDeep
import Verif.ThmCount

/-!
# C94: nesting has a bound that does not depend on the input
-/

namespace Gpgpdump
open P Spec Spec.Json

/-! ## What is inside a packet is much shorter -/

theorem SigArea.size {body area : Bytes} (h : SigArea body area) : area.length + 6 ≤ body.length ∧ area.length ≤ 65535 := by
  cases h <;> simp [beOctets_length] <;> omega
theorem SubSeq.mem_two {subs area} (h : SubSeq subs area) : ∀ s ∈ subs, s.2.length + 2 ≤ area.length := by
  induction h with
  | nil => simp
  | @cons t body lenc subs area hl hs ih =>
    have : 1 ≤ lenc.length := by cases hl <;> simp
    intro s hm
    rcases List.mem_cons.mp hm with rfl | hm
    · simp; omega
    · have := ih s hm
      simp; omega

/-- C94: a packet inside another one is shorter by eight octets or more and, whatever the size of the outer one, has fewer than 65534. -/
theorem C94_inside {p q : Nat × Bytes} (h : Inside p q) : q.2.length + 8 ≤ p.2.length ∧ q.2.length + 2 ≤ 65535 := by
  cases h with
  | embedded ha hs hm ht =>
    have := SigArea.size ha
    have := SubSeq.mem_two hs _ hm
    simp only at *
    omega
  | keyBlock ha hs hm ht hp hmem =>
    have := SigArea.size ha
    have := SubSeq.mem_two hs _ hm
    have := hp.mem_length _ hmem
    simp only [List.length_cons, List.length_append] at *
    omega

theorem chain_eight {chain : List (Nat × Bytes)} {p : Nat × Bytes} (h : List.IsChain Inside (p :: chain)) : 8 * chain.length ≤ p.2.length := by
  induction chain generalizing p with
  | nil => simp
  | cons q chain ih =>
    rw [List.isChain_cons_cons] at h
    have := ih h.2
    have := (C94_inside h.1).1
    simp only [List.length_cons]
    omega

/-- C94: packets inside packets inside a packet, however long that is, go at most 8192 deep, and at most one deep for every eight
octets of it. -/
theorem C94_chain {chain : List (Nat × Bytes)} {p : Nat × Bytes} (h : List.IsChain Inside (p :: chain)) :
    chain.length ≤ 8192 ∧ 8 * chain.length ≤ p.2.length := by
  refine ⟨?_, chain_eight h⟩
  cases chain with
  | nil => simp
  | cons q chain =>
    rw [List.isChain_cons_cons] at h
    have := chain_eight h.2
    have := (C94_inside h.1).2
    simp only [List.length_cons]
    omega

/-! ## The recursion of the parser -/

open Cmp in
theorem r_deepF {k : Cmp} (X : Ext) (hX : k.clean = true → CleanX X) (hR : k.real = true → RealX X) (hs : k.mayPanic = true) (f f' : Nat)
    (tag : Nat) (body : Bytes) (hf : body.length < 8 * f ∨ 8193 ≤ f) (hf' : body.length < 8 * f' ∨ 8193 ≤ f') :
    k.R (parseTagF X f tag body) (parseTagF X f' tag body) k.item := by
  -- inside, the size alone decides
  have inner : ∀ (f f' tag : Nat) (body : Bytes), body.length < 8 * f → body.length < 8 * f' →
      k.R (parseTagF X f tag body) (parseTagF X f' tag body) k.item := by
    intro f
    induction f with
    | zero => intro _ _ _ h; omega
    | succ f ih =>
      intro f' tag body hf hf'
      cases f' with
      | zero => omega
      | succ f' =>
        unfold parseTagF tagParse
        refine r_tagScope X hX hR (At.bindR X hX hR (r_tagBody X hX hR tag body (.inl hs) fun t b hi => ?_) fun _ _ _ => R.getCur)
        have := (C94_inside hi).1
        simp only at this
        exact ih f' t b (by omega) (by omega)
  cases f with
  | zero => omega
  | succ f =>
    cases f' with
    | zero => omega
    | succ f' =>
      unfold parseTagF tagParse
      refine r_tagScope X hX hR (At.bindR X hX hR (r_tagBody X hX hR tag body (.inl hs) fun t b hi => ?_) fun _ _ _ => R.getCur)
      have := C94_inside hi
      simp only at this
      exact inner f f' t b (by omega) (by omega)

/-- C94: the parser does not go deeper than 8193 packets for any packet, nor deeper than one for every eight octets of it: cut off
there it does the same, also where it fails. -/
theorem C94_recursion (X : Ext) (tag : Nat) (body : Bytes) (f : Nat) (hf : body.length < 8 * f ∨ 8193 ≤ f) (x : Ctx) :
    onePacket (parseTagF X f) tag body (some x) = onePacket (parseTag X) tag body (some x) := by
  have h := r_deepF (k := selfCmp x.opts false true false) X (by simp [selfCmp]) (by simp [selfCmp]) rfl f (body.length + 1) tag body hf (by omega)
  have hitem : (selfCmp x.opts false true false).item (newItem []) (newItem []) := Cmp.item_refl fun _ => .mk .nil (.inl .nil) .nil .nil (by simp)
  have := h.run ⟨some x, Reader.new [], newItem []⟩ ⟨some x, Reader.new [], newItem []⟩ ⟨selfCmp_ctxs x _ _ _, rfl, hitem⟩
  have key : ∀ s s' : St, (selfCmp x.opts false true false).sts s s' → s.ctx = s'.ctx := by
    intro s s' hs
    obtain ⟨y, y', e, e', h1, h2, h3, h4, h5⟩ := hs.ctx.some rfl
    rw [e, e']
    congr 1
    rcases y with ⟨a, b, c, d⟩
    rcases y' with ⟨a', b', c', d'⟩
    simp only at h1 h2 h3 h4 h5
    rw [h1, h2, h3, h4, h5]; rfl
  unfold onePacket parseTag
  generalize parseTagF X f tag body ⟨some x, Reader.new [], newItem []⟩ = r at this ⊢
  generalize parseTagF X (body.length + 1) tag body ⟨some x, Reader.new [], newItem []⟩ = r' at this ⊢
  cases this with
  | ok h hs => simp only; rw [h.same rfl, key _ _ hs]
  | err _ hs => simp only; rw [key _ _ hs]
  | panic _ hs => simp only; rw [key _ _ hs]
  | nil h => cases h

/-! ## The levels of the result -/

theorem levels_parseTag (X : Ext) (tag : Nat) (body : Bytes) (ctx : Option Ctx) (i : Item) (hi : (onePacket (parseTag X) tag body ctx).1 = .ok i) :
    levels i ≤ 5 + 4 * min (body.length / 8) 8192 := by
  have hg : ∀ x : Ctx, (onePacket (parseTagF X (min (body.length / 8) 8192 + 1)) tag body (some x)).1 = .ok i → levels i ≤ 5 + 4 * min (body.length / 8) 8192 := by
    intro x h
    have := ((GivesTall.parseTagF (X := X) (min (body.length / 8) 8192 + 1) tag body).run ⟨some x, Reader.new [], newItem []⟩).2 i h
    omega
  cases ctx with
  | some x =>
    refine hg x ?_
    rw [C94_recursion X tag body _ (by omega) x]
    exact hi
  | none =>
    refine hg Ctx.empty ?_
    have h := r_deepF (k := nilCmp false false) X (by simp [nilCmp]) (by simp [nilCmp]) rfl (body.length + 1) (min (body.length / 8) 8192 + 1) tag body
      (by omega) (by omega)
    have hitem : (nilCmp false false).item (newItem []) (newItem []) := Cmp.item_refl fun _ => .mk .nil (.inl .nil) .nil .nil (by simp)
    have := h.run ⟨none, Reader.new [], newItem []⟩ ⟨some Ctx.empty, Reader.new [], newItem []⟩ ⟨nilCmp_ctxs _ _, rfl, hitem⟩
    unfold onePacket parseTag at hi
    unfold onePacket
    generalize parseTagF X (body.length + 1) tag body ⟨none, Reader.new [], newItem []⟩ = r at this hi
    generalize parseTagF X (min (body.length / 8) 8192 + 1) tag body ⟨some Ctx.empty, Reader.new [], newItem []⟩ = r' at this ⊢
    cases this with
    | ok h hs => simp only at hi ⊢; cases hi; rw [h.same rfl]
    | err _ hs => cases hi
    | panic _ hs => cases hi
    | nil h => cases hi

theorem GivesTall.parseTag (X : Ext) (tag : Nat) (body : Bytes) : GivesTall (5 + 4 * min (body.length / 8) 8192) (parseTag X tag body) := by
  constructor
  intro st
  rw [parseTag_scoped X tag body st]
  exact ⟨rfl, fun i hi => levels_parseTag X tag body st.ctx i hi⟩

theorem GivesTall.packetsParse (X : Ext) (tag : Nat) (body : Bytes) : GivesTall 32774 (packetsParse X tag body) := by
  by_cases h8 : tag = 8
  · subst h8
    constructor
    intro st
    refine ⟨by rw [packetsParse_scoped X 8 body st], fun i hi => ?_⟩
    unfold Gpgpdump.packetsParse at hi
    rw [if_pos rfl, bind_run] at hi
    have h1 : ∀ j d, (tagScope 8 body (do
        let data ← tag08 X
        return (← getCur, data)) st).1 = .ok (j, d) → levelsAll j.items ≤ 1 := by
      intro j d h
      have e : tagScope 8 body (do
        let data ← tag08 X
        return (← getCur, data)) st = P.scope body (tagItem 8 body (ctxFlag (tagDumpFlag 8) st.ctx)) (do
        let data ← tag08 X
        return (← getCur, data)) st := rfl
      rw [e] at h
      generalize hs : ({ st with rd := Reader.new body, cur := tagItem 8 body (ctxFlag (tagDumpFlag 8) st.ctx) } : St) = st' at *
      have h' : (((tag08 X >>= fun data => P.getCur >>= fun c => Pure.pure (c, data)) : P (Item × Option Bytes)) st').1 = .ok (j, d) := by rw [← hs]; exact h
      have ht := (Tall.tag08 (X := X)).run st'
      rw [bind_run] at h'
      generalize tag08 X st' = q at ht h'
      rcases q with ⟨r, s⟩
      cases r with
      | ok data =>
        cases h'
        have : levelsAll st'.cur.items = 0 := by rw [← hs]; rfl
        simp only at ht
        omega
      | _ => cases h'
    generalize tagScope 8 body (do
        let data ← tag08 X
        return (← getCur, data)) st = q at h1 hi
    rcases q with ⟨r, s⟩
    cases r with
    | ok jd =>
      obtain ⟨j, d⟩ := jd
      have hj := h1 j d rfl
      cases d with
      | none =>
        cases hi
        rw [levels_below]; omega
      | some z =>
        have hm := (Tall.forPackets (X := X) (fun t b => (GivesTall.parseTag X t b).mono (show _ ≤ 32773 by omega)) ((Src.ofBytes z).data.length + 1) (Src.ofBytes z)).run { s with cur := j }
        change (P.build j (packetLoop X (Gpgpdump.parseTag X) (Src.ofBytes z)) s).1 = .ok i at hi
        have e : P.build j (packetLoop X (Gpgpdump.parseTag X) (Src.ofBytes z)) s = ((packetLoop X (Gpgpdump.parseTag X) (Src.ofBytes z) { s with cur := j }).1.map
          (fun _ => (packetLoop X (Gpgpdump.parseTag X) (Src.ofBytes z) { s with cur := j }).2.cur), _) := rfl
        rw [e] at hi
        change levelsAll (packetLoop X (Gpgpdump.parseTag X) (Src.ofBytes z) { s with cur := j }).2.cur.items ≤ _ at hm
        generalize packetLoop X (Gpgpdump.parseTag X) (Src.ofBytes z) { s with cur := j } = q at hi hm
        rcases q with ⟨r, s'⟩
        cases r with
        | ok u =>
          cases hi
          rw [levels_below]
          simp only at hm ⊢
          omega
        | _ => cases hi
    | _ => cases hi
  · rw [packetsParse_other X tag body h8]
    exact (GivesTall.parseTag X tag body).mono (by omega)

/-- C94: whatever is parsed, with whatever options, is shown in at most 32774 levels. -/
theorem C94_levels (X : Ext) (ctx : Option Ctx) (src : Option Src) : levelsAll (parse X ctx src).packets ≤ 32774 := by
  unfold parse
  split
  · simp [levelsAll]
  · rename_i s _
    have := (Tall.forPackets (X := X) (GivesTall.packetsParse X) (s.data.length + 1) s).run ⟨ctx, Reader.new [], newItem []⟩
    simpa [parseSrc, newItem, Item.items, levelsAll] using this

theorem forPackets_levels (X : Ext) (f : Nat) (src : Src) (st : St) :
    levelsAll (others (forPackets X (packetsParse X) f src st).2.cur.items) ≤ max (levelsAll (others st.cur.items)) (5 + 4 * (src.data.length / 8)) := by
  induction f generalizing src st with
  | zero => exact Nat.le_max_left _ _
  | succ f ih =>
    rw [forPackets]
    generalize he : nextPacket X src = q
    rcases q with ⟨e | ⟨tag, body⟩, src'⟩
    · dsimp only
      split <;> exact Nat.le_max_left _ _
    · dsimp only
      have hl := nextPacket_length he
      rw [bind_run]
      have hc : (packetsParse X tag body st).2.cur = st.cur := by rw [packetsParse_scoped X tag body st]
      have hi : ∀ i, (packetsParse X tag body st).1 = .ok i → levelsAll (others [i]) ≤ 5 + 4 * (body.length / 8) := by
        intro i hi
        by_cases h8 : tag = 8
        · subst h8
          have : (onePacket (packetsParse X) 8 body st.ctx).1 = .ok i := by
            rw [packetsParse_scoped X 8 body st] at hi; exact hi
          obtain ⟨l, hl⟩ := onePacket_header X (c := (onePacket (packetsParse X) 8 body st.ctx).2) (by rw [← this])
          have hn : i.name = compressedName := by rw [hl, Item.addAll_name, ← tagStr_8]; rfl
          simp [others, hn, levelsAll]
        · have h1 := ((GivesTall.parseTag X tag body).run st).2 i (by rw [packetsParse_other X tag body h8] at hi; exact hi)
          unfold others
          rw [List.filter_cons]
          split
          · rw [List.filter_nil, levelsAll_one]; omega
          · simp [levelsAll]
      generalize packetsParse X tag body st = q at hc hi ⊢
      rcases q with ⟨r, s⟩
      simp only at hc hi
      cases r with
      | ok i =>
        have h1 := ih src' { s with cur := s.cur.add i }
        have h2 : levelsAll (others (s.cur.add i).items) = max (levelsAll (others st.cur.items)) (levelsAll (others [i])) := by
          rw [show (s.cur.add i).items = st.cur.items ++ [i] by rw [hc]; rfl, others_append, levelsAll_append]
        have h3 := hi i rfl
        simp only at h1 ⊢
        rw [h2] at h1
        change levelsAll (others (forPackets X (packetsParse X) f src' { s with cur := s.cur.add i }).2.cur.items) ≤ _
        omega
      | _ => simp only [hc]; omega

/-- C94: and the packets that are not compressed in at most one level for every two octets of the input, and five. -/
theorem C94_size (X : Ext) (ctx : Option Ctx) (src : Src) : levelsAll (others (parseSrc X ctx src).packets) ≤ 5 + 4 * (src.data.length / 8) := by
  have := forPackets_levels X (src.data.length + 1) src ⟨ctx, Reader.new [], newItem []⟩
  simpa [parseSrc, newItem, Item.items, others, levelsAll] using this

/-- C94: so less than 9992 octets without a compressed packet can always be shown as indented JSON (compare `C30_unwritable`). -/
theorem C94_json (X : Ext) (ctx : Option Ctx) (src : Src) (h : ∀ i ∈ (parseSrc X ctx src).packets, i.name ≠ compressedName)
    (hl : src.data.length < 9992) (indent : Int) : ∃ out, infoJSON indent (goItems (parseSrc X ctx src).packets) = some out ∧
      Decodes out (parseSrc X ctx src).packets := by
  have := C94_size X ctx src
  rw [others_all h] at this
  obtain ⟨out, h1, h2, -⟩ := C30_json_partial (parseSrc X ctx src).packets indent (.inr (by omega))
  exact ⟨out, h1, h2⟩

/-! ## The bounds are met by something -/

theorem nest_inside (n : Nat) (hn : n < 4095) : Inside (2, nest (n + 1)) (2, nest n) := by
  have hlen := nest_length n
  have hs : SubSeq [((0x20 : UInt8), nest n)] (0xff :: beOctets 4 ((nest n).length + 1) ++ (0x20 :: (nest n ++ []))) :=
    .cons (.five (by omega)) .nil
  have hl : (0xff :: beOctets 4 ((nest n).length + 1) ++ (0x20 :: (nest n ++ []))).length < 65536 := by
    simp [beOctets_length, hlen]; omega
  rw [nest]
  generalize (0xff :: beOctets 4 ((nest n).length + 1) ++ (0x20 :: (nest n ++ []))) = area at hs hl
  exact .embedded (by
    have := SigArea.hashed (v := 4) (s := 0) (p := 99) (h := 0) (area := area) (rest := beOctets 2 0 ++ [0, 0]) (.inl rfl) (by omega)
    simpa [sigBody] using this) hs (List.mem_singleton.2 rfl) (by decide)

/-- the signatures one in the other, from the outside -/
def Spec.nestChain : Nat → List (Nat × Bytes)
  | 0 => []
  | n + 1 => (2, nest n) :: nestChain n

/-- C94: 4095 deep exists, shown in 12286 levels (`C30_nested`). -/
theorem C94_reached (X : Ext) (x : Ctx) (sched : List Nat) : (∃ chain, List.IsChain Inside ((2, nest 4095) :: chain) ∧ chain.length = 4095) ∧
    12286 ≤ levelsAll (parseSrc X (some x) (Source.src ⟨nestPacket 4095, rawErr .eof, sched⟩)).packets := by
  refine ⟨⟨nestChain 4095, ?_, ?_⟩, (C30_nested X x 4095 (by decide) sched).2⟩
  · have : ∀ n, n ≤ 4095 → List.IsChain Inside ((2, nest n) :: nestChain n) := by
      intro n
      induction n with
      | zero => intro _; exact .singleton _
      | succ n ih =>
        intro h
        rw [nestChain, List.isChain_cons_cons]
        exact ⟨nest_inside n (by omega), ih (by omega)⟩
    exact this 4095 (Nat.le_refl _)
  · have : ∀ n, (nestChain n).length = n := by
      intro n
      induction n with
      | zero => rfl
      | succ n ih => rw [nestChain, List.length_cons, ih]
    exact this 4095

/-- what `C94_json` supposes: a signature in a signature, then a user ID -/
example : let r := parseSrc Tests.X (some Ctx.empty) (Source.src ⟨nestPacket 1 ++ [0xcd, 1, 0x41], rawErr .eof, []⟩)
    (∀ i ∈ r.packets, i.name ≠ compressedName) ∧ r.res = .ok () ∧ r.packets.length = 2 ∧ levelsAll r.packets = 5 := by decide +kernel

end Gpgpdump
