import Verif.FullAcc
import Verif.ThmDisplay
import Verif.ThmHistory

/-!
# C62: everything that is displayed
-/

namespace Gpgpdump
open P Spec Src

variable {X : Ext}

/-- the times remembered in the context were read with the same setting of the option UTC (all contexts that come from `New` and `Parse`) -/
def Consistent (x : Ctx) : Prop := (∀ d, x.keyTime = some d → d.utc = x.opts UTC) ∧ ∀ d, x.sigTime = some d → d.utc = x.opts UTC

theorem Consistent.good {x : Ctx} (h : Consistent x) : Good x.opts x := ⟨rfl, rfl, fun y hy => by cases hy; exact h⟩

theorem Good.consistent {o : OptCode → Bool} {x : Ctx} (h : Good o x) : Consistent x := by
  obtain ⟨rfl, h⟩ := h
  exact h.2 x rfl

theorem fresh_consistent (sets : List (OptCode × Bool)) : Consistent (Ctx.new sets) := by
  obtain ⟨h1, h2, h3⟩ := C31_fresh_state sets
  unfold Consistent
  rw [h2, h3]
  exact ⟨fun d hd => (by cases hd), fun d hd => (by cases hd)⟩

theorem onePacket_full (hX : OwnErrors X) {o : OptCode → Bool} {tag : Nat} {body : Bytes} {x : Ctx} (hg : Good o x) {i : Item} {c : Option Ctx}
    (h : onePacket (packetsParse X) tag body (some x) = (.ok i, c)) :
    ∃ x', c = some x' ∧ Good o x' ∧ FullTop o X (hist (some x)) (tag, body) i (hist (some x')) := by
  unfold onePacket at h
  simp only [Prod.mk.injEq] at h
  rcases hm : packetsParse X tag body ⟨some x, Reader.new [], newItem []⟩ with ⟨r, s⟩
  rw [hm] at h
  obtain ⟨rfl, rfl⟩ := h
  obtain ⟨x', f, q', l, h1, -, rfl, -, -, h2⟩ := Tells.packetsParse (h := hist (some x)) X hX tag body x [] [] (newItem []) i s hg rfl hm
  exact ⟨x', rfl, h1, h2⟩

theorem onePacket_acc {tag : Nat} {body : Bytes} (h : AccTop X tag body) (x : Ctx) :
    ∃ i, (onePacket (packetsParse X) tag body (some x)).1 = .ok i := by
  obtain ⟨i, x', hi⟩ := (Sub.packetsParse (X := X) tag body).complete x [] [] (newItem []) (topOK_of_accTop h)
  refine ⟨i, ?_⟩
  unfold onePacket
  simp only
  exact congrArg Prod.fst hi

theorem seqPackets_full (hX : OwnErrors X) {o : OptCode → Bool} (ps : List (Nat × Bytes)) (x : Ctx) (hg : Good o x) :
    ∃ qs rs h', ps = qs ++ rs ∧ FullTops o X (hist (some x)) qs (seqPackets (packetsParse X) ps (some x)).1 h' ∧
      (∀ p ps', rs = p :: ps' → ¬ AccTop X p.1 p.2) ∧
      ((seqPackets (packetsParse X) ps (some x)).2.1 = .ok () → rs = [] ∧
        ∃ x', (seqPackets (packetsParse X) ps (some x)).2.2 = some x' ∧ Good o x' ∧ h' = hist (some x')) := by
  induction ps generalizing x with
  | nil => exact ⟨[], [], _, rfl, .nil, fun _ _ h => (by cases h), fun _ => ⟨rfl, x, rfl, hg, rfl⟩⟩
  | cons p ps ih =>
    obtain ⟨tag, body⟩ := p
    simp only [seqPackets]
    have hno : (∀ i, (onePacket (packetsParse X) tag body (some x)).1 ≠ .ok i) →
        ∀ p ps', (tag, body) :: ps = p :: ps' → ¬ AccTop X p.1 p.2 := by
      rintro hn p ps' ⟨⟩ ha
      obtain ⟨i, hi⟩ := onePacket_acc ha x
      exact hn i hi
    rcases ho : onePacket (packetsParse X) tag body (some x) with ⟨r, c⟩
    cases r with
    | ok i =>
      obtain ⟨x', rfl, h1, h2⟩ := onePacket_full hX hg ho
      obtain ⟨qs, rs, h', rfl, h3, h4, h5⟩ := ih x' h1
      exact ⟨(tag, body) :: qs, rs, h', rfl, .cons h2 h3, h4, h5⟩
    | err e => exact ⟨[], (tag, body) :: ps, _, rfl, .nil, hno (by rw [ho]; simp), fun h => by simp at h⟩
    | panic e => exact ⟨[], (tag, body) :: ps, _, rfl, .nil, hno (by rw [ho]; simp), fun h => by simp at h⟩
    | stuck => exact ⟨[], (tag, body) :: ps, _, rfl, .nil, hno (by rw [ho]; simp), fun h => by simp at h⟩

theorem front_of_loop {qs : List (Nat × Bytes)} : ∀ {d : Bytes} {rs : List (Nat × Bytes)}, (loopEnd (split d) (rawErr .eof)).1 = qs ++ rs →
    (∀ p ∈ qs, AccTop X p.1 p.2) → (∀ p ps', rs = p :: ps' → ¬ AccTop X p.1 p.2) → Front X qs d := by
  induction qs with
  | nil =>
    intro d rs h _ hr
    refine .stop ?_ ?_
    · rintro tag body enc r he ha rfl
      rw [split_packet (decNext_complete he r), loopEnd_cons] at h
      exact hr _ _ h.symm ha
    · intro tag body he ha
      rw [split_toEnd he] at h
      exact hr (tag, body) [] h.symm ha
  | cons p qs ih =>
    intro d rs h hq hr
    cases hd : decNext d with
    | packet t b r =>
      obtain ⟨enc, he, rfl⟩ := decNext_sound hd
      rw [split_packet hd, loopEnd_cons] at h
      simp only [List.cons_append, List.cons.injEq] at h
      obtain ⟨rfl, h⟩ := h
      exact .cons he (hq _ (List.mem_cons_self ..)) (ih h (fun p hp => hq p (List.mem_cons_of_mem _ hp)) hr)
    | toEnd t b =>
      have he := decNext_toEnd hd
      rw [split_toEnd he] at h
      have h' : [(t, b)] = p :: (qs ++ rs) := h
      simp only [List.cons.injEq] at h'
      obtain ⟨rfl, h'⟩ := h'
      obtain ⟨rfl, rfl⟩ := List.append_eq_nil_iff.mp h'.symm
      exact .toEnd he (hq _ (List.mem_cons_self ..))
    | _ =>
      exfalso
      have h0 := split_stop (d := d) (by rw [hd]; simp)
      have h1 := decNext_of_stop (b := d) (by rw [hd]; simp)
      unfold loopEnd at h
      rw [h0] at h
      rcases hs : (split d).2 with _ | _ | _ | ⟨t, b⟩ <;> rw [hs] at h
      · simp at h
      · simp at h
      · simp at h
      · have := (h1.2.2.2 t b).mp hs
        rw [hd] at this
        simp at this

theorem Spec.Front.uniq {ps : List (Nat × Bytes)} {d : Bytes} (h : Front X ps d) : ∀ {qs}, Front X qs d → ps = qs := by
  induction h with
  | stop h hb =>
    intro qs hq
    cases hq with
    | stop => rfl
    | cons he ha hs => exact (h _ _ _ _ he ha rfl).elim
    | toEnd he ha => exact (hb _ _ he ha).elim
  | @cons tag body enc ps r he ha hs ih =>
    intro qs hq
    generalize hd : enc ++ r = d at hq
    cases hq with
    | stop h hb => exact (h _ _ _ _ he ha hd.symm).elim
    | @cons tag' body' enc' ps' r' he' ha' hs' =>
      have h1 := decNext_complete he r
      rw [hd, decNext_complete he' r'] at h1
      cases h1
      rw [ih hs']
    | toEnd he' ha' =>
      have h1 := decNext_complete he r
      rw [hd, decNext_toEnd_complete he'] at h1
      cases h1
  | @toEnd tag body b he ha =>
    intro qs hq
    cases hq with
    | stop h hb => exact (hb _ _ he ha).elim
    | @cons tag' body' enc' ps' r' he' ha' hs' =>
      have h1 := decNext_complete he' r'
      rw [decNext_toEnd_complete he] at h1
      cases h1
    | toEnd he' ha' =>
      have h1 := decNext_toEnd_complete he
      rw [decNext_toEnd_complete he'] at h1
      cases h1
      rfl

theorem parseSrc_packets (X : Ext) (x : Ctx) (s : Source) :
    (parseSrc X (some x) s.src).packets = (seqPackets (packetsParse X) (loopEnd (split s.data) s.src.tail).1 (some x)).1 := by
  rw [parseSrc_eq X (some x) _ s.isLazy rfl]
  have hd : s.src.data = s.data := rfl
  rw [hd]
  simp only
  unfold thenErr
  split <;> rfl

/-! ## C62 -/

/-- C62: an input that is parsed without an error is a sequence of packets; the result is what the table `FullTops` lays down for
them, read after what the context remembers, and the context remembers afterwards what the table says. -/
theorem C62_displayed (X : Ext) (hX : OwnErrors X) (x : Ctx) (hc : Consistent x) (s : Source) (ht : s.tail = rawErr .eof)
    (h : (parseSrc X (some x) s.src).res = .ok ()) :
    ∃ ps x', PacketSeq ps s.data ∧ (parseSrc X (some x) s.src).ctx = some x' ∧ x'.opts = x.opts ∧ Consistent x' ∧
      FullTops x.opts X (hist (some x)) ps (parseSrc X (some x) s.src).packets (hist (some x')) := by
  obtain ⟨ps, hps, hs⟩ := parseSrc_ok X (some x) ht h
  obtain ⟨qs, rs, h', rfl, h1, -, h2⟩ := seqPackets_full hX ps x hc.good
  rw [hs] at h1 h2
  obtain ⟨rfl, x', h3, h4, rfl⟩ := h2 rfl
  rw [List.append_nil] at hps
  exact ⟨qs, x', hps, h3, h4.1, h4.consistent, h1⟩

/-- C62 (the table leaves nothing open): for given packets and a given memory it allows one list of items, and one memory afterwards. -/
theorem C62_unique (o : OptCode → Bool) (X : Ext) (h : History) (ps : List (Nat × Bytes)) {is js : List Item} {h1 h2 : History}
    (hi : FullTops o X h ps is h1) (hj : FullTops o X h ps js h2) : is = js ∧ h1 = h2 := hi.uniq hj

/-- C62 (exactness): `is` is what an input is displayed as, without an error, exactly if the input is a sequence of packets the table
lays down `is` for. -/
theorem C62_exact (X : Ext) (hX : OwnErrors X) (x : Ctx) (hc : Consistent x) (s : Source) (ht : s.tail = rawErr .eof) (is : List Item) :
    ((parseSrc X (some x) s.src).res = .ok () ∧ (parseSrc X (some x) s.src).packets = is) ↔
      ∃ ps h', PacketSeq ps s.data ∧ FullTops x.opts X (hist (some x)) ps is h' := by
  constructor
  · rintro ⟨h, rfl⟩
    obtain ⟨ps, x', hs, -, -, -, hf⟩ := C62_displayed X hX x hc s ht h
    exact ⟨ps, _, hs, hf⟩
  · rintro ⟨ps, h', hs, hf⟩
    have hok := C56_accepted X x s ht hs hf.acc
    obtain ⟨ps', x', hs', -, -, -, hf'⟩ := C62_displayed X hX x hc s ht hok
    cases C05_unique hs hs'
    exact ⟨hok, (hf'.uniq hf).1⟩

/-- C62 with a fresh context: nothing is remembered at the start. -/
theorem C62_fresh (X : Ext) (hX : OwnErrors X) (sets : List (OptCode × Bool)) (s : Source) (ht : s.tail = rawErr .eof) (is : List Item) :
    ((parseSrc X (some (Ctx.new sets)) s.src).res = .ok () ∧ (parseSrc X (some (Ctx.new sets)) s.src).packets = is) ↔
      ∃ ps h', PacketSeq ps s.data ∧ FullTops (Ctx.new sets).opts X {} ps is h' := by
  rw [← fresh_hist sets]
  exact C62_exact X hX _ (fresh_consistent sets) s ht is

/-- C62 at `New` and `Parse`: for input without an armor block and without an overlong line. -/
theorem C62_new (X : Ext) (hX : OwnErrors X) (x : Ctx) (hc : Consistent x) (ha : x.armor = false) (d : Bytes) (sched : List Nat) {ls} (h : Lines d ls false d)
    (hb : ¬ ∃ block, ArmorBlock ls block) (is : List Item) :
    ((parse X (some x) (some (Source.src ⟨d, rawErr .eof, sched⟩))).res = .ok () ∧
      (parse X (some x) (some (Source.src ⟨d, rawErr .eof, sched⟩))).packets = is) ↔
      ∃ ps h', PacketSeq ps d ∧ FullTops x.opts X (hist (some x)) ps is h' := by
  rw [C34_verbatim_partial X (some x) ha d sched h hb]
  exact C62_exact X hX x hc ⟨d, rawErr .eof, []⟩ rfl is

/-- C62 for all sources, with or without an error: what is in the result is the display of the first packets. -/
theorem C62_prefix (X : Ext) (hX : OwnErrors X) (x : Ctx) (hc : Consistent x) (s : Source) :
    ∃ ps h', (PacketSeq ps s.data ∨ ∃ a b, s.data = a ++ b ∧ ClosedSeq ps a) ∧
      FullTops x.opts X (hist (some x)) ps (parseSrc X (some x) s.src).packets h' := by
  rw [parseSrc_packets]
  obtain ⟨qs, rs, h', hq, h1, -⟩ := seqPackets_full hX (loopEnd (split s.data) s.src.tail).1 x hc.good
  exact ⟨qs, h', front_packets hq, h1⟩

/-- C62 (exactness for all inputs): with or without an error, what is in the result is the display of the packets up to the first that
is not of the grammar; no packet before it is missing and nothing is displayed of the octets behind. -/
theorem C62_front (X : Ext) (hX : OwnErrors X) (x : Ctx) (hc : Consistent x) (s : Source) (ht : s.tail = rawErr .eof) (is : List Item) :
    (parseSrc X (some x) s.src).packets = is ↔ ∃ ps h', Front X ps s.data ∧ FullTops x.opts X (hist (some x)) ps is h' := by
  have key : ∃ ps h', Front X ps s.data ∧ FullTops x.opts X (hist (some x)) ps (parseSrc X (some x) s.src).packets h' := by
    rw [parseSrc_packets]
    obtain ⟨qs, rs, h', hq, h1, h2, -⟩ := seqPackets_full hX (loopEnd (split s.data) s.src.tail).1 x hc.good
    exact ⟨qs, h', front_of_loop (by rw [← hq]; exact congrArg (fun t => (loopEnd (split s.data) t).1) ht.symm) h1.acc h2, h1⟩
  constructor
  · rintro rfl
    exact key
  · rintro ⟨ps, h', hf, hd⟩
    obtain ⟨qs, h2, hf', hd'⟩ := key
    cases hf.uniq hf'
    exact (hd'.uniq hd).1

/-! A key made 10 seconds after 1970, then a signature that says that it expires a day later. With a fresh context the note says
1970-01-02T00:00:10Z (option UTC set), the date the key itself fixes. -/

theorem keyThenSignature (o : OptCode → Bool) (X : Ext) : FullTops o X {} [(6, [4, 0, 0, 0, 10, 99, 1]),
    (2, [4, 0x13, 99, 8, 0, 6, 5, 9, 0, 1, 0x51, 0x80, 0, 0, 0xaa, 0xbb])]
    [packetRow o 6 [4, 0, 0, 0, 10, 99, 1] [versionRow o 4 (some 5) 4,
        leaf "Public key creation time".toList (momentText o X [0, 0, 0, 10]) [] (dumpIf (o DEBUG) [0, 0, 0, 10]), pubRow o 99,
        leaf (opaqueName 99) [] (sizeText 1) (dumpIf (o DEBUG) [1]),
        leaf "Unknown data".toList [] (sizeText 1) (dumpIf (o DEBUG) [1])],
      packetRow o 2 [4, 0x13, 99, 8, 0, 6, 5, 9, 0, 1, 0x51, 0x80, 0, 0, 0xaa, 0xbb] [versionRow o 4 (some 5) 4, sigTypeRow o 0x13, pubRow o 99,
        hashRow o 8, areaRow o "Hashed Subpacket" [5, 9, 0, 1, 0x51, 0x80] [periodRow o X 9 [0, 1, 0x51, 0x80] (some 10)],
        left16Row [0xaa, 0xbb], leaf (opaqueName 99) [] (sizeText 0) (dumpIf (o DEBUG) [])]] ⟨.notSpecified, none, none⟩ := by
  refine .cons (.plain (by decide) (.key (v := 4) (tm := [0, 0, 0, 10]) (r := [99, 1]) (by decide) (by decide) rfl
    (.publicKey (a := 99) (f := [0, 0, 0, 10, 99]) (q := [1]) (by decide) (.v4 (tm := [0, 0, 0, 10]) (f := []) rfl (.unknown rfl))))) ?_
  refine .cons (.plain (by decide) ?_) .nil
  exact .signature (v := 4) (a1 := [5, 9, 0, 1, 0x51, 0x80]) (a2 := []) (l := [0xaa, 0xbb]) (f := []) (q := []) (by decide)
    (.subs (subs := [(9, [0, 1, 0x51, 0x80])]) (by decide) (.cons (lenc := [5]) (area := []) (.one (n := 5) (by decide)) .nil)
      (.keyExpires (n := [0, 1, 0x51, 0x80]) (r := []) rfl rfl .nil)) .empty rfl (.unknown rfl) (by decide) (by decide)

example (o : OptCode → Bool) (X : Ext) (h : o UTC = true) :
    periodRow o X 9 [0, 1, 0x51, 0x80] (some 10) = leaf (subName 9) (X.days 86400 ++ " days after".toList) "1970-01-02T00:00:10Z".toList
      (dumpIf (o DEBUG) [0, 1, 0x51, 0x80]) := by
  have e : rfc3339UTC 86410 = "1970-01-02T00:00:10Z".toList := by decide +kernel
  have h1 : beNat [0, 1, 0x51, 0x80] = 86400 := by decide
  have h2 : endDate (dateText o X) (some 10) 86400 = rfc3339UTC 86410 := by
    show (if o UTC then rfc3339UTC 86410 else _) = _
    rw [if_pos h]
  unfold periodRow
  rw [h1, h2, e]
  rfl

/-- the two packets -/
theorem keyThenSignature_seq (rest : Bytes) (ps : List (Nat × Bytes)) (hr : PacketSeq ps rest) :
    PacketSeq ((6, [4, 0, 0, 0, 10, 99, 1]) :: (2, [4, 0x13, 99, 8, 0, 6, 5, 9, 0, 1, 0x51, 0x80, 0, 0, 0xaa, 0xbb]) :: ps)
      ([0xc6, 7, 4, 0, 0, 0, 10, 99, 1] ++ ([0xc2, 16, 4, 0x13, 99, 8, 0, 6, 5, 9, 0, 1, 0x51, 0x80, 0, 0, 0xaa, 0xbb] ++ rest)) :=
  .cons (.new (tag := 6) (by decide) (.last (lenc := [7]) (.one (n := 7) (by decide))))
    (.cons (.new (tag := 2) (by decide) (.last (lenc := [16]) (.one (n := 16) (by decide)))) hr)

example (X : Ext) (hX : OwnErrors X) (sets : List (OptCode × Bool)) :
    (parseSrc X (some (Ctx.new sets)) (Source.src ⟨[0xc6, 7, 4, 0, 0, 0, 10, 99, 1, 0xc2, 16, 4, 0x13, 99, 8, 0, 6, 5, 9, 0, 1, 0x51, 0x80, 0, 0, 0xaa, 0xbb],
      rawErr .eof, [3, 1]⟩)).res = .ok () :=
  ((C62_fresh X hX sets ⟨_, rawErr .eof, [3, 1]⟩ rfl _).mpr ⟨_, _, keyThenSignature_seq [] [] .nil, keyThenSignature _ X⟩).1

/-! The same two packets and behind them an octet that begins no packet: both are displayed although an error is reported. -/

example (X : Ext) (hX : OwnErrors X) (sets : List (OptCode × Bool)) :
    (parseSrc X (some (Ctx.new sets)) (Source.src ⟨[0xc6, 7, 4, 0, 0, 0, 10, 99, 1, 0xc2, 16, 4, 0x13, 99, 8, 0, 6, 5, 9, 0, 1, 0x51, 0x80, 0, 0, 0xaa, 0xbb, 5],
      rawErr .eof, [3, 1]⟩)).packets.length = 2 := by
  have hacc := (keyThenSignature (Ctx.new sets).opts X).acc
  have h5 : decNext [5] = .noMSB := rfl
  have hf : Front X [(6, [4, 0, 0, 0, 10, 99, 1]), (2, [4, 0x13, 99, 8, 0, 6, 5, 9, 0, 1, 0x51, 0x80, 0, 0, 0xaa, 0xbb])]
      ([0xc6, 7, 4, 0, 0, 0, 10, 99, 1] ++ ([0xc2, 16, 4, 0x13, 99, 8, 0, 6, 5, 9, 0, 1, 0x51, 0x80, 0, 0, 0xaa, 0xbb] ++ [5])) := by
    refine .cons (.new (tag := 6) (by decide) (.last (lenc := [7]) (.one (n := 7) (by decide)))) (hacc (6, _) (List.mem_cons_self ..)) ?_
    refine .cons (.new (tag := 2) (by decide) (.last (lenc := [16]) (.one (n := 16) (by decide)))) (hacc (2, _) (List.mem_cons_of_mem _ (List.mem_cons_self ..))) ?_
    refine .stop ?_ ?_
    · intro tag body enc r he _ h
      rw [h, decNext_complete he] at h5
      cases h5
    · intro tag body he
      rw [decNext_toEnd_complete he] at h5
      cases h5
  have hd := keyThenSignature (Ctx.new sets).opts X
  rw [← fresh_hist sets] at hd
  exact congrArg List.length ((C62_front X hX (Ctx.new sets) (fresh_consistent sets) ⟨_, rawErr .eof, [3, 1]⟩ rfl _).mpr ⟨_, _, hf, hd⟩)

end Gpgpdump
