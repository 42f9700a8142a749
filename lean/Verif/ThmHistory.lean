import Verif.MonTags
import Verif.ThmHidden
import Verif.ThmContext
import Verif.ThmNew

/-!
# C17, C19, C53: what earlier packets contribute to later items
-/

namespace Gpgpdump
open P Spec

theorem packetsParse_cur (X : Ext) (t : Nat) (b : Bytes) (st : St) : (packetsParse X t b st).2.cur = st.cur := by
  rw [packetsParse_scoped X t b st]

theorem fresh_hist (sets : List (OptCode × Bool)) : hist (some (Ctx.new sets)) = {} := by
  obtain ⟨h1, h2, h3⟩ := C31_fresh_state sets
  simp [hist, h1, h2, h3]

theorem fresh_wf (sets : List (OptCode × Bool)) : WF (Ctx.new sets).utc (some (Ctx.new sets)) := by
  obtain ⟨h1, h2, h3⟩ := C31_fresh_state sets
  refine ⟨rfl, fun y hy => ?_⟩
  cases hy
  rw [h2, h3]
  exact ⟨fun d hd => (by cases hd), fun d hd => (by cases hd)⟩

theorem seen_parseSrc (X : Ext) (sets : List (OptCode × Bool)) (src : Src) :
    ∃ h', SeenAll (fun t => rfc3339 X (UInt32.ofNat t) (Ctx.new sets).utc) (fun n => X.days (UInt32.ofNat n)) {}
      (parseSrc X (some (Ctx.new sets)) src).packets h' ∧
      ((parseSrc X (some (Ctx.new sets)) src).res = .ok () → h' = hist (parseSrc X (some (Ctx.new sets)) src).ctx) := by
  obtain ⟨l, h', e1, e2, e3⟩ := seen_forPackets (X := X) (u := (Ctx.new sets).utc) (MonI.packetsParse) (packetsParse_cur X) (src.data.length + 1) src
    ⟨some (Ctx.new sets), Reader.new [], newItem []⟩ (fresh_wf sets)
  refine ⟨h', ?_, fun hr => e3 () hr⟩
  have e1 : (parseSrc X (some (Ctx.new sets)) src).packets = [] ++ l := e1
  rw [e1, ← fresh_hist sets]
  exact e2

/-- C17 (with C19): with a fresh context, read the items of the result in the order they are printed, nested ones included. Then each
encrypted data packet names the kind of the last session-key packet since the previous encrypted data packet (or the start);
each key expiration shows the date relative to the last key, unless another key expiration was shown since, and each signature
expiration the date relative to the last signature creation time, unless another signature expiration was shown since. This
holds for every reader, whatever the outcome. -/
theorem C17_history (X : Ext) (sets : List (OptCode × Bool)) (reader : Option Src) :
    ∃ h, SeenAll (fun t => rfc3339 X (UInt32.ofNat t) (Ctx.new sets).utc) (fun n => X.days (UInt32.ofNat n)) {}
      (parse X (some (Ctx.new sets)) reader).packets h := by
  unfold parse
  split
  · exact ⟨_, .nil⟩
  · obtain ⟨h, h1, _⟩ := seen_parseSrc X sets _
    exact ⟨h, h1⟩

/-- C19 in the form the code satisfies it: "precedes" has to be read as in `C17_history` (a key expiration uses up the creation
time), a key created at second 0 of 1970 counts as absent, and the date is computed modulo 2^32. The full claim is false, see
`C19_used_up`, `C19_second_0` and `C19_wraps`. -/
theorem C19_history_partial (X : Ext) (sets : List (OptCode × Bool)) (src : Source) :
    ∃ h, SeenAll (fun t => rfc3339 X (UInt32.ofNat t) (Ctx.new sets).utc) (fun n => X.days (UInt32.ofNat n)) {}
      (parseSrc X (some (Ctx.new sets)) src.src).packets h :=
  (seen_parseSrc X sets src.src).imp fun _ h => h.1

/-! ## C17 in terms of the input -/

/-- the session-key mode stays -/
def modeOrder : CtxOrder where
  T c c' := c.map Ctx.mode = c'.map Ctx.mode
  refl _ := rfl
  trans := Eq.trans

/-- a packet whose tag is none of these leaves the mode alone -/
theorem keeps_mode (X : Ext) {t : Nat} (h : t ∉ [1, 2, 3, 8, 9, 18]) (b : Bytes) (c : Option Ctx) :
    ((onePacket (packetsParse X) t b c).2).map Ctx.mode = c.map Ctx.mode := by
  simp only [List.mem_cons, List.not_mem_nil, or_false, not_or] at h
  obtain ⟨h1, h2, h3, h8, h9, h18⟩ := h
  have := (Moves.tagParse (O := modeOrder) X (recur := parseTagF X b.length) (t := t) (b := b) (.tagBody X t (fun e => absurd e h1) (fun e => absurd e h2) (fun e => absurd e h3)
    (fun _ _ _ => rfl) (fun e => by rcases e with e | e <;> contradiction))).run ⟨c, Reader.new [], newItem []⟩
  unfold onePacket
  rw [packetsParse_other X t b h8]
  exact this.symm

theorem seq_keeps_mode (X : Ext) {ps : List (Nat × Bytes)} (h : ∀ p ∈ ps, p.1 ∉ [1, 2, 3, 8, 9, 18]) (c : Option Ctx) :
    ((seqPackets (packetsParse X) ps c).2.2).map Ctx.mode = c.map Ctx.mode := by
  induction ps generalizing c with
  | nil => rfl
  | cons p ps ih =>
    obtain ⟨t, b⟩ := p
    have h1 := keeps_mode X (h (t, b) (by simp)) b c
    unfold seqPackets
    rcases ho : onePacket (packetsParse X) t b c with ⟨r, c'⟩
    rw [ho] at h1
    cases r with
    | ok i => exact (ih (fun p hp => h p (by simp [hp])) c').trans h1
    | _ => exact h1

theorem session_mode {body : Bytes} {hdr : Item} {m : Mode} {k : P Unit} (hk : Plain k) (st : St) (i : Item)
    (hi : (Gpgpdump.scope body hdr ((P.setMode m >>= fun _ => k) >>= fun _ => P.getCur) st).1 = .ok i) :
    ((Gpgpdump.scope body hdr ((P.setMode m >>= fun _ => k) >>= fun _ => P.getCur) st).2.ctx).map Ctx.mode = some m := by
  rcases st with ⟨c, rd, cur⟩
  cases c with
  | none => cases hi
  | some x =>
    have e : Gpgpdump.scope body hdr ((P.setMode m >>= fun _ => k) >>= fun _ => P.getCur) ⟨some x, rd, cur⟩ =
        (((k >>= fun _ => P.getCur) ⟨some { x with mode := m }, Reader.new body, hdr⟩).1,
          { ((k >>= fun _ => P.getCur) ⟨some { x with mode := m }, Reader.new body, hdr⟩).2 with rd := rd, cur := cur }) := rfl
    obtain ⟨hc, _⟩ := (Plain.bind hk fun _ => .getCur).run ⟨some { x with mode := m }, Reader.new body, hdr⟩
    rw [e]
    simp only [hc]
    rfl

/-- what a packet with tag 1, 3, 9 or 18 leaves as the mode -/
def modeAfter (t : Nat) : Mode := if t = 1 then .pubEnc else if t = 3 then .symEnc else .notSpecified

theorem sets_mode (X : Ext) {t : Nat} (h : t ∈ [1, 3, 9, 18]) (b : Bytes) (c : Option Ctx) {i : Item} {c' : Option Ctx}
    (ho : onePacket (packetsParse X) t b c = (.ok i, c')) : c'.map Ctx.mode = some (modeAfter t) := by
  have h8 : t ≠ 8 := by rintro rfl; simp at h
  unfold onePacket at ho
  rw [packetsParse_other X t b h8, parseTag_run] at ho
  injection ho with hr hc
  subst hc
  simp only [List.mem_cons, List.not_mem_nil, or_false] at h
  rcases h with rfl | rfl | rfl | rfl
  · refine session_mode (m := .pubEnc) ?_ _ i hr
    plain <;> first | apply Plain.parseSes | apply Plain.unknownData
  · refine session_mode (m := .symEnc) ?_ _ i hr
    plain <;> first | apply Plain.s2kParse | apply Plain.unknownData
  · cases c with
    | none => cases hr
    | some x => rfl
  · cases c with
    | none => cases hr
    | some x => rfl

/-- what is shown for an encrypted data packet in a given mode -/
theorem shows_mode (X : Ext) {t : Nat} (h : t = 9 ∨ t = 18) (b : Bytes) (c : Option Ctx) {m : Mode} (hm : c.map Ctx.mode = some m) {i : Item} {c' : Option Ctx}
    (ho : onePacket (packetsParse X) t b c = (.ok i, c')) :
    ∃ k, i.items = [k] ∧ (t = 9 → k.value = sourceText m) ∧ (t = 18 → k.note = sourceNote (dec b.length) m) := by
  have h8 : t ≠ 8 := by rintro rfl; simp at h
  unfold onePacket at ho
  rw [packetsParse_other X t b h8, parseTag_run] at ho
  cases c with
  | none => cases hm
  | some x =>
    cases hm
    rcases h with rfl | rfl
    · injection ho with hr hc
      cases hr
      refine ⟨_, rfl, fun _ => ?_, fun h => by cases h⟩
      rcases x with ⟨o, m, s, k⟩
      cases m <;> rfl
    · injection ho with hr hc
      cases hr
      refine ⟨_, rfl, fun h => (by cases h), fun _ => ?_⟩
      rcases x with ⟨o, m, s, k⟩
      cases m <;> rfl

theorem seqPackets_ok_length (p : TagParser) (ps : List (Nat × Bytes)) (c : Option Ctx) :
    (seqPackets p ps c).2.1 = .ok () → (seqPackets p ps c).1.length = ps.length := by
  induction ps generalizing c with
  | nil => intro _; rfl
  | cons q ps ih =>
    obtain ⟨t, b⟩ := q
    unfold seqPackets
    rcases onePacket p t b c with ⟨r, c'⟩
    cases r with
    | ok i => intro h; simp only [List.length_cons]; rw [ih c' h]
    | _ => intro h; cases h
theorem seqPackets_cut_length (p : TagParser) (ps : List (Nat × Bytes)) (c : Option Ctx) :
    (seqPackets p ps c).2.1 ≠ .ok () → (seqPackets p ps c).1.length < ps.length := by
  induction ps generalizing c with
  | nil => intro h; exact absurd rfl h
  | cons q ps ih =>
    obtain ⟨t, b⟩ := q
    unfold seqPackets
    rcases onePacket p t b c with ⟨r, c'⟩
    cases r with
    | ok i => intro h; simp only [List.length_cons]; have := ih c' h; omega
    | _ => intro h; simp

/-- if the packet after `ps` is shown then it was parsed in the context left by `ps` -/
theorem seqPackets_get (p : TagParser) (ps : List (Nat × Bytes)) (t : Nat) (b : Bytes) (qs : List (Nat × Bytes)) (c : Option Ctx) (i : Item)
    (h : (seqPackets p (ps ++ (t, b) :: qs) c).1[ps.length]? = some i) :
    (seqPackets p ps c).2.1 = .ok () ∧ ∃ c', onePacket p t b (seqPackets p ps c).2.2 = (.ok i, c') := by
  rw [seqPackets_append] at h
  have h1 := seqPackets_ok_length p ps c
  have h2 := seqPackets_cut_length p ps c
  rcases hs : seqPackets p ps c with ⟨is, r, c1⟩
  rw [hs] at h h1 h2
  by_cases hr : r = .ok ()
  · subst hr
    refine ⟨rfl, ?_⟩
    simp only [List.getElem?_append, h1 rfl, Nat.lt_irrefl, if_false, Nat.sub_self] at h
    unfold seqPackets at h
    rcases ho : onePacket p t b c1 with ⟨r, c'⟩
    rw [ho] at h
    cases r with
    | ok j => simp only [List.getElem?_cons_zero, Option.some.injEq] at h; subst h; exact ⟨c', rfl⟩
    | _ => simp at h
  · exfalso
    have h3 := h2 hr
    have : is[ps.length]? = some i := by
      cases r with
      | ok u => exact absurd rfl hr
      | _ => exact h
    rw [List.getElem?_eq_none (by simp only at h3; omega)] at this
    cases this

/-- C17, in terms of the input: in any packet sequence, whatever precedes and follows, an encrypted data packet after a packet with tag
1, 3, 9 or 18 and other packets (not signatures and compressed packets, which may contain packets of their own; see `C17_history`
for them) is shown with the kind of session key that this packet implies. `x` is any context. -/
theorem C17_sequence (X : Ext) (x : Option Ctx) {before between after : List (Nat × Bytes)} {t t' : Nat} {b b' : Bytes}
    (ht : t ∈ [1, 3, 9, 18]) (hb : ∀ p ∈ between, p.1 ∉ [1, 2, 3, 8, 9, 18]) (ht' : t' = 9 ∨ t' = 18) {a : Bytes}
    (hp : PacketSeq (before ++ (t, b) :: (between ++ (t', b') :: after)) a) (sched : List Nat) {i : Item}
    (hi : (parseSrc X x (Source.src ⟨a, rawErr .eof, sched⟩)).packets[before.length + 1 + between.length]? = some i) :
    ∃ k, i.items = [k] ∧
      (t' = 9 → k.value = if t = 1 then S "sym alg is specified in pub-key encrypted session key"
        else if t = 3 then S "sym alg is specified in sym-key encrypted session key" else S "sym alg is IDEA, simple string-to-key") ∧
      (t' = 18 → k.note = if t = 1 then S "plain text + MDC SHA1(20 bytes); sym alg is specified in pub-key encrypted session key"
        else if t = 3 then S "plain text + MDC SHA1(20 bytes); sym alg is specified in sym-key encrypted session key" else dec b'.length ++ S " bytes") := by
  rw [parseSrc_packetSeq X x hp] at hi
  have hl : before.length + 1 + between.length = (before ++ (t, b) :: between).length := by simp; omega
  have he : before ++ (t, b) :: (between ++ (t', b') :: after) = (before ++ (t, b) :: between) ++ (t', b') :: after := by simp
  rw [hl, he] at hi
  obtain ⟨hok, c', ho⟩ := seqPackets_get _ _ _ _ _ _ _ hi
  have hmode : ((seqPackets (packetsParse X) (before ++ (t, b) :: between) x).2.2).map Ctx.mode = some (modeAfter t) := by
    rw [seqPackets_append] at hok ⊢
    generalize seqPackets (packetsParse X) before x = q at hok ⊢
    rcases q with ⟨is, r, c1⟩
    cases r with
    | ok u =>
      simp only [seqPackets] at hok ⊢
      rcases hq : onePacket (packetsParse X) t b c1 with ⟨r, c2⟩
      rw [hq] at hok
      cases r with
      | ok j =>
        exact (seq_keeps_mode X hb c2).trans (sets_mode X ht b c1 hq)
      | _ => cases hok
    | _ => cases hok
  obtain ⟨k, hk, h9, h18⟩ := shows_mode X ht' b' _ hmode ho
  refine ⟨k, hk, fun e => (h9 e).trans ?_, fun e => (h18 e).trans ?_⟩ <;> unfold modeAfter
  · by_cases h1 : t = 1
    · rw [if_pos h1, if_pos h1]; rfl
    · rw [if_neg h1, if_neg h1]
      by_cases h3 : t = 3
      · rw [if_pos h3, if_pos h3]; rfl
      · rw [if_neg h3, if_neg h3]; rfl
  · by_cases h1 : t = 1
    · rw [if_pos h1, if_pos h1]; rfl
    · rw [if_neg h1, if_neg h1]
      by_cases h3 : t = 3
      · rw [if_pos h3, if_pos h3]; rfl
      · rw [if_neg h3, if_neg h3]; rfl

/-- C17: without any session-key packet before it, an encrypted data packet names none. -/
theorem C17_first (X : Ext) (sets : List (OptCode × Bool)) {between after : List (Nat × Bytes)} {t' : Nat} {b' : Bytes}
    (hb : ∀ p ∈ between, p.1 ∉ [1, 2, 3, 8, 9, 18]) (ht' : t' = 9 ∨ t' = 18) {a : Bytes}
    (hp : PacketSeq (between ++ (t', b') :: after) a) (sched : List Nat) {i : Item}
    (hi : (parseSrc X (some (Ctx.new sets)) (Source.src ⟨a, rawErr .eof, sched⟩)).packets[between.length]? = some i) :
    ∃ k, i.items = [k] ∧ (t' = 9 → k.value = S "sym alg is IDEA, simple string-to-key") ∧ (t' = 18 → k.note = dec b'.length ++ S " bytes") := by
  rw [parseSrc_packetSeq X _ hp] at hi
  obtain ⟨hok, c', ho⟩ := seqPackets_get _ _ _ _ _ _ _ hi
  have hmode : ((seqPackets (packetsParse X) between (some (Ctx.new sets))).2.2).map Ctx.mode = some .notSpecified :=
    (seq_keeps_mode X hb _).trans (by rw [Option.map_some, (C31_fresh_state sets).1])
  exact shows_mode X ht' b' _ hmode ho

/-- a public-key encrypted session key, a literal data packet, then encrypted data: "pub-key"; the second encrypted data packet names none -/
theorem C17_example :
    ((parseSrc Tests.X (some (Ctx.new [])) (Source.src ⟨[0xc1, 13, 3, 1, 2, 3, 4, 5, 6, 7, 8, 1, 0, 1, 1] ++ [0xcb, 6, 0x62, 0, 0, 0, 0, 0] ++
      [0xd2, 2, 1, 7] ++ [0xc9, 1, 5], rawErr .eof, []⟩)).packets.map (fun i => i.items.map fun k => (k.value, k.note)) |>.drop 2) =
    [[([], S "plain text + MDC SHA1(20 bytes); sym alg is specified in pub-key encrypted session key")],
     [(S "sym alg is IDEA, simple string-to-key", S "1 bytes")]] := by
  decide +kernel

/-! ## C19 -/

/-- a public key created at `t` -/
def keyAt (t : Bytes) : Bytes := [0xc6, 12, 4] ++ t ++ [1, 0, 1, 1, 0, 1, 1]
/-- a signature with these two hashed subpackets -/
def sigWith (s s' : Bytes) : Bytes := [0xc2, 25, 4, 0x13, 1, 2, 0, 12] ++ s ++ s' ++ [0, 0, 0xab, 0xcd, 0, 1, 1]
/-- the notes of the subpackets of the second packet -/
def subNotes (o : Outcome) : List Str := (o.packets.drop 1).flatMap fun i => i.items.flatMap fun k => k.items.map Item.note

/-- C19 is false: of two key expirations after the same key only the first is shown with a date. -/
theorem C19_used_up :
    (parseSrc Tests.X (some (Ctx.new [])) (Source.src ⟨keyAt [0x5e, 0, 0, 0] ++ sigWith [5, 9, 0, 1, 0x51, 0x80] [5, 9, 0, 2, 0xa3, 0], rawErr .eof, []⟩)).res = .ok () ∧
    subNotes (parseSrc Tests.X (some (Ctx.new [])) (Source.src ⟨keyAt [0x5e, 0, 0, 0] ++ sigWith [5, 9, 0, 1, 0x51, 0x80] [5, 9, 0, 2, 0xa3, 0], rawErr .eof, []⟩)) =
      [S "2019-12-23T23:45:04Z", []] := by
  decide +kernel

/-- C19 is false: after a key created at second 0 a key expiration is shown without a date. -/
theorem C19_second_0 :
    (parseSrc Tests.X (some (Ctx.new [])) (Source.src ⟨keyAt [0, 0, 0, 0] ++ sigWith [5, 9, 0, 1, 0x51, 0x80] [5, 9, 0, 2, 0xa3, 0], rawErr .eof, []⟩)).res = .ok () ∧
    subNotes (parseSrc Tests.X (some (Ctx.new [])) (Source.src ⟨keyAt [0, 0, 0, 0] ++ sigWith [5, 9, 0, 1, 0x51, 0x80] [5, 9, 0, 2, 0xa3, 0], rawErr .eof, []⟩)) =
      [[], []] := by
  decide +kernel

/-- C19 is false: a key created on 2106-02-07 that is valid for a day is shown to end in 1970. -/
theorem C19_wraps :
    (parseSrc Tests.X (some (Ctx.new [])) (Source.src ⟨keyAt [0xff, 0xff, 0xff, 0xff] ++ sigWith [5, 9, 0, 1, 0x51, 0x80] [5, 9, 0, 2, 0xa3, 0], rawErr .eof, []⟩)).res = .ok () ∧
    subNotes (parseSrc Tests.X (some (Ctx.new [])) (Source.src ⟨keyAt [0xff, 0xff, 0xff, 0xff] ++ sigWith [5, 9, 0, 1, 0x51, 0x80] [5, 9, 0, 2, 0xa3, 0], rawErr .eof, []⟩)) =
      [S "1970-01-01T23:59:59Z", []] := by
  decide +kernel

/-- the dates are relative to the most recent key: two keys, then a key expiration of one day -/
theorem C19_example :
    ((parseSrc Tests.X (some (Ctx.new [])) (Source.src ⟨keyAt [0x5e, 0, 0, 0] ++ keyAt [0x5f, 0, 0, 0] ++ sigWith [5, 9, 0, 1, 0x51, 0x80] [5, 2, 0x60, 0, 0, 0],
      rawErr .eof, []⟩)).packets.drop 2).flatMap (fun i => i.items.flatMap fun k => k.items.map Item.note) = [S "2020-07-05T04:05:20Z", []] := by
  decide +kernel

/-! ## C53 -/

theorem opts_new (sets : List (OptCode × Bool)) (code : OptCode) : (Ctx.new sets).opts code = (decide (code > 0) && lastSet sets code) :=
  C31_get sets code

theorem new_eq {sets sets' : List (OptCode × Bool)} (h : ∀ code : Int, 0 < code → lastSet sets code = lastSet sets' code) : Ctx.new sets = Ctx.new sets' := by
  obtain ⟨a1, a2, a3⟩ := C31_fresh_state sets
  obtain ⟨b1, b2, b3⟩ := C31_fresh_state sets'
  have ho : (Ctx.new sets).opts = (Ctx.new sets').opts := by
    funext code
    rw [opts_new, opts_new]
    by_cases hc : code > 0
    · rw [h code hc]
    · have h0 : decide (code > 0) = false := by simpa using hc
      rw [h0, Bool.false_and, Bool.false_and]
  rcases he : Ctx.new sets with ⟨o, m, s, k⟩
  rcases he' : Ctx.new sets' with ⟨o', m', s', k'⟩
  rw [he] at a1 a2 a3 ho
  rw [he'] at b1 b2 b3 ho
  simp only at a1 a2 a3 b1 b2 b3 ho
  rw [a1, a2, a3, b1, b2, b3, ho]

/-- C53: with a fresh context the outcome is a function of the options and the octets: the order in which the options were set, and
the way the reads split the octets, do not matter. -/
theorem C53_fresh (X : Ext) (sets sets' : List (OptCode × Bool)) (h : ∀ code : Int, 0 < code → lastSet sets code = lastSet sets' code) (d : Bytes) (tail : GoErr)
    (sched sched' : List Nat) : parse X (some (Ctx.new sets)) (some (Source.src ⟨d, tail, sched⟩)) = parse X (some (Ctx.new sets')) (some (Source.src ⟨d, tail, sched'⟩)) := by
  rw [new_eq h]
  exact C07_new X _ d tail sched sched'

/-- the mode after packets with these tags, starting with `m` -/
def modeOf (m : Mode) (tags : List Nat) : Mode := tags.foldl (fun m t => if t ∈ [1, 3, 9, 18] then modeAfter t else m) m

/-- all but the mode stays -/
def restOrder : CtxOrder where
  T c c' := c.map (fun x => { x with mode := .notSpecified }) = c'.map fun x => { x with mode := .notSpecified }
  refl _ := rfl
  trans := Eq.trans

theorem same_but_mode (X : Ext) {t : Nat} (h : t ∉ [2, 5, 6, 7, 8, 14]) (b : Bytes) (c : Option Ctx) {i : Item} {c' : Option Ctx}
    (ho : onePacket (packetsParse X) t b c = (.ok i, c')) :
    c' = c.map fun x => { x with mode := if t ∈ [1, 3, 9, 18] then modeAfter t else x.mode } := by
  simp only [List.mem_cons, List.not_mem_nil, or_false, not_or] at h
  obtain ⟨h2, h5, h6, h7, h8, h14⟩ := h
  have hr := (Moves.tagParse (O := restOrder) X (recur := parseTagF X b.length) (t := t) (b := b) (.tagBody X t (fun _ _ => rfl) (fun e => absurd e h2) (fun _ _ => rfl)
    (fun e => by rcases e with e | e | e | e <;> contradiction) (fun _ _ => rfl))).run ⟨c, Reader.new [], newItem []⟩
  have hc : (onePacket (packetsParse X) t b c).2 = c' := by rw [ho]
  have hr : c.map (fun x => ({ x with mode := .notSpecified } : Ctx)) = c'.map fun x => { x with mode := .notSpecified } := by
    rw [← hc]
    unfold onePacket
    rw [packetsParse_other X t b h8]
    exact hr
  have hmode : c'.map Ctx.mode = c.map fun x => if t ∈ [1, 3, 9, 18] then modeAfter t else x.mode := by
    by_cases ht : t ∈ [1, 3, 9, 18]
    · have := sets_mode X ht b c ho
      rw [this]
      cases c with
      | none => cases c' <;> cases hr; cases this
      | some x => simp [ht]
    · have := keeps_mode X (t := t) (by simp at ht ⊢; omega) b c
      rw [hc] at this
      rw [this]
      cases c <;> simp [ht]
  cases c with
  | none => cases c' <;> cases hr; rfl
  | some x =>
    cases c' with
    | none => cases hr
    | some y =>
      rcases x with ⟨o, m, s, k⟩
      rcases y with ⟨o', m', s', k'⟩
      simp only [Option.map_some, Option.some.injEq] at hr hmode ⊢
      injection hr with e1 e2 e3 e4
      subst e1 e3 e4
      rw [hmode]

/-- C53, the part that holds: parsing again with the same context gives the same result if the octets consist of packets other
than signatures, keys and compressed packets, and every session-key packet is followed by an encrypted data packet. (`ctx` is any
context that is not between a session-key packet and encrypted data, so this extends to any number of repetitions.) What is
missing is false: see `C53_reused_mode` and `C53_reused_time`. -/
theorem C53_reused_partial (X : Ext) (x : Ctx) (hx : x.mode = .notSpecified) {ps : List (Nat × Bytes)} (hp : ∀ p ∈ ps, p.1 ∉ [2, 5, 6, 7, 8, 14])
    (hm : modeOf .notSpecified (ps.map Prod.fst) = .notSpecified) {a : Bytes} (h : PacketSeq ps a) (sched sched' : List Nat)
    (hok : (parseSrc X (some x) (Source.src ⟨a, rawErr .eof, sched⟩)).res = .ok ()) :
    parseSrc X (parseSrc X (some x) (Source.src ⟨a, rawErr .eof, sched⟩)).ctx (Source.src ⟨a, rawErr .eof, sched'⟩) =
      parseSrc X (some x) (Source.src ⟨a, rawErr .eof, sched⟩) := by
  have key : ∀ (ps : List (Nat × Bytes)), (∀ p ∈ ps, p.1 ∉ [2, 5, 6, 7, 8, 14]) → ∀ x : Ctx, (seqPackets (packetsParse X) ps (some x)).2.1 = .ok () →
      (seqPackets (packetsParse X) ps (some x)).2.2 = some { x with mode := modeOf x.mode (ps.map Prod.fst) } := by
    intro ps
    induction ps with
    | nil => intro _ x _; rfl
    | cons p ps ih =>
      intro hp x hok
      obtain ⟨t, b⟩ := p
      unfold seqPackets at hok ⊢
      rcases ho : onePacket (packetsParse X) t b (some x) with ⟨r, c'⟩
      rw [ho] at hok
      cases r with
      | ok i =>
        have := same_but_mode X (hp (t, b) (by simp)) b _ ho
        subst this
        simp only [Option.map_some] at hok ⊢
        exact ih (fun p hq => hp p (by simp [hq])) _ hok
      | _ => cases hok
  rw [parseSrc_packetSeq X _ h] at hok ⊢
  rw [parseSrc_packetSeq X _ h]
  simp only at hok ⊢
  have := key ps hp x hok
  rw [hx, hm] at this
  have hx' : ({ x with mode := .notSpecified } : Ctx) = x := by rw [← hx]
  rw [hx'] at this
  rw [this]
  simp only [this]

/-- two encrypted messages, one after the other: parsing them again with the same context gives the same result -/
theorem C53_example : let input := Source.src ⟨[0xc3, 4, 4, 9, 0, 8] ++ ([0xd2, 2, 1, 5] ++ ([0xc1, 13, 3, 1, 2, 3, 4, 5, 6, 7, 8, 1, 0, 1, 1] ++ [0xc9, 1, 5])), rawErr .eof, []⟩
    let first := parseSrc Tests.X (some (Ctx.new [])) input
    first.res = .ok () ∧ first.packets.length = 4 ∧ parseSrc Tests.X first.ctx input = first := by
  have hok : (parseSrc Tests.X (some (Ctx.new [])) (Source.src ⟨[0xc3, 4, 4, 9, 0, 8] ++ ([0xd2, 2, 1, 5] ++ ([0xc1, 13, 3, 1, 2, 3, 4, 5, 6, 7, 8, 1, 0, 1, 1] ++ [0xc9, 1, 5])),
      rawErr .eof, []⟩)).res = .ok () := by decide +kernel
  refine ⟨hok, by decide +kernel, ?_⟩
  have h : PacketSeq [(3, [4, 9, 0, 8]), (18, [1, 5]), (1, [3, 1, 2, 3, 4, 5, 6, 7, 8, 1, 0, 1, 1]), (9, [5])]
      ([0xc3, 4, 4, 9, 0, 8] ++ ([0xd2, 2, 1, 5] ++ ([0xc1, 13, 3, 1, 2, 3, 4, 5, 6, 7, 8, 1, 0, 1, 1] ++ ([0xc9, 1, 5] ++ [])))) :=
    .cons (.new (by decide) (.last (.one (by decide)))) (.cons (.new (by decide) (.last (.one (by decide)))) (.cons (.new (by decide) (.last (.one (by decide)))) (.cons (.new (by decide) (.last (.one (by decide)))) .nil)))
  exact C53_reused_partial Tests.X (Ctx.new []) rfl (by decide) (by decide) h [] [] hok

/-- C53 is false: parsed twice with the same context, the encrypted data packet is attributed to a session-key packet that follows it. -/
theorem C53_reused_mode :
    let input := Source.src ⟨[0xc9, 1, 5] ++ [0xc3, 4, 4, 9, 0, 8], rawErr .eof, []⟩
    let first := parseSrc Tests.X (some (Ctx.new [])) input
    first.res = .ok () ∧ (parseSrc Tests.X first.ctx input).res = .ok () ∧
    (first.packets.head?.map fun i => i.items.map Item.value) = some [S "sym alg is IDEA, simple string-to-key"] ∧
    ((parseSrc Tests.X first.ctx input).packets.head?.map fun i => i.items.map Item.value) = some [S "sym alg is specified in sym-key encrypted session key"] := by
  decide +kernel

/-- C53 is false: parsed twice with the same context, the key expiration in front of the key gets a date. -/
theorem C53_reused_time :
    let input := Source.src ⟨sigWith [5, 9, 0, 1, 0x51, 0x80] [5, 9, 0, 2, 0xa3, 0] ++ keyAt [0x5e, 0, 0, 0], rawErr .eof, []⟩
    let first := parseSrc Tests.X (some (Ctx.new [])) input
    let notes (o : Outcome) : List Str := o.packets.flatMap fun i => i.items.flatMap fun k => k.items.map Item.note
    first.res = .ok () ∧ (parseSrc Tests.X first.ctx input).res = .ok () ∧ notes first = [[], []] ∧
    notes (parseSrc Tests.X first.ctx input) = [S "2019-12-23T23:45:04Z", []] := by
  decide +kernel

end Gpgpdump
