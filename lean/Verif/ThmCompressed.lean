import Verif.ThmParse
import Verif.Unpack

/-!
# C20, C21: compressed packets
-/

namespace Gpgpdump
open Spec P

/-- the item of a compressed packet before its own fields are added -/
abbrev packedHead (body : Bytes) (d : Bool) : Item := tagItem 8 body d

theorem compressed_run (X : Ext) (x : UInt8) (zd : Bytes) (hz : zd ≠ []) (c : Option Ctx) :
    let o := packedOut X x zd (ctxFlag Ctx.debug c) ((packedHead (x :: zd) (ctxFlag Ctx.debug c)).add (compItem x (ctxFlag Ctx.debug c)))
    (compressed X (x :: zd) ⟨c, Reader.new [], newItem []⟩).1 = o.1.map (fun data => (o.2, data)) ∧
    (compressed X (x :: zd) ⟨c, Reader.new [], newItem []⟩).2.ctx = c := by
  intro o
  have h := tag08_run X c (tagItem 8 (x :: zd) (ctxFlag (tagDumpFlag 8) c)) x zd hz
  have e : (⟨c, Reader.new (x :: zd), tagItem 8 (x :: zd) (ctxFlag (tagDumpFlag 8) c)⟩ : St) =
      St.at c [] (x :: zd) (tagItem 8 (x :: zd) (ctxFlag (tagDumpFlag 8) c)) := rfl
  unfold compressed
  rw [tagScope_run, scope_run, bind_run]
  revert h
  generalize tag08 X (St.at c [] (x :: zd) (tagItem 8 (x :: zd) (ctxFlag (tagDumpFlag 8) c))) = t
  intro h
  obtain ⟨h1, h2, h3⟩ := h
  have h1' : t.1 = o.1 := h1
  have h2' : t.2.cur = o.2 := h2
  rw [← h1', ← h2']
  obtain ⟨r, s⟩ := t
  cases r with
  | ok a => exact ⟨rfl, h3⟩
  | err a => exact ⟨rfl, h3⟩
  | panic a => exact ⟨rfl, h3⟩
  | stuck => exact ⟨rfl, h3⟩

theorem onePacket_8 (X : Ext) (body : Bytes) (c : Option Ctx) : onePacket (packetsParse X) 8 body c =
    expand X (compressed X body ⟨c, Reader.new [], newItem []⟩).2.ctx (compressed X body ⟨c, Reader.new [], newItem []⟩).1 := by
  unfold onePacket
  rw [packetsParse_8]

theorem parseSrc_one (X : Ext) (c : Option Ctx) {tag : Nat} {body enc : Bytes} (he : Encodes tag body enc) (sched : List Nat) :
    parseSrc X c (Source.src ⟨enc, rawErr .eof, sched⟩) =
      match onePacket (packetsParse X) tag body c with
      | (.ok i, c') => ⟨[i], .ok (), c'⟩
      | (.err e, c') => ⟨[], .err e, c'⟩
      | (.panic s, c') => ⟨[], .panic s, c'⟩
      | (.stuck, c') => ⟨[], .stuck, c'⟩ := by
  rw [parseSrc_closed X c (closed_single he)]
  simp only [seqPackets]
  rcases onePacket (packetsParse X) tag body c with ⟨r, c'⟩
  cases r <;> rfl

/-- the packet's own fields -/
def packedFields (body : Bytes) (d : Bool) : List Item :=
  match body with
  | [] => []
  | [x] => [compItem x d]
  | x :: zd => [compItem x d, packedItem zd d]

theorem onePacket_packed (X : Ext) (c : Option Ctx) {body z : Bytes} {ps : List (Nat × Bytes)} (hu : Unpacks X body z)
    (hp : PacketSeq ps z) : onePacket (packetsParse X) 8 body c =
      ((seqPackets (parseTag X) ps c).2.1.map (fun _ => (packedHead body (ctxFlag Ctx.debug c)).addAll
        (packedFields body (ctxFlag Ctx.debug c) ++ (seqPackets (parseTag X) ps c).1)), (seqPackets (parseTag X) ps c).2.2) := by
  obtain ⟨x, zd, rfl, hz⟩ : ∃ x zd, body = x :: zd ∧ zd ≠ [] := by
    cases hu <;> exact ⟨_, _, rfl, by assumption⟩
  have hr : unpackRes X x zd = .ok z := (unpackRes_ok hz).mpr (.inl hu)
  obtain ⟨h1, h2⟩ := compressed_run X x zd hz c
  rw [onePacket_8, h1, h2]
  unfold packedOut
  rw [hr]
  simp only [Res.map, expand]
  rw [loopEnd_packetSeq hp]
  have ht : thenErr (seqPackets (parseTag X) ps c) none = seqPackets (parseTag X) ps c := by
    unfold thenErr
    split
    · rename_i h; cases h
    · rfl
  simp only [ht]
  have hf : packedFields (x :: zd) (ctxFlag Ctx.debug c) = [compItem x (ctxFlag Ctx.debug c), packedItem zd (ctxFlag Ctx.debug c)] := by
    cases zd with
    | nil => exact absurd rfl hz
    | cons => rfl
  rw [hf]
  have ha : ∀ (i a b : Item) (l : List Item), ((i.add a).add b).addAll l = i.addAll ([a, b] ++ l) := by
    intro i a b l
    simp [Item.add, Item.addAll, Item.name, Item.value, Item.dump, Item.note, Item.items]
  simp only [ha]

theorem seqPackets_length (p : TagParser) (ps : List (Nat × Bytes)) (c : Option Ctx) (h : (seqPackets p ps c).2.1 = .ok ()) :
    (seqPackets p ps c).1.length = ps.length := by
  induction ps generalizing c with
  | nil => rfl
  | cons q ps ih =>
    revert h
    simp only [seqPackets]
    rcases onePacket p q.1 q.2 c with ⟨r, c'⟩
    cases r with
    | ok i => intro h; simp only [List.length_cons]; rw [ih c' h]
    | _ => intro h; cases h

/-! ## C20 -/

/-- C20: the item of a compressed packet whose data unpacks to the packets `ps`: header, own fields, then the items of the inner
packets, each parsed (without unpacking) in the context left by its predecessors; the result is that of the inner packets, so an
inner error makes `Parse` fail. -/
theorem C20_expand (X : Ext) (c : Option Ctx) {body z enc : Bytes} {ps : List (Nat × Bytes)} (he : Encodes 8 body enc)
    (hu : Unpacks X body z) (hp : PacketSeq ps z) (sched : List Nat) :
    let o := parseSrc X c (Source.src ⟨enc, rawErr .eof, sched⟩)
    let q := seqPackets (parseTag X) ps c
    o.res = q.2.1 ∧ o.ctx = q.2.2 ∧
      (o.res = .ok () → ∃ i, o.packets = [i] ∧ i.name = "Compressed Data Packet (tag 8)".toList ∧ q.1.length = ps.length ∧
        ∃ f1 f2, i.items = f1 :: f2 :: q.1 ∧ f1.name = "Compression Algorithm".toList ∧ f1.items = [] ∧
          f2.name = "Compressed data".toList ∧ f2.items = []) := by
  intro o q
  have ho : o = _ := parseSrc_one X c he sched
  rw [onePacket_packed X c hu hp] at ho
  obtain ⟨x, zd, rfl, hz⟩ : ∃ x zd, body = x :: zd ∧ zd ≠ [] := by
    cases hu <;> exact ⟨_, _, rfl, by assumption⟩
  have hf : packedFields (x :: zd) (ctxFlag Ctx.debug c) = [compItem x (ctxFlag Ctx.debug c), packedItem zd (ctxFlag Ctx.debug c)] := by
    cases zd with
    | nil => exact absurd rfl hz
    | cons => rfl
  rw [ho, hf]
  have hlen : q.2.1 = .ok () → q.1.length = ps.length := seqPackets_length _ ps c
  revert hlen
  simp only [q]
  generalize seqPackets (parseTag X) ps c = q
  intro hlen
  obtain ⟨l, r, c'⟩ := q
  cases r with
  | ok u => exact ⟨rfl, rfl, fun _ => ⟨_, rfl, (by decide +kernel : tagStr 8 = _), hlen rfl, _, _, rfl, rfl, rfl, rfl, rfl⟩⟩
  | err => exact ⟨rfl, rfl, fun h => by cases h⟩
  | panic => exact ⟨rfl, rfl, fun h => by cases h⟩
  | stuck => exact ⟨rfl, rfl, fun h => by cases h⟩

theorem seqPackets_no8 (X : Ext) {ps : List (Nat × Bytes)} (h : ∀ p ∈ ps, p.1 ≠ 8) (c : Option Ctx) :
    seqPackets (parseTag X) ps c = seqPackets (packetsParse X) ps c := by
  induction ps generalizing c with
  | nil => rfl
  | cons p ps ih =>
    have ho : onePacket (packetsParse X) p.1 p.2 c = onePacket (parseTag X) p.1 p.2 c := by
      unfold onePacket; rw [packetsParse_other X p.1 p.2 (h p List.mem_cons_self)]
    simp only [seqPackets, ho, ih (fun q hq => h q (List.mem_cons_of_mem _ hq))]

/-- C20: when no inner packet is compressed, the inner items, the result and the context are those of parsing the unpacked data
on its own. -/
theorem C20_same_as_unpacked (X : Ext) (c : Option Ctx) {body z enc : Bytes} {ps : List (Nat × Bytes)} (he : Encodes 8 body enc)
    (hu : Unpacks X body z) (hp : PacketSeq ps z) (h8 : ∀ p ∈ ps, p.1 ≠ 8) (sched sched' : List Nat) :
    let o := parseSrc X c (Source.src ⟨enc, rawErr .eof, sched⟩)
    let q := parseSrc X c (Source.src ⟨z, rawErr .eof, sched'⟩)
    o.res = q.res ∧ o.ctx = q.ctx ∧ (o.res = .ok () → ∃ i, o.packets = [i] ∧ i.items.drop 2 = q.packets) := by
  intro o q
  obtain ⟨h1, h2, h3⟩ := C20_expand X c he hu hp sched
  have hq : q = _ := parseSrc_eq X c (Source.src ⟨z, rawErr .eof, sched'⟩) (Source.isLazy _) rfl
  rw [show (Source.src ⟨z, rawErr .eof, sched'⟩).data = z from rfl, show (Source.src ⟨z, rawErr .eof, sched'⟩).tail = rawErr .eof from rfl,
    loopEnd_packetSeq hp, ← seqPackets_no8 X h8 c] at hq
  have ht : thenErr (seqPackets (parseTag X) ps c) none = seqPackets (parseTag X) ps c := by
    unfold thenErr
    split
    · rename_i h; cases h
    · rfl
  simp only [ht] at hq
  rw [hq]
  refine ⟨h1, h2, fun h => ?_⟩
  obtain ⟨i, h4, -, -, f1, f2, h5, -⟩ := h3 h
  exact ⟨i, h4, by rw [h5]; rfl⟩

/-- C20: an inner packet other than a compressed one gives exactly the item it has on its own. -/
theorem C20_inner_item (X : Ext) (c : Option Ctx) {tag : Nat} {body enc : Bytes} (he : Encodes tag body enc) (h8 : tag ≠ 8)
    (ps : List (Nat × Bytes)) (sched : List Nat) :
    let o := parseSrc X c (Source.src ⟨enc, rawErr .eof, sched⟩)
    let q := seqPackets (parseTag X) ((tag, body) :: ps) c
    (o.res = .ok () → q = (o.packets ++ (seqPackets (parseTag X) ps o.ctx).1, (seqPackets (parseTag X) ps o.ctx).2)) ∧
    (o.res ≠ .ok () → q = ([], o.res, o.ctx)) := by
  intro o q
  have ho : o = _ := parseSrc_one X c he sched
  have hp : onePacket (packetsParse X) tag body c = onePacket (parseTag X) tag body c := by
    unfold onePacket; rw [packetsParse_other X tag body h8]
  rw [hp] at ho
  rw [ho]
  simp only [q, seqPackets]
  rcases onePacket (parseTag X) tag body c with ⟨r, c'⟩
  cases r with
  | ok i => exact ⟨fun _ => rfl, fun h => absurd rfl h⟩
  | err => exact ⟨fun h => (by cases h), fun _ => rfl⟩
  | panic => exact ⟨fun h => (by cases h), fun _ => rfl⟩
  | stuck => exact ⟨fun h => (by cases h), fun _ => rfl⟩

theorem onePacket_parse8 (X : Ext) (body : Bytes) (c : Option Ctx) : onePacket (parseTag X) 8 body c =
    ((compressed X body ⟨c, Reader.new [], newItem []⟩).1.map (·.1), (compressed X body ⟨c, Reader.new [], newItem []⟩).2.ctx) := by
  unfold onePacket compressed
  rw [parseTag_run, tagBody_8, tagScope_run, scope_run, scope_run, bind_run, bind_run]
  have e : (⟨c, Reader.new body, tagItem 8 body (ctxFlag (tagDumpFlag 8) c)⟩ : St) =
      St.at c [] body (tagItem 8 body (ctxFlag (tagDumpFlag 8) c)) := rfl
  simp only
  rw [bind_run]
  generalize tag08 X _ = t
  rcases t with ⟨r, s⟩
  cases r <;> rfl


/-- C20: an inner compressed packet is not expanded: its item has at most its own two fields, and no inner items; the context stays. -/
theorem C20_not_again (X : Ext) (c : Option Ctx) (body : Bytes) (ps : List (Nat × Bytes)) :
    let q := seqPackets (parseTag X) ((8, body) :: ps) c
    (∃ i, q = (i :: (seqPackets (parseTag X) ps c).1, (seqPackets (parseTag X) ps c).2) ∧
      i.name = "Compressed Data Packet (tag 8)".toList ∧ i.items.length ≤ 2 ∧
      ∀ f ∈ i.items, f.items = [] ∧ (f.name = "Compression Algorithm".toList ∨ f.name = "Compressed data".toList)) ∨
    (∃ e, q = ([], .err e, c)) := by
  intro q
  have hq : q = seqPackets (parseTag X) ((8, body) :: ps) c := rfl
  rw [seqPackets, onePacket_parse8] at hq
  have hname : ∀ (b : Bytes) (d l), ((tagItem 8 b d).addAll l).name = "Compressed Data Packet (tag 8)".toList := by
    intro b d l; exact (by decide +kernel : tagStr 8 = "Compressed Data Packet (tag 8)".toList)
  rw [hq]
  match body with
  | [] =>
    have h' : compressed X [] ⟨c, Reader.new [], newItem []⟩ = (.err (rawErr .eof).wrap, ⟨c, Reader.new [], newItem []⟩) := by
      unfold compressed
      rw [tagScope_run, scope_run, bind_run, tag08_eq, bind_run]
      have : readByte (St.at c [] [] (tagItem 8 [] (ctxFlag (tagDumpFlag 8) c))) = _ := readByte_nil ..
      simp only [this]
      rfl
    rw [h']
    exact .inr ⟨_, rfl⟩
  | [x] =>
    have h' : compressed X [x] ⟨c, Reader.new [], newItem []⟩ = (.ok ((tagItem 8 [x] (ctxFlag Ctx.debug c)).addAll [compItem x (ctxFlag Ctx.debug c)], some []),
        ⟨c, Reader.new [], newItem []⟩) := by
      unfold compressed
      rw [tagScope_run, scope_run, bind_run]
      have : tag08 X (St.at c [] [x] (tagItem 8 [x] (ctxFlag (tagDumpFlag 8) c))) = _ := tag08_one ..
      simp only [this]
      rfl
    rw [h']
    refine .inl ⟨_, rfl, hname _ _ _, Nat.le_of_ble_eq_true rfl, ?_⟩
    intro f hf
    rw [Item.addAll_items] at hf
    cases List.mem_singleton.mp hf
    exact ⟨rfl, .inl rfl⟩
  | x :: y :: zd =>
    obtain ⟨h1, h2⟩ := compressed_run X x (y :: zd) (by simp) c
    rw [h1, h2]
    have key : ∀ (v : Item), v.items = [] → v.name = "Compressed data".toList →
        let i := ((packedHead (x :: y :: zd) (ctxFlag Ctx.debug c)).add (compItem x (ctxFlag Ctx.debug c))).add v
        i.name = "Compressed Data Packet (tag 8)".toList ∧ i.items.length ≤ 2 ∧
        ∀ f ∈ i.items, f.items = [] ∧ (f.name = "Compression Algorithm".toList ∨ f.name = "Compressed data".toList) := by
      intro v hv hn
      refine ⟨hname _ _ _, Nat.le_of_ble_eq_true rfl, ?_⟩
      intro f hf
      have hf : f ∈ [compItem x (ctxFlag Ctx.debug c), v] := hf
      simp only [List.mem_cons, List.not_mem_nil, or_false] at hf
      rcases hf with rfl | rfl
      · exact ⟨rfl, .inl rfl⟩
      · exact ⟨hv, .inr hn⟩
    unfold packedOut
    cases unpackRes X x (y :: zd) with
    | ok d => exact .inl ⟨_, rfl, key _ rfl rfl⟩
    | error e =>
      by_cases ht : e.cause = .tooLarge
      · simp only [if_pos ht]
        exact .inl ⟨_, rfl, key _ rfl rfl⟩
      · simp only [if_neg ht]
        exact .inr ⟨_, rfl⟩

/-- stored data that is itself a stored compressed packet around a user ID -/
example (X : Ext) : Unpacks X [0, 0xc8, 4, 0, 0xcd, 1, 0x41] [0xc8, 4, 0, 0xcd, 1, 0x41] ∧
    PacketSeq [(8, [0, 0xcd, 1, 0x41])] [0xc8, 4, 0, 0xcd, 1, 0x41] := by
  refine ⟨.stored (by simp), ?_⟩
  exact packetSeq_iff.mpr (.inl rfl)

/-! ## C21 -/

namespace Spec

/-- the body of a compressed packet (algorithms 1 to 3) whose decompressor yields 1 GiB or more -/
inductive Bomb (X : Ext) : Bytes → Prop
  | zip {zd} : zd ≠ [] → 2 ^ 30 ≤ (X.flate zd).data.length → Bomb X (1 :: zd)
  | zlib {zd z} : zd ≠ [] → X.zlib zd = .ok z → 2 ^ 30 ≤ z.data.length → Bomb X (2 :: zd)
  | bzip2 {zd} : zd ≠ [] → 2 ^ 30 ≤ (X.bzip2 zd).data.length → Bomb X (3 :: zd)

end Spec

theorem copyFrom_large {z : Stream} (h : 2 ^ 30 ≤ z.data.length) : ∃ e, copyFrom z = .error e ∧ e.cause = .tooLarge := by
  unfold copyFrom maxDecompressionDataSize
  rw [if_pos (by omega)]
  exact ⟨_, rfl, rfl⟩

/-- C21: a compressed packet whose decompressor yields 1 GiB or more, in front of any further data: nothing of what it yields is
parsed, its item has only its own two fields, the second flagged, and parsing continues with the further data in the same context. -/
theorem C21_flagged (X : Ext) (c : Option Ctx) {body enc : Bytes} (he : Encodes 8 body enc) (hb : Bomb X body) (rest : Bytes)
    (tail : GoErr) (sched : List Nat) :
    let q := parseSrc X c (Source.src ⟨rest, tail, sched⟩)
    ∃ i f1 f2, parseSrc X c (Source.src ⟨enc ++ rest, tail, sched⟩) = ⟨i :: q.packets, q.res, q.ctx⟩ ∧ i.items = [f1, f2] ∧
      f1.name = "Compression Algorithm".toList ∧ f1.items = [] ∧
      f2.name = "Compressed data".toList ∧ f2.value = "<too laege decompressed data>".toList ∧ f2.items = [] := by
  intro q
  obtain ⟨x, zd, rfl, hz, e, hu, ht⟩ : ∃ x zd, body = x :: zd ∧ zd ≠ [] ∧ ∃ e, unpackRes X x zd = .error e ∧ e.cause = .tooLarge := by
    cases hb with
    | zip hz h => exact ⟨_, _, rfl, hz, copyFrom_large h⟩
    | zlib hz hez h =>
      refine ⟨_, _, rfl, hz, ?_⟩
      obtain ⟨e, h1, h2⟩ := copyFrom_large h
      refine ⟨e, ?_, h2⟩
      change (match X.zlib _ with | .error e => Except.error e.wrap | .ok z => copyFrom z) = _
      rw [hez]; exact h1
    | bzip2 hz h => exact ⟨_, _, rfl, hz, copyFrom_large h⟩
  have h1 : parseSrc X c (Source.src ⟨enc, rawErr .eof, sched⟩) = _ := parseSrc_one X c he sched
  obtain ⟨ha, hb⟩ := compressed_run X x zd hz c
  rw [onePacket_8, ha, hb] at h1
  unfold packedOut at h1
  rw [hu] at h1
  simp only [if_pos ht, Res.map, expand] at h1
  have := C03_append X c (closed_single he) rest tail sched sched sched (by rw [h1])
  rw [h1] at this
  exact ⟨_, _, _, this, rfl, rfl, rfl, rfl, rfl, rfl⟩

/-- C21: of what a decompressor yields beyond the first GiB nothing matters, not even how it ends: the outcome of the compressed
packet is the same for any other decompressors that yield the same first GiB. -/
theorem C21_rest_ignored (X X' : Ext)
    (hf : ∀ zd, (X.flate zd) = (X'.flate zd) ∨
      (X.flate zd).data.take (2 ^ 30) = (X'.flate zd).data.take (2 ^ 30) ∧ 2 ^ 30 ≤ (X.flate zd).data.length)
    (hb : ∀ zd, (X.bzip2 zd) = (X'.bzip2 zd) ∨
      (X.bzip2 zd).data.take (2 ^ 30) = (X'.bzip2 zd).data.take (2 ^ 30) ∧ 2 ^ 30 ≤ (X.bzip2 zd).data.length)
    (hz : ∀ zd, X.zlib zd = X'.zlib zd ∨ ∃ s s', X.zlib zd = .ok s ∧ X'.zlib zd = .ok s' ∧
      s.data.take (2 ^ 30) = s'.data.take (2 ^ 30) ∧ 2 ^ 30 ≤ s.data.length) :
    tag08 X = tag08 X' := by
  have hc : ∀ s s' : Stream, s = s' ∨ s.data.take (2 ^ 30) = s'.data.take (2 ^ 30) ∧ 2 ^ 30 ≤ s.data.length → copyFrom s = copyFrom s' := by
    rintro s s' (rfl | ⟨h1, h2⟩)
    · rfl
    · have h3 : 2 ^ 30 ≤ s'.data.length := by
        have := congrArg List.length h1
        rw [List.length_take, List.length_take] at this
        omega
      unfold copyFrom maxDecompressionDataSize
      rw [if_pos (by omega), if_pos (by omega)]
  have hu : ∀ x zd, unpackRes X x zd = unpackRes X' x zd := by
    intro x zd
    unfold unpackRes
    split
    · rfl
    · exact hc _ _ (hf zd)
    · rcases hz zd with h | ⟨s, s', h1, h2, h3⟩
      · rw [h]
      · rw [h1, h2]
        exact hc _ _ (.inr h3)
    · exact hc _ _ (hb zd)
    · rfl
  have ht : tail08 X = tail08 X' := by
    funext x d r
    unfold tail08
    simp only [hu]
  rw [tag08_eq, tag08_eq, ht]

/-- C21: what is handed on for parsing is shorter than 1 GiB, unless it was stored uncompressed in the packet. -/
theorem C21_kept (X : Ext) (c : Option Ctx) (j : Item) (x : UInt8) (zd z : Bytes) (h : (tag08 X (St.at c [] (x :: zd) j)).1 = .ok (some z)) :
    z.length < 2 ^ 30 ∨ (x = 0 ∧ z = zd) := by
  rcases tag08_data X c j (x :: zd) _ h z rfl with rfl | hu
  · left; decide
  · cases hu with
    | stored => exact .inr ⟨rfl, rfl⟩
    | zip _ h' => exact .inl h'
    | zlib _ _ h' => exact .inl h'
    | bzip2 _ h' => exact .inl h'

/-- a decompressor that yields 1 GiB of zeros -/
example : ∃ X : Ext, Bomb X [1, 0] :=
  ⟨{ Tests.X with flate := fun _ => { (Tests.X.flate []) with data := List.replicate (2 ^ 30) 0 } }, .zip (by simp) (by rw [List.length_replicate]; exact Nat.le_refl _)⟩

end Gpgpdump
