import Verif.CountTags
import Verif.ThmNew
import Verif.ThmHeader
import Verif.ThmCompressed

/-!
# C54: the size of the result
-/

namespace Gpgpdump
open P Spec

/-- the name of the items of compressed packets -/
def Spec.compressedName : Str := "Compressed Data Packet (tag 8)".toList

/-- the items that are not of compressed packets -/
def Spec.others (l : List Item) : List Item := l.filter fun i => decide (i.name ≠ compressedName)

theorem tagStr_8 : tagStr 8 = compressedName := by decide +kernel

theorem others_append (a b : List Item) : others (a ++ b) = others a ++ others b := by simp [others]

theorem forPackets_count (X : Ext) (f : Nat) (src : Src) (st : St) :
    itemsAll (others (forPackets X (packetsParse X) f src st).2.cur.items) ≤ itemsAll (others st.cur.items) + 32 * src.data.length := by
  induction f generalizing src st with
  | zero => exact Nat.le_add_right _ _
  | succ f ih =>
    rw [forPackets]
    generalize he : nextPacket X src = q
    rcases q with ⟨e | ⟨tag, body⟩, src'⟩
    · dsimp only
      split <;> exact Nat.le_add_right _ _
    · dsimp only
      have hl := nextPacket_length he
      rw [bind_run]
      have hc : (packetsParse X tag body st).2.cur = st.cur := by rw [packetsParse_scoped X tag body st]
      have hi : ∀ i, (packetsParse X tag body st).1 = .ok i → itemsAll (others [i]) ≤ 32 + 32 * body.length := by
        intro i hi
        by_cases h8 : tag = 8
        · subst h8
          have : (onePacket (packetsParse X) 8 body st.ctx).1 = .ok i := by
            rw [packetsParse_scoped X 8 body st] at hi; exact hi
          obtain ⟨l, hl⟩ := onePacket_header X (c := (onePacket (packetsParse X) 8 body st.ctx).2) (by rw [← this])
          have hn : i.name = compressedName := by rw [hl, Item.addAll_name, ← tagStr_8]; rfl
          simp [others, hn, itemsAll]
        · have h1 := ((Gives.parseTag (X := X) tag body).run st).2.2 i (by rw [packetsParse_other X tag body h8] at hi; exact hi)
          unfold others
          rw [List.filter_cons]
          split
          · rw [List.filter_nil, itemsAll_one]; exact h1
          · simp [itemsAll]
      generalize packetsParse X tag body st = q at hc hi ⊢
      rcases q with ⟨r, s⟩
      simp only at hc hi
      cases r with
      | ok i =>
        have h1 := ih src' { s with cur := s.cur.add i }
        have h2 : itemsAll (others (s.cur.add i).items) = itemsAll (others st.cur.items) + itemsAll (others [i]) := by
          rw [show (s.cur.add i).items = st.cur.items ++ [i] by rw [hc]; rfl, others_append, itemsAll_append]
        have h3 := hi i rfl
        simp only at h1 ⊢
        rw [h2] at h1
        change itemsAll (others (forPackets X (packetsParse X) f src' { s with cur := s.cur.add i }).2.cur.items) ≤ _
        omega
      | _ => simp only [hc]; omega

/-- C54: the items of the packets that are not compressed, whatever follows them, are at most 32 times as many as the input octets. -/
theorem C54_items (X : Ext) (ctx : Option Ctx) (src : Src) : itemsAll (others (parseSrc X ctx src).packets) ≤ 32 * src.data.length := by
  have := forPackets_count X (src.data.length + 1) src ⟨ctx, Reader.new [], newItem []⟩
  simpa [parseSrc, newItem, Item.items, others, itemsAll] using this

theorem others_all {l : List Item} (h : ∀ i ∈ l, i.name ≠ compressedName) : others l = l := by
  unfold others
  rw [List.filter_eq_self]
  intro i hi
  simpa using h i hi

/-- C54: without compressed packets the result has at most 32 items per octet. -/
theorem C54_result (X : Ext) (ctx : Option Ctx) (src : Src) (h : ∀ i ∈ (parseSrc X ctx src).packets, i.name ≠ compressedName) :
    itemsAll (parseSrc X ctx src).packets ≤ 32 * src.data.length := by
  have := C54_items X ctx src
  rwa [others_all h] at this

/-- C54 for `New` and `Parse`: the octets of the input or of the armor block, whichever are more, bound the result. -/
theorem C54_new (X : Ext) (ctx : Option Ctx) (s : Source) (n : Nat) (hn : ∀ t b, X.armor t = .ok b → b.data.length ≤ n)
    (h : ∀ i ∈ (parse X ctx (some s.src)).packets, i.name ≠ compressedName) :
    itemsAll (parse X ctx (some s.src)).packets ≤ 32 * max s.data.length n := by
  unfold parse at h ⊢
  cases hp : parserNew X ctx (some s.src) with
  | error e => simp [itemsAll]
  | ok src =>
    simp only [hp] at h ⊢
    have h1 := C54_result X ctx src h
    have h2 : src.data.length ≤ max s.data.length n := by
      rcases parserNew_ok hp with ⟨t, b, hb, rfl⟩ | ⟨k, rfl⟩
      · have := hn t b hb
        simp only [Src.ofStream]; omega
      · simp only [Src.ofBytes, List.length_take]; omega
    have := Nat.mul_le_mul_left 32 h2
    omega

theorem seqPackets_count (X : Ext) {ps : List (Nat × Bytes)} {d : Bytes} (h : PacketSeq ps d) (c : Option Ctx) :
    itemsAll (seqPackets (parseTag X) ps c).1 ≤ 32 * d.length := by
  have one : ∀ (t : Nat) (b : Bytes) (ps : List (Nat × Bytes)) (n : Nat) (c : Option Ctx), (∀ c, itemsAll (seqPackets (parseTag X) ps c).1 ≤ 32 * n) →
      itemsAll (seqPackets (parseTag X) ((t, b) :: ps) c).1 ≤ 32 * (b.length + 1 + n) := by
    intro t b ps n c ih
    rw [seqPackets]
    have h1 := ((Gives.parseTag (X := X) t b).run ⟨c, Reader.new [], newItem []⟩).2.2
    unfold onePacket
    generalize parseTag X t b ⟨c, Reader.new [], newItem []⟩ = q at h1
    rcases q with ⟨r, s⟩
    cases r with
    | ok i =>
      have := h1 i rfl
      have := ih s.ctx
      simp only [itemsAll]
      omega
    | _ => simp [itemsAll]
  induction h generalizing c with
  | nil => simp [seqPackets, itemsAll]
  | @cons tag body ps enc inp he _ ih =>
    have := one tag body ps inp.length c ih
    have := he.length_lt
    rw [List.length_append]
    omega
  | @toEnd tag body enc he =>
    have := one tag body [] 0 c (by simp [seqPackets, itemsAll])
    cases he
    simp only [List.length_cons]
    omega

/-- C54, with a compressed packet: it adds at most 32 items per octet it unpacks to. -/
theorem C54_compressed (X : Ext) (c : Option Ctx) {body z enc : Bytes} {ps : List (Nat × Bytes)} (he : Encodes 8 body enc) (hu : Unpacks X body z) (hp : PacketSeq ps z)
    (sched : List Nat) (h : (parseSrc X c (Source.src ⟨enc, rawErr .eof, sched⟩)).res = .ok ()) :
    itemsAll (parseSrc X c (Source.src ⟨enc, rawErr .eof, sched⟩)).packets ≤ 3 + 32 * z.length := by
  obtain ⟨-, -, h3⟩ := C20_expand X c he hu hp sched
  obtain ⟨i, hi, -, -, f1, f2, hf, -, h1, -, h2⟩ := h3 h
  rw [hi, itemsAll_one, items_eq, hf]
  have := seqPackets_count X hp c
  simp only [itemsAll, items_leaf h1, items_leaf h2]
  omega

/-- 6 items for 11 octets -/
theorem C54_example : itemsAll (parseBytes Tests.X none [0xcd, 0x02, 0x41, 0x42, 0xca, 0x03, 0x50, 0x47, 0x50, 0xb0, 0x00]).packets = 6 ∧
    ∀ i ∈ (parseBytes Tests.X none [0xcd, 0x02, 0x41, 0x42, 0xca, 0x03, 0x50, 0x47, 0x50, 0xb0, 0x00]).packets, i.name ≠ compressedName := by
  decide +kernel

end Gpgpdump
