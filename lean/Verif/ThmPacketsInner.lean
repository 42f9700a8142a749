import Verif.ThmPacketsApi
import Verif.ThmCompressed
import Verif.RelParse
import Verif.SpecAccept

/-!
# C76: what `Packets.Parse` returns for compressed packets

An error inside the unpacked data is returned together with the item, which holds the packets before the error. `Parser.Parse` drops
that item, other callers get it.
-/

namespace Gpgpdump
open Spec P

/-- the answer of `Parse` for an outcome of the packets inside: the item `i` in any case -/
def Spec.answer (i : Item) : Res Unit → Returned
  | .ok _ => .ret (some i) none
  | .err e => .ret (some i) (some e.wrap)
  | .panic s => .panic s
  | .stuck => .stuck

theorem contains_loopEnd {d : Bytes} {p : Nat × Bytes} (h : p ∈ (loopEnd (split d) (rawErr .eof)).1) : Contains d p := by
  unfold loopEnd at h
  split at h
  · exact mem_split h
  · exact mem_split h
  · exact mem_split h
  · rename_i t b hs
    rw [if_pos (by decide : (rawErr .eof).eqEOF = true)] at h
    rcases List.mem_append.mp h with h | h
    · exact mem_split h
    · rw [List.mem_singleton.mp h]; exact toEnd_split hs

/-- **C76**: on a compressed packet, `Parse` returns an item with the algorithm, the compressed data and the packets inside. They are
the items that a parser gets from the unpacked data, up to its first error, and that error comes with the item. (Compressed packets
inside are not unpacked, so there must be none for the comparison.) -/
theorem C76_inner (X : Ext) (c : Option Ctx) {body z : Bytes} (hu : Unpacks X body z) (h8 : ∀ p, Contains z p → p.1 ≠ 8) :
    let q := parseSrc X c (Src.ofBytes z)
    ∃ i f1 f2, once X c 8 body = (answer i q.res, q.ctx) ∧ i.name = "Compressed Data Packet (tag 8)".toList ∧
      i.items = f1 :: f2 :: q.packets ∧ f1.name = "Compression Algorithm".toList ∧ f2.name = "Compressed data".toList := by
  intro q
  obtain ⟨x, zd, rfl, hz⟩ : ∃ x zd, body = x :: zd ∧ zd ≠ [] := by
    cases hu <;> exact ⟨_, _, rfl, by assumption⟩
  have hr : unpackRes X x zd = .ok z := (unpackRes_ok hz).mpr (.inl hu)
  obtain ⟨rd', hp, -⟩ := parse_new X c 8 (x :: zd)
  obtain ⟨h1, h2, h3⟩ := tag08_run X c (tagItem 8 (x :: zd) (ctxFlag (tagDumpFlag 8) c)) x zd hz
  unfold packedOut at h1 h2
  rw [hr] at h1 h2
  have hq : q = _ := parseSrc_eq X c (Src.ofBytes z) (ofBytes_lazy z) rfl
  rw [show (Src.ofBytes z).data = z from rfl, show (Src.ofBytes z).tail = rawErr .eof from rfl,
    ← seqPackets_no8 X (fun p hm => h8 p (contains_loopEnd hm))] at hq
  have hb : TagObj.body X ⟨8, Reader.new (x :: zd)⟩ (St.at c [] (x :: zd) (tagItem 8 (x :: zd) (ctxFlag (tagDumpFlag 8) c))) =
      (.ok (((tagItem 8 (x :: zd) (ctxFlag (tagDumpFlag 8) c)).add (compItem x (ctxFlag Ctx.debug c))).add (packedItem zd (ctxFlag Ctx.debug c)), some z),
        (tag08 X (St.at c [] (x :: zd) (tagItem 8 (x :: zd) (ctxFlag (tagDumpFlag 8) c)))).2) := by
    unfold TagObj.body
    rw [if_pos rfl, bind_run]
    revert h1 h2
    rcases tag08 X (St.at c [] (x :: zd) (tagItem 8 (x :: zd) (ctxFlag (tagDumpFlag 8) c))) with ⟨r, st⟩
    intro h1 h2
    dsimp only at h1 h2
    subst h1
    rw [← h2]
    rfl
  rw [hb, h3] at hp
  unfold once PacketsObj.parse PacketsObj.show
  dsimp only
  rw [hp]
  dsimp only
  rw [packetLoop_eq X _ (parseTag_scoped X) _ (ofBytes_lazy z) rfl]
  rw [show (Src.ofBytes z).data = z from rfl, show (Src.ofBytes z).tail = rawErr .eof from rfl]
  unfold stepped
  rw [hq]
  dsimp only
  generalize thenErr (seqPackets (parseTag X) (loopEnd (split z) (rawErr .eof)).1 c) (loopEnd (split z) (rawErr .eof)).2 = o
  obtain ⟨l, r, c'⟩ := o
  refine ⟨(((tagItem 8 (x :: zd) (ctxFlag (tagDumpFlag 8) c)).add (compItem x (ctxFlag Ctx.debug c))).add (packedItem zd (ctxFlag Ctx.debug c))).addAll l,
    _, _, ?_, (by decide +kernel : tagStr 8 = _), rfl, rfl, rfl⟩
  cases r <;> rfl

/-- **C76**: `Parse` never returns nil without an error when there is a packet, and an item with an error only for compressed packets
whose data could be unpacked. -/
theorem C76_item_and_error (X : Ext) (c : Option Ctx) (tag : Nat) (body : Bytes) :
    (once X c tag body).1 ≠ .ret none none ∧
    ∀ i e, (once X c tag body).1 = .ret (some i) (some e) → tag = 8 ∧ ∃ z, Opens X body (some z) := by
  have hs : (once X c tag body).1 = ((⟨Src.ofBytes [], c, some ⟨tag, Reader.new body⟩⟩ : PacketsObj).show X ⟨tag, Reader.new body⟩).1 := rfl
  rw [hs]
  unfold PacketsObj.show
  dsimp only
  obtain ⟨rd', hp, -⟩ := parse_new X c tag body
  rw [hp]
  generalize hb : TagObj.body X ⟨tag, Reader.new body⟩ (St.at c [] body (tagItem tag body (ctxFlag (tagDumpFlag tag) c))) = o
  obtain ⟨r, st⟩ := o
  cases r with
  | err e => exact ⟨(fun h => nomatch h), (fun i e h => nomatch h)⟩
  | panic s => exact ⟨(fun h => nomatch h), (fun i e h => nomatch h)⟩
  | stuck => exact ⟨(fun h => nomatch h), (fun i e h => nomatch h)⟩
  | ok a =>
    obtain ⟨j, data⟩ := a
    cases data with
    | none => exact ⟨(fun h => nomatch h), (fun i e h => nomatch h)⟩
    | some z =>
      have key : tag = 8 ∧ ∃ z, Opens X body (some z) := by
        unfold TagObj.body at hb
        dsimp only at hb
        by_cases h8 : tag = 8
        · subst h8
          refine ⟨rfl, z, ?_⟩
          rw [if_pos rfl, bind_run] at hb
          generalize ht : tag08 X (St.at c [] body (tagItem 8 body (ctxFlag (tagDumpFlag 8) c))) = t at hb
          obtain ⟨rt, s⟩ := t
          cases rt with
          | ok a =>
            have ha : a = some z := by
              have := congrArg Prod.fst hb
              exact congrArg (fun r => match r with | .ok (_, d) => d | _ => none) this
            subst ha
            match body, ht with
            | [], ht => rw [show tag08 X (St.at c [] [] _) = (.err (wrapErr .eof), _) from tag08_end X _ (Nat.le_refl _)] at ht; cases ht
            | [x], ht =>
              rw [tag08_one] at ht
              cases ht
              exact .empty
            | x :: y :: zd, ht =>
              obtain ⟨h1, -, -⟩ := tag08_run X c (tagItem 8 (x :: y :: zd) (ctxFlag (tagDumpFlag 8) c)) x (y :: zd) (by simp)
              rw [ht] at h1
              unfold packedOut at h1
              cases hu : unpackRes X x (y :: zd) with
              | error e =>
                rw [hu] at h1
                dsimp only at h1
                split at h1 <;> cases h1
              | ok z' =>
                rw [hu] at h1
                cases h1
                rcases (unpackRes_ok (by simp)).mp hu with h | ⟨h, rfl⟩
                · exact .data h
                · exact .unknown (by omega)
          | err e => cases hb
          | panic s => cases hb
          | stuck => cases hb
        · rw [if_neg h8, bind_run] at hb
          generalize tagBody X (parseTagF X (TagObj.start ⟨tag, Reader.new body⟩).remaining.length) tag
            (St.at c [] body (tagItem tag body (ctxFlag (tagDumpFlag tag) c))) = t at hb
          obtain ⟨r, s⟩ := t
          cases r with
          | ok a => cases hb
          | _ => cases hb
      dsimp only
      refine ⟨?_, fun i e _ => key⟩
      rcases packetLoop X (parseTag X) (Src.ofBytes z) ⟨st.ctx, rd', j⟩ with ⟨r, s⟩
      cases r <;> exact fun h => nomatch h

/-- a compressed packet with a user ID, and the first octet of another packet: the item with the user ID, and an error -/
theorem C76_inner_example : glance (.parse (once Tests.X (some Ctx.empty) 8 [0, 0xcd, 1, 0x41, 0xcd]).1) = (some ("5 bytes".toList, []), some .unexpectedEOF) ∧
    (match (once Tests.X (some Ctx.empty) 8 [0, 0xcd, 1, 0x41, 0xcd]).1 with
      | .ret (some i) _ => i.items.map Item.name | _ => []) =
      ["Compression Algorithm".toList, "Compressed data".toList, "User ID Packet (tag 13)".toList] := by
  decide +kernel

end Gpgpdump
