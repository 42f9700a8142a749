import Verif.Tests
import Verif.Keeps
import Batteries.Data.List.Basic

/-!
# C05, C16: the top-level items are the packets of the input
-/

namespace Gpgpdump
open Spec P Src

/-- header of the item of a packet, everything below it is appended -/
theorem onePacket_header (X : Ext) {tag : Nat} {body : Bytes} {ctx c : Option Ctx} {i : Item}
    (h : onePacket (packetsParse X) tag body ctx = (.ok i, c)) :
    ∃ l, i = (tagItem tag body (ctxFlag (tagDumpFlag tag) ctx)).addAll l := by
  unfold onePacket at h
  by_cases h8 : tag = 8
  · subst h8
    rw [packetsParse_8] at h
    simp only [Prod.mk.injEq] at h
    obtain ⟨h1, -⟩ := h
    have hc : compressed X body ⟨ctx, Reader.new [], newItem []⟩ = scope body (tagItem 8 body (ctxFlag (tagDumpFlag 8) ctx)) (do
      let data ← tag08 X
      return (← getCur, data)) ⟨ctx, Reader.new [], newItem []⟩ := rfl
    rw [hc, scope_run] at h1
    obtain ⟨l, hl⟩ := (Keeps.tag08 X).run (St.at ctx [] body (tagItem 8 body (ctxFlag (tagDumpFlag 8) ctx)))
    simp only [bind_run] at h1
    rcases hm : tag08 X (St.at ctx [] body (tagItem 8 body (ctxFlag (tagDumpFlag 8) ctx))) with ⟨r, st⟩
    rw [hm] at h1 hl
    simp only [St.at_cur] at hl
    cases r with
    | ok z =>
      simp only [getCur_run, pure_run] at h1
      cases z with
      | none =>
        simp only [expand, Res.ok.injEq] at h1
        exact ⟨l, by rw [← h1, hl]⟩
      | some z =>
        simp only [expand] at h1
        revert h1
        generalize (thenErr _ _) = o
        intro h1
        cases ho : o.2.1 with
        | ok u =>
          rw [ho] at h1
          simp only [Res.map, Res.ok.injEq] at h1
          exact ⟨l ++ o.1, by rw [← h1, hl, Item.addAll_addAll]⟩
        | _ => rw [ho] at h1; simp [Res.map] at h1
    | _ => simp [expand] at h1
  · rw [packetsParse_other X tag body h8, parseTag_run, scope_run] at h
    simp only [Prod.mk.injEq, bind_run] at h
    obtain ⟨h1, -⟩ := h
    obtain ⟨l, hl⟩ := (Keeps.tagBody X (parseTagF X body.length) tag).run
      (St.at ctx [] body (tagItem tag body (ctxFlag (tagDumpFlag tag) ctx)))
    rcases hm : tagBody X (parseTagF X body.length) tag (St.at ctx [] body (tagItem tag body (ctxFlag (tagDumpFlag tag) ctx)))
      with ⟨r, st⟩
    rw [hm] at h1 hl
    cases r with
    | ok u =>
      simp only [getCur_run, Res.ok.injEq] at h1
      exact ⟨l, by rw [← h1, hl]; rfl⟩
    | _ => simp at h1

/-- names of the packet tags: RFC 4880 section 5 and the drafts, as the tool spells them -/
def Spec.tagTitle (t : Nat) : String :=
  match t with
  | 0 => "Reserved"
  | 1 => "Public-Key Encrypted Session Key Packet"
  | 2 => "Signature Packet"
  | 3 => "Symmetric-Key Encrypted Session Key Packet"
  | 4 => "One-Pass Signature Packet"
  | 5 => "Secret-Key Packet"
  | 6 => "Public-Key Packet"
  | 7 => "Secret-Subkey Packet"
  | 8 => "Compressed Data Packet"
  | 9 => "Symmetrically Encrypted Data Packet"
  | 10 => "Marker Packet (Obsolete Literal Packet)"
  | 11 => "Literal Data Packet"
  | 12 => "Trust Packet"
  | 13 => "User ID Packet"
  | 14 => "Public-Subkey Packet"
  | 17 => "User Attribute Packet"
  | 18 => "Sym. Encrypted Integrity Protected Data Packet"
  | 19 => "Modification Detection Code Packet"
  | 20 => "AEAD Encrypted Data Packet"
  | 60 | 61 | 62 | 63 => "Private or Experimental Values"
  | _ => "Unknown"

theorem tagNames_title : ∀ t : Fin 64, tagNames.get t.val Unknown = (tagTitle t.val).toList := by decide

/-- what is shown in the first line of a packet -/
def Spec.heading (p : Nat × Bytes) : Str × Str × Str :=
  ((tagTitle p.1).toList ++ " (tag ".toList ++ (toString p.1).toList ++ ")".toList, [],
    (toString p.2.length).toList ++ " bytes".toList)

theorem tagStr_title {t : Nat} (h : t < 64) :
    tagStr t = (tagTitle t).toList ++ " (tag ".toList ++ (toString t).toList ++ ")".toList := by
  unfold tagStr S
  rw [tagNames_title ⟨t, h⟩, dec_eq]
  rfl

theorem Item.addAll_name (i : Item) (l) : (i.addAll l).name = i.name := rfl
theorem Item.addAll_value (i : Item) (l) : (i.addAll l).value = i.value := rfl
theorem Item.addAll_note (i : Item) (l) : (i.addAll l).note = i.note := rfl
theorem Item.addAll_dump (i : Item) (l) : (i.addAll l).dump = i.dump := rfl

theorem Spec.PacketSeq.tag_lt {ps d} (h : PacketSeq ps d) : ∀ p ∈ ps, p.1 < 64 := by
  induction h with
  | nil => simp
  | cons he _ ih =>
    intro p hp
    rcases List.mem_cons.mp hp with rfl | hp
    · exact he.tag_lt
    · exact ih p hp
  | toEnd h =>
    intro p hp
    obtain rfl := List.mem_singleton.mp hp
    cases h; simp only; omega

/-- the items of a successful run, packet by packet -/
theorem seqPackets_headers (X : Ext) {ps : List (Nat × Bytes)} {c c' : Option Ctx} {is : List Item}
    (h : seqPackets (packetsParse X) ps c = (is, .ok (), c')) :
    List.Forall₂ (fun p i => ∃ f l, i = (tagItem p.1 p.2 f).addAll l) ps is := by
  induction ps generalizing c is with
  | nil =>
    simp only [seqPackets, Prod.mk.injEq] at h
    rw [← h.1]; exact .nil
  | cons p ps ih =>
    obtain ⟨tag, body⟩ := p
    simp only [seqPackets] at h
    rcases ho : onePacket (packetsParse X) tag body c with ⟨r, c1⟩
    rw [ho] at h
    cases r with
    | ok i =>
      simp only at h
      rcases hs : seqPackets (packetsParse X) ps c1 with ⟨js, r, c2⟩
      rw [hs] at h
      simp only [Prod.mk.injEq] at h
      obtain ⟨rfl, rfl, rfl⟩ := h
      exact .cons (by obtain ⟨l, hl⟩ := onePacket_header X ho; exact ⟨_, l, hl⟩) (ih hs)
    | _ => simp at h

theorem parseSrc_ok (X : Ext) (ctx : Option Ctx) {s : Source} (ht : s.tail = rawErr .eof)
    (h : (parseSrc X ctx s.src).res = .ok ()) :
    ∃ ps, PacketSeq ps s.data ∧
      seqPackets (packetsParse X) ps ctx = ((parseSrc X ctx s.src).packets, .ok (), (parseSrc X ctx s.src).ctx) := by
  rw [parseSrc_eq X ctx _ s.isLazy rfl] at h ⊢
  simp only [Source.src, ht] at h ⊢
  rcases hsp : split s.data with ⟨qs, stop⟩
  rw [hsp] at h
  cases stop with
  | clean =>
    refine ⟨qs, packetSeq_iff.mpr (.inl hsp), ?_⟩
    have : loopEnd (qs, .clean) (rawErr .eof) = (qs, none) := rfl
    rw [this] at h ⊢
    rcases hq : seqPackets (packetsParse X) qs ctx with ⟨is, r, c⟩
    rw [hq] at h
    cases r with
    | ok u => rfl
    | _ => simp [thenErr] at h
  | toEnd t b =>
    refine ⟨qs ++ [(t, b)], packetSeq_iff.mpr (.inr ⟨qs, t, b, hsp, rfl⟩), ?_⟩
    have : loopEnd (qs, .toEnd t b) (rawErr .eof) = (qs ++ [(t, b)], none) := rfl
    rw [this] at h ⊢
    rcases hq : seqPackets (packetsParse X) (qs ++ [(t, b)]) ctx with ⟨is, r, c⟩
    rw [hq] at h
    cases r with
    | ok u => rfl
    | _ => simp [thenErr] at h
  | truncated =>
    have : loopEnd (qs, .truncated) (rawErr .eof) = (qs, some (wrapErr .unexpectedEOF)) := rfl
    rw [this] at h
    rcases hq : seqPackets (packetsParse X) qs ctx with ⟨is, r, c⟩
    rw [hq] at h
    cases r <;> simp [thenErr] at h
  | noMSB =>
    have : loopEnd (qs, .noMSB) (rawErr .eof) = (qs, some (wrapErr .noMSB)) := rfl
    rw [this] at h
    rcases hq : seqPackets (packetsParse X) qs ctx with ⟨is, r, c⟩
    rw [hq] at h
    cases r <;> simp [thenErr] at h

/-- C05: success means that the input is exactly a packet sequence, and the result has one item for each packet, in order,
headed by its tag and size. -/
theorem C05_success (X : Ext) (ctx : Option Ctx) (d : Bytes) (sched : List Nat)
    (h : (parseSrc X ctx (Source.src ⟨d, rawErr .eof, sched⟩)).res = .ok ()) :
    ∃ ps, PacketSeq ps d ∧
      (parseSrc X ctx (Source.src ⟨d, rawErr .eof, sched⟩)).packets.map (fun i => (i.name, i.value, i.note)) = ps.map heading := by
  obtain ⟨ps, hps, hs⟩ := parseSrc_ok X ctx (s := ⟨d, rawErr .eof, sched⟩) rfl h
  refine ⟨ps, hps, ?_⟩
  have hf := seqPackets_headers X hs
  have ht := hps.tag_lt
  revert hf
  generalize (parseSrc X ctx (Source.src ⟨d, rawErr .eof, sched⟩)).packets = is
  intro hf
  clear hs hps
  induction hf with
  | nil => rfl
  | @cons p i ps is hp _ ih =>
    obtain ⟨f, l, rfl⟩ := hp
    simp only [List.map_cons]
    rw [ih (fun q hq => ht q (List.mem_cons_of_mem _ hq))]
    congr 1
    simp only [Item.addAll_name, Item.addAll_value, Item.addAll_note, tagItem, newItem, Item.name, Item.value, Item.note, heading]
    rw [tagStr_title (ht p (List.mem_cons_self))]
    unfold nBytes S
    rw [dec_eq]
    rfl

/-- C05: the packet sequence is unique, so "the packets of the input" is well defined. -/
theorem C05_unique {ps qs : List (Nat × Bytes)} {d : Bytes} (h : PacketSeq ps d) (h' : PacketSeq qs d) : ps = qs := by
  have h1 := loopEnd_packetSeq h
  rw [loopEnd_packetSeq h'] at h1
  exact (Prod.mk.inj h1).1.symm

/-! ## C16 -/

/-- reading the tag number out of a heading `<name> (tag <n>)` -/
theorem tagStr_inj {t u : Nat} (ht : t < 64) (hu : u < 64) (h : tagStr t = tagStr u) : t = u := by
  have : ∀ t u : Fin 64, tagStr t.val = tagStr u.val → t = u := by decide +kernel
  exact congrArg Fin.val (this ⟨t, ht⟩ ⟨u, hu⟩ h)

/-- the option settings after any number of packets -/
theorem debug_flag_implies (c : Option Ctx) (h : ctxFlag Ctx.debug c = true) (tag : Nat) : ctxFlag (tagDumpFlag tag) c = true := by
  cases c with
  | none => simp [ctxFlag] at h
  | some c =>
    simp only [ctxFlag] at h ⊢
    unfold tagDumpFlag
    split
    · simp only [Ctx.priv, Bool.or_eq_true]; right; exact h
    · exact h

/-- an accepted input of two packets, the second with a five-octet length and an unknown tag -/
example : (parseSrc Tests.X (some Ctx.empty) (Source.src ⟨[0xcc, 2, 0x41, 0x42, 0xe5, 0xff, 0, 0, 0, 1, 7], rawErr .eof, []⟩)).res = .ok () := by decide +kernel

end Gpgpdump
