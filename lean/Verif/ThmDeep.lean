import Verif.ThmUnknownSubs
import Verif.ThmFacade
import Verif.ThmNew

/-!
# Deeply nested signatures

An input that meets the hypotheses of `C30_deep` and `C45_json_fails`: signatures in signatures.
-/

namespace Gpgpdump
open Spec Spec.Json Spec.CLI P

namespace Spec
/-- the body of a version 4 signature of unknown algorithm with `n` signatures in its hashed area, one in the other -/
def nest : Nat → Bytes
  | 0 => sigBody 4 0 99 0 [] [] [0, 0]
  | n + 1 => sigBody 4 0 99 0 (0xff :: beOctets 4 ((nest n).length + 1) ++ (0x20 :: (nest n ++ []))) [] [0, 0]
end Spec

theorem nest_length (n : Nat) : (nest n).length = 10 + 16 * n := by
  induction n with
  | zero => rfl
  | succ n ih => simp [nest, sigBody, beOctets_length, ih]; omega

theorem levels_mem {i : Item} : ∀ {is : List Item}, i ∈ is → levels i ≤ levelsAll is
  | j :: is, h => by
    rw [levelsAll]
    rcases List.mem_cons.1 h with rfl | h
    · omega
    · have := levels_mem h
      omega

theorem levels_eq (i : Item) : levels i = 1 + levelsAll i.items := by cases i; rfl

theorem levels_addAll (j : Item) {i : Item} {l : List Item} (h : i ∈ l) : 1 + levels i ≤ levels (j.addAll l) := by
  rw [levels_eq (j.addAll l)]
  have : i ∈ (j.addAll l).items := by
    show i ∈ j.items ++ l
    simp [h]
  have := levels_mem this
  omega

theorem onePacket_2 (X : Ext) (f : Nat) (C : Bytes) (x : Ctx) : onePacket (parseTagF X (f + 1)) 2 C (some x) =
    (match tag02 X (parseTagF X f) (St.at (some x) [] C (tagItem 2 C x.debug)) with
      | (.ok _, s) => (.ok s.cur, s.ctx)
      | (.err e, s) => (.err e, s.ctx)
      | (.panic e, s) => (.panic e, s.ctx)
      | (.stuck, s) => (.stuck, s.ctx)) := by
  have : onePacket (parseTagF X (f + 1)) 2 C (some x) = ((tag02 X (parseTagF X f) >>= fun _ => getCur) (St.at (some x) [] C (tagItem 2 C x.debug)) |>.1,
    ((tag02 X (parseTagF X f) >>= fun _ => getCur) (St.at (some x) [] C (tagItem 2 C x.debug))).2.ctx) := rfl
  rw [this, bind_run]
  rcases tag02 X (parseTagF X f) (St.at (some x) [] C (tagItem 2 C x.debug)) with ⟨r, s⟩
  cases r <;> rfl

theorem sigTail_99 (c : Option Ctx) (p : Bytes) (j : Item) : ∃ s l, sigTail 99 (St.at c p [0, 0] j) = (.ok (), s) ∧ s.ctx = c ∧ s.cur = j.addAll l := by
  obtain ⟨r, n, c', l, hn, ht⟩ := (sigTail_local 99).run c [0, 0]
  have h0 := ht [] (newItem [])
  have h1 : ∃ s, sigTail 99 (St.at c [] [0, 0] (newItem [])) = (.ok (), s) ∧ s.ctx = c := ⟨_, rfl, rfl⟩
  obtain ⟨s, h1, h2⟩ := h1
  rw [h1] at h0
  obtain ⟨rfl, rfl⟩ := Prod.mk.inj h0
  simp only [St.at_ctx] at h2
  exact ⟨_, l, ht p j, h2, rfl⟩

/-- one level -/
theorem tag02_nest (X : Ext) (f : Nat) (x : Ctx) {a1 : Bytes} {subs} (hs : SubSeq subs a1) (hl : a1.length < 65536) {is : List Item}
    (ha : areaRes X (parseTagF X f) (S "Hashed Subpacket") a1 subs (some x) = (.ok (), is, some x)) :
    ∃ i l l', onePacket (parseTagF X (f + 1)) 2 (sigBody 4 0 99 0 a1 [] [0, 0]) (some x) = (.ok i, some x) ∧
      i = (tagItem 2 (sigBody 4 0 99 0 a1 [] [0, 0]) x.debug).addAll (l ++ is ++ l') := by
  rw [onePacket_2]
  generalize tagItem 2 (sigBody 4 0 99 0 a1 [] [0, 0]) x.debug = j
  unfold sigBody
  rw [tag02_areas X _ (.inl rfl), bind_run, subArea_res X _ _ hs hl, ha]
  simp only
  rw [bind_run, subArea_res X _ _ .nil (by simp)]
  simp only [areaRes, if_true]
  generalize [4, 0, 99, 0] ++ beOctets 2 a1.length ++ a1 ++ beOctets 2 [].length ++ [] = p
  obtain ⟨s, l, h1, h2, h3⟩ := sigTail_99 (some x) p (((j.addAll [(sigVer 4).item (ctxFlag Ctx.debug (some x)), sigItem 0 (ctxFlag Ctx.debug (some x)),
    pubItem 99 (ctxFlag Ctx.debug (some x)), hashItem 0 (ctxFlag Ctx.debug (some x))]).addAll is).addAll [])
  rw [h1]
  simp only [h2, h3]
  refine ⟨_, [(sigVer 4).item (ctxFlag Ctx.debug (some x)), sigItem 0 (ctxFlag Ctx.debug (some x)),
    pubItem 99 (ctxFlag Ctx.debug (some x)), hashItem 0 (ctxFlag Ctx.debug (some x))], l, rfl, ?_⟩
  simp only [Item.addAll_addAll, List.append_nil, List.append_assoc]

theorem nest_deep (X : Ext) (x : Ctx) : ∀ (n f : Nat), n < 4096 → n < f →
    ∃ i, onePacket (parseTagF X f) 2 (nest n) (some x) = (.ok i, some x) ∧ 3 * n + 1 ≤ levels i
  | 0, f + 1, _, _ => by
    obtain ⟨i, l, l', h, -⟩ := tag02_nest X f x (a1 := []) .nil (by simp) (is := []) rfl
    refine ⟨i, h, ?_⟩
    rw [levels_eq]
    omega
  | n + 1, f + 1, hn, hf => by
    obtain ⟨i, h, hi⟩ := nest_deep X x n f (by omega) (by omega)
    have hlen := nest_length n
    have hs : SubSeq [((0x20 : UInt8), nest n)] (0xff :: beOctets 4 ((nest n).length + 1) ++ (0x20 :: (nest n ++ []))) :=
      .cons (.five (by omega)) .nil
    have hne : (0xff :: beOctets 4 ((nest n).length + 1) ++ (0x20 :: (nest n ++ []))) ≠ [] := by simp
    have hl : (0xff :: beOctets 4 ((nest n).length + 1) ++ (0x20 :: (nest n ++ []))).length < 65536 := by
      simp [beOctets_length, hlen]; omega
    rw [nest]
    generalize (0xff :: beOctets 4 ((nest n).length + 1) ++ (0x20 :: (nest n ++ []))) = area at hs hne hl
    have h1 : oneSub (parseSub02 X (parseTagF X f)) 0x20 (nest n) (some x) = (.ok ((subItem 0x20 (nest n) x.debug).add i), some x) := by
      unfold oneSub
      rw [parseSub02_32 X (parseTagF_scoped X f) (by decide), h]
      rfl
    have ha : areaRes X (parseTagF X f) (S "Hashed Subpacket") area [((0x20 : UInt8), nest n)] (some x) =
        (.ok (), [(newItem (S "Hashed Subpacket") [] (nBytes area.length) (dumpBytes area (ctxFlag Ctx.debug (some x)))).addAll
          [(subItem 0x20 (nest n) x.debug).add i]], some x) := by
      unfold areaRes areaOut
      rw [if_neg hne]
      simp only [seqSubs, h1]
    obtain ⟨k, l, l', h2, h3⟩ := tag02_nest X f x hs hl ha
    refine ⟨k, h2, ?_⟩
    rw [h3]
    have e1 : 1 + levels i ≤ levels ((subItem 0x20 (nest n) x.debug).add i) := by
      rw [Item.add_eq]
      exact levels_addAll _ (by simp)
    have e2 := levels_addAll (newItem (S "Hashed Subpacket") [] (nBytes area.length) (dumpBytes area (ctxFlag Ctx.debug (some x))))
      (List.mem_singleton.2 (rfl : (subItem 0x20 (nest n) x.debug).add i = _))
    refine Nat.le_trans ?_ (levels_addAll _ (List.mem_append_left _ (List.mem_append_right _ (List.mem_singleton.2 rfl))))
    omega

/-- the packet -/
def Spec.nestPacket (n : Nat) : Bytes := 0x8a :: (beOctets 4 (nest n).length ++ nest n)

/-- Signatures in signatures are accepted and shown, three levels for each: for every context and up to the size of a subpacket area. -/
theorem C30_nested (X : Ext) (x : Ctx) (n : Nat) (hn : n < 4096) (sched : List Nat) :
    (parseSrc X (some x) (Source.src ⟨nestPacket n, rawErr .eof, sched⟩)).res = .ok () ∧
    3 * n + 1 ≤ levelsAll (parseSrc X (some x) (Source.src ⟨nestPacket n, rawErr .eof, sched⟩)).packets := by
  have hlen := nest_length n
  have he : Encodes 2 (nest n) (nestPacket n) := Encodes.old (tag := 2) (lt := 2) (by omega) (by omega) (by omega)
  obtain ⟨h1, h2, h3⟩ := parseSrc_single X (some x) he (by omega) sched
  obtain ⟨i, hi, hl⟩ := nest_deep X x n ((nest n).length + 1) hn (by omega)
  have hp : onePacket (parseTag X) 2 (nest n) (some x) = (.ok i, some x) := by
    rw [← hi]
    unfold onePacket parseTag; with_reducible rfl
  rw [hp] at h1 h3
  refine ⟨h1, ?_⟩
  rw [h3 i rfl]
  simp only [levelsAll]
  omega

theorem nestPacket_length (n : Nat) : (nestPacket n).length = 15 + 16 * n := by
  simp [nestPacket, nest_length, beOctets_length]; omega

/-- **C30, violated**: a packet of at least 1667 nested signatures (26687 octets) is parsed, but its result cannot be written as
indented JSON. -/
theorem C30_unwritable (X : Ext) (x : Ctx) (indent : Int) (hi : 0 < indent) (n : Nat) (h : 1667 ≤ n) (hn : n < 4096) (sched : List Nat) :
    (nestPacket n).length = 15 + 16 * n ∧
    (parseSrc X (some x) (Source.src ⟨nestPacket n, rawErr .eof, sched⟩)).res = .ok () ∧
    infoJSON indent (goItems (parseSrc X (some x) (Source.src ⟨nestPacket n, rawErr .eof, sched⟩)).packets) = none := by
  obtain ⟨h1, h2⟩ := C30_nested X x n hn sched
  exact ⟨nestPacket_length n, h1, C30_deep _ _ hi (by omega)⟩

theorem lines_short {d ls stop taken} (h : Lines d ls stop taken) (hd : d.length < 65536) : stop = false ∧ taken = d := by
  induction h with
  | done => exact ⟨rfl, rfl⟩
  | last => exact ⟨rfl, rfl⟩
  | line hn hl h ih =>
    obtain ⟨h1, h2⟩ := ih (by simp at hd; omega)
    exact ⟨h1, by rw [h2]⟩
  | long hl hn =>
    have : lineLimit = 65536 := rfl
    omega

/-- **C45, violated** (the hypotheses of `C45_json_fails` are met): `gpgpdump --json --indent 2` reads such a packet and parses it, but
writes nothing and exits abnormally. (The environment is one whose armor decoder rejects what is no armor; it is not reached.) -/
theorem C45_unwritable (X : Ext) (hX : ∀ t, ∃ e, X.armor t = .error e) (W : World) (n : Nat) (h : 1667 ≤ n) (hn : n < 4095)
    (hW : W.stdin = Source.src ⟨nestPacket n, rawErr .eof, []⟩) (stale : Bool) :
    let f : Flags := { Tests.flags with json := true, indent := 2 }
    (parse X (some (cliCtx f false)) (some W.stdin)).res = .ok () ∧
    execute X W stale f (.root false false []) = ⟨some .abnormal, [], false⟩ := by
  intro f
  have hp : parse X (some (cliCtx f false)) (some W.stdin) = parseSrc X (some (cliCtx f false)) (Source.src ⟨nestPacket n, rawErr .eof, []⟩) := by
    rw [hW]
    obtain ⟨ls, stop, taken, hl⟩ := Spec.Lines.exists (nestPacket n)
    obtain ⟨rfl, rfl⟩ := lines_short hl (by rw [nestPacket_length]; omega)
    by_cases hb : ∃ block, ArmorBlock ls block
    · obtain ⟨block, hb⟩ := hb
      obtain ⟨e, he⟩ := hX (unlines block)
      exact C34_undecodable X _ rfl _ [] hl hb he
    · exact C34_verbatim_partial X _ rfl _ [] hl hb
  obtain ⟨h1, h2⟩ := C30_nested X (cliCtx f false) n (by omega) []
  rw [← hp] at h1 h2
  exact ⟨h1, C45_json_fails X W stale f rfl _ _ _ .stdin h1 rfl (by decide) (by omega)⟩

end Gpgpdump
