import Verif.ThmSubsError
import Verif.ThmFail
import Verif.ThmNil
import Verif.ThmMemory

/-!
# C97: which subpackets `Parse` accepts, refuses and panics on
-/

namespace Gpgpdump
open P Spec Src Cmp

variable {X : Ext}

theorem accSub_iff (hX : OwnErrors X) {t : UInt8} {b : Bytes} : SubOK X (InnerOK X) t b ↔ AccSub X t b := by
  refine ⟨fun h => ?_, fun h => subOK_of_acc h fun _ _ _ ha => (innerOK_iff hX).mpr ha⟩
  unfold SubOK at h
  by_cases h20 : t.toNat % 128 = 20
  · rw [if_pos h20] at h
    obtain ⟨fl, name, value, rest, x1, x2, x3, rfl⟩ := h
    exact .notation h20 x1 x2 x3
  rw [if_neg h20] at h
  by_cases h32 : t.toNat % 128 = 32
  · rw [if_pos h32] at h
    exact .embedded h32 ((innerOK_iff hX).mp h)
  rw [if_neg h32] at h
  by_cases h38 : t.toNat % 128 = 38
  · rw [if_pos h38] at h
    obtain ⟨k, d, rfl, hb⟩ := h
    by_cases hk : k = 0
    · subst hk
      have hb := hb rfl
      unfold BlockOK at hb
      have hb := (loopOK_block (src := ⟨d, rawErr .eof, [], false, true⟩) rfl (Nat.lt_succ_self _)).mp hb
      obtain ⟨ps, a, b, rfl, ha, hp, hb⟩ := hb
      exact .keyBlock h38 ha (fun p hm => (innerOK_iff hX).mp (hp p hm)) hb
    · exact .keyBlockOther h38 hk
  rw [if_neg h38] at h
  exact .plain (by simp; omega) h

theorem failSub_iff (hX : OwnErrors X) {c : Cause} {t : UInt8} {b : Bytes} : Errs.SubErr X (InnerOK X) (Fails X) c t b ↔ FailSub X c t b := by
  constructor
  · intro h
    rcases h with h | ⟨h, fl, nl, vl, r, rfl, hf, hn, hv, hr⟩ | ⟨h, hb⟩ | ⟨h, d, rfl, hb⟩
    · exact .fields h
    · exact .notation h hf hn hv hr
    · exact .embedded h hb
    · unfold Errs.ErrBlock at hb
      rw [errLoop_block (src := ⟨d, rawErr .eof, [], false, true⟩) rfl (Nat.lt_succ_self _)] at hb
      rcases hb with ⟨ps, p, a, e, he, ha, hr, hp⟩ | ⟨ps, a, e, he, ha, hr, hp⟩
      · simp only at he; subst he
        exact .keyBlock h ha (fun q hq => (innerOK_iff hX).mp (hr q hq)) hp
      · simp only at he; subst he
        exact .keyBlockEnd h ha (fun q hq => (innerOK_iff hX).mp (hr q hq)) hp
  · intro h
    cases h with
    | fields h => exact .inl h
    | «notation» h hf hnl hv hq => exact .inr (.inl ⟨h, _, _, _, _, rfl, hf, hnl, hv, hq⟩)
    | embedded h hb => exact .inr (.inr (.inl ⟨h, hb⟩))
    | @keyBlock _ a b ps p _ h ha hps hp =>
      refine .inr (.inr (.inr ⟨h, _, rfl, ?_⟩))
      unfold Errs.ErrBlock
      exact (errLoop_block (src := ⟨a ++ b, rawErr .eof, [], false, true⟩) rfl (Nat.lt_succ_self _)).mpr
        (.inl ⟨ps, p, a, b, rfl, ha, fun q hq => (innerOK_iff hX).mpr (hps q hq), hp⟩)
    | @keyBlockEnd _ a b ps _ h ha hps hb =>
      refine .inr (.inr (.inr ⟨h, _, rfl, ?_⟩))
      unfold Errs.ErrBlock
      exact (errLoop_block (src := ⟨a ++ b, rawErr .eof, [], false, true⟩) rfl (Nat.lt_succ_self _)).mpr
        (.inr ⟨ps, a, b, rfl, ha, fun q hq => (innerOK_iff hX).mpr (hps q hq), hb⟩)

theorem panSub_iff (hX : OwnErrors X) {site : Site} {t : UInt8} {b : Bytes} : Pans.SubPan X (InnerOK X) (Pan X) site t b ↔ PanSub X site t b := by
  constructor
  · intro h
    rcases h with ⟨h, hb⟩ | ⟨h, d, rfl, hb⟩
    · exact .embedded h hb
    · unfold Pans.PanBlock at hb
      obtain ⟨ps, p, a, b, rfl, ha, hr, hp⟩ := (panLoop_block (src := ⟨d, rawErr .eof, [], false, true⟩) rfl (Nat.lt_succ_self _)).mp hb
      exact .keyBlock h ha (fun q hq => (innerOK_iff hX).mp (hr q hq)) hp
  · intro h
    cases h with
    | embedded h hb => exact .inl ⟨h, hb⟩
    | @keyBlock _ _ a b ps p h ha hps hp =>
      refine .inr ⟨h, _, rfl, ?_⟩
      unfold Pans.PanBlock
      exact (panLoop_block (src := ⟨a ++ b, rawErr .eof, [], false, true⟩) rfl (Nat.lt_succ_self _)).mpr
        ⟨ps, p, a, b, rfl, ha, fun q hq => (innerOK_iff hX).mpr (hps q hq), hp⟩

theorem needsSub_iff (hX : OwnErrors X) {t : UInt8} {b : Bytes} : Nils.SubNil X (InnerOK X) (Needs X) t b ↔ NeedsSub X t b := by
  constructor
  · intro h
    rcases h with ⟨h, hb⟩ | h | ⟨h, hb⟩ | ⟨h, d, rfl, hb⟩
    · exact .created h hb
    · exact .expires h
    · exact .embedded h hb
    · unfold Pans.PanBlock at hb
      obtain ⟨ps, p, a, b, rfl, ha, hr, hp⟩ := (panLoop_block (src := ⟨d, rawErr .eof, [], false, true⟩) rfl (Nat.lt_succ_self _)).mp hb
      exact .keyBlock h ha (fun q hq => (innerOK_iff hX).mp (hr q hq)) hp
  · intro h
    cases h with
    | created h hb => exact .inl ⟨h, hb⟩
    | expires h => exact .inr (.inl h)
    | embedded h hb => exact .inr (.inr (.inl ⟨h, hb⟩))
    | @keyBlock _ a b ps p h ha hps hp =>
      refine .inr (.inr (.inr ⟨h, _, rfl, ?_⟩))
      unfold Pans.PanBlock
      exact (panLoop_block (src := ⟨a ++ b, rawErr .eof, [], false, true⟩) rfl (Nat.lt_succ_self _)).mpr
        ⟨ps, p, a, b, rfl, ha, fun q hq => (innerOK_iff hX).mpr (hps q hq), hp⟩

/-- an attribute subpacket never panics -/
theorem calm_parseSub17 (t : UInt8) (b : Bytes) : Calm (parseSub17 t b) := by
  refine Pans.of_R (Q := fun o => (selfCmp o false false false).item) fun o => ?_
  unfold Gpgpdump.parseSub17 subScope
  refine R.bind (R.flag .debug) fun d d' hd => R.scopeAt (it_sub hd _ _) ?_
  unfold sub17Body
  split
  · exact r_sub01.at _ _
  · exact R.getCur.at _ _

/-- What the first `Parse` gives on any subpacket: with a context it succeeds exactly on the subpackets of the grammar, gives an error
exactly where the grammar of errors says and with that cause, and panics exactly on a signature subpacket with a signature or a key block
inside that panics. Without a context it panics exactly on the subpackets that need one. -/
theorem C97_outcome (hX : OwnErrors X) (tagID typ : UInt8) (body : Bytes) (ob : SubObj) (hnew : SubObj.new tagID typ body = some ob) :
    (∀ x, (∃ i, (ob.parse X (some x)).1 = .ret i none) ↔ if tagID = 2 then AccSub X typ body else AttrSub typ body) ∧
    (∀ x c, (∃ i e, (ob.parse X (some x)).1 = .ret i (some e) ∧ e.cause = c) ↔ if tagID = 2 then FailSub X c typ body else AttrCut c typ body) ∧
    (∀ x site, (ob.parse X (some x)).1 = .panic site ↔ tagID = 2 ∧ PanSub X site typ body) ∧
    ((ob.parse X none).1 = .panic .nilCtx ↔ tagID = 2 ∧ NeedsSub X typ body) := by
  have hf := fun c => (C97_fresh X typ body).2 tagID ob (St.at c [] body (newItem [] [] [] [])) hnew
  have htag := (new_sub hnew).1
  have hit : ∀ c e, (ob.parse X c).1 ≠ .ret none e := fun c e h => by
    obtain ⟨j, h, -⟩ := C97_item X ob c _ _ h; cases h
  have cok : ∀ c, (∃ i, (ob.parse X c).1 = .ret i none) ↔ ∃ a s,
      (if tagID = 2 then parseSub02 X (parseTag X) typ body (St.at c [] body (newItem [] [] [] [])) else parseSub17 typ body (St.at c [] body (newItem [] [] [] []))) = (.ok a, s) := by
    intro c
    rw [hf c]
    have hn := hit c
    have : (St.at c [] body (newItem [] [] [] [])).ctx = c := rfl
    rw [this]
    generalize (ob.parse X c) = z at hn
    obtain ⟨r, s⟩ := z
    simp only at hn ⊢
    cases r with
    | ret i e =>
      cases i with
      | none => exact absurd rfl (hn e)
      | some i => cases e <;> simp
    | _ => simp
  have cerr : ∀ c k, (∃ i e, (ob.parse X c).1 = .ret i (some e) ∧ e.cause = k) ↔ ∃ e s,
      (if tagID = 2 then parseSub02 X (parseTag X) typ body (St.at c [] body (newItem [] [] [] [])) else parseSub17 typ body (St.at c [] body (newItem [] [] [] []))) = (.err e, s) ∧ e.cause = k := by
    intro c k
    rw [hf c]
    have hn := hit c
    have : (St.at c [] body (newItem [] [] [] [])).ctx = c := rfl
    rw [this]
    generalize (ob.parse X c) = z at hn
    obtain ⟨r, s⟩ := z
    simp only at hn ⊢
    cases r with
    | ret i e =>
      cases i with
      | none => exact absurd rfl (hn e)
      | some i => cases e <;> simp
    | _ => simp
  have cpan : ∀ c site, (ob.parse X c).1 = .panic site ↔ ∃ s,
      (if tagID = 2 then parseSub02 X (parseTag X) typ body (St.at c [] body (newItem [] [] [] [])) else parseSub17 typ body (St.at c [] body (newItem [] [] [] []))) = (.panic site, s) := by
    intro c site
    rw [hf c]
    have hn := hit c
    have : (St.at c [] body (newItem [] [] [] [])).ctx = c := rfl
    rw [this]
    generalize (ob.parse X c) = z at hn
    obtain ⟨r, s⟩ := z
    simp only at hn ⊢
    cases r with
    | ret i e =>
      cases i with
      | none => exact absurd rfl (hn e)
      | some i => cases e <;> simp
    | _ => simp
  rcases htag with rfl | rfl
  · simp only [if_pos] at cok cerr cpan ⊢
    have s0 := Sub.parseSub02 X (Sub.parseTag (X := X)) typ body
    refine ⟨fun x => ?_, fun x c => ?_, fun x site => ?_, ?_⟩
    · rw [cok, ← accSub_iff hX]
      exact ⟨fun ⟨a, s, h⟩ => (s0.sound x _ _ _ a s h).1, fun h => by obtain ⟨a, x', h⟩ := s0.complete x _ _ _ h; exact ⟨a, _, h⟩⟩
    · rw [cerr, (Errs.parseSub02 X (Sub.parseTag (X := X)) (Errs.parseTag hX) typ body).run x, failSub_iff hX]
    · rw [cpan, (Pans.parseSub02 X (Sub.parseTag (X := X)) (Pans.parseTag hX) typ body).run x, panSub_iff hX]; simp
    · rw [cpan, (Nils.parseSub02 X (Sub.parseTag (X := X)) (Agree.parseTag (X := X)) (Nils.parseTag hX) typ body).run, needsSub_iff hX]; simp
  · simp only [show ¬ ((17 : UInt8) = 2) by decide, if_false, false_and] at cok cerr cpan ⊢
    have s0 := Sub.parseSub17 typ body
    refine ⟨fun x => ?_, fun x c => ?_, fun x site => ?_, ?_⟩
    · rw [cok]
      exact ⟨fun ⟨a, s, h⟩ => (s0.sound x _ _ _ a s h).1, fun h => by obtain ⟨a, x', h⟩ := s0.complete x _ _ _ h; exact ⟨a, _, h⟩⟩
    · rw [cerr, (Errs.parseSub17 typ body).run x]
    · rw [cpan, (calm_parseSub17 typ body).run x]
    · rw [cpan, (Nils.deaf (Deaf.parseSub17 typ body)).run]

/-- each of the outcomes is met: subpackets that are accepted, cut, need a context, and a key block whose secret key panics -/
theorem C97_outcome_example :
    AccSub Tests.X 0x83 [0, 0, 0, 1] ∧ FailSub Tests.X .unexpectedEOF 0x83 [0, 0, 1] ∧ NeedsSub Tests.X 0x83 [0, 0, 0, 1] ∧ AttrCut .eof 1 [] ∧
    AttrSub 1 [0x10, 0, 1, 1] ∧ PanSub Tests.X .sliceRange 38 [0, 0x94, 8, 4, 0, 0, 0, 0, 99, 0, 7] := by
  have hp : ∃ o, SubObj.new 2 38 [0, 0x94, 8, 4, 0, 0, 0, 0, 99, 0, 7] = some o ∧
      (match (o.parse Tests.X (some Ctx.empty)).1 with | .panic .sliceRange => true | _ => false) = true := ⟨_, rfl, by decide +kernel⟩
  obtain ⟨o, ho, hp⟩ := hp
  refine ⟨.plain (by decide) (by decide), .fields (.here (.some nofun (by decide))), .expires (by decide), .header rfl (.here (.none (by decide))),
    .image rfl (fun h => absurd h (by decide)), ((C97_outcome tests_own 2 38 _ o ho).2.2.1 Ctx.empty .sliceRange).mp ?_ |>.2⟩
  split at hp
  · assumption
  · cases hp

end Gpgpdump
