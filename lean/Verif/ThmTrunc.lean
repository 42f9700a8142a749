import Verif.ThmAccount
import Verif.ThmParse
import Verif.ThmUnknownSubs

/-!
# C26, C40, C41: truncated packets
-/

namespace Gpgpdump
open P Spec

/-! ## C40 -/

theorem length2 {b : Bytes} (h : b.length = 2) : ∃ l0 l1, b = [l0, l1] := by
  match b, h with
  | [l0, l1], _ => exact ⟨l0, l1, rfl⟩

theorem be2_inj {n m : Nat} {x y : Bytes} (hn : n < 65536) (hm : m < 65536) (h : beOctets 2 n ++ x = beOctets 2 m ++ y) : n = m ∧ x = y := by
  obtain ⟨h1, h2⟩ := List.append_inj h (by simp [beOctets])
  refine ⟨?_, h2⟩
  have := congrArg beNat h1
  rwa [beNat_beOctets 2 n (by simpa using hn), beNat_beOctets 2 m (by simpa using hm)] at this

theorem MPIs_prefix {n : Nat} {i i' : Bytes} (h : MPIs n i) (h' : MPIs n i') {r r' : Bytes} (e : i ++ r = i' ++ r') : i = i' := by
  induction n generalizing i i' with
  | zero => rw [h.inv0, h'.inv0]
  | succ n ih =>
    obtain ⟨bits, data, more, rfl, hb, hl, h⟩ := h.invS
    obtain ⟨bits', data', more', rfl, hb', hl', h'⟩ := h'.invS
    simp only [List.append_assoc] at e
    obtain ⟨rfl, e2⟩ := be2_inj hb hb' e
    obtain ⟨rfl, e3⟩ := List.append_inj e2 (by rw [hl, hl'])
    rw [ih h ‹_› e3]

/-- of two signatures that end with their last field (not version 3), none continues the other -/
theorem SigExact_prefix {b b' : Bytes} (h : SigExact b) (h' : SigExact b') (h3 : b.head? ≠ some 3) {r r' : Bytes} (e : b ++ r = b' ++ r') : b = b' := by
  cases h with
  | v3 => exact absurd rfl h3
  | v45 hv h1 h2 hi =>
    cases h' with
    | v3 =>
      simp only [List.cons_append, List.cons.injEq] at e
      rcases hv with rfl | rfl <;> exact absurd e.1 (by decide)
    | v45 hv' h1' h2' hi' =>
      simp only [List.cons_append, List.cons.injEq, List.append_assoc] at e
      obtain ⟨rfl, rfl, rfl, rfl, e1⟩ := e
      obtain ⟨hl, e2⟩ := be2_inj h1 h1' e1
      obtain ⟨rfl, e3⟩ := List.append_inj e2 hl
      obtain ⟨hl, e4⟩ := be2_inj h2 h2' e3
      obtain ⟨rfl, e5⟩ := List.append_inj e4 hl
      simp only [List.cons.injEq] at e5
      obtain ⟨rfl, rfl, e6⟩ := e5
      rw [MPIs_prefix hi hi' e6]

/-- C40: a signature of version 4 or 5 that parses is complete: it has all its fields, among them the integers its algorithm requires. -/
theorem C40_complete (X : Ext) (c : Option Ctx) {v : UInt8} {q enc : Bytes} (hv : v = 4 ∨ v = 5) (he : Encodes 2 (v :: q) enc)
    (sched : List Nat) (hok : (parseSrc X c (Source.src ⟨enc, rawErr .eof, sched⟩)).res = .ok ()) :
    ∃ sig rest, v :: q = sig ++ rest ∧ SigExact sig := by
  obtain ⟨u, s, h1, h2, -⟩ := parseSrc_one_inv he (by omega) hok
  rw [tagBody_2] at h1
  unfold tag02 at h1
  ibyte b q1 at h1; iflag at h1; iadd at h1
  have key : (tag02v4 X (parseTagF X (v :: q).length) >>= fun _ => unknownData) (St.at c ([] ++ [v]) q
      ((tagItem 2 (v :: q) (ctxFlag (tagDumpFlag 2) c)).addAll [(sigVer v).item (ctxFlag Ctx.debug c)])) = (.ok u, s) := by
    rcases hv with rfl | rfl
    · exact h1
    · exact h1
  clear h1
  obtain ⟨_, s1, h, h3⟩ := bind_inv key
  unfold tag02v4 at h
  ibyte t q1 at h; iflag at h; iadd at h
  ibyte a q2 at h; iflag at h; iadd at h
  ibyte b q3 at h; iflag at h; iadd at h
  obtain ⟨_, s2, h1, h'⟩ := bind_inv h
  obtain ⟨a1, subs1, q4, is1, c1, rfl, hl1, hs1, hsh1, rfl⟩ := subArea_inv (parseTagF_keeps X _) h1
  obtain ⟨_, s3, h4, h⟩ := bind_inv h'
  obtain ⟨a2, subs2, q5, is2, c2, rfl, hl2, hs2, hsh2, rfl⟩ := subArea_inv (parseTagF_keeps X _) h4
  obtain ⟨hb, s4, h5, h⟩ := bind_inv h
  obtain ⟨q6, rfl, hl, rfl⟩ := readBytes2_inv h5
  iadd at h
  obtain ⟨ints, rest, rfl, hi⟩ := parseSig_inv h
  obtain ⟨l0, l1, rfl⟩ := length2 hl
  refine ⟨_, rest, ?_, .v45 (l0 := l0) (l1 := l1) (h := b) (t := t) hv hl1 hl2 hi⟩
  simp only [List.cons_append, List.append_assoc, List.nil_append]

/-- C40, what holds: a signature of version 4 or 5 that is cut off anywhere before the end of its last field is rejected. Missing: version 3,
where every truncation is accepted (`C40_v3_accepted`). -/
theorem C40_truncated_partial (X : Ext) (c : Option Ctx) {sig body cut enc : Bytes} (hs : SigExact sig) (h3 : sig.head? ≠ some 3)
    (hb : sig = body ++ cut) (hc : cut ≠ []) (he : Encodes 2 body enc) (sched : List Nat) :
    (parseSrc X c (Source.src ⟨enc, rawErr .eof, sched⟩)).res ≠ .ok () := by
  intro hok
  cases body with
  | nil =>
    obtain ⟨u, s, h1, h2, -⟩ := parseSrc_one_inv he (by omega) hok
    rw [tagBody_2] at h1
    unfold tag02 at h1
    obtain ⟨_, _, h, -⟩ := bind_inv h1
    rw [readByte_nil] at h; simp at h
  | cons v q =>
    have hv : v = 4 ∨ v = 5 := by
      cases hs with
      | v3 => exact absurd rfl h3
      | v45 hv _ _ _ =>
        simp only [List.cons_append, List.cons.injEq] at hb
        rw [← hb.1]; exact hv
    obtain ⟨sig', rest, h1, h2⟩ := C40_complete X c hv he sched hok
    have h3' : sig'.head? ≠ some 3 := by
      cases h2 with
      | v3 =>
        simp only [List.cons_append, List.cons.injEq] at h1
        rcases hv with rfl | rfl <;> exact absurd h1.1 (by decide)
      | v45 hv _ _ _ => rcases hv with rfl | rfl <;> simp
    have e : sig' ++ (rest ++ cut) = sig ++ [] := by rw [hb, h1]; simp
    have := SigExact_prefix h2 hs h3' e
    subst this
    rw [h1] at hb
    have := congrArg List.length hb
    simp only [List.length_append] at this
    exact hc (List.length_eq_zero_iff.mp (by omega))

/-- methods that leave the reader within its octets and never panic -/
def Safe {α} (m : P α) : Prop := ∀ c p q j, ∃ r c' p' q' j', m (St.at c p q j) = (r, St.at c' p' q' j') ∧ ((∃ a, r = .ok a) ∨ ∃ e, r = .err e)

namespace Safe
theorem bind {α β} {m : P α} {f : α → P β} (h : Safe m) (h' : ∀ a, Safe (f a)) : Safe (m >>= f) := by
  intro c p q j
  obtain ⟨r, c1, p1, q1, j1, h1, h2⟩ := h c p q j
  rcases h2 with ⟨a, rfl⟩ | ⟨e, rfl⟩
  · rw [bind_run, h1]
    exact h' a _ _ _ _
  · exact ⟨.err e, c1, p1, q1, j1, by rw [bind_run, h1], .inr ⟨e, rfl⟩⟩
theorem of_local {α} {m : P α} (h : Local m) (hr : ∀ c p q j, (∃ a, (m (St.at c p q j)).1 = .ok a) ∨ ∃ e, (m (St.at c p q j)).1 = .err e) : Safe m := by
  intro c p q j
  obtain ⟨r, n, c', l, -, h1⟩ := h.run c q
  have := hr c p q j
  rw [h1] at this
  exact ⟨r, c', _, _, _, h1 p j, this⟩
theorem pure {α} (a : α) : Safe (Pure.pure a : P α) := fun c p q j => ⟨_, c, p, q, j, rfl, .inl ⟨a, rfl⟩⟩
theorem flag (f) : Safe (flag f) := fun c p q j => ⟨_, c, p, q, j, rfl, .inl ⟨_, rfl⟩⟩
theorem add (i) : Safe (add i) := fun c p q _ => ⟨_, c, p, q, _, rfl, .inl ⟨_, rfl⟩⟩
theorem setValue (i) : Safe (setValue i) := fun c p q _ => ⟨_, c, p, q, _, rfl, .inl ⟨_, rfl⟩⟩
theorem setDump (i) : Safe (setDump i) := fun c p q _ => ⟨_, c, p, q, _, rfl, .inl ⟨_, rfl⟩⟩
theorem readByte : Safe readByte := by
  intro c p q j
  cases q with
  | nil => exact ⟨_, c, p, [], j, readByte_nil _ _ _, .inr ⟨_, rfl⟩⟩
  | cons b q => exact ⟨_, c, _, q, j, readByte_cons _ _ _ _ _, .inl ⟨_, rfl⟩⟩
theorem readBytes (n : Nat) : Safe (P.readBytes n) := by
  intro c p q j
  by_cases h : n ≤ q.length
  · exact ⟨_, c, _, _, j, readBytes_ok _ _ _ _ _ h, .inl ⟨_, rfl⟩⟩
  · exact ⟨_, c, _, _, j, readBytes_err _ _ _ _ _ (by omega), .inr ⟨_, rfl⟩⟩
theorem nested {α} (i) {m : P α} (h : Safe m) : Safe (nested i m) := by
  intro c p q j
  obtain ⟨r, c1, p1, q1, j1, h1, h2⟩ := h c p q i
  exact ⟨r, c1, p1, q1, _, by rw [nested_run, h1]; rfl, h2⟩
theorem ite {α} {b : Prop} [Decidable b] {m m' : P α} (h : Safe m) (h' : Safe m') : Safe (if b then m else m') := by
  split <;> assumption
theorem addMPI (n) : Safe (addMPI n) := by
  unfold Gpgpdump.addMPI Gpgpdump.newMPI
  exact bind (bind (readBytes 2) fun _ => bind (readBytes _) fun _ => pure _) fun _ => bind (flag _) fun _ => add _
theorem addOpaque (n) : Safe (addOpaque n) := by
  unfold Gpgpdump.addOpaque
  exact bind (flag _) fun _ => fun c p q j => ⟨_, c, p, q, _, addRaw_run _ _ _ _ _ _, .inl ⟨_, rfl⟩⟩
theorem parseSig (a) : Safe (parseSig a) := by
  unfold Gpgpdump.parseSig
  split
  · exact addMPI _
  · exact bind (addMPI _) fun _ => addMPI _
  · exact bind (addMPI _) fun _ => addMPI _
  · exact addOpaque _
  · exact bind (addMPI _) fun _ => addMPI _
  · exact bind (addMPI _) fun _ => addMPI _
  · exact addOpaque _
theorem tag02v3 (X : Ext) : Safe (tag02v3 X) := by
  unfold Gpgpdump.tag02v3 Gpgpdump.newDateTime
  refine bind readByte fun sz => bind (nested _ ?_) fun _ => ?_
  · refine ite (bind (setValue _) fun _ => bind (readBytes _) fun _ => bind (flag _) fun _ => setDump _) ?_
    refine bind readByte fun _ => bind (flag _) fun _ => bind (add _) fun _ => bind (flag _) fun _ => ?_
    exact bind (bind (readBytes 4) fun _ => pure _) fun _ => bind (flag _) fun _ => add _
  · refine bind (readBytes 8) fun _ => bind (add _) fun _ => bind readByte fun _ => bind (flag _) fun _ => bind (add _) fun _ => ?_
    refine bind readByte fun _ => bind (flag _) fun _ => bind (add _) fun _ => bind (readBytes 2) fun _ => bind (add _) fun _ => parseSig _
end Safe

theorem onePacket_ok {X : Ext} {tag : Nat} {body : Bytes} {c : Option Ctx} {u s}
    (h : tagBody X (parseTagF X body.length) tag (St.at c [] body (tagItem tag body (ctxFlag (tagDumpFlag tag) c))) = (.ok u, s)) :
    onePacket (parseTag X) tag body c = (.ok s.cur, s.ctx) := by
  unfold onePacket
  rw [parseTag_run, scope_run]
  have : (tagBody X (parseTagF X body.length) tag >>= fun _ => getCur)
      (St.at c [] body (tagItem tag body (ctxFlag (tagDumpFlag tag) c))) = (.ok s.cur, s) := by
    rw [bind_run, h]; rfl
  rw [this]

theorem onePacket_err {X : Ext} {tag : Nat} {body : Bytes} {c : Option Ctx} {e s}
    (h : tagBody X (parseTagF X body.length) tag (St.at c [] body (tagItem tag body (ctxFlag (tagDumpFlag tag) c))) = (.err e, s)) :
    onePacket (parseTag X) tag body c = (.err e, s.ctx) := by
  unfold onePacket
  rw [parseTag_run, scope_run]
  have : (tagBody X (parseTagF X body.length) tag >>= fun _ => getCur)
      (St.at c [] body (tagItem tag body (ctxFlag (tagDumpFlag tag) c))) = (.err e, s) := by
    rw [bind_run, h]
  rw [this]

/-- C40 fails for version 3: whatever follows the version octet — nothing at all, or a signature cut off anywhere — the packet is
accepted. -/
theorem C40_v3_accepted (X : Ext) (c : Option Ctx) {q enc : Bytes} (he : Encodes 2 (3 :: q) enc) (sched : List Nat) :
    (parseSrc X c (Source.src ⟨enc, rawErr .eof, sched⟩)).res = .ok () := by
  obtain ⟨h1, -, -⟩ := parseSrc_single X c he (by decide) sched
  have : ∃ s, tagBody X (parseTagF X (3 :: q).length) 2 (St.at c [] (3 :: q) (tagItem 2 (3 :: q) (ctxFlag (tagDumpFlag 2) c))) = (.ok (), s) := by
    rw [tagBody_2, tag02_3_run, bind_run]
    obtain ⟨r, c', p', q', j', h2, h3⟩ := Safe.tag02v3 X c ([] ++ [3]) q
      ((tagItem 2 (3 :: q) (ctxFlag (tagDumpFlag 2) c)).add ((sigVer 3).item (ctxFlag Ctx.debug c)))
    unfold failed
    rw [h2]
    rcases h3 with ⟨a, rfl⟩ | ⟨e, rfl⟩
    · simp only [Bool.false_eq_true, if_false]
      exact ⟨_, unknownData_run _ _ _ _⟩
    · exact ⟨_, rfl⟩
  obtain ⟨s, h⟩ := this
  rw [h1, onePacket_ok h]
  rfl

/-- A complete RFC 4880 version 4 DSA signature, and a cut of it, meet the hypotheses of `C40_complete` and
`C40_truncated_partial`. -/
example : SigExact [4, 0, 17, 8, 0, 0, 0, 0, 1, 2, 0, 1, 1, 0, 1, 1] ∧ [4, 0, 17, 8, 0, 0, 0, 0, 1, 2, 0, 1, 1, 0, 1, 1] =
    [4, 0, 17, 8, 0, 0, 0, 0, 1, 2, 0, 1, 1] ++ ([0, 1, 1] : Bytes) :=
  ⟨SigExact.v45 (v := 4) (t := 0) (a := 17) (h := 8) (l0 := 1) (l1 := 2) (a1 := []) (a2 := []) (.inl rfl) (by decide) (by decide)
    (MPIs.succ (bits := 1) (data := [1]) (by decide) rfl (MPIs.succ (bits := 1) (data := [1]) (by decide) rfl .zero)), rfl⟩

/-! ## C41 -/

/-- C41 (partial: a body that ends before the chunk-size octet is reported; missing: the same for a cut inside the
initialization vector, which is false of the program, `C41_iv_accepted`). -/
theorem C41_header_cut_partial (X : Ext) (c : Option Ctx) {body enc : Bytes} (he : Encodes 20 body enc) (hl : body.length < 4)
    (sched : List Nat) : ∃ e, (parseSrc X c (Source.src ⟨enc, rawErr .eof, sched⟩)).res = .err e := by
  obtain ⟨h1, -, -⟩ := parseSrc_single X c he (by decide) sched
  have : ∃ e s, tagBody X (parseTagF X body.length) 20 (St.at c [] body (tagItem 20 body (ctxFlag (tagDumpFlag 20) c))) = (.err e, s) := by
    rw [tagBody_20]
    match body, hl with
    | [], _ => simp only [tag20, bind_run, readByte_nil]; exact ⟨_, _, rfl⟩
    | [_], _ => simp only [tag20, bind_run, flag_run, add_run, readByte_cons, readByte_nil]; exact ⟨_, _, rfl⟩
    | [_, _], _ => simp only [tag20, bind_run, flag_run, add_run, readByte_cons, readByte_nil]; exact ⟨_, _, rfl⟩
    | [_, _, _], _ => simp only [tag20, bind_run, flag_run, add_run, readByte_cons, readByte_nil]; exact ⟨_, _, rfl⟩
    | _ :: _ :: _ :: _ :: _, h => simp at h; omega
  obtain ⟨e, s, h⟩ := this
  rw [h1, onePacket_err h]
  exact ⟨_, rfl⟩

/-- C41 fails inside the initialization vector: every body of at least four octets is accepted, however little of the vector
follows, for every algorithm. -/
theorem C41_iv_accepted (X : Ext) (c : Option Ctx) {v sym aead sz : UInt8} {part enc : Bytes}
    (he : Encodes 20 (v :: sym :: aead :: sz :: part) enc) (sched : List Nat) :
    (parseSrc X c (Source.src ⟨enc, rawErr .eof, sched⟩)).res = .ok () := by
  obtain ⟨h1, -, -⟩ := parseSrc_single X c he (by decide) sched
  have : ∃ s, tagBody X (parseTagF X (v :: sym :: aead :: sz :: part).length) 20
      (St.at c [] (v :: sym :: aead :: sz :: part) (tagItem 20 (v :: sym :: aead :: sz :: part) (ctxFlag (tagDumpFlag 20) c))) = (.ok (), s) := by
    rw [tagBody_20]
    simp only [tag20, bind_run, flag_run, readByte_cons, add_run, St.at_ctx]
    by_cases h : aeadIVLen aead ≤ part.length
    · simp only [failed, bind_run, readBytes_ok _ _ _ _ _ h, add_run, Bool.false_eq_true, if_false, rest_run]
      by_cases hr : ((part.drop (aeadIVLen aead)).length : Int) > 0
      · simp only [hr, if_true, bind_run, flag_run, addRaw_run]
        exact ⟨_, rfl⟩
      · simp only [hr, if_false, pure_run]
        exact ⟨_, rfl⟩
    · simp only [failed, bind_run, readBytes_err _ _ _ _ _ (Nat.lt_of_not_le h), if_true]
      exact ⟨_, rfl⟩
  obtain ⟨s, h⟩ := this
  rw [h1, onePacket_ok h]
  rfl

/-- An EAX packet (16-octet vector) with one octet of its vector, and one cut in its header. -/
example : Encodes 20 [1, 9, 1, 14, 0xAA] [0xD4, 5, 1, 9, 1, 14, 0xAA] ∧ Encodes 20 [1, 9] [0xD4, 2, 1, 9] :=
  ⟨Encodes.new (tag := 20) (by decide) (NewBody.last (body := [1, 9, 1, 14, 0xAA]) (NewLength.one (by decide))),
    Encodes.new (tag := 20) (by decide) (NewBody.last (body := [1, 9]) (NewLength.one (by decide)))⟩

/-! ## C26 -/

namespace Spec

/-- the tag octet and length octets in front of a body of `n` octets (RFC 4880 4.2, definite lengths) -/
inductive Header : Nat → Nat → Bytes → Prop
  | old {tag n lt} (ht : tag < 16) (hl : lt ≤ 2) (hb : n < 256 ^ (2 ^ lt)) :
      Header tag n (UInt8.ofNat (128 + tag * 4 + lt) :: beOctets (2 ^ lt) n)
  | new {tag n lenc} (ht : tag < 64) (h : NewLength n lenc) : Header tag n (UInt8.ofNat (192 + tag) :: lenc)

theorem Header.encodes {tag n hdr} (h : Header tag n hdr) {body : Bytes} (hl : body.length = n) : Encodes tag body (hdr ++ body) := by
  subst hl
  cases h with
  | old ht hl hb => exact .old ht hl hb
  | new ht h => exact .new ht (.last h)

end Spec

open Src in
theorem readHeader_header {tag n : Nat} {hdr rest : Bytes} (hh : Header tag n hdr) {s : Src} (l : Lazy s) (hd : s.data = hdr ++ rest) :
    ∃ s', readHeader s = (.ok (tag, .span n), s') ∧ s'.data = rest ∧ Kin s s' := by
  unfold readHeader
  rcases readFullIO_spec l (n := 1) with ⟨s1, h1, hl1, hd1, k1⟩ | ⟨e, s1, h1, hlt, k1, hc⟩
  · have l1 := k1.isLazy l
    rw [h1]
    cases hh with
    | @old lt ht hl hb =>
      have e := ofNat_toNat (128 + tag * 4 + lt) (by omega)
      rw [hd] at hd1 ⊢
      simp only [List.cons_append, List.take_succ_cons, List.take_zero, List.drop_succ_cons, List.drop_zero, beNat_singleton] at hd1 ⊢
      rw [e, if_neg (by omega), if_pos (by omega), if_neg (by omega)]
      have e2 : (128 + tag * 4 + lt) % 4 = lt := by omega
      have e3 : (128 + tag * 4 + lt) % 64 / 4 = tag := by omega
      rw [e2, e3]
      rcases readFull_spec l1 (n := 2 ^ lt) with ⟨s2, h2, hl2, hd2, k2⟩ | ⟨e, s2, h2, hlt, k2, ht⟩
      · rw [h2]
        rw [hd1] at hd2 ⊢
        refine ⟨s2, ?_, ?_, k1.trans k2⟩
        · rw [List.take_append_of_le_length (by simp), List.take_of_length_le (by simp)]
          simp only [beNat_beOctets _ _ hb]
        · rw [hd2, List.drop_append_of_le_length (by simp), List.drop_of_length_le (by simp)]; rfl
      · rw [hd1] at hlt; simp at hlt; omega
    | @new lenc ht h =>
      have e := ofNat_toNat (192 + tag) (by omega)
      rw [hd] at hd1 ⊢
      simp only [List.cons_append, List.take_succ_cons, List.take_zero, List.drop_succ_cons, List.drop_zero, beNat_singleton] at hd1 ⊢
      rw [e, if_neg (by omega), if_neg (by omega)]
      have e3 : (192 + tag) % 64 = tag := by omega
      rw [e3]
      rcases readLength_spec l1 with ⟨m, p, s2, h2, hd2, k2⟩ | ⟨e, s2, h2, hd2, k2, ht⟩
      · rw [h2]
        rw [hd1, decLength_complete h] at hd2
        simp only [Option.some.injEq, Prod.mk.injEq] at hd2
        obtain ⟨rfl, rfl, h3⟩ := hd2
        exact ⟨s2, rfl, h3.symm, k1.trans k2⟩
      · rw [hd1, decLength_complete h] at hd2; cases hd2
  · rw [hd] at hlt
    cases hh <;> simp at hlt

/-- reading a packet that is cut off from a `reader.Reader`: the error says "unexpected EOF" only if some of the body is there -/
theorem nextPacket_strict {X : Ext} {tag n : Nat} {hdr part : Bytes} (hh : Header tag n hdr) {s : Src} (hs : s.strict = true)
    (hd : s.data = hdr ++ part) (hp : part.length < n) (h512 : part.length < 512) :
    ∃ s', nextPacket X s = (.error (if part = [] then wrapErr .eof else wrapErr .unexpectedEOF), s') := by
  obtain ⟨s1, h1, hd1, k1⟩ := readHeader_header hh (.inl hs) hd
  unfold nextPacket
  rw [h1]
  simp only [readAll]
  have hs1 : s1.strict = true := k1.strict.trans hs
  obtain ⟨m, rfl⟩ : ∃ m, n = m + 1 := ⟨n - 1, by omega⟩
  have key : s1.read (min 512 (m + 1)) = ([], some (if part = [] then wrapErr .eof else wrapErr .unexpectedEOF), s1) := by
    unfold Src.read
    rw [if_pos hs1, hd1]
    by_cases h0 : part = []
    · simp [h0]
    · rw [if_neg (by simpa using h0), if_pos (by omega), if_neg h0]
  have : readAllLoop X (s1.data.length + 2) (.span (m + 1)) s1 0 512 =
      ([], some (if part = [] then wrapErr .eof else wrapErr .unexpectedEOF), .span (m + 1), s1) := by
    rw [readAllLoop]
    simp only [ge_iff_le, Nat.le_zero_eq, Nat.reduceEqDiff, if_false, Body.read, Nat.sub_zero, key]
    by_cases h0 : part = [] <;> simp [h0, wrapErr, rawErr, GoErr.eqEOF]
  rw [this]
  exact ⟨_, rfl⟩

/-- the packet loop over a `reader.Reader` with complete packets and then something unreadable -/
theorem forPackets_strict {X : Ext} {p : TagParser} (hp : Scoped p) {ps : List (Nat × Bytes)} {a cut : Bytes} (hc : ClosedSeq ps a) {e : GoErr}
    (hcut : ∀ s : Src, s.strict = true → s.data = cut → ∃ s', nextPacket X s = (.error e, s')) {f : Nat} {src : Src} (hs : src.strict = true)
    (hd : src.data = a ++ cut) (hf : src.data.length < f) (st : St) :
    forPackets X p f src st = stepped st (thenErr (seqPackets p ps st.ctx) (if e.isEOF then none else some e.wrap)) := by
  induction hc generalizing f src st with
  | nil =>
    obtain ⟨f, rfl⟩ : ∃ g, f = g + 1 := ⟨f - 1, by omega⟩
    obtain ⟨s', h⟩ := hcut src hs hd
    exact forPackets_err st h
  | @cons tag body ps enc a he hps ih =>
    obtain ⟨f, rfl⟩ : ∃ g, f = g + 1 := ⟨f - 1, by omega⟩
    obtain ⟨hk, hm⟩ := nextPacket_spec (X := X) (s := src) (.inl hs)
    rw [List.append_assoc] at hd
    have hdec := decNext_complete he (a ++ cut)
    rw [hd, hdec] at hm
    rcases hn : nextPacket X src with ⟨r, src'⟩
    rw [hn] at hk hm
    obtain ⟨rfl, h2⟩ := hm
    have hlt := decNext_shorter hdec
    refine forPackets_ok hp st hn ps _ fun st => ?_
    exact ih (hk.strict.trans hs) h2 (by rw [h2]; rw [hd] at hf; omega) st

theorem seqSubs_ok {p} {subs : List (UInt8 × Bytes)} {c} (h : (seqSubs p subs c).2.1 = .ok ()) {t b} (hm : (t, b) ∈ subs) :
    ∃ c1 i c2, oneSub p t b c1 = (.ok i, c2) := by
  induction subs generalizing c with
  | nil => cases hm
  | cons x subs ih =>
    obtain ⟨t', b'⟩ := x
    simp only [seqSubs] at h
    rcases ho : oneSub p t' b' c with ⟨r, c'⟩
    rw [ho] at h
    cases r with
    | ok i =>
      rcases List.mem_cons.mp hm with hm | hm
      · cases hm; exact ⟨_, _, _, ho⟩
      · exact ih h hm
    | _ => simp at h

theorem subArea_ok {X : Ext} {recur : TagParser} {name : Str} {area : Bytes} {subs} (hs : SubSeq subs area) (hl : area.length < 65536) {c p q j u s}
    (h : subArea X recur name (St.at c p (beOctets 2 area.length ++ area ++ q) j) = (.ok u, s)) :
    (∀ t b, (t, b) ∈ subs → ∃ c1 i c2, oneSub (parseSub02 X recur) t b c1 = (.ok i, c2)) ∧
    ∃ c' j', s = St.at c' (p ++ beOctets 2 area.length ++ area) q j' := by
  rw [subArea_res X recur name hs hl] at h
  simp only [Prod.mk.injEq] at h
  refine ⟨fun t b hm => ?_, _, _, h.2.symm⟩
  unfold areaRes at h
  by_cases h0 : area = []
  · have := (SubSeq.nil_left hs).mp h0
    subst this; cases hm
  · simp only [h0, if_false] at h
    have h1 := h.1
    unfold areaOut at h1
    cases hr : (seqSubs (parseSub02 X recur) subs c).2.1 with
    | ok => exact seqSubs_ok hr hm
    | _ => rw [hr] at h1; simp at h1

/-- in an accepted signature every subpacket is accepted -/
theorem sig_subs_ok {X : Ext} {c : Option Ctx} {body area enc : Bytes} {subs : List (UInt8 × Bytes)} (ha : SigArea body area)
    (hs : SubSeq subs area) (he : Encodes 2 body enc) {sched : List Nat}
    (hok : (parseSrc X c (Source.src ⟨enc, rawErr .eof, sched⟩)).res = .ok ()) {t : UInt8} {b : Bytes} (hm : (t, b) ∈ subs) :
    ∃ c1 i c2, oneSub (parseSub02 X (parseTagF X body.length)) t b c1 = (.ok i, c2) := by
  obtain ⟨u, s, h1, h2, -⟩ := parseSrc_one_inv he (by omega) hok
  rw [tagBody_2] at h1
  have key : ∀ {v : UInt8} {q : Bytes}, v = 4 ∨ v = 5 → body = v :: q → ∃ c p j u s, tag02v4 X (parseTagF X body.length) (St.at c p q j) = (.ok u, s) := by
    intro v q hv hb
    rw [hb] at h1
    unfold tag02 at h1
    ibyte b q1 at h1; iflag at h1; iadd at h1
    rcases hv with rfl | rfl
    all_goals
      obtain ⟨_, s2, h4, h5⟩ := bind_inv h1
      exact ⟨_, _, _, _, _, by rw [hb]; exact h4⟩
  cases ha with
  | @hashed v s p h _ rest hv hl =>
    obtain ⟨c1, p1, j1, u1, s1, h⟩ := key hv rfl
    unfold tag02v4 at h
    ibyte t q1 at h; iflag at h; iadd at h
    ibyte a q2 at h; iflag at h; iadd at h
    ibyte b q3 at h; iflag at h; iadd at h
    obtain ⟨_, s1, h1, h'⟩ := bind_inv h
    exact (subArea_ok hs hl h1).1 _ _ hm
  | @unhashed v s p h first _ rest hv hl hl' =>
    obtain ⟨c1, p1, j1, u1, s1, h⟩ := key hv rfl
    unfold tag02v4 at h
    ibyte t q1 at h; iflag at h; iadd at h
    ibyte a q2 at h; iflag at h; iadd at h
    ibyte b q3 at h; iflag at h; iadd at h
    obtain ⟨_, s1, h1, h'⟩ := bind_inv h
    obtain ⟨a1, subs1, q4, is1, cc, e, hl1, hs1, -, -⟩ := subArea_inv (parseTagF_keeps X _) h1
    rw [List.append_assoc, List.append_assoc] at e
    obtain ⟨e1, e2⟩ := be2_inj hl hl1 e
    obtain ⟨rfl, -⟩ := List.append_inj e2 e1
    obtain ⟨-, c', j', rfl⟩ := subArea_ok hs1 hl1 h1
    obtain ⟨_, s1, h1, h⟩ := bind_inv h'
    exact (subArea_ok hs hl' h1).1 _ _ hm

/-- a key-block subpacket: its result is that of the packets in its key data -/
theorem oneSub_38 (X : Ext) {recur : TagParser} {t : UInt8} (ht : t.toNat % 128 = 38) {ps : List (Nat × Bytes)} {a cut : Bytes} (hc : ClosedSeq ps a)
    (hp : Scoped recur) {e : GoErr}
    (hcut : ∀ s : Src, s.strict = true → s.data = cut → ∃ s', nextPacket X s = (.error e, s')) (c : Option Ctx) :
    (oneSub (parseSub02 X recur) t (0 :: (a ++ cut)) c).1 =
      (thenErr (seqPackets recur ps c) (if e.isEOF then none else some e.wrap)).2.1.map fun _ =>
        (subItem t (0 :: (a ++ cut)) (ctxFlag Ctx.debug c)).addAll [numItem (S "Type") 0,
          (newItem (S "Key data") [] (nBytes (a ++ cut).length) (dumpBytes (a ++ cut) (ctxFlag Ctx.debug c))).addAll (seqPackets recur ps c).1] := by
  have hrd : (⟨[(0 : UInt8)] ++ (a ++ cut), [(0 : UInt8)].length⟩ : Reader).remaining = a ++ cut := rfl
  have loop : ∀ st, packetLoop X recur (Src.ofReader ⟨[(0 : UInt8)] ++ (a ++ cut), [(0 : UInt8)].length⟩) st =
      stepped st (thenErr (seqPackets recur ps st.ctx) (if e.isEOF then none else some e.wrap)) := by
    intro st
    unfold packetLoop
    exact forPackets_strict hp hc hcut rfl hrd (Nat.lt_succ_self _) st
  have hb : sub02Body X recur (t &&& 0x7f).toNat = sub38 X recur := by rw [and_7f, ht, sub02Body_38]
  unfold oneSub parseSub02 subScope
  simp only [bind_run, flag_run, scope_run, hb]
  unfold sub38
  simp only [bind_run, flag_run, readByte_cons, add_run, if_true, reader_run, build_run, St.at_rd, List.nil_append, loop, rawData_at]
  simp only [St.at_ctx, dumpBytes_eq]
  rcases seqPackets recur ps c with ⟨l, r, c'⟩
  by_cases he : e.isEOF = true
  · simp only [he, if_true]
    cases r <;> rfl
  · simp only [he, Bool.false_eq_true, if_false]
    cases r <;> rfl

/-- C26 (partial: the key data ends after at least one octet, but fewer than 512 octets, of the body of a packet with a definite
length): `Parse` does not succeed. The other cuts: missing are cuts at the end of the header, which the program accepts silently
(`C26_header_accepted`, `C26_silent`), and those inside a header, inside packets with partial lengths, or after 512 octets and
more, where the program reports the cut only if it does not coincide with a buffer boundary. -/
theorem C26_reported_partial (X : Ext) (c : Option Ctx) {body area enc : Bytes} {subs : List (UInt8 × Bytes)} (ha : SigArea body area)
    (hs : SubSeq subs area) (he : Encodes 2 body enc) {st : UInt8} (ht : st.toNat % 128 = 38) {ps : List (Nat × Bytes)}
    {a hdr part : Bytes} {tag n : Nat} (hm : (st, 0 :: (a ++ (hdr ++ part))) ∈ subs) (hc : ClosedSeq ps a) (hh : Header tag n hdr)
    (h0 : part ≠ []) (hn : part.length < n) (h512 : part.length < 512) (sched : List Nat) :
    (parseSrc X c (Source.src ⟨enc, rawErr .eof, sched⟩)).res ≠ .ok () := by
  intro hok
  obtain ⟨c1, i, c2, h⟩ := sig_subs_ok ha hs he hok hm
  have := oneSub_38 X ht hc (parseTagF_scoped X body.length) (e := wrapErr .unexpectedEOF)
    (fun s hs hd => by have := nextPacket_strict (X := X) hh hs hd hn h512; rwa [if_neg h0] at this) c1
  rw [h] at this
  revert this
  rcases seqPackets (parseTagF X body.length) ps c1 with ⟨l, r, c'⟩
  cases r <;> simp [thenErr, wrapErr, GoErr.isEOF, Res.map]

/-- C26 fails for key data that ends with the header of a packet: a key-block subpacket whose key data is the packets `ps` and
then the header of a packet of any positive length is accepted whenever the packets `ps` are, with the items of `ps`. -/
theorem C26_header_accepted (X : Ext) (c : Option Ctx) (recur : TagParser) (hr : Scoped recur) {st : UInt8} (ht : st.toNat % 128 = 38)
    {ps : List (Nat × Bytes)} {a hdr : Bytes} {tag n : Nat} (hc : ClosedSeq ps a) (hh : Header tag n hdr) (hn : 0 < n) {is c'}
    (hok : seqPackets recur ps c = (is, .ok (), c')) :
    ∃ i k, (oneSub (parseSub02 X recur) st (0 :: (a ++ hdr)) c).1 = .ok i ∧ i.items = [numItem (S "Type") 0, k] ∧ k.items = is := by
  have := oneSub_38 X ht hc hr (cut := hdr) (e := wrapErr .eof)
    (fun s hs hd => by have := nextPacket_strict (X := X) (part := []) hh hs (by simpa using hd) hn (by decide); rwa [if_pos rfl] at this) c
  rw [hok] at this
  refine ⟨_, _, this, rfl, rfl⟩

/-- C26 fails at the level of `Parse`: a signature with a key block that consists of a user ID packet and the header of a second
one is accepted, and the same signature with one octet of the second body is not. -/
theorem C26_silent :
    (parseSrc Tests.X (some Ctx.empty) (Src.ofBytes ([0xc2, 21, 4, 0, 1, 8, 0, 0, 0, 8, 7, 38, 0, 0xcd, 1, 0x41, 0xcd, 5, 0xa0, 0xff, 0, 1, 1]))).res = .ok () ∧
    (parseSrc Tests.X (some Ctx.empty) (Src.ofBytes ([0xc2, 22, 4, 0, 1, 8, 0, 0, 0, 9, 8, 38, 0, 0xcd, 1, 0x41, 0xcd, 5, 0x42, 0xa0, 0xff, 0, 1, 1]))).res =
      .err (wrapErr .unexpectedEOF).wrap := by
  decide +kernel

/-- the second signature of `C26_silent` meets the hypotheses of `C26_reported_partial` -/
example : ∃ body area subs enc, SigArea body area ∧ SubSeq subs area ∧ Encodes 2 body enc ∧
    ((38, 0 :: ([0xcd, 1, 0x41] ++ ([0xcd, 5] ++ [0x42]))) : UInt8 × Bytes) ∈ subs ∧ ClosedSeq [(13, [0x41])] [0xcd, 1, 0x41] ∧
    Header 13 5 [0xcd, 5] := by
  have h := SubSeq.cons (t := 38) (body := 0 :: ([0xcd, 1, 0x41] ++ ([0xcd, 5] ++ [0x42]))) (.one (by decide)) .nil
  have ha := SigArea.unhashed (v := 4) (s := 0) (p := 1) (h := 8) (first := []) (area := [8, 38, 0, 0xcd, 1, 0x41, 0xcd, 5, 0x42])
    (rest := [0xa0, 0xff, 0, 1, 1]) (.inl rfl) (by decide) (by decide)
  exact ⟨_, _, _, _, ha, h, .old (lt := 0) (by decide) (by decide) (by decide), List.mem_cons_self,
    ClosedSeq.cons (Encodes.new (tag := 13) (body := [0x41]) (by decide) (.last (.one (by decide)))) .nil,
    Header.new (tag := 13) (by decide) (.one (by decide))⟩

end Gpgpdump
