import Verif.SubsApi
import Verif.ThmPacketsApi

/-!
# C97: subpackets made by `NewSubs` and parsed any number of times

`Parse` shows the octets that no earlier `Parse` has read, as a subpacket of their own; only the number of bytes in the header line is
that of the whole subpacket.
-/

namespace Gpgpdump
open Spec P

namespace Spec

/-- the types of subpackets of signatures whose octets are used up by `Parse` -/
def subUses : List Nat := [2, 3, 4, 5, 7, 9, 12, 16, 20, 23, 25, 27, 29, 30, 31, 33, 35]

/-- those of them that make an item of their own, without the size -/
def subOwn : List Nat := [2, 3, 9, 16]

/-- the type without the critical bit -/
def subNumber (typ : UInt8) : Nat := typ.toNat % 128

/-- the header line, if it is returned, shows `n` bytes -/
def subSized (n : Nat) (own : Prop) [Decidable own] : Returned → Returned
  | .ret i none => if own then .ret i none else sized n (.ret i none)
  | r => sized n r

/-- the first call of `Parse` on a new subpacket with the contents `body`: the answer and the context afterwards -/
def subOnce (X : Ext) (sig : Bool) (typ : UInt8) (c : Option Ctx) (body : Bytes) : Returned × Option Ctx :=
  ((SubObj.parse X ⟨sig, typ, Reader.new body⟩ c).1, (SubObj.parse X ⟨sig, typ, Reader.new body⟩ c).2.1)

/-- calls of `Parse`, where `u` is not yet read and `left` tells what one call leaves -/
def subCalls (X : Ext) (left : Option Ctx → Bytes → Bytes) (sig : Bool) (typ : UInt8) (n : Nat) :
    List (Option Ctx) → Bytes → List (Returned × Option Ctx)
  | [], _ => []
  | c :: cs, u =>
    (if sig = true ∧ subNumber typ ∈ subUses then subSized n (subNumber typ ∈ subOwn) (subOnce X sig typ c u).1 else (subOnce X sig typ c u).1,
      (subOnce X sig typ c u).2) :: subCalls X left sig typ n cs (left c u)

end Spec

/-! ## Methods on a reader that is not at the beginning -/

/-- What happens depends on the octets not yet read; the header line is changed in a way that does not depend on its note. `over`: the
reader may be moved behind the end. `eats`: with success at least one octet is read. -/
structure Again (over eats : Bool) {α} (m : P α) : Prop where
  run : ∀ c q, ∃ (r : Res α) (u : Bytes) (c' : Option Ctx) (H : Item → Item), u <:+ q ∧ (∀ j n, H (j.setNote n) = (H j).setNote n) ∧
    (eats = true → (∃ a, r = .ok a) → u.length < q.length) ∧
    ∀ p j, ∃ rd, m (St.at c p q j) = (r, ⟨c', rd, H j⟩) ∧ rd.buf = p ++ q ∧ rd.remaining = u ∧ (over = false → rd.off ≤ rd.size)

namespace Again

theorem loose {over α} {m : P α} (h : Loose over m) : Again over false m := ⟨fun c q => by
  obtain ⟨r, u, c', l, h1, h2⟩ := h.run c q
  exact ⟨r, u, c', (·.addAll l), h1, fun _ _ => rfl, nofun, h2⟩⟩
theorem loc {over α} {m : P α} (h : Local m) : Again over false m := loose (.of h)
theorem cur {over} (f : Item → Item) (hf : ∀ j n, f (j.setNote n) = (f j).setNote n) {m : P Unit} (h : ∀ st, m st = (.ok (), { st with cur := f st.cur })) :
    Again over false m := ⟨fun c q => ⟨.ok (), q, c, f, List.suffix_refl _, hf, nofun, fun p j => ⟨⟨p ++ q, p.length⟩, by rw [h]; rfl, rfl, by simp [Reader.remaining],
      fun _ => by simp [Reader.size]⟩⟩⟩
theorem setValue {over} (v) : Again over false (P.setValue v) := cur (·.setValue v) (fun _ _ => rfl) fun _ => rfl
theorem setDump {over} (v) : Again over false (P.setDump v) := cur (·.setDump v) (fun _ _ => rfl) fun _ => rfl

theorem bind {over e e' α β} {m : P α} {f : α → P β} (h : Again false e m) (h' : ∀ a, Again over e' (f a)) : Again over (e || e') (m >>= f) := ⟨fun c q => by
  obtain ⟨r, u, c1, H, hu, hH, he, h1⟩ := h.run c q
  have hlen := hu.length_le
  cases r with
  | ok a =>
    obtain ⟨r, u2, c2, H2, hu2, hH2, he2, h2⟩ := (h' a).run c1 u
    have hlen2 := hu2.length_le
    refine ⟨r, u2, c2, H2 ∘ H, hu2.trans hu, fun j n => by simp only [Function.comp, hH, hH2], ?_, fun p j => ?_⟩
    · intro hee hr
      cases e with
      | true => have := he rfl ⟨a, rfl⟩; omega
      | false => have := he2 hee hr; omega
    · obtain ⟨rd, h3, h4, h5, h6⟩ := h1 p j
      have hs := reader_split rd (h6 rfl)
      have e5 : rd.buf.drop rd.off = u := h5
      rw [e5] at hs
      obtain ⟨rd2, h7, h8, h9⟩ := h2 (rd.buf.take rd.off) (H j)
      refine ⟨rd2, ?_, ?_, h9⟩
      · rw [bind_run, h3]
        show f a _ = _
        rw [hs]
        exact h7
      · rw [h8, ← h4, ← e5, List.take_append_drop]
  | err x => exact ⟨.err x, u, c1, H, hu, hH, (fun _ ⟨_, h⟩ => nomatch h), fun p j => by
      obtain ⟨rd, h3, h4, h5, h6⟩ := h1 p j; exact ⟨rd, by rw [bind_run, h3], h4, h5, fun _ => h6 rfl⟩⟩
  | panic x => exact ⟨.panic x, u, c1, H, hu, hH, (fun _ ⟨_, h⟩ => nomatch h), fun p j => by
      obtain ⟨rd, h3, h4, h5, h6⟩ := h1 p j; exact ⟨rd, by rw [bind_run, h3], h4, h5, fun _ => h6 rfl⟩⟩
  | stuck => exact ⟨.stuck, u, c1, H, hu, hH, (fun _ ⟨_, h⟩ => nomatch h), fun p j => by
      obtain ⟨rd, h3, h4, h5, h6⟩ := h1 p j; exact ⟨rd, by rw [bind_run, h3], h4, h5, fun _ => h6 rfl⟩⟩⟩

theorem readByte {over} : Again over true P.readByte := ⟨fun c q => by
  cases q with
  | nil =>
    exact ⟨_, [], c, id, List.suffix_refl _, fun _ _ => rfl, (fun _ ⟨_, h⟩ => nomatch h), fun p j => ⟨⟨p ++ [], p.length⟩, readByte_nil c p j, rfl, by simp [Reader.remaining],
      fun _ => by simp [Reader.size]⟩⟩
  | cons b q =>
    exact ⟨_, q, c, id, List.suffix_cons _ _, fun _ _ => rfl, fun _ _ => by simp, fun p j => ⟨⟨(p ++ [b]) ++ q, (p ++ [b]).length⟩, readByte_cons c p b q j, by simp,
      by simp [Reader.remaining], fun _ => by simp [Reader.size]⟩⟩⟩
theorem readBytes {over} {n : Nat} (hn : 0 < n) : Again over true (P.readBytes n) := ⟨fun c q => by
  by_cases h : n ≤ q.length
  · refine ⟨_, q.drop n, c, id, List.drop_suffix _ _, fun _ _ => rfl, fun _ _ => by simp; omega, fun p j => ⟨⟨(p ++ q.take n) ++ q.drop n, (p ++ q.take n).length⟩,
      readBytes_ok c p q j n h, by simp, ?_, fun _ => by simp only [Reader.size, List.length_append]; omega⟩⟩
    simp only [Reader.remaining]
    rw [List.drop_left]
  · exact ⟨_, q, c, id, List.suffix_refl _, fun _ _ => rfl, (fun _ ⟨_, h⟩ => nomatch h), fun p j => ⟨⟨p ++ q, p.length⟩, readBytes_err c p q j n (by omega), rfl,
      by simp [Reader.remaining], fun _ => by simp [Reader.size]⟩⟩⟩
theorem eq {over e e' α} {m : P α} (h : Again over e m) (he : e = e') : Again over e' m := he ▸ h
theorem dump {over e β} {f : Reader → P β} (g : Bytes → P β) (h : ∀ p q, f ⟨p ++ q, p.length⟩ = g q) (hg : ∀ q, Again over e (g q)) :
    Again over e (P.reader >>= f) := ⟨fun c q => by
  obtain ⟨r, u, c', H, h1, h2, h3, h4⟩ := (hg q).run c q
  refine ⟨r, u, c', H, h1, h2, h3, fun p j => ?_⟩
  obtain ⟨rd, h5⟩ := h4 p j
  exact ⟨rd, by rw [bind_run, reader_run]; simp only [St.at_rd, h, h5.1], h5.2⟩⟩

end Again

/-- methods that return the header line with what was added to it -/
structure RootM (over eats : Bool) (m : P Item) : Prop where
  run : ∃ m' : P Unit, Again over eats m' ∧ ∀ st, m st = (m' >>= fun _ => getCur) st

namespace RootM
theorem getCur {over} : RootM over false P.getCur := ⟨Pure.pure (), .loc (.pure _), fun _ => rfl⟩
theorem last {over e} {m : P Unit} (h : Again over e m) : RootM over e (m >>= fun _ => P.getCur) := ⟨m, h, fun _ => rfl⟩
theorem bind {over e e' α} {m : P α} {f : α → P Item} (h : Again false e m) (h' : ∀ a, RootM over e' (f a)) : RootM over (e || e') (m >>= f) := by
  have : ∀ a, ∃ m' : P Unit, Again over e' m' ∧ f a = (m' >>= fun _ => P.getCur) := fun a => by
    obtain ⟨m', h1, h2⟩ := (h' a).run
    exact ⟨m', h1, funext h2⟩
  refine ⟨m >>= fun a => Classical.choose (this a), .bind h fun a => (Classical.choose_spec (this a)).1, fun st => ?_⟩
  have e : f = fun a => (Classical.choose (this a) >>= fun _ => P.getCur) := funext fun a => (Classical.choose_spec (this a)).2
  rw [bind_assoc_P, ← e]
theorem loc {over e' α} {m : P α} {f : α → P Item} (h : Local m) (h' : ∀ a, RootM over e' (f a)) : RootM over e' (m >>= f) :=
  (Bool.false_or e') ▸ bind (.loc h) h'
theorem byte {over e'} {f : UInt8 → P Item} (h' : ∀ a, RootM over e' (f a)) : RootM over true (P.readByte >>= f) :=
  bind .readByte h'
end RootM


/-- What `Parse` does with the header line `j` and the octets `q` unread: the answer `R` and the line `K`, for every size in the line -/
def Act (over own : Bool) (m : P Item) : Prop := ∀ (c : Option Ctx) (q : Bytes) (j : Item), ∃ (R : Str → Res Item) (u : Bytes) (c' : Option Ctx) (K : Str → Item),
  u <:+ q ∧ ((∃ n i, R n = .ok i) → u.length < q.length) ∧ (∀ n m, K n = (K m).setNote n) ∧
  (∀ n m, R n = (R m).map fun i => if own then i else i.setNote n) ∧
  ∀ p n, ∃ rd, m (St.at c p q (j.setNote n)) = (R n, ⟨c', rd, K n⟩) ∧ rd.buf = p ++ q ∧ rd.remaining = u ∧ (over = false → rd.off ≤ rd.size)

theorem RootM.act {over} {m : P Item} (h : RootM over true m) : Act over false m := fun c q j => by
  obtain ⟨m', h1, h2⟩ := h.run
  obtain ⟨r, u, c', H, h3, h4, h5, h6⟩ := h1.run c q
  refine ⟨fun n => r.map fun _ => H (j.setNote n), u, c', fun n => H (j.setNote n), h3, ?_, ?_, ?_, ?_⟩
  · rintro ⟨n, i, h⟩
    cases r with
    | ok a => exact h5 rfl ⟨a, rfl⟩
    | _ => cases h
  · intro n m; rw [← h4]; rfl
  · intro n m
    cases r with
    | ok a =>
      show Res.ok (H (j.setNote n)) = Res.ok ((H (j.setNote m)).setNote n)
      rw [← h4]; rfl
    | _ => rfl
  · intro p n
    obtain ⟨rd, h7, h8⟩ := h6 p (j.setNote n)
    refine ⟨rd, ?_, h8⟩
    rw [h2, bind_run, h7]
    cases r <;> rfl

theorem Again.own {k : Str → P Item} (h : ∀ nm, Again false true (k nm)) : Act false true (P.getCur >>= fun root => k root.name) := fun c q j => by
  obtain ⟨r, u, c', H, h3, h4, h5, h6⟩ := (h j.name).run c q
  refine ⟨fun _ => r, u, c', fun n => H (j.setNote n), h3, fun ⟨_, i, h⟩ => h5 rfl ⟨i, h⟩, ?_, ?_, ?_⟩
  · intro n m; rw [← h4]; rfl
  · intro n m; cases r <;> rfl
  · intro p n
    obtain ⟨rd, h7, h8⟩ := h6 p (j.setNote n)
    exact ⟨rd, h7, h8⟩

namespace Local
theorem getSigTime : Local getSigTime := getCtx _
theorem setSigTime (m) : Local (setSigTime m) := by
  constructor
  intro c q
  cases c with
  | none => exact ⟨.panic .nilCtx, 0, none, [], Nat.zero_le _, fun p j => by simp [P.setSigTime, St.at]⟩
  | some x => exact ⟨.ok (), 0, some { x with sigTime := m }, [], Nat.zero_le _, fun p j => by simp [P.setSigTime, St.at]⟩
theorem addOpt (i) : Local (addOpt i) := by
  cases i with
  | none => exact Local.pure ()
  | some i => exact Local.add i
end Local

namespace Blind
theorem addOpt (i) : Blind (addOpt i) := by
  cases i with
  | none => exact Blind.pure ()
  | some i => exact Blind.add i
theorem otherFlags (i l) : Blind (otherFlags i l) := by
  induction l generalizing i with
  | nil => exact Blind.pure ()
  | cons b bs ih => exact Blind.bind (addOpt _) fun _ => ih _
end Blind

theorem Loose.trailingFlags : Loose true trailingFlags := by
  unfold Gpgpdump.trailingFlags
  refine .bind .rest fun n => ?_
  split
  · exact Loose.read2EOF (Blind.otherFlags 2)
  · exact .of (.pure _)

section
variable (X : Ext)

theorem act02 : Act false true (sub02 X) := by
  refine Again.own (k := fun nm => do
    let tm ← newDateTime (← flag Ctx.utc)
    let i := dateTimeItem X tm nm (← flag Ctx.debug)
    setSigTime (some tm)
    return i) fun nm => ?_
  refine .eq (.bind (.loc (.flag _)) fun u => .bind (.bind (.readBytes (n := 4) (by decide)) fun tm => .loc (.pure _)) fun tm => .bind (.loc (.flag _)) fun d =>
    .bind (.loc (.setSigTime _)) fun _ => .loc (.pure _)) rfl
theorem act03 : Act false true (sub03 X) := by
  refine Again.own (k := fun nm => do
    let start ← getSigTime
    let day ← readBytes 4
    setSigTime none
    return expireItem X nm day start (← flag Ctx.debug)) fun nm => ?_
  exact .eq (.bind (.loc .getSigTime) fun u => .bind (.readBytes (n := 4) (by decide)) fun tm => .bind (.loc (.setSigTime _)) fun _ =>
    .bind (.loc (.flag _)) fun d => .loc (.pure _)) rfl
theorem act09 : Act false true (sub09 X) := by
  refine Again.own (k := fun nm => do
    let start ← getKeyTime
    let day ← readBytes 4
    setKeyTime none
    return expireItem X nm day start (← flag Ctx.debug)) fun nm => ?_
  exact .eq (.bind (.loc .getKeyTime) fun u => .bind (.readBytes (n := 4) (by decide)) fun tm => .bind (.loc (.setKeyTime _)) fun _ =>
    .bind (.loc (.flag _)) fun d => .loc (.pure _)) rfl
theorem act16 : Act false true sub16 := by
  refine Again.own (k := fun nm => do
    let keyid ← readBytes 8
    return (keyIDItem keyid).setName nm) fun nm => ?_
  exact .eq (.bind (.readBytes (n := 8) (by decide)) fun tm => .loc (.pure _)) rfl

theorem act04 : Act false false sub04 := by
  refine RootM.act ?_
  unfold sub04
  refine .byte (e' := false) fun b => .bind (e := false) (e' := false) (.setValue _) fun _ => ?_
  exact ⟨P.reader >>= fun r => P.setDump (dumpRest r true), .dump (fun q => P.setDump (Reader.dumpHex q))
    (fun p q => by rw [show dumpRest ⟨p ++ q, p.length⟩ true = _ from congrArg Item.dump (rawData_at p q [] true)]; rfl) fun q => .setDump _,
    fun st => rfl⟩
theorem act05 : Act false false sub05 := RootM.act (.byte fun _ => .loc (.add _) fun _ => .byte fun _ => .loc (.add _) fun _ => .getCur)
theorem act07 : Act false false sub07 := RootM.act (.byte fun _ => .bind (.setValue _) fun _ => .getCur)
theorem act12 : Act false false sub12 :=
  RootM.act (.byte fun _ => .loc (.add _) fun _ => .byte fun _ => .loc (.flag _) fun _ => .loc (.add _) fun _ => .loc (.addRaw _ _) fun _ => .getCur)
theorem act20 : Act false false sub20 := by
  refine RootM.act ?_
  unfold sub20
  refine .bind (e := true) (e' := false) (.readBytes (n := 4) (by decide)) fun fl => ?_
  refine .loc (.addOpt _) fun _ => .loc (.addOpt _) fun _ => .loc (.addOpt _) fun _ => .loc (.addOpt _) fun _ => .loc (.addOpt _) fun _ => ?_
  refine .loc (.readBytesI _) fun _ => .loc (.readBytesI _) fun _ => .loc (.readBytesI _) fun _ => .loc (.flag _) fun _ => .loc (.add _) fun _ => ?_
  refine .loc (.readBytesI _) fun _ => ?_
  dsimp only
  split
  · exact .loc (.flag _) fun _ => .loc (.add _) fun _ => .getCur
  · exact .loc (.add _) fun _ => .getCur
theorem act23 : Act true false sub23 := RootM.act (.byte fun _ => .loc (.addOpt _) fun _ => .loc (.addOpt _) fun _ => .last (.loose .trailingFlags))
theorem act25 : Act false false sub25 := RootM.act (.byte fun _ => .bind (.setValue _) fun _ => .getCur)
theorem act27 : Act true false sub27 := by
  refine RootM.act (.byte (e' := false) fun _ => ?_)
  refine .loc (.addOpt _) fun _ => .loc (.addOpt _) fun _ => .loc (.addOpt _) fun _ => .loc (.addOpt _) fun _ => .loc (.addOpt _) fun _ => .loc (.addOpt _) fun _ =>
    .loc (.addOpt _) fun _ => .loc (.addOpt _) fun _ => .loc .rest fun _ => ?_
  dsimp only
  split
  · exact .loc .readByte fun _ => .loc (.addOpt _) fun _ => .loc (.addOpt _) fun _ => .loc (.addOpt _) fun _ => .last (.loose .trailingFlags)
  · exact .last (.loose .trailingFlags)
theorem act29 : Act true false sub29 := by
  refine RootM.act (.byte (e' := false) fun _ => .bind (e := false) (e' := false) (.setValue _) fun _ => .loc .rest fun _ => ?_)
  dsimp only
  split
  · refine ⟨P.read2EOF >>= fun b => P.flag Ctx.debug >>= fun d => P.add (textItem (S "Additional resultrmation") b d),
      .loose (Loose.read2EOF fun b => .bind (.flag _) fun d => .add _), fun st => ?_⟩
    simp only [bind_assoc_P]
  · exact .getCur
theorem act30 : Act true false sub30 := RootM.act (.byte fun _ => .loc (.addOpt _) fun _ => .loc (.addOpt _) fun _ => .loc (.addOpt _) fun _ =>
  .loc (.addOpt _) fun _ => .last (.loose .trailingFlags))
theorem act31 : Act false false sub31 :=
  RootM.act (.byte fun _ => .loc (.flag _) fun _ => .loc (.add _) fun _ => .byte fun _ => .loc (.flag _) fun _ => .loc (.add _) fun _ => .loc (.addRaw _ _) fun _ => .getCur)
theorem act33 : Act false false subFingerprint := RootM.act (.byte fun _ => .loc (.add _) fun _ => .loc (.addRaw _ _) fun _ => .getCur)


/-- the types whose methods may read up to the end with `Read2EOF` and then stand behind it -/
def subOver : List Nat := [23, 27, 29, 30]

theorem act_of {t : Nat} (ht : t ∈ subUses) : Act (decide (t ∈ subOver)) (decide (t ∈ subOwn)) (sub02Body X (parseTag X) t) := by
  simp only [subUses, List.mem_cons, List.not_mem_nil, or_false] at ht
  rcases ht with rfl | rfl | rfl | rfl | rfl | rfl | rfl | rfl | rfl | rfl | rfl | rfl | rfl | rfl | rfl | rfl | rfl
  exact act02 X
  exact act03 X
  exact act04
  exact act05
  exact act07
  exact act09 X
  exact act12
  exact act16
  exact act20
  exact act23
  exact act25
  exact act27
  exact act29
  exact act30
  exact act31
  exact act33
  exact act33

/-! ## Subpackets as objects -/

theorem number_eq (b : UInt8) : (b &&& 0x7f).toNat = subNumber b := by
  rw [UInt8.toNat_and]
  exact Nat.and_two_pow_sub_one_eq_mod b.toNat 7

/-- like a new subpacket with the octets not yet read -/
def SubObj.renew (o : SubObj) : SubObj := ⟨o.sig, o.typ, Reader.new o.rd.remaining⟩

/-- the octets are used up by `Parse` -/
def SubObj.Uses (o : SubObj) : Prop := o.sig = true ∧ subNumber o.typ ∈ subUses
instance (o : SubObj) : Decidable o.Uses := inferInstanceAs (Decidable (_ ∧ _))

/-- the answer for the whole object, from the one for the octets not yet read -/
def SubObj.resized (o : SubObj) (r : Returned) : Returned :=
  if o.sig = true ∧ subNumber o.typ ∈ subUses then subSized o.rd.size (subNumber o.typ ∈ subOwn) r else r

/-- where the reader can be -/
structure SubObj.Ok (o : SubObj) : Prop where
  still : ¬ o.Uses → o.rd.off = 0
  bound : subNumber o.typ ∉ subOver → o.rd.off ≤ o.rd.size

structure SubObj.Renewed (c : Option Ctx) (o : SubObj) : Prop where
  res : (o.parse X c).1 = o.resized (o.renew.parse X c).1
  ctx : (o.parse X c).2.1 = (o.renew.parse X c).2.1
  sig : (o.parse X c).2.2.sig = o.sig
  typ : (o.parse X c).2.2.typ = o.typ
  size : (o.parse X c).2.2.rd.size = o.rd.size
  unread : (o.parse X c).2.2.rd.remaining = (o.renew.parse X c).2.2.rd.remaining
  suffix : (o.renew.parse X c).2.2.rd.remaining <:+ o.rd.remaining
  eats : o.Uses → ∀ i, (o.renew.parse X c).1 = .ret i none → (o.renew.parse X c).2.2.rd.remaining.length < o.rd.remaining.length
  same : ¬ o.Uses → (o.renew.parse X c).2.2.rd.remaining = o.rd.remaining
  ok : (o.parse X c).2.2.Ok

theorem subHeader_at (sig : Bool) (typ : UInt8) (p q : Bytes) (c : Option Ctx) :
    SubObj.header ⟨sig, typ, ⟨p ++ q, p.length⟩⟩ c = (SubObj.header ⟨sig, typ, Reader.new q⟩ c).setNote (nBytes (p ++ q).length) := by
  have h1 : ∀ f, dumpRest ⟨p ++ q, p.length⟩ f = if f then Reader.dumpHex q else [] := fun f => congrArg Item.dump (rawData_at p q [] f)
  unfold SubObj.header
  simp only [h1, dumpRest_new]
  rfl

theorem renewed_act (c : Option Ctx) {o : SubObj} (hu : o.Uses) (hb : o.rd.off ≤ o.rd.size) : o.Renewed X c := by
  obtain ⟨sig, typ, rd⟩ := o
  obtain ⟨hs, ht⟩ := hu
  simp only at hs ht hb
  subst hs
  have hsplit := reader_split rd hb
  generalize hq : rd.remaining = q
  generalize hp : rd.buf.take rd.off = p
  have hrd : rd = ⟨p ++ q, p.length⟩ := by rw [← hq, ← hp]; exact hsplit
  clear hsplit hp hq
  subst hrd
  have hrem : (⟨p ++ q, p.length⟩ : Reader).remaining = q := by simp [Reader.remaining]
  obtain ⟨R, u, c', K, h1, h2, h3, h4, h5⟩ := act_of X ht c q (SubObj.header ⟨true, typ, Reader.new q⟩ c)
  have hb : ∀ p, SubObj.body X ⟨true, typ, ⟨p ++ q, p.length⟩⟩ = sub02Body X (parseTag X) (subNumber typ) := fun p => by
    unfold SubObj.body
    rw [if_pos rfl, number_eq]
  have key : ∀ p, ∃ rd : Reader, SubObj.parse X ⟨true, typ, ⟨p ++ q, p.length⟩⟩ c =
      (match R (nBytes (p ++ q).length) with
        | .ok i => .ret (some i) none
        | .err e => .ret (some (K (nBytes (p ++ q).length))) (some e)
        | .panic s => .panic s
        | .stuck => .stuck, c', ⟨true, typ, rd⟩) ∧ rd.buf = p ++ q ∧ rd.remaining = u ∧ (subNumber typ ∉ subOver → rd.off ≤ rd.size) := fun p => by
    obtain ⟨rd, h6, h7, h8, h9⟩ := h5 p (nBytes (p ++ q).length)
    refine ⟨rd, ?_, h7, h8, fun h => h9 (decide_eq_false h)⟩
    unfold SubObj.parse
    rw [hb, subHeader_at]
    unfold St.at at h6
    rw [h6]
    cases R (nBytes (p ++ q).length) <;> rfl
  obtain ⟨rd1, k1, k1b, k1r, k1o⟩ := key p
  obtain ⟨rd2, k2, k2b, k2r, k2o⟩ := key []
  have hren : SubObj.renew ⟨true, typ, ⟨p ++ q, p.length⟩⟩ = ⟨true, typ, ⟨[] ++ q, ([] : Bytes).length⟩⟩ := by
    unfold SubObj.renew
    rw [hrem]
    rfl
  have hok : (SubObj.parse X ⟨true, typ, ⟨p ++ q, p.length⟩⟩ c).2.2.Ok := by
    rw [k1]
    exact ⟨fun h => absurd ⟨rfl, ht⟩ h, k1o⟩
  refine ⟨?_, by rw [hren, k1, k2], by rw [k1], by rw [k1], by rw [k1]; exact congrArg List.length k1b, by rw [hren, k1, k2, k1r, k2r],
    by rw [hren, k2, k2r, hrem]; exact h1, fun _ i hi => ?_, fun h => absurd ⟨rfl, ht⟩ h, hok⟩
  · rw [hren, k1, k2]
    unfold SubObj.resized
    rw [if_pos ⟨rfl, ht⟩]
    simp only
    rw [h4 (nBytes (p ++ q).length) (nBytes ([] ++ q).length), h3 (nBytes (p ++ q).length) (nBytes ([] ++ q).length)]
    cases R (nBytes ([] ++ q).length) with
    | ok i =>
      by_cases ho : subNumber typ ∈ subOwn
      · simp only [Res.map, subSized, if_pos ho, decide_eq_true ho, if_true]
      · simp only [Res.map, subSized, if_neg ho, decide_eq_false ho]; rfl
    | _ => rfl
  · rw [hren, k2] at hi ⊢
    simp only at hi ⊢
    rw [k2r, hrem]
    refine h2 ⟨nBytes ([] ++ q).length, ?_⟩
    cases hR : R (nBytes ([] ++ q).length) with
    | ok i => exact ⟨i, rfl⟩
    | err e => rw [hR] at hi; cases hi
    | panic s => rw [hR] at hi; cases hi
    | stuck => rw [hR] at hi; cases hi

theorem readByte_end {α} (f : UInt8 → P α) (st : St) (h : st.rd.size ≤ st.rd.off) : (P.readByte >>= f) st = (.err (wrapErr .eof), st) := by
  have hr : st.rd.readBytes 1 = (.err (wrapErr .eof), st.rd) := by
    unfold Reader.readBytes
    rw [if_neg (by decide), if_pos h]
  have hb : readByte st = (.err (wrapErr .eof), st) := by
    show ((st.rd.readByte).1, ({ st with rd := (st.rd.readByte).2 } : St)) = _
    unfold Reader.readByte
    rw [hr]
    rfl
  rw [bind_run, hb]

theorem sub_end {t : Nat} (ht : t ∈ subOver) (st : St) (h : st.rd.size ≤ st.rd.off) : sub02Body X (parseTag X) t st = (.err (wrapErr .eof), st) := by
  simp only [subOver, List.mem_cons, List.not_mem_nil, or_false] at ht
  rcases ht with rfl | rfl | rfl | rfl <;> exact readByte_end _ st h

theorem subOver_uses {t : Nat} (h : t ∈ subOver) : t ∈ subUses ∧ t ∉ subOwn := by
  simp only [subOver, List.mem_cons, List.not_mem_nil, or_false] at h
  rcases h with rfl | rfl | rfl | rfl <;> decide

theorem subParse_end (c : Option Ctx) {typ : UInt8} (rd : Reader) (ht : subNumber typ ∈ subOver) (h : rd.size ≤ rd.off) :
    SubObj.parse X ⟨true, typ, rd⟩ c = (.ret (some (newItem (subStr typ) [] (nBytes rd.size) [])) (some (wrapErr .eof)), c, ⟨true, typ, rd⟩) := by
  have hh : SubObj.header ⟨true, typ, rd⟩ c = newItem (subStr typ) [] (nBytes rd.size) [] := by
    unfold SubObj.header dumpRest Reader.dumpString
    simp only [if_pos h, ite_self]
  unfold SubObj.parse SubObj.body
  rw [if_pos rfl, number_eq, sub_end X ht _ h, hh]

/-- the methods that do not move the reader -/
theorem still_of (sig : Bool) {t : Nat} (hu : ¬ (sig = true ∧ t ∈ subUses)) (h1 : sig = true → t ≠ 38) (h2 : sig = false → t ≠ 1) :
    Still (if sig then sub02Body X (parseTag X) t else sub17Body t) := by
  cases sig with
  | false =>
    rw [if_neg (by decide)]
    unfold sub17Body
    split
    · exact absurd rfl (h2 rfl)
    · exact fun _ => rfl
  | true =>
    rw [if_pos rfl]
    have hu : t ∉ subUses := fun h => hu ⟨rfl, h⟩
    have htext : Still subText := fun _ => rfl
    have hlist : ∀ f, Still (subList f) := fun f => by
      refine Still.bind (fun _ => rfl) fun b => Still.bind (Still.flag _) fun d => Still.bind ?_ fun _ => fun _ => rfl
      induction b with
      | nil => exact fun _ => rfl
      | cons x l ih => exact Still.bind (Still.add _) fun _ => ih
    unfold sub02Body
    split <;> first
      | exact absurd (by decide) hu
      | exact htext
      | exact hlist _
      | exact fun _ => rfl
      | exact absurd rfl (h1 rfl)
      | exact Still.bind (fun _ => rfl) fun b => Still.bind (Still.of_blind (Blind.parseTagF X _ 2 b)) fun _ => Still.bind (Still.add _) fun _ => fun _ => rfl

theorem renewed_still (c : Option Ctx) {o : SubObj} (hu : ¬ o.Uses) (h1 : o.sig = true → subNumber o.typ ≠ 38) (h2 : o.sig = false → subNumber o.typ ≠ 1)
    (h : o.Ok) : o.Renewed X c := by
  obtain ⟨sig, typ, buf, off⟩ := o
  cases h.still hu
  have hren : SubObj.renew ⟨sig, typ, buf, 0⟩ = ⟨sig, typ, buf, 0⟩ := rfl
  have hst := still_of X sig hu h1 h2
  have hrd : (SubObj.parse X ⟨sig, typ, buf, 0⟩ c).2.2 = ⟨sig, typ, buf, 0⟩ := by
    have := hst ⟨c, ⟨buf, 0⟩, SubObj.header ⟨sig, typ, buf, 0⟩ c⟩
    unfold SubObj.parse SubObj.body
    simp only [number_eq]
    simp only at this
    generalize (if sig = true then sub02Body X (parseTag X) (subNumber typ) else sub17Body (subNumber typ)) ⟨c, ⟨buf, 0⟩, SubObj.header ⟨sig, typ, buf, 0⟩ c⟩ = z at this ⊢
    obtain ⟨r, st⟩ := z
    simp only at this
    cases r <;> simp only [this]
  refine ⟨?_, by rw [hren], by rw [hrd], by rw [hrd], by rw [hrd], by rw [hren], by rw [hren, hrd]; exact List.suffix_refl _,
    fun h => absurd h hu, fun _ => by rw [hren, hrd], by rw [hrd]; exact h⟩
  rw [hren]
  unfold SubObj.resized
  exact (if_neg hu).symm

theorem sub_renewed (c : Option Ctx) {o : SubObj} (h1 : o.sig = true → subNumber o.typ ≠ 38) (h2 : o.sig = false → subNumber o.typ ≠ 1)
    (h : o.Ok) : o.Renewed X c := by
  by_cases hu : o.Uses
  · by_cases hb : o.rd.off ≤ o.rd.size
    · exact renewed_act X c hu hb
    · by_cases ho : subNumber o.typ ∈ subOver
      · obtain ⟨sig, typ, rd⟩ := o
        obtain ⟨hs, ht⟩ := hu
        cases hs
        simp only at hb ho
        have hrem : rd.remaining = [] := by
          unfold Reader.remaining
          exact List.drop_eq_nil_of_le (by have : rd.size = rd.buf.length := rfl; omega)
        have e1 := subParse_end X c rd ho (by omega)
        have e2 := subParse_end X c (Reader.new []) ho (by decide)
        have hn : SubObj.renew ⟨true, typ, rd⟩ = ⟨true, typ, Reader.new []⟩ := by unfold SubObj.renew; rw [hrem]
        refine ⟨?_, by rw [hn, e1, e2], by rw [e1], by rw [e1], by rw [e1], by rw [hn, e1, e2]; exact hrem,
          by rw [hn, e2, hrem]; exact List.suffix_refl _, fun _ i hi => ?_, fun h => absurd ⟨rfl, ht⟩ h, by rw [e1]; exact h⟩
        · rw [hn, e1, e2]
          unfold SubObj.resized
          rw [if_pos ⟨rfl, ht⟩]
          rfl
        · rw [hn, e2] at hi; cases hi
      · exact absurd (h.bound ho) hb
  · exact renewed_still X c hu h1 h2 h

/-- what is not read by `Parse` -/
def subLeft (sig : Bool) (typ : UInt8) (c : Option Ctx) (u : Bytes) : Bytes := (SubObj.parse X ⟨sig, typ, Reader.new u⟩ c).2.2.rd.remaining

theorem parses_eq (sig : Bool) (typ : UInt8) (h1 : sig = true → subNumber typ ≠ 38) (h2 : sig = false → subNumber typ ≠ 1) (cs : List (Option Ctx)) :
    ∀ o : SubObj, o.sig = sig → o.typ = typ → o.Ok → o.parses X cs = subCalls X (subLeft X sig typ) sig typ o.rd.size cs o.rd.remaining := by
  induction cs with
  | nil => intro o _ _ _; rfl
  | cons c cs ih =>
    intro o hs ht ho
    have R := sub_renewed X c (o := o) (by rw [hs, ht]; exact h1) (by rw [hs, ht]; exact h2) ho
    unfold SubObj.parses subCalls subOnce
    have hn : o.renew = ⟨sig, typ, Reader.new o.rd.remaining⟩ := by unfold SubObj.renew; rw [hs, ht]
    rw [ih _ (R.sig.trans hs) (R.typ.trans ht) R.ok, R.size, R.unread, R.res, R.ctx, hn]
    unfold SubObj.resized
    rw [hs, ht]
    rfl

theorem new_sub {tagID typ : UInt8} {body : Bytes} {o : SubObj} (h : SubObj.new tagID typ body = some o) :
    (tagID = 2 ∨ tagID = 17) ∧ o = ⟨tagID == 2, typ, Reader.new body⟩ := by
  unfold SubObj.new at h
  split at h
  · rename_i e; subst e; cases h; exact ⟨.inl rfl, rfl⟩
  · split at h
    · rename_i e; subst e; cases h; exact ⟨.inr rfl, rfl⟩
    · cases h

/-! ## C97 -/

/-- `NewSubs` gives a subpacket exactly for the tags 2 and 17. The first `Parse` gives what the subpacket contributes inside its packet;
inside the packet its item is dropped when there is an error. -/
theorem C97_fresh (typ : UInt8) (body : Bytes) :
    (∀ tagID, (SubObj.new tagID typ body).isSome ↔ tagID = 2 ∨ tagID = 17) ∧
    ∀ tagID o st, SubObj.new tagID typ body = some o →
      (if tagID = 2 then parseSub02 X (parseTag X) typ body st else parseSub17 typ body st) =
        ((match (o.parse X st.ctx).1 with
          | .ret (some i) none => .ok i
          | .ret _ (some e) => .err e
          | .panic s => .panic s
          | _ => .stuck), { st with ctx := (o.parse X st.ctx).2.1 }) := by
  refine ⟨fun tagID => ?_, fun tagID o st h => ?_⟩
  · unfold SubObj.new
    split
    · rename_i e; simp [e]
    · split
      · rename_i e; simp [e]
      · rename_i h1 h2; simp [h1, h2]
  · obtain ⟨ht, rfl⟩ := new_sub h
    have key : ∀ (m : P Item) (hd : Item), hd = SubObj.header ⟨tagID == 2, typ, Reader.new body⟩ st.ctx → m = SubObj.body X ⟨tagID == 2, typ, Reader.new body⟩ →
        scope body hd m st = ((match (SubObj.parse X ⟨tagID == 2, typ, Reader.new body⟩ st.ctx).1 with
          | .ret (some i) none => .ok i
          | .ret _ (some e) => .err e
          | .panic s => .panic s
          | _ => .stuck), { st with ctx := (SubObj.parse X ⟨tagID == 2, typ, Reader.new body⟩ st.ctx).2.1 }) := by
      rintro m hd rfl rfl
      unfold SubObj.parse scope
      simp only
      generalize SubObj.body X ⟨tagID == 2, typ, Reader.new body⟩ _ = z
      obtain ⟨r, s⟩ := z
      cases r <;> rfl
    rcases ht with rfl | rfl
    · exact key _ _ rfl rfl
    · exact key _ _ rfl rfl

/-- Any number of calls of `Parse`, with any contexts: each shows the octets not yet read like a subpacket of their own, with the size of
the whole contents in the header line. Only some types use up octets; with these every success uses up at least one. Not for the image
attribute (it shows a size computed from the whole contents, `C97_image`) and the key block (packets are read from its reader). -/
theorem C97_history (tagID typ : UInt8) (h1 : tagID = 2 → subNumber typ ≠ 38) (h2 : tagID = 17 → subNumber typ ≠ 1) :
    ∃ left : Option Ctx → Bytes → Bytes, (∀ c u, left c u <:+ u) ∧
      (¬ (tagID = 2 ∧ subNumber typ ∈ subUses) → ∀ c u, left c u = u) ∧
      (tagID = 2 ∧ subNumber typ ∈ subUses → ∀ c u i, (subOnce X (tagID == 2) typ c u).1 = .ret i none → (left c u).length < u.length) ∧
      ∀ body o cs, SubObj.new tagID typ body = some o → o.parses X cs = subCalls X left (tagID == 2) typ body.length cs body := by
  by_cases htag : tagID = 2 ∨ tagID = 17
  · have g1 : (tagID == 2) = true → subNumber typ ≠ 38 := fun h => h1 (by simpa using h)
    have g2 : (tagID == 2) = false → subNumber typ ≠ 1 := fun h => h2 (htag.resolve_left (by simpa using h))
    have hok : ∀ u, SubObj.Ok ⟨tagID == 2, typ, Reader.new u⟩ := fun u => ⟨fun _ => rfl, fun _ => Nat.zero_le _⟩
    have hrem : ∀ u : Bytes, (Reader.new u).remaining = u := fun u => rfl
    have R : ∀ c u, SubObj.Renewed X c ⟨tagID == 2, typ, Reader.new u⟩ := fun c u => sub_renewed X c g1 g2 (hok u)
    have huse : ∀ u, SubObj.Uses ⟨tagID == 2, typ, Reader.new u⟩ ↔ tagID = 2 ∧ subNumber typ ∈ subUses := fun u => by simp [SubObj.Uses]
    refine ⟨subLeft X (tagID == 2) typ, fun c u => (R c u).suffix, fun h c u => (R c u).same fun h' => h ((huse u).1 h'),
      fun h c u i hi => (R c u).eats ((huse u).2 h) i hi, fun body o cs h => ?_⟩
    obtain ⟨_, rfl⟩ := new_sub h
    exact parses_eq X _ typ g1 g2 cs _ rfl rfl (hok body)
  · refine ⟨fun _ u => u, fun _ u => List.suffix_refl _, fun _ _ _ => rfl, fun h => absurd (.inl h.1) htag, fun body o cs h => absurd (new_sub h).1 htag⟩

/-- A subpacket whose octets are used up is not an empty success: `Parse` gives the header line with the size of the whole contents and
the error EOF, and leaves the context as it is. -/
theorem C97_used_up (x : Ctx) (typ : UInt8) (hu : subNumber typ ∈ subUses) :
    subOnce X true typ (some x) [] = (.ret (some (newItem (subStr typ) [] (nBytes 0) [])) (some (wrapErr .eof)), some x) := by
  have hn : ∀ (n : Nat) (j : Item), P.readBytes ((n + 1 : Nat) : Int) (St.at (some x) [] [] j) = (.err (wrapErr .eof), St.at (some x) [] [] j) :=
    fun n j => readBytes_err (some x) [] [] j (n + 1) (Nat.succ_pos n)
  have hb : ∀ j, sub02Body X (parseTag X) (subNumber typ) (St.at (some x) [] [] j) = (.err (wrapErr .eof), St.at (some x) [] [] j) := by
    generalize subNumber typ = t at hu
    intro j
    simp only [subUses, List.mem_cons, List.not_mem_nil, or_false] at hu
    have h4 : P.readBytes 4 (St.at (some x) [] [] j) = (.err (wrapErr .eof), St.at (some x) [] [] j) := hn 3 j
    have h8 : P.readBytes 8 (St.at (some x) [] [] j) = (.err (wrapErr .eof), St.at (some x) [] [] j) := hn 7 j
    rcases hu with rfl | rfl | rfl | rfl | rfl | rfl | rfl | rfl | rfl | rfl | rfl | rfl | rfl | rfl | rfl | rfl | rfl
    case inr.inr.inr.inr.inr.inr.inr.inl =>
      show sub16 _ = _
      unfold sub16
      rw [bind_run, getCur_run]
      show (P.readBytes 8 >>= _) _ = _
      rw [bind_run, h8]
    case inl =>
      show sub02 X _ = _
      unfold sub02 newDateTime
      rw [bind_run, getCur_run]
      show (P.flag _ >>= _) _ = _
      rw [bind_run, flag_run]
      show ((P.readBytes 4 >>= _) >>= _) _ = _
      rw [bind_run, bind_run, h4]
    case inr.inl =>
      show sub03 X _ = _
      unfold sub03
      rw [bind_run, getCur_run]
      show (P.getSigTime >>= _) _ = _
      rw [bind_run, show P.getSigTime (St.at (some x) [] [] j) = (.ok x.sigTime, St.at (some x) [] [] j) from rfl]
      show (P.readBytes 4 >>= _) _ = _
      rw [bind_run, h4]
    case inr.inr.inr.inr.inr.inl =>
      show sub09 X _ = _
      unfold sub09
      rw [bind_run, getCur_run]
      show (P.getKeyTime >>= _) _ = _
      rw [bind_run, show P.getKeyTime (St.at (some x) [] [] j) = (.ok x.keyTime, St.at (some x) [] [] j) from rfl]
      show (P.readBytes 4 >>= _) _ = _
      rw [bind_run, h4]
    case inr.inr.inr.inr.inr.inr.inr.inr.inl =>
      show sub20 _ = _
      unfold sub20
      rw [bind_run, h4]
    all_goals exact readByte_end _ _ (Nat.le_refl _)
  have hd : SubObj.header ⟨true, typ, Reader.new []⟩ (some x) = newItem (subStr typ) [] (nBytes 0) [] := by
    unfold SubObj.header dumpRest Reader.dumpString
    simp only [if_pos (show (Reader.new []).off ≥ (Reader.new []).size from Nat.le_refl _), ite_self]
    rfl
  have hp : SubObj.parse X ⟨true, typ, Reader.new []⟩ (some x) =
      (.ret (some (newItem (subStr typ) [] (nBytes 0) [])) (some (wrapErr .eof)), some x, ⟨true, typ, Reader.new []⟩) := by
    unfold SubObj.parse SubObj.body
    rw [if_pos rfl, number_eq, hd]
    rw [show (⟨some x, Reader.new [], newItem (subStr typ) [] (nBytes 0) []⟩ : St) = St.at (some x) [] [] (newItem (subStr typ) [] (nBytes 0) []) from rfl, hb]
    rfl
  unfold subOnce
  rw [hp]

/-- a call that returned no error -/
def Spec.succeeded : Returned × Option Ctx → Bool
  | (.ret _ none, _) => true
  | _ => false

theorem succeeded_resized (n : Nat) (o : Prop) [Decidable o] (r : Returned) (c : Option Ctx) : succeeded (subSized n o r, c) = succeeded (r, c) := by
  unfold subSized
  split
  · split <;> rfl
  · cases r with
    | ret i e => cases e with
      | none => rename_i h; exact absurd rfl (h i)
      | some e => rfl
    | _ => rfl

/-- However often `Parse` is called on a subpacket of a type that uses up octets: no more calls succeed than the contents have octets. -/
theorem C97_successes (typ : UInt8) (hu : subNumber typ ∈ subUses) (body : Bytes) (o : SubObj) (h : SubObj.new 2 typ body = some o)
    (cs : List (Option Ctx)) : ((o.parses X cs).filter succeeded).length ≤ body.length := by
  obtain ⟨left, h1, _, h3, h4⟩ := C97_history X 2 typ (by intro _ e; rw [e] at hu; exact absurd hu (by decide)) (by intro h; exact absurd h (by decide))
  rw [h4 body o cs h]
  have hle : ∀ (n : Nat) (cs : List (Option Ctx)) (u : Bytes), ((subCalls X left ((2 : UInt8) == 2) typ n cs u).filter succeeded).length ≤ u.length := by
    intro n cs
    induction cs with
    | nil => intro u; exact Nat.zero_le _
    | cons c cs ih =>
      intro u
      have i1 := ih (left c u)
      have i2 := (h1 c u).length_le
      unfold subCalls
      rw [if_pos ⟨rfl, hu⟩, List.filter_cons, succeeded_resized]
      by_cases hs : succeeded ((subOnce X ((2 : UInt8) == 2) typ c u).1, (subOnce X ((2 : UInt8) == 2) typ c u).2) = true
      · rw [if_pos hs, List.length_cons]
        have : ∃ i, (subOnce X ((2 : UInt8) == 2) typ c u).1 = .ret i none := by
          unfold succeeded at hs
          split at hs
          · rename_i i _ e; exact ⟨i, congrArg Prod.fst e⟩
          · cases hs
        obtain ⟨i, hi⟩ := this
        have := h3 ⟨rfl, hu⟩ c u i hi
        omega
      · rw [if_neg hs]; omega
  exact hle _ cs body

/-! ### What is returned with an error -/

/-- the name and the note of the header line stay -/
def HK {α} (m : P α) : Prop := ∀ st, (m st).2.cur.name = st.cur.name ∧ (m st).2.cur.note = st.cur.note

theorem HK.bind {α β} {m : P α} {f : α → P β} (h : HK m) (h' : ∀ a, HK (f a)) : HK (m >>= f) := by
  intro st
  have h1 := h st
  rw [bind_run]
  rcases hm : m st with ⟨r, s⟩
  rw [hm] at h1
  cases r with
  | ok a => exact ⟨(h' a s).1.trans h1.1, (h' a s).2.trans h1.2⟩
  | _ => exact h1
theorem HK.ite {α} {b : Prop} [Decidable b] {m m' : P α} (h : HK m) (h' : HK m') : HK (if b then m else m') := by split <;> assumption
theorem HK.keeps {α} {m : P α} (h : Keeps m) : HK m := fun st => by obtain ⟨l, hl⟩ := h.run st; rw [hl]; exact ⟨rfl, rfl⟩
theorem HK.sigTime : HK P.getSigTime := fun st => by unfold P.getSigTime P.getCtx; split <;> exact ⟨rfl, rfl⟩
theorem HK.keyTime : HK P.getKeyTime := fun st => by unfold P.getKeyTime P.getCtx; split <;> exact ⟨rfl, rfl⟩
theorem HK.setSigTime (t) : HK (P.setSigTime t) := fun st => by unfold P.setSigTime; split <;> exact ⟨rfl, rfl⟩
theorem HK.addOpt (i) : HK (P.addOpt i) := by cases i <;> exact fun _ => ⟨rfl, rfl⟩
theorem HK.otherFlags (i l) : HK (otherFlags i l) := by
  induction l generalizing i with
  | nil => exact fun _ => ⟨rfl, rfl⟩
  | cons b bs ih => exact HK.bind (HK.addOpt _) fun _ => ih _
theorem HK.forEach {α} (l : List α) {f : α → P Unit} (h : ∀ a, HK (f a)) : HK (P.forEach l f) := by
  induction l with
  | nil => exact fun _ => ⟨rfl, rfl⟩
  | cons b bs ih => exact HK.bind (h _) fun _ => ih
theorem HK.parseTag (t b) : HK (Gpgpdump.parseTag X t b) := fun st => by
  have hb : Blind (Gpgpdump.parseTag X t b) := Blind.parseTagF X _ t b
  obtain ⟨r, c', l, h⟩ := hb.run st.ctx
  have e : Gpgpdump.parseTag X t b st = _ := h st.rd st.cur
  rw [e]
  exact ⟨rfl, rfl⟩

theorem HK.pure {α} (a : α) : HK (Pure.pure a : P α) := fun _ => ⟨rfl, rfl⟩
theorem HK.readByte : HK P.readByte := fun _ => ⟨rfl, rfl⟩
theorem HK.readBytes (n) : HK (P.readBytes n) := fun _ => ⟨rfl, rfl⟩
theorem HK.read2EOF : HK P.read2EOF := fun _ => ⟨rfl, rfl⟩
theorem HK.reader : HK P.reader := fun _ => ⟨rfl, rfl⟩
theorem HK.flag (f) : HK (P.flag f) := fun _ => ⟨rfl, rfl⟩
theorem HK.add (i) : HK (P.add i) := fun _ => ⟨rfl, rfl⟩
theorem HK.getCur : HK P.getCur := fun _ => ⟨rfl, rfl⟩
theorem HK.setValue (v) : HK (P.setValue v) := fun _ => ⟨rfl, rfl⟩
theorem HK.setDump (v) : HK (P.setDump v) := fun _ => ⟨rfl, rfl⟩
theorem HK.addRaw (n f) : HK (addRaw n f) := fun _ => ⟨rfl, rfl⟩
theorem HK.build (i m) : HK (P.build i m) := fun _ => ⟨rfl, rfl⟩
theorem HK.trailingFlags : HK trailingFlags := by
  unfold Gpgpdump.trailingFlags
  exact HK.bind (fun _ => ⟨rfl, rfl⟩) fun _ => HK.ite (HK.bind HK.read2EOF fun _ => HK.otherFlags _ _) (HK.pure _)
theorem HK.rest : HK Gpgpdump.rest := fun _ => ⟨rfl, rfl⟩
theorem HK.getBody : HK Gpgpdump.getBody := fun _ => ⟨rfl, rfl⟩
theorem HK.newDateTime (u) : HK (newDateTime u) := HK.bind (HK.readBytes _) fun _ => HK.pure _

macro "hk" : tactic => `(tactic| repeat' with_reducible (first
  | exact HK.sigTime | exact HK.keyTime | exact HK.setSigTime _ | exact HK.keeps (Keeps.setKeyTime _) | exact HK.addOpt _ | exact HK.otherFlags _ _
  | exact HK.parseTag _ _ _ | exact HK.pure _ | exact HK.readByte | exact HK.readBytes _ | exact HK.read2EOF | exact HK.reader | exact HK.flag _
  | exact HK.add _ | exact HK.getCur | exact HK.setValue _ | exact HK.setDump _ | exact HK.addRaw _ _ | exact HK.build _ _ | exact HK.trailingFlags
  | exact HK.rest | exact HK.getBody | exact HK.newDateTime _
  | apply HK.forEach | apply HK.bind | apply HK.ite | intro _ | dsimp only))

theorem hk_body (o : SubObj) : HK (o.body X) := by
  unfold SubObj.body
  refine HK.ite ?_ ?_
  · unfold sub02Body
    split
    all_goals first | unfold sub02 | unfold sub03 | unfold sub04 | unfold sub05 | unfold subText | unfold sub07 | unfold sub09 | unfold subList | unfold sub12 | unfold sub16 | unfold sub20 | unfold sub23 | unfold sub25 | unfold sub27 | unfold sub29 | unfold sub30 | unfold sub31 | unfold sub32 | unfold subFingerprint | unfold sub37 | unfold sub38 | skip
    all_goals hk
  · unfold sub17Body
    split
    · unfold sub01; hk
    · hk

/-- Whatever was called before: `Parse` never gives a nil item, and with an error it gives the header line: its name is that of the
type, its note the size of the whole contents. -/
theorem C97_item (o : SubObj) (c : Option Ctx) (i : Option Item) (e : Option GoErr) (h : (o.parse X c).1 = .ret i e) :
    ∃ j, i = some j ∧ (e.isSome → j.name = subStr o.typ ∧ j.note = nBytes o.rd.size) := by
  have hk := hk_body X o ⟨c, o.rd, o.header c⟩
  unfold SubObj.parse at h
  generalize o.body X ⟨c, o.rd, o.header c⟩ = z at h hk
  obtain ⟨r, st⟩ := z
  cases r with
  | ok a => cases h; exact ⟨a, rfl, nofun⟩
  | err x => cases h; exact ⟨_, rfl, fun _ => hk⟩
  | panic x => cases h
  | stuck => cases h

end

/-! A trust signature (critical, type 5) with three octets: level and amount, then only a level with an error, then nothing. An expiration
time (type 3) with six octets: a time, then for ever the same error. A policy URI (type 26): every time the whole text. A user attribute of
unknown type is shown every time, and `NewSubs` gives nil for another tag. -/

def Spec.subGlance : Returned × Option Ctx → Option (Str × List Str) × Option Cause
  | (.ret i e, _) => (i.map fun i => (i.note, i.items.map Item.value), e.map (·.cause))
  | _ => (none, some .nullPointer)

def Spec.subThrice (tagID typ : UInt8) (body : Bytes) : List (Option (Str × List Str) × Option Cause) :=
  match SubObj.new tagID typ body with
  | some o => (o.parses Tests.X [some Ctx.empty, some Ctx.empty, some Ctx.empty]).map subGlance
  | none => []

theorem C97_example :
    subThrice 2 0x85 [1, 60, 2] = [(some ("3 bytes".toList, ["1".toList, "60".toList]), none), (some ("3 bytes".toList, ["2".toList]), some .eof),
      (some ("3 bytes".toList, []), some .eof)] ∧
    (subThrice 2 3 [0, 1, 0, 0, 9, 9]).map Prod.snd = [none, some .unexpectedEOF, some .unexpectedEOF] ∧
    (subThrice 2 26 [0x61]).map Prod.snd = [none, none, none] ∧
    subThrice 17 2 [1] = [(some ("1 bytes".toList, []), none), (some ("1 bytes".toList, []), none), (some ("1 bytes".toList, []), none)] ∧
    SubObj.new 4 3 [0, 0, 0, 0] = none :=
  ⟨by decide +kernel, by decide +kernel, by decide +kernel, by decide +kernel, rfl⟩

/-- the two types left out of `C97_history`: the second `Parse` of an image attribute shows the same size of the image data although fewer
octets are left, which is not what a new subpacket with these octets shows -/
theorem C97_example_image :
    ∃ o, SubObj.new 17 1 [0, 2, 1, 0, 2, 1, 9] = some o ∧
      (o.parses Tests.X [some Ctx.empty, some Ctx.empty]).map (fun a => match a with
        | (.ret (some i) none, _) => i.items.map Item.note
        | _ => []) = [[[], "5 bytes".toList], [[], "5 bytes".toList]] ∧
      (match (subOnce Tests.X false 1 (some Ctx.empty) [0, 2, 1, 9]).1 with
        | .ret (some i) none => i.items.map Item.note
        | _ => []) = [[], "2 bytes".toList] :=
  ⟨_, rfl, by decide +kernel, by decide +kernel⟩

/-- the hypotheses of the theorems can be met -/
example : SubObj.new 2 5 [1, 60, 2] = some ⟨true, 5, Reader.new [1, 60, 2]⟩ ∧ subNumber 5 ∈ subUses ∧ subNumber 0x85 = 5 := ⟨rfl, by decide, by decide⟩

end Gpgpdump
