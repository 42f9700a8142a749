import Verif.Mon
import Verif.Moves

/-!
# Reading the output in order: packets
-/

namespace Gpgpdump
open P Spec

/-- what a context remembers -/
def hist : Option Ctx → History
  | none => {}
  | some x => ⟨x.mode, x.keyTime.map (·.unix.toNat), x.sigTime.map (·.unix.toNat)⟩

/-- the remembered times are shown like all others -/
def WF (u : Bool) (c : Option Ctx) : Prop :=
  ctxFlag Ctx.utc c = u ∧ ∀ x, c = some x → (∀ d, x.keyTime = some d → d.utc = u) ∧ (∀ d, x.sigTime = some d → d.utc = u)

/-- the text of an instant -/
def timeText (X : Ext) (u : Bool) (t : Nat) : Str := rfc3339 X (UInt32.ofNat t) u
/-- the text of a duration in days -/
def daysText (X : Ext) (n : Nat) : Str := X.days (UInt32.ofNat n)

/-- `m` returns an item that accounts for the change of the context -/
structure MonI (X : Ext) (u : Bool) (m : P Item) : Prop where
  run : ∀ st, WF u st.ctx → ∀ i, (m st).1 = .ok i → WF u (m st).2.ctx ∧ (m st).2.cur = st.cur ∧
    Seen (timeText X u) (daysText X) (hist st.ctx) i (hist (m st).2.ctx)

structure Mon {α} (X : Ext) (u : Bool) (m : P α) : Prop where
  run : ∀ st, WF u st.ctx → ∀ a, (m st).1 = .ok a → WF u (m st).2.ctx ∧ (m st).2.cur.name = st.cur.name ∧
    ∃ l, (m st).2.cur.items = st.cur.items ++ l ∧ SeenAll (timeText X u) (daysText X) (hist st.ctx) l (hist (m st).2.ctx)

section
variable {X : Ext} {u : Bool}

theorem Mon.of_plain {α} {m : P α} (h : Plain m) : Mon X u m := by
  constructor
  intro st hw a ha
  obtain ⟨c, n, l, hl, hq⟩ := h.run st
  exact ⟨by rwa [c], n, l, hl, by rw [c]; exact seenAll_inert hq⟩
theorem Mon.bind {α β} {m : P α} {f : α → P β} (h : Mon X u m) (h' : ∀ a, Mon X u (f a)) : Mon X u (m >>= f) := by
  constructor
  intro st hw b hb
  rw [bind_run] at hb ⊢
  have h1 := h.run st hw
  rcases hm : m st with ⟨r, s⟩
  rw [hm] at h1 hb
  cases r with
  | ok a =>
    obtain ⟨w1, n1, l1, i1, q1⟩ := h1 a rfl
    obtain ⟨w2, n2, l2, i2, q2⟩ := (h' a).run s w1 b hb
    exact ⟨w2, n2.trans n1, l1 ++ l2, by rw [i2, i1, List.append_assoc], seenAll_append q1 q2⟩
  | _ => cases hb
theorem MonI.bind_add {β} {m : P Item} (h : MonI X u m) {k : P β} (hk : Mon X u k) : Mon X u (m >>= fun i => P.add i >>= fun _ => k) := by
  constructor
  intro st hw b hb
  rw [bind_run] at hb ⊢
  have h1 := h.run st hw
  rcases hm : m st with ⟨r, s⟩
  rw [hm] at h1 hb
  cases r with
  | ok i =>
    obtain ⟨w1, n1, q1⟩ := h1 i rfl
    have e : (P.add i >>= fun _ => k) s = k { s with cur := s.cur.add i } := rfl
    simp only [e] at hb ⊢
    obtain ⟨w2, n2, l2, i2, q2⟩ := hk.run { s with cur := s.cur.add i } w1 b hb
    simp only at n1
    refine ⟨w2, n2.trans (by simp only [n1]; rfl), i :: l2, ?_, .cons q1 q2⟩
    rw [i2]
    simp [n1, Item.add, Item.items]
  | _ => cases hb
theorem MonI.bind_add' {m : P Item} (h : MonI X u m) : Mon X u (m >>= fun i => P.add i) := h.bind_add (k := Pure.pure ()) (.of_plain (.pure _))
theorem MonI.build {hdr : Item} (hn : tracked.contains hdr.name = false) (hi0 : ∀ k ∈ hdr.items, Inert k) {m : P Unit} (h : Mon X u m) : MonI X u (Gpgpdump.build hdr m) := by
  constructor
  intro st hw i hi
  have h1 := h.run { st with cur := hdr } hw
  have e : Gpgpdump.build hdr m st = ((m { st with cur := hdr }).1.map (fun _ => (m { st with cur := hdr }).2.cur), { (m { st with cur := hdr }).2 with cur := st.cur }) := rfl
  rw [e] at hi ⊢
  rcases hm : m { st with cur := hdr } with ⟨r, s⟩
  rw [hm] at h1 hi
  cases r with
  | ok a =>
    obtain ⟨w, n, l, hl, q⟩ := h1 a rfl
    simp only [Res.map, Res.ok.injEq] at hi
    subst hi
    refine ⟨w, rfl, .other (untracked (by rw [n]; exact hn)) ?_⟩
    rw [hl]
    exact seenAll_append (seenAll_inert hi0) q
  | _ => cases hi
theorem Mon.nested {α} {child : Item} (hq : Quiet child) {m : P α} (h : Mon X u m) : Mon X u (Gpgpdump.nested child m) := by
  constructor
  intro st hw a ha
  obtain ⟨w, n, l, hl, q⟩ := h.run { st with cur := child } hw a ha
  refine ⟨w, rfl, [(m { st with cur := child }).2.cur], rfl, .cons (.other (untracked (by rw [n]; exact hq.1)) ?_) .nil⟩
  rw [hl]
  simp only [hq.2, List.nil_append]
  exact q

/-- the program ends by returning the item it built -/
structure Ends (m : P Item) : Prop where
  run : ∀ st i, (m st).1 = .ok i → i = (m st).2.cur
theorem Ends.getCur : Ends getCur := ⟨fun st i h => by cases h; rfl⟩
theorem Ends.bind {α} {m : P α} {f : α → P Item} (h : ∀ a, Ends (f a)) : Ends (m >>= f) := by
  constructor
  intro st i hi
  rw [bind_run] at hi ⊢
  rcases hm : m st with ⟨r, s⟩
  rw [hm] at hi
  cases r with
  | ok a => exact (h a).run s i hi
  | _ => cases hi
macro "ends" : tactic => `(tactic| repeat' (first
  | with_reducible exact Ends.getCur
  | with_reducible refine Ends.bind fun _ => ?_
  | split
  | dsimp only))

/-- a scope around a program that ends with the item it built -/
theorem MonI.scope {body : Bytes} {hdr : Item} (hq : Quiet hdr) {m : P Item} (h : Mon X u m) (he : Ends m) : MonI X u (scope body hdr m) := by
  constructor
  intro st hw i hi
  have hi' : (m { st with rd := Reader.new body, cur := hdr }).1 = .ok i := hi
  obtain ⟨w, n, l, hl, q⟩ := h.run { st with rd := Reader.new body, cur := hdr } hw i hi'
  have e := he.run _ i hi'
  subst e
  refine ⟨w, rfl, .other (untracked (by rw [n]; exact hq.1)) ?_⟩
  rw [hl]
  simp only [hq.2, List.nil_append]
  exact q
/-- a scope around a program that returns a leaf of its own with the name of the header -/
theorem MonI.scope_leaf {body : Bytes} {hdr : Item} {m : P Item} (h : Plain m)
    (he : ∀ st i, (m st).1 = .ok i → st.cur = hdr → Quiet i) : MonI X u (Gpgpdump.scope body hdr m) := by
  constructor
  intro st hw i hi
  obtain ⟨c, _⟩ := h.run { st with rd := Reader.new body, cur := hdr }
  have c' : (Gpgpdump.scope body hdr m st).2.ctx = st.ctx := c
  exact ⟨by rw [c']; exact hw, rfl, by rw [c']; exact (he _ i hi rfl).inert _ _ _⟩

/-! ## Names of subpackets and packets -/

theorem subStr_untracked {t : UInt8} (h : (t &&& 0x7f).toNat ≠ 2 ∧ (t &&& 0x7f).toNat ≠ 3 ∧ (t &&& 0x7f).toNat ≠ 9) : tracked.contains (subStr t) = false := by
  have : ∀ n : Fin 256, let t := UInt8.ofNat n.val; ((t &&& 0x7f).toNat ≠ 2 ∧ (t &&& 0x7f).toNat ≠ 3 ∧ (t &&& 0x7f).toNat ≠ 9) → tracked.contains (subStr t) = false := by
    decide +kernel
  have := this ⟨t.toNat, t.toNat_lt⟩
  simp only [UInt8.ofNat_toNat] at this
  exact this h
theorem subStr_names (t : UInt8) : ((t &&& 0x7f).toNat = 2 → subStr t ∈ sigTimeNames) ∧ ((t &&& 0x7f).toNat = 3 → subStr t ∈ sigExpirationNames) ∧
    ((t &&& 0x7f).toNat = 9 → subStr t ∈ keyExpirationNames) := by
  have : ∀ n : Fin 256, let t := UInt8.ofNat n.val; ((t &&& 0x7f).toNat = 2 → subStr t ∈ sigTimeNames) ∧ ((t &&& 0x7f).toNat = 3 → subStr t ∈ sigExpirationNames) ∧
    ((t &&& 0x7f).toNat = 9 → subStr t ∈ keyExpirationNames) := by
    decide +kernel
  have := this ⟨t.toNat, t.toNat_lt⟩
  simpa only [UInt8.ofNat_toNat] using this
theorem Quiet.sub {t : UInt8} (h : (t &&& 0x7f).toNat ≠ 2 ∧ (t &&& 0x7f).toNat ≠ 3 ∧ (t &&& 0x7f).toNat ≠ 9) (b f) : Quiet (subItem t b f) := .new (subStr_untracked h)
theorem tagStr_untracked {t : Nat} (h : t ∉ [1, 3, 9, 17, 18]) : tracked.contains (tagStr t) = false := by
  by_cases ht : t < 64
  · have : ∀ n : Fin 64, n.val ∉ [1, 3, 9, 17, 18] → tracked.contains (tagStr n.val) = false := by decide +kernel
    exact this ⟨t, ht⟩ h
  · have e : tagStr t = 'U' :: 'n' :: (S "known" ++ S " (tag " ++ dec t ++ S ")") := by
      unfold tagStr
      have : tagNames.get t Unknown = Unknown := by
        unfold Msgs.get
        have : tagNames.find? (fun kv => kv.1 == t) = none := by
          rw [List.find?_eq_none]
          intro kv hkv
          have h64 : ∀ kv ∈ tagNames, kv.1 < 64 := by decide +kernel
          have := h64 kv hkv
          simp only [beq_iff_eq]
          omega
        rw [this]
      rw [this]
      rfl
    rw [e]
    have key : tracked.all (fun n => n.take 2 != ['U', 'n']) = true := by decide +kernel
    rw [Bool.eq_false_iff]
    intro hc
    have := List.all_eq_true.1 key _ (List.contains_iff_mem.1 hc)
    simp at this

theorem Quiet.tag {t : Nat} (h : t ∉ [1, 3, 9, 17, 18]) (b f) : Quiet (tagItem t b f) := .new (tagStr_untracked h)

/-! ## Subpackets -/

theorem MonI.flag_bind {f : Ctx → Bool} {k : Bool → P Item} (h : ∀ d, MonI X u (k d)) : MonI X u (P.flag f >>= k) :=
  ⟨fun st => (h (ctxFlag f st.ctx)).run st⟩

theorem unix_roundtrip (t : UInt32) : UInt32.ofNat t.toNat = t := by simp

theorem MonI.sub02 {t : UInt8} (ht : (t &&& 0x7f).toNat = 2) (body f) : MonI X u (Gpgpdump.scope body (subItem t body f) (sub02 X)) := by
  constructor
  intro st hw i hi
  rcases st with ⟨c, rd, cur⟩
  have hu : ctxFlag Ctx.utc c = u := hw.1
  have e : Gpgpdump.scope body (subItem t body f) (Gpgpdump.sub02 X) ⟨c, rd, cur⟩ =
      ((Gpgpdump.sub02 X ⟨c, Reader.new body, subItem t body f⟩).1, { (Gpgpdump.sub02 X ⟨c, Reader.new body, subItem t body f⟩).2 with rd := rd, cur := cur }) := rfl
  rw [e] at hi ⊢
  have e2 : Gpgpdump.sub02 X ⟨c, Reader.new body, subItem t body f⟩ = (newDateTime (ctxFlag Ctx.utc c) >>= fun tm => P.flag Ctx.debug >>= fun d =>
      setSigTime (some tm) >>= fun _ => Pure.pure (dateTimeItem X tm (subStr t) d)) ⟨c, Reader.new body, subItem t body f⟩ := rfl
  rw [e2, hu, bind_run] at hi ⊢
  have e3 : newDateTime u ⟨c, Reader.new body, subItem t body f⟩ = (readBytes 4 >>= fun b => Pure.pure ⟨b, u⟩) ⟨c, Reader.new body, subItem t body f⟩ := rfl
  rw [e3, bind_run] at hi ⊢
  have e4 : readBytes 4 ⟨c, Reader.new body, subItem t body f⟩ = ((Reader.new body).readBytes 4 |>.1, ⟨c, ((Reader.new body).readBytes 4).2, subItem t body f⟩) := rfl
  rw [e4] at hi ⊢
  generalize (Reader.new body).readBytes 4 = q at hi ⊢
  rcases q with ⟨r, rd2⟩
  cases r with
  | ok b =>
    cases c with
    | none => cases hi
    | some x =>
      cases hi
      refine ⟨⟨hw.1, fun y hy => ?_⟩, rfl, ?_⟩
      · cases hy
        exact ⟨(hw.2 x rfl).1, fun d hd => by cases hd; rfl⟩
      · refine Seen.sigTime (t := (DateTime.unix ⟨b, u⟩).toNat) ((subStr_names t).1 ht) ?_
        show rfc3339 X _ u = timeText X u _
        unfold timeText
        rw [unix_roundtrip]
  | _ => cases hi

theorem endDate_eq (name b d) (k : Option DateTime) (hk : ∀ d, k = some d → d.utc = u) :
    (expireItem X name b k d).note = endDate (timeText X u) (k.map (·.unix.toNat)) (beNat b) := by
  cases k with
  | none => rfl
  | some s =>
    have hs := hk s rfl
    subst hs
    simp only [endDate, Option.map]
    have h1 : (s.unix > 0) ↔ (0 < s.unix.toNat) := by
      rw [gt_iff_lt, UInt32.lt_iff_toNat_lt]; rfl
    show (if s.unix > 0 then rfc3339 X (s.unix + UInt32.ofNat (beNat b)) s.utc else []) = _
    by_cases h : s.unix > 0
    · rw [if_pos h, if_pos (h1.1 h)]
      unfold timeText
      congr 1
      apply UInt32.toNat.inj
      simp [UInt32.toNat_add]
    · rw [if_neg h, if_neg fun h' => h (h1.2 h')]

theorem MonI.sub03 {t : UInt8} (ht : (t &&& 0x7f).toNat = 3) (body f) : MonI X u (Gpgpdump.scope body (subItem t body f) (sub03 X)) := by
  constructor
  intro st hw i hi
  rcases st with ⟨c, rd, cur⟩
  have e : Gpgpdump.scope body (subItem t body f) (Gpgpdump.sub03 X) ⟨c, rd, cur⟩ =
      ((Gpgpdump.sub03 X ⟨c, Reader.new body, subItem t body f⟩).1, { (Gpgpdump.sub03 X ⟨c, Reader.new body, subItem t body f⟩).2 with rd := rd, cur := cur }) := rfl
  rw [e] at hi ⊢
  cases c with
  | none => cases hi
  | some x =>
    have e2 : Gpgpdump.sub03 X ⟨some x, Reader.new body, subItem t body f⟩ = (readBytes 4 >>= fun b =>
        setSigTime none >>= fun _ => P.flag Ctx.debug >>= fun d => Pure.pure (expireItem X (subStr t) b x.sigTime d)) ⟨some x, Reader.new body, subItem t body f⟩ := rfl
    rw [e2, bind_run] at hi ⊢
    have e4 : readBytes 4 ⟨some x, Reader.new body, subItem t body f⟩ = ((Reader.new body).readBytes 4 |>.1, ⟨some x, ((Reader.new body).readBytes 4).2, subItem t body f⟩) := rfl
    rw [e4] at hi ⊢
    generalize (Reader.new body).readBytes 4 = q at hi ⊢
    rcases q with ⟨r, rd2⟩
    cases r with
    | ok b =>
      cases hi
      refine ⟨⟨hw.1, fun y hy => ?_⟩, rfl, ?_⟩
      · cases hy
        exact ⟨(hw.2 x rfl).1, fun d hd => by cases hd⟩
      · exact Seen.sigExpiration (n := beNat b) ((subStr_names t).2.1 ht) rfl (endDate_eq _ _ _ _ (hw.2 x rfl).2)
    | _ => cases hi

theorem MonI.sub09 {t : UInt8} (ht : (t &&& 0x7f).toNat = 9) (body f) : MonI X u (Gpgpdump.scope body (subItem t body f) (sub09 X)) := by
  constructor
  intro st hw i hi
  rcases st with ⟨c, rd, cur⟩
  have e : Gpgpdump.scope body (subItem t body f) (Gpgpdump.sub09 X) ⟨c, rd, cur⟩ =
      ((Gpgpdump.sub09 X ⟨c, Reader.new body, subItem t body f⟩).1, { (Gpgpdump.sub09 X ⟨c, Reader.new body, subItem t body f⟩).2 with rd := rd, cur := cur }) := rfl
  rw [e] at hi ⊢
  cases c with
  | none => cases hi
  | some x =>
    have e2 : Gpgpdump.sub09 X ⟨some x, Reader.new body, subItem t body f⟩ = (readBytes 4 >>= fun b =>
        setKeyTime none >>= fun _ => P.flag Ctx.debug >>= fun d => Pure.pure (expireItem X (subStr t) b x.keyTime d)) ⟨some x, Reader.new body, subItem t body f⟩ := rfl
    rw [e2, bind_run] at hi ⊢
    have e4 : readBytes 4 ⟨some x, Reader.new body, subItem t body f⟩ = ((Reader.new body).readBytes 4 |>.1, ⟨some x, ((Reader.new body).readBytes 4).2, subItem t body f⟩) := rfl
    rw [e4] at hi ⊢
    generalize (Reader.new body).readBytes 4 = q at hi ⊢
    rcases q with ⟨r, rd2⟩
    cases r with
    | ok b =>
      cases hi
      refine ⟨⟨hw.1, fun y hy => ?_⟩, rfl, ?_⟩
      · cases hy
        exact ⟨fun d hd => (by cases hd), (hw.2 x rfl).2⟩
      · exact Seen.keyExpiration (n := beNat b) ((subStr_names t).2.2 ht) rfl (endDate_eq _ _ _ _ (hw.2 x rfl).1)
    | _ => cases hi

theorem subText_quiet {st : St} {i : Item} (h : (subText st).1 = .ok i) (hn : tracked.contains st.cur.name = false) : Quiet i := by
  cases h
  exact .text hn _ _

theorem Mon.forPackets {recur : TagParser} (h : ∀ t b, MonI X u (recur t b)) (f src) : Mon X u (forPackets X recur f src) := by
  induction f generalizing src with
  | zero => exact .of_plain .stuck
  | succ f ih =>
    rw [Gpgpdump.forPackets]
    split
    · split
      · exact .of_plain (.pure _)
      · exact .of_plain (.fail _)
    · exact (h _ _).bind_add (ih _)

theorem Plain.sub04 : Plain Gpgpdump.sub04 := by
  have := Plain.rest
  unfold Gpgpdump.sub04; plain
theorem Ends.sub04 : Ends Gpgpdump.sub04 := by
  unfold Gpgpdump.sub04; ends
theorem Plain.sub05 : Plain Gpgpdump.sub05 := by
  have := Plain.rest
  unfold Gpgpdump.sub05; plain
theorem Ends.sub05 : Ends Gpgpdump.sub05 := by
  unfold Gpgpdump.sub05; ends
theorem Plain.sub07 : Plain Gpgpdump.sub07 := by
  have := Plain.rest
  unfold Gpgpdump.sub07; plain
theorem Ends.sub07 : Ends Gpgpdump.sub07 := by
  unfold Gpgpdump.sub07; ends
theorem Plain.sub12 : Plain Gpgpdump.sub12 := by
  have := Plain.rest
  unfold Gpgpdump.sub12; plain <;> exact Plain.addRaw (by fresh) _
theorem Ends.sub12 : Ends Gpgpdump.sub12 := by
  unfold Gpgpdump.sub12; ends
theorem Plain.sub20 : Plain Gpgpdump.sub20 := by
  have := Plain.rest
  unfold Gpgpdump.sub20; plain <;> with_reducible apply Plain.flag2
theorem Ends.sub20 : Ends Gpgpdump.sub20 := by
  unfold Gpgpdump.sub20; ends
theorem Plain.sub23 : Plain Gpgpdump.sub23 := by
  have := Plain.rest
  unfold Gpgpdump.sub23; plain <;> first | with_reducible apply Plain.flag2 | with_reducible apply Plain.trailingFlags
theorem Ends.sub23 : Ends Gpgpdump.sub23 := by
  unfold Gpgpdump.sub23; ends
theorem Plain.sub25 : Plain Gpgpdump.sub25 := by
  have := Plain.rest
  unfold Gpgpdump.sub25; plain
theorem Ends.sub25 : Ends Gpgpdump.sub25 := by
  unfold Gpgpdump.sub25; ends
theorem Plain.sub27 : Plain Gpgpdump.sub27 := by
  have := Plain.rest
  unfold Gpgpdump.sub27; plain <;> first | with_reducible apply Plain.flag2 | with_reducible apply Plain.trailingFlags
theorem Ends.sub27 : Ends Gpgpdump.sub27 := by
  unfold Gpgpdump.sub27; ends
theorem Plain.sub29 : Plain Gpgpdump.sub29 := by
  have := Plain.rest
  unfold Gpgpdump.sub29; plain
theorem Ends.sub29 : Ends Gpgpdump.sub29 := by
  unfold Gpgpdump.sub29; ends
theorem Plain.sub30 : Plain Gpgpdump.sub30 := by
  have := Plain.rest
  unfold Gpgpdump.sub30; plain <;> first | with_reducible apply Plain.flag2 | with_reducible apply Plain.trailingFlags
theorem Ends.sub30 : Ends Gpgpdump.sub30 := by
  unfold Gpgpdump.sub30; ends
theorem Plain.sub31 : Plain Gpgpdump.sub31 := by
  have := Plain.rest
  unfold Gpgpdump.sub31; plain; exact Plain.addRaw (by fresh) _
theorem Ends.sub31 : Ends Gpgpdump.sub31 := by
  unfold Gpgpdump.sub31; ends
theorem Plain.subFingerprint : Plain Gpgpdump.subFingerprint := by
  have := Plain.rest
  unfold Gpgpdump.subFingerprint; plain; exact Plain.addRaw (by fresh) _
theorem Ends.subFingerprint : Ends Gpgpdump.subFingerprint := by
  unfold Gpgpdump.subFingerprint; ends
theorem Plain.sub37 : Plain Gpgpdump.sub37 := by
  have := Plain.rest
  unfold Gpgpdump.sub37; plain; exact Plain.addRaw (by fresh) _
theorem Ends.sub37 : Ends Gpgpdump.sub37 := by
  unfold Gpgpdump.sub37; ends
set_option maxHeartbeats 2000000 in
theorem MonI.parseSub02 {recur : TagParser} (hr : ∀ t b, MonI X u (recur t b)) (t b) : MonI X u (parseSub02 X recur t b) := by
  unfold Gpgpdump.parseSub02 subScope
  refine .flag_bind fun f => ?_
  by_cases h2 : (t &&& 0x7f).toNat = 2
  · rw [h2]; exact .sub02 h2 _ _
  by_cases h3 : (t &&& 0x7f).toNat = 3
  · rw [h3]; exact .sub03 h3 _ _
  by_cases h9 : (t &&& 0x7f).toNat = 9
  · rw [h9]; exact .sub09 h9 _ _
  have hq : Quiet (subItem t b f) := .sub ⟨h2, h3, h9⟩ b f
  have hText : MonI X u (Gpgpdump.scope b (subItem t b f) subText) := by
    refine .scope_leaf ?_ fun st i hi hc => subText_quiet hi (by rw [hc]; exact hq.1)
    have := Plain.getBody
    unfold subText; plain
  have hPlain : ∀ {m : P Item}, Plain m → Ends m → MonI X u (Gpgpdump.scope b (subItem t b f) m) := fun hp he => .scope hq (.of_plain hp) he
  generalize hn : (t &&& 0x7f).toNat = n at h2 h3 h9
  have hrest := Plain.rest
  have hraw := fun f => Plain.addRaw (n := S "Fingerprint") (by fresh) f
  have hlist : ∀ {g : UInt8 → Bool → Item}, (∀ a b, Quiet (g a b)) → MonI X u (Gpgpdump.scope b (subItem t b f) (subList g)) := by
    intro g hg
    refine hPlain (.bind .getBody fun _ => .bind (.flag _) fun _ => .bind (.forEach _ fun _ => .add (hg _ _).inert) fun _ => .getCur) ?_
    unfold subList; ends
  unfold sub02Body
  split
  · exact absurd rfl h2
  · exact absurd rfl h3
  · exact hPlain .sub04 .sub04
  · exact hPlain .sub05 .sub05
  · exact hText
  · exact hPlain .sub07 .sub07
  · exact absurd rfl h9
  · exact hPlain .getCur .getCur
  · exact hlist Quiet.sym
  · exact hPlain .sub12 .sub12
  · refine .scope_leaf (by unfold sub16; plain) fun st i hi hc => ?_
    have e : sub16 st = (readBytes 8 >>= fun k => Pure.pure ((keyIDItem k).setName st.cur.name)) st := rfl
    rw [e, bind_run] at hi
    rcases h8 : readBytes 8 st with ⟨r, s⟩
    rw [h8] at hi
    cases r with
    | ok k => cases hi; exact ⟨by rw [hc]; exact hq.1, rfl⟩
    | _ => cases hi
  · exact hPlain .sub20 .sub20
  · exact hlist Quiet.hash
  · exact hlist Quiet.comp
  · exact hPlain .sub23 .sub23
  · exact hText
  · exact hPlain .sub25 .sub25
  · exact hText
  · exact hPlain .sub27 .sub27
  · exact hText
  · exact hPlain .sub29 .sub29
  · exact hPlain .sub30 .sub30
  · exact hPlain .sub31 .sub31
  · refine .scope hq ?_ (by unfold sub32; ends)
    exact .bind (.of_plain .getBody) fun _ => (hr 2 _).bind_add (.of_plain .getCur)
  · exact hPlain .subFingerprint .subFingerprint
  · exact hlist Quiet.aead
  · exact hPlain .subFingerprint .subFingerprint
  · exact hPlain .sub37 .sub37
  · refine .scope hq ?_ (by unfold sub38; ends)
    refine .bind (.of_plain .readByte) fun v => .bind (.of_plain (.add (Quiet.num (by fresh) _).inert)) fun _ => .bind (.of_plain .reader) fun r =>
      .bind (.of_plain (.flag _)) fun d => ?_
    have hk : Quiet (rawData r (S "Key data") d) := .raw (by fresh) _ _
    split
    · exact (MonI.build hk.1 (by rw [hk.2]; simp) (.forPackets hr _ _)).bind_add (.of_plain .getCur)
    · exact .of_plain (.bind (.add hk.inert) fun _ => .getCur)
  · exact hPlain .getCur .getCur

/-! ## Packets -/

theorem Mon.subLoop {p : UInt8 → Bytes → P Item} (h : ∀ t b, MonI X u (p t b)) (l) : Mon X u (subLoop p l) := by
  induction l with
  | nil => exact .of_plain (.pure _)
  | cons a l ih => exact (h _ _).bind_add ih
theorem Mon.addSubpackets {p : UInt8 → Bytes → P Item} (h : ∀ t b, MonI X u (p t b)) {n} (hn : tracked.contains n = false) (a) : Mon X u (addSubpackets p n a) := by
  unfold Gpgpdump.addSubpackets
  refine .bind (.of_plain (.flag _)) fun d => ?_
  split
  · exact .of_plain (.fail _)
  · refine MonI.bind_add' (MonI.build ?_ ?_ (.subLoop h _))
    · exact hn
    · simp [newItem, Item.items]
theorem Mon.subArea {recur : TagParser} (hr : ∀ t b, MonI X u (recur t b)) {n} (hn : tracked.contains n = false) : Mon X u (subArea X recur n) := by
  unfold Gpgpdump.subArea
  refine .bind (.of_plain (.readBytes _)) fun s => ?_
  dsimp only
  split
  · exact .bind (.of_plain (.readBytes _)) fun sp => .addSubpackets (MonI.parseSub02 hr) hn _
  · exact .of_plain (.pure _)
theorem Mon.tag02v4 {recur : TagParser} (hr : ∀ t b, MonI X u (recur t b)) : Mon X u (tag02v4 X recur) := by
  unfold Gpgpdump.tag02v4
  refine .bind (.of_plain .readByte) fun _ => .bind (.of_plain (.flag _)) fun _ => .bind (.of_plain (.add (Quiet.sig _ _).inert)) fun _ =>
    .bind (.of_plain .readByte) fun _ => .bind (.of_plain (.flag _)) fun _ => .bind (.of_plain (.add (Quiet.pub _ _).inert)) fun _ =>
    .bind (.of_plain .readByte) fun _ => .bind (.of_plain (.flag _)) fun _ => .bind (.of_plain (.add (Quiet.hash _ _).inert)) fun _ =>
    .bind (.subArea hr (by fresh)) fun _ => .bind (.subArea hr (by fresh)) fun _ =>
    .bind (.of_plain (.readBytes _)) fun _ => .bind (.of_plain (.add (Quiet.hashLeft _).inert)) fun _ => .of_plain (.parseSig _)
theorem Plain.tag02v3 : Plain (tag02v3 X) := by
  unfold Gpgpdump.tag02v3; plain <;> first | apply Plain.parseSig | apply Plain.newDateTime
theorem Mon.tag02 {recur : TagParser} (hr : ∀ t b, MonI X u (recur t b)) : Mon X u (tag02 X recur) := by
  have hu := Mon.of_plain (X := X) (u := u) Plain.unknownData
  unfold Gpgpdump.tag02
  refine .bind (.of_plain .readByte) fun v => ?_
  dsimp only
  refine .bind (.of_plain (.flag _)) fun _ => .bind (.of_plain (.add (Quiet.version _ _).inert)) fun _ => ?_
  split
  · exact .bind (.tag02v4 hr) fun _ => hu
  · split
    · exact .bind (.tag02v4 hr) fun _ => hu
    · split
      · refine .bind (.of_plain (.failed .tag02v3)) fun b => ?_
        split
        · exact .of_plain (.pure _)
        · exact hu
      · exact hu
theorem Plain.tag04 : Plain tag04 := by
  have := Plain.unknownData
  unfold Gpgpdump.tag04; plain
theorem Mon.pubkeyTime : Mon X u (pubkeyTime X) := by
  constructor
  intro st hw a ha
  rcases st with ⟨c, rd, cur⟩
  have hu : ctxFlag Ctx.utc c = u := hw.1
  have e2 : Gpgpdump.pubkeyTime X ⟨c, rd, cur⟩ = (readBytes 4 >>= fun b => setKeyTime (some ⟨b, ctxFlag Ctx.utc c⟩) >>= fun _ => P.flag Ctx.debug >>= fun d =>
      P.add (dateTimeItem X ⟨b, ctxFlag Ctx.utc c⟩ (S "Public key creation time") d)) ⟨c, rd, cur⟩ := by
    unfold Gpgpdump.pubkeyTime newDateTime
    simp only [bind_run]
    have ef : P.flag Ctx.utc ⟨c, rd, cur⟩ = (.ok (ctxFlag Ctx.utc c), ⟨c, rd, cur⟩) := rfl
    rw [ef]
    simp only
    rcases readBytes 4 ⟨c, rd, cur⟩ with ⟨r, s⟩
    cases r <;> rfl
  rw [e2, hu, bind_run] at ha ⊢
  have e4 : readBytes 4 ⟨c, rd, cur⟩ = ((rd.readBytes 4).1, ⟨c, (rd.readBytes 4).2, cur⟩) := rfl
  rw [e4] at ha ⊢
  generalize rd.readBytes 4 = q at ha ⊢
  rcases q with ⟨r, rd2⟩
  cases r with
  | ok b =>
    cases c with
    | none => cases ha
    | some x =>
      refine ⟨⟨hw.1, fun y hy => ?_⟩, rfl, _, rfl, .cons (Seen.keyTime (t := (DateTime.unix ⟨b, u⟩).toNat) rfl ?_) .nil⟩
      · cases hy
        exact ⟨fun d hd => by cases hd; rfl, (hw.2 x rfl).2⟩
      · show rfc3339 X _ u = timeText X u _
        unfold timeText
        rw [unix_roundtrip]
  | _ => cases ha
theorem Mon.pubkeyParse (v) : Mon X u (pubkeyParse X v) := by
  unfold Gpgpdump.pubkeyParse
  split
  · exact .bind .pubkeyTime fun _ => .of_plain (by plain; apply Plain.parsePub)
  · split
    · exact .bind .pubkeyTime fun _ => .of_plain (by plain; apply Plain.parsePub)
    · split
      · exact .bind .pubkeyTime fun _ => .of_plain (by plain; apply Plain.parsePub)
      · exact .of_plain (.pure _)
theorem Plain.secOptions (w) : Plain (secOptions w) := by
  unfold Gpgpdump.secOptions; plain <;> apply Plain.s2kParse
theorem Plain.onField {α} (f) {m : P α} (h : Plain m) : Plain (onField f m) := by
  unfold Gpgpdump.onField; plain
theorem Plain.fieldRest (r) : Plain (fieldRest r) := by unfold Gpgpdump.fieldRest; plain
theorem Plain.secIV (a b) : Plain (secIV a b) := by
  unfold Gpgpdump.secIV
  refine .bind (.readBytes _) fun _ => ?_
  split
  · exact .add (Quiet.new (by fresh)).inert
  · exact .add (Quiet.new (by fresh)).inert
theorem Plain.secField1 (v w) : Plain (secField1 v w) := by
  unfold Gpgpdump.secField1 Gpgpdump.getField1; plain <;>
    first | apply Plain.fieldRest | exact .onField _ (.secOptions _) | apply Plain.secIV
theorem Plain.secField2 (v w a) : Plain (secField2 v w a) := by
  have := Plain.rest
  unfold Gpgpdump.secField2 Gpgpdump.getField2; plain <;>
    first | apply Plain.fieldRest | exact .onField _ (.parseSecPlain _) | exact .onField _ (.parseSecEnc _)
theorem Plain.seckeyParse (v a) : Plain (seckeyParse v a) := by
  unfold Gpgpdump.seckeyParse; plain
  · apply Plain.secField1
  · apply Plain.secField2
theorem Mon.tag05 : Mon X u (tag05 X) := by
  unfold Gpgpdump.tag05
  refine .bind (.of_plain .readByte) fun v => ?_
  dsimp only
  exact .bind (.of_plain (.flag _)) fun _ => .bind (.of_plain (.add (Quiet.version _ _).inert)) fun _ =>
    .bind (.nested (.new (by fresh)) (.pubkeyParse _)) fun _ => .bind (.of_plain (.nested (.new (by fresh)) (.seckeyParse _ _))) fun _ => .of_plain .unknownData
theorem Mon.tag06 : Mon X u (tag06 X) := by
  unfold Gpgpdump.tag06
  refine .bind (.of_plain .readByte) fun v => ?_
  dsimp only
  exact .bind (.of_plain (.flag _)) fun _ => .bind (.of_plain (.add (Quiet.version _ _).inert)) fun _ =>
    .bind (.pubkeyParse _) fun _ => .of_plain .unknownData
theorem Quiet.rawValue {n} (hn : tracked.contains n = false) (r f v) : Quiet ((rawData r n f).setValue v) :=
  ⟨(Quiet.raw hn r f).1, (Quiet.raw hn r f).2⟩
theorem Plain.tag08 : Plain (tag08 X) := by
  unfold Gpgpdump.tag08; plain <;>
    (refine .add (Quiet.rawValue ?_ _ _ _).inert; decide +kernel)

/-- the packets that are read item by item -/
theorem Mon.tagBody {recur : TagParser} (hr : ∀ t b, MonI X u (recur t b)) {t : Nat} (h : t ∉ [1, 3, 9, 17, 18]) : Mon X u (tagBody X recur t) := by
  unfold Gpgpdump.tagBody
  split
  · exact absurd (by decide) h
  · exact .tag02 hr
  · exact absurd (by decide) h
  · exact .of_plain .tag04
  · exact .tag05
  · exact .tag06
  · exact .tag05
  · exact .of_plain (.bind .tag08 fun _ => .pure _)
  · exact absurd (by decide) h
  · refine .of_plain ?_; unfold Gpgpdump.tag10; plain; exact Plain.addRaw (by fresh) _
  · refine .of_plain ?_; unfold Gpgpdump.tag11; plain <;> first | exact Plain.addRaw (by fresh) _ | apply Plain.newDateTime
  · exact .of_plain (.addRaw (by fresh) _)
  · refine .of_plain ?_; have := Plain.getBody; unfold Gpgpdump.tag13; plain
  · exact .tag06
  · exact absurd (by decide) h
  · exact absurd (by decide) h
  · refine .of_plain ?_; unfold Gpgpdump.tag19; plain
  · refine .of_plain ?_; have := Plain.rest; unfold Gpgpdump.tag20; plain; exact Plain.addRaw (by fresh) _
  · exact .of_plain (.pure _)

/-- a session key packet -/
theorem MonI.session {body : Bytes} {hdr : Item} {m : Mode} {k : P Unit} (hk : Plain k)
    (hs : ∀ h i, i.name = hdr.name → Seen (timeText X u) (daysText X) h i { h with session := m }) :
    MonI X u (Gpgpdump.scope body hdr ((P.setMode m >>= fun _ => k) >>= fun _ => P.getCur)) := by
  constructor
  intro st hw i hi
  rcases st with ⟨c, rd, cur⟩
  cases c with
  | none => cases hi
  | some x =>
    have e : Gpgpdump.scope body hdr ((P.setMode m >>= fun _ => k) >>= fun _ => P.getCur) ⟨some x, rd, cur⟩ =
        (((k >>= fun _ => P.getCur) ⟨some { x with mode := m }, Reader.new body, hdr⟩).1,
          { ((k >>= fun _ => P.getCur) ⟨some { x with mode := m }, Reader.new body, hdr⟩).2 with rd := rd, cur := cur }) := rfl
    rw [e] at hi ⊢
    obtain ⟨hc, hn, _⟩ := (Plain.bind hk fun _ => .getCur).run ⟨some { x with mode := m }, Reader.new body, hdr⟩
    have he := (Ends.bind fun _ => .getCur : Ends (k >>= fun _ => P.getCur)).run _ i hi
    refine ⟨?_, rfl, ?_⟩
    · show WF u _
      simp only [hc]
      exact ⟨hw.1, fun y hy => by cases hy; exact hw.2 x rfl⟩
    · simp only [hc]
      exact hs _ i (by rw [he]; exact hn)

theorem MonI.tag09 (body f) : MonI X u (Gpgpdump.scope body (tagItem 9 body f) (tag09 >>= fun _ => P.getCur)) := by
  constructor
  intro st hw i hi
  rcases st with ⟨c, rd, cur⟩
  cases c with
  | none => cases hi
  | some x =>
    cases hi
    refine ⟨⟨hw.1, fun y hy => by cases hy; exact hw.2 x rfl⟩, rfl, Seen.encrypted (show tagStr 9 = _ by decide +kernel) rfl ?_⟩
    rcases x with ⟨o, m, s, k⟩
    cases m <;> rfl

theorem MonI.tag18 (body f) : MonI X u (Gpgpdump.scope body (tagItem 18 body f) (tag18 >>= fun _ => P.getCur)) := by
  constructor
  intro st hw i hi
  rcases st with ⟨c, rd, cur⟩
  cases c with
  | none => cases hi
  | some x =>
    cases hi
    refine ⟨⟨hw.1, fun y hy => by cases hy; exact hw.2 x rfl⟩, rfl, Seen.protectedData (n := body.length) (show tagStr 18 = _ by decide +kernel) rfl ?_⟩
    rcases x with ⟨o, m, s, k⟩
    cases m <;> rfl

/-- nothing changes -/
def sameCtx : CtxOrder where
  T c c' := c = c'
  refl _ := rfl
  trans := Eq.trans

theorem MonI.tag17 (recur : TagParser) (body f) : MonI X u (Gpgpdump.scope body (tagItem 17 body f) (tagBody X recur 17 >>= fun _ => P.getCur)) := by
  constructor
  intro st hw i hi
  have hc := (Moves.scope (O := sameCtx) body (tagItem 17 body f) (.bind (.tagBody X (recur := recur) 17 (by simp) (by simp) (by simp) (by simp) (by simp)) fun _ => .getCur)).run st
  have hc : st.ctx = _ := hc
  rw [← hc]
  refine ⟨hw, rfl, .attribute ?_⟩
  have he := (Ends.bind fun _ => .getCur : Ends (Gpgpdump.tagBody X recur 17 >>= fun _ => P.getCur)).run { st with rd := Reader.new body, cur := tagItem 17 body f } i hi
  rw [he]
  have hn : ∀ (a : Bytes) (st : St), (addSubpackets parseSub17 (S "Subpacket") a st).2.cur.name = st.cur.name := by
    intro a st
    unfold Gpgpdump.addSubpackets
    have ef : ∀ (g : Bool → P Unit), (P.flag Ctx.debug >>= g) st = g (ctxFlag Ctx.debug st.ctx) st := fun _ => rfl
    rw [ef]
    rcases opaqueSubpackets a with e | l
    · rfl
    · simp only [bind_run]
      generalize hm : Gpgpdump.build _ _ st = q
      have h2 : q.2.cur = st.cur := by rw [← hm]; rfl
      rcases q with ⟨r, s⟩
      cases r <;> (simp only at h2 ⊢; try rw [h2]) <;> simp [P.add, h2, Item.add, Item.name]
  have e : ((Gpgpdump.tagBody X recur 17 >>= fun _ => P.getCur) { st with rd := Reader.new body, cur := tagItem 17 body f }).2.cur =
      (addSubpackets parseSub17 (S "Subpacket") body { st with rd := Reader.new body, cur := tagItem 17 body f }).2.cur := by
    have e2 : (Gpgpdump.tagBody X recur 17 >>= fun _ => P.getCur) { st with rd := Reader.new body, cur := tagItem 17 body f } =
      (addSubpackets parseSub17 (S "Subpacket") body >>= fun _ => P.getCur) { st with rd := Reader.new body, cur := tagItem 17 body f } := rfl
    rw [e2, bind_run]
    rcases addSubpackets parseSub17 (S "Subpacket") body { st with rd := Reader.new body, cur := tagItem 17 body f } with ⟨r, s⟩
    cases r <;> rfl
  rw [e, hn]
  show tagStr 17 = _
  decide +kernel

theorem MonI.tagParse {recur : TagParser} (hr : ∀ t b, MonI X u (recur t b)) (t b) : MonI X u (tagParse X recur t b) := by
  unfold Gpgpdump.tagParse tagScope
  refine .flag_bind fun f => ?_
  by_cases h : t ∈ [1, 3, 9, 17, 18]
  · simp only [List.mem_cons, List.not_mem_nil, or_false] at h
    rcases h with rfl | rfl | rfl | rfl | rfl
    · refine .session (k := _) ?_ fun h i hn => .pubKey (hn.trans (show tagStr 1 = _ by decide +kernel))
      plain <;> first | apply Plain.parseSes | apply Plain.unknownData
    · refine .session (k := _) ?_ fun h i hn => .symKey (hn.trans (show tagStr 3 = _ by decide +kernel))
      plain <;> first | apply Plain.s2kParse | apply Plain.unknownData
    · exact .tag09 _ _
    · exact .tag17 _ _ _
    · exact .tag18 _ _
  · exact .scope (.tag h _ _) (.bind (.tagBody hr h) fun _ => .of_plain .getCur) (.bind fun _ => .getCur)

theorem MonI.parseTagF (f t b) : MonI X u (parseTagF X f t b) := by
  induction f generalizing t b with
  | zero => exact ⟨fun st _ i hi => by cases hi⟩
  | succ f ih => exact .tagParse ih t b

theorem MonI.packetsParse (t b) : MonI X u (packetsParse X t b) := by
  unfold Gpgpdump.packetsParse
  split
  · subst_vars
    constructor
    intro st hw i hi
    rw [bind_run] at hi ⊢
    unfold tagScope at hi ⊢
    have ef : ∀ {α} (g : Bool → P α), (P.flag (tagDumpFlag 8) >>= g) st = g (ctxFlag (tagDumpFlag 8) st.ctx) st := fun _ => rfl
    rw [ef] at hi ⊢
    generalize ctxFlag (tagDumpFlag 8) st.ctx = f at hi ⊢
    have es : ∀ {α} (m : P α), Gpgpdump.scope b (tagItem 8 b f) m st = ((m { st with rd := Reader.new b, cur := tagItem 8 b f }).1, { (m { st with rd := Reader.new b, cur := tagItem 8 b f }).2 with rd := st.rd, cur := st.cur }) := fun _ => rfl
    rw [es, bind_run] at hi ⊢
    have hp := (Plain.tag08 (X := X)).run { st with rd := Reader.new b, cur := tagItem 8 b f }
    generalize Gpgpdump.tag08 X { st with rd := Reader.new b, cur := tagItem 8 b f } = q at hi hp ⊢
    obtain ⟨hc, hn, l, hl, hin⟩ := hp
    rcases q with ⟨r, s⟩
    cases r with
    | ok d =>
      have hq : Quiet (tagItem 8 b f) := .tag (by decide) _ _
      have hn' : tracked.contains s.cur.name = false := by simp only at hn; rw [hn]; exact hq.1
      have hi' : ∀ k ∈ s.cur.items, Inert k := by simp only at hl; rw [hl, hq.2]; simpa using hin
      cases d with
      | none =>
        cases hi
        simp only at hc
        refine ⟨by show WF u s.ctx; rw [hc]; exact hw, rfl, ?_⟩
        show Seen _ _ _ _ (hist s.ctx)
        rw [hc]
        exact (Inert.mk hn' hi') _ _ _
      | some z =>
        have hb := (MonI.build hn' hi' (Mon.forPackets (X := X) (u := u) (fun t b => MonI.parseTagF (X := X) (u := u) _ t b) _ (Src.ofBytes z))).run
          { s with rd := st.rd, cur := st.cur } (by show WF u s.ctx; simp only at hc; rw [hc]; exact hw) i hi
        simp only at hc
        refine ⟨hb.1, hb.2.1, ?_⟩
        rw [← hc]
        exact hb.2.2
    | _ => cases hi
  · exact .parseTagF _ _ _

/-- all packets of a source, whatever the outcome -/
theorem seen_forPackets {recur : TagParser} (h : ∀ t b, MonI X u (recur t b)) (hsc : ∀ t b st, (recur t b st).2.cur = st.cur) (f src) (st : St) (hw : WF u st.ctx) :
    ∃ l h', (forPackets X recur f src st).2.cur.items = st.cur.items ++ l ∧ SeenAll (timeText X u) (daysText X) (hist st.ctx) l h' ∧
      (∀ a, (forPackets X recur f src st).1 = .ok a → h' = hist (forPackets X recur f src st).2.ctx) := by
  induction f generalizing src st with
  | zero => exact ⟨[], _, by simp [forPackets, P.stuck], .nil, fun a ha => by cases ha⟩
  | succ f ih =>
    rw [Gpgpdump.forPackets]
    rcases nextPacket X src with ⟨r, src'⟩
    cases r with
    | error e =>
      simp only
      split
      · exact ⟨[], _, (List.append_nil _).symm, .nil, fun a _ => rfl⟩
      · exact ⟨[], _, by simp [P.fail], .nil, fun a ha => by cases ha⟩
    | ok tb =>
      simp only [bind_run]
      have h1 := (h tb.1 tb.2).run st hw
      have h2 := hsc tb.1 tb.2 st
      rcases hm : recur tb.1 tb.2 st with ⟨r, s⟩
      rw [hm] at h1 h2
      cases r with
      | ok i =>
        obtain ⟨w, _, q⟩ := h1 i rfl
        obtain ⟨l, h', e1, e2, e3⟩ := ih src' { s with cur := s.cur.add i } w
        refine ⟨i :: l, h', ?_, .cons q e2, e3⟩
        simp only at h2
        refine e1.trans ?_
        simp [h2, Item.add, Item.items]
      | _ => exact ⟨[], _, by simpa using congrArg Item.items h2, .nil, fun a ha => by cases ha⟩

end
end Gpgpdump
