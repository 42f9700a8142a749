import Verif.ThmSubsApi
import Verif.DisplaySubs

/-!
# C97: the item that `Parse` of a subpacket returns with an error

Inside a packet this item is dropped (subParser.go:38-40). A caller of `NewSubs` gets the header line with the fields before the one that
is missing.
-/

namespace Gpgpdump
open P Spec

namespace Spec
variable (o : OptCode → Bool)

/-- octets that must be there before anything is added -/
def subNeeds (t : Nat) : Nat := if t ∈ [2, 3, 9, 20] then 4 else if t = 16 then 8 else 1

/-- Subpackets of signatures that end too early: the rows of the fields before the end -/
inductive SubPart : UInt8 → Bytes → List Item → Prop
  | nothing {t b} (h : t.toNat % 128 ∈ subUses ∨ t.toNat % 128 = 38) (hl : b.length < subNeeds (t.toNat % 128)) : SubPart t b []
  | level {t b} (h : t.toNat % 128 = 5) : SubPart t [b] [numRow "Level" b]
  | class {t c} (h : t.toNat % 128 = 12) : SubPart t [c] [leaf "Class".toList (classText c).toList [] (hexText [c])]
  | target {t a} (h : t.toNat % 128 = 31) : SubPart t [a] [pubRow o a]
  /-- the lengths or the name of a notation are cut -/
  | flags {t fl r} (h : t.toNat % 128 = 20) (hf : fl.length = 4) (hr : r.length < 4 ∨ r.length < 4 + beNat (r.take 2)) :
      SubPart t (fl ++ r) (notationRows fl)
  /-- the value of a notation is cut -/
  | value {t fl name vl r} (h : t.toNat % 128 = 20) (hf : fl.length = 4) (hn : name.length < 65536) (hv : vl.length = 2) (hr : r.length < beNat vl) :
      SubPart t (fl ++ (beOctets 2 name.length ++ (vl ++ (name ++ r)))) (notationRows fl ++ [textRow "Name".toList (o DEBUG) name])
  /-- the embedded signature is not one -/
  | embedded {t b} (h : t.toNat % 128 = 32) : SubPart t b []
  /-- the packets in a key block are not packets -/
  | block {t r} (h : t.toNat % 128 = 38) : SubPart t (0 :: r) [numRow "Type" 0]

/-- Subpackets of user attributes that end too early -/
inductive AttrPart : UInt8 → Bytes → List Item → Prop
  | nothing {t b} (h : t.toNat % 128 = 1) (hl : b.length < 3) : AttrPart t b []
  | experimental {t l0 l1 v} (h : t.toNat % 128 = 1) (h1 : 100 ≤ v.toNat) (h2 : v.toNat ≤ 110) :
      AttrPart t [l0, l1, v] [numRow "Version" v "private or experimental use".toList]

end Spec

variable {o : OptCode → Bool}

/-- the item a failing run on this reader and item leaves -/
def Err (o : OptCode → Bool) {α} (m : P α) (rd : Reader) (j : Item) (R : Item → Prop) : Prop :=
  ∀ x e s, x.opts = o → m ⟨some x, rd, j⟩ = (.err e, s) → R s.cur

namespace Err

theorem pure {α} {a : α} {rd j R} : Err o (Pure.pure a : P α) rd j R := by
  intro x e s _ hr; cases hr
theorem pureBind {α β} {a : α} {g : α → P β} {rd j R} (h : Err o (g a) rd j R) : Err o (Pure.pure a >>= g) rd j R := fun x e s hx hr => h x e s hx hr
theorem getCur {rd j R} : Err o P.getCur rd j R := by
  intro x e s _ hr; cases hr
theorem getCur' {β} {g : Item → P β} {rd j R} (h : Err o (g j) rd j R) : Err o (P.getCur >>= g) rd j R := fun x e s hx hr => h x e s hx hr
theorem flag {β} {F : Ctx → Bool} {g : Bool → P β} {rd j R} (h : ∀ v, Err o (g v) rd j R) : Err o (P.flag F >>= g) rd j R := fun x e s hx hr => by
  rw [bind_run, flag_run] at hr
  exact h _ x e s hx hr
theorem debug {β} {g : Bool → P β} {rd j R} (h : Err o (g (o DEBUG)) rd j R) : Err o (P.flag Ctx.debug >>= g) rd j R := fun x e s hx hr => by
  rw [bind_run, flag_run, show ctxFlag Ctx.debug (some x) = o DEBUG by subst hx; rfl] at hr
  exact h x e s hx hr
theorem byte {β} {g : UInt8 → P β} {p q j R} (h0 : q = [] → R j) (h : ∀ b q', q = b :: q' → Err o (g b) (rdAt (p ++ [b]) q') j R) :
    Err o (readByte >>= g) (rdAt p q) j R := fun x e s hx hr => by
  rw [bind_run] at hr
  cases q with
  | nil => rw [show readByte ⟨some x, rdAt p [], j⟩ = _ from readByte_nil (some x) p j] at hr; cases hr; exact h0 rfl
  | cons b q =>
    rw [show readByte ⟨some x, rdAt p (b :: q), j⟩ = _ from readByte_cons (some x) p b q j] at hr
    exact h b q rfl x e s hx hr
theorem bytes {β} (n : Nat) {g : Bytes → P β} {p q j R} (h0 : q.length < n → R j)
    (h : ∀ b q' : Bytes, q = b ++ q' → b.length = n → Err o (g b) (rdAt (p ++ b) q') j R) : Err o (readBytes n >>= g) (rdAt p q) j R := fun x e s hx hr => by
  rw [bind_run] at hr
  by_cases hn : q.length < n
  · rw [show readBytes n ⟨some x, rdAt p q, j⟩ = _ from readBytes_err (some x) p q j n hn] at hr; cases hr; exact h0 hn
  · rw [show readBytes n ⟨some x, rdAt p q, j⟩ = _ from readBytes_ok (some x) p q j n (by omega)] at hr
    exact h (q.take n) (q.drop n) (List.take_append_drop _ _).symm (by rw [List.length_take]; omega) x e s hx hr
theorem add {β} {i : Item} {g : Unit → P β} {rd j R} (h : Err o (g ()) rd (j.addAll [i]) R) : Err o (P.add i >>= g) rd j R := fun x e s hx hr => h x e s hx hr
theorem setValue {β} {v : Str} {g : Unit → P β} {rd j R} (h : Err o (g ()) rd (j.setValue v) R) : Err o (P.setValue v >>= g) rd j R := fun x e s hx hr => h x e s hx hr
theorem setDump {β} {v : Str} {g : Unit → P β} {rd j R} (h : Err o (g ()) rd (j.setDump v) R) : Err o (P.setDump v >>= g) rd j R := fun x e s hx hr => h x e s hx hr
theorem reader {β} {g : Reader → P β} {rd j R} (h : Err o (g rd) rd j R) : Err o (P.reader >>= g) rd j R := fun x e s hx hr => h x e s hx hr
theorem getBody {β} {g : Bytes → P β} {rd j R} (h : Err o (g rd.buf) rd j R) : Err o (Gpgpdump.getBody >>= g) rd j R := fun x e s hx hr => h x e s hx hr
theorem rest {β} {g : Int → P β} {p q j R} (h : Err o (g q.length) (rdAt p q) j R) : Err o (Gpgpdump.rest >>= g) (rdAt p q) j R := fun x e s hx hr => by
  rw [bind_run, show (⟨some x, rdAt p q, j⟩ : St) = St.at (some x) p q j from rfl, rest_run] at hr
  exact h x e s hx hr
theorem setSigTime {β} {t} {g : Unit → P β} {rd j R} (h : Err o (g ()) rd j R) : Err o (P.setSigTime t >>= g) rd j R :=
  fun x e s hx hr => h { x with sigTime := t } e s hx hr
theorem setKeyTime {β} {t} {g : Unit → P β} {rd j R} (h : Err o (g ()) rd j R) : Err o (P.setKeyTime t >>= g) rd j R :=
  fun x e s hx hr => h { x with keyTime := t } e s hx hr
theorem getSigTime {β} {g : Option DateTime → P β} {rd j R} (h : ∀ t, Err o (g t) rd j R) : Err o (P.getSigTime >>= g) rd j R :=
  fun x e s hx hr => h x.sigTime x e s hx hr
theorem getKeyTime {β} {g : Option DateTime → P β} {rd j R} (h : ∀ t, Err o (g t) rd j R) : Err o (P.getKeyTime >>= g) rd j R :=
  fun x e s hx hr => h x.keyTime x e s hx hr
theorem addRaw {β} {n : Str} {f : Bool} {g : Unit → P β} {rd j R} (h : ∀ j, Err o (g ()) rd j R) : Err o (Gpgpdump.addRaw n f >>= g) rd j R :=
  fun x e s hx hr => h _ x e s hx hr
theorem addOpt {β} {c : UInt8} {t : Str} {g : Unit → P β} {rd j R} (h : Err o (g ()) rd (j.addAll (Ret.flagIf c t)) R) :
    Err o (P.addOpt (flag2Item c t) >>= g) rd j R := fun x e s hx hr => by
  rw [bind_run, addOpt_flag2] at hr
  exact h x e s hx hr
theorem trailingFlags {p q j R} : Err o (Gpgpdump.trailingFlags >>= fun _ => P.getCur) (rdAt p q) j R := fun x e s hx hr => by
  obtain ⟨rd, h1⟩ := trailingFlags_run (some x) p q j
  rw [bind_run, show (⟨some x, rdAt p q, j⟩ : St) = St.at (some x) p q j from rfl, h1] at hr
  cases hr
theorem read2EOF {β} {g : Bytes → P β} {p q j R} (hq : q ≠ []) (h : ∀ rd, Err o (g q) rd j R) : Err o (P.read2EOF >>= g) (rdAt p q) j R := fun x e s hx hr => by
  obtain ⟨rd, h1, -⟩ := read2EOF_ok (some x) p q j hq
  rw [bind_run, show (⟨some x, rdAt p q, j⟩ : St) = St.at (some x) p q j from rfl, h1] at hr
  exact h rd x e s hx hr
theorem forAdd {xs : Bytes} {f : UInt8 → Item} {rd j R} : Err o (P.forEach xs (fun b => P.add (f b)) >>= fun _ => P.getCur) rd j R := by
  induction xs generalizing j with
  | nil => exact fun x e s _ hr => by cases hr
  | cons b xs ih => exact fun x e s hx hr => ih x e s hx hr

end Err

section
variable (X : Ext) {t : UInt8} {b : Bytes}

local notation "Cut" m => Err o m (rdAt [] b) (subHead o t b) (fun i => ∃ l, SubPart o t b l ∧ i = subRow o t b l)

theorem cut_nothing (h : t.toNat % 128 ∈ subUses ∨ t.toNat % 128 = 38) (hl : b.length < subNeeds (t.toNat % 128)) :
    ∃ l, SubPart o t b l ∧ subHead o t b = subRow o t b l := ⟨[], .nothing h hl, rfl⟩

theorem cut_empty (h : t.toNat % 128 ∈ subUses ∨ t.toNat % 128 = 38) (hb : b = []) :
    ∃ l, SubPart o t b l ∧ subHead o t b = subRow o t b l := cut_nothing h (by
  subst hb
  unfold subNeeds
  show 0 < _
  split
  · decide
  · split <;> decide)

theorem sub02_cut (h : t.toNat % 128 = 2) : Cut sub02 X := by
  unfold sub02 newDateTime
  refine .getCur' (.flag fun u => ?_)
  rw [bind_assoc_P]
  exact .bytes 4 (fun hl => cut_nothing (by rw [h]; decide) (by rw [h]; exact hl)) fun _ _ _ _ => .pureBind (.debug (.setSigTime .pure))
theorem sub03_cut (h : t.toNat % 128 = 3) : Cut sub03 X :=
  .getCur' (.getSigTime fun _ => .bytes 4 (fun hl => cut_nothing (by rw [h]; decide) (by rw [h]; exact hl)) fun _ _ _ _ => .setSigTime (.debug .pure))
theorem sub09_cut (h : t.toNat % 128 = 9) : Cut sub09 X :=
  .getCur' (.getKeyTime fun _ => .bytes 4 (fun hl => cut_nothing (by rw [h]; decide) (by rw [h]; exact hl)) fun _ _ _ _ => .setKeyTime (.debug .pure))
theorem sub16_cut (h : t.toNat % 128 = 16) : Cut sub16 :=
  .getCur' (.bytes 8 (fun hl => cut_nothing (by rw [h]; decide) (by rw [h]; exact hl)) fun _ _ _ _ => .pure)
theorem sub04_cut (h : t.toNat % 128 = 4) : Cut sub04 := .byte (cut_empty (by rw [h]; decide)) fun _ _ _ => .setValue (.reader (.setDump .getCur))
theorem sub05_cut (h : t.toNat % 128 = 5) : Cut sub05 := by
  refine .byte (cut_empty (by rw [h]; decide)) fun c q' hq => .add (.byte (fun h0 => ?_) fun _ _ _ => .add .getCur)
  subst h0 hq
  exact ⟨_, .level h, rfl⟩
theorem sub07_cut (h : t.toNat % 128 = 7) : Cut sub07 := .byte (cut_empty (by rw [h]; decide)) fun _ _ _ => .setValue .getCur
theorem sub25_cut (h : t.toNat % 128 = 25) : Cut sub25 := .byte (cut_empty (by rw [h]; decide)) fun _ _ _ => .setValue .getCur
theorem subText_cut : Cut subText := .getCur' (.getBody (.debug .pure))
theorem subList_cut (f) : Cut subList f := .getBody (.debug .forAdd)
theorem sub12_cut (h : t.toNat % 128 = 12) : Cut sub12 := by
  unfold sub12
  refine .byte (cut_empty (by rw [h]; decide)) fun c q' hq => .add (.byte (fun h0 => ?_) fun _ _ _ => .debug (.add (.addRaw fun _ => .getCur)))
  subst h0 hq
  have hh : hexOctet c = hexText [c] := by rw [← dumpTrue_eq, ← hexOctet_eq]; rfl
  refine ⟨_, .class h, ?_⟩
  rw [subHead_add, class_eq, hexOctet_eq, hh]
  rfl
theorem sub31_cut (h : t.toNat % 128 = 31) : Cut sub31 := by
  unfold sub31
  refine .byte (cut_empty (by rw [h]; decide)) fun c q' hq => .debug (.add (.byte (fun h0 => ?_) fun _ _ _ => .debug (.add (.addRaw fun _ => .getCur))))
  subst h0 hq
  exact ⟨_, .target h, by rw [subHead_add, pubItem_eq]⟩
theorem sub33_cut (h : t.toNat % 128 ∈ subUses) (_ : t.toNat % 128 = 33 ∨ t.toNat % 128 = 35) : Cut subFingerprint :=
  .byte (cut_empty (.inl h)) fun _ _ _ => .add (.addRaw fun _ => .getCur)
theorem sub37_cut : Cut sub37 := .flag fun _ => .addRaw fun _ => .getCur
theorem sub23_cut (h : t.toNat % 128 = 23) : Cut sub23 :=
  .byte (cut_empty (by rw [h]; decide)) fun _ _ _ => .addOpt (.addOpt .trailingFlags)
theorem sub30_cut (h : t.toNat % 128 = 30) : Cut sub30 :=
  .byte (cut_empty (by rw [h]; decide)) fun _ _ _ => .addOpt (.addOpt (.addOpt (.addOpt .trailingFlags)))
theorem sub27_cut (h : t.toNat % 128 = 27) : Cut sub27 := by
  unfold sub27
  refine .byte (cut_empty (by rw [h]; decide)) fun c q' hq => .addOpt (.addOpt (.addOpt (.addOpt (.addOpt (.addOpt (.addOpt (.addOpt (.rest ?_))))))))
  cases q' with
  | nil =>
    simp only [List.length_nil]
    rw [if_neg (by simp)]
    exact .trailingFlags
  | cons d r =>
    simp only
    rw [if_pos (by simp)]
    exact .byte (fun h => by cases h) fun e q'' _ => .addOpt (.addOpt (.addOpt .trailingFlags))
theorem sub29_cut (h : t.toNat % 128 = 29) : Cut sub29 := by
  unfold sub29
  refine .byte (cut_empty (by rw [h]; decide)) fun c q' hq => ?_
  dsimp only
  refine .setValue (.rest ?_)
  by_cases hr : q' = []
  · subst hr
    rw [if_neg (by simp)]
    exact .getCur
  · have : 0 < q'.length := List.length_pos_iff.mpr hr
    rw [if_pos (by omega)]
    exact .read2EOF hr fun rd => .debug (.add .getCur)
theorem sub20_cut (h : t.toNat % 128 = 20) : Cut sub20 := by
  unfold sub20
  refine .bytes 4 (fun hl => cut_nothing (by rw [h]; decide) (by rw [h]; exact hl)) fun fl q1 hq1 hl => ?_
  obtain ⟨f0, f1, f2, f3, rfl⟩ := list4 hl
  dsimp only [List.getD, List.getElem?_cons_zero, List.getElem?_cons_succ, Option.getD]
  refine .addOpt (.addOpt (.addOpt (.addOpt (.addOpt ?_))))
  rw [notationFlags]
  have key : (q1.length < 4 ∨ q1.length < 4 + beNat (q1.take 2)) →
      ∃ l, SubPart o t b l ∧ (subHead o t b).addAll (notationRows [f0, f1, f2, f3]) = subRow o t b l := fun hr => by
    rw [hq1]
    exact ⟨_, .flags h hl hr, rfl⟩
  refine .bytes 2 (fun h2 => key (.inl (by omega))) fun nl q2 hq2 hnl => .bytes 2 (fun h3 => key (.inl (by rw [hq2, List.length_append]; omega))) fun vl q3 hq3 hvl => ?_
  have htake : q1.take 2 = nl := by rw [hq2, ← hnl, List.take_left]
  have hlen : q1.length = 4 + q3.length := by rw [hq2, hq3, List.length_append, List.length_append]; omega
  refine .bytes _ (fun h4 => key (.inr (by rw [htake]; omega))) fun name q4 hq4 hn => .debug (.add (.bytes _ (fun h5 => ?_) fun value q5 hq5 hv => ?_))
  · have hn2 : nl = beOctets 2 name.length := by rw [hn, ← hnl, beOctets_beNat]
    have hn3 : name.length < 65536 := by rw [hn]; exact beNat2 nl hnl
    subst hn2 hq4 hq3 hq2 hq1
    refine ⟨_, .value h hl hn3 hvl h5, ?_⟩
    rw [textItem_eq, Item.addAll_addAll, subHead_add]
    rfl
  · split
    · exact .debug (.add .getCur)
    · exact .add .getCur

theorem sub32_cut (h : t.toNat % 128 = 32) : Cut sub32 (parseTag X) := by
  refine .getBody ?_
  intro x e s hx hr
  rw [bind_run] at hr
  have hc : ∀ st : St, (parseTag X 2 (rdAt [] b).buf st).2.cur = st.cur := fun st => rfl
  have := hc ⟨some x, rdAt [] b, subHead o t b⟩
  generalize parseTag X 2 (rdAt [] b).buf ⟨some x, rdAt [] b, subHead o t b⟩ = z at hr this
  obtain ⟨r, s1⟩ := z
  cases r with
  | ok a => cases hr
  | err x =>
    cases hr
    exact ⟨[], .embedded h, this⟩
  | panic x => cases hr
  | stuck => cases hr

theorem sub38_cut (h : t.toNat % 128 = 38) : Cut sub38 X (parseTag X) := by
  unfold sub38
  refine .byte (cut_empty (.inr h)) fun c q' hq => .add (.reader (.debug ?_))
  dsimp only
  split
  · rename_i h0
    intro x e s hx hr
    rw [bind_run] at hr
    have hc : ∀ (i : Item) (m : P Unit) (st : St), (P.build i m st).2.cur = st.cur := fun i m st => rfl
    have := hc (rawData (rdAt ([] ++ [c]) q') (S "Key data") (o DEBUG)) (packetLoop X (parseTag X) (Src.ofReader (rdAt ([] ++ [c]) q')))
      ⟨some x, rdAt ([] ++ [c]) q', (subHead o t b).addAll [numItem (S "Type") c]⟩
    generalize P.build _ _ ⟨some x, rdAt ([] ++ [c]) q', (subHead o t b).addAll [numItem (S "Type") c]⟩ = z at hr this
    obtain ⟨r, s1⟩ := z
    cases r with
    | ok a => cases hr
    | err x =>
      cases hr
      subst h0 hq
      exact ⟨_, .block h, this⟩
    | panic x => cases hr
    | stuck => cases hr
  · exact .add .getCur

theorem sub02Body_cut : Cut sub02Body X (parseTag X) (t.toNat % 128) := by
  unfold sub02Body
  generalize hn : t.toNat % 128 = n
  split
  exact sub02_cut X hn
  exact sub03_cut X hn
  exact sub04_cut hn
  exact sub05_cut hn
  exact subText_cut
  exact sub07_cut hn
  exact sub09_cut X hn
  exact .getCur
  exact subList_cut _
  exact sub12_cut hn
  exact sub16_cut hn
  exact sub20_cut hn
  exact subList_cut _
  exact subList_cut _
  exact sub23_cut hn
  exact subText_cut
  exact sub25_cut hn
  exact subText_cut
  exact sub27_cut hn
  exact subText_cut
  exact sub29_cut hn
  exact sub30_cut hn
  exact sub31_cut hn
  exact sub32_cut X hn
  exact sub33_cut (by rw [hn]; decide) (.inl hn)
  exact subList_cut _
  exact sub33_cut (by rw [hn]; decide) (.inr hn)
  exact sub37_cut
  exact sub38_cut X hn
  exact .getCur

theorem sub17Body_cut : Err o (sub17Body (t.toNat % 128)) (rdAt [] b) (subHead o t b) (fun i => ∃ l, AttrPart t b l ∧ i = subRow o t b l) := by
  unfold sub17Body
  generalize hn : t.toNat % 128 = n
  split
  · unfold sub01
    refine .bytes 2 (fun h2 => ⟨[], .nothing hn (by omega), rfl⟩) fun l q1 hq1 hl => .byte (fun h0 => ⟨[], .nothing hn (by rw [hq1, h0, List.length_append, hl]; decide), rfl⟩)
      fun v q2 hq2 => ?_
    dsimp only
    split
    · exact .add (.reader (.add .getCur))
    · split
      · rename_i h1
        refine .add (.byte (fun h0 => ?_) fun _ _ _ => .add (.reader (.add .getCur)))
        match l, hl with
        | [l0, l1], _ =>
          subst h0 hq2 hq1
          exact ⟨_, .experimental hn h1.1 h1.2, rfl⟩
      · exact .add (.reader (.add .getCur))
  · exact .getCur

/-- **C97**: the item that comes with an error: the header line with the whole size and, with DEBUG, the whole dump, and the rows of the
fields before the one that is missing. There is an error only if the contents end too early or the packets inside are not packets. -/
theorem C97_cut (x : Ctx) (tagID typ : UInt8) (body : Bytes) (ob : SubObj) (hnew : SubObj.new tagID typ body = some ob) (i : Option Item) (e : GoErr)
    (h : (ob.parse X (some x)).1 = .ret i (some e)) :
    ∃ l, (if tagID = 2 then SubPart x.opts typ body l else AttrPart typ body l) ∧ i = some (subRow x.opts typ body l) := by
  obtain ⟨htag, rfl⟩ := new_sub hnew
  have hd : SubObj.header ⟨tagID == 2, typ, Reader.new body⟩ (some x) = subHead x.opts typ body := subItem_eq (o := x.opts) typ body
  have key : ∀ (R : List Item → Prop), Err x.opts (SubObj.body X ⟨tagID == 2, typ, Reader.new body⟩) (rdAt [] body) (subHead x.opts typ body)
      (fun i => ∃ l, R l ∧ i = subRow x.opts typ body l) → ∃ l, R l ∧ i = some (subRow x.opts typ body l) := fun R hR => by
    unfold SubObj.parse at h
    rw [hd] at h
    have := hR x
    generalize hz : SubObj.body X ⟨tagID == 2, typ, Reader.new body⟩ ⟨some x, Reader.new body, subHead x.opts typ body⟩ = z at h
    obtain ⟨r, s⟩ := z
    cases r with
    | err e' =>
      obtain ⟨l, h1, h2⟩ := this e' s rfl hz
      cases h
      exact ⟨l, h1, congrArg some h2⟩
    | ok a => cases h
    | panic a => cases h
    | stuck => cases h
  rcases htag with rfl | rfl
  · refine key (fun l => SubPart x.opts typ body l) ?_
    unfold SubObj.body
    rw [if_pos (show (⟨(2 : UInt8) == 2, typ, Reader.new body⟩ : SubObj).sig = true from rfl), number_eq]
    exact sub02Body_cut X
  · refine key (fun l => AttrPart typ body l) ?_
    unfold SubObj.body
    rw [if_neg (show ¬ (⟨(17 : UInt8) == 2, typ, Reader.new body⟩ : SubObj).sig = true from nofun), number_eq]
    exact sub17Body_cut

end

/-! A trust signature of one octet, and a notation (human-readable, name of one octet) whose value of two octets is cut after the first -/

theorem C97_cut_example :
    (match (subOnce Tests.X true 5 (some Ctx.empty) [7]).1 with
      | .ret (some i) (some e) => (i.note, i.items.map fun r => (r.name, r.value), e.cause)
      | _ => ([], [], .fuel)) = ("1 bytes".toList, [("Level".toList, "7".toList)], Cause.eof) ∧
    (match (subOnce Tests.X true 20 (some Ctx.empty) [0x80, 0, 0, 0, 0, 1, 0, 2, 0x61, 0x62]).1 with
      | .ret (some i) (some e) => (i.note, i.items.map fun r => (r.name, r.value), e.cause)
      | _ => ([], [], .fuel)) =
      ("10 bytes".toList, [("Flag".toList, "Human-readable".toList), ("Name".toList, "a".toList)], Cause.unexpectedEOF) := by
  constructor <;> decide +kernel

end Gpgpdump
