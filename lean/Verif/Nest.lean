import Verif.SpecJson
import Verif.CountTags

/-!
# How deeply items are nested

`Tall n m`: what `m` puts below the current item has at most `n` levels.
-/

namespace Gpgpdump
open P Spec Spec.Json

theorem levels_below (i : Item) : levels i = 1 + levelsAll i.items := by cases i; rfl
theorem levelsAll_append (a b : List Item) : levelsAll (a ++ b) = max (levelsAll a) (levelsAll b) := by
  induction a with
  | nil => simp [levelsAll]
  | cons i a ih => simp only [List.cons_append, levelsAll, ih]; omega
theorem levelsAll_one (i : Item) : levelsAll [i] = levels i := by simp [levelsAll]
theorem levels_leaf {i : Item} (h : i.items = []) : levels i = 1 := by rw [levels_below, h]; rfl
theorem levelsAll_add (i k : Item) : levelsAll (i.add k).items = max (levelsAll i.items) (levels k) := by
  show levelsAll (i.items ++ [k]) = _
  rw [levelsAll_append, levelsAll_one]
theorem levelsAll_le {n : Nat} {l : List Item} (h : ∀ i ∈ l, levels i ≤ n) : levelsAll l ≤ n := by
  induction l with
  | nil => simp [levelsAll]
  | cons i l ih =>
    have h1 := h i List.mem_cons_self
    have h2 := ih fun j hj => h j (List.mem_cons_of_mem _ hj)
    simp only [levelsAll]; omega

structure Tall {α} (n : Nat) (m : P α) : Prop where
  run : ∀ st, levelsAll (m st).2.cur.items ≤ max n (levelsAll st.cur.items)

namespace Tall
variable {n : Nat}

theorem same {α} {m : P α} (h : ∀ st, (m st).2.cur.items = st.cur.items) : Tall n m := ⟨fun st => by rw [h st]; omega⟩
theorem mono {α} {a} {m : P α} (h : Tall a m) (hn : a ≤ n) : Tall n m := ⟨fun st => by have := h.run st; omega⟩

theorem pure {α} (a : α) : Tall n (Pure.pure a : P α) := same fun _ => rfl
theorem fail {α} (e : GoErr) : Tall n (P.fail e : P α) := same fun _ => rfl
theorem panic {α} (s : Site) : Tall n (P.panic s : P α) := same fun _ => rfl
theorem stuck {α} : Tall n (P.stuck : P α) := same fun _ => rfl
theorem readBytes (k : Int) : Tall n (P.readBytes k) := same fun _ => rfl
theorem readByte : Tall n P.readByte := same fun _ => rfl
theorem read2EOF : Tall n P.read2EOF := same fun _ => rfl
theorem seek (a b : Int) : Tall n (P.seek a b) := same fun _ => rfl
theorem reader : Tall n P.reader := same fun _ => rfl
theorem flag (f : Ctx → Bool) : Tall n (P.flag f) := same fun _ => rfl
theorem getCur : Tall n P.getCur := same fun _ => rfl
theorem getCtx {α} (f : Ctx → α) : Tall n (P.getCtx f) := same fun st => by rcases st with ⟨x, rd, cur⟩; cases x <;> rfl
theorem getMode : Tall n P.getMode := getCtx _
theorem getSigTime : Tall n P.getSigTime := getCtx _
theorem getKeyTime : Tall n P.getKeyTime := getCtx _
theorem setMode (v) : Tall n (P.setMode v) := same fun st => by rcases st with ⟨x, rd, cur⟩; cases x <;> rfl
theorem setSigTime (v) : Tall n (P.setSigTime v) := same fun st => by rcases st with ⟨x, rd, cur⟩; cases x <;> rfl
theorem setKeyTime (v) : Tall n (P.setKeyTime v) := same fun st => by rcases st with ⟨x, rd, cur⟩; cases x <;> rfl
theorem setValue (v) : Tall n (P.setValue v) := same fun st => by simp [P.setValue, Item.setValue, Item.items]
theorem setNote (v) : Tall n (P.setNote v) := same fun st => by simp [P.setNote, Item.setNote, Item.items]
theorem setDump (v) : Tall n (P.setDump v) := same fun st => by simp [P.setDump, Item.setDump, Item.items]
theorem addItem {i : Item} (h : levels i ≤ n) : Tall n (P.add i) := ⟨fun st => by simp only [P.add]; rw [levelsAll_add]; omega⟩
theorem add {i : Item} (h : i.items = []) (hn : 1 ≤ n) : Tall n (P.add i) := addItem (by rw [levels_leaf h]; exact hn)

theorem bind {α β} {m : P α} {f : α → P β} (h : Tall n m) (h' : ∀ x, Tall n (f x)) : Tall n (m >>= f) := by
  constructor
  intro st
  rw [bind_run]
  have h1 := h.run st
  rcases hm : m st with ⟨r, s⟩
  rw [hm] at h1
  cases r with
  | ok x => have := (h' x).run s; simp only at h1 ⊢; omega
  | _ => simp only at h1 ⊢; omega
theorem nested {α} {child : Item} (h : child.items = []) {m : P α} (h' : Tall n m) : Tall (n + 1) (P.nested child m) := by
  constructor
  intro st
  have := h'.run { st with cur := child }
  simp only [P.nested]
  rw [levelsAll_add, levels_below]
  simp only [h, levelsAll] at this
  omega
theorem nested' {α} {child : Item} (h : child.items = []) (hn : 1 ≤ n) {m : P α} (h' : Tall (n - 1) m) : Tall n (P.nested child m) :=
  (nested h h').mono (by omega)
theorem build_add {β} {hdr : Item} (h : hdr.items = []) {m : P Unit} (hn : 1 ≤ n) (hm : Tall (n - 1) m) {f : Unit → P β} (hk : ∀ x, Tall n (f x)) :
    Tall n (P.build hdr m >>= fun i => P.add i >>= f) := by
  constructor
  intro st
  have h1 := hm.run { st with cur := hdr }
  rw [bind_run]
  have e : P.build hdr m st = ((m { st with cur := hdr }).1.map (fun _ => (m { st with cur := hdr }).2.cur), { (m { st with cur := hdr }).2 with cur := st.cur }) := rfl
  rw [e]
  rcases hm : m { st with cur := hdr } with ⟨r, s⟩
  rw [hm] at h1
  simp only [h, levelsAll] at h1
  cases r with
  | ok a =>
    simp only [Res.map]
    exact (bind (addItem (i := s.cur) (by rw [levels_below]; omega)) hk).run { s with cur := st.cur }
  | _ => simp only [Res.map]; omega
theorem onReader {α} (r : Reader) {m : P α} (h : Tall n m) : Tall n (P.onReader r m) := by
  constructor
  intro st
  exact h.run { st with rd := r }
theorem failed {α} {m : P α} (h : Tall n m) : Tall n (P.failed m) := by
  constructor
  intro st
  have h1 := h.run st
  unfold P.failed
  rcases hm : m st with ⟨r, s⟩
  rw [hm] at h1
  cases r <;> exact h1
theorem flag2 (b v) (hn : 1 ≤ n) : Tall n (P.addOpt (flag2Item b v)) := by
  unfold flag2Item
  split
  · exact .add rfl hn
  · exact .pure _
theorem forEach {α} (l : List α) {f : α → P Unit} (h : ∀ a, Tall n (f a)) : Tall n (P.forEach l f) := by
  induction l with
  | nil => exact .pure _
  | cons a l ih => exact .bind (h a) fun _ => ih

end Tall

/-- apply the rules -/
macro "tall" : tactic => `(tactic| repeat' (first
  | intro _
  | with_reducible exact Tall.pure _
  | with_reducible exact Tall.fail _
  | with_reducible exact Tall.panic _
  | with_reducible exact Tall.readByte
  | with_reducible exact Tall.readBytes _
  | with_reducible exact Tall.read2EOF
  | with_reducible exact Tall.seek _ _
  | with_reducible exact Tall.reader
  | with_reducible exact Tall.flag _
  | with_reducible exact Tall.getCur
  | with_reducible exact Tall.getMode
  | with_reducible exact Tall.getSigTime
  | with_reducible exact Tall.getKeyTime
  | with_reducible exact Tall.setMode _
  | with_reducible exact Tall.setSigTime _
  | with_reducible exact Tall.setKeyTime _
  | with_reducible exact Tall.setValue _
  | with_reducible exact Tall.setNote _
  | with_reducible exact Tall.setDump _
  | ((with_reducible refine Tall.add ?_ ?_); leaf; decide)
  | with_reducible exact Tall.flag2 _ _ (by decide)
  | with_reducible assumption
  | with_reducible exact Tall.mono (by assumption) (by decide)
  | with_reducible exact Tall.mono (by solve_by_elim only [*]) (by decide)
  | ((with_reducible refine Tall.nested' ?_ ?_ ?_); leaf; decide)
  | ((with_reducible refine Tall.build_add ?_ ?_ ?_ ?_); leaf; decide)
  | with_reducible apply Tall.onReader
  | with_reducible apply Tall.failed
  | with_reducible apply Tall.bind
  | split
  | dsimp only))

section
theorem Tall.rest {n} : Tall n rest := by unfold Gpgpdump.rest; tall
theorem Tall.getBody {n} : Tall n getBody := by unfold Gpgpdump.getBody; tall
theorem Tall.addRaw (s f) : Tall 1 (addRaw s f) := by unfold Gpgpdump.addRaw; tall
theorem Tall.newMPI {n} : Tall n newMPI := by unfold Gpgpdump.newMPI; tall
theorem Tall.newOID {n} : Tall n newOID := by unfold Gpgpdump.newOID; tall
theorem Tall.newDateTime {n} (u) : Tall n (newDateTime u) := by unfold Gpgpdump.newDateTime; tall
theorem Tall.newECParm {n} : Tall n newECParm := by have := @Tall.rest n; unfold Gpgpdump.newECParm; tall
theorem Tall.unknownData : Tall 1 unknownData := by
  have := @Tall.rest 1; have := Tall.addRaw
  unfold Gpgpdump.unknownData; tall
theorem Tall.addMPI (s) : Tall 1 (addMPI s) := by
  have := @Tall.newMPI 1
  unfold Gpgpdump.addMPI; tall
theorem Tall.addECPoint (s) : Tall 1 (addECPoint s) := by
  have := @Tall.newMPI 1
  unfold Gpgpdump.addECPoint; tall
theorem Tall.addOpaque (s) : Tall 1 (addOpaque s) := by
  have := Tall.addRaw
  unfold Gpgpdump.addOpaque; tall
theorem Tall.parseSig (b) : Tall 1 (parseSig b) := by
  have := Tall.addMPI; have := Tall.addOpaque
  unfold Gpgpdump.parseSig; tall
theorem Tall.ecdhPub : Tall 2 ecdhPub := by
  unfold Gpgpdump.ecdhPub
  refine .bind .newOID fun _ => .bind (.add rfl (by decide)) fun _ => .bind (.mono (.addECPoint _) (by decide)) fun _ => .bind .newECParm fun _ => .bind (.flag _) fun _ => ?_
  dsimp only
  split
  · exact .bind (.flag _) fun _ => .addItem (by rw [levels_below, levelsAll_add, levelsAll_add, levels_leaf rfl, levels_leaf rfl, show (ecParmItem _ _ _).items = [] from rfl]; decide)
  · exact .add rfl (by decide)
theorem Tall.parsePub (b) : Tall 2 (parsePub b) := by
  have := Tall.addMPI; have := Tall.addOpaque; have := Tall.addECPoint; have := @Tall.newOID 2; have := Tall.ecdhPub
  unfold Gpgpdump.parsePub; tall
theorem Tall.parseSes (b) : Tall 1 (parseSes b) := by
  have := Tall.addMPI; have := Tall.addOpaque; have := Tall.addECPoint; have := @Tall.newECParm 1
  unfold Gpgpdump.parseSes; tall
theorem Tall.parseSecPlain (b) : Tall 1 (parseSecPlain b) := by
  have := Tall.addMPI; have := @Tall.rest 1
  unfold Gpgpdump.parseSecPlain; tall
theorem Tall.parseSecEnc (b) : Tall 1 (parseSecEnc b) := by
  have := Tall.addOpaque
  unfold Gpgpdump.parseSecEnc; tall
theorem Tall.s2kParse (d) : Tall 3 (s2kParse d) := by
  have := @Tall.rest 2
  unfold Gpgpdump.s2kParse; tall

/-! ## Programs that return an item -/

structure GivesTall (n : Nat) (m : P Item) : Prop where
  run : ∀ st, (m st).2.cur = st.cur ∧ ∀ i, (m st).1 = .ok i → levels i ≤ n

theorem GivesTall.mono {n n'} {m : P Item} (h : GivesTall n m) (hn : n ≤ n') : GivesTall n' m :=
  ⟨fun st => ⟨(h.run st).1, fun i hi => Nat.le_trans ((h.run st).2 i hi) hn⟩⟩
theorem GivesTall.flag_bind {n} {f : Ctx → Bool} {m : Bool → P Item} (h : ∀ d, GivesTall n (m d)) : GivesTall n (P.flag f >>= m) :=
  ⟨fun st => (h (ctxFlag f st.ctx)).run st⟩
theorem GivesTall.scope {n} {body : Bytes} {hdr : Item} (hh : hdr.items = []) {m : P Item} (h : Tall n m) (he : Ends m) : GivesTall (n + 1) (scope body hdr m) := by
  constructor
  intro st
  refine ⟨rfl, fun i hi => ?_⟩
  have hi' : (m { st with rd := Reader.new body, cur := hdr }).1 = .ok i := hi
  have e := he.run _ i hi'
  have := h.run { st with rd := Reader.new body, cur := hdr }
  rw [← e] at this
  simp only [hh, levelsAll] at this
  rw [levels_below]
  omega
theorem GivesTall.scope_leaf {body : Bytes} {hdr : Item} {m : P Item} (h : Leafs m) : GivesTall 1 (Gpgpdump.scope body hdr m) := by
  constructor
  intro st
  refine ⟨rfl, fun i hi => ?_⟩
  have hi' : (m { st with rd := Reader.new body, cur := hdr }).1 = .ok i := hi
  rw [levels_leaf (h.run _ i hi')]
  exact Nat.le_refl _
theorem Tall.item_add {n : Nat} {m : P Item} (h : GivesTall n m) {β} {f : Unit → P β} (hf : ∀ x, Tall n (f x)) : Tall n (m >>= fun i => P.add i >>= f) := by
  constructor
  intro st
  obtain ⟨h1, h2⟩ := h.run st
  rw [bind_run]
  rcases hm : m st with ⟨r, s⟩
  rw [hm] at h1 h2
  simp only at h1 h2
  cases r with
  | ok i =>
    have := (Tall.bind (Tall.addItem (h2 i rfl)) hf).run s
    rw [h1] at this
    exact this
  | _ => simp only; rw [h1]; omega
theorem Tall.forPackets {X : Ext} {n : Nat} {recur : TagParser} (h : ∀ t b, GivesTall n (recur t b)) (f : Nat) (src : Src) :
    Tall n (forPackets X recur f src) := by
  induction f generalizing src with
  | zero => exact .stuck
  | succ f ih =>
    rw [Gpgpdump.forPackets]
    split
    · split
      · exact .pure _
      · exact .fail _
    · exact .item_add (h _ _) fun _ => ih _
theorem Tall.subLoop {n : Nat} {p : UInt8 → Bytes → P Item} (h : ∀ t b, GivesTall n (p t b)) (l : List (UInt8 × Bytes)) : Tall n (subLoop p l) := by
  induction l with
  | nil => exact .pure _
  | cons s l ih =>
    obtain ⟨t, b⟩ := s
    rw [Gpgpdump.subLoop]
    exact .item_add (h _ _) fun _ => ih
theorem Tall.addSubpackets {n : Nat} {p : UInt8 → Bytes → P Item} (h : ∀ t b, GivesTall n (p t b)) (name area) : Tall (n + 1) (addSubpackets p name area) := by
  unfold Gpgpdump.addSubpackets
  refine .bind (.flag _) fun d => ?_
  split
  · exact .fail _
  · exact Tall.build_add (n := n + 1) (f := fun _ => Pure.pure ()) rfl (by omega) (Tall.subLoop h _) fun _ => .pure _

theorem Tall.otherFlags (k bs) : Tall 1 (otherFlags k bs) := by
  induction bs generalizing k with
  | nil => exact .pure _
  | cons b l ih => exact .bind (.flag2 _ _ (Nat.le_refl _)) fun _ => ih _
theorem Tall.trailingFlags : Tall 1 trailingFlags := by
  have := @Tall.rest 1; have := Tall.otherFlags
  unfold Gpgpdump.trailingFlags; tall

/-! ## Subpackets -/

theorem Tall.sub01 : Tall 1 sub01 := by unfold Gpgpdump.sub01; tall
theorem Tall.sub04 : Tall 1 sub04 := by unfold Gpgpdump.sub04; tall
theorem Tall.sub05 : Tall 1 sub05 := by unfold Gpgpdump.sub05; tall
theorem Tall.sub07 : Tall 1 sub07 := by unfold Gpgpdump.sub07; tall
theorem Tall.sub12 : Tall 1 sub12 := by
  have := Tall.addRaw
  unfold Gpgpdump.sub12; tall
theorem Tall.sub20 : Tall 1 sub20 := by unfold Gpgpdump.sub20; tall
theorem Tall.sub23 : Tall 1 sub23 := by
  have := Tall.trailingFlags
  unfold Gpgpdump.sub23; tall
theorem Tall.sub25 : Tall 1 sub25 := by unfold Gpgpdump.sub25; tall
theorem Tall.sub27 : Tall 1 sub27 := by
  have := Tall.trailingFlags; have := @Tall.rest 1
  unfold Gpgpdump.sub27; tall
theorem Tall.sub29 : Tall 1 sub29 := by
  have := @Tall.rest 1
  unfold Gpgpdump.sub29; tall
theorem Tall.sub30 : Tall 1 sub30 := by
  have := Tall.trailingFlags
  unfold Gpgpdump.sub30; tall
theorem Tall.sub31 : Tall 1 sub31 := by
  have := Tall.addRaw
  unfold Gpgpdump.sub31; tall
theorem Tall.subFingerprint : Tall 1 subFingerprint := by
  have := Tall.addRaw
  unfold Gpgpdump.subFingerprint; tall
theorem Tall.sub37 : Tall 1 sub37 := by
  have := Tall.addRaw
  unfold Gpgpdump.sub37; tall
theorem Tall.subList {g : UInt8 → Bool → Item} (hg : ∀ a b, (g a b).items = []) : Tall 1 (subList g) := by
  unfold Gpgpdump.subList
  have : ∀ (l : Bytes) (d : Bool), Tall 1 (P.forEach l fun b => P.add (g b d)) := fun l d => .forEach l fun b => .add (hg _ _) (by decide)
  have := @Tall.getBody 1
  tall
end

section
variable {X : Ext}

theorem GivesTall.parseSub02 {n : Nat} {recur : TagParser} (hr : ∀ t b, GivesTall n (recur t b)) (t b) : GivesTall (n + 2) (parseSub02 X recur t b) := by
  unfold Gpgpdump.parseSub02 subScope
  refine .flag_bind fun f => ?_
  have hh : (subItem t b f).items = [] := rfl
  have hk : ∀ {m : P Item}, Tall 1 m → Ends m → GivesTall (n + 2) (Gpgpdump.scope b (subItem t b f) m) :=
    fun h he => (GivesTall.scope (body := b) hh h he).mono (by omega)
  have hl : ∀ {m : P Item}, Leafs m → GivesTall (n + 2) (Gpgpdump.scope b (subItem t b f) m) := fun h => (GivesTall.scope_leaf h).mono (by omega)
  have hText : Leafs subText := .bind fun _ => .bind fun _ => .bind fun _ => .pure (leaf_text _ _ _)
  have hlist : ∀ {g : UInt8 → Bool → Item}, (∀ a b, (g a b).items = []) → GivesTall (n + 2) (Gpgpdump.scope b (subItem t b f) (Gpgpdump.subList g)) :=
    fun hg => hk (.subList hg) (by unfold Gpgpdump.subList; ends)
  generalize (t &&& 0x7f).toNat = k
  unfold sub02Body
  split
  · exact hl (.bind fun _ => .bind fun _ => .bind fun _ => .bind fun _ => .bind fun _ => .pure rfl)
  · exact hl (.bind fun _ => .bind fun _ => .bind fun _ => .bind fun _ => .bind fun _ => .pure rfl)
  · exact hk .sub04 .sub04
  · exact hk .sub05 .sub05
  · exact hl hText
  · exact hk .sub07 .sub07
  · exact hl (.bind fun _ => .bind fun _ => .bind fun _ => .bind fun _ => .bind fun _ => .pure rfl)
  · exact hk .getCur .getCur
  · exact hlist fun _ _ => rfl
  · exact hk .sub12 .sub12
  · exact hl (.bind fun _ => .bind fun _ => .pure rfl)
  · exact hk .sub20 .sub20
  · exact hlist fun _ _ => rfl
  · exact hlist fun _ _ => rfl
  · exact hk .sub23 .sub23
  · exact hl hText
  · exact hk .sub25 .sub25
  · exact hl hText
  · exact hk .sub27 .sub27
  · exact hl hText
  · exact hk .sub29 .sub29
  · exact hk .sub30 .sub30
  · exact hk .sub31 .sub31
  · -- an embedded signature
    exact (GivesTall.scope hh (.item_add (hr 2 b) fun _ => .getCur) (.bind fun _ => .bind fun _ => .getCur)).mono (by omega)
  · exact hk .subFingerprint .subFingerprint
  · exact hlist fun _ _ => rfl
  · exact hk .subFingerprint .subFingerprint
  · exact hk .sub37 .sub37
  · -- a key block
    refine GivesTall.scope hh ?_ (by unfold sub38; ends)
    unfold sub38
    refine .bind .readByte fun v => .bind (.add rfl (by omega)) fun _ => .bind .reader fun r => .bind (.flag _) fun d => ?_
    split
    · exact Tall.build_add (n := n + 1) rfl (by omega) (Tall.forPackets hr _ _) fun _ => .getCur
    · exact .bind (.add rfl (by omega)) fun _ => .getCur
  · exact hk .getCur .getCur

theorem GivesTall.parseSub17 (t b) : GivesTall 2 (parseSub17 t b) := by
  unfold Gpgpdump.parseSub17 subScope
  refine .flag_bind fun f => ?_
  unfold sub17Body
  split
  · exact GivesTall.scope rfl .sub01 (by unfold sub01; ends)
  · exact GivesTall.scope rfl .getCur .getCur

/-! ## Packets -/

theorem Tall.subArea {n : Nat} {recur : TagParser} (hr : ∀ t b, GivesTall n (recur t b)) (s) : Tall (n + 3) (subArea X recur s) := by
  unfold Gpgpdump.subArea
  refine .bind (.readBytes _) fun l => ?_
  dsimp only
  split
  · exact .bind (.readBytes _) fun sp => .addSubpackets (GivesTall.parseSub02 hr) _ _
  · exact .pure _
theorem Tall.tag02v4 {n : Nat} {recur : TagParser} (hr : ∀ t b, GivesTall n (recur t b)) : Tall (n + 3) (tag02v4 X recur) := by
  unfold Gpgpdump.tag02v4
  exact .bind .readByte fun _ => .bind (.flag _) fun _ => .bind (.add rfl (by omega)) fun _ => .bind .readByte fun _ => .bind (.flag _) fun _ => .bind (.add rfl (by omega)) fun _ =>
    .bind .readByte fun _ => .bind (.flag _) fun _ => .bind (.add rfl (by omega)) fun _ => .bind (.subArea hr _) fun _ => .bind (.subArea hr _) fun _ =>
    .bind (.readBytes _) fun _ => .bind (.add rfl (by omega)) fun _ => .mono (.parseSig _) (by omega)
theorem Tall.tag02v3 : Tall 2 (tag02v3 X) := by
  have := @Tall.newDateTime 1; have := Tall.parseSig
  unfold Gpgpdump.tag02v3; tall
theorem Tall.tag02 {n : Nat} {recur : TagParser} (hr : ∀ t b, GivesTall n (recur t b)) : Tall (n + 3) (tag02 X recur) := by
  have h4 := Tall.tag02v4 (X := X) hr
  have h3 : Tall (n + 3) (P.failed (Gpgpdump.tag02v3 X)) := .failed (.mono .tag02v3 (by omega))
  have hu : Tall (n + 3) Gpgpdump.unknownData := .mono .unknownData (by omega)
  unfold Gpgpdump.tag02
  refine .bind .readByte fun v => .bind (.flag _) fun _ => .bind (.add rfl (by omega)) fun _ => ?_
  tall
theorem Tall.tag01 : Tall 1 tag01 := by
  have := Tall.parseSes; have := Tall.unknownData
  unfold Gpgpdump.tag01; tall
theorem Tall.tag03 : Tall 3 tag03 := by
  have := Tall.s2kParse; have := Tall.unknownData
  unfold Gpgpdump.tag03; tall
theorem Tall.tag04 : Tall 1 tag04 := by
  have := Tall.unknownData
  unfold Gpgpdump.tag04; tall
theorem Tall.pubkeyParse (v) : Tall 2 (pubkeyParse X v) := by
  have h1 := @Tall.newDateTime 2
  have h2 : Tall 2 (pubkeyTime X) := by unfold Gpgpdump.pubkeyTime; tall
  have h3 := Tall.parsePub
  unfold Gpgpdump.pubkeyParse; tall
theorem Tall.onField {α n} {m : P α} (h : Tall n m) (f) : Tall n (onField f m) := by
  unfold Gpgpdump.onField; tall
theorem Tall.getField1 {n} (v) : Tall n (getField1 v) := by unfold Gpgpdump.getField1; tall
theorem Tall.getField2 {n} (v) : Tall n (getField2 v) := by
  have := @Tall.rest n
  unfold Gpgpdump.getField2; tall
theorem Tall.fieldRest (r) : Tall 1 (fieldRest r) := by unfold Gpgpdump.fieldRest; tall
theorem Tall.secIV (a b) : Tall 1 (secIV a b) := by unfold Gpgpdump.secIV; tall
theorem Tall.secOptions (u) : Tall 3 (secOptions u) := by
  have := Tall.s2kParse
  unfold Gpgpdump.secOptions; tall
theorem Tall.secField1 (v u) : Tall 3 (secField1 v u) := by
  have := Tall.secIV; have := Tall.fieldRest; have := @Tall.getField1 3
  have : ∀ f, Tall 3 (Gpgpdump.onField f (Gpgpdump.secOptions u)) := fun f => .onField (.secOptions u) f
  unfold Gpgpdump.secField1; tall
theorem Tall.secField2 (v u p) : Tall 1 (secField2 v u p) := by
  have := Tall.fieldRest; have := @Tall.getField2 1
  have : ∀ f, Tall 1 (Gpgpdump.onField f (Gpgpdump.parseSecPlain p)) := fun f => .onField (.parseSecPlain p) f
  have : ∀ f, Tall 1 (Gpgpdump.onField f (Gpgpdump.parseSecEnc p)) := fun f => .onField (.parseSecEnc p) f
  unfold Gpgpdump.secField2; tall
theorem Tall.seckeyParse (v p) : Tall 3 (seckeyParse v p) := by
  have := Tall.secField1; have := Tall.secField2
  unfold Gpgpdump.seckeyParse; tall
theorem Tall.tag05 : Tall 4 (tag05 X) := by
  have := @Tall.pubkeyParse X; have := Tall.seckeyParse; have := Tall.unknownData
  unfold Gpgpdump.tag05; tall
theorem Tall.tag06 : Tall 2 (tag06 X) := by
  have := @Tall.pubkeyParse X; have := Tall.unknownData
  unfold Gpgpdump.tag06; tall
theorem Tall.tag08 : Tall 1 (tag08 X) := by unfold Gpgpdump.tag08; tall
theorem Tall.tag09 : Tall 1 tag09 := by unfold Gpgpdump.tag09; tall
theorem Tall.tag11 : Tall 1 (tag11 X) := by
  have := @Tall.newDateTime 1; have := Tall.addRaw
  unfold Gpgpdump.tag11; tall
theorem Tall.tag18 : Tall 1 tag18 := by unfold Gpgpdump.tag18; tall
theorem Tall.tag20 : Tall 1 tag20 := by
  have := Tall.addRaw; have := @Tall.rest 1
  unfold Gpgpdump.tag20; tall

theorem GivesTall.tagParse {n : Nat} {recur : TagParser} (hr : ∀ t b, GivesTall n (recur t b)) (t b) : GivesTall (max 5 (n + 4)) (tagParse X recur t b) := by
  unfold Gpgpdump.tagParse tagScope
  refine .flag_bind fun f => ?_
  have hh : (tagItem t b f).items = [] := rfl
  have hk : ∀ {c} {m : P Unit}, Tall c m → c ≤ max 4 (n + 3) → GivesTall (max 5 (n + 4)) (Gpgpdump.scope b (tagItem t b f) (m >>= fun _ => P.getCur)) := by
    intro c m h hc
    exact (GivesTall.scope (body := b) hh (.bind h fun _ => .getCur) (.bind fun _ => .getCur)).mono (by omega)
  unfold tagBody
  split
  · exact hk .tag01 (by omega)
  · exact hk (.tag02 hr) (by omega)
  · exact hk .tag03 (by omega)
  · exact hk .tag04 (by omega)
  · exact hk .tag05 (by omega)
  · exact hk .tag06 (by omega)
  · exact hk .tag05 (by omega)
  · exact hk (Tall.bind .tag08 fun _ => .pure _) (by omega)
  · exact hk .tag09 (by omega)
  · exact hk (c := 1) (.bind (.flag _) fun _ => .addRaw _ _) (by omega)
  · exact hk .tag11 (by omega)
  · exact hk (c := 1) (.addRaw _ _) (by omega)
  · exact hk (c := 1) (.bind .getBody fun _ => .bind (.flag _) fun _ => .add (leaf_text _ _ _) (by decide)) (by omega)
  · exact hk .tag06 (by omega)
  · exact hk (c := 3) (.bind .getBody fun _ => .addSubpackets GivesTall.parseSub17 _ _) (by omega)
  · exact hk .tag18 (by omega)
  · exact hk (c := 1) (.bind .reader fun _ => .bind (.flag _) fun _ => .add rfl (by decide)) (by omega)
  · exact hk .tag20 (by omega)
  · exact hk (c := 0) (.pure _) (by omega)

/-- at most four levels for each level of recursion -/
theorem GivesTall.parseTagF (f : Nat) (t b) : GivesTall (1 + 4 * f) (parseTagF X f t b) := by
  induction f generalizing t b with
  | zero => exact ⟨fun st => ⟨rfl, fun i hi => by cases hi⟩⟩
  | succ f ih => exact (GivesTall.tagParse ih t b).mono (by omega)

end

end Gpgpdump
