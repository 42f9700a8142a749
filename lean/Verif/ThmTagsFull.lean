import Verif.ThmFull
import Verif.UniqueCut

/-!
# C98: the whole answer of `Parse` of a packet made by `NewTag`, with what the context remembers
-/

namespace Gpgpdump
open P Spec

variable {o : OptCode → Bool} {X : Ext}

theorem once_full (hX : OwnErrors X) (x : Ctx) (hc : Consistent x) (tag : Nat) (body : Bytes) (i : Item)
    (h : (tagOnce X (some x) tag body).1 = .ret (some i) none) :
    ∃ y, (tagOnce X (some x) tag body).2 = some y ∧ y.opts = x.opts ∧ Consistent y ∧ Full x.opts X (hist (some x)) tag body i (hist (some y)) := by
  have hf := C98_fresh (X := X) tag body (St.at (some x) [] [] (newItem [] [] [] []))
  have h' : ((TagObj.new tag body).full X (some x)).1 = .ret (some i) none := h
  rw [show (St.at (some x) [] [] (newItem [] [] [] [])).ctx = some x from rfl, h'] at hf
  obtain ⟨y, f, q, l, hy, -, hs, -, -, hd⟩ := Tells.parseTag X hX (hist (some x)) tag body x _ _ _ _ _ hc.good rfl hf
  have := congrArg St.ctx hs
  exact ⟨y, this, hy.1, hy.consistent, hd⟩

/-- The item of the first call without an error, and what the context remembers afterwards, are those of the table `Full` for what the context
remembers before. The table leaves nothing open (`Full.uniq`), so this is the item of every accepted packet. -/
theorem C98_full (hX : OwnErrors X) (x : Ctx) (hc : Consistent x) (tag : Nat) (body : Bytes) (i : Item) (h' : History) :
    ((tagOnce X (some x) tag body).1 = .ret (some i) none ∧
      ∃ y, (tagOnce X (some x) tag body).2 = some y ∧ y.opts = x.opts ∧ Consistent y ∧ hist (some y) = h') ↔ Full x.opts X (hist (some x)) tag body i h' := by
  constructor
  · rintro ⟨h, y, hy, -, -, rfl⟩
    obtain ⟨y', hy', -, -, hf⟩ := once_full hX x hc tag body i h
    cases hy.symm.trans hy'
    exact hf
  · intro hf
    obtain ⟨j, hj⟩ := ((C98_outcome hX tag body).1 x).mpr hf.acc
    obtain ⟨k, rfl, -⟩ := C98_item _ _ _ _ hj
    obtain ⟨y, hy, ho, hcy, hk⟩ := once_full hX x hc tag body k hj
    obtain ⟨rfl, rfl⟩ := hk.uniq hf
    exact ⟨hj, y, hy, ho, hcy, rfl⟩

/-- What the context remembers counts only for signatures and for encrypted data: with any other tag two contexts with the same options give the same
item without an error (with one: C98_cut_context). -/
theorem C98_context (hX : OwnErrors X) (x y : Ctx) (hx : Consistent x) (hy : Consistent y) (ho : x.opts = y.opts) (tag : Nat) (body : Bytes)
    (ht : tag ∉ [2, 9, 18]) (i : Item) : (tagOnce X (some x) tag body).1 = .ret (some i) none ↔ (tagOnce X (some y) tag body).1 = .ret (some i) none := by
  have key : ∀ {x y : Ctx}, Consistent x → Consistent y → x.opts = y.opts → (tagOnce X (some x) tag body).1 = .ret (some i) none →
      (tagOnce X (some y) tag body).1 = .ret (some i) none := by
    intro x y hx hy ho h
    obtain ⟨z, -, -, -, hf⟩ := once_full hX x hx tag body i h
    rw [ho] at hf
    suffices ∃ h', Full y.opts X (hist (some y)) tag body i h' from by
      obtain ⟨h', hf⟩ := this
      exact ((C98_full hX y hy tag body i h').mpr hf).1
    generalize hist (some z) = k at hf
    cases hf with
    | plain ht hd => exact ⟨_, .plain ht hd⟩
    | sessionKey hd => exact ⟨_, .sessionKey hd⟩
    | password hd => exact ⟨_, .password hd⟩
    | encrypted => exact absurd ht (by decide)
    | integrity => exact absurd ht (by decide)
    | key ht hv hl hd => exact ⟨_, .key ht hv hl hd⟩
    | keyOther ht hv hd => exact ⟨_, .keyOther ht hv hd⟩
    | signatureOther => exact absurd ht (by decide)
    | signature => exact absurd ht (by decide)
  exact ⟨key hx hy ho, key hy hx ho.symm⟩

/-! ## Signatures that are cut -/

namespace Spec
variable (o : OptCode → Bool)

/-- `SigPart` with what the context remembers: the first areas are shown as in the table `FullArea` -/
inductive SigPartAt (X : Ext) (m : History) : Bytes → List Item → Prop
  | kind : SigPartAt X m [] []
  | alg {t} : SigPartAt X m [t] [sigTypeRow o t]
  | hash {t a} : SigPartAt X m [t, a] [sigTypeRow o t, pubRow o a]
  | hashed {t a h q c} (hq : FailArea X c q) : SigPartAt X m (t :: a :: h :: q) [sigTypeRow o t, pubRow o a, hashRow o h]
  | unhashed {t a h a1 i1 m1 q c} (hl : a1.length < 65536) (h1 : FullArea o X m "Hashed Subpacket" a1 i1 m1) (hq : FailArea X c q) :
      SigPartAt X m (t :: a :: h :: (beOctets 2 a1.length ++ (a1 ++ q))) (sigTypeRow o t :: pubRow o a :: hashRow o h :: i1)
  | left {t a h a1 i1 m1 a2 i2 m2 q} (hl1 : a1.length < 65536) (hl2 : a2.length < 65536) (h1 : FullArea o X m "Hashed Subpacket" a1 i1 m1)
      (h2 : FullArea o X m1 "Unhashed Subpacket" a2 i2 m2) (hq : q.length < 2) :
      SigPartAt X m (t :: a :: h :: (beOctets 2 a1.length ++ (a1 ++ (beOctets 2 a2.length ++ (a2 ++ q)))))
        (sigTypeRow o t :: pubRow o a :: hashRow o h :: (i1 ++ i2))
  | value {t a h a1 i1 m1 a2 i2 m2 l ss q is} (hl1 : a1.length < 65536) (hl2 : a2.length < 65536) (h1 : FullArea o X m "Hashed Subpacket" a1 i1 m1)
      (h2 : FullArea o X m1 "Unhashed Subpacket" a2 i2 m2) (hl : l.length = 2) (hs : sigSlots a = some ss) (hq : SlotsCut o ss q is) :
      SigPartAt X m (t :: a :: h :: (beOctets 2 a1.length ++ (a1 ++ (beOctets 2 a2.length ++ (a2 ++ (l ++ q))))))
        (sigTypeRow o t :: pubRow o a :: hashRow o h :: (i1 ++ (i2 ++ left16Row l :: is)))

/-- the rows of a signature packet that come with an error -/
inductive SigTagAt (X : Ext) (m : History) : Bytes → List Item → Prop
  | nothing : SigTagAt X m [] []
  | signature {v q l} (hv : v ∈ [4, 5]) (h : SigPartAt o X m q l) : SigTagAt X m (v :: q) (versionRow o 4 (some 5) v :: l)

end Spec

/-- `Err` for a context that remembers `h` -/
def ErrH (o : OptCode → Bool) (h : History) {α} (m : P α) (rd : Reader) (j : Item) (R : Item → Prop) : Prop :=
  ∀ x e s, Good o x → hist (some x) = h → m ⟨some x, rd, j⟩ = (.err e, s) → R s.cur

namespace ErrH
variable {h : History}

theorem of {α} {m : P α} {rd j R} (hm : Err o m rd j R) : ErrH o h m rd j R := fun x e s hx _ hr => hm x e s hx.1 hr
theorem debug {β} {g : Bool → P β} {rd j R} (hg : ErrH o h (g (o DEBUG)) rd j R) : ErrH o h (P.flag Ctx.debug >>= g) rd j R := fun x e s hx hh hr => by
  rw [bind_run, flag_run, show ctxFlag Ctx.debug (some x) = o DEBUG by rw [← hx.1]; rfl] at hr
  exact hg x e s hx hh hr
theorem byte {β} {g : UInt8 → P β} {p q j R} (h0 : q = [] → R j) (hg : ∀ b q', q = b :: q' → ErrH o h (g b) (rdAt (p ++ [b]) q') j R) :
    ErrH o h (readByte >>= g) (rdAt p q) j R := fun x e s hx hh hr => by
  rw [bind_run] at hr
  cases q with
  | nil => rw [show readByte ⟨some x, rdAt p [], j⟩ = _ from readByte_nil (some x) p j] at hr; cases hr; exact h0 rfl
  | cons b q =>
    rw [show readByte ⟨some x, rdAt p (b :: q), j⟩ = _ from readByte_cons (some x) p b q j] at hr
    exact hg b q rfl x e s hx hh hr
theorem bytes {β} (n : Nat) {g : Bytes → P β} {p q j R} (h0 : q.length < n → R j)
    (hg : ∀ b q' : Bytes, q = b ++ q' → b.length = n → ErrH o h (g b) (rdAt (p ++ b) q') j R) : ErrH o h (readBytes n >>= g) (rdAt p q) j R := fun x e s hx hh hr => by
  rw [bind_run] at hr
  by_cases hn : q.length < n
  · rw [show readBytes n ⟨some x, rdAt p q, j⟩ = _ from readBytes_err (some x) p q j n hn] at hr; cases hr; exact h0 hn
  · rw [show readBytes n ⟨some x, rdAt p q, j⟩ = _ from readBytes_ok (some x) p q j n (by omega)] at hr
    exact hg (q.take n) (q.drop n) (List.take_append_drop _ _).symm (by rw [List.length_take]; omega) x e s hx hh hr
theorem add {β} {i : Item} {g : Unit → P β} {rd j R} (hg : ErrH o h (g ()) rd (j.addAll [i]) R) : ErrH o h (P.add i >>= g) rd j R := fun x e s hx hh hr => hg x e s hx hh hr
theorem bind {α β} {m : P α} {g : α → P β} {E : α → Bytes → Bytes → List Item → History → Prop} {p q j R} (ht : Tell o h m E) (hm : Err o m (rdAt p q) j R)
    (hg : ∀ a f q' l h', q = f ++ q' → E a f q' l h' → ErrH o h' (g a) (rdAt (p ++ f) q') (j.addAll l) R) : ErrH o h (m >>= g) (rdAt p q) j R := by
  intro x e s hx hh hr
  rw [bind_run] at hr
  rcases hz : m ⟨some x, rdAt p q, j⟩ with ⟨r, s'⟩
  rw [hz] at hr
  cases r with
  | ok a =>
    obtain ⟨x', f, q', l, hx', hq, rfl, hE⟩ := ht x p q j a s' hx hh hz
    exact hg a f q' l _ hq hE x' e s hx' rfl hr
  | err y => cases hr; exact hm x _ _ hx.1 hz
  | panic => cases hr
  | stuck => cases hr

end ErrH

theorem tag02v4_at (hX : OwnErrors X) {m : History} {b : Bytes} (n : Nat) (v : UInt8) (hv : v ∈ [4, 5]) (p q : Bytes) (hb : b = v :: q) :
    ErrH o m (do tag02v4 X (parseTagF X n); unknownData) (rdAt p q) ((packetRow o 2 b []).addAll [versionRow o 4 (some 5) v])
      (fun i => ∃ l, SigTagAt o X m b l ∧ i = packetRow o 2 b l) := by
  have key : ∀ {l r j}, SigPartAt o X m r l → q = r → j = (packetRow o 2 b []).addAll (versionRow o 4 (some 5) v :: l) →
      ∃ l', SigTagAt o X m b l' ∧ j = packetRow o 2 b l' :=
    fun h hq hj => ⟨_, by rw [hb, hq]; exact .signature hv h, by rw [hj]; rfl⟩
  have ha := Sub.parseSub02 X (Sub.parseTagF X n)
  have hbb := Errs.parseSub02 X (Sub.parseTagF X n) (Errs.parseTagF X n)
  have hF : ∀ {c q}, Errs.AreaErr (SubOK X (FuelOK X n)) (Errs.SubErr X (FuelOK X n) (fun c => Errs.FuelErr X c n)) c q → FailArea X c q :=
    fun h => failArea_of_areaErr hX (fun _ _ => fails_of_fuelErr hX) h
  have hS := fun h name => Tell.subArea (o := o) (h := h) X (fun h => Tells.parseTagF (o := o) X hX n h) name
  unfold tag02v4
  simp only [bind_assoc_P]
  refine .byte (fun h => key .kind h rfl) fun t q1 h1 => .debug (.add ?_)
  refine .byte (fun h => key .alg (by rw [h1, h]) (by rw [sigItem_eq]; rfl)) fun a q2 h2 => .debug (.add ?_)
  refine .byte (fun h => key .hash (by rw [h1, h2, h]) (by rw [sigItem_eq, pubItem_eq]; rfl)) fun hh q3 h3 => .debug (.add ?_)
  simp only [Item.addAll_addAll, sigItem_eq, pubItem_eq, hashItem_eq, List.append_assoc, List.cons_append, List.nil_append]
  refine .bind (hS _ _) (.subArea ha hbb fun c hc => key (.hashed (hF hc)) (by rw [h1, h2, h3]) rfl) fun _ f1 q4 i1 m1 h4 h5 => ?_
  obtain ⟨a1, hl1, rfl, h5⟩ := h5
  refine .bind (hS _ _) (.subArea ha hbb fun c hc => key (.unhashed hl1 h5 (hF hc)) (by rw [h1, h2, h3, h4, List.append_assoc])
    (by rw [Item.addAll_addAll]; rfl)) fun _ f2 q5 i2 m2 h6 h7 => ?_
  obtain ⟨a2, hl2, rfl, h7⟩ := h7
  refine .bytes 2 (fun hq => key (.left (t := t) (a := a) (h := hh) hl1 hl2 h5 h7 hq) (by rw [h1, h2, h3, h4, h6]; simp only [List.append_assoc])
    (by rw [Item.addAll_addAll, Item.addAll_addAll]; rfl)) fun l q6 h8 hl => .add (.of ?_)
  exact .bind (Shows.parseSig a) (.cuts (Cuts.parseSig a) fun is ⟨ss, hs, hc⟩ => key (.value (t := t) (a := a) (h := hh) hl1 hl2 h5 h7 hl hs hc)
    (by rw [h1, h2, h3, h4, h6, h8]; simp only [List.append_assoc])
    (by simp only [Item.addAll_addAll, List.append_assoc, List.cons_append, List.nil_append, hashLeft2_eq])) fun _ _ _ _ _ _ => .unknownData

theorem tag02_at (hX : OwnErrors X) {m : History} {b : Bytes} (n : Nat) :
    ErrH o m (tag02 X (parseTagF X n)) (rdAt [] b) (packetRow o 2 b []) (fun i => ∃ l, SigTagAt o X m b l ∧ i = packetRow o 2 b l) := by
  unfold tag02
  refine .byte (fun h => by subst h; exact ⟨[], .nothing, rfl⟩) fun v q hb => .debug (.add ?_)
  rw [sigVer_eq]
  rcases sigVer_cases v with ⟨rfl, h1⟩ | ⟨rfl, h1, h2⟩ | ⟨rfl, h1, h2, h3⟩ | ⟨hv, h1, h2, h3⟩
  · rw [if_pos h1]; exact tag02v4_at hX n 5 (by decide) _ q hb
  · rw [if_neg (by simp [h1]), if_pos h2]; exact tag02v4_at hX n 4 (by decide) _ q hb
  · rw [if_neg (by simp [h1]), if_neg (by simp [h2]), if_pos (by simp [h3])]
    refine .of (.failed fun v st e s hr => ?_)
    cases v with
    | true => cases hr
    | false =>
      rw [if_neg (by decide)] at hr
      have hr : (if st.rd.rest > 0 then (P.flag Ctx.debug >>= fun d => Gpgpdump.addRaw (S "Unknown data") d) else Pure.pure ()) st = (.err e, s) := hr
      by_cases h : st.rd.rest > 0
      · rw [if_pos h] at hr; cases hr
      · rw [if_neg h] at hr; cases hr
  · rw [if_neg (by simp [h1]), if_neg (by simp [h2]), if_neg (by simp [h3])]
    exact .of .unknownData

/-- The item that comes with an error for a signature: the rows before the error, with the subpacket areas as the context remembers. -/
theorem C98_cut_history (hX : OwnErrors X) (x : Ctx) (hc : Consistent x) (body : Bytes) (i : Option Item) (e : GoErr)
    (h : (tagOnce X (some x) 2 body).1 = .ret i (some e)) :
    ∃ l, SigTagAt x.opts X (hist (some x)) body l ∧ i = some (packetRow x.opts 2 body l) := by
  obtain ⟨s, hs, rfl⟩ := full_err h
  have hstart : (TagObj.new 2 body).start = Reader.new body := full_start 2 body
  have hhead : (TagObj.new 2 body).header (some x) = packetRow x.opts 2 body [] := by
    rw [← tagHead_eq 2 body x rfl]
    unfold TagObj.header; rw [hstart]; rfl
  rw [hstart, hhead] at hs
  suffices hh : ∃ l, SigTagAt x.opts X (hist (some x)) body l ∧ s.cur = packetRow x.opts 2 body l by
    obtain ⟨l, h1, h2⟩ := hh; exact ⟨l, h1, by rw [h2]⟩
  unfold TagObj.body at hs
  have key : ∀ {α β} {m : P α} (g : α → β), (m >>= fun a => getCur >>= fun i => (Pure.pure (i, g a) : P (Item × β)))
      ⟨some x, Reader.new body, packetRow x.opts 2 body []⟩ = (.err e, s) → m ⟨some x, rdAt [] body, packetRow x.opts 2 body []⟩ = (.err e, s) := by
    intro α β m g hr
    rw [bind_run] at hr
    rcases hm : m ⟨some x, Reader.new body, packetRow x.opts 2 body []⟩ with ⟨r, s'⟩
    rw [hm] at hr
    cases r <;> cases hr
    exact hm
  exact tag02_at hX _ x e s hc.good rfl (key (fun _ => (none : Option Bytes)) hs)

/-! ### they are determined -/

theorem full_sig {m m1 m2 : History} {a1 a2 : Bytes} {i1 i2 : List Item} (hl1 : a1.length < 65536) (hl2 : a2.length < 65536)
    (h1 : FullArea o X m "Hashed Subpacket" a1 i1 m1) (h2 : FullArea o X m1 "Unhashed Subpacket" a2 i2 m2) :
    ∃ r, Full o X m 2 (4 :: 0 :: 99 :: 8 :: (beOctets 2 a1.length ++ (a1 ++ (beOctets 2 a2.length ++ (a2 ++ [0, 0])))))
      (packetRow o 2 (4 :: 0 :: 99 :: 8 :: (beOctets 2 a1.length ++ (a1 ++ (beOctets 2 a2.length ++ (a2 ++ [0, 0])))))
        (versionRow o 4 (some 5) 4 :: sigTypeRow o 0 :: pubRow o 99 :: hashRow o 8 :: (i1 ++ i2 ++ r))) m2 ∧ r = left16Row [0, 0] :: r.tail ∧
          r.tail = [leaf (opaqueName 99) [] (sizeText 0) (dumpIf (o DEBUG) [])] :=
  ⟨_, .signature (v := 4) (l := [0, 0]) (f := []) (q := []) (by decide) h1 h2 rfl (.unknown rfl) hl1 hl2, rfl, rfl⟩

theorem area_hashed_uniq {m m1 m1' : History} {a : Bytes} {i i' : List Item} (hl : a.length < 65536) (h : FullArea o X m "Hashed Subpacket" a i m1)
    (h' : FullArea o X m "Hashed Subpacket" a i' m1') : i = i' ∧ m1 = m1' := by
  obtain ⟨r, hf, e1, e2⟩ := full_sig (a2 := []) hl (by decide) h .empty
  obtain ⟨r', hf', e1', e2'⟩ := full_sig (a2 := []) hl (by decide) h' .empty
  obtain ⟨h1, h2⟩ := hf.uniq hf'
  refine ⟨?_, h2⟩
  have h3 := congrArg Item.items h1
  have h4 : i ++ [] ++ r = i' ++ [] ++ r' := (List.cons.inj (List.cons.inj (List.cons.inj (List.cons.inj h3).2).2).2).2
  rw [e1, e2, e1', e2', List.append_nil, List.append_nil] at h4
  exact List.append_cancel_right h4

theorem area_unhashed_uniq {m m1 m1' : History} {a : Bytes} {i i' : List Item} (hl : a.length < 65536) (h : FullArea o X m "Unhashed Subpacket" a i m1)
    (h' : FullArea o X m "Unhashed Subpacket" a i' m1') : i = i' ∧ m1 = m1' := by
  obtain ⟨r, hf, e1, e2⟩ := full_sig (a1 := []) (by decide) hl .empty h
  obtain ⟨r', hf', e1', e2'⟩ := full_sig (a1 := []) (by decide) hl .empty h'
  obtain ⟨h1, h2⟩ := hf.uniq hf'
  refine ⟨?_, h2⟩
  have h3 := congrArg Item.items h1
  have h4 : [] ++ i ++ r = [] ++ i' ++ r' := (List.cons.inj (List.cons.inj (List.cons.inj (List.cons.inj h3).2).2).2).2
  rw [e1, e2, e1', e2', List.nil_append, List.nil_append] at h4
  exact List.append_cancel_right h4

theorem area_rename {m m1 : History} {a : Bytes} {n : String} {i : List Item} (h : FullArea o X m n a i m1) : ∃ j, FullArea o X m "Hashed Subpacket" a j m1 := by
  cases h with
  | empty => exact ⟨_, .empty⟩
  | subs h0 hs hd => exact ⟨_, .subs h0 hs hd⟩

theorem short_area {c : Cause} {a r l q : Bytes} (ha : a.length < 65536) (hl : l.length = 2) (h : Short (beNat l) c q)
    (he : beOctets 2 a.length ++ (a ++ r) = l ++ q) : False := by
  obtain ⟨h1, h2⟩ := List.append_inj he (by simp [hl])
  have hn : beNat l = a.length := by rw [← h1, beNat_beOctets _ _ (by simpa using ha)]
  have hq : q.length < beNat l := by
    cases h with
    | none h => exact Nat.pos_of_ne_zero h
    | some h0 h => exact h
  rw [← h2, List.length_append] at hq
  omega

theorem Spec.FailArea.more {c : Cause} {a r q : Bytes} (r' : Bytes) (ha : a.length < 65536) (h : FailArea X c q) (he : beOctets 2 a.length ++ (a ++ r) = q) :
    FailArea X c (beOctets 2 a.length ++ (a ++ r')) := by
  cases h with
  | length h =>
    have hq : q.length < 2 := by
      cases h with
      | none h => exact (by decide : 0 < 2)
      | some h0 h => exact h
    rw [← he, List.length_append] at hq
    simp at hq
  | data hl h => exact (short_area ha hl h he).elim
  | split hl h =>
    obtain ⟨rfl, -⟩ := counted2_inj ha hl he
    exact .split ha h
  | subpacket hl hs h1 hp =>
    obtain ⟨rfl, -⟩ := counted2_inj ha hl he
    exact .subpacket ha hs h1 hp

theorem Spec.FailArea.not_full (hX : OwnErrors X) {c : Cause} {a r : Bytes} {m m1 : History} {n : String} {i : List Item} (ha : a.length < 65536)
    (h : FailArea X c (beOctets 2 a.length ++ (a ++ r))) (h' : FullArea o X m n a i m1) : False := by
  obtain ⟨j, hj⟩ := area_rename h'
  obtain ⟨r, hf, -, -⟩ := full_sig (a2 := []) ha (by decide) hj .empty
  obtain ⟨k, hk⟩ := ((C98_outcome hX 2 _).1 Ctx.empty).mpr hf.acc
  obtain ⟨i, e, he, -⟩ := ((C98_outcome hX 2 _).2.1 Ctx.empty c).mpr (Fails.hashed (v := 4) (t := 0) (a := 99) (h := 8) (by decide) (h.more _ ha rfl))
  rw [hk] at he
  cases he

/-- a cut signature behind the first three octets -/
def SigTail (o : OptCode → Bool) (X : Ext) (m : History) (a : UInt8) (q : Bytes) (k : List Item) : Prop :=
  (∃ c, FailArea X c q ∧ k = []) ∨ ∃ a1 i1 m1 r, a1.length < 65536 ∧ q = beOctets 2 a1.length ++ (a1 ++ r) ∧ FullArea o X m "Hashed Subpacket" a1 i1 m1 ∧
    ((∃ c, FailArea X c r ∧ k = i1) ∨ ∃ a2 i2 m2 s, a2.length < 65536 ∧ r = beOctets 2 a2.length ++ (a2 ++ s) ∧ FullArea o X m1 "Unhashed Subpacket" a2 i2 m2 ∧
      ((s.length < 2 ∧ k = i1 ++ i2) ∨ ∃ l ss q is, l.length = 2 ∧ s = l ++ q ∧ sigSlots a = some ss ∧ SlotsCut o ss q is ∧ k = i1 ++ (i2 ++ left16Row l :: is)))

theorem SigTail.uniq (hX : OwnErrors X) {m a q k k'} (h : SigTail o X m a q k) (h' : SigTail o X m a q k') : k = k' := by
  rcases h with ⟨c, h, hk⟩ | ⟨a1, i1, m1, r, hl1, e1, h1, h⟩ <;> rcases h' with ⟨c', h', hk'⟩ | ⟨a1', i1', m1', r', hl1', e1', h1', h'⟩
  · rw [hk, hk']
  · rw [e1'] at h; exact (h.not_full hX hl1' h1').elim
  · rw [e1] at h'; exact (h'.not_full hX hl1 h1).elim
  obtain ⟨rfl, rfl⟩ := counted2_inj hl1 hl1' (e1.symm.trans e1')
  obtain ⟨rfl, rfl⟩ := area_hashed_uniq hl1 h1 h1'
  rcases h with ⟨c, h, hk⟩ | ⟨a2, i2, m2, s, hl2, e2, h2, h⟩ <;> rcases h' with ⟨c', h', hk'⟩ | ⟨a2', i2', m2', s', hl2', e2', h2', h'⟩
  · rw [hk, hk']
  · rw [e2'] at h; exact (h.not_full hX hl2' h2').elim
  · rw [e2] at h'; exact (h'.not_full hX hl2 h2).elim
  obtain ⟨rfl, rfl⟩ := counted2_inj hl2 hl2' (e2.symm.trans e2')
  obtain ⟨rfl, rfl⟩ := area_unhashed_uniq hl2 h2 h2'
  rcases h with ⟨h, hk⟩ | ⟨l, ss, q, is, hl, e3, hs, h, hk⟩ <;> rcases h' with ⟨h', hk'⟩ | ⟨l', ss', q', is', hl', e3', hs', h', hk'⟩
  · rw [hk, hk']
  · rw [e3', List.length_append] at h; omega
  · rw [e3, List.length_append] at h'; omega
  obtain ⟨rfl, rfl⟩ := List.append_inj (e3.symm.trans e3') (hl.trans hl'.symm)
  obtain rfl := Option.some.inj (hs.symm.trans hs')
  rw [hk, hk', h.uniq h']

theorem Spec.SigPartAt.view {m q l} (h : SigPartAt o X m q l) : (q = [] ∧ l = []) ∨ (∃ t, q = [t] ∧ l = [sigTypeRow o t]) ∨
    (∃ t a, q = [t, a] ∧ l = [sigTypeRow o t, pubRow o a]) ∨
    ∃ t a h r k, q = t :: a :: h :: r ∧ SigTail o X m a r k ∧ l = sigTypeRow o t :: pubRow o a :: hashRow o h :: k := by
  cases h with
  | kind => exact .inl ⟨rfl, rfl⟩
  | alg => exact .inr (.inl ⟨_, rfl, rfl⟩)
  | hash => exact .inr (.inr (.inl ⟨_, _, rfl, rfl⟩))
  | hashed hq => exact .inr (.inr (.inr ⟨_, _, _, _, _, rfl, .inl ⟨_, hq, rfl⟩, rfl⟩))
  | unhashed hl h1 hq => exact .inr (.inr (.inr ⟨_, _, _, _, _, rfl, .inr ⟨_, _, _, _, hl, rfl, h1, .inl ⟨_, hq, rfl⟩⟩, rfl⟩))
  | left hl1 hl2 h1 h2 hq =>
    exact .inr (.inr (.inr ⟨_, _, _, _, _, rfl, .inr ⟨_, _, _, _, hl1, rfl, h1, .inr ⟨_, _, _, _, hl2, rfl, h2, .inl ⟨hq, rfl⟩⟩⟩, rfl⟩))
  | value hl1 hl2 h1 h2 hl hs hq =>
    exact .inr (.inr (.inr ⟨_, _, _, _, _, rfl, .inr ⟨_, _, _, _, hl1, rfl, h1, .inr ⟨_, _, _, _, hl2, rfl, h2, .inr ⟨_, _, _, _, hl, rfl, hs, hq, rfl⟩⟩⟩, rfl⟩))

theorem Spec.SigPartAt.uniq (hX : OwnErrors X) {m q l l'} (h : SigPartAt o X m q l) (h' : SigPartAt o X m q l') : l = l' := by
  rcases h.view with ⟨e, hl⟩ | ⟨t, e, hl⟩ | ⟨t, a, e, hl⟩ | ⟨t, a, hh, r, k, e, hk, hl⟩ <;>
    rcases h'.view with ⟨e', hl'⟩ | ⟨t', e', hl'⟩ | ⟨t', a', e', hl'⟩ | ⟨t', a', hh', r', k', e', hk', hl'⟩ <;> rw [e] at e' <;> cases e' <;> rw [hl, hl']
  rw [hk.uniq hX hk']

/-- The rows of `SigTagAt` are determined by the contents and by what the context remembers. -/
theorem Spec.SigTagAt.uniq (hX : OwnErrors X) {m b l l'} (h : SigTagAt o X m b l) (h' : SigTagAt o X m b l') : l = l' := by
  cases h with
  | nothing => cases h'; rfl
  | signature hv h => cases h' with
    | signature hv' h' => rw [h.uniq hX h']

/-- C98_cut_unique for signatures -/
theorem C98_cut_history_unique (hX : OwnErrors X) (x : Ctx) (hc : Consistent x) (body : Bytes) (i : Option Item) (e : GoErr) (l : List Item)
    (h : (tagOnce X (some x) 2 body).1 = .ret i (some e)) (hl : SigTagAt x.opts X (hist (some x)) body l) : i = some (packetRow x.opts 2 body l) := by
  obtain ⟨l', h1, rfl⟩ := C98_cut_history hX x hc body i e h
  rw [h1.uniq hX hl]

/-- Hypotheses met: a signature with a key expiration time, cut behind its unhashed area. The area row shows the end of the period, from the
creation time of the key that the context remembers. With a whole packet, a whole item. -/
theorem C98_full_example : Consistent Ctx.later ∧ hist (some Ctx.later) = { key := some 1 } ∧
    SigTagAt Ctx.later.opts Tests.X { key := some 1 } [4, 0, 1, 8, 0, 6, 5, 9, 0, 0, 0, 1, 0, 0, 0xab]
      [versionRow Ctx.later.opts 4 (some 5) 4, sigTypeRow Ctx.later.opts 0, pubRow Ctx.later.opts 1, hashRow Ctx.later.opts 8,
        areaRow Ctx.later.opts "Hashed Subpacket" [5, 9, 0, 0, 0, 1] [periodRow Ctx.later.opts Tests.X 9 [0, 0, 0, 1] (some 1)]] ∧
    (withError (tagOnce Tests.X (some Ctx.later) 2 [4, 0, 1, 8, 0, 6, 5, 9, 0, 0, 0, 1, 0, 0, 0xab])).isSome ∧
    (∃ i, Full Ctx.later.opts Tests.X { key := some 1 } 6 [4, 0, 0, 0, 10, 99, 1] i { key := some 10 }) := by
  refine ⟨⟨fun d h => by cases h; rfl, fun d h => by cases h⟩, rfl, ?_, by decide +kernel, ?_⟩
  · exact .signature (v := 4) (by decide) (.left (a1 := [5, 9, 0, 0, 0, 1]) (a2 := []) (i2 := []) (q := [0xab]) (by decide) (by decide)
      (.subs (subs := [(9, [0, 0, 0, 1])]) (by decide) (.cons (lenc := [5]) (area := []) (.one (n := 5) (by decide)) .nil)
        (.keyExpires (n := [0, 0, 0, 1]) (r := []) rfl rfl .nil)) .empty (by decide))
  · exact ⟨_, .key (v := 4) (tm := [0, 0, 0, 10]) (r := [99, 1]) (by decide) (by decide) rfl
      (.publicKey (a := 99) (f := [0, 0, 0, 10, 99]) (q := [1]) (by decide) (.v4 (tm := [0, 0, 0, 10]) (f := []) rfl (.unknown rfl)))⟩

end Gpgpdump
