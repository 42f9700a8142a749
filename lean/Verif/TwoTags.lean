import Verif.Two
import Verif.ThmAccount

/-!
# Two runs side by side: packets
-/

namespace Gpgpdump
open P Spec Two

theorem onReader_run {α} (r : Reader) (m : P α) (st : St) :
    onReader r m st = ((m { st with rd := r }).1.map (fun a => (a, (m { st with rd := r }).2.rd)), { (m { st with rd := r }).2 with rd := st.rd }) := rfl

section
variable {o : OptCode → Bool} {R : Bytes → Bytes → Prop} {hide : Bool}

/-- key material in a reader of its own -/
theorem two_onReader {α β} {m : P α} {B : Bytes → Bytes → Prop} {B' : α → Bytes → Bytes → Prop} (h : Two o B m B') (b : β) {d d' : Bytes} (hb : B d d') (c p q j)
    (hc : OptsAre o c) : (onReader (Reader.new d') m >>= fun _ => (Pure.pure b : P β)) (St.at c p q j) = (onReader (Reader.new d) m >>= fun _ => (Pure.pure b : P β)) (St.at c p q j) := by
  obtain ⟨r, c2, p2, p2', q2, q2', j2, g1, g2, g3⟩ := h c [] [] d d' j hc rfl hb
  have e1 : onReader (Reader.new d) m (St.at c p q j) = (r.map (fun a => (a, (⟨p2 ++ q2, p2.length⟩ : Reader))), St.at c2 p q j2) := by
    rw [onReader_run]
    have : m { St.at c p q j with rd := Reader.new d } = _ := g1
    rw [this]; rfl
  have e2 : onReader (Reader.new d') m (St.at c p q j) = (r.map (fun a => (a, (⟨p2' ++ q2', p2'.length⟩ : Reader))), St.at c2 p q j2) := by
    rw [onReader_run]
    have : m { St.at c p q j with rd := Reader.new d' } = _ := g2
    rw [this]; rfl
  rw [bind_run, bind_run, e1, e2]
  cases r <;> rfl
theorem two_onReader_unread {α β} {m : P α} {R' : β → Bytes → Bytes → Prop} (hm : Moves optsOrder m) (b : β) (d : Bytes) (hr : ∀ q q', R q q' → R' b q q') :
    Two o R (onReader (Reader.new d) m >>= fun _ => (Pure.pure b : P β)) R' := by
  intro c p p' q q' j hc hp h
  rcases e : m ⟨c, Reader.new d, j⟩ with ⟨r, s⟩
  have ho : OptsAre o s.ctx := by
    have := hm.run ⟨c, Reader.new d, j⟩
    rw [e] at this
    exact this.symm.trans hc
  have key : ∀ p q, (onReader (Reader.new d) m >>= fun _ => (Pure.pure b : P β)) (St.at c p q j) = (r.map fun _ => b, St.at s.ctx p q s.cur) := by
    intro p q
    have e1 : onReader (Reader.new d) m (St.at c p q j) = (r.map (fun a => (a, s.rd)), St.at s.ctx p q s.cur) := by
      rw [onReader_run]
      have : m { St.at c p q j with rd := Reader.new d } = _ := e
      rw [this]; rfl
    rw [bind_run, e1]
    cases r <;> rfl
  refine ⟨_, _, _, _, _, _, _, key p q, key p' q', ho, hp, fun a ha => ?_⟩
  cases r with
  | ok x => cases ha; exact hr _ _ h
  | _ => cases ha

theorem pubVer_eqs (v : UInt8) : (pubVer v).isDraft = decide (v = 5) ∧ (pubVer v).isCurrent = decide (v = 4) ∧
    ((pubVer v).isOld && (pubVer v).ver == 3) = decide (v = 3) := by
  have : ∀ n : Fin 256, let v := UInt8.ofNat n.val; (pubVer v).isDraft = decide (v = 5) ∧ (pubVer v).isCurrent = decide (v = 4) ∧
    ((pubVer v).isOld && (pubVer v).ver == 3) = decide (v = 3) := by decide +kernel
  have h' := this ⟨v.toNat, v.toNat_lt⟩
  simpa using h'

variable (X : Ext)

theorem two_pubkeyTime : Two o (Agree 4 fun _ => R) (pubkeyTime X) fun _ => R := by
  unfold pubkeyTime
  exact .bind (.flag _) fun _ => .bind (date _) fun _ => .bind (.setKeyTime _) fun _ => .bind (.flag _) fun _ => .add _

theorem two_pubkeyParse {R : UInt8 → Bytes → Bytes → Prop} (hf : hide = true → ∀ c, OptsAre o c → ctxFlag Ctx.integer c = false) (hd : o DEBUG = false)
    (hl : ∀ a q q', R a q q' → SameLength q q') (v) : Two o (PubKey hide R v) (pubkeyParse X (pubVer v)) R := by
  obtain ⟨e5, e4, e3⟩ := pubVer_eqs v
  unfold pubkeyParse PubKey
  simp only [e5, e4, e3, decide_eq_true_eq]
  by_cases h5 : v = 5
  · simp only [if_pos h5]
    refine .bind (two_pubkeyTime X) fun _ => .bind .readByte fun a => .bind (.flag _) fun _ => .bind (.add _) fun _ => .bind (.readBytes (n := 4)) fun n =>
      .block fun d d' hb hd1 hd2 => ?_
    exact ⟨_, two_onReader_unread (R := R a) (.parsePub a) a d (fun _ _ h => h), fun _ _ _ _ _ => rfl,
      fun c p q j hc => two_onReader (two_parsePub hf hd (fun _ _ h => h) a) a hb c p q j hc⟩
  · simp only [if_neg h5]
    by_cases h4 : v = 4
    · simp only [if_pos h4]
      exact .bind (two_pubkeyTime X) fun _ => .bind .readByte fun a => .bind (.flag _) fun _ => .bind (.add _) fun _ =>
        .bind (two_parsePub hf hd (hl a) a) fun _ => .pure fun _ _ h => h
    · simp only [if_neg h4]
      by_cases h3 : v = 3
      · simp only [if_pos h3]
        exact .bind (two_pubkeyTime X) fun _ => .bind (.readBytes (n := 2)) fun _ => .bind (.add _) fun _ => .bind .readByte fun a =>
          .bind (.flag _) fun _ => .bind (.add _) fun _ => .bind (two_parsePub hf hd (hl a) a) fun _ => .pure fun _ _ h => h
      · simp only [if_neg h3]
        exact .pure fun _ _ h => h

theorem two_tag06 (hi : o INTEGER = false) (hd : o DEBUG = false) :
    Two o (Agree1 (PubKey true fun _ => SameLength)) (tag06 X) fun _ => SameLength := by
  unfold tag06
  exact .bind .readByte fun v => .bind (.flag _) fun _ => .bind (.add _) fun _ =>
    .bind (two_pubkeyParse X (fun _ => integer_off hi hd) hd (fun _ _ _ h => h) v) fun _ => .unknown hd fun _ _ h => h

/-! ## Secret keys -/

/-- the GNU extension -/
theorem two_gnu {N : Bytes → Bytes → Prop} (hl : ∀ q q', R q q' → SameLength q q') (hN : ∀ q q', N q q' → SameLength q q') :
    Two o (GnuS2K R N) (do
      if (← Gpgpdump.rest) < 4 then return true
      else
        let mrk ← P.readBytes 3
        if mrk = [0x47, 0x4e, 0x55] then
          let n ← P.readByte
          let enum := 1000 + n.toNat
          let gnu ← build (newItem (S "GNU-divert-to-card") (S "Extension Number " ++ dec enum)) (do
            if enum = 1002 then
              let l ← P.readByte
              let ser ← P.readBytes l.toNat
              P.add (newItem (S "Serial Number") [] [] (dumpBytes ser true))
            else Pure.pure ())
          P.add gnu
          return false
        else
          let _ ← seek (-3) 1
          return true : P Bool) fun b q q' => if b = true then R q q' else N q q' := by
  intro c p p' q q' j hc hp hr
  cases hr with
  | short h hr =>
    have h1 : q.length = q'.length := hl _ _ hr
    have e : ((q.length : Int) < 4) := by omega
    have e' : ((q'.length : Int) < 4) := by omega
    refine ⟨.ok true, c, p, p', q, q', j, ?_, ?_, hc, hp, fun a ha => by cases ha; exact hr⟩
    · rw [bind_run, rest_run]; simp only [if_pos e]; rfl
    · rw [bind_run, rest_run]; simp only [if_pos e']; rfl
  | @other m r r' hm h h1 hr =>
    have h2 : r.length = r'.length := by have := hl _ _ hr; simpa [SameLength] using this
    have h3 : 0 < r.length := List.length_pos_iff.mpr h1
    have e : ¬ (((m ++ r).length : Int) < 4) := by simp only [List.length_append]; omega
    have e' : ¬ (((m ++ r').length : Int) < 4) := by simp only [List.length_append]; omega
    have r3 : ∀ p r, readBytes 3 (St.at c p (m ++ r) j) = (.ok m, St.at c (p ++ m) r j) := by
      intro p r
      have := readBytes_append c p m r j
      rwa [hm] at this
    refine ⟨.ok true, c, p, p', _, _, j, ?_, ?_, hc, hp, fun a ha => by cases ha; exact hr⟩
    · rw [bind_run, rest_run]; simp only [if_neg e, bind_run, r3, if_neg h, seek_back3 _ _ _ _ _ hm]; rfl
    · rw [bind_run, rest_run]; simp only [if_neg e', bind_run, r3, if_neg h, seek_back3 _ _ _ _ _ hm]; rfl
  | @gnu n r r' h =>
    have h0 : r.length = r'.length := by
      split at h
      · exact Agree1.len (fun _ _ _ => Agree.len fun _ _ _ => hN _ _) h
      · exact hN _ _ h
    have e : ¬ ((([0x47, 0x4e, 0x55] ++ n :: r : Bytes).length : Int) < 4) := by simp only [List.length_append, List.length_cons]; omega
    have e' : ¬ ((([0x47, 0x4e, 0x55] ++ n :: r' : Bytes).length : Int) < 4) := by simp only [List.length_append, List.length_cons]; omega
    have r3 : ∀ p r, readBytes 3 (St.at c p ([0x47, 0x4e, 0x55] ++ r) j) = (.ok [0x47, 0x4e, 0x55], St.at c (p ++ [0x47, 0x4e, 0x55]) r j) :=
      fun p r => readBytes_append c p [0x47, 0x4e, 0x55] r j
    have hen : (1000 + n.toNat = 1002) ↔ n = 2 := by
      constructor
      · intro h; apply UInt8.toNat.inj; show n.toNat = 2; omega
      · rintro rfl; rfl
    have hT : Two o (fun q q' => if n = 2 then Agree1 (fun l => Agree l.toNat fun _ => N) q q' else N q q')
        (build (newItem (S "GNU-divert-to-card") (S "Extension Number " ++ dec (1000 + n.toNat))) (do
            if 1000 + n.toNat = 1002 then
              let l ← P.readByte
              let ser ← P.readBytes l.toNat
              P.add (newItem (S "Serial Number") [] [] (dumpBytes ser true))
            else Pure.pure ()) >>= fun g => P.add g >>= fun _ => Pure.pure false) fun b q q' => if b = true then R q q' else N q q' := by
      refine .bind (R1 := fun _ => N) (.build ?_) fun g => .bind (.add _) fun _ => .pure fun _ _ h => h
      by_cases hn : n = 2
      · simp only [if_pos hn, if_pos (hen.2 hn)]
        exact .bind .readByte fun l => .bind .readBytes fun _ => .add _
      · simp only [if_neg hn, if_neg fun h => hn (hen.1 h)]
        exact .pure fun _ _ h => h
    obtain ⟨r2, c2, p2, p2', q2, q2', j2, g1, g2, g3⟩ := hT c (p ++ [0x47, 0x4e, 0x55] ++ [n]) (p' ++ [0x47, 0x4e, 0x55] ++ [n]) r r' j hc (by simp [hp]) h
    refine ⟨r2, c2, p2, p2', q2, q2', j2, ?_, ?_, g3⟩
    · rw [bind_run, rest_run]
      simp only [if_neg e]
      rw [bind_run, r3]
      simp only [if_true]
      rw [bind_run, readByte_cons]
      exact g1
    · rw [bind_run, rest_run]
      simp only [if_neg e']
      rw [bind_run, r3]
      simp only [if_true]
      rw [bind_run, readByte_cons]
      exact g2

theorem two_s2k {N : Bytes → Bytes → Prop} (hl : ∀ q q', R q q' → SameLength q q') (hN : ∀ q q', N q q' → SameLength q q') (d : Bool) :
    Two o (S2K R N) (s2kParse d) fun b q q' => if b = true then R q q' else N q q' := by
  unfold s2kParse S2K
  refine .bind .readByte fun t => .nested ?_
  by_cases h0 : t = 0
  · subst h0
    simp only [true_or, if_true]
    refine .bind .readByte fun _ => .bind (.add _) fun _ => ?_
    simp only [ne_eq, not_true_eq_false, if_false, show ¬ ((0 : UInt8) = 3) by decide]
    exact .pure fun _ _ h => h
  · by_cases h1 : t = 1
    · subst h1
      simp only [show ¬ ((1 : UInt8) = 0) by decide, show ¬ ((1 : UInt8) = 3) by decide, false_or, true_or, if_true, if_false, ne_eq, not_false_eq_true]
      exact .bind .readByte fun _ => .bind (.add _) fun _ => .bind (.readBytes (n := 8)) fun _ => .bind (.add _) fun _ => .pure fun _ _ h => h
    · by_cases h3 : t = 3
      · subst h3
        simp only [show ¬ ((3 : UInt8) = 0) by decide, show ¬ ((3 : UInt8) = 1) by decide, false_or, if_true, if_false, ne_eq, not_false_eq_true]
        exact .bind .readByte fun _ => .bind (.add _) fun _ => .bind (.readBytes (n := 8)) fun _ => .bind (.add _) fun _ => .bind .readByte fun _ => .bind (.add _) fun _ => .pure fun _ _ h => h
      · simp only [h0, h1, h3, or_self, if_false]
        by_cases h101 : t = 101
        · simp only [if_pos h101]
          exact two_gnu hl hN
        · simp only [if_neg h101]
          exact .pure fun _ _ h => h

/-- the second field of versions other than 5 -/
theorem secField2_eq {v : Version} (hv : v.ver ≠ 5) (u a : UInt8) : secField2 v u a = (if u = 0 then do
      P.setNote (S "s2k usage 0; plain secret-key material")
      parseSecPlain a
      let chk ← P.readBytes 2
      P.add (newItem (S "2-octet checksum") [] [] (dumpBytes chk true))
      fieldRest none
    else do
      P.setNote (if u = 253 then S "s2k usage 253; encrypted secret-key material and AEAD authentication tag"
        else if u = 254 then S "s2k usage 254; encrypted secret-key material and 20-octet SHA-1 hash"
        else S "s2k usage " ++ dec u.toNat ++ S "; encrypted secret-key material and 2-octet checksum")
      parseSecEnc a
      fieldRest none : P Unit) := by
  unfold secField2 getField2
  simp only [if_neg hv, P.pure_bind]
  by_cases hu : u = 0
  · simp only [if_pos hu, onField, P.bind_assoc, P.pure_bind]
  · simp only [if_neg hu, onField, P.bind_assoc, P.pure_bind]

theorem secField1_eq {v : Version} (hv : v.ver ≠ 5) (u : UInt8) : secField1 v u = (secOptions u >>= fun x => do
      (if u ≠ 0 ∧ x.2 = true then secIV x.1 (u == 253) else Pure.pure ())
      fieldRest none) := by
  unfold secField1 getField1
  simp only [if_neg hv, P.pure_bind, onField, P.bind_assoc]
  congr 1
  funext x
  split <;> rfl

theorem two_secIV (s : UInt8) (b : Bool) : Two o (Agree (ivLength s) fun _ => R) (secIV s b) fun _ => R := by
  unfold secIV
  exact .bind (.readBytes (n := symIVLen s)) fun _ => .add _

theorem two_fieldRest : Two o R (fieldRest none) fun _ => R := .pure fun _ _ h => h

theorem two_secOptions {u : UInt8} (hu : u ≠ 0) : Two o (Agree1 fun sym =>
      let iv := Agree (ivLength sym) fun _ => SameLength
      if u = 253 then Agree1 fun _ => S2K iv SameLength else if u = 254 ∨ u = 255 then S2K iv SameLength else iv) (secOptions u)
    fun x q q' => if x.2 = true then Agree (ivLength x.1) (fun _ => SameLength) q q' else SameLength q q' := by
  have hiv : ∀ n q q', Agree n (fun _ => SameLength) q q' → SameLength q q' := fun _ _ _ => Agree.len fun _ _ _ h => h
  have hsl : ∀ q q', SameLength q q' → SameLength q q' := fun _ _ h => h
  unfold secOptions
  simp only [ne_eq, hu, not_false_eq_true, if_true, if_false]
  refine .bind (.flag _) fun d => ?_
  by_cases h3 : u = 253
  · simp only [h3, true_or, if_true, P.bind_assoc, P.pure_bind]
    refine .bind .readByte fun sym => .bind (.add _) fun _ => .bind .readByte fun a => .bind (.add _) fun _ => .bind (two_s2k (hiv _) hsl d) fun b => ?_
    exact .pure fun _ _ h => h
  · by_cases h4 : u = 254 ∨ u = 255
    · simp only [h3, h4, or_true, if_true, if_false, P.bind_assoc, P.pure_bind]
      refine .bind .readByte fun sym => .bind (.add _) fun _ => .bind (two_s2k (hiv _) hsl d) fun b => ?_
      exact .pure fun _ _ h => h
    · simp only [h3, h4, or_false, if_false, P.bind_assoc, P.pure_bind]
      refine .bind .readByte fun sym => .bind (.add _) fun _ => ?_
      exact .pure fun _ _ h => h

theorem two_seckeyParse (hf : hide = true → ∀ c, OptsAre o c → ctxFlag Ctx.integer c = false) (hd : o DEBUG = false)
    {v : Version} (hv : v.ver ≠ 5) (a) : Two o (SecKey hide a) (seckeyParse v a) fun _ => SameLength := by
  unfold seckeyParse SecKey
  refine .bind .readByte fun u => ?_
  rw [secField1_eq hv, secField2_eq hv]
  by_cases h0 : u = 0
  · subst h0
    have hopt : secOptions 0 = (P.flag Ctx.debug >>= fun _ => Pure.pure (0, false)) := rfl
    simp only [if_true, hopt, P.bind_assoc, P.pure_bind, ne_eq, not_true_eq_false, false_and, if_false]
    refine .bind (.flag _) fun _ => .bind two_fieldRest fun _ => .bind (.setNote _) fun _ => .bind (two_parseSecPlain hf a) fun _ => ?_
    exact .bind (.readBytes (n := 2)) fun _ => .bind (.add _) fun _ => two_fieldRest
  · simp only [if_neg h0]
    refine .bind (.bind (two_secOptions h0) fun x => .bind (R1 := fun _ => SameLength) ?_ fun _ => two_fieldRest) fun _ => ?_
    · by_cases hx : x.2 = true
      · rw [if_pos ⟨h0, hx⟩]
        exact .weaken (two_secIV _ _) (fun _ _ h => by rwa [if_pos hx] at h) fun _ _ _ h => h
      · rw [if_neg fun h => hx h.2]
        exact .pure fun _ _ h => by rwa [if_neg hx] at h
    · exact .bind (.setNote _) fun _ => .bind (two_parseSecEnc hd a) fun _ => two_fieldRest

theorem GnuS2K.len {N : Bytes → Bytes → Prop} (h : ∀ q q', R q q' → SameLength q q') (hN : ∀ q q', N q q' → SameLength q q') {q q'} (hr : GnuS2K R N q q') :
    SameLength q q' := by
  cases hr with
  | short _ hr => exact h _ _ hr
  | other _ _ _ hr => exact h _ _ hr
  | @gnu n r r' hr =>
    have : SameLength r r' := by
      split at hr
      · exact Agree1.len (fun _ _ _ => Agree.len fun _ _ _ => hN _ _) hr
      · exact hN _ _ hr
    simpa [SameLength] using this
theorem S2K.len {N : Bytes → Bytes → Prop} (h : ∀ q q', R q q' → SameLength q q') (hN : ∀ q q', N q q' → SameLength q q') {q q'} (hr : S2K R N q q') : SameLength q q' := by
  refine Agree1.len (fun t q q' hr => ?_) hr
  split at hr
  · exact Agree1.len (fun _ _ _ => h _ _) hr
  · split at hr
    · exact Agree1.len (fun _ _ _ => Agree.len fun _ _ _ => h _ _) hr
    · split at hr
      · exact Agree1.len (fun _ _ _ => Agree.len fun _ _ _ => Agree1.len fun _ _ _ => h _ _) hr
      · split at hr
        · exact GnuS2K.len h hN hr
        · exact h _ _ hr
theorem SecKey.len (a) {q q'} (hr : SecKey hide a q q') : SameLength q q' := by
  refine Agree1.len (fun t q q' hr => ?_) hr
  have hiv : ∀ {n q q'}, Agree n (fun _ => SameLength) q q' → SameLength q q' := Agree.len fun _ _ _ h => h
  split at hr
  · split at hr
    · exact Parts.len (fun _ _ => hiv) _ hr
    · exact hr.elim
  · refine Agree1.len (fun s q q' hr => ?_) hr
    split at hr
    · exact Agree1.len (fun _ _ _ => S2K.len (fun _ _ => hiv) fun _ _ h => h) hr
    · split at hr
      · exact S2K.len (fun _ _ => hiv) (fun _ _ h => h) hr
      · exact hiv hr

theorem PubKey.len {R : UInt8 → Bytes → Bytes → Prop} (h : ∀ a q q', R a q q' → SameLength q q') (v) {q q'} (hr : PubKey hide R v q q') : SameLength q q' := by
  unfold PubKey at hr
  split at hr
  · exact Agree.len (fun _ _ _ => Agree1.len fun _ _ _ => Agree.len fun _ _ _ => Block.len fun _ _ => h _ _ _) hr
  · split at hr
    · exact Agree.len (fun _ _ _ => Agree1.len fun a _ _ => Parts.len (fun _ _ => h _ _ _) _) hr
    · split at hr
      · exact Agree.len (fun _ _ _ => Agree.len fun _ _ _ => Agree1.len fun a _ _ => Parts.len (fun _ _ => h _ _ _) _) hr
      · exact h _ _ _ hr
theorem Area.len {hideCert} (h : ∀ q q', R q q' → SameLength q q') {q q'} (hr : Area hideCert R q q') : SameLength q q' := by
  cases hr with
  | same hr => exact Agree.len (fun _ _ _ => Agree.len fun _ _ _ => h _ _) hr
  | attested hh hs hs' ha hl hl' hr =>
    have := h _ _ hr
    simp only [SameLength, List.length_append, beOctets_length] at *
    omega

theorem two_tag05 (hf : hide = true → ∀ c, OptsAre o c → ctxFlag Ctx.integer c = false) (hd : o DEBUG = false) :
    Two o (Agree1 fun v => if v = 5 then fun _ _ => False else PubKey hide (SecKey hide) v) (tag05 X) fun _ => SameLength := by
  unfold tag05
  refine .bind .readByte fun v => .bind (.flag _) fun _ => .bind (.add _) fun _ => ?_
  by_cases h5 : v = 5
  · simp only [if_pos h5]
    exact .never fun _ _ h => h
  · simp only [if_neg h5]
    exact .bind (.nested (two_pubkeyParse X hf hd (fun a _ _ => SecKey.len a) v)) fun a =>
      .bind (.nested (two_seckeyParse hf hd h5 a)) fun _ => .unknown hd fun _ _ h => h

/-! ## Session keys -/

theorem two_tag01 (hi : o INTEGER = false) (hd : o DEBUG = false) :
    Two o (Agree1 fun _ => Agree 8 fun _ => Agree1 fun alg => Parts true SameLength (sesParts alg)) tag01 fun _ => SameLength := by
  unfold tag01
  exact .bind (.setMode _) fun _ => .bind .readByte fun v => .bind (.flag _) fun _ => .bind (.add _) fun _ => .bind (.readBytes (n := 8)) fun _ =>
    .bind (.add _) fun _ => .bind .readByte fun a => .bind (.flag _) fun _ => .bind (.add _) fun _ =>
    .bind (two_parseSes (fun _ => integer_off hi hd) hd (fun _ _ h => h) a) fun _ => .unknown hd fun _ _ h => h

/-! ## Contents as a whole -/

/-- an item with the rest of the data, hidden -/
theorem two_rawOf {β} {name : Str} {f : Ctx → Bool} (hf : ∀ c, OptsAre o c → ctxFlag f c = false) (hl : ∀ q q', R q q' → SameLength q q')
    {R' : β → Bytes → Bytes → Prop} (k : Item → P β) (h : ∀ i, Two o R (k i) R') :
    Two o R (P.reader >>= fun r => P.flag f >>= fun d => k (rawData r name d)) R' := by
  intro c p p' q q' j hc hp hr
  have hr' : q.length = q'.length := hl _ _ hr
  have key : ∀ p q, (P.reader >>= fun r => P.flag f >>= fun d => k (rawData r name d)) (St.at c p q j) = k (newItem name [] (nBytes q.length) []) (St.at c p q j) := by
    intro p q
    rw [bind_run, reader_run]
    simp only [St.at_rd]
    rw [bind_run, flag_run]
    simp only [St.at_ctx, hf c hc, rawData_at]
    rfl
  rw [key, key, ← hr']
  exact h _ c p p' q q' j hc hp hr

theorem two_tag09 (hd : o DEBUG = false) : Two o SameLength tag09 fun _ => SameLength := by
  refine two_rawOf (debug_off hd) (fun _ _ h => h) (fun i => P.getMode >>= fun m => P.add (i.setValue (match m with
    | .symEnc => S "sym alg is specified in sym-key encrypted session key"
    | .pubEnc => S "sym alg is specified in pub-key encrypted session key"
    | .notSpecified => S "sym alg is IDEA, simple string-to-key")) >>= fun _ => P.setMode .notSpecified) fun i => ?_
  exact .bind .getMode fun _ => .bind (.add _) fun _ => .setMode _
theorem two_tag18 (hd : o DEBUG = false) : Two o SameLength tag18 fun _ => SameLength := by
  refine two_rawOf (debug_off hd) (fun _ _ h => h) (fun itm => P.getMode >>= fun m => P.add (match m with
    | .symEnc => itm.setNote (S "plain text + MDC SHA1(20 bytes); sym alg is specified in sym-key encrypted session key")
    | .pubEnc => itm.setNote (S "plain text + MDC SHA1(20 bytes); sym alg is specified in pub-key encrypted session key")
    | .notSpecified => itm) >>= fun _ => P.setMode .notSpecified) fun i => ?_
  exact .bind .getMode fun _ => .bind (.add _) fun _ => .setMode _
theorem two_tag19 (hd : o DEBUG = false) : Two o SameLength tag19 fun _ => SameLength :=
  two_rawOf (debug_off hd) (fun _ _ h => h) (fun i => P.add (i.setNote (S "SHA-1 (20 bytes)"))) fun _ => .add _
theorem two_tag10 (hi : o MARKER = false) (hd : o DEBUG = false) : Two o SameLength tag10 fun _ => SameLength :=
  .raw (marker_off hi hd) fun _ _ h => h
theorem two_tag11 (hi : o LITERAL = false) (hd : o DEBUG = false) :
    Two o (Agree1 fun _ => Agree1 fun n => Agree n.toNat fun _ => Agree 4 fun _ => SameLength) (tag11 X) fun _ => SameLength := by
  unfold tag11
  refine .bind .readByte fun _ => .bind (.add _) fun _ => .bind .readByte fun n => .bind (R1 := fun _ => Agree 4 fun _ => SameLength) ?_ fun fname =>
    .bind (.flag _) fun _ => .bind (.add _) fun _ => .bind (.flag _) fun _ => .bind (date _) fun _ => .bind (.flag _) fun _ => .bind (.add _) fun _ =>
    .raw (literal_off hi hd) fun _ _ h => h
  by_cases h : n.toNat < 1
  · rw [if_pos h]
    have : n.toNat = 0 := by omega
    rw [this]
    exact .pure fun _ _ h => h.zero
  · rw [if_neg h]
    exact .readBytes
theorem two_tag20 (hd : o DEBUG = false) :
    Two o (Agree1 fun _ => Agree1 fun _ => Agree1 fun alg => Agree1 fun _ => Agree (aeadIVLength alg) fun _ => SameLength) tag20 fun _ _ _ => True := by
  unfold tag20
  refine .bind .readByte fun _ => .bind (.flag _) fun _ => .bind (.add _) fun _ => .bind .readByte fun _ => .bind (.flag _) fun _ => .bind (.add _) fun _ =>
    .bind .readByte fun a => .bind (.flag _) fun _ => .bind (.add _) fun _ => .bind .readByte fun _ => .bind (.add _) fun _ =>
    .bind (.failed (R' := SameLength) (.bind (.readBytes (n := aeadIVLen a)) fun _ => .add _)) fun b => ?_
  cases b with
  | true => exact .pure fun _ _ _ => trivial
  | false =>
    refine .weaken (R := SameLength) (R1 := fun _ _ _ => True) ?_ (fun _ _ h => h rfl) fun _ _ _ _ => trivial
    exact .bind (.rest fun _ _ h => h) fun _ => .ite (fun _ => .weaken (.raw (debug_off hd) fun _ _ h => h) (fun _ _ h => h) fun _ _ _ _ => trivial) fun _ => .pure fun _ _ _ => trivial

/-! ## Signatures -/

theorem sigVer_eqs (v : UInt8) : (sigVer v).isDraft = decide (v = 5) ∧ (sigVer v).isCurrent = decide (v = 4) ∧
    ((sigVer v).isOld && v == 3) = decide (v = 3) := pubVer_eqs v

theorem OptsAre.of_moves {α} {m : P α} (hm : Moves optsOrder m) {st : St} (h : OptsAre o st.ctx) : OptsAre o (m st).2.ctx := (hm.run st).symm.trans h

theorem seqSubs_opts (f l) {c : Option Ctx} (h : OptsAre o c) : OptsAre o (seqSubs (parseSub02 X (parseTagF X f)) l c).2.2 := by
  induction l generalizing c with
  | nil => exact h
  | cons a l ih =>
    obtain ⟨t, b⟩ := a
    have h1 : OptsAre o (oneSub (parseSub02 X (parseTagF X f)) t b c).2 := OptsAre.of_moves (parseSub02_opts X f t b) (st := ⟨c, Reader.new [], newItem []⟩) h
    unfold seqSubs
    rcases he : oneSub (parseSub02 X (parseTagF X f)) t b c with ⟨r, c'⟩
    rw [he] at h1
    cases r with
    | ok i => exact ih h1
    | _ => exact h1
theorem areaOut_opts (f name area subs) {c : Option Ctx} (h : OptsAre o c) : OptsAre o (areaOut (parseSub02 X (parseTagF X f)) name area subs c).2.2 := by
  unfold areaOut
  split <;> exact seqSubs_opts X f subs h

theorem two_addSubpackets (f name area) : Two o R (addSubpackets (parseSub02 X (parseTagF X f)) name area) fun _ => R := by
  refine .unread fun c j hc => ?_
  cases e : opaqueSubpackets area with
  | error er =>
    refine ⟨.err er.wrap, c, j, hc, fun p q => ?_⟩
    unfold addSubpackets
    rw [bind_run, flag_run]
    simp only [e]
    rfl
  | ok subs =>
    exact ⟨_, _, _, areaOut_opts X f name area subs hc, fun p q => addSubpackets_run (parseSub02_scoped X _) name (opaqueSubpackets_ok.mp e) c p q j⟩

theorem oneSub_attested (hc : o CERT = false) (hd : o DEBUG = false) (f) {t : UInt8} (ht : t.toNat % 128 = 37) {b b' : Bytes} (hl : SameLength b b') {c : Option Ctx} (h : OptsAre o c) :
    oneSub (parseSub02 X (parseTagF X f)) t b c = oneSub (parseSub02 X (parseTagF X f)) t b' c := by
  have key : ∀ b : Bytes, oneSub (parseSub02 X (parseTagF X f)) t b c =
      (.ok ((newItem (subStr t) [] (nBytes b.length) []).add (newItem (S "certification digests") [] (nBytes b.length) [])), c) := by
    intro b
    unfold oneSub
    have : parseSub02 X (parseTagF X f) t b ⟨c, Reader.new [], newItem []⟩ = scope b (subItem t b (ctxFlag Ctx.debug c)) sub37 ⟨c, Reader.new [], newItem []⟩ := by
      unfold parseSub02 subScope
      rw [bind_run, flag_run, and_7f, ht]
      rfl
    have hs : ∀ j, sub37 (St.at c [] b j) = (.ok (j.add (newItem (S "certification digests") [] (nBytes b.length) [])),
        St.at c [] b (j.add (newItem (S "certification digests") [] (nBytes b.length) []))) := by
      intro j
      unfold sub37
      rw [bind_run, flag_run]
      simp only [St.at_ctx, cert_off hc hd c h]
      rw [bind_run, addRaw_run]
      rfl
    rw [this, scope_run]
    simp only [hs, debug_off hd c h, St.at_ctx, subItem, dumpRest_new]
    rfl
  rw [key, key, show b.length = b'.length from hl]

theorem seqSubs_attested (hc : o CERT = false) (hd : o DEBUG = false) (f) {subs subs' : List (UInt8 × Bytes)}
    (h : List.Forall₂ (fun s s' => s.1 = s'.1 ∧ (s.2 = s'.2 ∨ s.1.toNat % 128 = 37 ∧ SameLength s.2 s'.2)) subs subs') {c : Option Ctx} (hx : OptsAre o c) :
    seqSubs (parseSub02 X (parseTagF X f)) subs c = seqSubs (parseSub02 X (parseTagF X f)) subs' c := by
  induction h generalizing c with
  | nil => rfl
  | @cons s s' l l' hs _ ih =>
    obtain ⟨t, b⟩ := s
    obtain ⟨t', b'⟩ := s'
    obtain ⟨ht, hb⟩ := hs
    simp only at ht hb
    subst ht
    have e : oneSub (parseSub02 X (parseTagF X f)) t b c = oneSub (parseSub02 X (parseTagF X f)) t b' c := by
      rcases hb with rfl | ⟨h37, hl⟩
      · rfl
      · exact oneSub_attested X hc hd f h37 hl hx
    have h1 : OptsAre o (oneSub (parseSub02 X (parseTagF X f)) t b' c).2 := OptsAre.of_moves (parseSub02_opts X f t b') (st := ⟨c, Reader.new [], newItem []⟩) hx
    unfold seqSubs
    rw [e]
    rcases he : oneSub (parseSub02 X (parseTagF X f)) t b' c with ⟨r, c'⟩
    rw [he] at h1
    cases r with
    | ok i => simp only; rw [ih h1]
    | _ => rfl

theorem two_subArea {hideCert : Bool} (hc : hideCert = true → o CERT = false) (hd : o DEBUG = false) (f name) :
    Two o (Area hideCert R) (subArea X (parseTagF X f) name) fun _ => R := by
  intro c p p' q q' j hx hp hr
  cases hr with
  | same h =>
    have key : Two o (Agree 2 fun n => Agree (beNat n) fun _ => R) (subArea X (parseTagF X f) name) fun _ => R := by
      unfold subArea
      refine .bind (.readBytes (n := 2)) fun n => ?_
      by_cases h0 : beNat n > 0
      · simp only [if_pos h0]
        exact .bind .readBytes fun _ => two_addSubpackets X f name _
      · simp only [if_neg h0]
        have : beNat n = 0 := by omega
        rw [this]
        exact .pure fun _ _ h => h.zero
    exact key c p p' q q' j hx hp h
  | @attested subs subs' a a' r r' hh hs hs' h hl hl' hr =>
    have hl2 : a.length = a'.length := hl'
    have e1 := subArea_run X (parseTagF X f) name hs hl c p r j
    have e2 := subArea_run X (parseTagF X f) name hs' (by omega) c p' r' j
    have ea : (a' = []) = (a = []) := by rw [← List.length_eq_zero_iff, ← List.length_eq_zero_iff (l := a), hl2]
    have eo : areaOut (parseSub02 X (parseTagF X f)) name a' subs' c = areaOut (parseSub02 X (parseTagF X f)) name a subs c := by
      unfold areaOut
      rw [seqSubs_attested X (hc hh) hd f h hx, debug_off hd c hx, hl2]
      rfl
    rw [e1, e2, eo]
    simp only [ea]
    by_cases h0 : a = []
    · simp only [if_pos h0]
      exact ⟨_, _, _, _, _, _, _, rfl, rfl, hx, by simp [hp, hl2, beOctets_length], fun _ _ => hr⟩
    · simp only [if_neg h0]
      exact ⟨_, _, _, _, _, _, _, rfl, rfl, areaOut_opts X f name a subs hx, by simp [hp, hl2, beOctets_length], fun _ _ => hr⟩

theorem two_tag02 {hideCert : Bool} (hf : hide = true → ∀ c, OptsAre o c → ctxFlag Ctx.integer c = false) (hc : hideCert = true → o CERT = false)
    (hd : o DEBUG = false) (f) : Two o (Agree1 (Signature hide hideCert)) (tag02 X (parseTagF X f)) fun _ _ _ => True := by
  unfold tag02
  refine .bind .readByte fun v => .bind (.flag _) fun _ => .bind (.add _) fun _ => ?_
  obtain ⟨e5, e4, e3⟩ := sigVer_eqs v
  have v4 : Two o (Agree1 fun _ => Agree1 fun alg => Agree1 fun _ => Area hideCert (Area hideCert (Agree 2 fun _ => Parts hide SameLength (sigParts alg))))
      (tag02v4 X (parseTagF X f) >>= fun _ => unknownData) fun _ _ _ => True := by
    refine .bind ?_ fun _ => .weaken (.unknown hd fun _ _ h => h) (fun _ _ h => h) fun _ _ _ _ => trivial
    unfold tag02v4
    exact .bind .readByte fun _ => .bind (.flag _) fun _ => .bind (.add _) fun _ => .bind .readByte fun a => .bind (.flag _) fun _ => .bind (.add _) fun _ =>
      .bind .readByte fun _ => .bind (.flag _) fun _ => .bind (.add _) fun _ => .bind (two_subArea X hc hd f _) fun _ => .bind (two_subArea X hc hd f _) fun _ =>
      .bind (.readBytes (n := 2)) fun _ => .bind (.add _) fun _ => two_parseSig hf hd (fun _ _ h => h) a
  have v3 : Two o (Agree1 fun n => Agree n.toNat fun _ => Agree 8 fun _ => Agree1 fun alg => Agree1 fun _ => Agree 2 fun _ => Parts hide SameLength (sigParts alg))
      (tag02v3 X) fun _ => SameLength := by
    unfold tag02v3
    refine .bind .readByte fun n => .bind (R1 := fun _ => Agree 8 fun _ => Agree1 fun alg => Agree1 fun _ => Agree 2 fun _ => Parts hide SameLength (sigParts alg)) (.nested ?_) fun _ => ?_
    · by_cases h5 : n = 5
      · subst h5
        simp only [ne_eq, not_true_eq_false, if_false]
        exact .weaken (.bind .readByte fun _ => .bind (.flag _) fun _ => .bind (.add _) fun _ => .bind (.flag _) fun _ => .bind (date _) fun _ =>
          .bind (.flag _) fun _ => .add _) (fun _ _ h => Agree.five h) fun _ _ _ h => h
      · simp only [ne_eq, h5, not_false_eq_true, if_true]
        exact .bind (.setValue _) fun _ => .bind .readBytes fun _ => .bind (.flag _) fun _ => .setDump _
    · exact .bind (.readBytes (n := 8)) fun _ => .bind (.add _) fun _ => .bind .readByte fun a => .bind (.flag _) fun _ => .bind (.add _) fun _ =>
        .bind .readByte fun _ => .bind (.flag _) fun _ => .bind (.add _) fun _ => .bind (.readBytes (n := 2)) fun _ => .bind (.add _) fun _ =>
        two_parseSig hf hd (fun _ _ h => h) a
  have un : Two o SameLength unknownData fun _ _ _ => True := .weaken (.unknown hd fun _ _ h => h) (fun _ _ h => h) fun _ _ _ _ => trivial
  unfold Signature
  simp only [e5, e4, e3, decide_eq_true_eq]
  by_cases h5 : v = 5
  · simp only [h5, or_true, if_true]
    exact v4
  · by_cases h4 : v = 4
    · simp only [h4, true_or, if_true, show ¬ ((4 : UInt8) = 5) by decide, if_false]
      exact v4
    · simp only [h4, h5, or_self, if_false]
      by_cases h3 : v = 3
      · simp only [h3, if_true]
        refine .bind (.failed v3) fun b => ?_
        cases b with
        | true => exact .pure fun _ _ _ => trivial
        | false =>
          exact .weaken un (fun _ _ h => h rfl) fun _ _ _ h => h
      · simp only [h3, if_false]
        exact un

/-! ## One packet -/

theorem Spec.Alike.tag_eq {p p'} (h : Alike o p p') : p.1 = p'.1 := by cases h <;> rfl

/-- Packets that differ only in hidden contents give the same result and the same context. -/
theorem onePacket_alike {p p' : Nat × Bytes} (h : Alike o p p') {c : Option Ctx} (hc : OptsAre o c) :
    onePacket (packetsParse X) p.1 p.2 c = onePacket (packetsParse X) p'.1 p'.2 c := by
  have main : ∀ {tag : Nat} {a b : Bytes}, tag ≠ 8 → SameLength a b → ctxFlag (tagDumpFlag tag) c = false →
      (∃ R', Two o (fun x y => x = a ∧ y = b) (tagBody X (parseTagF X a.length) tag) R') →
      onePacket (packetsParse X) tag a c = onePacket (packetsParse X) tag b c := by
    intro tag a b h8 hl hf ⟨R', ht⟩
    have hl' : a.length = b.length := hl
    unfold onePacket
    rw [packetsParse_other X tag a h8, packetsParse_other X tag b h8, parseTag_run, parseTag_run]
    obtain ⟨r, c2, p2, p2', q2, q2', j2, g1, g2, -⟩ := ht c [] [] a b (tagItem tag a false) hc rfl ⟨rfl, rfl⟩
    have hi : tagItem tag b false = tagItem tag a false := by
      unfold tagItem dumpRest
      rw [hl']
      rfl
    simp only [hf]
    rw [scope_run, scope_run, hi, ← hl']
    simp only [bind_run, g1, g2]
    cases r <;> rfl
  have dd : ∀ tag, ¬ (60 ≤ tag ∧ tag ≤ 63) → o DEBUG = false → ctxFlag (tagDumpFlag tag) c = false := by
    intro tag ht hd
    unfold tagDumpFlag
    rw [if_neg ht]
    exact debug_off hd c hc
  cases h with
  | same => rfl
  | marker h hd hl => exact main (by simp) hl (dd _ (by simp) hd) ⟨_, .weaken (two_tag10 h hd) (fun _ _ h => h.1 ▸ h.2 ▸ hl) fun _ _ _ h => h⟩
  | @priv tag a b ht h hd hl =>
    refine main (by omega) hl ?_ ⟨fun _ _ _ => True, ?_⟩
    · unfold tagDumpFlag
      rw [if_pos ht]
      exact priv_off h hd c hc
    · rw [tagBody_unknown X _ tag (by omega) (by omega)]
      exact .pure fun _ _ _ => trivial
  | @encrypted tag a b ht hd hl =>
    rcases ht with rfl | rfl | rfl
    · exact main (by simp) hl (dd _ (by simp) hd) ⟨_, .weaken (two_tag09 hd) (fun _ _ h => h.1 ▸ h.2 ▸ hl) fun _ _ _ h => h⟩
    · exact main (by simp) hl (dd _ (by simp) hd) ⟨_, .weaken (two_tag18 hd) (fun _ _ h => h.1 ▸ h.2 ▸ hl) fun _ _ _ h => h⟩
    · exact main (by simp) hl (dd _ (by simp) hd) ⟨_, .weaken (two_tag19 hd) (fun _ _ h => h.1 ▸ h.2 ▸ hl) fun _ _ _ h => h⟩
  | aead hd h =>
    exact main (by simp) (Agree1.len (fun _ _ _ => Agree1.len fun _ _ _ => Agree1.len fun _ _ _ => Agree1.len fun _ _ _ => Agree.len fun _ _ _ h => h) h)
      (dd _ (by simp) hd) ⟨_, .weaken (two_tag20 hd) (fun _ _ e => e.1 ▸ e.2 ▸ h) fun _ _ _ h => h⟩
  | literal h hd hr =>
    exact main (by simp) (Agree1.len (fun _ _ _ => Agree1.len fun _ _ _ => Agree.len fun _ _ _ => Agree.len fun _ _ _ h => h) hr)
      (dd _ (by simp) hd) ⟨_, .weaken (two_tag11 X h hd) (fun _ _ e => e.1 ▸ e.2 ▸ hr) fun _ _ _ h => h⟩
  | @publicKey tag a b ht h hd hr =>
    have hl : SameLength a b := Agree1.len (fun v _ _ => PubKey.len (fun _ _ _ h => h) v) hr
    rcases ht with rfl | rfl
    · exact main (by simp) hl (dd _ (by simp) hd) ⟨_, .weaken (two_tag06 X h hd) (fun _ _ e => e.1 ▸ e.2 ▸ hr) fun _ _ _ h => h⟩
    · exact main (by simp) hl (dd _ (by simp) hd) ⟨_, .weaken (two_tag06 X h hd) (fun _ _ e => e.1 ▸ e.2 ▸ hr) fun _ _ _ h => h⟩
  | @secretKey tag hide a b ht h hd hr =>
    have hl : SameLength a b := by
      refine Agree1.len (fun v _ _ h => ?_) hr
      split at h
      · exact h.elim
      · exact PubKey.len (fun a _ _ => SecKey.len a) v h
    have hf : hide = true → ∀ c, OptsAre o c → ctxFlag Ctx.integer c = false := fun hh => integer_off (h hh) hd
    rcases ht with rfl | rfl
    · exact main (by simp) hl (dd _ (by simp) hd) ⟨_, .weaken (two_tag05 X hf hd) (fun _ _ e => e.1 ▸ e.2 ▸ hr) fun _ _ _ h => h⟩
    · exact main (by simp) hl (dd _ (by simp) hd) ⟨_, .weaken (two_tag05 X hf hd) (fun _ _ e => e.1 ▸ e.2 ▸ hr) fun _ _ _ h => h⟩
  | @signature hide hideCert a b h h' hd hr =>
    have hl : SameLength a b := by
      refine Agree1.len (fun v _ _ h => ?_) hr
      unfold Signature at h
      split at h
      · exact Agree1.len (fun _ _ _ => Agree1.len fun _ _ _ => Agree1.len fun _ _ _ => Area.len fun _ _ => Area.len fun _ _ =>
          Agree.len fun _ _ _ => Parts.len (fun _ _ h => h) _) h
      · split at h
        · exact Agree1.len (fun _ _ _ => Agree.len fun _ _ _ => Agree.len fun _ _ _ => Agree1.len fun _ _ _ => Agree1.len fun _ _ _ =>
            Agree.len fun _ _ _ => Parts.len (fun _ _ h => h) _) h
        · exact h
    exact main (by simp) hl (dd _ (by simp) hd)
      ⟨_, .weaken (two_tag02 X (fun hh => integer_off (h hh) hd) h' hd _) (fun _ _ e => e.1 ▸ e.2 ▸ hr) fun _ _ _ h => h⟩
  | @sessionKey a b h hd hr =>
    have hl : SameLength a b := Agree1.len (fun _ _ _ => Agree.len fun _ _ _ => Agree1.len fun _ _ _ => Parts.len (fun _ _ h => h) _) hr
    exact main (by simp) hl (dd _ (by simp) hd) ⟨_, .weaken (two_tag01 h hd) (fun _ _ e => e.1 ▸ e.2 ▸ hr) fun _ _ _ h => h⟩

end
end Gpgpdump
