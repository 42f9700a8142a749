import Verif.Panic

/-!
# Which secret keys panic
-/

namespace Gpgpdump
open P Spec Cmp

variable (X : Ext)

/-- the algorithms the tool does not know -/
def Foreign (a : UInt8) : Prop := a ∉ [1, 2, 3, 16, 17, 18, 19, 20, 22]

theorem foreign_iff {a : UInt8} : Foreign a ↔ pubAlg a = .unknown := by
  constructor
  · exact Lang.alg_unknown
  · intro h
    rcases Lang.pubAlg_cases a with ⟨-, h'⟩ | ⟨-, h'⟩ | ⟨-, h'⟩ | ⟨-, h'⟩ | ⟨-, h'⟩ | ⟨-, h'⟩ | ⟨h1, -⟩
    iterate 6 · rw [h] at h'; cases h'
    exact h1

namespace Pans

/-- `ReadBytes` of a negative number: a panic if there are octets left -/
theorem readNegative (k : Nat) : Pans (P.readBytes (-(k + 1 : Nat) : Int)) (fun site _ q => site = .sliceRange ∧ q ≠ []) := by
  constructor
  intro x p q j site
  unfold P.readBytes Reader.readBytes
  rw [St.at_rd]
  simp only [Reader.size]
  rw [if_neg (by omega)]
  by_cases hq : q = []
  · subst hq
    rw [if_pos (by simp)]
    simp
  · have := List.length_pos_iff.mpr hq
    rw [if_neg (by simp; omega), if_neg (by simp; omega), if_pos (by omega)]
    simp [hq, eq_comm]

theorem parseSecPlain (a : UInt8) : Pans (parseSecPlain a) (fun site _ q => site = .sliceRange ∧ Foreign a ∧ q.length = 1) := by
  by_cases ha : pubAlg a = .unknown
  · have hu : Gpgpdump.parseSecPlain a = (do
        let r ← Gpgpdump.rest
        let b ← P.readBytes (r - 2)
        let d ← P.flag Ctx.debug
        P.add (newItem (S "Multi-precision integers of unknown secret key (pub " ++ dec a.toNat ++ S ")") [] (iBytes (r - 2)) (dumpBytes b d))) := by
      unfold Gpgpdump.parseSecPlain
      rw [ha]
    rw [hu]
    have hi : ∀ (len : Int) (b : Bytes), Calm (do
        let d ← P.flag Ctx.debug
        P.add (newItem (S "Multi-precision integers of unknown secret key (pub " ++ dec a.toNat ++ S ")") [] (iBytes len) (dumpBytes b d))) :=
      fun len b => idle (.bind (.flag _) fun _ => .add _)
    refine (rest (B := fun n site _ q => n < 2 ∧ site = .sliceRange ∧ q ≠ []) fun n => ?_).congr fun site p q => ?_
    · constructor
      intro x p q j site
      rw [bind_panic]
      have hno : ¬ ∃ b s', P.readBytes ((n : Int) - 2) (St.at (some x) p q j) = (.ok b, s') ∧ ∃ s, (do
          let d ← P.flag Ctx.debug
          P.add (newItem (S "Multi-precision integers of unknown secret key (pub " ++ dec a.toNat ++ S ")") [] (iBytes ((n : Int) - 2)) (dumpBytes b d))) s' =
            (.panic site, s) := by
        rintro ⟨b, s', h1, h2⟩
        have hs : ∃ p' q', s' = St.at (some x) p' q' j := by
          have := congrArg Prod.snd h1
          refine ⟨(s'.rd.buf.take s'.rd.off), s'.rd.buf.drop s'.rd.off, ?_⟩
          simp only at this
          subst this
          have hle : (Reader.readBytes ⟨p ++ q, p.length⟩ ((n : Int) - 2)).2.off ≤ (Reader.readBytes ⟨p ++ q, p.length⟩ ((n : Int) - 2)).2.buf.length := by
            unfold Reader.readBytes
            split
            · simp
            split
            · simp
            split
            · simp
            split
            · simp
            · simp [Reader.size] at *; omega
          simp only [P.readBytes, St.at, List.take_append_drop, List.length_take, St.mk.injEq, true_and, and_true]
          rcases hr : Reader.readBytes ⟨p ++ q, p.length⟩ ((n : Int) - 2) with ⟨r, rd⟩
          rw [hr] at hle
          simp only at hle
          cases rd
          simp only [Reader.mk.injEq, true_and]
          simp only at hle
          omega
        obtain ⟨p', q', rfl⟩ := hs
        exact ((hi _ _).run x p' q' j site).mp h2
      by_cases hn : n < 2
      · have e : ((n : Int) - 2) = -(((1 - n : Nat) + 1 : Nat) : Int) := by omega
        simp only [hno, or_false]
        rw [e, (readNegative (1 - n)).run]
        simp [hn]
      · have e : ((n : Int) - 2) = ((n - 2 : Nat) : Int) := by omega
        simp only [hno, or_false]
        rw [e, (readBytes (n - 2)).run]
        simp [hn]
    · rw [foreign_iff]
      constructor
      · rintro ⟨h1, h2, h3⟩
        have := List.length_pos_iff.mpr h3
        exact ⟨h2, ha, by omega⟩
      · rintro ⟨h1, -, h3⟩
        exact ⟨by omega, h1, by rintro rfl; simp at h3⟩
  · exact (of_R (Q := fun _ => Eq) fun _ => r_parseSecPlain a (.inr ha)).congr fun _ _ _ => by simp [foreign_iff, ha]

theorem parseSecEnc (a : UInt8) : Calm (parseSecEnc a) := of_R (Q := fun _ => Eq) fun _ => r_parseSecEnc a

theorem secField1 (X : Ext) (v u : UInt8) : Calm (secField1 (pubVer v) u) :=
  of_R (Q := fun _ => Eq) fun _ => r_secField1 X (by simp [selfCmp]) (by simp [selfCmp]) _ _

theorem pubkeyParse (v : UInt8) : Calm (pubkeyParse X (pubVer v)) :=
  of_R (Q := fun _ => Eq) fun _ => r_pubkeyParse X (by simp [selfCmp]) (by simp [selfCmp]) _

theorem secField2_shared0 (v a : UInt8) (hv : v ≠ 5) : Pans (secField2 (pubVer v) 0 a) (fun site _ q => site = .sliceRange ∧ Foreign a ∧ q.length = 1) := by
  unfold Gpgpdump.secField2
  have h : getField2 (pubVer v) = Pure.pure .shared := by
    unfold getField2
    exact if_neg hv
  rw [h, Lang.pure_then]
  simp only
  rw [if_pos trivial]
  refine skip (.setNote _) fun _ => ?_
  simp only [onField, Lang.assoc]
  refine first (parseSecPlain a) (Lang.parseSecPlain a) fun _ => ?_
  exact skip (.pure _) fun _ => calm_bind (readBytes 2) (Lang.readBytes 2) fun _ => idle (.bind (.add _) fun _ => Lang.fieldRest _)

theorem secField2_sharedEnc (v u a : UInt8) (hv : v ≠ 5) (hu : u ≠ 0) : Calm (secField2 (pubVer v) u a) := by
  unfold Gpgpdump.secField2
  have h : getField2 (pubVer v) = Pure.pure .shared := by
    unfold getField2
    exact if_neg hv
  rw [h, Lang.pure_then]
  simp only
  rw [if_neg hu]
  refine skip (.setNote _) fun _ => ?_
  simp only [onField, Lang.assoc]
  exact first (parseSecEnc a) (Lang.parseSecEnc a) fun _ => idle (.bind (.pure _) fun _ => Lang.fieldRest _)

theorem secField2_own (u a : UInt8) : Pans (secField2 (pubVer 5) u a) (fun site _ q => (site = .beShort ∧ q.length < 4) ∨
    (site = .sliceRange ∧ u = 0 ∧ Foreign a ∧ ∃ b r, q = 0 :: 0 :: 0 :: 1 :: b :: r)) := by
  unfold Gpgpdump.secField2
  have h : getField2 (pubVer 5) = (do
      if (← Gpgpdump.rest) < 4 then P.panic .beShort
      else
        let l ← P.readBytes 4
        let ll := beNat l
        if ll = 0 then return .absent
        else
          let b ← P.readBytes ll
          return .own (Reader.new b)) := rfl
  rw [h, Lang.assoc]
  have hown : ∀ b : Bytes, Pans (if u = 0 then (do
        setNote (S "s2k usage 0; plain secret-key material")
        let (_, r) ← onField (.own (Reader.new b)) (Gpgpdump.parseSecPlain a)
        let chk ← P.readBytes 2
        P.add (newItem (S "2-octet checksum") [] [] (dumpBytes chk true))
        Gpgpdump.fieldRest r) else (do
        setNote (if u = 253 then S "s2k usage 253; encrypted secret-key material and AEAD authentication tag"
          else if u = 254 then S "s2k usage 254; encrypted secret-key material and 20-octet SHA-1 hash"
          else S "s2k usage " ++ dec u.toNat ++ S "; encrypted secret-key material and 2-octet checksum")
        let (_, r) ← onField (.own (Reader.new b)) (Gpgpdump.parseSecEnc a)
        Gpgpdump.fieldRest r))
      (fun site _ _ => u = 0 ∧ site = .sliceRange ∧ Foreign a ∧ b.length = 1) := by
    intro b
    by_cases hu : u = 0
    · rw [if_pos hu]
      refine skip (.setNote _) fun _ => ?_
      simp only [onField, Lang.assoc]
      refine (first (onReader b (parseSecPlain a)) (Lang.onReader b (Lang.parseSecPlain a)) fun x => ?_).congr fun _ _ _ => by simp [hu]
      exact skip (.pure _) fun _ => calm_bind (readBytes 2) (Lang.readBytes 2) fun _ => idle (.bind (.add _) fun _ => Lang.fieldRest _)
    · rw [if_neg hu]
      refine skip (.setNote _) fun _ => ?_
      simp only [onField, Lang.assoc]
      exact (first (onReader b (parseSecEnc a)) (Lang.onReader b (Lang.parseSecEnc a)) fun x => idle (.bind (.pure _) fun _ => Lang.fieldRest _)).congr fun _ _ _ => by simp [hu]
  refine (rest (B := fun n site _ q => if n < 4 then site = .beShort else
      (site = .sliceRange ∧ u = 0 ∧ Foreign a ∧ ∃ b r, q = 0 :: 0 :: 0 :: 1 :: b :: r)) fun n => ?_).congr fun site p q => ?_
  · by_cases hn : n < 4
    · simp only [if_pos hn]
      rw [if_pos (by omega)]
      exact (panic .beShort : Pans (P.panic .beShort : P Unit) _)
    · simp only [if_neg hn]
      rw [if_neg (by omega), Lang.assoc]
      refine (bytes 4 (B := fun sz site _ q => beNat sz ≠ 0 ∧ ∃ b r, q = b ++ r ∧ b.length = beNat sz ∧
        (u = 0 ∧ site = .sliceRange ∧ Foreign a ∧ b.length = 1)) fun sz => ?_).congr fun site p q => ?_
      · by_cases hz : beNat sz = 0
        · simp only [if_pos hz]
          exact (idle (.pure ())).congr fun _ _ _ => by simp [hz]
        · simp only [if_neg hz]
          rw [Lang.assoc]
          exact (bytes (beNat sz) hown).congr fun _ _ _ => by simp [hz]
      · constructor
        · rintro ⟨sz, r, rfl, h4, h0, b, r', rfl, hb, hu, hs, hf, h1⟩
          refine ⟨hs, hu, hf, ?_⟩
          have : sz = beOctets 4 1 := by rw [← h1, hb, ← h4, beOctets_beNat]
          subst this
          match b, h1 with
          | [b], _ => exact ⟨b, r', rfl⟩
        · rintro ⟨hs, hu, hf, b, r, rfl⟩
          exact ⟨[0, 0, 0, 1], b :: r, rfl, rfl, by decide, [b], r, rfl, rfl, hu, hs, hf, rfl⟩
  · constructor
    · intro h
      split at h
      · exact .inl ⟨h, ‹_›⟩
      · exact .inr h
    · rintro (⟨h1, h2⟩ | ⟨h1, h2, h3, b, r, rfl⟩)
      · rw [if_pos h2]; exact h1
      · rw [if_neg (by simp)]; exact ⟨h1, h2, h3, b, r, rfl⟩

/-- a secret key behind the public key -/
def SecPan (v a : UInt8) (site : Site) (q : Bytes) : Prop :=
  if v = 5 then ∃ u o m, q = u :: (o ++ m) ∧ Options5 u o ∧ ((site = .beShort ∧ m.length < 4) ∨
    (site = .sliceRange ∧ u = 0 ∧ Foreign a ∧ ∃ b r, m = 0 :: 0 :: 0 :: 1 :: b :: r))
  else site = .sliceRange ∧ Foreign a ∧ ∃ b, q = [0, b]

theorem seckeyParse (X : Ext) (v a : UInt8) : Pans (seckeyParse (pubVer v) a) (fun site _ q => SecPan v a site q) := by
  unfold Gpgpdump.seckeyParse SecPan
  by_cases hv : v = 5
  · subst hv
    simp only [if_pos]
    refine (byte fun u => after (secField1 X 5 u) (Lang.secField1_own u) fun _ => secField2_own u a).congr fun site p q => ?_
    constructor
    · rintro ⟨u, r, rfl, _, f, r, rfl, ho, h⟩; exact ⟨u, f, r, rfl, ho, h⟩
    · rintro ⟨u, f, r, rfl, ho, h⟩; exact ⟨u, _, rfl, (), f, r, rfl, ho, h⟩
  · simp only [if_neg hv]
    refine (byte (B := fun u site _ q => u = 0 ∧ site = .sliceRange ∧ Foreign a ∧ q.length = 1) fun u => ?_).congr fun site p q => ?_
    · by_cases hu : u = 0
      · subst hu
        refine (after (secField1 X v 0) (Lang.secField1_shared v 0 hv) fun _ => secField2_shared0 v a hv).congr fun site p q => ?_
        constructor
        · rintro ⟨_, f, r, rfl, ⟨c, iv, f1, n, rfl, ho, hn⟩, h1, h2, h3⟩
          have : n = [] := List.length_eq_zero_iff.mp (by rw [hn, if_neg (by simp)])
          subst this
          cases ho with
          | plain => exact ⟨rfl, h1, h2, by simpa using h3⟩
          | s2k hu => simp at hu
          | cipher hu => simp at hu
        · rintro ⟨-, h1, h2, h3⟩
          exact ⟨(), [], q, rfl, ⟨0, false, [], [], rfl, .plain, by simp⟩, h1, h2, h3⟩
      · exact (after (secField1 X v u) (Lang.secField1_shared v u hv) fun _ => secField2_sharedEnc v u a hv hu).congr fun site p q => by simp [hu]
    · constructor
      · rintro ⟨u, r, rfl, rfl, h1, h2, h3⟩
        match r, h3 with
        | [b], _ => exact ⟨h1, h2, b, rfl⟩
      · rintro ⟨h1, h2, b, rfl⟩; exact ⟨0, [b], rfl, rfl, h1, h2, rfl⟩

theorem tag05 {tag : Nat} (ht : tag ∈ [5, 7]) : Pans (tag05 X) (fun site _ q => Pan X site tag q) := by
  unfold Gpgpdump.tag05
  refine (byte fun v => skip (.flag _) fun _ => skip (.add _) fun _ => after (nested _ (pubkeyParse X v)) (Lang.nested _ (Lang.pubkeyParse X v)) fun a =>
    first (nested _ (seckeyParse X v a)) (Lang.nested _ (Lang.seckeyParse v a)) fun _ => idle .unknownData).congr fun site p q => ?_
  constructor
  · rintro ⟨v, r, rfl, a, f, s, rfl, h, h'⟩
    unfold SecPan at h'
    by_cases hv : v = 5
    · subst hv
      rw [if_pos rfl] at h'
      obtain ⟨u, o, m, rfl, ho, ⟨rfl, hm⟩ | ⟨rfl, rfl, ha, b, r, rfl⟩⟩ := h'
      · exact .short5 ht h ho hm
      · exact .secretKey5 ht h ho ha
    · rw [if_neg hv] at h'
      obtain ⟨rfl, ha, b, rfl⟩ := h'
      exact .secretKey ht hv h ha
  · intro h
    cases h with
    | secretKey _ hv h ha => exact ⟨_, _, rfl, _, _, _, rfl, h, by unfold SecPan; rw [if_neg hv]; exact ⟨rfl, ha, _, rfl⟩⟩
    | short5 _ h ho hm => exact ⟨_, _, rfl, _, _, _, rfl, h, by unfold SecPan; rw [if_pos rfl]; exact ⟨_, _, _, rfl, ho, .inl ⟨rfl, hm⟩⟩⟩
    | secretKey5 _ h ho ha => exact ⟨_, _, rfl, _, _, _, rfl, h, by unfold SecPan; rw [if_pos rfl]; exact ⟨_, _, _, rfl, ho, .inr ⟨rfl, rfl, ha, _, _, rfl⟩⟩⟩
    | hashed => simp at ht
    | unhashed => simp at ht

end Pans
end Gpgpdump
