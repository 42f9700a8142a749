import Verif.Fail
import Verif.PanicKeys

/-!
# Which error the fields and keys give
-/

namespace Gpgpdump
open P Spec

variable (X : Ext)

theorem intsCut_succ {n c q} : IntegersCut (n + 1) c q ↔ IntegerCut c q ∨ ∃ f r, q = f ++ r ∧ MPIs 1 f ∧ IntegersCut n c r := by
  constructor
  · intro h
    cases h with
    | here h => exact .inl h
    | later hf h => exact .inr ⟨_, _, rfl, hf, h⟩
  · rintro (h | ⟨f, r, rfl, hf, h⟩)
    · exact .here h
    · exact .later hf h

theorem intsCut_zero {c q} : ¬ IntegersCut 0 c q := nofun

theorem intCut_iff {c q} : IntegerCut c q ↔ Short 2 c q ∨ ∃ l r, q = l ++ r ∧ l.length = 2 ∧ Short ((beNat l + 7) / 8) c r := by
  constructor
  · intro h
    cases h with
    | length h => exact .inl h
    | number hf h => exact .inr ⟨_, _, rfl, hf, h⟩
  · rintro (h | ⟨f, r, rfl, hf, h⟩)
    · exact .length h
    · exact .number hf h

theorem countedCut_iff {c q} : CountedCut c q ↔ (q = [] ∧ c = .eof) ∨ ∃ n r, q = n :: r ∧ Short n.toNat c r := by
  constructor
  · intro h
    cases h with
    | length => exact .inl ⟨rfl, rfl⟩
    | data h => exact .inr ⟨_, _, rfl, h⟩
  · rintro (⟨rfl, rfl⟩ | ⟨n, r, rfl, h⟩)
    · exact .length
    · exact .data h

namespace Errs

theorem newMPI : Errs newMPI (fun c _ q => IntegerCut c q) := by
  unfold Gpgpdump.newMPI
  exact (bytes 2 fun l => first (readBytes _) (Lang.readBytes _) fun _ => idle (.pure _)).congr fun c p q => intCut_iff.symm

theorem addMPI (n) : Errs (addMPI n) (fun c _ q => IntegerCut c q) := first newMPI Lang.newMPI fun _ => idle (.bind (.flag _) fun _ => .add _)
theorem addECPoint (n) : Errs (addECPoint n) (fun c _ q => IntegerCut c q) := first newMPI Lang.newMPI fun _ => idle (.bind (.flag _) fun _ => .add _)

theorem one {m : P Unit} (h : Errs m (fun c _ q => IntegerCut c q)) : Errs m (fun c _ q => IntegersCut 1 c q) :=
  h.congr fun c p q => by simp [intsCut_succ, intsCut_zero]

theorem ints {n : Nat} {m m' : P Unit} (h : Errs m (fun c _ q => IntegerCut c q)) (hl : Lang m (fun _ f _ => MPIs 1 f)) (h' : Errs m' (fun c _ q => IntegersCut n c q)) :
    Errs (m >>= fun _ => m') (fun c _ q => IntegersCut (n + 1) c q) :=
  (seq h hl fun _ => h').congr fun c p q => intsCut_succ.symm

theorem none {m : P Unit} (h : Idle m) : Errs m (fun c _ q => IntegersCut 0 c q) := (idle h).congr fun c p q => by simp [intsCut_zero]

theorem mpi1 (n) : Errs (Gpgpdump.addMPI n) (fun c _ q => IntegersCut 1 c q) := one (addMPI n)
theorem mpi2 (a b) : Errs (do Gpgpdump.addMPI a; Gpgpdump.addMPI b) (fun c _ q => IntegersCut 2 c q) := ints (addMPI a) (Lang.addMPI a) (mpi1 b)
theorem mpi3 (a b d) : Errs (do Gpgpdump.addMPI a; Gpgpdump.addMPI b; Gpgpdump.addMPI d) (fun c _ q => IntegersCut 3 c q) := ints (addMPI a) (Lang.addMPI a) (mpi2 b d)
theorem mpi4 (a b d e) : Errs (do Gpgpdump.addMPI a; Gpgpdump.addMPI b; Gpgpdump.addMPI d; Gpgpdump.addMPI e) (fun c _ q => IntegersCut 4 c q) :=
  ints (addMPI a) (Lang.addMPI a) (mpi3 b d e)

theorem parseSig (a) : Errs (parseSig a) (fun c _ q => IntegersCut (sigInts a) c q) := by
  rcases Lang.pubAlg_cases a with ⟨h, h'⟩ | ⟨h, h'⟩ | ⟨h, h'⟩ | ⟨h, h'⟩ | ⟨h, h'⟩ | ⟨h, h'⟩ | ⟨h, h'⟩ <;> unfold Gpgpdump.parseSig <;> rw [h'] <;> simp only
  · rw [sigInts, if_pos h]; exact mpi1 _
  · subst h; exact mpi2 _ _
  · have : sigInts a = 2 := by
      simp only [List.mem_cons, List.not_mem_nil, or_false] at h
      rcases h with rfl | rfl <;> rfl
    rw [this]; exact mpi2 _ _
  · subst h; exact none (.addOpaque _)
  · subst h; exact mpi2 _ _
  · subst h; exact mpi2 _ _
  · have : sigInts a = 0 := by
      simp only [List.mem_cons, List.not_mem_nil, or_false, not_or] at h
      unfold sigInts
      rw [if_neg (by simp [h]), if_neg (by simp [h])]
    rw [this]; exact none (.addOpaque _)

theorem counted {m : UInt8 → P α} (h : ∀ l, Errs (m l) (fun c _ q => Short l.toNat c q)) : Errs (P.readByte >>= m) (fun c _ q => CountedCut c q) :=
  (byte h).congr fun c p q => countedCut_iff.symm

theorem emptyOr {l : UInt8} : Errs (if l = 0 then Pure.pure [] else P.readBytes l.toNat : P Bytes) (fun c _ q => Short l.toNat c q) := by
  by_cases h : l = 0
  · rw [if_pos h]; subst h
    exact (idle (.pure _)).congr fun c p q => by simpa using short_zero
  · rw [if_neg h]; exact readBytes _

theorem newOID : Errs newOID (fun c _ q => CountedCut c q) := counted fun _ => emptyOr

theorem newECParm : Errs newECParm (fun c _ q => ∃ n r, q = n :: r ∧ Short n.toNat c r) := by
  unfold Gpgpdump.newECParm
  refine (rest (B := fun k c _ q => k ≠ 0 ∧ CountedCut c q) fun n => ?_).congr fun c p q => ?_
  · by_cases hn : n = 0
    · rw [if_pos (by omega)]
      exact (idle (.pure _)).congr fun c p q => by simp [hn]
    · rw [if_neg (by omega)]
      exact (counted fun _ => emptyOr).congr fun c p q => by simp [hn]
  · rw [countedCut_iff]
    constructor
    · rintro ⟨h0, ⟨rfl, -⟩ | h⟩
      · exact absurd rfl h0
      · exact h
    · rintro ⟨n, r, rfl, h⟩; exact ⟨by simp, .inr ⟨n, r, rfl, h⟩⟩

theorem newDateTime (u) : Errs (newDateTime u) (fun c _ q => Short 4 c q) := by
  unfold Gpgpdump.newDateTime
  exact first (readBytes 4) (Lang.readBytes 4) fun _ => idle (.pure _)

/-! ## Public keys -/

/-- by kind of algorithm -/
def pubCut : PubAlg → Cause → Bytes → Prop
  | .rsa, c, q => IntegersCut 2 c q
  | .dsa, c, q => IntegersCut 4 c q
  | .elgamal, c, q => IntegersCut 3 c q
  | .ecdh, c, q => CountedCut c q ∨ ∃ o r, q = o ++ r ∧ Counted o ∧ (IntegerCut c r ∨ ∃ m s, r = m ++ s ∧ MPIs 1 m ∧ ∃ n t, s = n :: t ∧ Short n.toNat c t)
  | .ecdsa, c, q => CountedCut c q ∨ ∃ o r, q = o ++ r ∧ Counted o ∧ IntegerCut c r
  | .eddsa, c, q => CountedCut c q ∨ ∃ o r, q = o ++ r ∧ Counted o ∧ IntegerCut c r
  | .unknown, _, _ => False

theorem pubCut_iff {a c q} : PubCut a c q ↔ pubCut (pubAlg a) c q := by
  constructor
  · intro h
    cases h with
    | rsa ha h => rw [Lang.alg_rsa ha]; exact h
    | dsa h => exact h
    | elgamal ha h => rw [Lang.alg_elgamal ha]; exact h
    | oid ha h =>
      simp only [List.mem_cons, List.not_mem_nil, or_false] at ha
      rcases ha with rfl | rfl | rfl <;> exact .inl h
    | point ha ho h =>
      simp only [List.mem_cons, List.not_mem_nil, or_false] at ha
      rcases ha with rfl | rfl | rfl
      · exact .inr ⟨_, _, rfl, ho, .inl h⟩
      · exact .inr ⟨_, _, rfl, ho, h⟩
      · exact .inr ⟨_, _, rfl, ho, h⟩
    | kdf ho hm h => exact .inr ⟨_, _, rfl, ho, .inr ⟨_, _, rfl, hm, _, _, rfl, h⟩⟩
  · intro h
    rcases Lang.pubAlg_cases a with ⟨h1, h'⟩ | ⟨h1, h'⟩ | ⟨h1, h'⟩ | ⟨h1, h'⟩ | ⟨h1, h'⟩ | ⟨h1, h'⟩ | ⟨h1, h'⟩ <;> rw [h'] at h
    · exact .rsa h1 h
    · subst h1; exact .dsa h
    · exact .elgamal h1 h
    · subst h1
      rcases h with h | ⟨o, r, rfl, ho, h | ⟨m, s, rfl, hm, n, t, rfl, h⟩⟩
      · exact .oid (by decide) h
      · exact .point (by decide) ho h
      · exact .kdf ho hm h
    · subst h1
      rcases h with h | ⟨o, r, rfl, ho, h⟩
      · exact .oid (by decide) h
      · exact .point (by decide) ho h
    · subst h1
      rcases h with h | ⟨o, r, rfl, ho, h⟩
      · exact .oid (by decide) h
      · exact .point (by decide) ho h
    · exact h.elim

theorem ecdhPub : Errs ecdhPub (fun c _ q => pubCut .ecdh c q) := by
  unfold Gpgpdump.ecdhPub
  refine (bind newOID Lang.newOID fun o => skip (.add _) fun _ => bind (addECPoint _) (Lang.addECPoint _) fun _ =>
    first newECParm Lang.newECParm fun ep => idle (Lang.ecdhTail ep)).congr fun c p q => ?_
  constructor
  · rintro (h | ⟨o, f, r, rfl, h1, h | ⟨_, m, s, rfl, hm, h⟩⟩)
    · exact .inl h
    · exact .inr ⟨_, _, rfl, Lang.counted_iff.mpr ⟨o, h1⟩, .inl h⟩
    · exact .inr ⟨_, _, rfl, Lang.counted_iff.mpr ⟨o, h1⟩, .inr ⟨_, _, rfl, hm, h⟩⟩
  · rintro (h | ⟨o, r, rfl, ho, h⟩)
    · exact .inl h
    · obtain ⟨b, hb⟩ := Lang.counted_iff.mp ho
      rcases h with h | ⟨m, s, rfl, hm, h⟩
      · exact .inr ⟨b, _, _, rfl, hb, .inl h⟩
      · exact .inr ⟨b, _, _, rfl, hb, .inr ⟨(), _, _, rfl, hm, h⟩⟩

theorem curve (n) : Errs (do
    let oid ← Gpgpdump.newOID
    P.add (oidItem oid true)
    Gpgpdump.addECPoint n) (fun c _ q => CountedCut c q ∨ ∃ o r, q = o ++ r ∧ Counted o ∧ IntegerCut c r) := by
  refine (bind newOID Lang.newOID fun o => skip (.add _) fun _ => addECPoint _).congr fun c p q => ?_
  constructor
  · rintro (h | ⟨o, f, r, rfl, h1, h⟩)
    · exact .inl h
    · exact .inr ⟨_, _, rfl, Lang.counted_iff.mpr ⟨o, h1⟩, h⟩
  · rintro (h | ⟨o, r, rfl, ho, h⟩)
    · exact .inl h
    · obtain ⟨b, hb⟩ := Lang.counted_iff.mp ho
      exact .inr ⟨b, _, _, rfl, hb, h⟩

theorem parsePub (a) : Errs (parsePub a) (fun c _ q => PubCut a c q) := by
  refine Errs.congr (A := fun c _ q => pubCut (pubAlg a) c q) ?_ fun _ f q => pubCut_iff.symm
  unfold Gpgpdump.parsePub
  cases pubAlg a <;> simp only
  · exact mpi2 _ _
  · exact mpi4 _ _ _ _
  · exact mpi3 _ _ _
  · exact ecdhPub
  · exact curve _
  · exact curve _
  · exact idle (.addOpaque _)

/-! ## Session keys -/

def sesCut : PubAlg → Cause → Bytes → Prop
  | .rsa, c, q => IntegersCut 1 c q
  | .elgamal, c, q => IntegersCut 2 c q
  | .ecdh, c, q => IntegerCut c q ∨ ∃ m s, q = m ++ s ∧ MPIs 1 m ∧ ∃ n t, s = n :: t ∧ Short n.toNat c t
  | _, _, _ => False

theorem sesCut_iff {a c q} : SesCut a c q ↔ sesCut (pubAlg a) c q := by
  constructor
  · intro h
    cases h with
    | rsa ha h => rw [Lang.alg_rsa ha]; exact h
    | elgamal ha h => rw [Lang.alg_elgamal ha]; exact h
    | point h => exact .inl h
    | key hm h => exact .inr ⟨_, _, rfl, hm, _, _, rfl, h⟩
  · intro h
    rcases Lang.pubAlg_cases a with ⟨h1, h'⟩ | ⟨h1, h'⟩ | ⟨h1, h'⟩ | ⟨h1, h'⟩ | ⟨h1, h'⟩ | ⟨h1, h'⟩ | ⟨h1, h'⟩ <;> rw [h'] at h
    · exact .rsa h1 h
    · exact h.elim
    · exact .elgamal h1 h
    · subst h1
      rcases h with h | ⟨m, s, rfl, hm, n, t, rfl, h⟩
      · exact .point h
      · exact .key hm h
    · exact h.elim
    · exact h.elim
    · exact h.elim

theorem parseSes (a) : Errs (parseSes a) (fun c _ q => SesCut a c q) := by
  refine Errs.congr (A := fun c _ q => sesCut (pubAlg a) c q) ?_ fun _ f q => sesCut_iff.symm
  unfold Gpgpdump.parseSes
  cases pubAlg a <;> simp only
  · exact mpi1 _
  · exact idle (.addOpaque _)
  · exact mpi2 _ _
  · exact seq (addECPoint _) (Lang.addECPoint _) fun _ => first newECParm Lang.newECParm fun _ => idle (.bind (.flag _) fun _ => .add _)
  · exact idle (.addOpaque _)
  · exact idle (.addOpaque _)
  · exact idle (.addOpaque _)

/-! ## Secret key material -/

def secCut : PubAlg → Cause → Bytes → Prop
  | .rsa, c, q => IntegersCut 4 c q
  | .unknown, c, q => q = [] ∧ c = .eof
  | _, c, q => IntegersCut 1 c q

theorem secCut_iff {a c q} : SecCut a c q ↔ secCut (pubAlg a) c q := by
  constructor
  · intro h
    cases h with
    | rsa ha h => rw [Lang.alg_rsa ha]; exact h
    | one ha h =>
      simp only [List.mem_cons, List.not_mem_nil, or_false] at ha
      rcases ha with rfl | rfl | rfl | rfl | rfl | rfl <;> exact h
    | other ha => rw [Lang.alg_unknown ha]; exact ⟨rfl, rfl⟩
  · intro h
    rcases Lang.pubAlg_cases a with ⟨h1, h'⟩ | ⟨h1, h'⟩ | ⟨h1, h'⟩ | ⟨h1, h'⟩ | ⟨h1, h'⟩ | ⟨h1, h'⟩ | ⟨h1, h'⟩ <;> rw [h'] at h
    · exact .rsa h1 h
    · subst h1; exact .one (by decide) h
    · exact .one ((by decide : ∀ x ∈ ([16, 20] : List UInt8), x ∈ ([16, 17, 18, 19, 20, 22] : List UInt8)) _ h1) h
    · subst h1; exact .one (by decide) h
    · subst h1; exact .one (by decide) h
    · subst h1; exact .one (by decide) h
    · obtain ⟨rfl, rfl⟩ := h; exact .other h1

/-- reading all but the last two octets -/
theorem readButTwo {g : Int → Bytes → P Unit} (hg : ∀ n b, Idle (g n b)) :
    Errs (do
      let len := (← Gpgpdump.rest) - 2
      let b ← P.readBytes len
      g len b) (fun c _ q => q = [] ∧ c = .eof) := by
  refine (rest (B := fun n c _ q => if n < 2 then q = [] ∧ c = .eof else Short (n - 2) c q) fun n => ?_).congr fun c p q => ?_
  · by_cases hn : n < 2
    · constructor
      intro x p q j c
      simp only [if_pos hn]
      rw [bind_err]
      have e : ((n : Int) - 2) < 0 := by omega
      unfold P.readBytes Reader.readBytes
      rw [St.at_rd]
      simp only [Reader.size]
      rw [if_neg (by omega)]
      by_cases hq : q = []
      · subst hq
        rw [if_pos (by simp)]
        simp [wrapErr, eq_comm]
      · have := List.length_pos_iff.mpr hq
        rw [if_neg (by simp; omega), if_neg (by simp; omega), if_pos (by omega)]
        simp [hq]
    · simp only [if_neg hn]
      obtain ⟨k, rfl⟩ : ∃ k, n = k + 2 := ⟨n - 2, by omega⟩
      have : (((k + 2 : Nat) : Int) - 2) = (k : Int) := by omega
      rw [this]
      exact first (readBytes k) (Lang.readBytes k) fun b => idle (hg _ b)
  · split
    · exact Iff.rfl
    · have h2 : ¬ q.length < 2 := ‹_›
      constructor
      · intro h
        cases h with
        | none => simp at h2
        | some _ h => omega
      · rintro ⟨rfl, -⟩; simp at h2

theorem parseSecPlain (a) : Errs (parseSecPlain a) (fun c _ q => SecCut a c q) := by
  refine Errs.congr (A := fun c _ q => secCut (pubAlg a) c q) ?_ fun _ f q => secCut_iff.symm
  unfold Gpgpdump.parseSecPlain
  cases pubAlg a <;> simp only
  · exact mpi4 _ _ _ _
  · exact mpi1 _
  · exact mpi1 _
  · exact mpi1 _
  · exact mpi1 _
  · exact mpi1 _
  · exact readButTwo (g := fun len b => do
      P.add (newItem (S "Multi-precision integers of unknown secret key (pub " ++ dec a.toNat ++ S ")") [] (iBytes len)
        (dumpBytes b (← P.flag Ctx.debug)))) fun n b => .bind (.flag _) fun _ => .add _

theorem seekEnd : Firm (do let _ ← seek 0 2; Pure.pure () : P Unit) := by
  constructor
  intro x p q j c
  have h : P.seek 0 2 (St.at (some x) p q j) = (.ok (((p ++ q).length : Nat) : Int), St.at (some x) (p ++ q) [] j) := by
    unfold P.seek
    rw [St.at_rd, Lang.rd_seekEnd]
    simp [St.at]
  rw [bind_run, h]
  simp [Pure.pure, P.pure]

theorem parseSecEnc (a) : Firm (parseSecEnc a) := by
  unfold Gpgpdump.parseSecEnc
  cases pubAlg a <;> exact skip (.addOpaque _) fun _ => seekEnd

/-! ## String-to-key specifiers -/

theorem gnuCard (n : UInt8) : Errs (Lang.gnuCard n) (fun c _ q => n = 2 ∧ CountedCut c q) := by
  unfold Lang.gnuCard
  have ht : ∀ {m : P Unit} {A : Cause → Bytes → Bytes → Prop} (i : Item), Errs m A → Errs (do
      let gnu ← P.build i m
      P.add gnu
      return false) A := fun i h => then_ok (build i h) fun a st e s h => by cases h
  by_cases hn : n = 2
  · subst hn
    rw [if_pos (by decide)]
    exact ht _ ((counted fun l => first (readBytes l.toNat) (Lang.readBytes _) fun b => idle (.add _)).congr fun c p q => by simp)
  · rw [if_neg (by intro h; apply hn; apply UInt8.toNat_inj.mp; show n.toNat = 2; omega)]
    exact ht _ ((idle (.pure ())).congr fun c p q => by simp [hn])

theorem gnuPart : Errs Lang.gnuPart (fun c _ q => ∃ r, q = 0x47 :: 0x4e :: 0x55 :: 2 :: r ∧ CountedCut c r) := by
  constructor
  intro x p q j c
  by_cases hq : ∃ n r, q = 0x47 :: 0x4e :: 0x55 :: n :: r
  · obtain ⟨n, r, rfl⟩ := hq
    rw [Lang.gnuPart_yes, (gnuCard n).run]
    constructor
    · rintro ⟨rfl, h⟩; exact ⟨r, rfl, h⟩
    · rintro ⟨r, h, h'⟩; cases h; exact ⟨rfl, h'⟩
  · rw [Lang.gnuPart_no _ _ _ _ hq]
    constructor
    · rintro ⟨e, s, h, -⟩; cases h
    · rintro ⟨r, rfl, -⟩; exact absurd ⟨2, r, rfl⟩ hq

theorem s2kPlain (ss : UInt8) (d : Bool) : Errs (do
      let hashid ← P.readByte
      P.add (hashItem hashid d)
      if ss ≠ 0x00 then
        let salt ← P.readBytes 8
        P.add (saltItem salt true)
      else Pure.pure ()
      if ss = 0x03 then
        let ct ← P.readByte
        P.add (stretchItem ct)
      else Pure.pure ()
      return true : P Bool)
    (fun c _ q => ShortIn (1 :: ((if ss ≠ 0 then [8] else []) ++ if ss = 3 then [1] else [])) c q) := by
  refine fields_byte fun h => skip (.add _) fun _ => ?_
  have h2 : Fields (if ss = 3 then [1] else []) (if ss = 3 then do
        let ct ← P.readByte
        let _ ← P.add (stretchItem ct)
        Pure.pure true
      else Pure.pure true) := by
    split
    · exact fields_byte fun _ => fields_nil (idle (.bind (.add _) fun _ => .pure _))
    · exact fields_nil (idle (.pure _))
  simp only
  split
  · exact fields_bytes 8 fun _ => skip (.add _) fun _ => h2
  · exact h2

theorem s2kCut_iff {c q} : S2KCut c q ↔ (q = [] ∧ c = .eof) ∨ ∃ ss r, q = ss :: r ∧
    ((ss = 0 ∧ ShortIn [1] c r) ∨ (ss = 1 ∧ ShortIn [1, 8] c r) ∨ (ss = 3 ∧ ShortIn [1, 8, 1] c r) ∨
      (ss = 101 ∧ ∃ s, r = 0x47 :: 0x4e :: 0x55 :: 2 :: s ∧ CountedCut c s)) := by
  have h0 : ∀ {r}, ShortIn [1] c r ↔ r = [] ∧ c = .eof := by
    intro r; rw [shortIn_cons, short_one]; simp [shortIn_nil]
  constructor
  · intro h
    cases h with
    | type => exact .inl ⟨rfl, rfl⟩
    | simple => exact .inr ⟨_, _, rfl, .inl ⟨rfl, h0.mpr ⟨rfl, rfl⟩⟩⟩
    | salted h => exact .inr ⟨_, _, rfl, .inr (.inl ⟨rfl, h⟩)⟩
    | iterated h => exact .inr ⟨_, _, rfl, .inr (.inr (.inl ⟨rfl, h⟩))⟩
    | card h => exact .inr ⟨_, _, rfl, .inr (.inr (.inr ⟨rfl, _, rfl, h⟩))⟩
  · rintro (⟨rfl, rfl⟩ | ⟨ss, r, rfl, ⟨rfl, h⟩ | ⟨rfl, h⟩ | ⟨rfl, h⟩ | ⟨rfl, s, rfl, h⟩⟩)
    · exact .type
    · obtain ⟨rfl, rfl⟩ := h0.mp h; exact .simple
    · exact .salted h
    · exact .iterated h
    · exact .card h

theorem s2kParse (d) : Errs (s2kParse d) (fun c _ q => S2KCut c q) := by
  unfold Gpgpdump.s2kParse
  refine (byte (B := fun ss c _ r => (ss = 0 ∧ ShortIn [1] c r) ∨ (ss = 1 ∧ ShortIn [1, 8] c r) ∨ (ss = 3 ∧ ShortIn [1, 8, 1] c r) ∨
      (ss = 101 ∧ ∃ s, r = 0x47 :: 0x4e :: 0x55 :: 2 :: s ∧ CountedCut c s)) fun ss => nested _ ?_).congr fun c p q => s2kCut_iff.symm
  by_cases h0 : ss = 0 ∨ ss = 1 ∨ ss = 3
  · rw [if_pos h0]
    refine (s2kPlain ss d).congr fun c p q => ?_
    rcases h0 with rfl | rfl | rfl <;> simp
  · rw [if_neg h0]
    by_cases h1 : ss = 101
    · subst h1
      rw [if_pos rfl]
      exact gnuPart.congr fun c p q => by simp
    · rw [if_neg h1]
      refine (idle (.pure _)).congr fun c p q => ?_
      simp only [not_or] at h0
      simp [h1, h0]

/-! ## Secret keys -/

theorem secOptionsCut_iff {u c q} : SecOptionsCut u c q ↔ u ≠ 0 ∧ ((q = [] ∧ c = .eof) ∨ ∃ k r, q = k :: r ∧
    if u = 253 then (r = [] ∧ c = .eof) ∨ ∃ m s, r = m :: s ∧ S2KCut c s else (u = 254 ∨ u = 255) ∧ S2KCut c r) := by
  constructor
  · intro h
    cases h with
    | cipher hu => exact ⟨hu, .inl ⟨rfl, rfl⟩⟩
    | mode => exact ⟨by decide, .inr ⟨_, _, rfl, by rw [if_pos rfl]; exact .inl ⟨rfl, rfl⟩⟩⟩
    | s2k hu h =>
      refine ⟨by rintro rfl; simp at hu, .inr ⟨_, _, rfl, ?_⟩⟩
      rw [if_neg (by rintro rfl; simp at hu)]
      exact ⟨hu, h⟩
    | aead h => exact ⟨by decide, .inr ⟨_, _, rfl, by rw [if_pos rfl]; exact .inr ⟨_, _, rfl, h⟩⟩⟩
  · rintro ⟨hu, ⟨rfl, rfl⟩ | ⟨k, r, rfl, h⟩⟩
    · exact .cipher hu
    · by_cases h3 : u = 253
      · rw [if_pos h3] at h
        subst h3
        rcases h with ⟨rfl, rfl⟩ | ⟨m, s, rfl, h⟩
        · exact .mode
        · exact .aead h
      · rw [if_neg h3] at h
        exact .s2k h.1 h.2

theorem secOptions (u : UInt8) : Errs (secOptions u) (fun c _ q => SecOptionsCut u c q) := by
  refine Errs.congr ?_ fun c p q => secOptionsCut_iff.symm
  unfold Gpgpdump.secOptions
  refine skip (.flag _) fun d => ?_
  by_cases h0 : u = 0
  · subst h0
    rw [if_neg (by decide), Lang.pure_then]
    simp only
    rw [if_neg (by decide), if_pos trivial]
    exact (idle (.pure _)).congr fun c p q => by simp
  · rw [if_pos h0, Lang.assoc]
    refine (byte (B := fun _ c _ r => if u = 253 then (r = [] ∧ c = .eof) ∨ ∃ m s, r = m :: s ∧ S2KCut c s else (u = 254 ∨ u = 255) ∧ S2KCut c r)
      fun alg => ?_).congr fun c p q => by simp only [ne_eq, h0, not_false_eq_true, true_and]
    rw [Lang.assoc]
    refine skip (.add _) fun _ => ?_
    rw [Lang.pure_then]
    simp only
    have h2 : Errs (do
          let hasIV ← Gpgpdump.s2kParse d
          return (alg, hasIV)) (fun c _ q => S2KCut c q) := first (s2kParse d) (Lang.s2kParse d) fun _ => idle (.pure _)
    by_cases h253 : u = 253
    · simp only [if_pos h253]
      refine (byte (B := fun _ c _ r => S2KCut c r) fun b => skip (.add _) fun _ => ?_)
      rw [if_neg h0, if_pos (.inl h253)]
      exact h2
    · simp only [if_neg h253]
      rw [if_neg h0]
      by_cases hs : u = 254 ∨ u = 255
      · rw [if_pos (.inr hs)]
        exact h2.congr fun c p q => by simp [hs]
      · rw [if_neg (by rintro (h | h); exact h253 h; exact hs h)]
        exact (idle (.pure _)).congr fun c p q => by simp [hs]

theorem secIV (k : UInt8) (b : Bool) : Errs (secIV k b) (fun c _ q => Short (blockSize k) c q) := by
  unfold Gpgpdump.secIV
  rw [← Lang.symIVLen_eq]
  exact first (readBytes _) (Lang.readBytes _) fun _ => idle (.add _)

theorem ivPart (u k : UInt8) (iv : Bool) (r : Option Reader) :
    Errs (if u ≠ 0 ∧ iv = true then (do Gpgpdump.secIV k (u == 253); Gpgpdump.fieldRest r) else Gpgpdump.fieldRest r)
      (fun c _ q => (u ≠ 0 ∧ iv = true) ∧ Short (blockSize k) c q) := by
  by_cases h : u ≠ 0 ∧ iv = true
  · rw [if_pos h]
    exact (first (secIV k _) (Lang.secIV k _) fun _ => idle (Lang.fieldRest r)).congr fun c p q => by simp only [h, true_and, and_self, ne_eq, not_false_eq_true]
  · rw [if_neg h]
    exact (idle (Lang.fieldRest r)).congr fun c p q => by simp only [h, false_and]

theorem secField1_shared (v u : UInt8) (hv : v ≠ 5) : Errs (secField1 (pubVer v) u) (fun c _ q => SecOptionsCut u c q ∨
    ∃ k f r, q = f ++ r ∧ u ≠ 0 ∧ SecOptions u k true f r ∧ Short (blockSize k) c r) := by
  rw [Lang.secField1_eq]
  have h : getField1 (pubVer v) = Pure.pure .shared := by
    unfold getField1
    exact if_neg hv
  rw [h, Lang.pure_then]
  simp only [onField, Lang.assoc, Lang.pure_then]
  refine (bind (secOptions u) (Lang.secOptions u) fun a => ivPart u a.1 a.2 .none).congr fun c p q => ?_
  refine or_congr Iff.rfl ⟨?_, ?_⟩
  · rintro ⟨⟨k, iv⟩, f, r, rfl, h1, ⟨h0, rfl⟩, h2⟩; exact ⟨k, f, r, rfl, h0, h1, h2⟩
  · rintro ⟨k, f, r, rfl, h0, h1, h2⟩; exact ⟨(k, true), f, r, rfl, h1, ⟨h0, rfl⟩, h2⟩

theorem secField1_own (u : UInt8) : Errs (secField1 (pubVer 5) u) (fun c _ q => Options5Cut u c q) := by
  rw [Lang.secField1_eq]
  have h : getField1 (pubVer 5) = (do
      let l ← P.readByte
      if l = 0 then return .absent
      else
        let b ← P.readBytes l.toNat
        return .own (Reader.new b)) := rfl
  rw [h, Lang.assoc]
  have hown : ∀ b : Bytes, Errs (do let o ← onField (.own (Reader.new b)) (Gpgpdump.secOptions u); Lang.afterOptions u o)
      (fun c _ q => SecOptionsCut u c b ∨ ∃ k f g, b = f ++ g ∧ SecOptions u k true f g ∧ u ≠ 0 ∧ Short (blockSize k) c q) := by
    intro b
    simp only [onField, Lang.assoc]
    refine (bind (onReader b (secOptions u)) (Lang.onReader b (Lang.secOptions u)) fun a => ivPart u a.1.1 a.1.2 (some a.2)).congr fun c p q => ?_
    refine or_congr Iff.rfl ⟨?_, ?_⟩
    · rintro ⟨⟨⟨k, iv⟩, rd⟩, f1, r1, rfl, ⟨rfl, g, r, rfl, h1, -⟩, ⟨h0, rfl⟩, h2⟩; exact ⟨k, g, r, rfl, h1, h0, h2⟩
    · rintro ⟨k, f, g, rfl, h1, h0, h2⟩; exact ⟨((k, true), _), [], q, rfl, ⟨rfl, f, g, rfl, h1, rfl⟩, ⟨h0, rfl⟩, h2⟩
  refine (byte (B := fun l c _ q => l ≠ 0 ∧ (Short l.toNat c q ∨ ∃ b r, q = b ++ r ∧ b.length = l.toNat ∧
    (SecOptionsCut u c b ∨ ∃ k f g, b = f ++ g ∧ SecOptions u k true f g ∧ u ≠ 0 ∧ Short (blockSize k) c r))) fun l => ?_).congr fun c p q => ?_
  · by_cases hl : l = 0
    · simp only [if_pos hl]
      exact (idle (.pure ())).congr fun c p q => by simp [hl]
    · simp only [if_neg hl]
      rw [Lang.assoc]
      exact (bytes l.toNat hown).congr fun c p q => by simp [hl]
  · have hne : ∀ {l : UInt8} {b : Bytes}, l ≠ 0 → b.length = l.toNat → b ≠ [] := by
      rintro l b hl hb rfl
      apply hl; apply UInt8.toNat_inj.mp; simpa using hb.symm
    constructor
    · rintro (⟨rfl, rfl⟩ | ⟨l, r, rfl, hl, h | ⟨b, r, rfl, hb, h | ⟨k, f, g, rfl, ho, hu, h⟩⟩⟩)
      · exact .counted .length
      · exact .counted (.data h)
      · rw [← ofNat_eq hb]
        exact .options (by rw [hb]; exact l.toNat_lt) (hne hl hb) h
      · have := hne hl hb
        rw [← ofNat_eq hb, List.append_assoc]
        exact .iv (by rw [hb]; exact l.toNat_lt) this hu ho h
    · have hn0 : ∀ {b : Bytes}, b.length < 256 → b ≠ [] → UInt8.ofNat b.length ≠ 0 := by
        intro b hl h0 h1
        apply h0
        have := congrArg UInt8.toNat h1
        rw [ofNat_toNat _ hl] at this
        exact List.length_eq_zero_iff.mp this
      intro h
      cases h with
      | counted h =>
        rcases countedCut_iff.mp h with ⟨rfl, rfl⟩ | ⟨n, r, rfl, hn⟩
        · exact .inl ⟨rfl, rfl⟩
        · refine .inr ⟨n, r, rfl, ?_, .inl hn⟩
          rintro rfl
          exact short_zero hn
      | options hl h0 h => exact .inr ⟨_, _, rfl, hn0 hl h0, .inr ⟨_, _, rfl, (ofNat_toNat _ hl).symm, .inl h⟩⟩
      | @iv k f g _ r hl h0 hu ho h =>
        exact .inr ⟨_, _, rfl, hn0 hl h0, .inr ⟨f ++ g, r, by simp, (ofNat_toNat _ hl).symm, .inr ⟨k, f, g, rfl, ho, hu, h⟩⟩⟩

theorem checksum (r) : Errs (do
    let chk ← P.readBytes 2
    P.add (newItem (S "2-octet checksum") [] [] (dumpBytes chk true))
    Gpgpdump.fieldRest r) (fun c _ q => Short 2 c q) :=
  first (readBytes 2) (Lang.readBytes 2) fun _ => idle (.bind (.add _) fun _ => Lang.fieldRest r)

theorem secField2_shared0 (v a : UInt8) (hv : v ≠ 5) : Errs (secField2 (pubVer v) 0 a)
    (fun c _ q => SecCut a c q ∨ ∃ f r, q = f ++ r ∧ SecFields a f r ∧ Short 2 c r) := by
  unfold Gpgpdump.secField2
  have h : getField2 (pubVer v) = Pure.pure .shared := by
    unfold getField2
    exact if_neg hv
  rw [h, Lang.pure_then]
  simp only
  rw [if_pos trivial]
  refine skip (.setNote _) fun _ => ?_
  simp only [onField, Lang.assoc]
  exact seq (parseSecPlain a) (Lang.parseSecPlain a) fun _ => skip (.pure _) fun _ => checksum _

theorem secField2_sharedEnc (v u a : UInt8) (hv : v ≠ 5) (hu : u ≠ 0) : Firm (secField2 (pubVer v) u a) := by
  unfold Gpgpdump.secField2
  have h : getField2 (pubVer v) = Pure.pure .shared := by
    unfold getField2
    exact if_neg hv
  rw [h, Lang.pure_then]
  simp only
  rw [if_neg hu]
  refine skip (.setNote _) fun _ => ?_
  simp only [onField, Lang.assoc]
  exact first (parseSecEnc a) (Lang.parseSecEnc a) fun _ => idle (.bind (.pure _) fun _ => Lang.fieldRest _)

theorem secField2_own (u a : UInt8) : Errs (secField2 (pubVer 5) u a) (fun c _ q => Material5Cut u a c q) := by
  unfold Gpgpdump.secField2
  have h : getField2 (pubVer 5) = (do
      if (← Gpgpdump.rest) < 4 then P.panic .beShort
      else
        let l ← P.readBytes 4
        let ll := beNat l
        if ll = 0 then return .absent
        else
          let b ← P.readBytes ll
          return .own (Reader.new b)) := rfl
  rw [h, Lang.assoc]
  have hown : ∀ b : Bytes, Errs (if u = 0 then (do
        setNote (S "s2k usage 0; plain secret-key material")
        let (_, r) ← onField (.own (Reader.new b)) (Gpgpdump.parseSecPlain a)
        let chk ← P.readBytes 2
        P.add (newItem (S "2-octet checksum") [] [] (dumpBytes chk true))
        Gpgpdump.fieldRest r) else (do
        setNote (if u = 253 then S "s2k usage 253; encrypted secret-key material and AEAD authentication tag"
          else if u = 254 then S "s2k usage 254; encrypted secret-key material and 20-octet SHA-1 hash"
          else S "s2k usage " ++ dec u.toNat ++ S "; encrypted secret-key material and 2-octet checksum")
        let (_, r) ← onField (.own (Reader.new b)) (Gpgpdump.parseSecEnc a)
        Gpgpdump.fieldRest r))
      (fun c _ q => u = 0 ∧ (SecCut a c b ∨ ∃ f g, b = f ++ g ∧ SecFields a f g ∧ Short 2 c q)) := by
    intro b
    by_cases hu : u = 0
    · rw [if_pos hu]
      refine skip (.setNote _) fun _ => ?_
      simp only [onField, Lang.assoc]
      refine (bind (onReader b (parseSecPlain a)) (Lang.onReader b (Lang.parseSecPlain a)) fun x => skip (.pure _) fun _ => checksum _).congr fun c p q => ?_
      simp only [hu, true_and]
      refine or_congr Iff.rfl ⟨?_, ?_⟩
      · rintro ⟨_, f, r, rfl, ⟨rfl, g, r', rfl, h1, -⟩, h2⟩; exact ⟨g, r', rfl, h1, h2⟩
      · rintro ⟨g, r', rfl, h1, h2⟩; exact ⟨((), _), [], q, rfl, ⟨rfl, g, r', rfl, h1, rfl⟩, h2⟩
    · rw [if_neg hu]
      refine skip (.setNote _) fun _ => ?_
      simp only [onField, Lang.assoc]
      exact (first (onReader b (parseSecEnc a)) (Lang.onReader b (Lang.parseSecEnc a)) fun x => idle (.bind (.pure _) fun _ => Lang.fieldRest _)).congr fun _ _ _ => by simp [hu]
  refine (rest (B := fun n c _ q => ¬ n < 4 ∧ (Short 4 c q ∨ ∃ l r, q = l ++ r ∧ l.length = 4 ∧ beNat l ≠ 0 ∧ (Short (beNat l) c r ∨
      ∃ b s, r = b ++ s ∧ b.length = beNat l ∧ u = 0 ∧ (SecCut a c b ∨ ∃ f g, b = f ++ g ∧ SecFields a f g ∧ Short 2 c s)))) fun n => ?_).congr fun c p q => ?_
  · by_cases hn : n < 4
    · rw [if_pos (by omega)]
      exact (panic .beShort : Errs (P.panic .beShort : P Unit) _).congr fun c p q => by simp [hn]
    · simp only [hn, not_false_eq_true, true_and]
      rw [if_neg (by omega), Lang.assoc]
      refine bytes 4 (B := fun l c _ r => beNat l ≠ 0 ∧ (Short (beNat l) c r ∨
        ∃ b s, r = b ++ s ∧ b.length = beNat l ∧ u = 0 ∧ (SecCut a c b ∨ ∃ f g, b = f ++ g ∧ SecFields a f g ∧ Short 2 c s))) fun sz => ?_
      by_cases hz : beNat sz = 0
      · simp only [if_pos hz]
        exact (idle (.pure ())).congr fun _ _ _ => by simp [hz]
      · simp only [if_neg hz]
        rw [Lang.assoc]
        exact (bytes (beNat sz) hown).congr fun _ _ _ => by simp [hz]
  · constructor
    · rintro ⟨h4, h | ⟨l, r, rfl, hl, hz, h | ⟨b, s, rfl, hb, rfl, h⟩⟩⟩
      · exfalso
        cases h with
        | none => simp at h4
        | some _ h => omega
      · exact .data hl h
      · have h0 : b ≠ [] := by rintro rfl; exact hz hb.symm
        obtain ⟨hl', rfl⟩ := Lang.sized4 hl hb
        rcases h with h | ⟨f, g, rfl, hf, h⟩
        · exact .material h0 hl' h
        · rw [List.append_assoc]; exact .checksum h0 hl' hf h
    · intro h
      cases h with
      | data hl h =>
        refine ⟨by simp; omega, .inr ⟨_, _, rfl, hl, ?_, .inl h⟩⟩
        intro h0
        rw [h0] at h
        exact short_zero h
      | material h0 hl h =>
        exact ⟨by simp, .inr ⟨_, _, rfl, by simp, by rw [Lang.beNat4 hl]; simpa using h0, .inr ⟨_, _, rfl, (Lang.beNat4 hl).symm, rfl, .inl h⟩⟩⟩
      | @checksum _ f g _ r h0 hl hf h =>
        exact ⟨by simp, .inr ⟨_, _, rfl, by simp, by rw [Lang.beNat4 hl]; simpa using h0, .inr ⟨f ++ g, r, by simp, (Lang.beNat4 hl).symm, rfl, .inr ⟨f, g, rfl, hf, h⟩⟩⟩⟩

theorem seckeyParse (v a : UInt8) : Errs (seckeyParse (pubVer v) a) (fun c _ q => if v = 5 then Secret5Cut a c q else SecretCut a c q) := by
  unfold Gpgpdump.seckeyParse
  by_cases hv : v = 5
  · subst hv
    simp only [if_pos]
    refine (byte fun u => seq (secField1_own u) (Lang.secField1_own u) fun _ => secField2_own u a).congr fun c p q => ?_
    constructor
    · rintro (⟨rfl, rfl⟩ | ⟨u, r, rfl, h | ⟨o, r, rfl, ho, h⟩⟩)
      · exact .usage
      · exact .options h
      · exact .material ho h
    · intro h
      cases h with
      | usage => exact .inl ⟨rfl, rfl⟩
      | options h => exact .inr ⟨_, _, rfl, .inl h⟩
      | material ho h => exact .inr ⟨_, _, rfl, .inr ⟨_, _, rfl, ho, h⟩⟩
  · simp only [if_neg hv]
    refine (byte (B := fun u c _ q => (SecOptionsCut u c q ∨ ∃ k f r, q = f ++ r ∧ u ≠ 0 ∧ SecOptions u k true f r ∧ Short (blockSize k) c r) ∨
      (u = 0 ∧ (SecCut a c q ∨ ∃ f r, q = f ++ r ∧ SecFields a f r ∧ Short 2 c r))) fun u => ?_).congr fun c p q => ?_
    · by_cases hu : u = 0
      · subst hu
        refine (seq (secField1_shared v 0 hv) (Lang.secField1_shared v 0 hv) fun _ => secField2_shared0 v a hv).congr fun c p q => ?_
        refine or_congr Iff.rfl ?_
        simp only [true_and]
        constructor
        · rintro ⟨f, r, rfl, ⟨k, iv, f1, n, rfl, ho, hn⟩, h⟩
          have : n = [] := List.length_eq_zero_iff.mp (by rw [hn, if_neg (by simp)])
          subst this
          cases ho with
          | plain => exact h
          | s2k hu => simp at hu
          | cipher hu => simp at hu
        · intro h
          exact ⟨[], q, rfl, ⟨0, false, [], [], rfl, .plain, by simp⟩, h⟩
      · exact (first (secField1_shared v u hv) (Lang.secField1_shared v u hv) fun _ => secField2_sharedEnc v u a hv hu).congr fun c p q => by simp only [hu, false_and, or_false]
    · constructor
      · rintro (⟨rfl, rfl⟩ | ⟨u, r, rfl, (h | ⟨k, f, r, rfl, h0, ho, h⟩) | ⟨rfl, h | ⟨f, r, rfl, hf, h⟩⟩⟩)
        · exact .usage
        · exact .options h
        · exact .iv h0 ho h
        · exact .material h
        · exact .checksum hf h
      · intro h
        cases h with
        | usage => exact .inl ⟨rfl, rfl⟩
        | options h => exact .inr ⟨_, _, rfl, .inl (.inl h)⟩
        | iv hu ho h => exact .inr ⟨_, _, rfl, .inl (.inr ⟨_, _, _, rfl, hu, ho, h⟩)⟩
        | material h => exact .inr ⟨_, _, rfl, .inr ⟨rfl, .inl h⟩⟩
        | checksum hf h => exact .inr ⟨_, _, rfl, .inr ⟨rfl, .inr ⟨_, _, rfl, hf, h⟩⟩⟩

/-! ## Public keys and the packets -/

theorem pubkeyTime : Errs (pubkeyTime X) (fun c _ q => Short 4 c q) := by
  unfold Gpgpdump.pubkeyTime
  exact skip (.flag _) fun u => first (newDateTime u) (Lang.newDateTime u) fun t => idle (.bind (.setKeyTime _) fun _ => .bind (.flag _) fun _ => .add _)

theorem shortIn_one {c q} {n : Nat} : ShortIn [n] c q ↔ Short n c q := by rw [shortIn_cons]; simp [shortIn_nil]

theorem pubkeyParse (v : UInt8) : Errs (pubkeyParse X (pubVer v)) (fun c _ q => PubPartCut v c q) := by
  unfold Gpgpdump.pubkeyParse
  have hone : ∀ {c : Cause} {q : Bytes}, (q = [] ∧ c = .eof) → Short 1 c q := fun h => short_one.mpr h
  rcases Lang.ver_cases v with ⟨rfl, h⟩ | ⟨rfl, h, h'⟩ | ⟨rfl, h, h', h''⟩ | ⟨hv, h, h', h''⟩ <;> simp only [h]
  · rw [if_pos trivial]
    have hr : ∀ (a : UInt8) (b : Bytes), Errs (do let _ ← P.onReader (Reader.new b) (Gpgpdump.parsePub a); return a) (fun c _ _ => PubCut a c b) :=
      fun a b => first (onReader b (parsePub a)) (Lang.onReader b (Lang.parsePub a)) fun _ => idle (.pure _)
    refine (seq (pubkeyTime X) (Lang.pubkeyTime X) fun _ => byte fun a => skip (.flag _) fun _ => skip (.add _) fun _ => bytes 4 fun sz => bytes (beNat sz) fun b =>
      hr a b).congr fun c p q => ?_
    constructor
    · rintro (h | ⟨tm, r, rfl, ht, h | ⟨a, r, rfl, h | ⟨sz, r, rfl, hz, h | ⟨b, r, rfl, hb, h⟩⟩⟩⟩)
      · exact .v5 (.here h)
      · exact .v5 (.later ht (.here (hone h)))
      · exact .v5 (.later ht (.later (f := [a]) rfl (.here h)))
      · exact .v5data ht hz h
      · obtain ⟨hl, rfl⟩ := Lang.sized4 hz hb
        exact .v5key ht hl h
    · intro h
      cases h with
      | v5 h =>
        rcases shortIn_cons.mp h with h | ⟨tm, r, rfl, ht, h⟩
        · exact .inl h
        refine .inr ⟨tm, r, rfl, ht, ?_⟩
        rcases shortIn_cons.mp h with h2 | ⟨f, r, rfl, hf, h2⟩
        · exact .inl (short_one.mp h2)
        match f, hf with
        | [a], _ => exact .inr ⟨a, r, rfl, .inl (shortIn_one.mp h2)⟩
      | v5data ht hl h => exact .inr ⟨_, _, rfl, ht, .inr ⟨_, _, rfl, .inr ⟨_, _, rfl, hl, .inl h⟩⟩⟩
      | v5key ht hl h => exact .inr ⟨_, _, rfl, ht, .inr ⟨_, _, rfl, .inr ⟨_, _, rfl, by simp, .inr ⟨_, _, rfl, (Lang.beNat4 hl).symm, h⟩⟩⟩⟩
  · rw [if_neg (by decide), h', if_pos rfl]
    refine (seq (pubkeyTime X) (Lang.pubkeyTime X) fun _ => byte fun a => skip (.flag _) fun _ => skip (.add _) fun _ =>
      first (parsePub a) (Lang.parsePub a) fun _ => idle (.pure _)).congr fun c p q => ?_
    constructor
    · rintro (h | ⟨tm, r, rfl, ht, h | ⟨a, r, rfl, h⟩⟩)
      · exact .v4 (.here h)
      · exact .v4 (.later ht (.here (hone h)))
      · exact .v4key ht h
    · intro h
      cases h with
      | v4 h =>
        rcases shortIn_cons.mp h with h | ⟨tm, r, rfl, ht, h⟩
        · exact .inl h
        exact .inr ⟨tm, r, rfl, ht, .inl (short_one.mp (shortIn_one.mp h))⟩
      | v4key ht h => exact .inr ⟨_, _, rfl, ht, .inr ⟨_, _, rfl, h⟩⟩
  · rw [if_neg (by decide), h', if_neg (by decide), if_pos (by decide)]
    refine (seq (pubkeyTime X) (Lang.pubkeyTime X) fun _ => bytes 2 fun d => skip (.add _) fun _ => byte fun a => skip (.flag _) fun _ => skip (.add _) fun _ =>
      first (parsePub a) (Lang.parsePub a) fun _ => idle (.pure _)).congr fun c p q => ?_
    constructor
    · rintro (h | ⟨tm, r, rfl, ht, h | ⟨d, r, rfl, hd, h | ⟨a, r, rfl, h⟩⟩⟩)
      · exact .v3 (.here h)
      · exact .v3 (.later ht (.here h))
      · exact .v3 (.later ht (.later hd (.here (hone h))))
      · exact .v3key ht hd h
    · intro h
      cases h with
      | v3 h =>
        rcases shortIn_cons.mp h with h | ⟨tm, r, rfl, ht, h⟩
        · exact .inl h
        refine .inr ⟨tm, r, rfl, ht, ?_⟩
        rcases shortIn_cons.mp h with h | ⟨d, r, rfl, hd, h⟩
        · exact .inl h
        exact .inr ⟨d, r, rfl, hd, .inl (short_one.mp (shortIn_one.mp h))⟩
      | v3key ht hd h => exact .inr ⟨_, _, rfl, ht, .inr ⟨_, _, rfl, hd, .inr ⟨_, _, rfl, h⟩⟩⟩
  · rw [if_neg (by decide), h', if_neg (by decide), h'', if_neg (by decide)]
    refine (idle (.pure _)).congr fun c p q => ?_
    simp only [false_iff]
    intro h
    cases h <;> simp at hv

theorem tag05 {tag : Nat} (ht : tag ∈ [5, 7]) : Errs (tag05 X) (fun c _ q => Fails X c tag q) := by
  unfold Gpgpdump.tag05
  refine (byte fun v => skip (.flag _) fun _ => skip (.add _) fun _ => bind (nested _ (pubkeyParse X v)) (Lang.nested _ (Lang.pubkeyParse X v)) fun a =>
    first (nested _ (seckeyParse v a)) (Lang.nested _ (Lang.seckeyParse v a)) fun _ => idle .unknownData).congr fun c p q => ?_
  constructor
  · rintro (⟨rfl, rfl⟩ | ⟨v, r, rfl, h | ⟨a, f, s, rfl, h, h'⟩⟩)
    · exact .version ((by decide : ∀ x ∈ [5, 7], x ∈ [2, 3, 5, 6, 7, 8, 14]) _ ht)
    · exact .publicKey ((by decide : ∀ x ∈ [5, 7], x ∈ [5, 6, 7, 14]) _ ht) h
    · by_cases hv : v = 5
      · subst hv; rw [if_pos rfl] at h'; exact .secretKey5 ht h h'
      · rw [if_neg hv] at h'; exact .secretKey ht hv h h'
  · intro h
    cases h with
    | version _ => exact .inl ⟨rfl, rfl⟩
    | publicKey _ h => exact .inr ⟨_, _, rfl, .inl h⟩
    | secretKey _ hv h h' => exact .inr ⟨_, _, rfl, .inr ⟨_, _, _, rfl, h, by rw [if_neg hv]; exact h'⟩⟩
    | secretKey5 _ h h' => exact .inr ⟨_, _, rfl, .inr ⟨_, _, _, rfl, h, by rw [if_pos rfl]; exact h'⟩⟩
    | _ => simp at ht

theorem tag06 {tag : Nat} (ht : tag ∈ [6, 14]) : Errs (tag06 X) (fun c _ q => Fails X c tag q) := by
  unfold Gpgpdump.tag06
  refine (byte fun v => skip (.flag _) fun _ => skip (.add _) fun _ => first (pubkeyParse X v) (Lang.pubkeyParse X v) fun _ =>
    idle .unknownData).congr fun c p q => ?_
  constructor
  · rintro (⟨rfl, rfl⟩ | ⟨v, r, rfl, h⟩)
    · exact .version ((by decide : ∀ x ∈ [6, 14], x ∈ [2, 3, 5, 6, 7, 8, 14]) _ ht)
    · exact .publicKey ((by decide : ∀ x ∈ [6, 14], x ∈ [5, 6, 7, 14]) _ ht) h
  · intro h
    cases h with
    | version _ => exact .inl ⟨rfl, rfl⟩
    | publicKey _ h => exact .inr ⟨_, _, rfl, h⟩
    | secretKey h => simp at h ht; omega
    | secretKey5 h => simp at h ht; omega
    | _ => simp at ht

end Errs
end Gpgpdump
