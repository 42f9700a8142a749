import Verif.Accept
import Verif.DecodeLemmas

/-!
# Which octets the field parsers accept

`Lang` statements for integers, curve parameters, string-to-key specifiers and key material.
-/

namespace Gpgpdump
open P Spec

theorem Spec.MPIs.append {m n f g} (h : MPIs m f) (h' : MPIs n g) : MPIs (m + n) (f ++ g) := by
  induction h with
  | zero => simpa using h'
  | @succ k bits data more hb hl _ ih =>
    rw [List.append_assoc, Nat.add_right_comm]
    exact .succ hb hl ih

theorem Spec.MPIs.split {m n f} (h : MPIs (m + n) f) : ∃ f1 f2, f = f1 ++ f2 ∧ MPIs m f1 ∧ MPIs n f2 := by
  induction m generalizing f with
  | zero => exact ⟨[], f, rfl, .zero, by simpa using h⟩
  | succ k ih =>
    rw [Nat.add_right_comm] at h
    cases h with
    | @succ _ bits data more hb hl h' =>
      obtain ⟨f1, f2, rfl, h1, h2⟩ := ih h'
      exact ⟨beOctets 2 bits ++ data ++ f1, f2, by simp, .succ hb hl h1, h2⟩

theorem Spec.MPIs.add_iff {m n f} : MPIs (m + n) f ↔ ∃ f1 f2, f = f1 ++ f2 ∧ MPIs m f1 ∧ MPIs n f2 :=
  ⟨Spec.MPIs.split, by rintro ⟨f1, f2, rfl, h1, h2⟩; exact h1.append h2⟩

theorem Spec.MPIs.zero_iff {f} : MPIs 0 f ↔ f = [] := ⟨fun h => by cases h; rfl, by rintro rfl; exact .zero⟩

namespace Lang

/-- `do m; m'` -/
theorem seq {β} {m : P Unit} {g : P β} {L : Bytes → Bytes → Prop} {L' : β → Bytes → Bytes → Prop}
    (h : Lang m (fun _ => L)) (h' : Lang g L') :
    Lang (m >>= fun _ => g) (fun b f q => ∃ f1 f2, f = f1 ++ f2 ∧ L f1 (f2 ++ q) ∧ L' b f2 q) :=
  (h.bind fun _ => h').congr fun b f q => by simp

theorem byte {β} {g : UInt8 → P β} {L : UInt8 → β → Bytes → Bytes → Prop} (h : ∀ b, Lang (g b) (L b)) :
    Lang (P.readByte >>= g) (fun a f q => ∃ b f', f = b :: f' ∧ L b a f' q) :=
  (readByte.bind h).congr fun a f q => by
    constructor
    · rintro ⟨b, f1, f2, rfl, rfl, h⟩; exact ⟨b, f2, rfl, h⟩
    · rintro ⟨b, f', rfl, h⟩; exact ⟨b, [b], f', rfl, rfl, h⟩

theorem bytes {β} (n : Nat) {g : Bytes → P β} {L : Bytes → β → Bytes → Bytes → Prop} (h : ∀ b, Lang (g b) (L b)) :
    Lang (P.readBytes n >>= g) (fun a f q => ∃ b f', f = b ++ f' ∧ b.length = n ∧ L b a f' q) :=
  ((readBytes n).bind h).congr fun a f q => by
    constructor
    · rintro ⟨b, f1, f2, rfl, ⟨rfl, h1⟩, h⟩; exact ⟨f1, f2, rfl, h1, h⟩
    · rintro ⟨b, f', rfl, h1, h⟩; exact ⟨b, b, f', rfl, ⟨rfl, h1⟩, h⟩

theorem newMPI : Lang newMPI (fun a f _ => a.1 < 65536 ∧ f = beOctets 2 a.1 ++ a.2 ∧ a.2.length = (a.1 + 7) / 8) := by
  unfold Gpgpdump.newMPI
  refine (bytes 2 fun l => bytes _ fun d => pure _).congr ?_
  rintro ⟨bits, data⟩ f q
  simp only [Prod.mk.injEq]
  constructor
  · rintro ⟨l, f', rfl, hl, d, f'', rfl, hd, ⟨rfl, rfl⟩, rfl⟩
    refine ⟨beNat2 l hl, ?_, hd⟩
    rw [← hl, beOctets_beNat]; simp
  · rintro ⟨h1, rfl, h2⟩
    refine ⟨beOctets 2 bits, data, rfl, by simp, data, [], by simp, ?_, ?_, rfl⟩
    · rw [beNat_beOctets 2 bits (by simpa using h1)]; exact h2
    · rw [beNat_beOctets 2 bits (by simpa using h1)]; simp

theorem mpi_then {m : (Nat × Bytes) → P Unit} (h : ∀ a, Idle (m a)) : Lang (Gpgpdump.newMPI >>= m) (fun _ f _ => MPIs 1 f) := by
  refine (newMPI.bind fun a => idle (h a)).congr ?_
  intro _ f q
  constructor
  · rintro ⟨⟨bits, data⟩, f1, f2, rfl, ⟨h1, rfl, h2⟩, rfl⟩
    exact .succ h1 h2 .zero
  · intro h
    cases h with
    | @succ n bits data more h1 h2 h3 =>
      cases h3
      exact ⟨(bits, data), beOctets 2 bits ++ data, [], rfl, ⟨h1, rfl, h2⟩, rfl⟩

theorem addMPI (n) : Lang (addMPI n) (fun _ f _ => MPIs 1 f) := mpi_then fun _ => .bind (.flag _) fun _ => .add _
theorem addECPoint (n) : Lang (addECPoint n) (fun _ f _ => MPIs 1 f) := mpi_then fun _ => .bind (.flag _) fun _ => .add _

theorem mpis {n : Nat} {m : P Unit} {m' : P Unit} (h : Lang m (fun _ f _ => MPIs 1 f)) (h' : Lang m' (fun _ f _ => MPIs n f)) :
    Lang (m >>= fun _ => m') (fun _ f _ => MPIs (1 + n) f) := (seq h h').congr fun _ f q => MPIs.add_iff.symm

theorem counted {m : UInt8 → P Bytes} (h : ∀ l, Lang (m l) (fun b f _ => f = b ∧ b.length = l.toNat)) :
    Lang (P.readByte >>= m) (fun b f _ => b.length < 256 ∧ f = UInt8.ofNat b.length :: b) := by
  refine (byte h).congr fun b f q => ?_
  constructor
  · rintro ⟨l, f', rfl, rfl, hl⟩
    exact ⟨by rw [hl]; exact l.toNat_lt, by rw [ofNat_eq hl]⟩
  · rintro ⟨h1, rfl⟩
    exact ⟨_, b, rfl, rfl, (ofNat_toNat _ h1).symm⟩

theorem emptyOr {l : UInt8} : Lang (if l = 0 then Pure.pure [] else P.readBytes l.toNat : P Bytes) (fun b f _ => f = b ∧ b.length = l.toNat) := by
  by_cases h : l = 0
  · rw [if_pos h]; subst h
    refine (pure _).congr fun _ f _ => ?_
    constructor
    · rintro ⟨rfl, rfl⟩; exact ⟨rfl, rfl⟩
    · rintro ⟨rfl, h⟩; have : f = [] := by simpa using h
      exact ⟨this, this⟩
  · rw [if_neg h]; exact readBytes _

theorem newOID : Lang newOID (fun b f _ => b.length < 256 ∧ f = UInt8.ofNat b.length :: b) := counted fun _ => emptyOr

theorem newECParm : Lang newECParm (fun b f q => (b.length < 256 ∧ f = UInt8.ofNat b.length :: b) ∨ (b = [] ∧ f = [] ∧ q = [])) := by
  unfold Gpgpdump.newECParm
  refine (rest (L := fun n b f q => if n = 0 then b = [] ∧ f = [] else b.length < 256 ∧ f = UInt8.ofNat b.length :: b) fun n => ?_).congr ?_
  · by_cases hn : n = 0
    · rw [if_pos (by omega)]
      exact (pure _).congr fun b f q => by rw [if_pos hn]
    · rw [if_neg (by omega)]
      exact (counted fun _ => emptyOr).congr fun b f q => by rw [if_neg hn]
  · intro b f q
    by_cases h : (f ++ q).length = 0
    · rw [if_pos h]
      have h' : f = [] ∧ q = [] := by simpa using h
      constructor
      · rintro ⟨rfl, rfl⟩; exact .inr ⟨rfl, rfl, h'.2⟩
      · rintro (⟨-, h1⟩ | ⟨rfl, rfl, -⟩)
        · rw [h'.1] at h1; cases h1
        · exact ⟨rfl, rfl⟩
    · rw [if_neg h]
      constructor
      · exact .inl
      · rintro (h1 | ⟨rfl, rfl, rfl⟩)
        · exact h1
        · exact (h rfl).elim

theorem newDateTime (u) : Lang (newDateTime u) (fun a f _ => f.length = 4 ∧ a = ⟨f, u⟩) := by
  unfold Gpgpdump.newDateTime
  refine (bytes 4 fun b => pure _).congr fun a f q => ?_
  constructor
  · rintro ⟨b, f', rfl, h, rfl, rfl⟩; exact ⟨by simpa using h, by simp⟩
  · rintro ⟨h, rfl⟩; exact ⟨f, [], by simp, h, rfl, rfl⟩

/-- a value of which only the octets matter -/
theorem then_idle {α} {m : P α} {L : α → Bytes → Bytes → Prop} {g : α → P Unit} (h : Lang m L) (h' : ∀ a, Idle (g a)) :
    Lang (m >>= g) (fun _ f q => ∃ a, L a f q) := by
  refine (h.bind fun a => idle (h' a)).congr fun _ f q => ?_
  constructor
  · rintro ⟨a, f1, f2, rfl, h, rfl⟩; exact ⟨a, by simpa using h⟩
  · rintro ⟨a, h⟩; exact ⟨a, f, [], by simp, by simpa using h, rfl⟩

theorem counted_iff {f} : Counted f ↔ ∃ b : Bytes, b.length < 256 ∧ f = UInt8.ofNat b.length :: b :=
  ⟨fun h => by cases h with | @mk x h => exact ⟨x, h, rfl⟩, by rintro ⟨b, h, rfl⟩; exact .mk h⟩

/-! ## Public-key algorithms -/

theorem pubAlg_cases (a : UInt8) : (a ∈ [1, 2, 3] ∧ pubAlg a = .rsa) ∨ (a = 17 ∧ pubAlg a = .dsa) ∨ (a ∈ [16, 20] ∧ pubAlg a = .elgamal) ∨
    (a = 18 ∧ pubAlg a = .ecdh) ∨ (a = 19 ∧ pubAlg a = .ecdsa) ∨ (a = 22 ∧ pubAlg a = .eddsa) ∨
    (a ∉ [1, 2, 3, 16, 17, 18, 19, 20, 22] ∧ pubAlg a = .unknown) := by
  have : ∀ i : Fin 256, let a := UInt8.ofNat i.val; (a ∈ [1, 2, 3] ∧ pubAlg a = .rsa) ∨ (a = 17 ∧ pubAlg a = .dsa) ∨ (a ∈ [16, 20] ∧ pubAlg a = .elgamal) ∨
    (a = 18 ∧ pubAlg a = .ecdh) ∨ (a = 19 ∧ pubAlg a = .ecdsa) ∨ (a = 22 ∧ pubAlg a = .eddsa) ∨
    (a ∉ [1, 2, 3, 16, 17, 18, 19, 20, 22] ∧ pubAlg a = .unknown) := by decide +kernel
  have := this ⟨a.toNat, a.toNat_lt⟩
  simpa using this

theorem parseSig (a) : Lang (parseSig a) (fun _ f _ => MPIs (sigInts a) f) := by
  have h0 : ∀ n, Lang (Gpgpdump.addOpaque n) (fun _ f _ => MPIs 0 f) := fun n => (idle (.addOpaque n)).congr fun _ f q => MPIs.zero_iff.symm
  rcases pubAlg_cases a with ⟨h, h'⟩ | ⟨h, h'⟩ | ⟨h, h'⟩ | ⟨h, h'⟩ | ⟨h, h'⟩ | ⟨h, h'⟩ | ⟨h, h'⟩ <;> unfold Gpgpdump.parseSig <;> rw [h'] <;> simp only
  · rw [sigInts, if_pos h]; exact addMPI _
  · subst h; exact mpis (addMPI _) (addMPI _)
  · have : sigInts a = 1 + 1 := by
      simp only [List.mem_cons, List.not_mem_nil, or_false] at h
      rcases h with rfl | rfl <;> rfl
    rw [this]; exact mpis (addMPI _) (addMPI _)
  · subst h; exact h0 _
  · subst h; exact mpis (addMPI _) (addMPI _)
  · subst h; exact mpis (addMPI _) (addMPI _)
  · have : sigInts a = 0 := by
      simp only [List.mem_cons, List.not_mem_nil, or_false, not_or] at h
      unfold sigInts
      rw [if_neg (by simp [h]), if_neg (by simp [h])]
    rw [this]; exact h0 _

theorem ecdhTail (ep : Bytes) : Idle (do
    let i := ecParmItem ep (S "KDF parameters") (← flag Ctx.integer)
    match ep with
    | 0x01 :: h :: s :: _ => do
      let d ← flag Ctx.debug
      P.add ((i.add (hashItem h d)).add (symItem s d))
    | _ => P.add (i.setValue Unknown) : P Unit) := by
  refine .bind (.flag _) fun _ => ?_
  split
  · exact .bind (.flag _) fun _ => .add _
  · exact .add _

theorem parm_iff {f q : Bytes} : (∃ b : Bytes, (b.length < 256 ∧ f = UInt8.ofNat b.length :: b) ∨ (b = [] ∧ f = [] ∧ q = [])) ↔
    (Counted f ∨ (f = [] ∧ q = [])) := by
  rw [counted_iff]
  constructor
  · rintro ⟨b, h | ⟨-, h⟩⟩
    · exact .inl ⟨b, h⟩
    · exact .inr h
  · rintro (⟨b, h⟩ | h)
    · exact ⟨b, .inl h⟩
    · exact ⟨[], .inr ⟨rfl, h⟩⟩

/-- the fields of a public key by kind of algorithm -/
def pubForm : PubAlg → Bytes → Bytes → Prop
  | .rsa, f, _ => MPIs 2 f
  | .dsa, f, _ => MPIs 4 f
  | .elgamal, f, _ => MPIs 3 f
  | .ecdh, f, q => ∃ o m k, f = o ++ (m ++ k) ∧ Counted o ∧ MPIs 1 m ∧ (Counted k ∨ (k = [] ∧ q = []))
  | .ecdsa, f, _ => ∃ o m, f = o ++ m ∧ Counted o ∧ MPIs 1 m
  | .eddsa, f, _ => ∃ o m, f = o ++ m ∧ Counted o ∧ MPIs 1 m
  | .unknown, f, _ => f = []

theorem alg_rsa {a : UInt8} (h : a ∈ [1, 2, 3]) : pubAlg a = .rsa := by
  simp only [List.mem_cons, List.not_mem_nil, or_false] at h
  rcases h with rfl | rfl | rfl <;> rfl
theorem alg_elgamal {a : UInt8} (h : a ∈ [16, 20]) : pubAlg a = .elgamal := by
  simp only [List.mem_cons, List.not_mem_nil, or_false] at h
  rcases h with rfl | rfl <;> rfl
theorem alg_unknown {a : UInt8} (h : a ∉ [1, 2, 3, 16, 17, 18, 19, 20, 22]) : pubAlg a = .unknown := by
  rcases pubAlg_cases a with ⟨h1, h'⟩ | ⟨h1, h'⟩ | ⟨h1, h'⟩ | ⟨h1, h'⟩ | ⟨h1, h'⟩ | ⟨h1, h'⟩ | ⟨h1, h'⟩
  · exact (h ((by decide : ∀ x ∈ ([1, 2, 3] : List UInt8), x ∈ ([1, 2, 3, 16, 17, 18, 19, 20, 22] : List UInt8)) _ h1)).elim
  · exfalso; apply h; subst h1; decide
  · exact (h ((by decide : ∀ x ∈ ([16, 20] : List UInt8), x ∈ ([1, 2, 3, 16, 17, 18, 19, 20, 22] : List UInt8)) _ h1)).elim
  · exfalso; apply h; subst h1; decide
  · exfalso; apply h; subst h1; decide
  · exfalso; apply h; subst h1; decide
  · exact h'

theorem pubFields_iff {a f q} : PubFields a f q ↔ pubForm (pubAlg a) f q := by
  constructor
  · intro h
    cases h with
    | rsa ha h => rw [alg_rsa ha]; exact h
    | dsa h => exact h
    | elgamal ha h => rw [alg_elgamal ha]; exact h
    | @curve _ o m _ ha ho hm =>
      simp only [List.mem_cons, List.not_mem_nil, or_false] at ha
      rcases ha with rfl | rfl
      · exact ⟨o, m, rfl, ho, hm⟩
      · exact ⟨o, m, rfl, ho, hm⟩
    | @ecdh o m k _ ho hm hk => exact ⟨o, m, k, rfl, ho, hm, hk⟩
    | other ha => rw [alg_unknown ha]; rfl
  · intro h
    rcases pubAlg_cases a with ⟨h1, h'⟩ | ⟨h1, h'⟩ | ⟨h1, h'⟩ | ⟨h1, h'⟩ | ⟨h1, h'⟩ | ⟨h1, h'⟩ | ⟨h1, h'⟩ <;> rw [h'] at h
    · exact .rsa h1 h
    · subst h1; exact .dsa h
    · exact .elgamal h1 h
    · subst h1
      obtain ⟨o, m, k, rfl, ho, hm, hk⟩ := h
      exact .ecdh ho hm hk
    · subst h1
      obtain ⟨o, m, rfl, ho, hm⟩ := h
      exact .curve (by decide) ho hm
    · subst h1
      obtain ⟨o, m, rfl, ho, hm⟩ := h
      exact .curve (by decide) ho hm
    · have : f = [] := h
      subst this
      exact .other h1

theorem ecdhPub : Lang ecdhPub (fun _ => pubForm .ecdh) := by
  unfold Gpgpdump.ecdhPub
  refine (newOID.bind fun o => skip (.add _) fun _ => seq (addECPoint _) (then_idle newECParm ecdhTail)).congr fun _ f q => ?_
  simp only [parm_iff]
  constructor
  · rintro ⟨o, f1, f2, rfl, h1, m, k, rfl, hm, hk⟩
    exact ⟨f1, m, k, rfl, counted_iff.mpr ⟨o, h1⟩, hm, hk⟩
  · rintro ⟨o, m, k, rfl, ho, hm, hk⟩
    obtain ⟨b, hb⟩ := counted_iff.mp ho
    exact ⟨b, _, _, rfl, hb, _, _, rfl, hm, hk⟩

theorem curve (n) : Lang (do
    let oid ← Gpgpdump.newOID
    P.add (oidItem oid true)
    Gpgpdump.addECPoint n) (fun _ f _ => ∃ o m, f = o ++ m ∧ Counted o ∧ MPIs 1 m) := by
  refine (newOID.bind fun o => skip (.add _) fun _ => addECPoint _).congr fun _ f q => ?_
  constructor
  · rintro ⟨o, f1, f2, rfl, h1, hm⟩
    exact ⟨f1, f2, rfl, counted_iff.mpr ⟨o, h1⟩, hm⟩
  · rintro ⟨o, m, rfl, ho, hm⟩
    obtain ⟨b, hb⟩ := counted_iff.mp ho
    exact ⟨b, _, _, rfl, hb, hm⟩

theorem parsePub (a) : Lang (parsePub a) (fun _ => PubFields a) := by
  refine Lang.congr (L := fun _ => pubForm (pubAlg a)) ?_ fun _ f q => pubFields_iff.symm
  unfold Gpgpdump.parsePub
  cases pubAlg a <;> simp only
  · exact mpis (addMPI _) (addMPI _)
  · exact mpis (addMPI _) (mpis (addMPI _) (mpis (addMPI _) (addMPI _)))
  · exact mpis (addMPI _) (mpis (addMPI _) (addMPI _))
  · exact ecdhPub
  · exact curve _
  · exact curve _
  · exact idle (.addOpaque _)

/-- the fields of a session key by kind of algorithm -/
def sesForm : PubAlg → Bytes → Bytes → Prop
  | .rsa, f, _ => MPIs 1 f
  | .elgamal, f, _ => MPIs 2 f
  | .ecdh, f, q => ∃ m k, f = m ++ k ∧ MPIs 1 m ∧ (Counted k ∨ (k = [] ∧ q = []))
  | _, f, _ => f = []

theorem sesFields_iff {a f q} : SesFields a f q ↔ sesForm (pubAlg a) f q := by
  constructor
  · intro h
    cases h with
    | rsa ha h => rw [alg_rsa ha]; exact h
    | elgamal ha h => rw [alg_elgamal ha]; exact h
    | @ecdh m k _ hm hk => exact ⟨m, k, rfl, hm, hk⟩
    | other ha =>
      rcases pubAlg_cases a with ⟨h1, h'⟩ | ⟨h1, h'⟩ | ⟨h1, h'⟩ | ⟨h1, h'⟩ | ⟨h1, h'⟩ | ⟨h1, h'⟩ | ⟨h1, h'⟩ <;> rw [h']
      · exact (ha ((by decide : ∀ x ∈ ([1, 2, 3] : List UInt8), x ∈ ([1, 2, 3, 16, 18, 20] : List UInt8)) _ h1)).elim
      · rfl
      · exact (ha ((by decide : ∀ x ∈ ([16, 20] : List UInt8), x ∈ ([1, 2, 3, 16, 18, 20] : List UInt8)) _ h1)).elim
      · exfalso; apply ha; subst h1; decide
      · rfl
      · rfl
      · rfl
  · intro h
    rcases pubAlg_cases a with ⟨h1, h'⟩ | ⟨h1, h'⟩ | ⟨h1, h'⟩ | ⟨h1, h'⟩ | ⟨h1, h'⟩ | ⟨h1, h'⟩ | ⟨h1, h'⟩ <;> rw [h'] at h
    · exact .rsa h1 h
    · subst h1; have : f = [] := h
      subst this; exact .other (by decide)
    · exact .elgamal h1 h
    · subst h1
      obtain ⟨m, k, rfl, hm, hk⟩ := h
      exact .ecdh hm hk
    · subst h1; have : f = [] := h
      subst this; exact .other (by decide)
    · subst h1; have : f = [] := h
      subst this; exact .other (by decide)
    · have : f = [] := h
      subst this; exact .other fun h2 => h1 ((by decide : ∀ x ∈ ([1, 2, 3, 16, 18, 20] : List UInt8), x ∈ ([1, 2, 3, 16, 17, 18, 19, 20, 22] : List UInt8)) _ h2)

theorem parseSes (a) : Lang (parseSes a) (fun _ => SesFields a) := by
  refine Lang.congr (L := fun _ => sesForm (pubAlg a)) ?_ fun _ f q => sesFields_iff.symm
  unfold Gpgpdump.parseSes
  cases pubAlg a <;> simp only
  · exact addMPI _
  · exact idle (.addOpaque _)
  · exact mpis (addMPI _) (addMPI _)
  · refine (seq (addECPoint _) (then_idle newECParm fun _ => .bind (.flag _) fun _ => .add _)).congr fun _ f q => ?_
    simp only [parm_iff]
    rfl
  · exact idle (.addOpaque _)
  · exact idle (.addOpaque _)
  · exact idle (.addOpaque _)

/-- secret key material by kind of algorithm -/
def secForm : PubAlg → Bytes → Bytes → Prop
  | .rsa, f, _ => MPIs 4 f
  | .unknown, _, q => q.length = 2
  | _, f, _ => MPIs 1 f

theorem secFields_iff {a f q} : SecFields a f q ↔ secForm (pubAlg a) f q := by
  constructor
  · intro h
    cases h with
    | rsa ha h => rw [alg_rsa ha]; exact h
    | one ha h =>
      simp only [List.mem_cons, List.not_mem_nil, or_false] at ha
      rcases ha with rfl | rfl | rfl | rfl | rfl | rfl <;> exact h
    | other ha h => rw [alg_unknown ha]; exact h
  · intro h
    rcases pubAlg_cases a with ⟨h1, h'⟩ | ⟨h1, h'⟩ | ⟨h1, h'⟩ | ⟨h1, h'⟩ | ⟨h1, h'⟩ | ⟨h1, h'⟩ | ⟨h1, h'⟩ <;> rw [h'] at h
    · exact .rsa h1 h
    · subst h1; exact .one (by decide) h
    · exact .one ((by decide : ∀ x ∈ ([16, 20] : List UInt8), x ∈ ([16, 17, 18, 19, 20, 22] : List UInt8)) _ h1) h
    · subst h1; exact .one (by decide) h
    · subst h1; exact .one (by decide) h
    · subst h1; exact .one (by decide) h
    · exact .other h1 h

/-- reading all but the last two octets -/
theorem readButTwo {g : Int → Bytes → P Unit} (hg : ∀ n b, Idle (g n b)) :
    Lang (do
      let len := (← Gpgpdump.rest) - 2
      let b ← P.readBytes len
      g len b) (fun _ _ q => q.length = 2) := by
  refine (rest (L := fun n _ f _ => f.length + 2 = n) fun n => ?_).congr fun _ f q => by simp; omega
  by_cases hn : n < 2
  · constructor
    · intro x p post j a s hs
      obtain ⟨b, s1, h1, -⟩ := bind_inv hs
      exfalso
      have : ((n : Int) - 2) < 0 := by omega
      rw [readBytes_def] at h1
      unfold Reader.readBytes at h1
      simp only [Prod.mk.injEq] at h1
      have h2 := h1.1
      rw [if_neg (by omega)] at h2
      split at h2
      · cases h2
      · split at h2
        · cases h2
        · cases h2
    · intro x p j a f q h; omega
  · obtain ⟨k, rfl⟩ : ∃ k, n = k + 2 := ⟨n - 2, by omega⟩
    have : (((k + 2 : Nat) : Int) - 2) = (k : Int) := by omega
    rw [this]
    refine (then_idle (readBytes k) fun b => hg _ b).congr fun _ f q => ?_
    constructor
    · rintro ⟨b, rfl, h⟩; omega
    · intro h; exact ⟨f, rfl, by omega⟩

theorem parseSecPlain (a) : Lang (parseSecPlain a) (fun _ => SecFields a) := by
  refine Lang.congr (L := fun _ => secForm (pubAlg a)) ?_ fun _ f q => secFields_iff.symm
  unfold Gpgpdump.parseSecPlain
  cases pubAlg a <;> simp only
  · exact mpis (addMPI _) (mpis (addMPI _) (mpis (addMPI _) (addMPI _)))
  · exact addMPI _
  · exact addMPI _
  · exact addMPI _
  · exact addMPI _
  · exact addMPI _
  · exact readButTwo (g := fun len b => do
      P.add (newItem (S "Multi-precision integers of unknown secret key (pub " ++ dec a.toNat ++ S ")") [] (iBytes len)
        (dumpBytes b (← flag Ctx.debug)))) fun n b => .bind (.flag _) fun _ => .add _

theorem rd_seekEnd (p q : Bytes) : (⟨p ++ q, p.length⟩ : Reader).seek 0 2 = (.ok ((p ++ q).length : Int), ⟨p ++ q, (p ++ q).length⟩) := by
  unfold Reader.seek Reader.size
  rw [if_neg (by decide), if_neg (by decide), if_pos rfl]
  simp only
  rw [if_neg (by omega), show (((p ++ q).length : Int) + 0) = ((p ++ q).length : Int) by omega]
  rfl

theorem rd_seekBack (p r q : Bytes) : (⟨p ++ r ++ q, (p ++ r).length⟩ : Reader).seek (-(r.length : Int)) 1 = (.ok (p.length : Int), ⟨p ++ r ++ q, p.length⟩) := by
  unfold Reader.seek Reader.size
  rw [if_neg (by decide), if_pos rfl]
  simp only [List.length_append]
  rw [if_neg (by omega)]
  have : (((p.length + r.length : Nat) : Int) + -(r.length : Int)) = (p.length : Int) := by omega
  rw [this]; simp

theorem seekEnd : Lang (do let _ ← seek 0 2; Pure.pure () : P Unit) (fun _ _ q => q = []) := by
  have hr : ∀ x p q j, (do let _ ← seek 0 2; Pure.pure () : P Unit) (St.at (some x) p q j) = (.ok (), St.at (some x) (p ++ q) [] j) := by
    intro x p q j
    have h : P.seek 0 2 (St.at (some x) p q j) = (.ok (((p ++ q).length : Nat) : Int), St.at (some x) (p ++ q) [] j) := by
      unfold P.seek
      rw [St.at_rd, rd_seekEnd]
      simp [St.at]
    rw [bind_run, h]; rfl
  constructor
  · intro x p post j a s hs
    rw [hr] at hs
    simp only [Prod.mk.injEq] at hs
    exact ⟨post, [], x, j, by simp, rfl, hs.2.symm⟩
  · rintro x p j a f q rfl
    exact ⟨x, j, by rw [hr]; simp⟩

theorem parseSecEnc (a) : Lang (parseSecEnc a) (fun _ _ q => q = []) := by
  unfold Gpgpdump.parseSecEnc
  cases pubAlg a <;> exact skip (.addOpaque _) fun _ => seekEnd

/-! ## String-to-key specifiers -/

/-- s2k.go:78-98 behind "GNU" and the extension number -/
def gnuCard (n : UInt8) : P Bool := do
  let gnu ← P.build (newItem (S "GNU-divert-to-card") (S "Extension Number " ++ dec (1000 + n.toNat))) (do
    if 1000 + n.toNat = 1002 then
      let l ← P.readByte
      let ser ← P.readBytes l.toNat
      P.add (newItem (S "Serial Number") [] [] (dumpBytes ser true))
    else Pure.pure ())
  P.add gnu
  return false

theorem build_then {β} {m : P Unit} {g : Item → P β} {L : Bytes → Bytes → Prop} {L' : β → Bytes → Bytes → Prop} (i : Item)
    (h : Lang m (fun _ => L)) (h' : ∀ it, Lang (g it) L') :
    Lang (P.build i m >>= g) (fun b f q => ∃ f1 f2, f = f1 ++ f2 ∧ L f1 (f2 ++ q) ∧ L' b f2 q) := by
  constructor
  · intro x p post j a s hs
    obtain ⟨it, s1, h1, h2⟩ := bind_inv hs
    rw [build_run] at h1
    rcases hm : m (St.at (some x) p post i) with ⟨r, s'⟩
    rw [hm] at h1
    simp only [Prod.mk.injEq] at h1
    obtain ⟨hr, rfl⟩ := h1
    cases r with
    | ok u =>
      obtain ⟨f, q, x', j', rfl, hl, rfl⟩ := h.sound _ _ _ _ _ _ hm
      obtain ⟨f2, q2, x2, j2, rfl, hl', rfl⟩ := (h' it).sound _ _ _ _ _ _ h2
      exact ⟨f ++ f2, q2, x2, j2, by simp, ⟨f, f2, rfl, hl, hl'⟩, by simp⟩
    | _ => simp [Res.map] at hr
  · rintro x p j b f q ⟨f1, f2, rfl, hl, hl'⟩
    obtain ⟨x1, j1, h1⟩ := h.complete x p i () f1 (f2 ++ q) hl
    obtain ⟨x2, j2, h2⟩ := (h' j1).complete x1 (p ++ f1) j b f2 q hl'
    refine ⟨x2, j2, ?_⟩
    rw [bind_run, List.append_assoc, build_run, h1]
    simp only [Res.map, St.at_cur, St.at_setCur]
    rw [h2]; simp

theorem gnuCard_lang (n : UInt8) : Lang (gnuCard n) (fun b f _ => b = false ∧ if n = 2 then Counted f else f = []) := by
  unfold gnuCard
  by_cases hn : n = 2
  · subst hn
    simp only [if_true]
    rw [if_pos (by decide)]
    refine (build_then _ (byte fun l => then_idle (readBytes l.toNat) fun b => .add _) fun _ => skip (.add _) fun _ => pure _).congr fun b f q => ?_
    constructor
    · rintro ⟨f1, f2, rfl, ⟨l, f', rfl, b', rfl, hl⟩, rfl, rfl⟩
      exact ⟨rfl, by simpa using counted_iff.mpr ⟨f', by rw [hl]; exact l.toNat_lt, by rw [ofNat_eq hl]⟩⟩
    · rintro ⟨rfl, h⟩
      obtain ⟨b, hb, rfl⟩ := counted_iff.mp h
      exact ⟨_, [], by simp, ⟨_, b, rfl, b, rfl, (ofNat_toNat _ hb).symm⟩, rfl, rfl⟩
  · rw [if_neg (by intro h; apply hn; apply UInt8.toNat_inj.mp; show n.toNat = 2; omega)]
    simp only [if_neg hn]
    refine (build_then _ (idle (.pure ())) fun _ => skip (.add _) fun _ => pure _).congr fun b f q => ?_
    constructor
    · rintro ⟨f1, f2, rfl, rfl, rfl, rfl⟩; exact ⟨rfl, rfl⟩
    · rintro ⟨rfl, rfl⟩; exact ⟨[], [], rfl, rfl, rfl, rfl⟩

/-- s2k.go:65-104 type 101 -/
def gnuPart : P Bool := do
  if (← Gpgpdump.rest) < 4 then return true
  else
    let mrk ← P.readBytes 3
    if mrk = [0x47, 0x4e, 0x55] then
      let n ← P.readByte
      gnuCard n
    else
      let _ ← seek (-3) 1
      return true

theorem gnuPart_yes (x p n r j) : gnuPart (St.at (some x) p (0x47 :: 0x4e :: 0x55 :: n :: r) j) =
    gnuCard n (St.at (some x) (p ++ [0x47, 0x4e, 0x55, n]) r j) := by
  unfold gnuPart
  rw [bind_run, rest_run]
  simp only
  rw [if_neg (by simp only [List.length_cons]; omega)]
  have h := readBytes_append (some x) p [0x47, 0x4e, 0x55] (n :: r) j
  rw [bind_run]
  have h' : P.readBytes 3 (St.at (some x) p (0x47 :: 0x4e :: 0x55 :: n :: r) j) = (.ok [0x47, 0x4e, 0x55], St.at (some x) (p ++ [0x47, 0x4e, 0x55]) (n :: r) j) := h
  rw [h']
  simp only [if_true]
  rw [bind_run, readByte_cons]
  simp

theorem gnuPart_no (x p q j) (hq : ¬ ∃ n r, q = 0x47 :: 0x4e :: 0x55 :: n :: r) : gnuPart (St.at (some x) p q j) = (.ok true, St.at (some x) p q j) := by
  unfold gnuPart
  rw [bind_run, rest_run]
  simp only
  by_cases h4 : (q.length : Int) < 4
  · rw [if_pos h4]; rfl
  · rw [if_neg h4]
    obtain ⟨a, b, c, d, r, rfl⟩ : ∃ a b c d r, q = a :: b :: c :: d :: r := by
      match q, h4 with
      | a :: b :: c :: d :: r, _ => exact ⟨a, b, c, d, r, rfl⟩
      | [], h => simp at h
      | [_], h => simp at h
      | [_, _], h => simp at h
      | [_, _, _], h => simp at h
    have h' : P.readBytes 3 (St.at (some x) p (a :: b :: c :: d :: r) j) = (.ok [a, b, c], St.at (some x) (p ++ [a, b, c]) (d :: r) j) :=
      readBytes_append (some x) p [a, b, c] (d :: r) j
    rw [bind_run, h']
    simp only
    rw [if_neg]
    · have h2 : P.seek (-3) 1 (St.at (some x) (p ++ [a, b, c]) (d :: r) j) = (.ok (p.length : Int), St.at (some x) p (a :: b :: c :: d :: r) j) := by
        unfold P.seek
        rw [St.at_rd]
        have := rd_seekBack p [a, b, c] (d :: r)
        simp only [List.length_cons, List.length_nil] at this
        rw [show (-3 : Int) = -((0 + 1 + 1 + 1 : Nat) : Int) by decide]
        rw [List.length_append, List.length_cons, List.length_cons, List.length_cons, List.length_nil]
        rw [List.length_append, List.length_cons, List.length_cons, List.length_cons, List.length_nil] at this
        rw [this]
        simp [St.at]
      rw [bind_run, h2]; rfl
    · intro he
      simp only [List.cons.injEq, and_true] at he
      obtain ⟨rfl, rfl, rfl⟩ := he
      exact hq ⟨d, r, rfl⟩

theorem gnuPart_lang : Lang gnuPart (fun b f q => S2KSpec b (101 :: f) q) := by
  constructor
  · intro x p post j b s hs
    by_cases hq : ∃ n r, post = 0x47 :: 0x4e :: 0x55 :: n :: r
    · obtain ⟨n, r, rfl⟩ := hq
      rw [gnuPart_yes] at hs
      obtain ⟨f, q, x', j', rfl, ⟨rfl, hl⟩, rfl⟩ := (gnuCard_lang n).sound _ _ _ _ _ _ hs
      refine ⟨0x47 :: 0x4e :: 0x55 :: n :: f, q, x', j', rfl, ?_, by simp⟩
      by_cases hn : n = 2
      · rw [if_pos hn] at hl; subst hn; exact .card hl
      · rw [if_neg hn] at hl; subst hl; exact .gnu hn
    · rw [gnuPart_no _ _ _ _ hq] at hs
      simp only [Prod.mk.injEq, Res.ok.injEq] at hs
      obtain ⟨rfl, rfl⟩ := hs
      exact ⟨[], post, x, j, rfl, .notGnu hq, by simp⟩
  · intro x p j b f q h
    generalize hg : (101 : UInt8) :: f = g at h
    cases h with
    | @gnu n _ hn =>
      cases hg
      obtain ⟨x', j', h1⟩ := (gnuCard_lang n).complete x (p ++ [0x47, 0x4e, 0x55, n]) j false [] q ⟨rfl, by rw [if_neg hn]⟩
      refine ⟨x', j', ?_⟩
      have := gnuPart_yes x p n q j
      simp only [List.cons_append, List.nil_append]
      rw [this]
      simpa using h1
    | @card f' _ hc =>
      cases hg
      obtain ⟨x', j', h1⟩ := (gnuCard_lang 2).complete x (p ++ [0x47, 0x4e, 0x55, 2]) j false f' q ⟨rfl, by rw [if_pos rfl]; exact hc⟩
      refine ⟨x', j', ?_⟩
      have := gnuPart_yes x p 2 (f' ++ q) j
      simp only [List.cons_append]
      rw [this]
      simpa using h1
    | notGnu hq =>
      cases hg
      refine ⟨x, j, ?_⟩
      rw [List.nil_append, gnuPart_no _ _ _ _ hq]; simp
    | other ht => cases hg; simp at ht
    | simple => cases hg
    | salted _ => cases hg
    | iterated _ => cases hg

theorem s2kPlain (ss : UInt8) (d : Bool) : Lang (do
      let hashid ← P.readByte
      P.add (hashItem hashid d)
      if ss ≠ 0x00 then
        let salt ← P.readBytes 8
        P.add (saltItem salt true)
      else Pure.pure ()
      if ss = 0x03 then
        let ct ← P.readByte
        P.add (stretchItem ct)
      else Pure.pure ()
      return true : P Bool)
    (fun b f _ => b = true ∧ ∃ h f1 f2, f = h :: (f1 ++ f2) ∧ f1.length = (if ss ≠ 0 then 8 else 0) ∧ f2.length = (if ss = 3 then 1 else 0)) := by
  refine (byte (L := fun h b f _ => b = true ∧ ∃ f1 f2, f = f1 ++ f2 ∧ f1.length = (if ss ≠ 0 then 8 else 0) ∧ f2.length = (if ss = 3 then 1 else 0))
    fun h => skip (.add _) fun _ => ?_).congr fun b f q => ?_
  · simp only
    have h2 : Lang (if ss = 3 then do
          let ct ← P.readByte
          let _ ← P.add (stretchItem ct)
          Pure.pure true
        else Pure.pure true) (fun b f _ => b = true ∧ f.length = (if ss = 3 then 1 else 0)) := by
      split
      · refine (byte fun c => skip (.add _) fun _ => pure true).congr fun b f q => ?_
        constructor
        · rintro ⟨c, f', rfl, rfl, rfl⟩; exact ⟨rfl, rfl⟩
        · rintro ⟨rfl, h⟩
          obtain ⟨c, rfl⟩ := List.length_eq_one_iff.mp h
          exact ⟨c, [], rfl, rfl, rfl⟩
      · exact (pure true).congr fun b f q => by rw [List.length_eq_zero_iff]
    split
    · refine (bytes 8 fun c => skip (.add _) fun _ => h2).congr fun b f q => ?_
      constructor
      · rintro ⟨f1, f2, rfl, h8, rfl, hf⟩; exact ⟨rfl, f1, f2, rfl, h8, hf⟩
      · rintro ⟨rfl, f1, f2, rfl, h8, hf⟩; exact ⟨f1, f2, rfl, h8, rfl, hf⟩
    · refine h2.congr fun b f q => ?_
      constructor
      · rintro ⟨rfl, hf⟩; exact ⟨rfl, [], f, rfl, rfl, hf⟩
      · rintro ⟨rfl, f1, f2, rfl, h8, hf⟩
        rw [List.length_eq_zero_iff.mp h8]; exact ⟨rfl, hf⟩
  · constructor
    · rintro ⟨h, f', rfl, rfl, f1, f2, rfl, hf⟩; exact ⟨rfl, h, f1, f2, rfl, hf⟩
    · rintro ⟨rfl, h, f1, f2, rfl, hf⟩; exact ⟨h, _, rfl, rfl, f1, f2, rfl, hf⟩

theorem s2kParse (d) : Lang (s2kParse d) S2KSpec := by
  unfold Gpgpdump.s2kParse
  refine (byte (L := fun ss b f q => S2KSpec b (ss :: f) q) fun ss => nested _ ?_).congr ?_
  · by_cases h0 : ss = 0 ∨ ss = 1 ∨ ss = 3
    · rw [if_pos h0]
      refine (s2kPlain ss d).congr fun b f q => ?_
      constructor
      · rintro ⟨rfl, h, f1, f2, rfl, hf1, hf2⟩
        rcases h0 with rfl | rfl | rfl
        · have e1 : f1 = [] := List.length_eq_zero_iff.mp hf1
          have e2 : f2 = [] := List.length_eq_zero_iff.mp hf2
          subst e1; subst e2; exact .simple
        · have e2 : f2 = [] := List.length_eq_zero_iff.mp hf2
          subst e2; rw [List.append_nil]; exact .salted hf1
        · obtain ⟨c, rfl⟩ := List.length_eq_one_iff.mp hf2
          exact .iterated hf1
      · intro h
        cases h with
        | simple => exact ⟨rfl, _, [], [], rfl, rfl, rfl⟩
        | salted h => exact ⟨rfl, _, _, [], by rw [List.append_nil], h, rfl⟩
        | iterated h => exact ⟨rfl, _, _, [_], rfl, h, rfl⟩
        | gnu => simp at h0
        | card => simp at h0
        | notGnu => simp at h0
        | other h => exfalso; apply h; rcases h0 with rfl | rfl | rfl <;> decide
    · rw [if_neg h0]
      by_cases h1 : ss = 101
      · subst h1
        rw [if_pos rfl]
        exact gnuPart_lang
      · rw [if_neg h1]
        refine (pure true).congr fun b f q => ?_
        constructor
        · rintro ⟨rfl, rfl⟩; exact .other (by simp [h1]; simpa using h0)
        · intro h
          cases h with
          | other _ => exact ⟨rfl, rfl⟩
          | simple => simp at h0
          | salted => simp at h0
          | iterated => simp at h0
          | gnu => simp at h1
          | card => simp at h1
          | notGnu => simp at h1
  · intro b f q
    constructor
    · rintro ⟨ss, f', rfl, h⟩; exact h
    · intro h
      cases f with
      | nil => cases h
      | cons ss f' => exact ⟨ss, f', rfl, h⟩

end Lang
end Gpgpdump
