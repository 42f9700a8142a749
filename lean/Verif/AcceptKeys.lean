import Verif.AcceptFields

/-!
# Which octets the key parsers accept
-/

namespace Gpgpdump
open P Spec

variable (X : Ext)

namespace Lang

theorem time {β} {u : Bool} {g : DateTime → P β} {L : β → Bytes → Bytes → Prop} (h : ∀ a, Lang (g a) L) :
    Lang (Gpgpdump.newDateTime u >>= g) (fun b f q => ∃ tm f', f = tm ++ f' ∧ tm.length = 4 ∧ L b f' q) :=
  ((newDateTime u).bind h).congr fun b f q => by
    constructor
    · rintro ⟨a, f1, f2, rfl, ⟨h4, -⟩, h⟩; exact ⟨f1, f2, rfl, h4, h⟩
    · rintro ⟨tm, f', rfl, h4, h⟩; exact ⟨_, tm, f', rfl, ⟨h4, rfl⟩, h⟩

theorem pubkeyTime : Lang (pubkeyTime X) (fun _ f _ => f.length = 4) := by
  unfold Gpgpdump.pubkeyTime
  refine (skip (.flag _) fun u => time fun t => skip (.setKeyTime _) fun _ => skip (.flag _) fun _ => idle (.add _)).congr fun _ f q => ?_
  constructor
  · rintro ⟨tm, f', rfl, h, rfl⟩; simpa using h
  · intro h; exact ⟨f, [], by simp, h, rfl⟩

theorem ver_cases (v : UInt8) : (v = 5 ∧ (pubVer v).isDraft = true) ∨ (v = 4 ∧ (pubVer v).isDraft = false ∧ (pubVer v).isCurrent = true) ∨
    (v = 3 ∧ (pubVer v).isDraft = false ∧ (pubVer v).isCurrent = false ∧ ((pubVer v).isOld && (pubVer v).ver == 3) = true) ∨
    (v ∉ [3, 4, 5] ∧ (pubVer v).isDraft = false ∧ (pubVer v).isCurrent = false ∧ ((pubVer v).isOld && (pubVer v).ver == 3) = false) := by
  have : ∀ i : Fin 256, let v := UInt8.ofNat i.val; (v = 5 ∧ (pubVer v).isDraft = true) ∨ (v = 4 ∧ (pubVer v).isDraft = false ∧ (pubVer v).isCurrent = true) ∨
    (v = 3 ∧ (pubVer v).isDraft = false ∧ (pubVer v).isCurrent = false ∧ ((pubVer v).isOld && (pubVer v).ver == 3) = true) ∨
    (v ∉ [3, 4, 5] ∧ (pubVer v).isDraft = false ∧ (pubVer v).isCurrent = false ∧ ((pubVer v).isOld && (pubVer v).ver == 3) = false) := by decide +kernel
  have := this ⟨v.toNat, v.toNat_lt⟩
  simpa using this

/-- octets with a four-octet length in front -/
theorem sized4 {b : Bytes} {sz : Bytes} (h : sz.length = 4) (hb : b.length = beNat sz) : b.length < 2 ^ 32 ∧ sz = beOctets 4 b.length := by
  have := beNat_lt sz
  rw [h] at this
  refine ⟨by omega, ?_⟩
  rw [hb, ← h, beOctets_beNat]

theorem beNat4 {n : Nat} (h : n < 2 ^ 32) : beNat (beOctets 4 n) = n := beNat_beOctets 4 n (by simpa using h)

theorem pubkeyParse (v : UInt8) : Lang (pubkeyParse X (pubVer v)) (fun a f q => PubPart v a f q) := by
  unfold Gpgpdump.pubkeyParse
  rcases ver_cases v with ⟨rfl, h⟩ | ⟨rfl, h, h'⟩ | ⟨rfl, h, h', h''⟩ | ⟨hv, h, h', h''⟩ <;> simp only [h]
  · rw [if_pos trivial]
    have hr : ∀ (a : UInt8) (b : Bytes), Lang (do let _ ← P.onReader (Reader.new b) (Gpgpdump.parsePub a); return a)
        (fun a' f _ => a' = a ∧ f = [] ∧ ∃ g r, b = g ++ r ∧ PubFields a g r) := by
      intro a b
      refine ((onReader b (parsePub a)).bind fun _ => pure a).congr fun a' f q => ?_
      constructor
      · rintro ⟨u, f6, f7, rfl, ⟨rfl, g, r, rfl, hp, -⟩, rfl, rfl⟩; exact ⟨rfl, rfl, g, r, rfl, hp⟩
      · rintro ⟨rfl, rfl, g, r, rfl, hp⟩; exact ⟨((), _), [], [], rfl, ⟨rfl, g, r, rfl, hp, rfl⟩, rfl, rfl⟩
    refine (seq (pubkeyTime X) (byte fun a => skip (.flag _) fun _ => skip (.add _) fun _ => bytes 4 fun sz => bytes (beNat sz) fun b =>
      hr a b)).congr fun a f q => ?_
    constructor
    · rintro ⟨tm, f2, rfl, h4, a', f3, rfl, sz, f4, rfl, hsz, b, f5, rfl, hb, rfl, rfl, g, r, rfl, hp⟩
      obtain ⟨hl, rfl⟩ := sized4 hsz hb
      simp only [List.append_nil]
      exact .v5 h4 hl hp
    · intro h
      cases h with
      | @v5 tm _ f' g _ ht hl h =>
        refine ⟨tm, _, rfl, ht, a, _, rfl, _, _, rfl, by simp, f' ++ g, [], by simp, (beNat4 hl).symm, rfl, rfl, f', g, rfl, h⟩
      | other hv => simp at hv
  · rw [if_neg (by decide), h', if_pos rfl]
    refine (seq (pubkeyTime X) (byte fun a => skip (.flag _) fun _ => skip (.add _) fun _ => seq (parsePub a) (pure a))).congr fun a f q => ?_
    constructor
    · rintro ⟨tm, f2, rfl, h4, a', f3, rfl, f4, f5, rfl, hp, rfl, rfl⟩
      simp only [List.append_nil]
      exact .v4 h4 hp
    · intro h
      cases h with
      | @v4 tm _ f' _ ht h => exact ⟨tm, _, rfl, ht, a, _, rfl, f', [], by simp, h, rfl, rfl⟩
      | other hv => simp at hv
  · rw [if_neg (by decide), h', if_neg (by decide), if_pos (by decide)]
    refine (seq (pubkeyTime X) (bytes 2 fun d => skip (.add _) fun _ => byte fun a => skip (.flag _) fun _ => skip (.add _) fun _ =>
      seq (parsePub a) (pure a))).congr fun a f q => ?_
    constructor
    · rintro ⟨tm, f2, rfl, h4, d, fd, rfl, hd, a', f3, rfl, f4, f5, rfl, hp, rfl, rfl⟩
      simp only [List.append_nil]
      exact .v3 h4 hd hp
    · intro h
      cases h with
      | @v3 tm d _ f' _ ht hd h => exact ⟨tm, _, rfl, ht, d, _, rfl, hd, a, _, rfl, f', [], by simp, h, rfl, rfl⟩
      | other hv => simp at hv
  · rw [if_neg (by decide), h', if_neg (by decide), h'', if_neg (by decide)]
    refine (pure _).congr fun a f q => ?_
    constructor
    · rintro ⟨rfl, rfl⟩; exact .other hv
    · intro h
      cases h with
      | other _ => exact ⟨rfl, rfl⟩
      | v3 => simp at hv
      | v4 => simp at hv
      | v5 => simp at hv

theorem secOptions (u : UInt8) : Lang (secOptions u) (fun a f q => SecOptions u a.1 a.2 f q) := by
  unfold Gpgpdump.secOptions
  refine skip (.flag _) fun d => ?_
  by_cases h0 : u = 0
  · subst h0
    rw [if_neg (by decide)]
    refine Lang.congr (L := fun a f _ => ∃ c f1 f2, f = f1 ++ f2 ∧ (c = (0 : UInt8) ∧ f1 = []) ∧ (a = (c, false) ∧ f2 = []))
      ((pure 0).bind fun c => ?_) ?_
    · simp only
      rw [if_neg (by decide), if_pos trivial]
      exact pure _
    · rintro ⟨c, iv⟩ f q
      constructor
      · rintro ⟨c', f1, f2, rfl, ⟨rfl, rfl⟩, h, rfl⟩
        cases h; exact .plain
      · intro h
        cases h with
        | plain => exact ⟨0, [], [], rfl, ⟨rfl, rfl⟩, rfl, rfl⟩
        | s2k hu => simp at hu
        | cipher hu => simp at hu
  · rw [if_pos h0]
    have h1 : Lang (do
        let alg ← P.readByte
        P.add (symItem alg d)
        return alg) (fun c f _ => f = [c]) := by
      refine (byte fun alg => skip (.add _) fun _ => pure alg).congr fun c f q => ?_
      constructor
      · rintro ⟨b, f', rfl, rfl, rfl⟩; rfl
      · rintro rfl; exact ⟨c, [], rfl, rfl, rfl⟩
    have h2 : ∀ c, Lang (do
          let hasIV ← Gpgpdump.s2kParse d
          return (c, hasIV)) (fun (a : UInt8 × Bool) f q => a.1 = c ∧ S2KSpec a.2 f q) := by
      intro c
      refine ((s2kParse d).bind fun iv => pure (c, iv)).congr ?_
      rintro ⟨c', iv⟩ f q
      constructor
      · rintro ⟨iv', f1, f2, rfl, h, h', rfl⟩
        cases h'; exact ⟨rfl, by simpa using h⟩
      · rintro ⟨rfl, h⟩; exact ⟨iv, f, [], by simp, by simpa using h, rfl, rfl⟩
    by_cases h253 : u = 253
    · subst h253
      refine (h1.bind (L' := fun c (a : UInt8 × Bool) f q => ∃ b f', f = b :: f' ∧ a.1 = c ∧ S2KSpec a.2 f' q) fun c => ?_).congr ?_
      · simp only
        rw [if_pos trivial]
        refine byte fun b => skip (.add _) fun _ => ?_
        rw [if_neg (by decide), if_pos (by decide)]
        exact h2 c
      · rintro ⟨c, iv⟩ f q
        constructor
        · rintro ⟨c', f1, f2, rfl, rfl, a, f3, rfl, rfl, h⟩; exact .aead h
        · intro h
          cases h with
          | @aead _ a _ f' _ h => exact ⟨c, [c], a :: f', rfl, rfl, a, f', rfl, rfl, h⟩
          | s2k hu => simp at hu
          | cipher hu => simp at hu
    · by_cases hs : u = 254 ∨ u = 255
      · refine (h1.bind (L' := fun c (a : UInt8 × Bool) f q => a.1 = c ∧ S2KSpec a.2 f q) fun c => ?_).congr ?_
        · simp only
          rw [if_neg h253, if_neg h0, if_pos (.inr hs)]
          exact h2 c
        · rintro ⟨c, iv⟩ f q
          constructor
          · rintro ⟨c', f1, f2, rfl, rfl, rfl, h⟩; exact .s2k hs h
          · intro h
            cases h with
            | @s2k _ _ _ f' _ _ h => exact ⟨c, [c], f', rfl, rfl, rfl, h⟩
            | aead => simp at h253
            | plain => simp at h0
            | cipher hu => exfalso; apply hu; rcases hs with rfl | rfl <;> decide
      · refine (h1.bind (L' := fun c (a : UInt8 × Bool) f _ => a = (c, true) ∧ f = []) fun c => ?_).congr ?_
        · simp only
          rw [if_neg h253, if_neg h0, if_neg (by rintro (h | h); exact h253 h; exact hs h)]
          exact pure _
        · rintro ⟨c, iv⟩ f q
          constructor
          · rintro ⟨c', f1, f2, rfl, rfl, h, rfl⟩
            cases h
            refine .cipher ?_
            simp only [List.mem_cons, List.not_mem_nil, or_false, not_or]
            exact ⟨h0, h253, fun h => hs (.inl h), fun h => hs (.inr h)⟩
          · intro h
            cases h with
            | cipher _ => exact ⟨c, [c], [], rfl, rfl, rfl, rfl⟩
            | s2k hu => exact (hs hu).elim
            | aead => simp at h253
            | plain => simp at h0

theorem symIVLen_eq (c : UInt8) : symIVLen c = blockSize c := rfl

theorem secIV (c : UInt8) (b : Bool) : Lang (secIV c b) (fun _ f _ => f.length = blockSize c) := by
  unfold Gpgpdump.secIV
  refine (then_idle (readBytes (symIVLen c)) fun _ => .add _).congr fun _ f q => ?_
  rw [symIVLen_eq]
  constructor
  · rintro ⟨a, rfl, h⟩; exact h
  · intro h; exact ⟨f, rfl, h⟩

theorem fieldRest (r) : Idle (fieldRest r) := by
  cases r with
  | none => exact .pure ()
  | some r => exact .ite (.bind (.flag _) fun _ => .add _) (.pure ())

/-- the initialization vector, if there is one -/
theorem ivPart (u c : UInt8) (iv : Bool) (r : Option Reader) :
    Lang (if u ≠ 0 ∧ iv = true then (do Gpgpdump.secIV c (u == 253); Gpgpdump.fieldRest r) else Gpgpdump.fieldRest r)
      (fun _ f _ => f.length = if u ≠ 0 ∧ iv = true then blockSize c else 0) := by
  split
  · refine (seq (secIV c _) (idle (fieldRest r))).congr fun _ f q => ?_
    constructor
    · rintro ⟨f1, f2, rfl, h, rfl⟩; simpa using h
    · intro h; exact ⟨f, [], by simp, h, rfl⟩
  · exact (idle (fieldRest r)).congr fun _ f q => List.length_eq_zero_iff.symm

/-- the options of a secret key together with the initialization vector -/
def OptIV (u : UInt8) (f q : Bytes) : Prop :=
  ∃ c iv f1 n, f = f1 ++ n ∧ SecOptions u c iv f1 (n ++ q) ∧ n.length = if u ≠ 0 ∧ iv = true then blockSize c else 0

theorem assoc {α β γ} (m : P α) (f : α → P β) (g : β → P γ) : (m >>= f) >>= g = m >>= fun a => f a >>= g := by
  funext st
  rw [bind_run, bind_run, bind_run]
  rcases m st with ⟨r, s⟩
  cases r <;> rfl

theorem pure_then {α β} (a : α) (g : α → P β) : (Pure.pure a : P α) >>= g = g a := rfl

/-- seckey.go:83-95 -/
def afterOptions (u : UInt8) (o : (UInt8 × Bool) × Option Reader) : P Unit :=
  if u ≠ 0 ∧ o.1.2 = true then (do Gpgpdump.secIV o.1.1 (u == 253); Gpgpdump.fieldRest o.2) else Gpgpdump.fieldRest o.2

theorem secField1_eq (v : Version) (u : UInt8) : secField1 v u = (do
    match ← getField1 v with
    | .absent => Pure.pure ()
    | f => do
      let o ← onField f (Gpgpdump.secOptions u)
      afterOptions u o) := by
  unfold Gpgpdump.secField1
  congr 1

theorem secField1_shared (v u : UInt8) (hv : v ≠ 5) : Lang (secField1 (pubVer v) u) (fun _ => OptIV u) := by
  rw [secField1_eq]
  have h : getField1 (pubVer v) = Pure.pure .shared := by
    unfold getField1
    exact if_neg hv
  rw [h, pure_then]
  simp only [onField, assoc, pure_then]
  refine ((secOptions u).bind fun a => ivPart u a.1 a.2 none).congr fun _ f q => ?_
  constructor
  · rintro ⟨a, f1, f2, rfl, h1, h2⟩; exact ⟨a.1, a.2, f1, f2, rfl, h1, h2⟩
  · rintro ⟨c, iv, f1, f2, rfl, h1, h2⟩; exact ⟨(c, iv), f1, f2, rfl, h1, h2⟩

theorem secField1_own (u : UInt8) : Lang (secField1 (pubVer 5) u) (fun _ f _ => Options5 u f) := by
  rw [secField1_eq]
  have h : getField1 (pubVer 5) = (do
      let l ← P.readByte
      if l = 0 then return .absent
      else
        let b ← P.readBytes l.toNat
        return .own (Reader.new b)) := rfl
  rw [h, assoc]
  have hown : ∀ b : Bytes, Lang (do let o ← onField (.own (Reader.new b)) (Gpgpdump.secOptions u); afterOptions u o)
      (fun _ n _ => ∃ c iv f g, b = f ++ g ∧ SecOptions u c iv f g ∧ n.length = if u ≠ 0 ∧ iv = true then blockSize c else 0) := by
    intro b
    simp only [onField, assoc]
    refine ((onReader b (secOptions u)).bind fun a => ivPart u a.1.1 a.1.2 (some a.2)).congr fun _ n q => ?_
    constructor
    · rintro ⟨a, f1, f2, rfl, ⟨rfl, g, r, rfl, h1, -⟩, h2⟩; exact ⟨a.1.1, a.1.2, g, r, rfl, h1, h2⟩
    · rintro ⟨c, iv, f, g, rfl, h1, h2⟩; exact ⟨((c, iv), _), [], n, rfl, ⟨rfl, f, g, rfl, h1, rfl⟩, h2⟩
  refine (byte (L := fun l _ f _ => if l = 0 then f = [] else ∃ b n, f = b ++ n ∧ b.length = l.toNat ∧
    ∃ c iv f g, b = f ++ g ∧ SecOptions u c iv f g ∧ n.length = if u ≠ 0 ∧ iv = true then blockSize c else 0) fun l => ?_).congr fun _ f q => ?_
  · by_cases hl : l = 0
    · simp only [if_pos hl]
      exact idle (.pure ())
    · simp only [if_neg hl]
      rw [assoc]
      exact bytes l.toNat hown
  · constructor
    · rintro ⟨l, f', rfl, h⟩
      by_cases hl : l = 0
      · rw [if_pos hl] at h; subst hl; subst h; exact .none
      · rw [if_neg hl] at h
        obtain ⟨b, n, rfl, hb, c, iv, f, g, rfl, h1, h2⟩ := h
        have : l = UInt8.ofNat (f ++ g).length := (ofNat_eq hb).symm
        rw [this, List.append_assoc]
        refine .some (by rw [hb]; exact l.toNat_lt) ?_ h1 h2
        rintro h0
        rw [h0] at hb
        apply hl; apply UInt8.toNat_inj.mp; simpa using hb.symm
    · intro h
      cases h with
      | none => exact ⟨0, [], rfl, by rw [if_pos rfl]⟩
      | @some c iv f' g n hl h0 h hn =>
        refine ⟨_, _, rfl, ?_⟩
        rw [if_neg]
        · exact ⟨f' ++ g, n, by simp, (ofNat_toNat _ hl).symm, c, iv, f', g, rfl, h, hn⟩
        · intro h1
          apply h0
          have := congrArg UInt8.toNat h1
          rw [ofNat_toNat _ hl] at this
          exact List.length_eq_zero_iff.mp this

theorem secField2_shared0 (v a : UInt8) (hv : v ≠ 5) : Lang (secField2 (pubVer v) 0 a)
    (fun _ f q => ∃ f1 c, f = f1 ++ c ∧ SecFields a f1 (c ++ q) ∧ c.length = 2) := by
  unfold Gpgpdump.secField2
  have h : getField2 (pubVer v) = Pure.pure .shared := by
    unfold getField2
    exact if_neg hv
  rw [h, pure_then]
  simp only
  rw [if_pos trivial]
  refine skip (.setNote _) fun _ => ?_
  simp only [onField, assoc]
  refine ((parseSecPlain a).bind fun _ => then_idle (readBytes 2) fun c => .bind (.add _) fun _ => fieldRest none).congr fun _ f q => ?_
  constructor
  · rintro ⟨_, f1, f2, rfl, h1, c, rfl, h2⟩; exact ⟨f1, f2, rfl, h1, h2⟩
  · rintro ⟨f1, c, rfl, h1, h2⟩; exact ⟨(), f1, c, rfl, h1, c, rfl, h2⟩

theorem secField2_sharedEnc (v u a : UInt8) (hv : v ≠ 5) (hu : u ≠ 0) : Lang (secField2 (pubVer v) u a) (fun _ _ q => q = []) := by
  unfold Gpgpdump.secField2
  have h : getField2 (pubVer v) = Pure.pure .shared := by
    unfold getField2
    exact if_neg hv
  rw [h, pure_then]
  simp only
  rw [if_neg hu]
  refine skip (.setNote _) fun _ => ?_
  simp only [onField, assoc]
  refine ((parseSecEnc a).bind fun _ => idle (fieldRest none)).congr fun _ f q => ?_
  constructor
  · rintro ⟨_, f1, f2, rfl, h, rfl⟩; simpa using h
  · rintro rfl; exact ⟨(), f, [], by simp, rfl, rfl⟩

/-- what the tool reads of the key material of a version 5 key -/
def Mat5 (u a : UInt8) (f : Bytes) : Prop :=
  f = [0, 0, 0, 0] ∨ (∃ b c, f = beOctets 4 b.length ++ (b ++ c) ∧ b ≠ [] ∧ b.length < 2 ^ 32 ∧
    ((u ≠ 0 ∧ c = []) ∨ (u = 0 ∧ c.length = 2 ∧ ∃ f g, b = f ++ g ∧ SecFields a f g)))

theorem secField2_own (u a : UInt8) : Lang (secField2 (pubVer 5) u a) (fun _ f _ => Mat5 u a f) := by
  unfold Gpgpdump.secField2
  have h : getField2 (pubVer 5) = (do
      if (← Gpgpdump.rest) < 4 then P.panic .beShort
      else
        let l ← P.readBytes 4
        let ll := beNat l
        if ll = 0 then return .absent
        else
          let b ← P.readBytes ll
          return .own (Reader.new b)) := rfl
  rw [h, assoc]
  have hown : ∀ b : Bytes, Lang (if u = 0 then (do
        setNote (S "s2k usage 0; plain secret-key material")
        let (_, r) ← onField (.own (Reader.new b)) (Gpgpdump.parseSecPlain a)
        let chk ← P.readBytes 2
        P.add (newItem (S "2-octet checksum") [] [] (dumpBytes chk true))
        Gpgpdump.fieldRest r) else (do
        setNote (if u = 253 then S "s2k usage 253; encrypted secret-key material and AEAD authentication tag"
          else if u = 254 then S "s2k usage 254; encrypted secret-key material and 20-octet SHA-1 hash"
          else S "s2k usage " ++ dec u.toNat ++ S "; encrypted secret-key material and 2-octet checksum")
        let (_, r) ← onField (.own (Reader.new b)) (Gpgpdump.parseSecEnc a)
        Gpgpdump.fieldRest r))
      (fun _ c _ => (u ≠ 0 ∧ c = []) ∨ (u = 0 ∧ c.length = 2 ∧ ∃ f g, b = f ++ g ∧ SecFields a f g)) := by
    intro b
    by_cases hu : u = 0
    · rw [if_pos hu]
      refine skip (.setNote _) fun _ => ?_
      simp only [onField, assoc]
      refine ((onReader b (parseSecPlain a)).bind fun a => then_idle (readBytes 2) fun c => .bind (.add _) fun _ => fieldRest (some a.2)).congr fun _ f q => ?_
      constructor
      · rintro ⟨_, f1, f2, rfl, ⟨rfl, g, r, rfl, h1, -⟩, c, rfl, h2⟩; exact .inr ⟨hu, h2, g, r, rfl, h1⟩
      · rintro (⟨h, -⟩ | ⟨-, h2, g, r, rfl, h1⟩)
        · exact (h hu).elim
        · exact ⟨((), _), [], f, rfl, ⟨rfl, g, r, rfl, h1, rfl⟩, f, rfl, h2⟩
    · rw [if_neg hu]
      refine skip (.setNote _) fun _ => ?_
      simp only [onField, assoc]
      refine ((onReader b (parseSecEnc a)).bind fun a => idle (fieldRest (some a.2))).congr fun _ f q => ?_
      constructor
      · rintro ⟨_, f1, f2, rfl, ⟨rfl, g, r, rfl, h1, -⟩, rfl⟩; exact .inl ⟨hu, rfl⟩
      · rintro (⟨-, rfl⟩ | ⟨h, -⟩)
        · exact ⟨((), _), [], [], rfl, ⟨rfl, b, [], by simp, rfl, rfl⟩, rfl⟩
        · exact (hu h).elim
  refine (rest (L := fun n _ f _ => if n < 4 then False else Mat5 u a f) fun n => ?_).congr fun _ f q => ?_
  · by_cases hn : n < 4
    · simp only [if_pos hn]
      rw [if_pos (by omega)]
      exact (panic .beShort : Lang (P.panic .beShort : P Unit) _)
    · simp only [if_neg hn]
      rw [if_neg (by omega), assoc]
      refine (bytes 4 (L := fun sz _ f _ => if beNat sz = 0 then f = [] else ∃ b c, f = b ++ c ∧ b.length = beNat sz ∧
        ((u ≠ 0 ∧ c = []) ∨ (u = 0 ∧ c.length = 2 ∧ ∃ f g, b = f ++ g ∧ SecFields a f g))) fun sz => ?_).congr fun _ f q => ?_
      · by_cases hz : beNat sz = 0
        · simp only [if_pos hz]
          exact idle (.pure ())
        · simp only [if_neg hz]
          rw [assoc]
          exact bytes (beNat sz) hown
      · constructor
        · rintro ⟨sz, f', rfl, h4, h⟩
          by_cases hz : beNat sz = 0
          · rw [if_pos hz] at h
            left
            have : sz = beOctets 4 0 := by rw [← hz, ← h4, beOctets_beNat]
            rw [this, h]; rfl
          · rw [if_neg hz] at h
            obtain ⟨b, c, rfl, hb, hc⟩ := h
            obtain ⟨hl, rfl⟩ := sized4 h4 hb
            refine .inr ⟨b, c, rfl, ?_, hl, hc⟩
            rintro rfl
            apply hz; rw [← hb]; rfl
        · rintro (rfl | ⟨b, c, rfl, h0, hl, hc⟩)
          · exact ⟨[0, 0, 0, 0], [], rfl, rfl, by rw [if_pos (by decide)]⟩
          · refine ⟨_, _, rfl, by simp, ?_⟩
            rw [beNat4 hl, if_neg (by simpa using h0)]
            exact ⟨b, c, rfl, rfl, hc⟩
  · constructor
    · intro h
      split at h
      · exact h.elim
      · exact h
    · intro h
      rw [if_neg]
      · exact h
      · rcases h with rfl | ⟨b, c, rfl, -⟩
        · simp
        · simp

/-- a secret key behind the public key, as read -/
theorem seckeyParse (v a : UInt8) : Lang (seckeyParse (pubVer v) a) (fun _ f q => ∃ u f', f = u :: f' ∧
    if v = 5 then ∃ o m, f' = o ++ m ∧ Options5 u o ∧ Mat5 u a m
    else ∃ o m, f' = o ++ m ∧ OptIV u o (m ++ q) ∧ if u = 0 then ∃ f1 c, m = f1 ++ c ∧ SecFields a f1 (c ++ q) ∧ c.length = 2 else q = []) := by
  unfold Gpgpdump.seckeyParse
  by_cases hv : v = 5
  · subst hv
    simp only [if_pos]
    exact byte fun u => seq (secField1_own u) (secField2_own u a)
  · simp only [if_neg hv]
    refine byte fun u => ?_
    by_cases hu : u = 0
    · subst hu
      simp only [if_pos]
      exact seq (secField1_shared v 0 hv) (secField2_shared0 v a hv)
    · simp only [if_neg hu]
      exact seq (secField1_shared v u hv) (secField2_sharedEnc v u a hv hu)

end Lang

/-- the last step of a packet: "Unknown data" -/
theorem Oks.then_idle {α β} {m : P α} {L : α → Bytes → Bytes → Prop} {g : α → P β} (h : Lang m L) (h' : ∀ a, Idle (g a)) :
    Oks (m >>= g) (fun _ q => ∃ a f r, q = f ++ r ∧ L a f r) :=
  (Oks.bind h fun a => Oks.idle (h' a)).congr fun p q => by simp

theorem Oks.byte {β} {g : UInt8 → P β} {A : UInt8 → Bytes → Bytes → Prop} (h : ∀ b, Oks (g b) (A b)) :
    Oks (P.readByte >>= g) (fun p q => ∃ b r, q = b :: r ∧ A b (p ++ [b]) r) :=
  (Oks.bind Lang.readByte h).congr fun p q => by
    constructor
    · rintro ⟨b, f, r, rfl, rfl, h⟩; exact ⟨b, r, rfl, h⟩
    · rintro ⟨b, r, rfl, h⟩; exact ⟨b, [b], r, rfl, rfl, h⟩

theorem secret_iff {v a : UInt8} {s : Bytes} : (∃ f r, s = f ++ r ∧ ∃ u f', f = u :: f' ∧
      if v = 5 then ∃ o m, f' = o ++ m ∧ Options5 u o ∧ Lang.Mat5 u a m
      else ∃ o m, f' = o ++ m ∧ Lang.OptIV u o (m ++ r) ∧ if u = 0 then ∃ f1 c, m = f1 ++ c ∧ SecFields a f1 (c ++ r) ∧ c.length = 2 else r = []) ↔
    if v = 5 then SecretPart5 a s else SecretPart a s := by
  by_cases hv : v = 5
  · simp only [if_pos hv]
    constructor
    · rintro ⟨f, r, rfl, u, f', rfl, o, m, rfl, ho, hm⟩
      rw [List.cons_append, List.append_assoc]
      refine .mk ho ?_
      rcases hm with rfl | ⟨b, c, rfl, h0, hl, ⟨hu, rfl⟩ | ⟨rfl, hc, f, g, rfl, h⟩⟩
      · exact .none
      · rw [List.append_nil, List.append_assoc]; exact .encrypted hu h0 hl
      · match c, hc with
        | [c0, c1], _ =>
          simp only [List.append_assoc, List.cons_append, List.nil_append]
          exact .plain h0 hl h
    · intro h
      cases h with
      | @mk u o m ho hm =>
        cases hm with
        | @none _ _ rest => exact ⟨u :: (o ++ [0, 0, 0, 0]), rest, by simp, u, _, rfl, o, _, rfl, ho, .inl rfl⟩
        | @encrypted _ _ b rest hu h0 hl =>
          exact ⟨u :: (o ++ (beOctets 4 b.length ++ b)), rest, by simp, u, _, rfl, o, _, rfl, ho, .inr ⟨b, [], by simp, h0, hl, .inl ⟨hu, rfl⟩⟩⟩
        | @plain _ f g c0 c1 rest h0 hl h =>
          exact ⟨0 :: (o ++ (beOctets 4 (f ++ g).length ++ ((f ++ g) ++ [c0, c1]))), rest, by simp, 0, _, rfl, o, _, rfl, ho,
            .inr ⟨f ++ g, [c0, c1], rfl, h0, hl, .inr ⟨rfl, rfl, f, g, rfl, h⟩⟩⟩
  · simp only [if_neg hv]
    constructor
    · rintro ⟨f, r, rfl, u, f', rfl, o, m, rfl, ⟨c, iv, f1, n, rfl, ho, hn⟩, hm⟩
      by_cases hu : u = 0
      · rw [if_pos hu] at hm
        subst hu
        obtain ⟨f2, ck, rfl, hs, h2⟩ := hm
        have hn' : n = [] := List.length_eq_zero_iff.mp (by rw [hn, if_neg (by simp)])
        subst hn'
        match ck, h2 with
        | [c0, c1], _ =>
          cases ho with
          | plain => simpa using SecretPart.plain hs
          | s2k hu => simp at hu
          | cipher hu => simp at hu
      · rw [if_neg hu] at hm
        subst hm
        have := SecretPart.encrypted (a := a) (rest := m) hu (by simpa using ho) (by simpa [hu] using hn)
        simpa using this
    · intro h
      cases h with
      | @plain f c0 c1 rest h =>
        exact ⟨0 :: (f ++ [c0, c1]), rest, by simp, 0, _, rfl, [], _, rfl, ⟨0, false, [], [], rfl, .plain, by simp⟩, by
          rw [if_pos rfl]; exact ⟨f, [c0, c1], rfl, h, rfl⟩⟩
      | @encrypted u c iv f n rest hu h hn =>
        exact ⟨u :: (f ++ (n ++ rest)), [], by simp, u, _, rfl, f ++ n, rest, by simp, ⟨c, iv, f, n, rfl, by simpa using h, by simpa [hu] using hn⟩, by
          rw [if_neg hu]⟩

theorem Oks.tag05 : Oks (tag05 X) (fun _ q => ∃ v a f s, q = v :: (f ++ s) ∧ PubPart v a f s ∧ if v = 5 then SecretPart5 a s else SecretPart a s) := by
  unfold Gpgpdump.tag05
  refine (Oks.byte fun v => Oks.skip (.flag _) fun _ => Oks.skip (.add _) fun _ => Oks.bind (Lang.nested _ (Lang.pubkeyParse X v)) fun a =>
    Oks.then_idle (Lang.nested _ (Lang.seckeyParse v a)) fun _ => .unknownData).congr fun p q => ?_
  constructor
  · rintro ⟨v, r, rfl, a, f, s, rfl, h, _, f', r', hs, h'⟩
    exact ⟨v, a, f, s, rfl, h, secret_iff.mp ⟨f', r', hs, h'⟩⟩
  · rintro ⟨v, a, f, s, rfl, h, h'⟩
    obtain ⟨f', r', hs, h'⟩ := secret_iff.mpr h'
    exact ⟨v, _, rfl, a, f, s, rfl, h, (), f', r', hs, h'⟩

theorem Oks.tag06 : Oks (tag06 X) (fun _ q => ∃ v a f s, q = v :: (f ++ s) ∧ PubPart v a f s) := by
  unfold Gpgpdump.tag06
  refine (Oks.byte fun v => Oks.skip (.flag _) fun _ => Oks.skip (.add _) fun _ => Oks.then_idle (Lang.pubkeyParse X v) fun _ => .unknownData).congr fun p q => ?_
  constructor
  · rintro ⟨v, r, rfl, a, f, s, rfl, h⟩; exact ⟨v, a, f, s, rfl, h⟩
  · rintro ⟨v, a, f, s, rfl, h⟩; exact ⟨v, _, rfl, a, f, s, rfl, h⟩

end Gpgpdump
