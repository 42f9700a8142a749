import Verif.CutKeys
import Verif.FailKeys

/-!
# What is shown of secret keys that end too early
-/

namespace Gpgpdump
open P Spec

namespace Spec

variable (o : OptCode → Bool)

/-- the fields of a secret key between the usage octet and the initialization vector, the last of them cut off -/
inductive OptionsCutRows : UInt8 → Bytes → List Item → Prop
  | cipher {u} (hu : u ≠ 0) : OptionsCutRows u [] []
  | mode {c} : OptionsCutRows 253 [c] [symRow o c]
  | type {u c} (hu : u = 254 ∨ u = 255) : OptionsCutRows u [c] [symRow o c]
  | s2k {u c q i} (hu : u = 254 ∨ u = 255) (h : S2KCutRow o q i) : OptionsCutRows u (c :: q) [symRow o c, i]
  | aeadType {c a} : OptionsCutRows 253 [c, a] [symRow o c, aeadRow o a]
  | aead {c a q i} (h : S2KCutRow o q i) : OptionsCutRows 253 (c :: a :: q) [symRow o c, aeadRow o a, i]

/-- the part of a secret key behind the public key, versions other than 5: note and rows of its item -/
inductive SecretCutRows : UInt8 → Bytes → Str → List Item → Prop
  | usage {a} : SecretCutRows a [] [] []
  | options {a u q is} (h : OptionsCutRows o u q is) : SecretCutRows a (u :: q) [] is
  | iv {a u c f q is} (hu : u ≠ 0) (ho : OptionsShown o u c true f q is) (hq : q.length < blockSize c) : SecretCutRows a (u :: (f ++ q)) [] is
  | material {a ss q is} (hs : secSlots a = some ss) (h : FieldsCut o ss q is) : SecretCutRows a (0 :: q) (usageNote 0) is
  | unknown {a} (hs : secSlots a = none) : SecretCutRows a [0] (usageNote 0) []
  | checksum {a f q is} (h : SecretInts o a f q is) (hq : q.length < 2) : SecretCutRows a (0 :: (f ++ q)) (usageNote 0) is

/-- the same as `SecretCutRows` for version 5 -/
inductive Secret5CutRows : UInt8 → Bytes → Str → List Item → Prop
  | usage {a} : Secret5CutRows a [] [] []
  | count {a u} : Secret5CutRows a [u] [] []
  | short {a u n q} (hq : q.length < UInt8.toNat n) : Secret5CutRows a (u :: n :: q) [] []
  | options {a u b q is} (hl : b.length < 256) (h0 : b ≠ []) (h : OptionsCutRows o u b is) :
      Secret5CutRows a (u :: UInt8.ofNat b.length :: (b ++ q)) [] is
  | iv {a u c f g q is} (hl : (f ++ g).length < 256) (hu : u ≠ 0) (ho : OptionsShown o u c true f g is) (hq : q.length < blockSize c) :
      Secret5CutRows a (u :: UInt8.ofNat (f ++ g).length :: (f ++ (g ++ q))) [] is
  | data {a u f is n q} (ho : Options5Shown o u f is) (hn : n < 2 ^ 32) (hq : q.length < n) : Secret5CutRows a (u :: (f ++ (beOctets 4 n ++ q))) [] is
  | material {a ss f is b q js} (ho : Options5Shown o 0 f is) (h0 : b ≠ []) (hl : b.length < 2 ^ 32) (hs : secSlots a = some ss) (h : FieldsCut o ss b js) :
      Secret5CutRows a (0 :: (f ++ (beOctets 4 b.length ++ (b ++ q)))) (usageNote 0) (is ++ js)
  | checksum {a f is g r q js} (ho : Options5Shown o 0 f is) (h0 : g ++ r ≠ []) (hl : (g ++ r).length < 2 ^ 32) (h : SecretInts o a g r js) (hq : q.length < 2) :
      Secret5CutRows a (0 :: (f ++ (beOctets 4 (g ++ r).length ++ (g ++ (r ++ q))))) (usageNote 0) (is ++ js)

end Spec

variable {o : OptCode → Bool}

namespace Cuts

theorem secOptions (u : UInt8) : Cuts o (secOptions u) (OptionsCutRows o u) := by
  unfold Gpgpdump.secOptions
  refine debug ?_
  by_cases h0 : u = 0
  · subst h0
    rw [if_neg (by simp), Lang.pure_then, if_neg (by decide), if_pos rfl]
    exact pure
  · rw [if_pos h0, bind_assoc_P]
    refine byte (.cipher h0) fun c => ?_
    rw [bind_assoc_P]
    refine add ?_
    rw [Lang.pure_then, symItem_eq]
    by_cases h253 : u = 253
    · subst h253
      simp only
      rw [if_pos trivial]
      refine byte .mode fun a => add ?_
      rw [if_neg (by decide), if_pos (by decide), aeadItem_eq]
      refine quiet (s2kParse.mono fun q l => ?_) fun _ _ _ _ h => by cases h
      rintro (⟨rfl, rfl⟩ | ⟨i, rfl, h⟩)
      · exact .aeadType
      · exact .aead h
    · simp only
      rw [if_neg h253, if_neg h0]
      by_cases hs : u = 254 ∨ u = 255
      · rw [if_pos (.inr hs)]
        refine quiet (s2kParse.mono fun q l => ?_) fun _ _ _ _ h => by cases h
        rintro (⟨rfl, rfl⟩ | ⟨i, rfl, h⟩)
        · exact .type hs
        · exact .s2k hs h
      · rw [if_neg (by rintro (h | h); exact h253 h; exact hs h)]
        exact pure

theorem firm {α} {m : P α} {F : Bytes → List Item → Prop} (h : Firm m) : Cuts o m F := fun x p q j e s _ hr =>
  ((h.run x p q j e.cause).mp ⟨e, s, hr, rfl⟩).elim

theorem fieldRest {r : Option Reader} {F : Bytes → List Item → Prop} : Cuts o (Gpgpdump.fieldRest r) F := by
  cases r with
  | none => exact pure
  | some r =>
    unfold Gpgpdump.fieldRest
    simp only
    split
    · exact debug lastAdd
    · exact pure

theorem readByte {F : Bytes → List Item → Prop} (h0 : F [] []) : Cuts o readByte F := by
  intro x p q j e s hx hr
  exact byte (g := Pure.pure) h0 (fun _ => pure) x p q j e s hx (by rw [bind_run, hr])

/-- the initialization vector is cut off -/
theorem afterOptions (u : UInt8) (a : (UInt8 × Bool) × Option Reader) :
    Cuts o (Lang.afterOptions u a) (fun q l => u ≠ 0 ∧ a.1.2 = true ∧ q.length < blockSize a.1.1 ∧ l = []) := by
  unfold Lang.afterOptions
  split
  · rename_i h
    unfold Gpgpdump.secIV
    rw [bind_assoc_P]
    exact bytes _ (fun q hq => ⟨h.1, h.2, hq, rfl⟩) fun n _ => add fieldRest
  · exact fieldRest

theorem secField1_shared (v u : UInt8) (hv : v ≠ 5) : Cuts o (secField1 (pubVer v) u) (fun q l => OptionsCutRows o u q l ∨
    ∃ c f r, q = f ++ r ∧ u ≠ 0 ∧ OptionsShown o u c true f r l ∧ r.length < blockSize c) := by
  rw [Lang.secField1_eq]
  have h : getField1 (pubVer v) = Pure.pure .shared := by
    unfold getField1
    exact if_neg hv
  rw [h, Lang.pure_then]
  simp only [onField, Lang.assoc, Lang.pure_then]
  refine .bind (Shows.secOptions u) ((secOptions u).mono fun q l h => .inl h) fun a f l => (afterOptions u _).mono fun q k => ?_
  rintro ⟨hu, hi, hq, rfl⟩ h
  rw [hi] at h
  exact .inr ⟨a.1, f, q, rfl, hu, by simpa using h, hq⟩

theorem secField1_own (u : UInt8) : Cuts o (secField1 (pubVer 5) u) (fun q l => ∀ a, Secret5CutRows o a (u :: q) [] l) := by
  rw [Lang.secField1_eq]
  have h : getField1 (pubVer 5) = (do
      let l ← P.readByte
      if l = 0 then return .absent
      else
        let b ← P.readBytes l.toNat
        return .own (Reader.new b)) := rfl
  rw [h, Lang.assoc]
  refine byte (fun a => .count) fun l => ?_
  by_cases hl : l = 0
  · subst hl
    rw [if_pos rfl, Lang.pure_then]
    exact pure
  · rw [if_neg hl, Lang.assoc]
    refine bytes _ (fun q hq a => .short hq) fun b hb => ?_
    obtain ⟨hl1, hl2⟩ := Shows.ofNat_len hb
    have hb0 : b ≠ [] := by
      rintro rfl
      apply hl; rw [hl1]; rfl
    rw [Lang.pure_then]
    simp only [onField, Lang.assoc, Lang.pure_then]
    refine .bind (Shows.onReader b (Shows.secOptions u)) ((onReader b (secOptions u)).mono fun q l h a => by rw [hl1]; exact .options hl2 hb0 h) fun x f k => ?_
    refine (afterOptions u _).mono fun q k' => ?_
    rintro ⟨hu, hi, hq, rfl⟩ ⟨rfl, g, r, rfl, -, h⟩ a
    rw [hi] at h
    rw [hl1]
    simpa using Secret5CutRows.iv (a := a) hl2 hu h hq

theorem parseSecPlain (a : UInt8) : Cuts o (parseSecPlain a) (fun q l => (∃ ss, secSlots a = some ss ∧ FieldsCut o ss q l) ∨ (secSlots a = none ∧ q = [] ∧ l = [])) := by
  have known : ∀ {m : P Unit} {ss}, secSlots a = some ss → Cuts o m (FieldsCut o ss) →
      Cuts o m (fun q l => (∃ ss, secSlots a = some ss ∧ FieldsCut o ss q l) ∨ (secSlots a = none ∧ q = [] ∧ l = [])) :=
    fun ha h => h.mono fun q l hc => .inl ⟨_, ha, hc⟩
  have intS : ∀ {l : String} {ss} {m : P Unit}, Cuts o m (FieldsCut o ss) → Cuts o (do addMPI (S l); m) (FieldsCut o (.int l :: ss)) :=
    fun h => fieldNext Shows.int1 fieldInt h
  unfold Gpgpdump.parseSecPlain
  rcases Lang.pubAlg_cases a with ⟨ha, h⟩ | ⟨rfl, h⟩ | ⟨ha, h⟩ | ⟨rfl, h⟩ | ⟨rfl, h⟩ | ⟨rfl, h⟩ | ⟨ha, h⟩ <;> simp only [h]
  · exact known (if_pos ha) (intS (intS (intS fieldInt)))
  · exact known rfl fieldInt
  · refine known (ss := [.int "ElGamal secret exponent x"]) ?_ fieldInt
    simp only [List.mem_cons, List.not_mem_nil, or_false] at ha
    rcases ha with rfl | rfl <;> rfl
  · exact known rfl fieldInt
  · exact known rfl fieldInt
  · exact known rfl fieldInt
  · obtain ⟨h1, h2, h3, h4, h5, h6⟩ := Shows.not_mem9 ha
    have hs : secSlots a = none := by simp only [secSlots, if_neg h1, if_neg h2, if_neg h3, if_neg h4, if_neg h5, if_neg h6]
    refine rest fun n => ?_
    by_cases hn : 2 ≤ n
    · rw [show ((n : Int) - 2) = ((n - 2 : Nat) : Int) by omega]
      refine bytes _ (fun q hq hl => by omega) fun b hb => debug lastAdd
    · refine quiet (m := P.readBytes ((n : Int) - 2)) ?_ fun b st e s h => ?_
      · intro x p q j e s hx h1
        rw [readBytes_def] at h1
        unfold Reader.readBytes at h1
        rw [if_neg (by omega)] at h1
        split at h1
        · rename_i hq
          simp only [Prod.mk.injEq] at h1
          refine ⟨x, [], by rw [← h1.2], hx, by rw [← h1.2]; simp, fun _ => .inr ⟨hs, ?_, rfl⟩⟩
          simp [Reader.size] at hq
          exact List.length_eq_zero_iff.mp (by omega)
        · by_cases hg : (⟨p ++ q, p.length⟩ : Reader).off + ((n : Int) - 2) > (⟨p ++ q, p.length⟩ : Reader).size
          · simp [Reader.size] at hg
            omega
          · rw [if_neg hg, if_pos (by omega)] at h1
            simp at h1
      · rcases st with ⟨c, rd, j⟩
        cases c <;> cases h

end Cuts

/-- the same as `Cuts` for methods that may also set the note -/
def CutsNote (o : OptCode → Bool) (m : P Unit) (F : Bytes → Str → List Item → Prop) : Prop :=
  ∀ x p q name l0 e s, x.opts = o → m (St.at (some x) p q ((newItem name).addAll l0)) = (.err e, s) →
    ∃ x' n l, s.ctx = some x' ∧ x'.opts = o ∧ s.cur = (newItem name [] n).addAll (l0 ++ l) ∧ F q n l

namespace CutsNote

theorem ofCuts {m : P Unit} {F : Bytes → Str → List Item → Prop} (h : Cuts o m (fun q l => F q [] l)) : CutsNote o m F := by
  intro x p q name l0 e s hx hr
  obtain ⟨x', l, h1, h2, h3, h4⟩ := h x p q _ e s hx hr
  exact ⟨x', [], l, h1, h2, by rw [h3, Item.addAll_addAll], h4⟩

theorem setNote {n : Str} {g : Unit → P Unit} {F : Bytes → Str → List Item → Prop} (h : Cuts o (g ()) (fun q l => F q n l)) : CutsNote o (P.setNote n >>= g) F := by
  intro x p q name l0 e s hx hr
  rw [bind_run, setNote_run] at hr
  obtain ⟨x', l, h1, h2, h3, h4⟩ := h x p q _ e s hx hr
  exact ⟨x', n, l, h1, h2, by rw [h3, show ((newItem name).addAll l0).setNote n = (newItem name [] n).addAll l0 from rfl, Item.addAll_addAll], h4⟩

theorem bind {α} {m : P α} {g : α → P Unit} {E : α → Bytes → Bytes → List Item → Prop} {F : Bytes → Str → List Item → Prop} (hs : Shows o m E)
    (hc : Cuts o m (fun q l => F q [] l)) (h : ∀ a f l, CutsNote o (g a) (fun q n k => E a f q l → F (f ++ q) n (l ++ k))) : CutsNote o (m >>= g) F := by
  intro x p q name l0 e s hx hr
  rw [bind_run] at hr
  rcases hm : m (St.at (some x) p q ((newItem name).addAll l0)) with ⟨r, s1⟩
  rw [hm] at hr
  cases r with
  | ok a =>
    obtain ⟨x1, f, q1, l, hx1, rfl, rfl, h1⟩ := hs x p q _ a s1 hx hm
    simp only [Item.addAll_addAll] at hr
    obtain ⟨x', n, k, h2, h3, h4, h5⟩ := h a f l x1 _ _ name _ e s hx1 hr
    exact ⟨x', n, l ++ k, h2, h3, by rw [h4, List.append_assoc], h5 h1⟩
  | err y =>
    cases hr
    obtain ⟨x', l, h1, h2, h3, h4⟩ := hc x p q _ _ _ hx hm
    exact ⟨x', [], l, h1, h2, by rw [h3, Item.addAll_addAll], h4⟩
  | _ => cases hr

/-- with the first part at hand when the second one is looked at -/
theorem bind' {α} {m : P α} {g : α → P Unit} {E : α → Bytes → Bytes → List Item → Prop} {F : Bytes → Str → List Item → Prop} (hs : Shows o m E)
    (hc : Cuts o m (fun q l => F q [] l)) (h : ∀ a f q1 l, E a f q1 l → CutsNote o (g a) (fun q n k => q1 = q → F (f ++ q) n (l ++ k))) : CutsNote o (m >>= g) F := by
  intro x p q name l0 e s hx hr
  rw [bind_run] at hr
  rcases hm : m (St.at (some x) p q ((newItem name).addAll l0)) with ⟨r, s1⟩
  rw [hm] at hr
  cases r with
  | ok a =>
    obtain ⟨x1, f, q1, l, hx1, rfl, rfl, h1⟩ := hs x p q _ a s1 hx hm
    simp only [Item.addAll_addAll] at hr
    obtain ⟨x', n, k, h2, h3, h4, h5⟩ := h a f q1 l h1 x1 _ _ name _ e s hx1 hr
    exact ⟨x', n, l ++ k, h2, h3, by rw [h4, List.append_assoc], h5 rfl⟩
  | err y =>
    cases hr
    obtain ⟨x', l, h1, h2, h3, h4⟩ := hc x p q _ _ _ hx hm
    exact ⟨x', [], l, h1, h2, by rw [h3, Item.addAll_addAll], h4⟩
  | _ => cases hr

theorem mono {m : P Unit} {F F' : Bytes → Str → List Item → Prop} (h : CutsNote o m F) (h' : ∀ q n l, F q n l → F' q n l) : CutsNote o m F' := by
  intro x p q name l0 e s hx hr
  obtain ⟨x', n, l, h1, h2, h3, h4⟩ := h x p q name l0 e s hx hr
  exact ⟨x', n, l, h1, h2, h3, h' _ _ _ h4⟩

theorem nested {name : Str} {m : P Unit} {F : Bytes → Str → List Item → Prop} (h : CutsNote o m F) :
    Cuts o (P.nested (newItem name) m) (fun q l => ∃ n k, l = [.mk name [] [] n k] ∧ F q n k) := by
  intro x p q j e s hx hr
  rw [nested_run] at hr
  rcases hm : m (St.at (some x) p q (newItem name)) with ⟨r, s1⟩
  rw [hm] at hr
  simp only [Prod.mk.injEq] at hr
  obtain ⟨rfl, rfl⟩ := hr
  obtain ⟨x', n, l, h1, h2, h3, h4⟩ := h x p q name [] e s1 hx (by simpa using hm)
  exact ⟨x', [(newItem name [] n).addAll l], h1, h2, by rw [← List.nil_append l, ← h3]; rfl, n, l, rfl, h4⟩

theorem secField2_shared (v u a : UInt8) (hv : v ≠ 5) : CutsNote o (secField2 (pubVer v) u a) (fun q n l => u = 0 ∧ SecretCutRows o a (0 :: q) n l) := by
  unfold secField2
  rw [pubField2 hv, Lang.pure_then]
  simp only
  by_cases hu : u = 0
  · subst hu
    rw [if_pos rfl]
    refine setNote ?_
    simp only [onField, Lang.assoc, Lang.pure_then]
    refine .bind (Shows.parseSecPlain a) ((Cuts.parseSecPlain a).mono fun q l => ?_) fun _ f l => .bytes 2 (fun q hq h => ?_) fun c _ => .add .fieldRest
    · rintro (⟨ss, hs, h⟩ | ⟨hs, rfl, rfl⟩)
      · exact ⟨trivial, .material hs h⟩
      · exact ⟨trivial, .unknown hs⟩
    · rw [List.append_nil]
      exact ⟨trivial, .checksum h hq⟩
  · rw [if_neg hu]
    refine setNote ?_
    simp only [onField, Lang.assoc, Lang.pure_then]
    exact .bind (Shows.parseSecEnc a) (.firm (Errs.parseSecEnc a)) fun _ _ _ => .fieldRest

theorem secField2_own (u a : UInt8) : CutsNote o (secField2 (pubVer 5) u a)
    (fun q n l => ∀ f is, Options5Shown o u f is → Secret5CutRows o a (u :: (f ++ q)) n (is ++ l)) := by
  unfold secField2
  have h : getField2 (pubVer 5) = (do
      if (← Gpgpdump.rest) < 4 then P.panic .beShort
      else
        let l ← P.readBytes 4
        let ll := beNat l
        if ll = 0 then return .absent
        else
          let b ← P.readBytes ll
          return .own (Reader.new b)) := rfl
  rw [h]
  refine bind' (E := fun a f _ l => l = [] ∧ (a = .absent ∨ (∃ b : Bytes, b ≠ [] ∧ b.length < 2 ^ 32 ∧
    f = beOctets 4 b.length ++ b ∧ a = .own (Reader.new b)))) ?_ ?_ ?_
  · refine Shows.rest fun n => Shows.ite (fun _ => Shows.panic) fun _ => Shows.bytes 4 fun sz hsz => ?_
    dsimp only
    refine Shows.ite (fun hz => Shows.pure fun q _ => ⟨rfl, .inl rfl⟩) fun hz => Shows.bytes _ fun b hb => Shows.pure fun q _ => ⟨rfl, .inr ⟨b, ?_⟩⟩
    obtain ⟨hl, rfl⟩ := Lang.sized4 hsz hb
    refine ⟨?_, hl, by simp, rfl⟩
    rintro rfl
    apply hz; rw [← hb]; rfl
  · refine .rest fun n => ?_
    by_cases hn : (n : Int) < 4
    · rw [if_pos hn]
      intro x p q j e s hx hr
      cases hr
    · rw [if_neg hn]
      refine .bytes 4 (fun q hq hl => by omega) fun sz hz => ?_
      dsimp only
      split
      · exact .pure
      · refine .bytes _ (fun q hq _ f is ho => ?_) fun b hb => .pure
        have h2 := beOctets_beNat sz
        rw [hz] at h2
        have := Secret5CutRows.data (a := a) ho (n := beNat sz) (by have := beNat_lt sz; rw [hz] at this; exact this) hq
        rw [h2] at this
        rw [List.append_nil]
        exact this
  · rintro a' f1 q1 l1 ⟨rfl, rfl | ⟨b, h0, hl, rfl, rfl⟩⟩
    · exact ofCuts .pure
    · by_cases hu : u = 0
      · subst hu
        simp only
        rw [if_pos trivial]
        refine setNote ?_
        simp only [onField, Lang.assoc, Lang.pure_then]
        refine .bind (Shows.onReader b (Shows.parseSecPlain a)) ((Cuts.onReader b (Cuts.parseSecPlain a)).mono fun q l => ?_)
          fun _ f l => .bytes 2 (fun q hq => ?_) fun c _ => .add .fieldRest
        · rintro (⟨ss, hs, h⟩ | ⟨hs, rfl, rfl⟩) - f is ho
          · rw [show S "s2k usage 0; plain secret-key material" = usageNote 0 from rfl]
            simpa using Secret5CutRows.material (q := q) ho h0 hl hs h
          · exact absurd rfl h0
        · rintro ⟨rfl, g, r, rfl, -, h⟩ - f is ho
          rw [show S "s2k usage 0; plain secret-key material" = usageNote 0 from rfl]
          simpa using Secret5CutRows.checksum (q := q) ho h0 hl h hq
      · simp only
        rw [if_neg hu]
        refine setNote ?_
        simp only [onField, Lang.assoc, Lang.pure_then]
        exact .bind (Shows.onReader b (Shows.parseSecEnc a)) ((Cuts.onReader b (F := fun _ _ => False) (.firm (Errs.parseSecEnc a))).mono fun _ _ h => h.elim)
          fun _ _ _ => .fieldRest

end CutsNote

theorem Cuts.seckey (v a : UInt8) : Cuts o (P.nested (newItem (S "Secret-Key")) (seckeyParse (pubVer v) a))
    (fun q l => ∃ n k, l = [.mk "Secret-Key".toList [] [] n k] ∧ if v = 5 then Secret5CutRows o a q n k else SecretCutRows o a q n k) := by
  unfold seckeyParse
  refine CutsNote.nested ?_
  by_cases hv : v = 5
  · subst hv
    simp only [if_pos trivial]
    refine .bind (E := fun b f _ l => f = [b] ∧ l = []) Shows.readByte ?_ fun u f1 l1 => ?_
    · exact .readByte .usage
    · refine .bind (Shows.secField1_own u) ((Cuts.secField1_own u).mono fun q l h => ?_) fun _ f l => (CutsNote.secField2_own u a).mono fun q n k h => ?_
      · rintro ⟨rfl, rfl⟩
        exact h a
      · rintro ho ⟨rfl, rfl⟩
        exact h f l ho
  · simp only [if_neg hv]
    refine .bind (E := fun b f _ l => f = [b] ∧ l = []) Shows.readByte ?_ fun u f1 l1 => ?_
    · exact .readByte .usage
    · refine .bind (Shows.secField1_shared v u hv) ((Cuts.secField1_shared v u hv).mono fun q l h => ?_) fun _ f l => (CutsNote.secField2_shared v u a hv).mono fun q n k h => ?_
      · rintro ⟨rfl, rfl⟩
        rcases h with h | ⟨c, f, r, rfl, hu, ho, hq⟩
        · exact .options h
        · exact SecretCutRows.iv (a := a) (f := f) (q := r) hu ho hq
      · rintro ⟨c, iv, g, n', is, ivs, rfl, ho, rfl, hi⟩ ⟨rfl, rfl⟩
        obtain ⟨rfl, h⟩ := h
        rw [if_pos rfl] at hi
        obtain ⟨rfl, rfl⟩ := hi
        generalize hz : (0 : UInt8) = z at ho
        cases ho with
        | plain => simpa using h
        | s2k hu => subst hz; simp at hu
        | aead => simp at hz
        | cipher hu => subst hz; simp at hu

end Gpgpdump
