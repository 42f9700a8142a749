import Verif.ThmTagsApi
import Verif.CutSecret
import Verif.DisplayTags

/-!
# C98: the item that `Parse` of a packet made by `NewTag` returns, with and without an error
-/

namespace Gpgpdump
open P Spec

namespace Spec
variable (o : OptCode → Bool)

/-- Signatures of versions 4 and 5 that end too early or have a subpacket area that is not accepted, behind the version octet: the rows of
the fields before it. Of the area itself nothing is shown. -/
inductive SigPart (X : Ext) : Bytes → List Item → Prop
  | kind : SigPart X [] []
  | alg {t} : SigPart X [t] [sigTypeRow o t]
  | hash {t a} : SigPart X [t, a] [sigTypeRow o t, pubRow o a]
  | hashed {t a h q c} (hq : FailArea X c q) : SigPart X (t :: a :: h :: q) [sigTypeRow o t, pubRow o a, hashRow o h]
  | unhashed {t a h a1 i1 q c} (hl : a1.length < 65536) (h1 : AreaRows o X "Hashed Subpacket" a1 i1) (hq : FailArea X c q) :
      SigPart X (t :: a :: h :: (beOctets 2 a1.length ++ (a1 ++ q))) (sigTypeRow o t :: pubRow o a :: hashRow o h :: i1)
  | left {t a h a1 i1 a2 i2 q} (hl1 : a1.length < 65536) (hl2 : a2.length < 65536) (h1 : AreaRows o X "Hashed Subpacket" a1 i1)
      (h2 : AreaRows o X "Unhashed Subpacket" a2 i2) (hq : q.length < 2) :
      SigPart X (t :: a :: h :: (beOctets 2 a1.length ++ (a1 ++ (beOctets 2 a2.length ++ (a2 ++ q)))))
        (sigTypeRow o t :: pubRow o a :: hashRow o h :: (i1 ++ i2))
  | value {t a h a1 i1 a2 i2 l ss q is} (hl1 : a1.length < 65536) (hl2 : a2.length < 65536) (h1 : AreaRows o X "Hashed Subpacket" a1 i1)
      (h2 : AreaRows o X "Unhashed Subpacket" a2 i2) (hl : l.length = 2) (hs : sigSlots a = some ss) (hq : SlotsCut o ss q is) :
      SigPart X (t :: a :: h :: (beOctets 2 a1.length ++ (a1 ++ (beOctets 2 a2.length ++ (a2 ++ (l ++ q))))))
        (sigTypeRow o t :: pubRow o a :: hashRow o h :: (i1 ++ (i2 ++ left16Row l :: is)))

/-- Packets that end too early: the rows of the fields before the end. A compressed packet that cannot be decompressed has all its rows. -/
inductive TagPart (X : Ext) : Nat → Bytes → List Item → Prop
  | nothing {tag} : TagPart X tag [] []
  | onePass1 {v} : TagPart X 4 [v] [versionRow o 3 none v]
  | onePass2 {v t} : TagPart X 4 [v, t] [versionRow o 3 none v, sigTypeRow o t]
  | onePass3 {v t h} : TagPart X 4 [v, t, h] [versionRow o 3 none v, sigTypeRow o t, hashRow o h]
  | onePass4 {v t h a kid} (hk : kid.length < 8) :
      TagPart X 4 (v :: t :: h :: a :: kid) [versionRow o 3 none v, sigTypeRow o t, hashRow o h, pubRow o a]
  | onePass5 {v t h a kid} (hk : kid.length = 8) :
      TagPart X 4 (v :: t :: h :: a :: kid) [versionRow o 3 none v, sigTypeRow o t, hashRow o h, pubRow o a, keyIDRow kid]
  | literal1 {fmt} : TagPart X 11 [fmt] [leaf "Literal data format".toList [Char.ofNat fmt.toNat] (literalFormat fmt).toList]
  | literal2 {fmt n r} (hr : r.length < n.toNat) :
      TagPart X 11 (fmt :: n :: r) [leaf "Literal data format".toList [Char.ofNat fmt.toNat] (literalFormat fmt).toList]
  | literal3 {fmt n name r} (hn : name.length = n.toNat) (hr : r.length < 4) : TagPart X 11 (fmt :: n :: (name ++ r))
      [leaf "Literal data format".toList [Char.ofNat fmt.toNat] (literalFormat fmt).toList, textRow "File name".toList (o LITERAL || o DEBUG) name]
  | aead1 {v} : TagPart X 20 [v] [versionRow o 1 none v]
  | aead2 {v c} : TagPart X 20 [v, c] [versionRow o 1 none v, symRow o c]
  | aead3 {v c a} : TagPart X 20 [v, c, a] [versionRow o 1 none v, symRow o c, aeadRow o a]
  | packed {a z} (hz : z ≠ []) : TagPart X 8 (a :: z) [compRow o a, leaf "Compressed data".toList [] (sizeText z.length) (dumpIf (o DEBUG) z)]
  | signature {v q l} (hv : v ∈ [4, 5]) (h : SigPart o X q l) : TagPart X 2 (v :: q) (versionRow o 4 (some 5) v :: l)
  | session1 {v q} (hq : q.length < 8) : TagPart X 1 (v :: q) [versionRow o 3 none v]
  | session2 {v kid} (hk : kid.length = 8) : TagPart X 1 (v :: kid) [versionRow o 3 none v, keyIDRow kid]
  | session3 {v kid a ss q is} (hk : kid.length = 8) (hs : sesSlots a = some ss) (h : FieldsCut o ss q is) :
      TagPart X 1 (v :: (kid ++ a :: q)) (versionRow o 3 none v :: keyIDRow kid :: pubRow o a :: is)
  | password1 : TagPart X 3 [4] [versionRow o 4 (some 5) 4]
  | password2 {c} : TagPart X 3 [4, c] [versionRow o 4 (some 5) 4, symRow o c]
  | password3 {c q i} (h : S2KCutRow o q i) : TagPart X 3 (4 :: c :: q) [versionRow o 4 (some 5) 4, symRow o c, i]
  | publicKey {tag v q l} (ht : tag ∈ [6, 14]) (h : PubCutRows o X v q l) : TagPart X tag (v :: q) (versionRow o 4 (some 5) v :: l)
  /-- a secret key of which the public part is cut -/
  | secretKey1 {tag v q l} (ht : tag ∈ [5, 7]) (h : PubCutRows o X v q l) :
      TagPart X tag (v :: q) [versionRow o 4 (some 5) v, .mk "Public-Key".toList [] [] [] l]
  /-- a secret key of which the part behind the public one is cut -/
  | secretKey2 {tag v a f q l note k} (ht : tag ∈ [5, 7]) (hp : PubShown o X v a f q l)
      (h : if v = 5 then Secret5CutRows o a q note k else SecretCutRows o a q note k) : TagPart X tag (v :: (f ++ q))
      [versionRow o 4 (some 5) v, .mk "Public-Key".toList [] [] [] l, .mk "Secret-Key".toList [] [] note k]
  /-- of an area that is not accepted nothing is shown -/
  | attributes {b} : TagPart X 17 b []

end Spec

variable {o : OptCode → Bool} {X : Ext}

namespace Err
theorem calm {α} {m : P α} {rd j R} (h : ∀ st e s, m st ≠ (.err e, s)) : Err o m rd j R := fun _ _ _ _ hr => absurd hr (h _ _ _)
theorem unknownData {p q j R} : Err o Gpgpdump.unknownData (rdAt p q) j R := fun x e s _ hr => by
  rw [show (⟨some x, rdAt p q, j⟩ : St) = St.at (some x) p q j from rfl, unknownData_run] at hr
  cases hr
theorem addRaw' {n : Str} {f : Bool} {rd j R} : Err o (Gpgpdump.addRaw n f) rd j R := fun _ _ _ _ hr => by cases hr
theorem failed {α β} {m : P α} {g : Bool → P β} {rd j R} (h : ∀ v st e s, g v st ≠ (.err e, s)) : Err o (P.failed m >>= g) rd j R := by
  intro x e s _ hr
  rw [bind_run] at hr
  have hn : ∀ st e s, P.failed m st ≠ (.err e, s) := fun st e s h => by
    unfold P.failed at h
    rcases hm : m st with ⟨r, s'⟩
    rw [hm] at h
    cases r <;> cases h
  rcases hm : P.failed m ⟨some x, rd, j⟩ with ⟨r, s'⟩
  rw [hm] at hr
  cases r with
  | ok v => exact absurd hr (h v s' e s)
  | err y => exact absurd hm (hn _ _ _)
  | _ => cases hr
theorem bind {α β} {m : P α} {g : α → P β} {E : α → Bytes → Bytes → List Item → Prop} {p q j R} (hs : Shows o m E) (he : Err o m (rdAt p q) j R)
    (h : ∀ a f q' l, q = f ++ q' → E a f q' l → Err o (g a) (rdAt (p ++ f) q') (j.addAll l) R) : Err o (m >>= g) (rdAt p q) j R := by
  intro x e s hx hr
  rw [bind_run] at hr
  rcases hm : m ⟨some x, rdAt p q, j⟩ with ⟨r, s1⟩
  rw [hm] at hr
  cases r with
  | ok a =>
    obtain ⟨x1, f, q1, l, hx1, hq, rfl, h1⟩ := hs x p q j a s1 hx hm
    exact h a f q1 l hq h1 x1 e s hx1 hr
  | err e' =>
    have h2 : e' = e := by injection congrArg Prod.fst hr
    have h3 : s1 = s := congrArg Prod.snd hr
    subst h2 h3
    exact he x e' s1 hx hm
  | _ => cases hr
theorem cuts {α} {m : P α} {F : Bytes → List Item → Prop} {p q j R} (h : Cuts o m F) (h' : ∀ l, F q l → R (j.addAll l)) : Err o m (rdAt p q) j R := by
  intro x e s hx hr
  obtain ⟨_, l, -, -, h3, h4⟩ := h x p q j e s hx hr
  rw [h3]
  exact h' l h4
/-- an area that is not accepted adds nothing -/
theorem addSubpackets {f : UInt8 → Bytes → P Item} {name : Str} {area : Bytes} {rd j R} (h : R j) : Err o (Gpgpdump.addSubpackets f name area) rd j R := by
  intro x e s hx hr
  have hr : (match opaqueSubpackets area with
      | .error e => (P.fail e.wrap : P Unit)
      | .ok l => P.build (newItem name [] (nBytes area.length) (dumpBytes area (ctxFlag Ctx.debug (some x)))) (subLoop f l) >>= fun i => P.add i) ⟨some x, rd, j⟩ = (.err e, s) := hr
  cases ho : opaqueSubpackets area with
  | error y => rw [ho] at hr; cases hr; exact h
  | ok l =>
    rw [ho] at hr
    simp only at hr
    rw [bind_run] at hr
    rcases hm : P.build (newItem name [] (nBytes area.length) (dumpBytes area (ctxFlag Ctx.debug (some x)))) (subLoop f l) ⟨some x, rd, j⟩ with ⟨r, s1⟩
    rw [hm] at hr
    have hc : s1.cur = j := (congrArg (fun z => z.2.cur) hm).symm
    cases r with
    | err y =>
      have h3 : s1 = s := congrArg Prod.snd hr
      rw [← h3, hc]; exact h
    | _ => cases hr
theorem subArea {recur : TagParser} {name : Str} {A : UInt8 → Bytes → Prop} {B : Cause → UInt8 → Bytes → Prop}
    (ha : ∀ t b, Sub (Gpgpdump.parseSub02 X recur t b) (A t b)) (hb : ∀ t b, Errs (Gpgpdump.parseSub02 X recur t b) (fun c _ _ => B c t b))
    {p q j R} (h : ∀ c, Errs.AreaErr A B c q → R j) : Err o (Gpgpdump.subArea X recur name) (rdAt p q) j R := by
  intro x e s hx hr
  have hR := h _ (((Errs.subArea X ha hb name).run x p q j e.cause).mp ⟨e, s, hr, rfl⟩)
  have key : Err o (Gpgpdump.subArea X recur name) (rdAt p q) j R := by
    unfold Gpgpdump.subArea
    refine .bytes 2 (fun _ => hR) fun l q' _ _ => ?_
    by_cases hs : beNat l > 0
    · simp only [if_pos hs]
      exact .bytes _ (fun _ => hR) fun _ _ _ _ => .addSubpackets hR
    · simp only [if_neg hs]
      exact .pure
  exact key x e s hx hr
theorem literal {β} {g : Bool → P β} {rd j R} (h : Err o (g (o LITERAL || o DEBUG)) rd j R) : Err o (P.flag Ctx.literal >>= g) rd j R := fun x e s hx hr => by
  rw [bind_run, flag_run, show ctxFlag Ctx.literal (some x) = (o LITERAL || o DEBUG) by subst hx; rfl] at hr
  exact h x e s hx hr
end Err

section
variable {b : Bytes}
local notation "Part[" t "]" m => Err o m (rdAt [] b) (packetRow o t b []) (fun i => ∃ l, TagPart o X t b l ∧ i = packetRow o t b l)

theorem ofCuts {t : Nat} {m : P Unit} (h : Cuts o m (TagPart o X t)) : Part[t] m := .cuts h fun l hl => ⟨l, hl, rfl⟩

theorem tag01_part : Part[1] tag01 := by
  refine ofCuts ?_
  unfold tag01
  refine .setMode (.byte .nothing fun v => .debug (.add (.bytes 8 (fun q hq => ?_) fun kid hk => .add (.byte ?_ fun a => .debug (.add ?_)))))
  · rw [sesVer_eq]; exact .session1 hq
  · rw [sesVer_eq, keyIDItem_eq _ hk, List.append_nil]; exact .session2 hk
  · refine .bind (Shows.parseSes a) ((Cuts.parseSes a).mono fun q l h => ?_) fun _ _ _ => .unknownData
    obtain ⟨ss, hs, hc⟩ := h
    rw [sesVer_eq, keyIDItem_eq _ hk, pubItem_eq]
    exact .session3 hk hs hc

theorem tag03_part : Part[3] tag03 := by
  refine ofCuts ?_
  unfold tag03
  refine .setMode (.byte .nothing fun v => .debug (.add ?_))
  simp only [symVer_cases]
  rw [symVer_eq]
  by_cases hv : v = 4
  · subst hv
    rw [if_pos (by decide)]
    refine .byte .password1 fun c => .add (.bind Shows.s2kParse (Cuts.s2kParse.mono fun q l h => ?_) fun _ _ _ => .unknownData)
    rw [symItem_eq]
    rcases h with ⟨rfl, rfl⟩ | ⟨i, rfl, hi⟩
    · exact .password2
    · exact .password3 hi
  · rw [if_neg (by simpa using hv)]
    exact .unknownData

theorem tag06_part {t : Nat} (ht : t ∈ [6, 14]) : Part[t] (tag06 X) := by
  refine ofCuts ?_
  unfold tag06
  refine .byte .nothing fun v => .debug (.add (.bind (Shows.pubkeyParse X v) ((Cuts.pubkeyParse X v).mono fun q l h => ?_) fun _ _ _ => .unknownData))
  rw [pubVer_eq]
  exact .publicKey ht h

theorem tag05_part {t : Nat} (ht : t ∈ [5, 7]) : Part[t] (tag05 X) := by
  refine ofCuts ?_
  unfold tag05
  refine .byte .nothing fun v => .debug (.add (.bind (Shows.nested (Shows.pubkeyParse X v)) ((Cuts.nested (Cuts.pubkeyParse X v)).mono fun q l h => ?_) fun a f l =>
    .bind (Shows.seckey v a) ((Cuts.seckey v a).mono fun q k h => ?_) fun _ _ _ => .unknownData))
  · obtain ⟨k, rfl, h⟩ := h
    rw [pubVer_eq]
    exact .secretKey1 ht h
  · obtain ⟨note, js, rfl, h⟩ := h
    rintro ⟨is, rfl, hp⟩
    rw [pubVer_eq]
    exact .secretKey2 ht hp h

theorem tag04_part : Part[4] tag04 := by
  unfold tag04
  refine .byte (fun h => by subst h; exact ⟨[], .nothing, rfl⟩) fun v q hb => .debug (.add ?_)
  refine .byte (fun h => by subst h hb; exact ⟨_, .onePass1, by rw [oneVer_eq]; rfl⟩) fun t q1 h1 => .debug (.add ?_)
  refine .byte (fun h => by subst h h1 hb; exact ⟨_, .onePass2, by rw [oneVer_eq, sigItem_eq]; rfl⟩) fun h q2 h2 => .debug (.add ?_)
  refine .byte (fun h => by subst h h2 h1 hb; exact ⟨_, .onePass3, by rw [oneVer_eq, sigItem_eq, hashItem_eq]; rfl⟩) fun a q3 h3 => .debug (.add ?_)
  refine .bytes 8 (fun hk => by subst h3 h2 h1 hb; exact ⟨_, .onePass4 hk, by rw [oneVer_eq, sigItem_eq, hashItem_eq, pubItem_eq]; rfl⟩) fun kid q4 h4 hk => .add ?_
  refine .byte (fun h => by subst h h4 h3 h2 h1 hb; rw [List.append_nil]; exact ⟨_, .onePass5 hk, by rw [oneVer_eq, sigItem_eq, hashItem_eq, pubItem_eq, keyIDItem_eq _ hk]; rfl⟩) fun _ _ _ => .add .unknownData

theorem tag20_part : Part[20] tag20 := by
  unfold tag20
  refine .byte (fun h => by subst h; exact ⟨[], .nothing, rfl⟩) fun v q hb => .debug (.add ?_)
  refine .byte (fun h => by subst h hb; exact ⟨_, .aead1, by rw [aeadVer_eq]; rfl⟩) fun t q1 h1 => .debug (.add ?_)
  refine .byte (fun h => by subst h h1 hb; exact ⟨_, .aead2, by rw [aeadVer_eq, symItem_eq]; rfl⟩) fun h q2 h2 => .debug (.add ?_)
  refine .byte (fun h => by subst h h2 h1 hb; exact ⟨_, .aead3, by rw [aeadVer_eq, symItem_eq, aeadItem_eq]; rfl⟩) fun a q3 h3 => .add ?_
  refine .failed fun v st e s hr => ?_
  cases v with
  | true => cases hr
  | false =>
    rw [if_neg (by decide)] at hr
    have hr : (if st.rd.rest > 0 then (P.flag Ctx.debug >>= fun d => Gpgpdump.addRaw (S "Encrypted data and authentication tag") d) else Pure.pure ()) st = (.err e, s) := hr
    by_cases h : st.rd.rest > 0
    · rw [if_pos h] at hr; cases hr
    · rw [if_neg h] at hr; cases hr

theorem tag11_part : Part[11] (tag11 X) := by
  unfold tag11
  refine .byte (fun h => by subst h; exact ⟨[], .nothing, rfl⟩) fun fmt q hb => .add ?_
  refine .byte (fun h => by subst h hb; exact ⟨_, .literal1, by rw [Shows.literalItem_eq]; rfl⟩) fun l q1 h1 => ?_
  have key : ∀ (p n r : Bytes), n.length = l.toNat → q1 = n ++ r → Err o (do
      P.add (textItem (S "File name") n (← P.flag Ctx.literal))
      let ftime ← newDateTime (← P.flag Ctx.utc)
      P.add (fileTimeItem X ftime (← P.flag Ctx.debug))
      Gpgpdump.addRaw (S "Literal data") (← P.flag Ctx.literal)) (rdAt p r) ((packetRow o 11 b []).addAll [literalFormatItem fmt])
      (fun i => ∃ l, TagPart o X 11 b l ∧ i = packetRow o 11 b l) := by
    intro p n r hn hq
    refine .literal (.add (.flag fun u => ?_))
    unfold newDateTime
    rw [bind_assoc_P]
    exact .bytes 4 (fun hl => by subst hq h1 hb; exact ⟨_, .literal3 hn hl, by rw [Shows.literalItem_eq, textItem_eq]; rfl⟩)
      fun _ _ _ _ => .pureBind (.debug (.add (.flag fun _ => .addRaw')))
  by_cases hl : l.toNat < 1
  · rw [if_pos hl]
    exact .pureBind (key _ [] q1 (by simp; omega) rfl)
  · rw [if_neg hl]
    exact .bytes _ (fun h => by subst h1 hb; exact ⟨_, .literal2 (by omega), by rw [Shows.literalItem_eq]; rfl⟩) fun n r hq hn => key _ n r hn hq

theorem tag08_part : Part[8] (tag08 X) := by
  intro x e s hx hr
  have hd : ctxFlag Ctx.debug (some x) = o DEBUG := by subst hx; rfl
  cases b with
  | nil => rw [tag08_end X ⟨some x, rdAt [] [], packetRow o 8 [] []⟩ (Nat.le_refl 0)] at hr; cases hr; exact ⟨[], .nothing, rfl⟩
  | cons a z =>
    by_cases hz : z = []
    · subst hz
      rw [show (⟨some x, rdAt [] [a], packetRow o 8 [a] []⟩ : St) = St.at (some x) [] [a] (packetRow o 8 [a] []) from rfl, tag08_one] at hr
      cases hr
    · obtain ⟨h1, h2, -⟩ := tag08_run X (some x) (packetRow o 8 (a :: z) []) a z hz
      rw [show St.at (some x) [] (a :: z) (packetRow o 8 (a :: z) []) = ⟨some x, rdAt [] (a :: z), packetRow o 8 (a :: z) []⟩ from rfl, hr] at h1 h2
      refine ⟨_, .packed hz, ?_⟩
      have hp : packedItem z (o DEBUG) = leaf "Compressed data".toList [] (sizeText z.length) (dumpIf (o DEBUG) z) := by
        unfold packedItem
        rw [rawItem_eq]; rfl
      unfold packedOut at h1 h2
      simp only at h1 h2
      rw [h2]
      split at h1
      · cases h1
      · split at h1
        · cases h1
        · rename_i he hl
          simp only [if_neg hl]
          rw [hd, hp, compItem_eq]
          rfl

theorem tag02v4_part (hX : OwnErrors X) (n : Nat) (v : UInt8) (hv : v ∈ [4, 5]) (p q : Bytes) (hb : b = v :: q) :
    Err o (do tag02v4 X (parseTagF X n); unknownData) (rdAt p q) ((packetRow o 2 b []).addAll [versionRow o 4 (some 5) v])
      (fun i => ∃ l, TagPart o X 2 b l ∧ i = packetRow o 2 b l) := by
  have key : ∀ {l r j}, SigPart o X r l → q = r → j = (packetRow o 2 b []).addAll (versionRow o 4 (some 5) v :: l) →
      ∃ l', TagPart o X 2 b l' ∧ j = packetRow o 2 b l' :=
    fun h hq hj => ⟨_, by rw [hb, hq]; exact .signature hv h, by rw [hj]; rfl⟩
  have ha := Sub.parseSub02 X (Sub.parseTagF X n)
  have hbb := Errs.parseSub02 X (Sub.parseTagF X n) (Errs.parseTagF X n)
  have hF : ∀ {c q}, Errs.AreaErr (SubOK X (FuelOK X n)) (Errs.SubErr X (FuelOK X n) (fun c => Errs.FuelErr X c n)) c q → FailArea X c q :=
    fun h => failArea_of_areaErr hX (fun _ _ => fails_of_fuelErr hX) h
  have hS := fun name => Shows.subArea X (Yields.parseTagF (o := o) X hX n) name
  unfold tag02v4
  simp only [bind_assoc_P]
  refine .byte (fun h => key .kind h rfl) fun t q1 h1 => .debug (.add ?_)
  refine .byte (fun h => key .alg (by rw [h1, h]) (by rw [sigItem_eq]; rfl)) fun a q2 h2 => .debug (.add ?_)
  refine .byte (fun h => key .hash (by rw [h1, h2, h]) (by rw [sigItem_eq, pubItem_eq]; rfl)) fun hh q3 h3 => .debug (.add ?_)
  simp only [Item.addAll_addAll, sigItem_eq, pubItem_eq, hashItem_eq, List.append_assoc, List.cons_append, List.nil_append]
  refine .bind (hS _) (.subArea ha hbb fun c hc => key (.hashed (hF hc)) (by rw [h1, h2, h3]) rfl) fun _ f1 q4 i1 h4 h5 => ?_
  obtain ⟨a1, hl1, rfl, h5⟩ := h5
  refine .bind (hS _) (.subArea ha hbb fun c hc => key (.unhashed hl1 h5 (hF hc)) (by rw [h1, h2, h3, h4, List.append_assoc])
    (by rw [Item.addAll_addAll]; rfl)) fun _ f2 q5 i2 h6 h7 => ?_
  obtain ⟨a2, hl2, rfl, h7⟩ := h7
  refine .bytes 2 (fun hq => key (.left (t := t) (a := a) (h := hh) hl1 hl2 h5 h7 hq) (by rw [h1, h2, h3, h4, h6]; simp only [List.append_assoc])
    (by rw [Item.addAll_addAll, Item.addAll_addAll]; rfl)) fun l q6 h8 hl => .add ?_
  exact .bind (Shows.parseSig a) (.cuts (Cuts.parseSig a) fun is ⟨ss, hs, hc⟩ => key (.value (t := t) (a := a) (h := hh) hl1 hl2 h5 h7 hl hs hc)
    (by rw [h1, h2, h3, h4, h6, h8]; simp only [List.append_assoc])
    (by simp only [Item.addAll_addAll, List.append_assoc, List.cons_append, List.nil_append, hashLeft2_eq])) fun _ _ _ _ _ _ => .unknownData

theorem tag02_part (hX : OwnErrors X) (n : Nat) : Part[2] (tag02 X (parseTagF X n)) := by
  unfold tag02
  refine .byte (fun h => by subst h; exact ⟨[], .nothing, rfl⟩) fun v q hb => .debug (.add ?_)
  rw [sigVer_eq]
  rcases sigVer_cases v with ⟨rfl, h1⟩ | ⟨rfl, h1, h2⟩ | ⟨rfl, h1, h2, h3⟩ | ⟨hv, h1, h2, h3⟩
  · rw [if_pos h1]; exact tag02v4_part hX n 5 (by decide) _ q hb
  · rw [if_neg (by simp [h1]), if_pos h2]; exact tag02v4_part hX n 4 (by decide) _ q hb
  · rw [if_neg (by simp [h1]), if_neg (by simp [h2]), if_pos (by simp [h3])]
    refine .failed fun v st e s hr => ?_
    cases v with
    | true => cases hr
    | false =>
      rw [if_neg (by decide)] at hr
      have hr : (if st.rd.rest > 0 then (P.flag Ctx.debug >>= fun d => Gpgpdump.addRaw (S "Unknown data") d) else Pure.pure ()) st = (.err e, s) := hr
      by_cases h : st.rd.rest > 0
      · rw [if_pos h] at hr; cases hr
      · rw [if_neg h] at hr; cases hr
  · rw [if_neg (by simp [h1]), if_neg (by simp [h2]), if_neg (by simp [h3])]
    exact .unknownData

theorem tag17_part : Part[17] tag17 := by
  unfold tag17
  exact .getBody (.addSubpackets ⟨[], .attributes, rfl⟩)
end

/-- the item with an error is what is built up to it -/
theorem full_err {o : TagObj} {c : Option Ctx} {i e} (h : (o.full X c).1 = .ret i (some e)) :
    ∃ s, o.body X ⟨c, o.start, o.header c⟩ = (.err e, s) ∧ i = some s.cur := by
  unfold TagObj.full at h
  rcases hz : o.body X ⟨c, o.start, o.header c⟩ with ⟨r, s⟩
  rw [hz] at h
  cases r <;> cases h
  exact ⟨s, rfl, rfl⟩

theorem fails_tag {c : Cause} {tag : Nat} {b : Bytes} (h : Fails X c tag b) : tag ∈ [1, 2, 3, 4, 5, 6, 7, 8, 11, 14, 17, 20] := by
  cases h with
  | version ht => revert ht; simp only [List.mem_cons, List.not_mem_nil, or_false]; omega
  | publicKey ht => revert ht; simp only [List.mem_cons, List.not_mem_nil, or_false]; omega
  | secretKey ht => revert ht; simp only [List.mem_cons, List.not_mem_nil, or_false]; omega
  | secretKey5 ht => revert ht; simp only [List.mem_cons, List.not_mem_nil, or_false]; omega
  | _ => decide

/-- The item that comes with the error of the first call, for every tag: the header line and the rows of the fields before the one that is
missing or not accepted. -/
theorem C98_cut (hX : OwnErrors X) (x : Ctx) (tag : Nat) (body : Bytes) (i : Option Item) (e : GoErr)
    (h : (tagOnce X (some x) tag body).1 = .ret i (some e)) :
    ∃ l, TagPart x.opts X tag body l ∧ i = some (packetRow x.opts tag body l) := by
  have ht := fails_tag (((C98_outcome hX tag body).2.1 x e.cause).mp ⟨i, e, h, rfl⟩)
  obtain ⟨s, hs, rfl⟩ := full_err h
  have hstart : (TagObj.new tag body).start = Reader.new body := full_start tag body
  have hhead : (TagObj.new tag body).header (some x) = packetRow x.opts tag body [] := by
    rw [← tagHead_eq tag body x rfl]
    unfold TagObj.header; rw [hstart]; rfl
  rw [hstart, hhead] at hs
  suffices hh : ∃ l, TagPart x.opts X tag body l ∧ s.cur = packetRow x.opts tag body l by
    obtain ⟨l, h1, h2⟩ := hh; exact ⟨l, h1, by rw [h2]⟩
  have key : ∀ {α β} {m : P α} (g : α → β), (m >>= fun a => getCur >>= fun i => (Pure.pure (i, g a) : P (Item × β)))
      ⟨some x, Reader.new body, packetRow x.opts tag body []⟩ = (.err e, s) → m ⟨some x, rdAt [] body, packetRow x.opts tag body []⟩ = (.err e, s) := by
    intro α β m g hr
    rw [bind_run] at hr
    rcases hm : m ⟨some x, Reader.new body, packetRow x.opts tag body []⟩ with ⟨r, s'⟩
    rw [hm] at hr
    cases r <;> cases hr
    exact hm
  unfold TagObj.body at hs
  simp only [List.mem_cons, List.not_mem_nil, or_false] at ht
  rcases ht with rfl | rfl | rfl | rfl | rfl | rfl | rfl | rfl | rfl | rfl | rfl | rfl
  · exact tag01_part x e s rfl (key (fun _ => (none : Option Bytes)) hs)
  · exact tag02_part hX _ x e s rfl (key (fun _ => (none : Option Bytes)) hs)
  · exact tag03_part x e s rfl (key (fun _ => (none : Option Bytes)) hs)
  · exact tag04_part x e s rfl (key (fun _ => (none : Option Bytes)) hs)
  · exact tag05_part (by decide) x e s rfl (key (fun _ => (none : Option Bytes)) hs)
  · exact tag06_part (by decide) x e s rfl (key (fun _ => (none : Option Bytes)) hs)
  · exact tag05_part (by decide) x e s rfl (key (fun _ => (none : Option Bytes)) hs)
  · exact tag08_part x e s rfl (key (fun a => a) hs)
  · exact tag11_part x e s rfl (key (fun _ => (none : Option Bytes)) hs)
  · exact tag06_part (by decide) x e s rfl (key (fun _ => (none : Option Bytes)) hs)
  · exact tag17_part x e s rfl (key (fun _ => (none : Option Bytes)) hs)
  · exact tag20_part x e s rfl (key (fun _ => (none : Option Bytes)) hs)

/-- Without an error the first call gives the item of the display grammar, for every tag. -/
theorem C98_display (hX : OwnErrors X) (x : Ctx) (tag : Nat) (body : Bytes) (i : Option Item)
    (h : (tagOnce X (some x) tag body).1 = .ret i none) : ∃ j, i = some j ∧ Display x.opts X tag body j := by
  obtain ⟨j, rfl, -⟩ := C98_item _ _ _ _ h
  refine ⟨j, rfl, ?_⟩
  have hf := C98_fresh (X := X) tag body (St.at (some x) [] [] (newItem [] [] [] []))
  have h' : ((TagObj.new tag body).full X (some x)).1 = .ret (some j) none := h
  rw [show (St.at (some x) [] [] (newItem [] [] [] [])).ctx = some x from rfl, h'] at hf
  obtain ⟨-, -, -, -, -, -, -, -, -, hd⟩ := Yields.parseTag (o := x.opts) X hX tag body x _ _ _ _ _ rfl hf
  exact hd

/-- a signature cut in the left two octets of the hash value: the rows of the octets before them; a user attribute of which only a part of the
length is there: no row -/
theorem C98_cut_signature :
    SigPart Ctx.empty.opts Tests.X [0, 1, 8, 0, 0, 0, 0, 0xab] [sigTypeRow Ctx.empty.opts 0, pubRow Ctx.empty.opts 1, hashRow Ctx.empty.opts 8] ∧
    peek (tagOnce Tests.X (some Ctx.empty) 2 [4, 0, 1, 8, 0, 0, 0, 0, 0xab]) =
      ([S "Signature Packet (tag 2)", S "9 bytes", S "Version", S "Signiture Type", S "Public-key Algorithm", S "Hash Algorithm"], some .unexpectedEOF) ∧
    peek (tagOnce Tests.X (some Ctx.empty) 17 [0xff, 0]) = ([S "User Attribute Packet (tag 17)", S "2 bytes"], some .subTruncated) :=
  ⟨.left (a1 := []) (a2 := []) (i1 := []) (i2 := []) (q := [0xab]) (by decide) (by decide) .empty .empty (by decide), by decide +kernel, by decide +kernel⟩

/-- a string-to-key specifier cut behind its hash algorithm: the row of the specifier, with the hash algorithm in it; a key of which the second
number is cut: the rows up to the first one -/
theorem C98_cut_key :
    TagPart Ctx.empty.opts Tests.X 3 [4, 9, 3, 8, 1] [versionRow Ctx.empty.opts 4 (some 5) 4, symRow Ctx.empty.opts 9, s2kRow Ctx.empty.opts 3 [hashRow Ctx.empty.opts 8]] ∧
    peek (tagOnce Tests.X (some Ctx.empty) 3 [4, 9, 3, 8, 1]) =
      ([S "Symmetric-Key Encrypted Session Key Packet (tag 3)", S "5 bytes", S "Version", S "Symmetric Algorithm", S "String-to-Key (S2K) Algorithm"],
        some .unexpectedEOF) ∧
    (∃ l, l.length = 3 ∧ TagPart Ctx.empty.opts Tests.X 6 [4, 0, 0, 0, 0, 1, 0, 8, 0xff, 0] (versionRow Ctx.empty.opts 4 (some 5) 4 :: l)) ∧
    peek (tagOnce Tests.X (some Ctx.empty) 6 [4, 0, 0, 0, 0, 1, 0, 8, 0xff, 0]) =
      ([S "Public-Key Packet (tag 6)", S "10 bytes", S "Version", S "Public key creation time", S "Public-key Algorithm", S "RSA public modulus n"],
        some .unexpectedEOF) :=
  ⟨.password3 (.salt (by decide) (by decide)), by decide +kernel,
    ⟨_, rfl, .publicKey (by decide) (.key (tm := [0, 0, 0, 0]) (a := 1) (q := [0, 8, 0xff, 0]) rfl rfl
      (.next (f := [0, 8, 0xff]) (q := [0]) (.int (bits := 8) (data := [0xff]) (by decide) (by decide) .nil) (.int (.size (by decide)))))⟩, by decide +kernel⟩

/-- a version 4 secret key with the hash algorithm of the string-to-key specifier missing: the rows of the public part, and in the secret part the
cipher and the specifier -/
theorem C98_cut_secret :
    (∃ l k, l.length = 4 ∧ k.length = 2 ∧ TagPart Ctx.empty.opts Tests.X 5 [4, 0, 0, 0, 0, 22, 1, 0x2b, 0, 8, 0x40, 254, 9, 3]
      [versionRow Ctx.empty.opts 4 (some 5) 4, .mk "Public-Key".toList [] [] [] l, .mk "Secret-Key".toList [] [] [] k]) ∧
    peek (tagOnce Tests.X (some Ctx.empty) 5 [4, 0, 0, 0, 0, 22, 1, 0x2b, 0, 8, 0x40, 254, 9, 3]) =
      ([S "Secret-Key Packet (tag 5)", S "14 bytes", S "Version", S "Public-Key", S "Secret-Key"], some .eof) :=
  ⟨⟨_, _, rfl, rfl, .secretKey2 (v := 4) (a := 22) (f := [0, 0, 0, 0, 22, 1, 0x2b, 0, 8, 0x40]) (q := [254, 9, 3]) (by decide)
    (.v4 (tm := [0, 0, 0, 0]) (f := [1, 0x2b, 0, 8, 0x40]) rfl (.known rfl
      (.curve (oid := [0x2b]) (f := [0, 8, 0x40]) (by decide) (.point (bits := 8) (data := [0x40]) (f := []) (by decide) (by decide) .nil))))
    (by rw [if_neg (by decide)]; exact .options (.s2k (.inl rfl) (.hash (by decide))))⟩, by decide +kernel⟩

/-- a cut file name: the format row; data that cannot be decompressed: both rows -/
theorem C98_cut_example :
    TagPart Ctx.empty.opts Tests.X 11 [0x62, 5, 0x61] [leaf "Literal data format".toList ['b'] "binary".toList] ∧
    peek (tagOnce Tests.X (some Ctx.empty) 11 [0x62, 5, 0x61]) =
      ([S "Literal Data Packet (tag 11)", S "3 bytes", S "Literal data format"], some .unexpectedEOF) ∧
    peek (tagOnce Tests.X (some Ctx.empty) 20 [1, 9]) =
      ([S "AEAD Encrypted Data Packet (tag 20)", S "2 bytes", S "Version", S "Symmetric Algorithm"], some .eof) :=
  ⟨.literal2 (by decide), by decide +kernel, by decide +kernel⟩

end Gpgpdump
