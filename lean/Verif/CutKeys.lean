import Verif.DisplayTags

/-!
# What is shown of key material and session keys that end too early
-/

namespace Gpgpdump
open P Spec

namespace Spec

variable (o : OptCode → Bool)

/-- fields, the last of them cut off: nothing of that is shown -/
inductive FieldsCut : List Slot → Bytes → List Item → Prop
  | int {l ss q} (h : IntCut q) : FieldsCut (.int l :: ss) q []
  | point {l ss q} (h : IntCut q) : FieldsCut (.point l :: ss) q []
  | curve {ss} : FieldsCut (.curve :: ss) [] []
  | sized {s ss n q} (hs : s ∈ [Slot.curve, .kdf, .wrapped]) (hq : q.length < UInt8.toNat n) : FieldsCut (s :: ss) (n :: q) []
  | next {s ss f q is js} (h : SlotRows o [s] f q is) (h' : FieldsCut ss q js) : FieldsCut (s :: ss) (f ++ q) (is ++ js)

def createdRow (X : Ext) (tm : Bytes) : Item := leaf "Public key creation time".toList (momentText o X tm) [] (dumpIf (o DEBUG) tm)
def daysRow (days : Bytes) : Item := leaf "Valid days".toList (dec (beNat days)) "0 is forever".toList []

/-- a public key that ends too early, behind the version octet -/
inductive PubCutRows (X : Ext) : UInt8 → Bytes → List Item → Prop
  | time {v q} (hv : v ∈ [3, 4, 5]) (hq : q.length < 4) : PubCutRows X v q []
  | alg {v tm} (hv : v ∈ [4, 5]) (ht : tm.length = 4) : PubCutRows X v tm [createdRow o X tm]
  | key {tm a ss q is} (ht : tm.length = 4) (hs : pubSlots a = some ss) (h : FieldsCut o ss q is) :
      PubCutRows X 4 (tm ++ a :: q) (createdRow o X tm :: pubRow o a :: is)
  | days {tm q} (ht : tm.length = 4) (hq : q.length < 2) : PubCutRows X 3 (tm ++ q) [createdRow o X tm]
  | alg3 {tm days} (ht : tm.length = 4) (hd : days.length = 2) : PubCutRows X 3 (tm ++ days) [createdRow o X tm, daysRow days]
  | key3 {tm days a ss q is} (ht : tm.length = 4) (hd : days.length = 2) (hs : pubSlots a = some ss) (h : FieldsCut o ss q is) :
      PubCutRows X 3 (tm ++ (days ++ a :: q)) (createdRow o X tm :: daysRow days :: pubRow o a :: is)
  | size5 {tm a q} (ht : tm.length = 4) (hq : q.length < 4) : PubCutRows X 5 (tm ++ a :: q) [createdRow o X tm, pubRow o a]
  | short5 {tm a n q} (ht : tm.length = 4) (hn : n < 2 ^ 32) (hq : q.length < n) :
      PubCutRows X 5 (tm ++ a :: (beOctets 4 n ++ q)) [createdRow o X tm, pubRow o a]
  /-- the octets of the key are there, but they do not hold the fields -/
  | key5 {tm a ss b q is} (ht : tm.length = 4) (hb : b.length < 2 ^ 32) (hs : pubSlots a = some ss) (h : FieldsCut o ss b is) :
      PubCutRows X 5 (tm ++ a :: (beOctets 4 b.length ++ (b ++ q))) (createdRow o X tm :: pubRow o a :: is)

/-- a string-to-key specifier that ends too early -/
inductive S2KCutRow : Bytes → Item → Prop
  | hash {t} (ht : t ∈ [0, 1, 3]) : S2KCutRow [t] (s2kRow o t [])
  | salt {t h q} (ht : t ∈ [1, 3]) (hq : q.length < 8) : S2KCutRow (t :: h :: q) (s2kRow o t [hashRow o h])
  | count {h s} (hs : s.length = 8) : S2KCutRow (3 :: h :: s) (s2kRow o 3 [hashRow o h, saltRow s])
  | card : S2KCutRow [101, 0x47, 0x4e, 0x55, 2] (s2kRow o 101 [])
  | serial {n q} (hq : q.length < UInt8.toNat n) : S2KCutRow (101 :: 0x47 :: 0x4e :: 0x55 :: 2 :: n :: q) (s2kRow o 101 [])

end Spec

variable {o : OptCode → Bool}

namespace Cuts

theorem fieldInt {l : String} {ss : List Slot} : Cuts o (addMPI (S l)) (FieldsCut o (.int l :: ss)) :=
  (int1 (ss := [])).mono fun q k h => by
    cases h with
    | here h => exact .int h
    | next _ _ h => cases h

theorem fieldPoint {l : String} {ss : List Slot} : Cuts o (addECPoint (S l)) (FieldsCut o (.point l :: ss)) := by
  unfold addECPoint newMPI
  rw [bind_assoc_P]
  refine bytes 2 (fun q hq => .point (.size hq)) fun sz hz => ?_
  rw [bind_assoc_P]
  have h2 := beOctets_beNat sz
  rw [hz] at h2
  refine bytes _ (fun q hq => ?_) fun d hd => ?_
  · have := IntCut.data (beNat2 sz hz) hq
    rw [h2] at this
    exact .point this
  · change Cuts o (P.flag Ctx.integer >>= fun z => P.add (mpiItem (ecPointName (S l) d) (beNat sz) d z)) _
    exact integer (g := fun z => P.add (mpiItem (ecPointName (S l) d) (beNat sz) d z)) lastAdd

theorem counted {β} {l : UInt8} {g : Bytes → P β} {F : Bytes → List Item → Prop} (h0 : ∀ q : Bytes, q.length < l.toNat → F q [])
    (h : ∀ b : Bytes, b.length = l.toNat → Cuts o (g b) (fun q k => F (b ++ q) k)) :
    Cuts o ((if l = 0 then Pure.pure [] else P.readBytes l.toNat : P Bytes) >>= g) F := by
  split
  · rename_i hl
    subst hl
    exact (h [] rfl).mono fun _ _ h => by simpa using h
  · exact bytes _ h0 h

theorem ecparm {g : Bytes → P Unit} {s : Slot} {ss : List Slot} (hs : s ∈ [Slot.curve, .kdf, .wrapped]) (h : ∀ b F, Cuts o (g b) F) :
    Cuts o (newECParm >>= g) (FieldsCut o (s :: ss)) := by
  unfold newECParm
  rw [bind_assoc_P]
  intro x p q j e st hx hr
  cases q with
  | nil =>
    have hr : (g []) (St.at (some x) p [] j) = (.err e, st) := by
      rw [bind_run, rest_run] at hr
      change ((if (([] : Bytes).length : Int) ≤ 0 then Pure.pure [] else _ : P Bytes) >>= g) (St.at (some x) p [] j) = (.err e, st) at hr
      rw [if_pos (by decide)] at hr
      exact hr
    exact h [] (fun _ l => FieldsCut o (s :: ss) [] l) x p [] j e st hx hr
  | cons b q =>
    have hr : ((P.readByte >>= fun l => (if l = 0 then Pure.pure [] else P.readBytes l.toNat : P Bytes) >>= g) (St.at (some x) p (b :: q) j)) = (.err e, st) := by
      rw [bind_run, rest_run] at hr
      change ((if ((b :: q).length : Int) ≤ 0 then Pure.pure [] else (P.readByte >>= fun l => if l = 0 then Pure.pure [] else P.readBytes l.toNat) : P Bytes) >>= g)
        (St.at (some x) p (b :: q) j) = (.err e, st) at hr
      rw [if_neg (by simp only [List.length_cons]; omega), bind_assoc_P] at hr
      exact hr
    have key : Cuts o (P.readByte >>= fun l => (if l = 0 then Pure.pure [] else P.readBytes l.toNat : P Bytes) >>= g)
        (fun q l => q ≠ [] → FieldsCut o (s :: ss) q l) :=
      byte (fun h => absurd rfl h) fun n => counted (fun q hq _ => .sized hs hq) fun b _ => h b _
    obtain ⟨x', l, h1, h2, h3, h4⟩ := key x p (b :: q) j e st hx hr
    exact ⟨x', l, h1, h2, h3, h4 (by nofun)⟩

theorem fieldNext {s : Slot} {ss : List Slot} {m : P Unit} {n : P Unit} (hs : Shows o m (Shows.parts o [s])) (hc : Cuts o m (FieldsCut o (s :: ss)))
    (h : Cuts o n (FieldsCut o ss)) : Cuts o (m >>= fun _ => n) (FieldsCut o (s :: ss)) :=
  .bind hs hc fun _ _ _ => h.mono fun _ _ h2 h1 => .next h1 h2

theorem fieldCurve {ss : List Slot} {m : P Unit} (h : Cuts o m (FieldsCut o ss)) :
    Cuts o (do let oid ← newOID; P.add (oidItem oid true); m) (FieldsCut o (.curve :: ss)) := by
  unfold newOID
  rw [bind_assoc_P]
  refine byte .curve fun l => counted (fun q hq => .sized (by simp) hq) fun b hb => add (h.mono fun q k hk => ?_)
  obtain ⟨h1, h2⟩ := Shows.ofNat_len hb
  rw [oidItem_eq, h1]
  have := FieldsCut.next (.curve (o := o) (q := q) h2 .nil) hk
  simpa using this

theorem parsePub (a : UInt8) : Cuts o (parsePub a) (fun q l => ∃ ss, pubSlots a = some ss ∧ FieldsCut o ss q l) := by
  have known : ∀ {m : P Unit} {ss}, pubSlots a = some ss → Cuts o m (FieldsCut o ss) → Cuts o m (fun q l => ∃ ss, pubSlots a = some ss ∧ FieldsCut o ss q l) :=
    fun ha h => h.mono fun q l hc => ⟨_, ha, hc⟩
  have intS : ∀ {l : String} {ss} {m : P Unit}, Cuts o m (FieldsCut o ss) → Cuts o (do addMPI (S l); m) (FieldsCut o (.int l :: ss)) :=
    fun h => fieldNext Shows.int1 fieldInt h
  unfold Gpgpdump.parsePub
  rcases Lang.pubAlg_cases a with ⟨ha, h⟩ | ⟨rfl, h⟩ | ⟨ha, h⟩ | ⟨rfl, h⟩ | ⟨rfl, h⟩ | ⟨rfl, h⟩ | ⟨ha, h⟩ <;> simp only [h]
  · exact known (if_pos ha) (intS fieldInt)
  · exact known rfl (intS (intS (intS fieldInt)))
  · refine known (ss := [.int "ElGamal prime p", .int "ElGamal group generator g", .int "ElGamal public key value y (= g^x mod p where x is secret)"]) ?_
      (intS (intS fieldInt))
    simp only [List.mem_cons, List.not_mem_nil, or_false] at ha
    rcases ha with rfl | rfl <;> rfl
  · unfold ecdhPub
    refine known rfl (fieldCurve (fieldNext Shows.point1 fieldPoint (ecparm (by simp) fun b F => integer ?_)))
    dsimp only
    split
    · exact debug lastAdd
    · exact lastAdd
  · exact known rfl (fieldCurve fieldPoint)
  · exact known rfl (fieldCurve fieldPoint)
  · exact noErr (.addOpaque _)

theorem parseSes (a : UInt8) : Cuts o (parseSes a) (fun q l => ∃ ss, sesSlots a = some ss ∧ FieldsCut o ss q l) := by
  have known : ∀ {m : P Unit} {ss}, sesSlots a = some ss → Cuts o m (FieldsCut o ss) → Cuts o m (fun q l => ∃ ss, sesSlots a = some ss ∧ FieldsCut o ss q l) :=
    fun ha h => h.mono fun q l hc => ⟨_, ha, hc⟩
  unfold Gpgpdump.parseSes
  rcases Lang.pubAlg_cases a with ⟨ha, h⟩ | ⟨rfl, h⟩ | ⟨ha, h⟩ | ⟨rfl, h⟩ | ⟨rfl, h⟩ | ⟨rfl, h⟩ | ⟨ha, h⟩ <;> simp only [h]
  · exact known (if_pos ha) fieldInt
  · exact noErr (.addOpaque _)
  · refine known (ss := [.int "ElGamal g^k mod p",
      .int "ElGamal m * y^k mod p; m = sym alg(1 byte) + checksum(2 bytes) + PKCS#1 block encoding EME-PKCS1-v1_5"]) ?_ (fieldNext Shows.int1 fieldInt fieldInt)
    simp only [List.mem_cons, List.not_mem_nil, or_false] at ha
    rcases ha with rfl | rfl <;> rfl
  · exact known rfl (fieldNext Shows.point1 fieldPoint (ecparm (by simp) fun b F => integer lastAdd))
  · exact noErr (.addOpaque _)
  · exact noErr (.addOpaque _)
  · exact noErr (.addOpaque _)

theorem setMode {β} {m : Mode} {g : Unit → P β} {F : Bytes → List Item → Prop} (h : Cuts o (g ()) F) : Cuts o (P.setMode m >>= g) F :=
  fun x p q j e s hx hr => h { x with mode := m } p q j e s hx hr

theorem unknownData {F : Bytes → List Item → Prop} : Cuts o Gpgpdump.unknownData F := fun x p q j e s _ hr => by
  rw [unknownData_run] at hr
  cases hr

theorem pure {α} {a : α} {F : Bytes → List Item → Prop} : Cuts o (Pure.pure a : P α) F := fun _ _ _ _ _ _ _ hr => by cases hr

theorem pubkeyTime (X : Ext) : Cuts o (pubkeyTime X) (fun q l => q.length < 4 ∧ l = []) := by
  unfold Gpgpdump.pubkeyTime newDateTime
  refine utc ?_
  rw [bind_assoc_P]
  refine bytes 4 (fun q hq => ⟨hq, rfl⟩) fun b _ x p q j e s _ hr => ?_
  cases hr

theorem onReader {α} {m : P α} {F : Bytes → List Item → Prop} (b : Bytes) (h : Cuts o m F) : Cuts o (P.onReader (Reader.new b) m) (fun _ l => F b l) := by
  have hr : ∀ x p post j, P.onReader (Reader.new b) m (St.at (some x) p post j) =
      ((m (St.at (some x) [] b j)).1.map (fun a => (a, (m (St.at (some x) [] b j)).2.rd)),
        { (m (St.at (some x) [] b j)).2 with rd := ⟨p ++ post, p.length⟩ }) := fun _ _ _ _ => rfl
  intro x p q j e s hx hs
  rw [hr] at hs
  rcases hm : m (St.at (some x) [] b j) with ⟨r, s'⟩
  rw [hm] at hs
  cases r with
  | err e' =>
    simp only [Res.map, Prod.mk.injEq] at hs
    obtain ⟨x', l, h1, h2, h3, h4⟩ := h _ _ _ _ _ _ hx hm
    exact ⟨x', l, by rw [← hs.2]; exact h1, h2, by rw [← hs.2]; exact h3, h4⟩
  | _ => simp [Res.map] at hs

theorem pubkeyParse (X : Ext) (v : UInt8) : Cuts o (pubkeyParse X (pubVer v)) (fun q l => PubCutRows o X v q l) := by
  unfold Gpgpdump.pubkeyParse
  rcases Lang.ver_cases v with ⟨rfl, h⟩ | ⟨rfl, h, h'⟩ | ⟨rfl, h, h', h''⟩ | ⟨hv, h, h', h''⟩ <;> simp only [h]
  · rw [if_pos trivial]
    refine .bind (Shows.pubkeyTime X) ((pubkeyTime X).mono fun q l h => by obtain ⟨h, rfl⟩ := h; exact .time (by decide) h) fun _ f1 l1 => ?_
    refine byte (fun ⟨ht, hl⟩ => by rw [hl, List.append_nil]; exact .alg (by decide) ht) fun a => debug (add ?_)
    refine bytes 4 (fun q hq ⟨ht, hl⟩ => by rw [hl, pubItem_eq]; exact .size5 ht hq) fun sz hz => ?_
    refine bytes _ (fun q hq ⟨ht, hl⟩ => ?_) fun b hb => ?_
    · have := PubCutRows.short5 (o := o) (X := X) (a := a) ht (n := beNat sz) (by have := beNat_lt sz; rw [hz] at this; exact this) hq
      have h2 := beOctets_beNat sz
      rw [hz] at h2
      rw [h2] at this
      rw [hl, pubItem_eq]
      exact this
    · refine .bind (Shows.onReader b (Shows.parsePub a)) ((onReader b (parsePub a)).mono fun q l h => ?_) fun _ _ _ => pure
      obtain ⟨ss, hs, hc⟩ := h
      rintro ⟨ht, hl⟩
      obtain ⟨hl', rfl⟩ := Lang.sized4 hz hb
      rw [hl, pubItem_eq]
      exact .key5 ht hl' hs hc
  · rw [if_neg (by decide), h', if_pos rfl]
    refine .bind (Shows.pubkeyTime X) ((pubkeyTime X).mono fun q l h => by obtain ⟨h, rfl⟩ := h; exact .time (by decide) h) fun _ f1 l1 => ?_
    refine byte (fun ⟨ht, hl⟩ => by rw [hl, List.append_nil]; exact .alg (by decide) ht) fun a => debug (add ?_)
    refine .bind (Shows.parsePub a) ((parsePub a).mono fun q l h => ?_) fun _ _ _ => pure
    obtain ⟨ss, hs, hc⟩ := h
    rintro ⟨ht, hl⟩
    rw [hl, pubItem_eq]
    exact .key ht hs hc
  · rw [if_neg (by decide), h', if_neg (by decide), if_pos (by decide)]
    refine .bind (Shows.pubkeyTime X) ((pubkeyTime X).mono fun q l h => by obtain ⟨h, rfl⟩ := h; exact .time (by decide) h) fun _ f1 l1 => ?_
    refine bytes 2 (fun q hq ⟨ht, hl⟩ => by rw [hl]; exact .days ht hq) fun d hd => add ?_
    refine byte (fun ⟨ht, hl⟩ => by rw [hl, List.append_nil]; exact .alg3 ht hd) fun a => debug (add ?_)
    refine .bind (Shows.parsePub a) ((parsePub a).mono fun q l h => ?_) fun _ _ _ => pure
    obtain ⟨ss, hs, hc⟩ := h
    rintro ⟨ht, hl⟩
    rw [hl, pubItem_eq]
    exact .key3 ht hd hs hc
  · rw [if_neg (by decide), h', if_neg (by decide), h'', if_neg (by decide)]
    exact pure

theorem nested {α} {c : Item} {m : P α} {F : Bytes → List Item → Prop} (h : Cuts o m F) :
    Cuts o (P.nested c m) (fun q l => ∃ k, l = [c.addAll k] ∧ F q k) := by
  intro x p q j e s hx hr
  rw [nested_run] at hr
  rcases hm : m (St.at (some x) p q c) with ⟨r, s1⟩
  rw [hm] at hr
  simp only [Prod.mk.injEq] at hr
  obtain ⟨rfl, rfl⟩ := hr
  obtain ⟨x', l, h1, h2, h3, h4⟩ := h x p q c e s1 hx hm
  exact ⟨x', [c.addAll l], h1, h2, by rw [← h3]; rfl, l, rfl, h4⟩

theorem rest {β} {g : Int → P β} {F : Bytes → List Item → Prop} (h : ∀ n : Nat, Cuts o (g n) (fun q l => q.length = n → F q l)) : Cuts o (Gpgpdump.rest >>= g) F := by
  intro x p q j e s hx hr
  rw [bind_run, rest_run] at hr
  obtain ⟨x', l, h1, h2, h3, h4⟩ := h q.length x p q j e s hx hr
  exact ⟨x', l, h1, h2, h3, h4 rfl⟩

theorem peek3 {M : Bytes} {g : P Bool} {F : Bytes → List Item → Prop} (h0 : ∀ q : Bytes, q.length < 3 → F q []) (h1 : Cuts o g (fun q l => F (M ++ q) l)) :
    Cuts o (do
      let mrk ← P.readBytes 3
      if mrk = M then g
      else
        let _ ← P.seek (-3) 1
        return true) F := by
  intro x p q j e s hx hr
  by_cases hq : q.length < 3
  · rw [bind_run, show readBytes 3 (St.at (some x) p q j) = _ from readBytes_err _ _ _ _ 3 hq] at hr
    cases hr
    exact ⟨x, [], rfl, hx, by simp, h0 q hq⟩
  · rw [bind_run, show readBytes 3 (St.at (some x) p q j) = _ from readBytes_ok _ _ _ _ 3 (by omega)] at hr
    change (if q.take 3 = M then g else P.seek (-3) 1 >>= fun _ => Pure.pure true) (St.at (some x) (p ++ q.take 3) (q.drop 3) j) = (.err e, s) at hr
    by_cases hm : q.take 3 = M
    · rw [if_pos hm] at hr
      obtain ⟨x', l, h2, h3, h4, h5⟩ := h1 x _ _ _ _ _ hx hr
      rw [← hm, List.take_append_drop] at h5
      exact ⟨x', l, h2, h3, h4, h5⟩
    · rw [if_neg hm, bind_run, seek_back3 _ _ _ _ _ (by simp; omega)] at hr
      cases hr

theorem build {c : Item} {m : P Unit} {F : Bytes → List Item → Prop} (h : Cuts o m F) : Cuts o (P.build c m) (fun q l => l = [] ∧ ∃ k, F q k) := by
  intro x p q j e s hx hr
  rw [build_run] at hr
  rcases hm : m (St.at (some x) p q c) with ⟨r, s1⟩
  rw [hm] at hr
  simp only [Prod.mk.injEq] at hr
  obtain ⟨hr, rfl⟩ := hr
  cases r with
  | err e' =>
    obtain ⟨x', l, h1, h2, h3, h4⟩ := h x p q c e' s1 hx hm
    exact ⟨x', [], h1, h2, by simp, rfl, l, h4⟩
  | _ => simp [Res.map] at hr

theorem quiet {α β} {m : P α} {g : α → P β} {F : Bytes → List Item → Prop} (hc : Cuts o m F) (h : ∀ a st e s, g a st ≠ (.err e, s)) : Cuts o (m >>= g) F := by
  intro x p q j e s hx hr
  rw [bind_run] at hr
  rcases hm : m (St.at (some x) p q j) with ⟨r, s1⟩
  rw [hm] at hr
  cases r with
  | ok a => exact absurd hr (h _ _ _ _)
  | err e' => cases hr; exact hc x p q j _ _ hx hm
  | _ => cases hr

theorem s2kParse : Cuts o (s2kParse (o DEBUG)) (fun q l => (q = [] ∧ l = []) ∨ ∃ i, l = [i] ∧ S2KCutRow o q i) := by
  unfold Gpgpdump.s2kParse
  refine byte (.inl ⟨rfl, rfl⟩) fun ss => ?_
  suffices h : Cuts o _ (fun q k => S2KCutRow o (ss :: q) (s2kRow o ss k)) from
    (nested h).mono fun q l => by
      rintro ⟨k, rfl, hk⟩
      exact .inr ⟨_, rfl, by rw [s2kItem_eq]; exact hk⟩
  by_cases h0 : ss = 0
  · subst h0
    rw [if_pos (.inl rfl)]
    refine byte (.hash (by decide)) fun h => add ?_
    simp only
    rw [if_neg (by simp), if_neg (by decide)]
    exact pure
  · by_cases h1 : ss = 1
    · subst h1
      rw [if_pos (.inr (.inl rfl))]
      refine byte (.hash (by decide)) fun h => add ?_
      simp only
      rw [if_pos (by decide)]
      refine bytes 8 (fun q hq => by rw [hashItem_eq]; exact .salt (by decide) hq) fun s hs => add ?_
      rw [if_neg (by decide)]
      exact pure
    · by_cases h3 : ss = 3
      · subst h3
        rw [if_pos (.inr (.inr rfl))]
        refine byte (.hash (by decide)) fun h => add ?_
        simp only
        rw [if_pos (by decide)]
        refine bytes 8 (fun q hq => by rw [hashItem_eq]; exact .salt (by decide) hq) fun s hs => add ?_
        rw [if_pos trivial]
        refine byte ?_ fun c => add pure
        rw [hashItem_eq, saltItem, dumpTrue_eq, List.append_nil]
        exact .count hs
      · rw [if_neg (by simp [h0, h1, h3])]
        by_cases h101 : ss = 101
        · subst h101
          rw [if_pos rfl]
          refine rest fun n => ?_
          by_cases hn : n < 4
          · rw [if_pos (by omega)]
            exact pure
          · rw [if_neg (by omega)]
            refine peek3 (fun q hq hl => by omega) ?_
            refine byte (fun hl => by simp at hl; omega) fun n' => ?_
            dsimp only
            refine quiet ((build (F := fun q _ => n' = 2 ∧ (q = [] ∨ ∃ l r, q = l :: r ∧ r.length < l.toNat)) ?_).mono ?_) fun _ _ _ _ h => by cases h
            · by_cases hn2 : n' = 2
              · subst hn2
                rw [if_pos (by decide)]
                refine byte ⟨rfl, .inl rfl⟩ fun l => bytes _ (fun q hq => ⟨rfl, .inr ⟨l, q, rfl, hq⟩⟩) fun s hs => lastAdd
              · have : n'.toNat ≠ 2 := fun h => hn2 (UInt8.toNat_inj.mp h)
                rw [if_neg (by omega)]
                exact pure
            · rintro q l ⟨rfl, _, rfl, rfl | ⟨l, r, rfl, hr⟩⟩ _
              · exact .card
              · exact .serial hr
        · rw [if_neg h101]
          exact pure

end Cuts

end Gpgpdump
