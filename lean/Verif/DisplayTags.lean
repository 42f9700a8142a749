import Verif.DisplaySubs
import Verif.ThmAccept

/-!
# What is displayed of packets
-/

namespace Gpgpdump
open P Spec Src

set_option linter.unusedSimpArgs false

variable {o : OptCode → Bool}

/-! ## Version 3 signatures that are cut off -/

/-- `Cuts o m F`: when `m` fails on a reader with the octets `q` left, it has appended items `l` with `F q l` -/
def Cuts (o : OptCode → Bool) {α} (m : P α) (F : Bytes → List Item → Prop) : Prop :=
  ∀ x p q j e s, x.opts = o → m (St.at (some x) p q j) = (.err e, s) → ∃ x' l, s.ctx = some x' ∧ x'.opts = o ∧ s.cur = j.addAll l ∧ F q l

namespace Cuts

theorem mono {α} {m : P α} {F F' : Bytes → List Item → Prop} (h : Cuts o m F) (h' : ∀ q l, F q l → F' q l) : Cuts o m F' := by
  intro x p q j e s hx hr
  obtain ⟨x', l, h1, h2, h3, h4⟩ := h x p q j e s hx hr
  exact ⟨x', l, h1, h2, h3, h' _ _ h4⟩

theorem bind {α β} {m : P α} {g : α → P β} {E : α → Bytes → Bytes → List Item → Prop} {F : Bytes → List Item → Prop} (hs : Shows o m E) (hc : Cuts o m F)
    (h : ∀ a f l, Cuts o (g a) (fun q k => E a f q l → F (f ++ q) (l ++ k))) : Cuts o (m >>= g) F := by
  intro x p q j e s hx hr
  rw [bind_run] at hr
  rcases hm : m (St.at (some x) p q j) with ⟨r, s1⟩
  rw [hm] at hr
  cases r with
  | ok a =>
    obtain ⟨x1, f, q1, l, hx1, rfl, rfl, h1⟩ := hs x p q j a s1 hx hm
    obtain ⟨x2, k, h2, h3, h4, h5⟩ := h a f l x1 _ _ _ e s hx1 hr
    exact ⟨x2, l ++ k, h2, h3, by rw [h4, Item.addAll_addAll], h5 h1⟩
  | err e' =>
    simp only [Prod.mk.injEq, Res.err.injEq] at hr
    obtain ⟨rfl, rfl⟩ := hr
    exact hc x p q j e' s1 hx hm
  | panic _ => simp at hr
  | stuck => simp at hr

theorem byte {β} {g : UInt8 → P β} {F : Bytes → List Item → Prop} (h0 : F [] []) (h : ∀ b, Cuts o (g b) (fun q l => F (b :: q) l)) : Cuts o (readByte >>= g) F := by
  intro x p q j e s hx hr
  rw [bind_run] at hr
  cases q with
  | nil =>
    rw [readByte_nil] at hr
    simp only [Prod.mk.injEq] at hr
    exact ⟨x, [], by rw [← hr.2]; rfl, hx, by rw [← hr.2]; simp, h0⟩
  | cons b q =>
    rw [readByte_cons] at hr
    exact h b x _ _ _ e s hx hr

theorem bytes {β} (n : Nat) {g : Bytes → P β} {F : Bytes → List Item → Prop} (h0 : ∀ q : Bytes, q.length < n → F q [])
    (h : ∀ b : Bytes, b.length = n → Cuts o (g b) (fun q l => F (b ++ q) l)) : Cuts o (readBytes n >>= g) F := by
  intro x p q j e s hx hr
  rw [bind_run] at hr
  by_cases hq : q.length < n
  · rw [readBytes_err _ _ _ _ _ hq] at hr
    simp only [Prod.mk.injEq] at hr
    exact ⟨x, [], by rw [← hr.2]; rfl, hx, by rw [← hr.2]; simp, h0 q hq⟩
  · rw [readBytes_ok _ _ _ _ _ (by omega)] at hr
    obtain ⟨x', l, h1, h2, h3, h4⟩ := h (q.take n) (by simp; omega) x _ _ _ e s hx hr
    exact ⟨x', l, h1, h2, h3, by rwa [List.take_append_drop] at h4⟩

theorem add {β} {i : Item} {g : Unit → P β} {F : Bytes → List Item → Prop} (h : Cuts o (g ()) (fun q l => F q (i :: l))) : Cuts o (P.add i >>= g) F := by
  intro x p q j e s hx hr
  obtain ⟨x', l, h1, h2, h3, h4⟩ := h x p q (j.add i) e s hx hr
  exact ⟨x', i :: l, h1, h2, by rw [h3, Item.add_eq, Item.addAll_addAll]; rfl, h4⟩

theorem lastAdd {i : Item} {F : Bytes → List Item → Prop} : Cuts o (P.add i) F := by
  intro x p q j e s hx hr
  rw [add_run] at hr; simp at hr

theorem flag {β} {K : Ctx → Bool} {v : Bool} {g : Bool → P β} {F : Bytes → List Item → Prop} (hv : ∀ x : Ctx, x.opts = o → K x = v)
    (h : Cuts o (g v) F) : Cuts o (P.flag K >>= g) F := by
  intro x p q j b s hx hr
  rw [bind_run, flag_run] at hr
  simp only [St.at_ctx, ctxFlag, hv x hx] at hr
  exact h x p q j b s hx hr

theorem debug {β} {g : Bool → P β} {F : Bytes → List Item → Prop} (h : Cuts o (g (o DEBUG)) F) : Cuts o (P.flag Ctx.debug >>= g) F :=
  flag (fun x hx => by subst hx; rfl) h
theorem integer {β} {g : Bool → P β} {F : Bytes → List Item → Prop} (h : Cuts o (g (o INTEGER || o DEBUG)) F) : Cuts o (P.flag Ctx.integer >>= g) F :=
  flag (fun x hx => by subst hx; rfl) h
theorem utc {β} {g : Bool → P β} {F : Bytes → List Item → Prop} (h : Cuts o (g (o UTC)) F) : Cuts o (P.flag Ctx.utc >>= g) F :=
  flag (fun x hx => by subst hx; rfl) h

theorem int1 {l : String} {ss : List Slot} : Cuts o (addMPI (S l)) (SlotsCut o (.int l :: ss)) := by
  unfold addMPI newMPI
  rw [bind_assoc_P]
  refine bytes 2 (fun q hq => .here (.size hq)) fun sz hz => ?_
  rw [bind_assoc_P]
  have h2 := beOctets_beNat sz
  rw [hz] at h2
  refine bytes _ (fun q hq => ?_) fun d hd => ?_
  · have := IntCut.data (beNat2 sz hz) hq
    rw [h2] at this
    exact .here this
  · change Cuts o (P.flag Ctx.integer >>= fun z => P.add (mpiItem (S l) (beNat sz) d z)) _
    exact integer (g := fun z => P.add (mpiItem (S l) (beNat sz) d z)) lastAdd

theorem intS {l : String} {ss : List Slot} {m : P Unit} (h : Cuts o m (SlotsCut o ss)) : Cuts o (do addMPI (S l); m) (SlotsCut o (.int l :: ss)) := by
  refine bind Shows.int1 int1 fun _ f k => h.mono fun q k2 h2 h1 => ?_
  cases h1 with
  | @int _ _ bits data f _ is hb hl h' =>
    cases h'
    rw [List.append_nil, List.append_assoc, List.singleton_append]
    exact .next hb hl h2

theorem noErr {α} {m : P α} {F : Bytes → List Item → Prop} (h : Idle m) : Cuts o m F := by
  intro x p q j e s hx hr
  obtain ⟨a, x', j', h1⟩ := h.run x p q j
  rw [h1] at hr; simp at hr

theorem parseSig (a : UInt8) : Cuts o (parseSig a) (fun q l => ∃ ss, sigSlots a = some ss ∧ SlotsCut o ss q l) := by
  have known : ∀ {m : P Unit} {ss}, sigSlots a = some ss → Cuts o m (SlotsCut o ss) → Cuts o m (fun q l => ∃ ss, sigSlots a = some ss ∧ SlotsCut o ss q l) :=
    fun ha h => h.mono fun q l hc => ⟨_, ha, hc⟩
  unfold Gpgpdump.parseSig
  rcases Lang.pubAlg_cases a with ⟨ha, h⟩ | ⟨rfl, h⟩ | ⟨ha, h⟩ | ⟨rfl, h⟩ | ⟨rfl, h⟩ | ⟨rfl, h⟩ | ⟨ha, h⟩ <;> simp only [h]
  · exact known (if_pos ha) int1
  · exact known rfl (intS int1)
  · refine known (ss := [.int "ElGamal a = g^k mod p", .int "ElGamal b = (h - a*x)/k mod p - 1"]) ?_ (intS int1)
    simp only [List.mem_cons, List.not_mem_nil, or_false] at ha
    rcases ha with rfl | rfl <;> rfl
  · exact noErr (.addOpaque _)
  · exact known rfl (intS int1)
  · exact known rfl (intS int1)
  · exact noErr (.addOpaque _)

end Cuts

variable (X : Ext)

theorem leafItem (n : Str) (note : Str) (v d : Str) : ((newItem n [] note).setValue v).setDump d = leaf n v note d := rfl

theorem Shows.hashed3 : Shows o (do
    let sz ← P.readByte
    P.nested (newItem (S "Hashed material") [] (nBytes sz.toNat)) do
      if sz ≠ 5 then
        P.setValue Unknown
        let b ← P.readBytes sz.toNat
        P.setDump (dumpBytes b (← P.flag Ctx.debug))
      else
        let sig ← P.readByte
        P.add (sigItem sig (← P.flag Ctx.debug))
        let tm ← newDateTime (← P.flag Ctx.utc)
        P.add (dateTimeItem X tm (S "Signature creation time") (← P.flag Ctx.debug))) (fun _ f _ l => ∃ i, l = [i] ∧ Hashed3Shown o X f i) := by
  refine byte fun sz => ?_
  by_cases hz : sz = 5
  · subst hz
    rw [if_neg (by decide)]
    refine (nested (byte fun t => debug (add (time fun tm ht => debug (lastAdd fun q => ?_)))) (E1 := fun _ f q k => ∃ t tm, f = t :: tm ∧ tm.length = 4 ∧
      k = [sigTypeRow o t, leaf "Signature creation time".toList (momentText o X tm) [] (dumpIf (o DEBUG) tm)])).mono fun _ f q l hl => ?_
    · rw [sigItem_eq, timeItem_eq]
      exact ⟨t, tm, by rw [List.append_nil], ht, rfl⟩
    · obtain ⟨k, rfl, t, tm, rfl, ht, rfl⟩ := hl
      exact ⟨_, rfl, .five ht⟩
  · rw [if_pos hz]
    intro x p q j a s hx hr
    rw [nested_run] at hr
    simp only [bind_run, setValue_run] at hr
    by_cases hq : q.length < sz.toNat
    · rw [readBytes_err _ _ _ _ _ hq] at hr
      simp at hr
    · rw [readBytes_ok _ _ _ _ _ (by omega)] at hr
      simp only [flag_run, setDump_run, St.at_ctx, Prod.mk.injEq] at hr
      refine ⟨x, q.take sz.toNat, q.drop sz.toNat, [leaf "Hashed material".toList "Unknown".toList (sizeText (q.take sz.toNat).length) (dumpIf (o DEBUG) (q.take sz.toNat))],
        hx, (List.take_append_drop _ _).symm, ?_, _, rfl, ?_⟩
      · rw [← hr.2]
        have hl : (q.take sz.toNat).length = sz.toNat := by simp; omega
        have hd : ctxFlag Ctx.debug (some x) = o DEBUG := by subst hx; rfl
        rw [leafItem, hd, dumpIf_eq, hl, Item.add_eq]
        rfl
      · have hl : (q.take sz.toNat).length = sz.toNat := by simp; omega
        have := Hashed3Shown.other (o := o) (X := X) (b := q.take sz.toNat) (by rw [hl]; exact sz.toNat_lt) (by
          rw [hl]; intro h; exact hz (UInt8.toNat_inj.mp h))
        rw [hl] at this ⊢
        simpa only [UInt8.ofNat_toNat] using this

theorem Cuts.hashed3 : Cuts o (do
    let sz ← P.readByte
    P.nested (newItem (S "Hashed material") [] (nBytes sz.toNat)) do
      if sz ≠ 5 then
        P.setValue Unknown
        let b ← P.readBytes sz.toNat
        P.setDump (dumpBytes b (← P.flag Ctx.debug))
      else
        let sig ← P.readByte
        P.add (sigItem sig (← P.flag Ctx.debug))
        let tm ← newDateTime (← P.flag Ctx.utc)
        P.add (dateTimeItem X tm (S "Signature creation time") (← P.flag Ctx.debug))) (fun q l => Sig3Cut o X q l) := by
  refine byte .size fun sz => ?_
  by_cases hz : sz = 5
  · subst hz
    rw [if_neg (by decide)]
    have inner : Cuts o (do
        let sig ← P.readByte
        P.add (sigItem sig (← P.flag Ctx.debug))
        let tm ← newDateTime (← P.flag Ctx.utc)
        P.add (dateTimeItem X tm (S "Signature creation time") (← P.flag Ctx.debug)))
        (fun q l => (q = [] ∧ l = []) ∨ ∃ t tm, q = t :: tm ∧ tm.length < 4 ∧ l = [sigTypeRow o t]) := by
      refine byte (.inl ⟨rfl, rfl⟩) fun t => debug (add (utc ?_))
      unfold newDateTime
      rw [bind_assoc_P]
      refine bytes 4 (fun q hq => .inr ⟨t, q, rfl, hq, by rw [sigItem_eq]⟩) fun b hb => ?_
      refine debug (g := fun z => P.add (dateTimeItem X ⟨b, o UTC⟩ (S "Signature creation time") z)) ?_
      exact lastAdd
    intro x p q j e s hx hr
    rw [nested_run] at hr
    simp only [Prod.mk.injEq] at hr
    obtain ⟨h1, rfl⟩ := hr
    obtain ⟨x', l, h2, h3, h4, h5⟩ := inner x p q (newItem (S "Hashed material") [] (nBytes (5 : UInt8).toNat)) e _ hx (by rw [← h1])
    refine ⟨x', [(newItem (S "Hashed material") [] (nBytes (5 : UInt8).toNat)).addAll l], h2, h3, by rw [← Item.add_eq, ← h4], ?_⟩
    rcases h5 with ⟨rfl, rfl⟩ | ⟨t, tm, rfl, ht, rfl⟩
    · exact .hashed .kind
    · exact .hashed (.time ht)
  · rw [if_pos hz]
    intro x p q j a s hx hr
    rw [nested_run] at hr
    simp only [bind_run, setValue_run] at hr
    by_cases hq : q.length < sz.toNat
    · rw [readBytes_err _ _ _ _ _ hq] at hr
      simp only [Prod.mk.injEq] at hr
      refine ⟨x, [(newItem (S "Hashed material") [] (nBytes sz.toNat)).setValue Unknown], by rw [← hr.2]; rfl, hx, by rw [← hr.2]; rfl, ?_⟩
      exact .hashed (.other hz hq)
    · rw [readBytes_ok _ _ _ _ _ (by omega)] at hr
      simp only [flag_run, setDump_run, St.at_ctx, Prod.mk.injEq] at hr
      cases hr.1

theorem tag02v3_split : tag02v3 X = (do
    (do
    let sz ← P.readByte
    P.nested (newItem (S "Hashed material") [] (nBytes sz.toNat)) do
      if sz ≠ 5 then
        P.setValue Unknown
        let b ← P.readBytes sz.toNat
        P.setDump (dumpBytes b (← P.flag Ctx.debug))
      else
        let sig ← P.readByte
        P.add (sigItem sig (← P.flag Ctx.debug))
        let tm ← newDateTime (← P.flag Ctx.utc)
        P.add (dateTimeItem X tm (S "Signature creation time") (← P.flag Ctx.debug)))
    let keyid ← P.readBytes 8
    P.add (keyIDItem keyid)
    let pubid ← P.readByte
    P.add (pubItem pubid (← P.flag Ctx.debug))
    let hashid ← P.readByte
    P.add (hashItem hashid (← P.flag Ctx.debug))
    let hv ← P.readBytes 2
    P.add (hashLeft2 hv)
    parseSig pubid) := by
  unfold tag02v3
  rw [bind_assoc_P]

theorem hashLeft2_eq (l : Bytes) : hashLeft2 l = left16Row l := by unfold hashLeft2; rw [dumpTrue_eq]; rfl

theorem Shows.tag02v3 : Shows o (tag02v3 X) (fun _ f q l => Sig3Shown o X (f ++ q) (l ++ unknownRows o q)) := by
  rw [tag02v3_split]
  refine (hashed3 X).bind fun _ f1 l1 => bytes 8 fun kid hk => add (byte fun a => debug (add (byte fun h => debug (add (bytes 2 fun hv hl => add
    ((parseSig a).mono fun _ f q k hk2 h1 => ?_))))))
  obtain ⟨i, rfl, h1⟩ := h1
  rw [keyIDItem_eq _ hk, pubItem_eq, hashItem_eq, hashLeft2_eq]
  have := Sig3Shown.mk (h := h) h1 hk hl hk2
  simp only [List.append_assoc, List.cons_append, List.nil_append] at this ⊢
  exact this

theorem Cuts.tag02v3 : Cuts o (tag02v3 X) (fun q l => Sig3Cut o X q l) := by
  rw [tag02v3_split]
  refine bind (Shows.hashed3 X) (hashed3 X) fun _ f1 l1 => bytes 8 (fun q hq h1 => ?_) fun kid hk => add (byte (fun h1 => ?_) fun a => debug (add
    (byte (fun h1 => ?_) fun h => debug (add (bytes 2 (fun q hq h1 => ?_) fun hv hl => add
    ((parseSig a).mono fun q k hk2 h1 => ?_))))))
  all_goals obtain ⟨i, rfl, h1⟩ := h1
  · exact .keyID h1 hq
  · rw [keyIDItem_eq _ hk, List.append_nil]
    exact .algorithm h1 hk
  · rw [keyIDItem_eq _ hk, pubItem_eq]
    exact .hash h1 hk
  · rw [keyIDItem_eq _ hk, pubItem_eq, hashItem_eq]
    exact .left h1 hk hq
  · obtain ⟨ss, ha, hc⟩ := hk2
    rw [keyIDItem_eq _ hk, pubItem_eq, hashItem_eq, hashLeft2_eq]
    exact .integers h1 hk hl ha hc

/-! ## Packets in packets -/

section
variable {recur : TagParser} (hrec : ∀ tag body, Yields o (recur tag body) (Display o X tag body))
include hrec

theorem Shows.block {f : Nat} {src : Src} (hs : src.strict = true) : Shows o (forPackets X recur f src)
    (fun _ g _ l => g = [] ∧ ∃ ps a b, src.data = a ++ b ∧ ClosedSeq ps a ∧ KeyEnd X b ∧ DisplayAll o X ps l) := by
  induction f generalizing src with
  | zero => intro x p q j a s hx hr; simp [forPackets, P.stuck] at hr
  | succ f ih =>
    obtain ⟨hk, hm⟩ := nextPacket_spec (X := X) (s := src) (.inl hs)
    have hq := nextPacket_quiet (X := X) hs
    unfold forPackets
    rcases hn : nextPacket X src with ⟨r, src'⟩
    rw [hn] at hk hm hq
    cases r with
    | error e =>
      have hq' : e.isEOF = true ↔ KeyEnd X src.data := by rw [← hq]; simp
      simp only
      by_cases he : e.isEOF = true
      · rw [if_pos he]
        exact pure fun q => ⟨rfl, [], [], src.data, rfl, .nil, hq'.mp he, .nil⟩
      · rw [if_neg he]; exact fail
    | ok tb =>
      obtain ⟨tag, body⟩ := tb
      simp only at hm ⊢
      cases hdec : decNext src.data with
      | packet t b rest =>
        rw [hdec] at hm
        simp only at hm
        obtain ⟨h1, h2⟩ := hm
        cases h1
        obtain ⟨enc, he, hd⟩ := decNext_sound hdec
        refine (hrec tag body).bind fun i f1 l1 => add ((ih (hk.strict.trans hs)).mono fun _ f2 q l2 h3 h4 => ?_)
        obtain ⟨rfl, rfl, hi⟩ := h4
        obtain ⟨rfl, ps, a, b, h5, h6, h7, h8⟩ := h3
        refine ⟨rfl, (tag, body) :: ps, enc ++ a, b, ?_, .cons he h6, h7, .cons hi h8⟩
        rw [hd, ← h2, h5, List.append_assoc]
      | _ => rw [hdec] at hm; simp [hs] at hm

theorem Shows.seq {f : Nat} {src : Src} (hl : Lazy src) (hs : src.strict = false) (ht : src.tail = rawErr .eof) (hf : src.data.length < f) :
    Shows o (forPackets X recur f src) (fun _ g _ l => g = [] ∧ ∃ ps, PacketSeq ps src.data ∧ DisplayAll o X ps l) := by
  induction f generalizing src with
  | zero => omega
  | succ f ih =>
    obtain ⟨hk, hm⟩ := nextPacket_spec (X := X) hl
    rcases hn : nextPacket X src with ⟨r, src'⟩
    rw [hn] at hk hm
    unfold forPackets
    rw [hn]
    cases hd : decNext src.data with
    | packet t b rest =>
      rw [hd] at hm
      obtain ⟨rfl, h2⟩ := hm
      have hlt := decNext_shorter hd
      simp only at h2 ⊢
      refine (hrec t b).bind fun i f1 l1 => add ((ih (hk.isLazy hl) (hk.strict.trans hs) (hk.tail.trans ht) (by rw [h2]; omega)).mono fun _ f2 q l2 h3 h4 => ?_)
      obtain ⟨rfl, rfl, hi⟩ := h4
      obtain ⟨rfl, ps, h5, h8⟩ := h3
      rw [h2] at h5
      exact ⟨rfl, (t, b) :: ps, (packetSeq_cons hd).mpr ⟨ps, rfl, h5⟩, .cons hi h8⟩
    | toEnd t b =>
      rw [hd] at hm
      obtain ⟨h1, h2⟩ := (hm.1 hs).1 (by rw [ht]; rfl)
      simp only at h1 h2
      subst h1
      have hlt : src'.data.length < f := by
        rw [h2]
        have hne : src.data ≠ [] := by intro h; rw [h] at hd; simp [decNext] at hd
        have := List.length_pos_iff.mpr hne
        simp; omega
      simp only
      refine (hrec t b).bind fun i f1 l1 => add ((ih (hk.isLazy hl) (hk.strict.trans hs) (hk.tail.trans ht) hlt).mono fun _ f2 q l2 h3 h4 => ?_)
      obtain ⟨rfl, rfl, hi⟩ := h4
      obtain ⟨rfl, ps, h5, h8⟩ := h3
      rw [h2] at h5
      have hps : ps = [] := by
        rcases packetSeq_iff.mp h5 with h | ⟨qs, t', b', h, rfl⟩
        · exact (congrArg Prod.fst h).symm.trans rfl
        · cases (congrArg Prod.snd h : (Stop.clean : Stop) = _)
      subst hps
      cases h8
      exact ⟨rfl, [(t, b)], .toEnd (decNext_toEnd hd), .cons hi .nil⟩
    | noMSB =>
      rw [hd] at hm
      simp only at hm
      subst hm
      simp only
      exact fail
    | truncated =>
      rw [hd] at hm
      obtain ⟨e, h1, h2⟩ := hm
      simp only at h1
      subst h1
      simp only
      have he : ¬ e.isEOF = true := by
        rcases h2 with ⟨-, rfl⟩ | ⟨h3, -⟩
        · rw [ht]; decide
        · rw [hs] at h3; cases h3
      rw [if_neg he]
      exact fail
    | atEnd =>
      rw [hd] at hm
      obtain ⟨e, h1, h2⟩ := hm
      simp only at h1
      subst h1
      simp only
      have h0 := decNext_atEnd.mp hd
      by_cases he : e.isEOF = true
      · rw [if_pos he, h0]
        exact pure fun q => ⟨rfl, [], .nil, .nil⟩
      · rw [if_neg he]; exact fail

/-! ## Subpacket areas -/

omit hrec in
theorem rawData_row (p q : Bytes) (n : Str) (f : Bool) : rawData (rdAt p q) n f = leaf n [] (sizeText q.length) (dumpIf f q) := by
  rw [rawData_at, rawItem_eq]

theorem Yields.sub32 {t : UInt8} {b : Bytes} (h : t.toNat % 128 = 32) :
    Yields o (parseSub02 X recur t b) (fun i => ∃ k, i = subRow o t b [k] ∧ Display o X 2 b k) := by
  refine Yields.sub X ?_
  rw [h, sub02Body_32]
  unfold Gpgpdump.sub32
  refine Ret.getBody (Ret.shows (hrec 2 ([] ++ b)) fun i f q' l hq hi => Ret.add (Ret.getCur ?_))
  obtain ⟨rfl, rfl, hi⟩ := hi
  exact ⟨i, by rw [Item.addAll_nil, subHead_add], hi⟩

theorem Yields.sub38 {t : UInt8} {b : Bytes} (h : t.toNat % 128 = 38) :
    Yields o (parseSub02 X recur t b) (fun i => (∃ k d, b = k :: d ∧ k ≠ 0 ∧
        i = subRow o t (k :: d) [numRow "Type" k, leaf "Key data".toList [] (sizeText d.length) (dumpIf (o DEBUG) d)]) ∨
      ∃ ps c d js, b = 0 :: (c ++ d) ∧ ClosedSeq ps c ∧ KeyEnd X d ∧ DisplayAll o X ps js ∧
        i = subRow o t (0 :: (c ++ d)) [numRow "Type" 0, .mk "Key data".toList [] (dumpIf (o DEBUG) (c ++ d)) (sizeText (c ++ d).length) js]) := by
  refine Yields.sub X ?_
  rw [h, sub02Body_38]
  unfold Gpgpdump.sub38
  refine Ret.byte fun k d hb => Ret.add (Ret.reader (Ret.debug ?_))
  subst hb
  dsimp only
  rw [rawData_row]
  by_cases hk : k = 0
  · subst hk
    rw [if_pos rfl, ofReader_at]
    refine Ret.shows (Shows.build (Shows.block X hrec rfl)) fun i f q' l hq hi => Ret.add (Ret.getCur (.inr ?_))
    obtain ⟨rfl, js, rfl, rfl, ps, c, e, h1, h2, h3, h4⟩ := hi
    simp only at h1
    subst h1
    exact ⟨ps, c, e, js, rfl, h2, h3, h4, by rw [Item.addAll_nil, Item.addAll_addAll, subHead_add]; rfl⟩
  · rw [if_neg hk]
    refine Ret.add (Ret.getCur (.inl ⟨k, d, rfl, hk, ?_⟩))
    rw [Item.addAll_addAll, subHead_add]; rfl

theorem Shows.subs (l : List (UInt8 × Bytes)) : Shows o (subLoop (parseSub02 X recur) l) (fun _ f _ is => f = [] ∧ SubsShown o X l is) := by
  induction l with
  | nil => exact pure fun q => ⟨rfl, .nil⟩
  | cons s l ih =>
    obtain ⟨t, b⟩ := s
    have hnil : ∀ {R : Item → Prop}, Yields o (parseSub02 X recur t b) R → (∀ i is, R i → SubsShown o X l is → SubsShown o X ((t, b) :: l) (i :: is)) →
        Shows o (subLoop (parseSub02 X recur) ((t, b) :: l)) (fun _ f _ is => f = [] ∧ SubsShown o X ((t, b) :: l) is) := by
      intro R h h'
      unfold subLoop
      refine Shows.bind h fun i f1 l1 => add (ih.mono fun _ f2 q l2 h2 h1 => ?_)
      obtain ⟨rfl, rfl, hi⟩ := h1
      obtain ⟨rfl, h2⟩ := h2
      exact ⟨rfl, h' i l2 hi h2⟩
    by_cases h32 : t.toNat % 128 = 32
    · refine hnil (Yields.sub32 X hrec h32) ?_
      rintro i is ⟨k, rfl, hk⟩ hs
      exact .embedded h32 hk hs
    · by_cases h38 : t.toNat % 128 = 38
      · refine hnil (Yields.sub38 X hrec h38) ?_
        rintro i is (⟨k, d, rfl, hk, rfl⟩ | ⟨ps, c, d, js, rfl, h1, h2, h3, rfl⟩) hs
        · exact .keyBlockOther h38 hk hs
        · exact .keyBlock h38 h1 h2 h3 hs
      · exact hnil (Yields.plain X recur h32 h38) fun i is hi hs => .plain hi hs

omit hrec in
theorem Shows.area {p : UInt8 → Bytes → P Item} {R : List (UInt8 × Bytes) → List Item → Prop} (name : String) (area : Bytes)
    (h : ∀ l, Shows o (subLoop p l) (fun _ f _ is => f = [] ∧ R l is)) :
    Shows o (addSubpackets p (S name) area) (fun _ f _ is => f = [] ∧ ∃ subs js, SubSeq subs area ∧ R subs js ∧ is = [areaRow o name area js]) := by
  unfold addSubpackets
  refine debug ?_
  cases ho : opaqueSubpackets area with
  | error e => exact fail
  | ok l =>
    simp only
    refine Shows.bind (build (h l)) fun i f1 l1 => lastAdd fun q h1 => ?_
    obtain ⟨rfl, k, rfl, rfl, hk⟩ := h1
    refine ⟨rfl, l, k, opaqueSubpackets_ok.mp ho, hk, ?_⟩
    rw [dumpIf_eq]; rfl

theorem Shows.subArea (name : String) : Shows o (subArea X recur (S name)) (fun _ f _ is => ∃ area, area.length < 65536 ∧
    f = beOctets 2 area.length ++ area ∧ AreaRows o X name area is) := by
  unfold Gpgpdump.subArea
  refine bytes 2 fun sz hz => ?_
  dsimp only
  by_cases hs : beNat sz > 0
  · rw [if_pos hs]
    refine bytes _ fun a ha => (area name a (subs X hrec)).mono fun _ f _ is h => ?_
    obtain ⟨rfl, l, js, h1, h2, rfl⟩ := h
    obtain ⟨h3, h4⟩ := beOctets2_eq hz ha
    exact ⟨a, h3, by rw [← h4, List.append_nil], .subs (by rintro rfl; simp at ha; omega) h1 h2⟩
  · rw [if_neg hs]
    refine pure fun q => ⟨[], by decide, ?_, .empty⟩
    have := beOctets_beNat sz
    rw [hz, show beNat sz = 0 by omega] at this
    rw [List.append_nil, List.append_nil, ← this]; rfl

end

/-! ## Packets -/

/-- the current item is the display of the packet -/
abbrev Shown2 (o : OptCode → Bool) (X : Ext) (tag : Nat) : Unit → Bytes → Bytes → List Item → Prop :=
  fun _ f q l => Display o X tag (f ++ q) (packetRow o tag (f ++ q) l)

theorem Ret.ofShows {α} {m : P α} {E p q j} {R : α → Item → Prop} (hm : Shows o m E) (h : ∀ a f q' l, q = f ++ q' → E a f q' l → R a (j.addAll l)) :
    Ret o m (rdAt p q) j R := by
  intro x a s hx hr
  obtain ⟨x1, f1, q1, l1, hx1, rfl, rfl, h1⟩ := hm x p q j a s hx hr
  exact ⟨⟨x1, rfl, hx1⟩, h a f1 q1 l1 rfl h1⟩

theorem packetRow_add (tag : Nat) (b : Bytes) (l : List Item) : (packetRow o tag b []).addAll l = packetRow o tag b l := rfl

theorem Ret.packet {tag : Nat} {m : P Unit} {b : Bytes} (h : Shows o m (Shown2 o X tag)) :
    Ret o m (rdAt [] b) (packetRow o tag b []) (fun _ i => Display o X tag b i) :=
  Ret.ofShows h fun _ f q l hq hd => by rw [packetRow_add, hq]; exact hd

namespace Shows

theorem tag01 : Shows o tag01 (Shown2 o X 1) := by
  unfold Gpgpdump.tag01
  refine setMode (byte fun v => debug (add (bytes 8 fun kid hk => add (byte fun a => debug (add ((parseSes a).bind fun _ f l => unknownData fun q h => ?_))))))
  rw [sesVer_eq, keyIDItem_eq _ hk, pubItem_eq]
  have := Display.sessionKey (o := o) (X := X) (v := v) hk h
  simp only [Shown2, List.append_assoc, List.cons_append, List.nil_append, List.append_nil] at this ⊢
  exact this

theorem tag03 : Shows o tag03 (Shown2 o X 3) := by
  unfold Gpgpdump.tag03
  refine setMode (byte fun v => debug (add ?_))
  simp only [symVer_cases]
  rw [symVer_eq]
  by_cases hv : v = 4
  · subst hv
    rw [if_pos (by decide)]
    refine byte fun c => add (s2kParse.bind fun iv f l => unknownData fun q h => ?_)
    obtain ⟨i, rfl, hi⟩ := h
    rw [symItem_eq]
    have := Display.password (o := o) (X := X) (c := c) hi
    simp only [Shown2, List.append_assoc, List.cons_append, List.nil_append, List.append_nil] at this ⊢
    exact this
  · rw [if_neg (by simpa using hv)]
    exact unknownData fun q => .passwordOther hv

theorem tag04 : Shows o tag04 (Shown2 o X 4) := by
  unfold Gpgpdump.tag04
  refine byte fun v => debug (add (byte fun t => debug (add (byte fun h => debug (add (byte fun a => debug (add (bytes 8 fun kid hk => add (byte fun last => add
    (unknownData fun q => ?_))))))))))
  rw [oneVer_eq, sigItem_eq, hashItem_eq, pubItem_eq, keyIDItem_eq _ hk]
  have := Display.onePass (o := o) (X := X) (v := v) (t := t) (h := h) (a := a) (last := last) (q := q) hk
  simp only [Shown2, List.append_assoc, List.cons_append, List.nil_append]
  have e : newItem (S "Encrypted session key") (if last = 0 then S "another one pass signature" else S "other than one pass signature")
      (S "flag " ++ hashHex2 last.toNat) = leaf "Encrypted session key".toList (if last = 0 then "another one pass signature".toList
        else "other than one pass signature".toList) ("flag 0x".toList ++ hexOctet last) := by
    unfold hashHex2
    rw [hex_octet_eq]; rfl
  rw [e]
  exact this

theorem tag05 {tag : Nat} (ht : tag ∈ [5, 7]) : Shows o (tag05 X) (Shown2 o X tag) := by
  unfold Gpgpdump.tag05
  refine byte fun v => debug (add (Shows.bind (nested (pubkeyParse X v)) fun a f l => Shows.bind (seckey v a) fun _ f2 l2 => unknownData fun q h2 h1 => ?_))
  obtain ⟨is, rfl, h1⟩ := h1
  obtain ⟨i, rfl, h2⟩ := h2
  rw [pubVer_eq]
  have := Display.secretKey (o := o) ht (by simpa only [List.append_nil, List.nil_append] using h1) (by simpa only [List.nil_append] using h2)
  simp only [Shown2, List.append_assoc, List.cons_append, List.nil_append, List.append_nil] at this ⊢
  exact this

theorem tag06 {tag : Nat} (ht : tag ∈ [6, 14]) : Shows o (tag06 X) (Shown2 o X tag) := by
  unfold Gpgpdump.tag06
  refine byte fun v => debug (add ((pubkeyParse X v).bind fun a f l => unknownData fun q h1 => ?_))
  rw [pubVer_eq]
  have := Display.publicKey (o := o) ht (by simpa only [List.append_nil, List.nil_append] using h1)
  simp only [Shown2, List.append_assoc, List.cons_append, List.nil_append, List.append_nil] at this ⊢
  exact this

theorem raw {n : Str} {f : Bool} {E : Unit → Bytes → Bytes → List Item → Prop} (h : ∀ q, E () [] q [leaf n [] (sizeText q.length) (dumpIf f q)]) :
    Shows o (Gpgpdump.addRaw n f) E := by
  intro x p q j b s hx hr
  rw [addRaw_run, rawItem_eq] at hr
  simp only [Prod.mk.injEq] at hr
  exact ⟨x, [], q, _, hx, rfl, by rw [← hr.2]; simp [Item.add_eq], h q⟩

theorem tag10 : Shows o tag10 (Shown2 o X 10) := by
  unfold Gpgpdump.tag10
  exact marker (raw fun q => .marker)

theorem literalItem_eq (b : UInt8) : literalFormatItem b = leaf "Literal data format".toList [Char.ofNat b.toNat] (literalFormat b).toList := by
  unfold literalFormatItem
  rw [literalNames_eq]; rfl

theorem tag11 : Shows o (tag11 X) (Shown2 o X 11) := by
  unfold Gpgpdump.tag11
  refine byte fun fmt => add (byte fun l => ?_)
  have key : ∀ n : Bytes, n.length = l.toNat → Shows o (do
      P.add (textItem (S "File name") n (← P.flag Ctx.literal))
      let ftime ← newDateTime (← P.flag Ctx.utc)
      P.add (fileTimeItem X ftime (← P.flag Ctx.debug))
      Gpgpdump.addRaw (S "Literal data") (← P.flag Ctx.literal)) (fun a f q k => Shown2 o X 11 a (fmt :: l :: (n ++ f)) q (literalFormatItem fmt :: k)) := by
    intro n hn
    refine literal (add (time fun tm ht => debug (add (literal (raw fun q => ?_)))))
    obtain ⟨h1, h2⟩ := ofNat_len hn
    rw [literalItem_eq, textItem_eq, fileTimeItem_eq _ _ _ ht]
    have := Display.literal (o := o) (X := X) (fmt := fmt) (data := q) h2 ht
    rw [← h1] at this
    simp only [Shown2, List.append_assoc, List.cons_append, List.nil_append, List.append_nil] at this ⊢
    exact this
  by_cases hl : l.toNat < 1
  · rw [if_pos hl]
    refine (key [] (by simp; omega)).mono fun _ f q k h => ?_
    exact h
  · rw [if_neg hl]
    exact bytes _ fun n hn => key n hn

theorem tag12 : Shows o tag12 (Shown2 o X 12) := by
  unfold Gpgpdump.tag12
  exact raw fun q => .trust

theorem tag17 (b : Bytes) : Ret o tag17 (rdAt [] b) (packetRow o 17 b []) (fun _ i => Display o X 17 b i) := by
  unfold Gpgpdump.tag17
  refine Ret.getBody (Ret.ofShows (area (R := List.Forall₂ (fun s i => AttrShown o s.1 s.2 i)) "Subpacket" ([] ++ b) ?_) fun _ f q' l hq h => ?_)
  · intro l
    induction l with
    | nil => exact pure fun q => ⟨rfl, .nil⟩
    | cons s l ih =>
      obtain ⟨t, b⟩ := s
      unfold subLoop
      refine Shows.bind Yields.attr fun i f1 l1 => add (ih.mono fun _ f2 q l2 h2 h1 => ?_)
      obtain ⟨rfl, rfl, hi⟩ := h1
      obtain ⟨rfl, h2⟩ := h2
      exact ⟨rfl, .cons hi h2⟩
  · obtain ⟨rfl, subs, js, h1, h2, rfl⟩ := h
    exact .userAttribute h1 h2

end Shows

theorem Ret.last {m : P Unit} {rd j} {R : Unit → Item → Prop} (h : Ret o (m >>= fun _ => Pure.pure ()) rd j R) : Ret o m rd j R := by
  intro x a s hx hr
  exact h x a s hx (by rw [bind_run, hr]; rfl)

theorem Ret.tag09 (b : Bytes) : Ret o tag09 (rdAt [] b) (packetRow o 9 b []) (fun _ i => Display o X 9 b i) := by
  unfold Gpgpdump.tag09
  refine Ret.reader (Ret.debug (Ret.getMode fun m => Ret.add (Ret.last (Ret.setMode (Ret.pure ?_)))))
  rw [rawData_row]
  refine .encrypted ?_
  simp only [List.map_cons, List.map_nil, List.mem_cons, List.not_mem_nil, or_false]
  cases m
  · exact .inr (.inr rfl)
  · exact .inl rfl
  · exact .inr (.inl rfl)

theorem Ret.tag13 (b : Bytes) : Ret o tag13 (rdAt [] b) (packetRow o 13 b []) (fun _ i => Display o X 13 b i) := by
  unfold Gpgpdump.tag13
  refine Ret.getBody (Ret.debug (Ret.last (Ret.add (Ret.pure ?_))))
  rw [textItem_eq]
  exact .userID

theorem Ret.tag18 (b : Bytes) : Ret o tag18 (rdAt [] b) (packetRow o 18 b []) (fun _ i => Display o X 18 b i) := by
  unfold Gpgpdump.tag18
  refine Ret.reader (Ret.debug (Ret.getMode fun m => Ret.add (Ret.last (Ret.setMode (Ret.pure ?_)))))
  rw [rawData_row]
  cases m
  · exact .integrity (List.mem_cons_self ..)
  · exact .integrity (List.mem_cons_of_mem _ (List.mem_cons_self ..))
  · exact .integrity (List.mem_cons_of_mem _ (List.mem_cons_of_mem _ (List.mem_cons_self ..)))

theorem Ret.tag19 (b : Bytes) : Ret o tag19 (rdAt [] b) (packetRow o 19 b []) (fun _ i => Display o X 19 b i) := by
  unfold Gpgpdump.tag19
  refine Ret.reader (Ret.debug (Ret.last (Ret.add (Ret.pure ?_))))
  rw [rawData_row]
  exact .mdc

theorem Ret.failed {α β} {m : P α} {g : Bool → P β} {E F p q j} {R : β → Item → Prop} (hs : Shows o m E) (hc : Cuts o m F)
    (h1 : ∀ a f q' l, q = f ++ q' → E a f q' l → Ret o (g false) (rdAt (p ++ f) q') (j.addAll l) R)
    (h2 : ∀ l rd, F q l → Ret o (g true) rd (j.addAll l) R) : Ret o (P.failed m >>= g) (rdAt p q) j R := by
  intro x b s hx hr
  rw [bind_run] at hr
  unfold P.failed at hr
  rcases hm : m ⟨some x, rdAt p q, j⟩ with ⟨r, s1⟩
  rw [hm] at hr
  cases r with
  | ok a =>
    obtain ⟨x1, f1, q1, l1, hx1, rfl, rfl, h⟩ := hs x p q j a s1 hx hm
    exact h1 a f1 q1 l1 rfl h x1 b s hx1 hr
  | err e =>
    obtain ⟨x1, l, hx1, hx2, hj, h⟩ := hc x p q j e s1 hx hm
    obtain ⟨c, rd, j'⟩ := s1
    simp only at hx1 hj
    subst hx1 hj
    exact h2 l rd h x1 b s hx2 hr
  | panic _ => simp at hr
  | stuck => simp at hr

theorem Ret.tag20 (b : Bytes) : Ret o tag20 (rdAt [] b) (packetRow o 20 b []) (fun _ i => Display o X 20 b i) := by
  unfold Gpgpdump.tag20
  refine Ret.byte fun v q1 h1 => Ret.debug (Ret.add (Ret.byte fun c q2 h2 => Ret.debug (Ret.add (Ret.byte fun a q3 h3 => Ret.debug (Ret.add
    (Ret.byte fun k q4 h4 => Ret.add ?_)))))) 
  subst h4 h3 h2 h1
  have hiv : aeadIVLen a = aeadNonce a := byOctet (p := fun a => aeadIVLen a = aeadNonce a) (by decide +kernel) a
  rw [aeadVer_eq, symItem_eq, aeadItem_eq, chunk_eq, dumpByte_eq, hiv]
  refine Ret.failed (E := fun _ f q l => f.length = aeadNonce a ∧ l = [leaf "IV".toList [] [] (hexText f)]) (F := fun q l => q.length < aeadNonce a ∧ l = []) ?_ ?_ ?_ ?_
  · refine Shows.bytes _ fun n hn => Shows.lastAdd fun q => ?_
    rw [List.append_nil, dumpTrue_eq]
    exact ⟨hn, rfl⟩
  · exact Cuts.bytes _ (fun q hq => ⟨hq, rfl⟩) fun n hn => Cuts.lastAdd
  · rintro _ n d l rfl ⟨hn, rfl⟩
    rw [if_neg (by decide)]
    refine Ret.rest ?_
    have := Display.aead (o := o) (X := X) (v := v) (c := c) (k := k) (d := d) hn
    by_cases hd : d = []
    · subst hd
      rw [if_neg (by simp)]
      rw [if_pos rfl] at this
      refine Ret.pure ?_
      simp only [Item.addAll_addAll, packetRow_add]
      exact this
    · have hl := List.length_pos_iff.mpr hd
      rw [if_neg hd] at this
      rw [if_pos (by omega)]
      refine Ret.debug (Ret.last (Ret.addRaw (Ret.pure ?_)))
      simp only [Item.addAll_addAll, packetRow_add]
      exact this
  · rintro l rd ⟨hd, rfl⟩
    rw [if_pos rfl]
    refine Ret.pure ?_
    simp only [Item.addAll_addAll, packetRow_add]
    exact Display.aeadCut hd

theorem Ret.tag02 {recur : TagParser} (hrec : ∀ tag body, Yields o (recur tag body) (Display o X tag body)) (b : Bytes) :
    Ret o (tag02 X recur) (rdAt [] b) (packetRow o 2 b []) (fun _ i => Display o X 2 b i) := by
  have h4 : ∀ (v : UInt8) (q : Bytes) p, v ∈ [4, 5] → Ret o (do Gpgpdump.tag02v4 X recur; unknownData) (rdAt p q)
      (packetRow o 2 (v :: q) [versionRow o 4 (some 5) v]) (fun _ i => Display o X 2 (v :: q) i) := by
    intro v q p hv
    have : Shows o (do Gpgpdump.tag02v4 X recur; unknownData) (fun _ f q l => Display o X 2 (v :: (f ++ q)) (packetRow o 2 (v :: (f ++ q)) (versionRow o 4 (some 5) v :: l))) := by
      unfold Gpgpdump.tag02v4
      simp only [bind_assoc_P]
      refine Shows.byte fun t => Shows.debug (Shows.add (Shows.byte fun a => Shows.debug (Shows.add (Shows.byte fun h => Shows.debug (Shows.add
        (Shows.bind (Shows.subArea X hrec _) fun _ f1 l1 => Shows.bind (Shows.subArea X hrec _) fun _ f2 l2 => Shows.bytes 2 fun l2h hl => Shows.add
          (Shows.bind (Shows.parseSig a) fun _ f3 l3 => Shows.unknownData fun q hi h2 h1 => ?_)))))))
      obtain ⟨a1, hl1, rfl, h1⟩ := h1
      obtain ⟨a2, hl2, rfl, h2⟩ := h2
      rw [sigItem_eq, pubItem_eq, hashItem_eq, hashLeft2_eq]
      have := Display.signature (o := o) (v := v) (t := t) (h := h) hv h1 h2 hl hi hl1 hl2
      simp only [List.append_assoc, List.cons_append, List.nil_append, List.append_nil] at this ⊢
      exact this
    refine Ret.ofShows this fun _ f q' l hq hd => ?_
    rw [hq]; exact hd
  unfold Gpgpdump.tag02
  refine Ret.byte fun v q hb => Ret.debug (Ret.add ?_)
  subst hb
  rw [sigVer_eq, packetRow_add]
  rcases sigVer_cases v with ⟨rfl, h1⟩ | ⟨rfl, h1, h2⟩ | ⟨rfl, h1, h2, h3⟩ | ⟨hv, h1, h2, h3⟩
  · rw [if_pos h1]; exact h4 5 q _ (by decide)
  · rw [if_neg (by simp [h1]), if_pos h2]; exact h4 4 q _ (by decide)
  · rw [if_neg (by simp [h1]), if_neg (by simp [h2]), if_pos (by simp [h3])]
    refine Ret.failed (Shows.tag02v3 X) (Cuts.tag02v3 X) (fun _ f q' l hq h => ?_) fun l rd h => ?_
    · rw [if_neg (by decide)]
      subst hq
      refine Ret.ofShows (Shows.unknownData (E := fun _ f q k => f = [] ∧ k = unknownRows o q) fun q => ⟨rfl, rfl⟩) fun _ f' q2 k hq hk => ?_
      obtain ⟨rfl, rfl⟩ := hk
      rw [List.nil_append] at hq
      subst hq
      rw [Item.addAll_addAll]
      exact .signature3 h
    · rw [if_pos rfl]
      exact Ret.pure (.signature3Cut h)
  · rw [if_neg (by simp [h1]), if_neg (by simp [h2]), if_neg (by simp [h3])]
    refine Ret.ofShows (Shows.unknownData (E := fun _ f q k => f = [] ∧ k = unknownRows o q) fun q => ⟨rfl, rfl⟩) fun _ f' q2 k hq hk => ?_
    obtain ⟨rfl, rfl⟩ := hk
    rw [List.nil_append] at hq
    subst hq
    exact .signatureOther hv

/-- the rows of a compressed packet -/
theorem Ret.tag08 (hX : OwnErrors X) (b : Bytes) : Ret o (tag08 X) (rdAt [] b) (packetRow o 8 b []) (fun z i => Opens X b z ∧ i = packetRow o 8 b (packedRows o b z.isNone)) := by
  intro x a s hx hr
  obtain ⟨h1, h2⟩ := (tag08_at X x b _).1 a s hr
  refine ⟨⟨x, h2, hx⟩, opens_of_openOK hX h1, ?_⟩
  have hd : ctxFlag Ctx.debug (some x) = o DEBUG := by subst hx; rfl
  have hp : ∀ zd, packedItem zd (o DEBUG) = leaf "Compressed data".toList [] (sizeText zd.length) (dumpIf (o DEBUG) zd) := by
    intro zd
    unfold packedItem
    rw [rawItem_eq]; rfl
  cases h1 with
  | @one c =>
    have := tag08_one X (some x) (packetRow o 8 [c] []) c
    rw [show St.at (some x) [] [c] (packetRow o 8 [c] []) = ⟨some x, rdAt [] [c], packetRow o 8 [c] []⟩ from rfl, hr] at this
    simp only [Prod.mk.injEq] at this
    rw [this.2, St.at_cur, hd, compItem_eq]
    rfl
  | @data c zd z h0 h =>
    obtain ⟨-, h4, -⟩ := tag08_run X (some x) (packetRow o 8 (c :: zd) []) c zd h0
    rw [show St.at (some x) [] (c :: zd) (packetRow o 8 (c :: zd) []) = ⟨some x, rdAt [] (c :: zd), packetRow o 8 (c :: zd) []⟩ from rfl, hr] at h4
    simp only at h4
    rw [h4]
    unfold packedOut
    rw [h, hd, hp, compItem_eq]
    unfold packedRows
    simp only [if_neg h0]
    rfl
  | @large c zd e h0 h he =>
    obtain ⟨-, h4, -⟩ := tag08_run X (some x) (packetRow o 8 (c :: zd) []) c zd h0
    rw [show St.at (some x) [] (c :: zd) (packetRow o 8 (c :: zd) []) = ⟨some x, rdAt [] (c :: zd), packetRow o 8 (c :: zd) []⟩ from rfl, hr] at h4
    simp only at h4
    rw [h4]
    unfold packedOut
    rw [h]
    simp only [he, if_true]
    rw [hd, hp, compItem_eq]
    unfold packedRows
    simp only [if_neg h0]
    rfl

theorem tagHead_eq (tag : Nat) (b : Bytes) (x : Ctx) (hx : x.opts = o) : tagItem tag b (tagDumpFlag tag x) = packetRow o tag b [] := by
  subst hx
  unfold tagItem packetRow tagStr
  rw [packetNames_eq, dumpRest_new, dumpHexIf_eq]
  have : tagDumpFlag tag x = ((60 ≤ tag && tag ≤ 63 && x.opts PRIVATE) || x.opts DEBUG) := by
    unfold tagDumpFlag
    by_cases h : 60 ≤ tag ∧ tag ≤ 63
    · rw [if_pos h]; simp only [h.1, h.2, decide_true, Bool.true_and]; rfl
    · rw [if_neg h]
      have : (decide (60 ≤ tag) && decide (tag ≤ 63)) = false := by
        rw [Bool.and_eq_false_iff]
        simp only [decide_eq_false_iff_not]
        omega
      rw [this]; rfl
  rw [this]; rfl

theorem Ret.tagBody (hX : OwnErrors X) {recur : TagParser} (hrec : ∀ tag body, Yields o (recur tag body) (Display o X tag body)) (tag : Nat) (b : Bytes) :
    Ret o (tagBody X recur tag) (rdAt [] b) (packetRow o tag b []) (fun _ i => Display o X tag b i) := by
  unfold Gpgpdump.tagBody
  split
  · exact Ret.packet X (Shows.tag01 X)
  · exact Ret.tag02 X hrec b
  · exact Ret.packet X (Shows.tag03 X)
  · exact Ret.packet X (Shows.tag04 X)
  · exact Ret.packet X (Shows.tag05 X (by decide))
  · exact Ret.packet X (Shows.tag06 X (by decide))
  · exact Ret.packet X (Shows.tag05 X (by decide))
  · intro x a s hx hr
    obtain ⟨z, s1, h1, h2⟩ := bind_inv hr
    obtain ⟨hc, hz, hi⟩ := Ret.tag08 X hX b x z s1 hx h1
    obtain ⟨rfl, rfl⟩ := pure_inv h2
    exact ⟨hc, by rw [hi]; exact .compressed hz⟩
  · exact Ret.tag09 X b
  · exact Ret.packet X (Shows.tag10 X)
  · exact Ret.packet X (Shows.tag11 X)
  · exact Ret.packet X (Shows.tag12 X)
  · exact Ret.tag13 X b
  · exact Ret.packet X (Shows.tag06 X (by decide))
  · exact Shows.tag17 X b
  · exact Ret.tag18 X b
  · exact Ret.tag19 X b
  · exact Ret.tag20 X b
  · refine Ret.pure (.other ?_)
    simp only [List.mem_cons, List.not_mem_nil, or_false, not_or]
    repeat' constructor
    all_goals assumption

theorem Yields.tagScope {tag : Nat} {b : Bytes} {m : P Item} {R : Item → Prop} (h : Ret o m (rdAt [] b) (packetRow o tag b []) (fun i _ => R i)) :
    Yields o (tagScope tag b m) R := by
  unfold Gpgpdump.tagScope
  intro x p q j a s hx hr
  rw [bind_run, flag_run] at hr
  simp only [St.at_ctx, ctxFlag, tagHead_eq tag b x hx] at hr
  exact Yields.scope h x p q j a s hx hr

theorem Yields.tagParse (hX : OwnErrors X) {recur : TagParser} (hrec : ∀ tag body, Yields o (recur tag body) (Display o X tag body)) (tag : Nat) (b : Bytes) :
    Yields o (tagParse X recur tag b) (Display o X tag b) := by
  unfold Gpgpdump.tagParse
  refine Yields.tagScope ?_
  intro x a s hx hr
  obtain ⟨u, s1, h1, h2⟩ := bind_inv hr
  obtain ⟨hc, hd⟩ := Ret.tagBody X hX hrec tag b x u s1 hx h1
  rw [getCur_run] at h2
  cases h2
  exact ⟨hc, hd⟩

theorem Yields.parseTagF (hX : OwnErrors X) (f : Nat) (tag : Nat) (b : Bytes) : Yields o (parseTagF X f tag b) (Display o X tag b) := by
  induction f generalizing tag b with
  | zero => intro x p q j a s hx hr; simp [Gpgpdump.parseTagF, P.stuck] at hr
  | succ f ih => exact Yields.tagParse X hX ih tag b

theorem Yields.parseTag (hX : OwnErrors X) (tag : Nat) (b : Bytes) : Yields o (parseTag X tag b) (Display o X tag b) := Yields.parseTagF X hX _ tag b

theorem Yields.packetsParse (hX : OwnErrors X) (tag : Nat) (b : Bytes) : Yields o (packetsParse X tag b) (TopDisplay o X (tag, b)) := by
  by_cases h8 : tag = 8
  · subst h8
    have hd : Gpgpdump.packetsParse X 8 b = (do
        let (item, data) ← compressed X b
        match data with
        | none => return item
        | some z => P.build item (packetLoop X (Gpgpdump.parseTag X) (Src.ofBytes z))) := by
      unfold Gpgpdump.packetsParse; rw [if_pos rfl]; rfl
    rw [hd]
    intro x p q j a s hx hr
    obtain ⟨⟨i, z⟩, s1, h1, h2⟩ := bind_inv hr
    obtain ⟨-, rfl⟩ := compressed_sound h1
    have hi : Opens X b z ∧ i = packetRow o 8 b (packedRows o b z.isNone) := by
      have hr : compressed X b (St.at (some x) p q j) = (((do
        let data ← tag08 X
        return (← getCur, data) : P (Item × Option Bytes)) (St.at (some x) [] b (tagItem 8 b (tagDumpFlag 8 x)))).1,
        { ((do
        let data ← tag08 X
        return (← getCur, data) : P (Item × Option Bytes)) (St.at (some x) [] b (tagItem 8 b (tagDumpFlag 8 x)))).2 with rd := ⟨p ++ q, p.length⟩, cur := j }) := rfl
      rw [hr, tagHead_eq 8 b x hx] at h1
      rcases hm : (do
        let data ← tag08 X
        return (← getCur, data) : P (Item × Option Bytes)) (St.at (some x) [] b (packetRow o 8 b [])) with ⟨r, s'⟩
      rw [hm] at h1
      simp only [Prod.mk.injEq] at h1
      obtain ⟨rfl, -⟩ := h1
      obtain ⟨z', s2, h3, h4⟩ := bind_inv hm
      obtain ⟨-, h5, h6⟩ := Ret.tag08 X hX b x z' s2 hx h3
      cases h4
      exact ⟨h5, h6⟩
    obtain ⟨ho, rfl⟩ := hi
    cases z with
    | none =>
      simp only at h2
      cases h2
      exact ⟨x, [], q, [], hx, rfl, by simp, rfl, rfl, .huge ho⟩
    | some z =>
      simp only at h2
      obtain ⟨x', f, q', l, hx', hq, rfl, rfl, k, rfl, rfl, ps, h3, h4⟩ :=
        Shows.build (Shows.seq X (Yields.parseTag X hX) (ofBytes_lazy z) rfl rfl (Nat.lt_succ_self _)) x p q j a s hx h2
      exact ⟨x', [], q', [], hx', hq, rfl, rfl, rfl, .packed ho h3 h4⟩
  · unfold Gpgpdump.packetsParse
    rw [if_neg h8]
    exact (Yields.parseTag X hX tag b).mono fun i hi => .plain h8 hi

end Gpgpdump
