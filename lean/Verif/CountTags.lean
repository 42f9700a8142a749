import Verif.Count
import Verif.MonTags

/-!
# Counting items: packets
-/

namespace Gpgpdump
open P Spec

/-! ## Packets and subpackets are not longer than what they are read from -/

theorem readAllLoop_length {X : Ext} {f : Nat} {c : Body} {s : Src} {len cap : Nat} (hc : len ≤ cap)
    {b e c' s'} (h : readAllLoop X f c s len cap = (b, e, c', s')) : b.length + s'.data.length ≤ s.data.length := by
  have body : ∀ {c : Body} {s : Src} {n : Nat}, 0 < n → ∀ {b e c' s'}, c.read s n = (b, e, c', s') → b.length + s'.data.length ≤ s.data.length := by
    intro c s n hn b e c' s' h
    cases c with
    | indeterminate =>
      simp only [Body.read] at h
      rcases hr : s.read n with ⟨b1, e1, s1⟩
      have := (took_read hn hr).2.1
      rw [hr] at h
      cases h
      simp only; omega
    | span m =>
      cases m with
      | zero => cases h; simp
      | succ m =>
        simp only [Body.read] at h
        rcases hr : s.read (min n (m + 1)) with ⟨b1, e1, s1⟩
        have := (took_read (by omega) hr).2.1
        rw [hr] at h
        cases h
        simp only; omega
    | partialLen m p =>
      simp only [Body.read] at h
      have hstart : ∀ r s1, (if m > 0 then (Except.ok (m, p), s) else if p = true then readLength s else (.error (rawErr .eof), s)) = (r, s1) →
          s1.data.length ≤ s.data.length := by
        intro r s1 hh
        split at hh
        · cases hh; omega
        · split at hh
          · have := (took_length hh).1.le; omega
          · cases hh; omega
      generalize (if m > 0 then (Except.ok (m, p), s) else if p = true then readLength s else (.error (rawErr .eof), s)) = st at h hstart
      obtain ⟨r, s1⟩ := st
      have h0 := hstart r s1 rfl
      cases r with
      | error x => cases h; simpa using h0
      | ok mp =>
        obtain ⟨m', p'⟩ := mp
        cases m' with
        | zero => cases h; simpa using h0
        | succ m' =>
          simp only at h
          rcases hr : s1.read (min n (m' + 1)) with ⟨b1, e1, s2⟩
          have := (took_read (by omega) hr).2.1
          rw [hr] at h
          cases h
          simp only; omega
  induction f generalizing c s len cap b e c' s' with
  | zero => cases h; simp
  | succ f ih =>
    rw [readAllLoop] at h
    simp only at h
    have hcap : len < (if len ≥ cap then max (cap + 1) (X.grow cap) else cap) := by
      split <;> omega
    generalize (if len ≥ cap then max (cap + 1) (X.grow cap) else cap) = cap' at h hcap
    rcases hr : c.read s (cap' - len) with ⟨b1, e1, c1, s1⟩
    have h1 := body (by omega) hr
    rw [hr] at h
    cases e1 with
    | some x => cases h; exact h1
    | none =>
      simp only at h
      rcases hr' : readAllLoop X f c1 s1 (len + b1.length) cap' with ⟨b2, e2, c2, s2⟩
      rw [hr'] at h
      have h2 : b1.length ≤ cap' - len := (took_body (by omega) hr).2.1
      have := ih (by omega) hr'
      cases h
      simp only [List.length_append]
      omega

theorem nextPacket_length {X : Ext} {s : Src} {tag body s'} (h : nextPacket X s = (.ok (tag, body), s')) : body.length + 1 + s'.data.length ≤ s.data.length := by
  unfold nextPacket at h
  rcases hr : readHeader s with ⟨r1, s1⟩
  obtain ⟨-, h2⟩ := took_header hr
  rw [hr] at h
  cases r1 with
  | error e => cases h
  | ok tc =>
    obtain ⟨t, c⟩ := tc
    have h2 := (h2 _ rfl).le
    simp only [readAll] at h
    rcases hr' : readAllLoop X (s1.data.length + 2) c s1 0 512 with ⟨b, e, c', s2⟩
    have g := readAllLoop_length (by omega) hr'
    rw [hr'] at h
    cases e with
    | none => cases h; omega
    | some x => cases h

/-! ## Programs that return an item -/

structure Gives (n : Nat) (m : P Item) : Prop where
  run : ∀ st, (m st).2.cur = st.cur ∧ (m st).2.rd = st.rd ∧ ∀ i, (m st).1 = .ok i → Spec.items i ≤ n

theorem Gives.mono {n n'} {m : P Item} (h : Gives n m) (hn : n ≤ n') : Gives n' m :=
  ⟨fun st => ⟨(h.run st).1, (h.run st).2.1, fun i hi => Nat.le_trans ((h.run st).2.2 i hi) hn⟩⟩
theorem Gives.flag_bind {n} {f : Ctx → Bool} {m : Bool → P Item} (h : ∀ d, Gives n (m d)) : Gives n (P.flag f >>= m) := ⟨fun st => (h (ctxFlag f st.ctx)).run st⟩
theorem Gives.scope {k c} {body : Bytes} {hdr : Item} (hh : hdr.items = []) {m : P Item} (h : Cost k c m) (he : Ends m) : Gives (1 + c + k * body.length) (scope body hdr m) := by
  constructor
  intro st
  refine ⟨rfl, rfl, fun i hi => ?_⟩
  have hi' : (m { st with rd := Reader.new body, cur := hdr }).1 = .ok i := hi
  have e := he.run _ i hi'
  have := h.run { st with rd := Reader.new body, cur := hdr }
  unfold units at this
  rw [← e, items_leaf hh] at this
  simp only [Reader.remaining, Reader.new, List.drop_zero] at this
  omega
/-- the program returns a leaf -/
structure Leafs (m : P Item) : Prop where
  run : ∀ st i, (m st).1 = .ok i → i.items = []
theorem Leafs.pure {i : Item} (h : i.items = []) : Leafs (Pure.pure i) := ⟨fun st j hj => by cases hj; exact h⟩
theorem Leafs.bind {α} {m : P α} {f : α → P Item} (h : ∀ a, Leafs (f a)) : Leafs (m >>= f) := by
  constructor
  intro st i hi
  rw [bind_run] at hi
  rcases hm : m st with ⟨r, s⟩
  rw [hm] at hi
  cases r with
  | ok a => exact (h a).run s i hi
  | _ => cases hi
theorem Gives.scope_leaf {body : Bytes} {hdr : Item} {m : P Item} (h : Leafs m) : Gives 1 (Gpgpdump.scope body hdr m) := by
  constructor
  intro st
  refine ⟨rfl, rfl, fun i hi => ?_⟩
  have hi' : (m { st with rd := Reader.new body, cur := hdr }).1 = .ok i := hi
  rw [items_leaf (h.run _ i hi')]
  exact Nat.le_refl _

section
variable {k : Nat}

theorem Cost.item_add {n c : Nat} {m : P Item} (h : Gives n m) (hn : n ≤ c) {β} {f : Unit → P β} (hf : ∀ x, Cost k (c - n) (f x)) : Cost k c (m >>= fun i => P.add i >>= f) := by
  constructor
  intro st
  obtain ⟨h1, h2, h3⟩ := h.run st
  rw [bind_run]
  rcases hm : m st with ⟨r, s⟩
  rw [hm] at h1 h2 h3
  simp only at h1 h2 h3
  cases r with
  | ok i =>
    have hi := h3 i rfl
    have := (Cost.seq (c := Spec.items i + (c - n)) (Cost.addItem (k := k) i) (by omega) (f := f) (fun x => by rw [Nat.add_sub_cancel_left]; exact hf x)).run s
    unfold units at this ⊢
    simp only at this ⊢
    rw [h1, h2] at this
    omega
  | _ => unfold units; simp only; rw [h1, h2]; omega

theorem Cost.forPackets {X : Ext} {A K : Nat} (hA : A ≤ K) {recur : TagParser} (h : ∀ t b, Gives (A + K * b.length) (recur t b)) (f : Nat) (src : Src) :
    Cost k (K * src.data.length) (forPackets X recur f src) := by
  induction f generalizing src with
  | zero => exact .stuck
  | succ f ih =>
    rw [Gpgpdump.forPackets]
    split
    · split
      · exact .pure _
      · exact .fail _
    · rename_i tag body src' he
      have := nextPacket_length he
      have h2 : K * (body.length + 1 + src'.data.length) ≤ K * src.data.length := Nat.mul_le_mul_left K this
      rw [Nat.mul_add, Nat.mul_add, Nat.mul_one] at h2
      refine .item_add (h tag body) (by omega) fun _ => ?_
      exact (ih src').mono (by omega)

theorem SubLength.two {n l} (h : SubLength n l) : 1 ≤ l.length := by
  cases h <;> simp
theorem Cost.subLoop {A K : Nat} (hA : A ≤ 2 * K) {p : UInt8 → Bytes → P Item} (h : ∀ t b, Gives (A + K * b.length) (p t b)) {l area} (hl : SubSeq l area) :
    Cost k (K * area.length) (subLoop p l) := by
  induction hl with
  | nil => exact .pure _
  | @cons t body lenc subs area hs _ ih =>
    have h1 := SubLength.two hs
    have h2 : K * (2 + body.length + area.length) ≤ K * (lenc ++ t :: (body ++ area)).length := Nat.mul_le_mul_left K (by simp; omega)
    rw [Nat.mul_add, Nat.mul_add] at h2
    rw [Gpgpdump.subLoop]
    exact .item_add (h t body) (by omega) fun _ => ih.mono (by omega)
theorem Cost.addSubpackets {A K : Nat} (hA : A ≤ 2 * K) {p : UInt8 → Bytes → P Item} (h : ∀ t b, Gives (A + K * b.length) (p t b)) (name area) :
    Cost k (1 + K * area.length) (addSubpackets p name area) := by
  unfold Gpgpdump.addSubpackets
  refine .skip (.flag _) fun d => ?_
  split
  · exact .fail _
  · rename_i l hl
    have := @Cost.build_add k (1 + K * area.length) Unit _ (newItem name [] (nBytes area.length) (dumpBytes area d)) rfl _ (Cost.subLoop hA h (opaqueSubpackets_ok.1 hl)) (by omega)
      (fun _ => Pure.pure ()) (fun _ => .pure _)
    exact this

/-- octets that are taken pay -/
theorem Cost.readBytes_pay {α} {c : Nat} {n : Int} {f : Bytes → P α} (h : ∀ b, Cost k (c + k * b.length) (f b)) : Cost k c (P.readBytes n >>= f) := by
  constructor
  intro st
  rw [bind_run]
  have e : P.readBytes n st = ((st.rd.readBytes n).1, { st with rd := (st.rd.readBytes n).2 }) := rfl
  rw [e]
  have key : ∀ b, (st.rd.readBytes n).1 = .ok b → b.length + (st.rd.readBytes n).2.remaining.length ≤ st.rd.remaining.length := by
    intro b
    unfold Reader.readBytes
    split
    · intro hb; cases hb; simp
    · split
      · intro hb; cases hb
      · split
        · intro hb; cases hb
        · split
          · intro hb; cases hb
          · intro hb; cases hb; simp [Reader.remaining]; omega
  have key2 := readBytes_le st.rd n
  generalize st.rd.readBytes n = q at key key2 ⊢
  rcases q with ⟨r, rd⟩
  cases r with
  | ok b =>
    have h1 := (h b).run { st with rd := rd }
    have h2 := Nat.mul_le_mul_left k (key b rfl)
    unfold units at h1 ⊢
    simp only at h1 h2 ⊢
    rw [Nat.mul_add] at h2
    omega
  | _ =>
    have h2 := Nat.mul_le_mul_left k key2
    unfold units
    simp only at h2 ⊢
    omega

theorem Cost.forEach {α} (l : List α) {f : α → P Unit} (h : ∀ a, Cost k 1 (f a)) : Cost k l.length (forEach l f) := by
  induction l with
  | nil => exact .pure _
  | cons a l ih => exact Cost.seq (a := 1) (h a) (by simp) fun _ => ih.mono (by simp)
theorem Cost.otherFlags (n bs) : Cost k bs.length (otherFlags n bs) := by
  induction bs generalizing n with
  | nil => exact .pure _
  | cons b l ih => exact Cost.seq (a := 1) (.flag2 _ _ (Nat.le_refl _)) (by simp) fun _ => (ih _).mono (by simp)
theorem Cost.trailingFlags : Cost 1 0 trailingFlags := by
  unfold Gpgpdump.trailingFlags
  refine .skip .rest fun r => ?_
  split
  · constructor
    intro st
    rw [bind_run]
    have e : P.read2EOF st = ((st.rd.read2EOF).1, { st with rd := (st.rd.read2EOF).2 }) := rfl
    rw [e]
    by_cases hr : st.rd.off ≥ st.rd.size
    · rw [show st.rd.read2EOF = (.err (wrapErr .eof), st.rd) by unfold Reader.read2EOF; rw [if_pos hr]]
      exact Nat.le_refl _
    · rw [show st.rd.read2EOF = (.ok (st.rd.buf.drop st.rd.off), ⟨st.rd.buf, st.rd.off + st.rd.size⟩) by unfold Reader.read2EOF; rw [if_neg hr]]
      have := (Cost.otherFlags (k := 1) 2 (List.drop st.rd.off st.rd.buf)).run { st with rd := ⟨st.rd.buf, st.rd.off + st.rd.size⟩ }
      unfold units at this ⊢
      simp only [Reader.remaining, Reader.size, List.length_drop, Nat.one_mul] at this ⊢
      omega
  · exact .pure _

/-! ## Subpackets -/

theorem Cost.sub01 : Cost k 3 sub01 := by unfold Gpgpdump.sub01; cost
theorem Cost.sub04 : Cost k 0 sub04 := by unfold Gpgpdump.sub04; cost
theorem Cost.sub05 : Cost k 2 sub05 := by unfold Gpgpdump.sub05; cost
theorem Cost.sub07 : Cost k 0 sub07 := by unfold Gpgpdump.sub07; cost
theorem Cost.sub12 : Cost k 3 sub12 := by
  have := @Cost.addRaw k
  unfold Gpgpdump.sub12; cost
theorem Cost.sub20 : Cost k 7 sub20 := by unfold Gpgpdump.sub20; cost
theorem Cost.sub23 : Cost 1 2 sub23 := by
  have := Cost.trailingFlags
  unfold Gpgpdump.sub23; cost
theorem Cost.sub25 : Cost k 0 sub25 := by unfold Gpgpdump.sub25; cost
theorem Cost.sub27 : Cost 1 11 sub27 := by
  have := Cost.trailingFlags
  have := @Cost.rest 1 0
  unfold Gpgpdump.sub27; cost
theorem Cost.sub29 : Cost k 1 sub29 := by
  have := @Cost.rest k 0
  unfold Gpgpdump.sub29; cost
theorem Cost.sub30 : Cost 1 4 sub30 := by
  have := Cost.trailingFlags
  unfold Gpgpdump.sub30; cost
theorem Cost.sub31 : Cost k 3 sub31 := by
  have := @Cost.addRaw k
  unfold Gpgpdump.sub31; cost
theorem Cost.subFingerprint : Cost k 2 subFingerprint := by
  have := @Cost.addRaw k
  unfold Gpgpdump.subFingerprint; cost
theorem Cost.sub37 : Cost k 1 sub37 := by
  have := @Cost.addRaw k
  unfold Gpgpdump.sub37; cost
end

section
variable {X : Ext}

theorem Gives.parseSub02 {recur : TagParser} (hr : ∀ t b, Gives (32 + 32 * b.length) (recur t b)) (t b) : Gives (64 + 32 * b.length) (parseSub02 X recur t b) := by
  unfold Gpgpdump.parseSub02 subScope
  refine .flag_bind fun f => ?_
  have hh : (subItem t b f).items = [] := rfl
  have hk : ∀ {k c} {m : P Item}, Cost k c m → Ends m → k ≤ 1 → c ≤ 63 → Gives (64 + 32 * b.length) (Gpgpdump.scope b (subItem t b f) m) := by
    intro k c m h he hk hc
    refine (Gives.scope (body := b) hh h he).mono ?_
    have : k * b.length ≤ 32 * b.length := Nat.mul_le_mul_right _ (by omega)
    omega
  have hl : ∀ {m : P Item}, Leafs m → Gives (64 + 32 * b.length) (Gpgpdump.scope b (subItem t b f) m) := fun h => (Gives.scope_leaf h).mono (by omega)
  have hText : Leafs subText := .bind fun _ => .bind fun _ => .bind fun _ => .pure (leaf_text _ _ _)
  have hlist : ∀ {g : UInt8 → Bool → Item}, (∀ a b, (g a b).items = []) → Gives (64 + 32 * b.length) (Gpgpdump.scope b (subItem t b f) (subList g)) := by
    intro g hg
    constructor
    intro st
    refine ⟨rfl, rfl, fun i hi => ?_⟩
    have hi' : ((forEach b (fun x => P.add (g x (ctxFlag Ctx.debug st.ctx))) >>= fun _ => P.getCur) { st with rd := Reader.new b, cur := subItem t b f }).1 = .ok i := hi
    have hc : Cost 0 b.length (forEach b (fun x => P.add (g x (ctxFlag Ctx.debug st.ctx))) >>= fun _ => P.getCur) :=
      .seq (.forEach b fun x => .add (hg _ _) (Nat.le_refl _)) (Nat.le_refl _) fun _ => .getCur
    have he := (Ends.bind (m := forEach b (fun x => P.add (g x (ctxFlag Ctx.debug st.ctx)))) fun _ => Ends.getCur).run _ i hi'
    have h1 := hc.run { st with rd := Reader.new b, cur := subItem t b f }
    unfold units at h1
    rw [← he, items_leaf hh] at h1
    omega
  generalize (t &&& 0x7f).toNat = n
  unfold sub02Body
  split
  · exact hl (.bind fun _ => .bind fun _ => .bind fun _ => .bind fun _ => .bind fun _ => .pure rfl)
  · exact hl (.bind fun _ => .bind fun _ => .bind fun _ => .bind fun _ => .bind fun _ => .pure rfl)
  · exact hk (k := 0) .sub04 .sub04 (by decide) (by decide)
  · exact hk (k := 0) .sub05 .sub05 (by decide) (by decide)
  · exact hl hText
  · exact hk (k := 0) .sub07 .sub07 (by decide) (by decide)
  · exact hl (.bind fun _ => .bind fun _ => .bind fun _ => .bind fun _ => .bind fun _ => .pure rfl)
  · exact hk (k := 0) (c := 0) .getCur .getCur (by decide) (by decide)
  · exact hlist fun _ _ => rfl
  · exact hk (k := 0) .sub12 .sub12 (by decide) (by decide)
  · exact hl (.bind fun _ => .bind fun _ => .pure rfl)
  · exact hk (k := 0) .sub20 .sub20 (by decide) (by decide)
  · exact hlist fun _ _ => rfl
  · exact hlist fun _ _ => rfl
  · exact hk .sub23 .sub23 (by decide) (by decide)
  · exact hl hText
  · exact hk (k := 0) .sub25 .sub25 (by decide) (by decide)
  · exact hl hText
  · exact hk .sub27 .sub27 (by decide) (by decide)
  · exact hl hText
  · exact hk (k := 0) .sub29 .sub29 (by decide) (by decide)
  · exact hk .sub30 .sub30 (by decide) (by decide)
  · exact hk (k := 0) .sub31 .sub31 (by decide) (by decide)
  · -- an embedded signature
    constructor
    intro st
    refine ⟨rfl, rfl, fun i hi => ?_⟩
    have hi' : ((recur 2 b >>= fun j => P.add j >>= fun _ => P.getCur) { st with rd := Reader.new b, cur := subItem t b f }).1 = .ok i := hi
    have hc : Cost 0 (32 + 32 * b.length) (recur 2 b >>= fun j => P.add j >>= fun _ => P.getCur) := .item_add (hr 2 b) (Nat.le_refl _) fun _ => .getCur
    have he := (Ends.bind (m := recur 2 b) fun j => Ends.bind (m := P.add j) fun _ => Ends.getCur).run _ i hi'
    have h1 := hc.run { st with rd := Reader.new b, cur := subItem t b f }
    unfold units at h1
    rw [← he, items_leaf hh] at h1
    omega
  · exact hk (k := 0) .subFingerprint .subFingerprint (by decide) (by decide)
  · exact hlist fun _ _ => rfl
  · exact hk (k := 0) .subFingerprint .subFingerprint (by decide) (by decide)
  · exact hk (k := 0) .sub37 .sub37 (by decide) (by decide)
  · -- a key block
    constructor
    intro st
    refine ⟨rfl, rfl, fun i hi => ?_⟩
    have hi' : (Gpgpdump.sub38 X recur { st with rd := Reader.new b, cur := subItem t b f }).1 = .ok i := hi
    have he := (show Ends (Gpgpdump.sub38 X recur) by unfold sub38; ends).run _ i hi'
    unfold sub38 at hi' he
    rw [bind_run] at hi' he
    have h1 := (Cost.readByte (k := 32) (c := 0)).run { st with rd := Reader.new b, cur := subItem t b f }
    rcases hm : P.readByte { st with rd := Reader.new b, cur := subItem t b f } with ⟨r, s⟩
    rw [hm] at hi' he h1
    cases r with
    | ok v =>
      simp only at hi' he
      have hc : ∀ r : Reader, Cost 0 (3 + 32 * r.remaining.length) (P.add (numItem (S "Type") v) >>= fun _ => P.flag Ctx.debug >>= fun d =>
          if v = 0x00 then Gpgpdump.build (rawData r (S "Key data") d) (packetLoop X recur (Src.ofReader r)) >>= fun item => P.add item >>= fun _ => P.getCur
          else P.add (rawData r (S "Key data") d) >>= fun _ => P.getCur) := by
        intro r
        refine .add_bind rfl (by omega) fun _ => .skip (.flag _) fun d => ?_
        split
        · exact .build_add rfl (Cost.forPackets (Nat.le_refl 32) hr _ (Src.ofReader r)) (by simp only [Src.ofReader]; omega) fun _ => .getCur
        · exact .add_bind rfl (by omega) fun _ => .getCur
      have h2 := (hc s.rd).run s
      have hcur : s.cur = subItem t b f := by
        have : (P.readByte { st with rd := Reader.new b, cur := subItem t b f }).2.cur = subItem t b f := rfl
        rw [hm] at this
        exact this
      unfold units at h1 h2
      rw [hcur] at h1 h2
      rw [items_leaf hh] at h1 h2
      have e2 : i = _ := he
      change i = ((P.add (numItem (S "Type") v) >>= fun _ => P.flag Ctx.debug >>= fun d =>
          if v = 0x00 then Gpgpdump.build (rawData s.rd (S "Key data") d) (packetLoop X recur (Src.ofReader s.rd)) >>= fun item => P.add item >>= fun _ => P.getCur
          else P.add (rawData s.rd (S "Key data") d) >>= fun _ => P.getCur) s).2.cur at e2
      rw [← e2] at h2
      simp only [Reader.remaining, Reader.new, List.drop_zero] at h1 h2
      omega
    | _ => cases hi'
  · exact hk (k := 0) (c := 0) .getCur .getCur (by decide) (by decide)

theorem Gives.parseSub17 (t b) : Gives (64 + 32 * b.length) (parseSub17 t b) := by
  unfold Gpgpdump.parseSub17 subScope
  refine .flag_bind fun f => ?_
  unfold sub17Body
  split
  · exact (Gives.scope (k := 0) (c := 3) rfl .sub01 (by unfold sub01; ends)).mono (by omega)
  · exact (Gives.scope (k := 0) (c := 0) rfl .getCur .getCur).mono (by omega)

/-! ## Packets -/

theorem Cost.subArea {recur : TagParser} (hr : ∀ t b, Gives (32 + 32 * b.length) (recur t b)) (n) : Cost 32 1 (subArea X recur n) := by
  unfold Gpgpdump.subArea
  refine .skip (.readBytes _) fun s => ?_
  dsimp only
  split
  · exact .readBytes_pay fun sp => .addSubpackets (by decide) (Gives.parseSub02 hr) _ _
  · exact .pure _
theorem Cost.tag02v4 {recur : TagParser} (hr : ∀ t b, Gives (32 + 32 * b.length) (recur t b)) : Cost 32 8 (tag02v4 X recur) := by
  have := Cost.subArea (X := X) hr
  have := @Cost.parseSig 32
  unfold Gpgpdump.tag02v4; cost
  exact .mono (.parseSig _) (by decide)
theorem Cost.tag02v3 {k} : Cost k 9 (tag02v3 X) := by
  unfold Gpgpdump.tag02v3
  refine .skip .readByte fun sz => .seq (a := 3) (.nested rfl (by decide) ?_) (by decide) ?_
  · have := @Cost.newDateTime k 0
    cost
  · have := @Cost.parseSig k
    cost
    exact .mono (.parseSig _) (by decide)
theorem Cost.tag02 {recur : TagParser} (hr : ∀ t b, Gives (32 + 32 * b.length) (recur t b)) : Cost 32 11 (tag02 X recur) := by
  have := Cost.tag02v4 (X := X) hr
  have := @Cost.tag02v3 X 32
  have := Cost.failed this
  have := @Cost.unknownData 32
  unfold Gpgpdump.tag02; cost
theorem Cost.tag01 : Cost 0 6 tag01 := by
  have := @Cost.parseSes 0
  have := @Cost.unknownData 0
  unfold Gpgpdump.tag01; cost
theorem Cost.tag03 : Cost 0 7 tag03 := by
  have := Cost.s2kParse
  have := @Cost.unknownData 0
  unfold Gpgpdump.tag03; cost
theorem Cost.tag04 : Cost 0 7 tag04 := by
  have := @Cost.unknownData 0
  unfold Gpgpdump.tag04; cost
theorem Cost.pubkeyParse (v) : Cost 0 8 (pubkeyParse X v) := by
  have h1 := @Cost.newDateTime 0 0
  have h2 : Cost 0 1 (pubkeyTime X) := by unfold Gpgpdump.pubkeyTime; cost
  have h3 := @Cost.parsePub 0
  unfold Gpgpdump.pubkeyParse
  have h4 : ∀ r b, Cost 0 5 (Gpgpdump.onReader r (Gpgpdump.parsePub b)) := fun r b => .onReader r (h3 b)
  cost
theorem Cost.onField {α c} {m : P α} (h : Cost 0 c m) (f) : Cost 0 c (onField f m) := by
  unfold Gpgpdump.onField
  split
  · exact .seq (.onReader _ h) (Nat.le_refl _) fun _ => .pure _
  · exact .seq h (Nat.le_refl _) fun _ => .pure _
theorem Cost.getField1 (v) : Cost 0 0 (getField1 v) := by unfold Gpgpdump.getField1; cost
theorem Cost.getField2 (v) : Cost 0 0 (getField2 v) := by
  have := @Cost.rest 0 0
  unfold Gpgpdump.getField2; cost
theorem Cost.fieldRest (r) : Cost 0 1 (fieldRest r) := by
  unfold Gpgpdump.fieldRest
  cost
theorem Cost.secIV (a b) : Cost 0 1 (secIV a b) := by unfold Gpgpdump.secIV; cost
theorem Cost.secOptions (u) : Cost 0 6 (secOptions u) := by
  have hs := Cost.s2kParse
  have h1 : ∀ d, Cost 0 1 ((if u ≠ 0 then do
    let alg ← P.readByte
    P.add (symItem alg d)
    return alg
  else return 0) : P UInt8) := by intro d; cost
  unfold Gpgpdump.secOptions
  refine .skip (.flag _) fun d => .seq (h1 d) (by decide) fun _ => ?_
  cost
theorem Cost.secField1 (v u) : Cost 0 8 (secField1 v u) := by
  have := Cost.secIV; have := Cost.fieldRest
  unfold Gpgpdump.secField1
  refine .skip (.getField1 _) fun f => ?_
  split
  · exact .pure _
  · refine .seq (.onField (.secOptions u) _) (by decide) fun _ => ?_
    cost
    all_goals exact .mono (.fieldRest _) (by decide)
theorem Cost.secField2 (v u p) : Cost 0 6 (secField2 v u p) := by
  have := Cost.fieldRest
  unfold Gpgpdump.secField2
  refine .skip (.getField2 _) fun f => ?_
  split
  · exact .pure _
  · split
    · exact .skip (.setNote _) fun _ => .seq (.onField (.parseSecPlain _) _) (by decide) fun _ => .skip (.readBytes _) fun _ => .add_bind rfl (by decide) fun _ => .mono (.fieldRest _) (by decide)
    · exact .skip (.setNote _) fun _ => .seq (.onField (.parseSecEnc _) _) (by decide) fun _ => .mono (.fieldRest _) (by decide)
theorem Cost.seckeyParse (v p) : Cost 0 14 (seckeyParse v p) := by
  unfold Gpgpdump.seckeyParse
  exact .skip .readByte fun u => .seq (.secField1 _ _) (by decide) fun _ => .mono (.secField2 _ _ _) (by decide)
theorem Cost.tag05 : Cost 0 26 (tag05 X) := by
  unfold Gpgpdump.tag05
  exact .skip .readByte fun v => .skip (.flag _) fun _ => .add_bind rfl (by decide) fun _ => .seq (a := 9) (.nested rfl (by decide) (.mono (.pubkeyParse _) (by decide))) (by decide) fun p =>
    .seq (a := 15) (.nested rfl (by decide) (.mono (.seckeyParse _ _) (by decide))) (by decide) fun _ => .unknownData
theorem Cost.tag06 : Cost 0 10 (tag06 X) := by
  unfold Gpgpdump.tag06
  exact .skip .readByte fun v => .skip (.flag _) fun _ => .add_bind rfl (by decide) fun _ => .seq (.pubkeyParse _) (by decide) fun p => .unknownData
theorem Cost.tag08 : Cost 0 2 (tag08 X) := by
  unfold Gpgpdump.tag08
  refine .skip .readByte fun c => .skip (.flag _) fun _ => .add_bind rfl (by decide) fun _ => .skip .reader fun r => ?_
  split
  · refine .skip (by split <;> cost) fun zd => ?_
    dsimp only
    split <;> cost
  · exact .pure _
theorem Cost.tag09 : Cost 0 1 tag09 := by unfold Gpgpdump.tag09; cost
theorem Cost.tag11 : Cost 0 4 (tag11 X) := by
  have := @Cost.newDateTime 0 0
  have := @Cost.addRaw 0
  unfold Gpgpdump.tag11
  refine .skip .readByte fun f => .add_bind rfl (by decide) fun _ => .skip .readByte fun l => .skip (by split <;> cost) fun n => ?_
  cost
  exact .mono (.addRaw _ _) (by decide)
theorem Cost.tag18 : Cost 0 1 tag18 := by
  unfold Gpgpdump.tag18
  refine .skip .reader fun r => .skip (.flag _) fun d => .skip .getMode fun m => ?_
  cases m <;> cost
theorem Cost.tag20 : Cost 0 6 tag20 := by
  have := @Cost.addRaw 0
  have := @Cost.rest 0 0
  have h : ∀ a : UInt8, Cost 0 1 (Gpgpdump.failed (do
    let iv ← P.readBytes (aeadIVLen a)
    P.add (newItem (S "IV") [] [] (dumpBytes iv true)))) := by intro a; cost
  unfold Gpgpdump.tag20; cost
  exact .mono (.addRaw _ _) (by decide)

theorem Gives.tagParse {recur : TagParser} (hr : ∀ t b, Gives (32 + 32 * b.length) (recur t b)) (t b) : Gives (32 + 32 * b.length) (tagParse X recur t b) := by
  unfold Gpgpdump.tagParse tagScope
  refine .flag_bind fun f => ?_
  have hh : (tagItem t b f).items = [] := rfl
  have hk : ∀ {k c} {m : P Unit}, Cost k c m → k ≤ 32 → c ≤ 31 → Gives (32 + 32 * b.length) (Gpgpdump.scope b (tagItem t b f) (m >>= fun _ => P.getCur)) := by
    intro k c m h hk hc
    refine (Gives.scope (body := b) hh (h.seq (Nat.le_refl _) fun _ => .getCur) (.bind fun _ => .getCur)).mono ?_
    have : k * b.length ≤ 32 * b.length := Nat.mul_le_mul_right _ (by omega)
    omega
  by_cases h17 : t = 17
  · subst h17
    constructor
    intro st
    refine ⟨rfl, rfl, fun i hi => ?_⟩
    have hi' : ((Gpgpdump.addSubpackets Gpgpdump.parseSub17 (S "Subpacket") b >>= fun _ => P.getCur) { st with rd := Reader.new b, cur := tagItem 17 b f }).1 = .ok i := hi
    have hc : Cost 0 (1 + 32 * b.length) (Gpgpdump.addSubpackets Gpgpdump.parseSub17 (S "Subpacket") b >>= fun _ => P.getCur) :=
      .seq (.addSubpackets (A := 64) (by decide) Gives.parseSub17 _ _) (Nat.le_refl _) fun _ => .getCur
    have he := (Ends.bind (m := Gpgpdump.addSubpackets Gpgpdump.parseSub17 (S "Subpacket") b) fun _ => Ends.getCur).run _ i hi'
    have h1 := hc.run { st with rd := Reader.new b, cur := tagItem 17 b f }
    unfold units at h1
    rw [← he, items_leaf hh] at h1
    omega
  unfold tagBody
  split
  · exact hk .tag01 (by decide) (by decide)
  · exact hk (.tag02 hr) (by decide) (by decide)
  · exact hk .tag03 (by decide) (by decide)
  · exact hk .tag04 (by decide) (by decide)
  · exact hk .tag05 (by decide) (by decide)
  · exact hk .tag06 (by decide) (by decide)
  · exact hk .tag05 (by decide) (by decide)
  · exact hk (Cost.seq .tag08 (Nat.le_refl _) fun _ => .pure _) (by decide) (by decide)
  · exact hk .tag09 (by decide) (by decide)
  · exact hk (k := 0) (c := 1) (.skip (.flag _) fun _ => .addRaw _ _) (by decide) (by decide)
  · exact hk .tag11 (by decide) (by decide)
  · exact hk (k := 0) (c := 1) (.addRaw _ _) (by decide) (by decide)
  · exact hk (k := 0) (c := 1) (.skip .getBody fun _ => .skip (.flag _) fun _ => .add (leaf_text _ _ _) (by decide)) (by decide) (by decide)
  · exact hk .tag06 (by decide) (by decide)
  · exact absurd rfl h17
  · exact hk .tag18 (by decide) (by decide)
  · exact hk (k := 0) (c := 1) (.skip .reader fun _ => .skip (.flag _) fun _ => .add rfl (by decide)) (by decide) (by decide)
  · exact hk .tag20 (by decide) (by decide)
  · exact hk (k := 0) (c := 0) (.pure _) (by decide) (by decide)

theorem Gives.parseTagF (f : Nat) (t b) : Gives (32 + 32 * b.length) (parseTagF X f t b) := by
  induction f generalizing t b with
  | zero => exact ⟨fun st => ⟨rfl, rfl, fun i hi => by cases hi⟩⟩
  | succ f ih => exact Gives.tagParse ih t b
theorem Gives.parseTag (t b) : Gives (32 + 32 * b.length) (parseTag X t b) := Gives.parseTagF _ t b

end

end Gpgpdump
