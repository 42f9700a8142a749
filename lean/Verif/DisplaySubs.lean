import Verif.DisplayKeys
import Verif.AcceptTags

/-!
# What is displayed of subpackets
-/

namespace Gpgpdump
open P Spec

variable {o : OptCode → Bool}

/-- what a successful run on this reader and item returns, and the item it leaves -/
def Ret (o : OptCode → Bool) {α} (m : P α) (rd : Reader) (j : Item) (R : α → Item → Prop) : Prop :=
  ∀ x a s, x.opts = o → m ⟨some x, rd, j⟩ = (.ok a, s) → (∃ x', s.ctx = some x' ∧ x'.opts = o) ∧ R a s.cur

/-- reader split at its position -/
abbrev rdAt (p q : Bytes) : Reader := ⟨p ++ q, p.length⟩

namespace Ret

theorem pure {α} {a : α} {rd j} {R : α → Item → Prop} (h : R a j) : Ret o (Pure.pure a) rd j R := by
  intro x b s hx hr
  obtain ⟨rfl, rfl⟩ := pure_inv hr
  exact ⟨⟨x, rfl, hx⟩, h⟩

theorem getCur {rd j} {R : Item → Item → Prop} (h : R j j) : Ret o P.getCur rd j R := by
  intro x b s hx hr
  rw [getCur_run] at hr
  cases hr
  exact ⟨⟨x, rfl, hx⟩, h⟩

theorem getCur' {β} {g : Item → P β} {rd j} {R : β → Item → Prop} (h : Ret o (g j) rd j R) : Ret o (P.getCur >>= g) rd j R := by
  intro x b s hx hr
  rw [bind_run, getCur_run] at hr
  exact h x b s hx hr

theorem flag {β} {F : Ctx → Bool} {v : Bool} {g : Bool → P β} {rd j} {R : β → Item → Prop} (hv : ∀ x : Ctx, x.opts = o → F x = v)
    (h : Ret o (g v) rd j R) : Ret o (P.flag F >>= g) rd j R := by
  intro x b s hx hr
  rw [bind_run, flag_run] at hr
  simp only [ctxFlag, hv x hx] at hr
  exact h x b s hx hr

theorem debug {β} {g : Bool → P β} {rd j} {R : β → Item → Prop} (h : Ret o (g (o DEBUG)) rd j R) : Ret o (P.flag Ctx.debug >>= g) rd j R :=
  flag (fun x hx => by subst hx; rfl) h
theorem utc {β} {g : Bool → P β} {rd j} {R : β → Item → Prop} (h : Ret o (g (o UTC)) rd j R) : Ret o (P.flag Ctx.utc >>= g) rd j R :=
  flag (fun x hx => by subst hx; rfl) h
theorem literal {β} {g : Bool → P β} {rd j} {R : β → Item → Prop} (h : Ret o (g (o LITERAL || o DEBUG)) rd j R) : Ret o (P.flag Ctx.literal >>= g) rd j R :=
  flag (fun x hx => by subst hx; rfl) h
theorem marker {β} {g : Bool → P β} {rd j} {R : β → Item → Prop} (h : Ret o (g (o MARKER || o DEBUG)) rd j R) : Ret o (P.flag Ctx.marker >>= g) rd j R :=
  flag (fun x hx => by subst hx; rfl) h
theorem cert {β} {g : Bool → P β} {rd j} {R : β → Item → Prop} (h : Ret o (g (o CERT || o DEBUG)) rd j R) : Ret o (P.flag Ctx.cert >>= g) rd j R :=
  flag (fun x hx => by subst hx; rfl) h

theorem shows {α β} {m : P α} {g : α → P β} {E p q j} {R : β → Item → Prop} (hm : Shows o m E)
    (h : ∀ a f q' l, q = f ++ q' → E a f q' l → Ret o (g a) (rdAt (p ++ f) q') (j.addAll l) R) : Ret o (m >>= g) (rdAt p q) j R := by
  intro x b s hx hr
  obtain ⟨a, s1, hr1, hr2⟩ := bind_inv hr
  obtain ⟨x1, f1, q1, l1, hx1, rfl, rfl, h1⟩ := hm x p q j a s1 hx hr1
  exact h a f1 q1 l1 rfl h1 x1 b s hx1 hr2

theorem byte {β} {g : UInt8 → P β} {p q j} {R : β → Item → Prop}
    (h : ∀ b q', q = b :: q' → Ret o (g b) (rdAt (p ++ [b]) q') j R) : Ret o (readByte >>= g) (rdAt p q) j R := by
  intro x a s hx hr
  obtain ⟨b, s1, hr1, hr2⟩ := bind_inv hr
  obtain ⟨q1, rfl, rfl⟩ := readByte_inv hr1
  exact h b q1 rfl x a s hx hr2

theorem bytes {β} (n : Nat) {g : Bytes → P β} {p q j} {R : β → Item → Prop}
    (h : ∀ b q' : Bytes, q = b ++ q' → b.length = n → Ret o (g b) (rdAt (p ++ b) q') j R) : Ret o (readBytes n >>= g) (rdAt p q) j R := by
  intro x a s hx hr
  obtain ⟨b, s1, hr1, hr2⟩ := bind_inv hr
  obtain ⟨q1, rfl, hl, rfl⟩ := readBytes_inv hr1
  exact h b q1 rfl hl x a s hx hr2

theorem add {β} {i : Item} {g : Unit → P β} {rd j} {R : β → Item → Prop} (h : Ret o (g ()) rd (j.addAll [i]) R) : Ret o (P.add i >>= g) rd j R := by
  intro x a s hx hr
  exact h x a s hx hr

theorem setValue {β} {v : Str} {g : Unit → P β} {rd j} {R : β → Item → Prop} (h : Ret o (g ()) rd (j.setValue v) R) : Ret o (P.setValue v >>= g) rd j R := by
  intro x a s hx hr
  exact h x a s hx hr

theorem setDump {β} {v : Str} {g : Unit → P β} {rd j} {R : β → Item → Prop} (h : Ret o (g ()) rd (j.setDump v) R) : Ret o (P.setDump v >>= g) rd j R := by
  intro x a s hx hr
  exact h x a s hx hr

theorem reader {β} {g : Reader → P β} {rd j} {R : β → Item → Prop} (h : Ret o (g rd) rd j R) : Ret o (P.reader >>= g) rd j R := by
  intro x a s hx hr
  exact h x a s hx hr

theorem getBody {β} {g : Bytes → P β} {p q j} {R : β → Item → Prop} (h : Ret o (g (p ++ q)) (rdAt p q) j R) : Ret o (Gpgpdump.getBody >>= g) (rdAt p q) j R := by
  intro x a s hx hr
  exact h x a s hx hr

theorem rest {β} {g : Int → P β} {p q j} {R : β → Item → Prop} (h : Ret o (g q.length) (rdAt p q) j R) : Ret o (Gpgpdump.rest >>= g) (rdAt p q) j R := by
  intro x a s hx hr
  rw [bind_run, show (⟨some x, rdAt p q, j⟩ : St) = St.at (some x) p q j from rfl, rest_run] at hr
  exact h x a s hx hr

theorem setSigTime {β} {t} {g : Unit → P β} {rd j} {R : β → Item → Prop} (h : Ret o (g ()) rd j R) : Ret o (P.setSigTime t >>= g) rd j R := by
  intro x a s hx hr
  exact h { x with sigTime := t } a s hx hr

theorem setKeyTime {β} {t} {g : Unit → P β} {rd j} {R : β → Item → Prop} (h : Ret o (g ()) rd j R) : Ret o (P.setKeyTime t >>= g) rd j R := by
  intro x a s hx hr
  exact h { x with keyTime := t } a s hx hr

theorem setMode {β} {t} {g : Unit → P β} {rd j} {R : β → Item → Prop} (h : Ret o (g ()) rd j R) : Ret o (P.setMode t >>= g) rd j R := by
  intro x a s hx hr
  exact h { x with mode := t } a s hx hr

theorem getSigTime {β} {g : Option DateTime → P β} {rd j} {R : β → Item → Prop} (h : ∀ t, Ret o (g t) rd j R) : Ret o (P.getSigTime >>= g) rd j R := by
  intro x a s hx hr
  exact h x.sigTime x a s hx hr

theorem getKeyTime {β} {g : Option DateTime → P β} {rd j} {R : β → Item → Prop} (h : ∀ t, Ret o (g t) rd j R) : Ret o (P.getKeyTime >>= g) rd j R := by
  intro x a s hx hr
  exact h x.keyTime x a s hx hr

theorem getMode {β} {g : Mode → P β} {rd j} {R : β → Item → Prop} (h : ∀ t, Ret o (g t) rd j R) : Ret o (P.getMode >>= g) rd j R := by
  intro x a s hx hr
  exact h x.mode x a s hx hr

theorem addRaw {β} {n : Str} {f : Bool} {g : Unit → P β} {p q j} {R : β → Item → Prop}
    (h : Ret o (g ()) (rdAt p q) (j.addAll [leaf n [] (sizeText q.length) (dumpIf f q)]) R) : Ret o (Gpgpdump.addRaw n f >>= g) (rdAt p q) j R := by
  intro x a s hx hr
  rw [bind_run, show (⟨some x, rdAt p q, j⟩ : St) = St.at (some x) p q j from rfl, addRaw_run, rawItem_eq] at hr
  exact h x a s hx hr

/-- an item for a flag, if it is set -/
def flagIf (c : UInt8) (t : Str) : List Item := if c ≠ 0 then [leaf "Flag".toList t] else []

theorem addOpt {β} {c : UInt8} {t : Str} {g : Unit → P β} {rd j} {R : β → Item → Prop} (h : Ret o (g ()) rd (j.addAll (flagIf c t)) R) :
    Ret o (P.addOpt (flag2Item c t) >>= g) rd j R := by
  intro x a s hx hr
  rw [bind_run, addOpt_flag2] at hr
  exact h x a s hx hr

theorem trailingFlags {β} {g : Unit → P β} {p q j} {R : β → Item → Prop} (h : ∀ rd, Ret o (g ()) rd (j.addAll (restFlagRows 2 q)) R) :
    Ret o (Gpgpdump.trailingFlags >>= g) (rdAt p q) j R := by
  intro x a s hx hr
  obtain ⟨rd, h1⟩ := trailingFlags_run (some x) p q j
  rw [bind_run, show (⟨some x, rdAt p q, j⟩ : St) = St.at (some x) p q j from rfl, h1, restFlags_eq] at hr
  exact h rd x a s hx hr

theorem read2EOF {β} {g : Bytes → P β} {p q j} {R : β → Item → Prop} (hq : q ≠ []) (h : ∀ rd, Ret o (g q) rd j R) : Ret o (P.read2EOF >>= g) (rdAt p q) j R := by
  intro x a s hx hr
  obtain ⟨rd, h1, -⟩ := read2EOF_ok (some x) p q j hq
  rw [bind_run, show (⟨some x, rdAt p q, j⟩ : St) = St.at (some x) p q j from rfl, h1] at hr
  exact h rd x a s hx hr

theorem forAdd {β} {xs : Bytes} {f : UInt8 → Item} {g : Unit → P β} {rd j} {R : β → Item → Prop} (h : Ret o (g ()) rd (j.addAll (xs.map f)) R) :
    Ret o (P.forEach xs (fun b => P.add (f b)) >>= g) rd j R := by
  induction xs generalizing j with
  | nil =>
    intro x a s hx hr
    exact h x a s hx (by rw [List.map_nil, Item.addAll_nil]; exact hr)
  | cons b xs ih =>
    unfold P.forEach
    have : ∀ (m : P Unit), (P.bind (P.add (f b)) (fun _ => m)) >>= g = P.add (f b) >>= fun _ => m >>= g := fun m => Lang.assoc _ _ _
    rw [this]
    refine add (ih ?_)
    rw [Item.addAll_addAll]
    exact h

theorem time {β} {g : DateTime → P β} {p q j} {R : β → Item → Prop}
    (h : ∀ tm q' : Bytes, q = tm ++ q' → tm.length = 4 → Ret o (g ⟨tm, o UTC⟩) (rdAt (p ++ tm) q') j R) :
    Ret o (P.flag Ctx.utc >>= fun u => newDateTime u >>= g) (rdAt p q) j R := by
  refine utc ?_
  unfold newDateTime
  rw [bind_assoc_P]
  exact bytes 4 fun tm q' hq ht => h tm q' hq ht

theorem mono {α} {m : P α} {rd j} {R R' : α → Item → Prop} (h : Ret o m rd j R) (h' : ∀ a i, R a i → R' a i) : Ret o m rd j R' := by
  intro x a s hx hr
  obtain ⟨h1, h2⟩ := h x a s hx hr
  exact ⟨h1, h' _ _ h2⟩

end Ret

/-! ## Flags -/

open Ret (flagIf)

theorem flagRows_eq (names : List (UInt8 × String)) (n : Nat) (b : UInt8) : flagRows names n b =
    names.flatMap (fun p => flagIf (b &&& p.1) p.2.toList) ++
      flagIf (names.foldl (fun r p => r &&& ~~~ p.1) b) (unknownFlagText n (names.foldl (fun r p => r &&& ~~~ p.1) b)) := by
  unfold flagRows
  have : (names.filterMap fun p => if b &&& p.1 ≠ 0 then some (leaf "Flag".toList p.2.toList) else none) =
      names.flatMap (fun p => flagIf (b &&& p.1) p.2.toList) := by
    induction names with
    | nil => rfl
    | cons p l ih =>
      rw [List.filterMap_cons, List.flatMap_cons, ← ih]
      unfold flagIf
      by_cases h : b &&& p.1 ≠ 0
      · rw [if_pos h, if_pos h]; rfl
      · rw [if_neg h, if_neg h]; rfl
  rw [this]; rfl

theorem featureFlags (b : UInt8) (j : Item) : (((j.addAll (flagIf (b &&& 0x01) (S "Modification Detection (packets 18 and 19)"))).addAll
    (flagIf (b &&& 0x02) (S "AEAD Encrypted Data Packet (packet 20) and version 5 Symmetric-Key Encrypted Session Key Packets (packet 3)"))).addAll
    (flagIf (b &&& 0x04) (S "Version 5 Public-Key Packet format and corresponding new fingerprint format"))).addAll
    (flagIf (b &&& 0xf8) (unknownFlag 1 (b &&& 0xf8))) = j.addAll (featureRows b) := by
  have h : b &&& ~~~ 1 &&& ~~~ 2 &&& ~~~ 4 = b &&& 0xf8 := byOctet (p := fun b => b &&& ~~~ 1 &&& ~~~ 2 &&& ~~~ 4 = b &&& 0xf8) (by decide +kernel) b
  unfold featureRows
  rw [flagRows_eq]
  simp only [List.foldl_cons, List.foldl_nil, h, List.flatMap_cons, List.flatMap_nil, Item.addAll_addAll, unknownFlag_text, List.append_assoc, List.nil_append]
  rfl

theorem serverFlags (b : UInt8) (j : Item) : (j.addAll (flagIf (b &&& 0x80) (S "No-modify"))).addAll
    (flagIf (b &&& 0x7f) (unknownFlag 1 (b &&& 0x7f))) = j.addAll (serverRows b) := by
  have h : b &&& ~~~ 0x80 = b &&& 0x7f := byOctet (p := fun b => b &&& ~~~ 0x80 = b &&& 0x7f) (by decide +kernel) b
  unfold serverRows
  rw [flagRows_eq]
  simp only [List.foldl_cons, List.foldl_nil, h, List.flatMap_cons, List.flatMap_nil, Item.addAll_addAll, unknownFlag_text, List.append_assoc, List.nil_append]
  rfl

theorem keyFlags2 (b : UInt8) (j : Item) : ((j.addAll (flagIf (b &&& 0x04) (S "This key may be used as an additional decryption subkey (ADSK)."))).addAll
    (flagIf (b &&& 0x08) (S "This key may be used for timestamping."))).addAll
    (flagIf (b &&& 0xf3) (unknownFlag 2 (b &&& 0xf3))) = j.addAll (keyFlagRows2 b) := by
  have h : b &&& ~~~ 4 &&& ~~~ 8 = b &&& 0xf3 := byOctet (p := fun b => b &&& ~~~ 4 &&& ~~~ 8 = b &&& 0xf3) (by decide +kernel) b
  unfold keyFlagRows2
  rw [flagRows_eq]
  simp only [List.foldl_cons, List.foldl_nil, h, List.flatMap_cons, List.flatMap_nil, Item.addAll_addAll, unknownFlag_text, List.append_assoc, List.nil_append]
  rfl

theorem keyFlags1 (f : UInt8) (j : Item) : ((((((((j.addAll (flagIf (f &&& 0x01) (S "This key may be used to certify other keys."))).addAll
    (flagIf (f &&& 0x02) (S "This key may be used to sign data."))).addAll
    (flagIf (f &&& 0x04) (S "This key may be used to encrypt communications."))).addAll
    (flagIf (f &&& 0x08) (S "This key may be used to encrypt storage."))).addAll
    (flagIf (f &&& 0x10) (S "The private component of this key may have been split by a secret-sharing mechanism."))).addAll
    (flagIf (f &&& 0x20) (S "This key may be used for authentication."))).addAll
    (flagIf (f &&& 0x40) (unknownFlag 1 (f &&& 0x40)))).addAll
    (flagIf (f &&& 0x80) (S "The private component of this key may be in the possession of more than one person."))) = j.addAll (keyFlagRows f) := by
  have h := byOctet (p := fun b => b &&& 0x7f &&& ~~~ 1 &&& ~~~ 2 &&& ~~~ 4 &&& ~~~ 8 &&& ~~~ 0x10 &&& ~~~ 0x20 = b &&& 0x40 ∧ b &&& 0x80 &&& ~~~ 0x80 = 0 ∧
    b &&& 0x7f &&& 1 = b &&& 1 ∧ b &&& 0x7f &&& 2 = b &&& 2 ∧ b &&& 0x7f &&& 4 = b &&& 4 ∧ b &&& 0x7f &&& 8 = b &&& 8 ∧
    b &&& 0x7f &&& 0x10 = b &&& 0x10 ∧ b &&& 0x7f &&& 0x20 = b &&& 0x20 ∧ b &&& 0x80 &&& 0x80 = b &&& 0x80) (by decide +kernel) f
  obtain ⟨h1, h2, h3, h4, h5, h6, h7, h8, h9⟩ := h
  unfold keyFlagRows
  rw [flagRows_eq, flagRows_eq]
  simp only [List.foldl_cons, List.foldl_nil, h1, h2, h3, h4, h5, h6, h7, h8, h9, List.flatMap_cons, List.flatMap_nil, Item.addAll_addAll, unknownFlag_text,
    List.append_assoc, List.append_nil]
  have h0 : ∀ t, flagIf 0 t = [] := fun t => if_neg (by simp)
  rw [h0, List.append_nil]
  rfl

theorem notationFlags (a b c d : UInt8) (j : Item) : ((((j.addAll (flagIf (a &&& 0x80) (S "Human-readable"))).addAll
    (flagIf (a &&& 0x7f) (unknownFlag 1 (a &&& 0x7f)))).addAll (flagIf b (unknownFlag 2 b))).addAll (flagIf c (unknownFlag 3 c))).addAll (flagIf d (unknownFlag 4 d)) =
    j.addAll (notationRows [a, b, c, d]) := by
  have h : a &&& ~~~ 0x80 = a &&& 0x7f := byOctet (p := fun b => b &&& ~~~ 0x80 = b &&& 0x7f) (by decide +kernel) a
  unfold notationRows
  simp only [flagRows_eq, List.foldl_cons, List.foldl_nil, h, List.flatMap_cons, List.flatMap_nil, Item.addAll_addAll, unknownFlag_text, List.append_assoc, List.nil_append]
  rfl

/-! ## The subpackets -/

/-- a method of its own reader: it returns an item and leaves reader and current item alone -/
def Yields (o : OptCode → Bool) (m : P Item) (R : Item → Prop) : Prop := Shows o m (fun i f _ l => f = [] ∧ l = [] ∧ R i)

theorem Yields.scope {b : Bytes} {hdr : Item} {m : P Item} {R : Item → Prop} (h : Ret o m (rdAt [] b) hdr (fun i _ => R i)) : Yields o (P.scope b hdr m) R := by
  intro x p q j i s hx hr
  rw [scope_run] at hr
  rcases hm : m (St.at (some x) [] b hdr) with ⟨r, s1⟩
  rw [St.at_ctx, hm] at hr
  simp only [Prod.mk.injEq] at hr
  obtain ⟨rfl, rfl⟩ := hr
  obtain ⟨⟨x', h1, h2⟩, h3⟩ := h x i s1 hx hm
  refine ⟨x', [], q, [], h2, rfl, ?_, rfl, rfl, h3⟩
  simp [St.at, h1]

theorem Yields.mono {m : P Item} {R R' : Item → Prop} (h : Yields o m R) (h' : ∀ i, R i → R' i) : Yields o m R' :=
  Shows.mono h fun i _ _ _ hi => ⟨hi.1, hi.2.1, h' i hi.2.2⟩

def subHead (o : OptCode → Bool) (t : UInt8) (b : Bytes) : Item := .mk (subName t) [] (dumpIf (o DEBUG) b) (sizeText b.length) []

theorem subItem_eq (t : UInt8) (b : Bytes) : subItem t b (o DEBUG) = subHead o t b := by
  unfold subItem subHead
  rw [subNames_eq, dumpRest_new, dumpHexIf_eq]; rfl

theorem subHead_add (t : UInt8) (b : Bytes) (l : List Item) : (subHead o t b).addAll l = subRow o t b l := rfl

variable (X : Ext)

theorem Yields.sub {recur : TagParser} {t : UInt8} {b : Bytes} {R : Item → Prop}
    (h : Ret o (sub02Body X recur (t.toNat % 128)) (rdAt [] b) (subHead o t b) (fun i _ => R i)) : Yields o (parseSub02 X recur t b) R := by
  unfold parseSub02 subScope
  rw [and_7f]
  refine Shows.debug ?_
  rw [subItem_eq]
  exact Yields.scope h

section
variable {t : UInt8} {b : Bytes}

local notation "Subp" m => Ret o m (rdAt [] b) (subHead o t b) (fun i _ => SubShown o X t b i)

theorem sub02_shown (h : t.toNat % 128 = 2) : Subp sub02 X := by
  unfold sub02
  refine Ret.getCur' (Ret.time fun tm q' hq ht => Ret.debug (Ret.setSigTime (Ret.pure ?_)))
  rw [timeItem_eq, hq]
  exact .created h ht

theorem expires_shown (h : t.toNat % 128 = 3 ∨ t.toNat % 128 = 9) {day q' : Bytes} (hl : day.length = 4) (start) (hq : b = day ++ q') :
    SubShown o X t b (expireItem X (subHead o t b).name day start (o DEBUG)) := by
  subst hq
  unfold expireItem
  rw [dumpIf_eq]
  exact .expires h hl

theorem sub03_shown (h : t.toNat % 128 = 3) : Subp sub03 X := by
  unfold sub03
  exact Ret.getCur' (Ret.getSigTime fun st => Ret.bytes 4 fun day q' hq hl => Ret.setSigTime (Ret.debug (Ret.pure (expires_shown X (.inl h) hl st hq))))

theorem sub09_shown (h : t.toNat % 128 = 9) : Subp sub09 X := by
  unfold sub09
  exact Ret.getCur' (Ret.getKeyTime fun st => Ret.bytes 4 fun day q' hq hl => Ret.setKeyTime (Ret.debug (Ret.pure (expires_shown X (.inr h) hl st hq))))

theorem sub04_shown (h : t.toNat % 128 = 4) : Subp sub04 := by
  unfold sub04
  refine Ret.byte fun c q' hq => Ret.setValue (Ret.reader (Ret.setDump (Ret.getCur ?_)))
  subst hq
  have hd : dumpRest (rdAt ([] ++ [c]) q') true = hexText q' := by
    have := congrArg Item.dump (rawData_at [c] q' [] true)
    rw [if_pos rfl, hexText_eq] at this
    exact this
  rw [hd]
  exact .exportable h

theorem sub05_shown (h : t.toNat % 128 = 5) : Subp sub05 := by
  unfold sub05
  refine Ret.byte fun c q' hq => Ret.add (Ret.byte fun d q'' hq' => Ret.add (Ret.getCur ?_))
  subst hq' hq
  rw [Item.addAll_addAll, subHead_add]
  exact .trust h

theorem subText_shown (h : t.toNat % 128 ∈ [6, 24, 26, 28]) : Subp subText := by
  unfold subText
  refine Ret.getCur' (Ret.getBody (Ret.debug (Ret.pure ?_)))
  rw [textItem_eq]
  exact .text h

theorem sub07_shown (h : t.toNat % 128 = 7) : Subp sub07 := by
  unfold sub07
  refine Ret.byte fun c q' hq => Ret.setValue (Ret.getCur ?_)
  subst hq
  exact .revocable h

theorem sub25_shown (h : t.toNat % 128 = 25) : Subp sub25 := by
  unfold sub25
  refine Ret.byte fun c q' hq => Ret.setValue (Ret.getCur ?_)
  subst hq
  exact .primary h

theorem subList_shown {f : UInt8 → Bool → Item} {row : UInt8 → Item} (hf : ∀ b, f b (o DEBUG) = row b) (h : SubShown o X t b (subRow o t b (b.map row))) :
    Subp subList f := by
  unfold subList
  refine Ret.getBody (Ret.debug (Ret.forAdd (Ret.getCur ?_)))
  rw [subHead_add, List.nil_append, show (fun x => f x (o DEBUG)) = row from funext hf]
  exact h

theorem class_eq (c : UInt8) : (if c &&& 0x80 ≠ 0 then (if c &&& 0x40 ≠ 0 then S "Sensitive" else S "Normal") else S "Unknown") = (classText c).toList := by
  have := byOctet (p := fun c => (c &&& 0x80 ≠ 0 ↔ 128 ≤ c.toNat) ∧ (128 ≤ c.toNat → (c &&& 0x40 ≠ 0 ↔ 192 ≤ c.toNat))) (by decide +kernel) c
  unfold classText
  by_cases h : 128 ≤ c.toNat
  · rw [if_pos (this.1.mpr h), if_neg (show ¬ c.toNat < 128 by omega)]
    by_cases h2 : 192 ≤ c.toNat
    · rw [if_pos ((this.2 h).mpr h2), if_neg (show ¬ c.toNat < 192 by omega)]; rfl
    · rw [if_neg (fun hh => h2 ((this.2 h).mp hh)), if_pos (by omega)]; rfl
  · rw [if_neg (fun hh => h (this.1.mp hh)), if_pos (by omega)]; rfl

theorem sub12_shown (h : t.toNat % 128 = 12) : Subp sub12 := by
  unfold sub12
  refine Ret.byte fun c q' hq => Ret.add (Ret.byte fun a q'' hq' => Ret.debug (Ret.add (Ret.addRaw (Ret.getCur ?_))))
  subst hq' hq
  rw [Item.addAll_addAll, Item.addAll_addAll, subHead_add, pubItem_eq, class_eq, hexOctet_eq]
  have hh : hexOctet c = hexText [c] := by rw [← dumpTrue_eq, ← hexOctet_eq]; rfl
  rw [hh]
  exact .revoker h

theorem sub16_shown (h : t.toNat % 128 = 16) : Subp sub16 := by
  unfold sub16
  refine Ret.getCur' (Ret.bytes 8 fun k q' hq hl => Ret.pure ?_)
  subst hq
  rw [keyIDItem_eq k hl]
  exact .issuer h hl

theorem list4 {l : Bytes} (h : l.length = 4) : ∃ a b c d, l = [a, b, c, d] := by
  match l, h with
  | [a, b, c, d], _ => exact ⟨a, b, c, d, rfl⟩

theorem sub20_shown (h : t.toNat % 128 = 20) : Subp sub20 := by
  unfold sub20
  refine Ret.bytes 4 fun fl q1 hq1 hl => ?_
  obtain ⟨f0, f1, f2, f3, rfl⟩ := list4 hl
  dsimp only [List.getD, List.getElem?_cons_zero, List.getElem?_cons_succ, Option.getD]
  refine Ret.addOpt (Ret.addOpt (Ret.addOpt (Ret.addOpt (Ret.addOpt ?_))))
  rw [notationFlags]
  refine Ret.bytes 2 fun nl q2 hq2 hnl => Ret.bytes 2 fun vl q3 hq3 hvl => Ret.bytes _ fun name q4 hq4 hn => Ret.debug (Ret.add (Ret.bytes _ fun value q5 hq5 hv => ?_))
  have hn2 : nl = beOctets 2 name.length := by rw [hn, ← hnl, beOctets_beNat]
  have hv2 : vl = beOctets 2 value.length := by rw [hv, ← hvl, beOctets_beNat]
  have hn3 : name.length < 65536 := by rw [hn]; exact beNat2 nl hnl
  have hv3 : value.length < 65536 := by rw [hv]; exact beNat2 vl hvl
  subst hn2 hv2 hq5 hq4 hq3 hq2 hq1
  rw [textItem_eq, Item.addAll_addAll]
  have hbit : (f0 &&& 0x80 ≠ 0) ↔ 128 ≤ f0.toNat := byOctet (p := fun f0 => (f0 &&& 0x80 ≠ 0) ↔ 128 ≤ f0.toNat) (by decide +kernel) f0
  have key := SubShown.notation (o := o) (X := X) (t := t) (r := q5) h hl hn3 hv3
  by_cases hb : f0 &&& 0x80 ≠ 0
  · rw [if_pos hb]
    refine Ret.debug (Ret.add (Ret.getCur ?_))
    rw [show ([f0, f1, f2, f3].headD 0) = f0 from rfl, if_pos (hbit.mp hb)] at key
    rw [textItem_eq, Item.addAll_addAll, subHead_add, List.append_assoc]
    exact key
  · rw [if_neg hb]
    refine Ret.add (Ret.getCur ?_)
    rw [show ([f0, f1, f2, f3].headD 0) = f0 from rfl, if_neg (fun hh => hb (hbit.mpr hh))] at key
    rw [dumpTrue_eq, Item.addAll_addAll, subHead_add, List.append_assoc]
    exact key

theorem sub23_shown (h : t.toNat % 128 = 23) : Subp sub23 := by
  unfold sub23
  refine Ret.byte fun c q' hq => Ret.addOpt (Ret.addOpt (Ret.trailingFlags fun rd => Ret.getCur ?_))
  subst hq
  rw [serverFlags, Item.addAll_addAll, subHead_add]
  exact .server h

theorem sub30_shown (h : t.toNat % 128 = 30) : Subp sub30 := by
  unfold sub30
  refine Ret.byte fun c q' hq => Ret.addOpt (Ret.addOpt (Ret.addOpt (Ret.addOpt (Ret.trailingFlags fun rd => Ret.getCur ?_))))
  subst hq
  rw [featureFlags, Item.addAll_addAll, subHead_add]
  exact .features h

theorem sub27_shown (h : t.toNat % 128 = 27) : Subp sub27 := by
  unfold sub27
  refine Ret.byte fun c q' hq => Ret.addOpt (Ret.addOpt (Ret.addOpt (Ret.addOpt (Ret.addOpt (Ret.addOpt (Ret.addOpt (Ret.addOpt (Ret.rest ?_))))))))
  rw [keyFlags1]
  subst hq
  cases q' with
  | nil =>
    simp only [List.length_nil]
    rw [if_neg (by simp)]
    refine Ret.trailingFlags fun rd => Ret.getCur ?_
    rw [Item.addAll_addAll, subHead_add, show restFlagRows 2 [] = [] from rfl, List.append_nil]
    exact .keyFlags1 h
  | cons d r =>
    simp only
    rw [if_pos (by simp)]
    refine Ret.byte fun e q'' hq => Ret.addOpt (Ret.addOpt (Ret.addOpt (Ret.trailingFlags fun rd => Ret.getCur ?_)))
    cases hq
    rw [keyFlags2, Item.addAll_addAll, Item.addAll_addAll, subHead_add, ← List.append_assoc]
    exact .keyFlags h

theorem sub29_shown (h : t.toNat % 128 = 29) : Subp sub29 := by
  unfold sub29
  refine Ret.byte fun c q' hq => ?_
  subst hq
  dsimp only
  refine Ret.setValue (Ret.rest ?_)
  have hname : (if 100 ≤ c.toNat ∧ c.toNat ≤ 110 then S "(Private Use)" else reasonNames.get c.toNat (S "Unknown reason")) =
      (if 100 ≤ c.toNat ∧ c.toNat ≤ 110 then "(Private Use)" else reasonName c.toNat).toList := by
    rw [reasonNames_eq]
    split <;> rfl
  have key := SubShown.reason (o := o) (X := X) (t := t) (c := c) (r := q') h
  rw [hname]
  by_cases hr : q' = []
  · subst hr
    rw [if_neg (by simp)]
    exact Ret.getCur key
  · have : 0 < q'.length := List.length_pos_iff.mpr hr
    rw [if_pos (by omega)]
    refine Ret.read2EOF hr fun rd => Ret.debug (Ret.add (Ret.getCur ?_))
    rw [if_neg hr] at key
    rw [textItem_eq]
    exact key

theorem sub31_shown (h : t.toNat % 128 = 31) : Subp sub31 := by
  unfold sub31
  refine Ret.byte fun c q' hq => Ret.debug (Ret.add (Ret.byte fun a q'' hq' => Ret.debug (Ret.add (Ret.addRaw (Ret.getCur ?_)))))
  subst hq' hq
  rw [Item.addAll_addAll, Item.addAll_addAll, subHead_add, pubItem_eq, hashItem_eq]
  exact .target h

theorem subFingerprint_shown (h : t.toNat % 128 = 33 ∨ t.toNat % 128 = 35) : Subp subFingerprint := by
  unfold subFingerprint
  refine Ret.byte fun c q' hq => Ret.add (Ret.addRaw (Ret.getCur ?_))
  subst hq
  rw [Item.addAll_addAll, subHead_add]
  have hn : (if c = 4 then S "need 20 octets length" else if c = 5 then S "need 32 octets length" else Unknown) = (fingerprintNote c).toList := by
    unfold fingerprintNote
    split
    · rfl
    · split <;> rfl
  rw [hn]
  exact .fingerprint h

theorem sub37_shown (h : t.toNat % 128 = 37) : Subp sub37 := by
  unfold sub37
  refine Ret.cert (Ret.addRaw (Ret.getCur ?_))
  rw [subHead_add]
  exact .attested h

/-- all types but embedded signatures and key blocks -/
theorem Yields.plain (recur : TagParser) (h32 : t.toNat % 128 ≠ 32) (h38 : t.toNat % 128 ≠ 38) : Yields o (parseSub02 X recur t b) (SubShown o X t b) := by
  refine Yields.sub X ?_
  by_cases h : t.toNat % 128 ∈ [2, 3, 4, 5, 6, 7, 9, 11, 12, 16, 20, 21, 22, 23, 24, 25, 26, 27, 28, 29, 30, 31, 32, 33, 34, 35, 37, 38]
  · simp only [List.mem_cons, List.not_mem_nil, or_false] at h
    rcases h with h | h | h | h | h | h | h | h | h | h | h | h | h | h | h | h | h | h | h | h | h | h | h | h | h | h | h | h <;> rw [h]
    · exact sub02_shown X h
    · exact sub03_shown X h
    · exact sub04_shown X h
    · exact sub05_shown X h
    · exact subText_shown X (by simp [h])
    · exact sub07_shown X h
    · exact sub09_shown X h
    · exact subList_shown X (symItem_eq o) (.ciphers h)
    · exact sub12_shown X h
    · exact sub16_shown X h
    · exact sub20_shown X h
    · exact subList_shown X (hashItem_eq o) (.hashes h)
    · exact subList_shown X (compItem_eq o) (.compressions h)
    · exact sub23_shown X h
    · exact subText_shown X (by simp [h])
    · exact sub25_shown X h
    · exact subText_shown X (by simp [h])
    · exact sub27_shown X h
    · exact subText_shown X (by simp [h])
    · exact sub29_shown X h
    · exact sub30_shown X h
    · exact sub31_shown X h
    · exact (h32 h).elim
    · exact subFingerprint_shown X (.inl h)
    · exact subList_shown X (aeadItem_eq o) (.aeads h)
    · exact subFingerprint_shown X (.inr h)
    · exact sub37_shown X h
    · exact (h38 h).elim
  · have hb : sub02Body X recur (t.toNat % 128) = getCur := by
      generalize ht : t.toNat % 128 = n at h
      simp only [List.mem_cons, List.not_mem_nil, or_false, not_or] at h
      unfold sub02Body
      split <;> first | rfl | (exfalso; revert h; simp)
    rw [hb]
    exact Ret.getCur (.other h)

theorem Yields.attr : Yields o (parseSub17 t b) (AttrShown o t b) := by
  unfold parseSub17 subScope
  rw [and_7f]
  refine Shows.debug ?_
  rw [subItem_eq]
  refine Yields.scope ?_
  by_cases h : t.toNat % 128 = 1
  · rw [h, sub17Body_1]
    unfold sub01
    refine Ret.bytes 2 fun l q1 hq1 hl => Ret.byte fun v q2 hq2 => ?_
    match l, hl with
    | [l0, l1], _ =>
      subst hq2 hq1
      have hsz : beNat [l0, l1] = l0.toNat * 256 + l1.toNat := by simp [beNat]
      dsimp only
      by_cases h1 : v = 1
      · subst h1
        rw [if_pos rfl]
        refine Ret.add (Ret.reader (Ret.add (Ret.getCur ?_)))
        rw [Item.addAll_addAll, subHead_add, hsz]
        have := AttrShown.image (o := o) (t := t) (l0 := l0) (l1 := l1) (v := 1) (r := q2) h (by decide)
        rw [if_pos rfl] at this
        exact this
      · rw [if_neg h1]
        by_cases h2 : 100 ≤ v.toNat ∧ v.toNat ≤ 110
        · rw [if_pos h2]
          refine Ret.add (Ret.byte fun e q3 hq3 => Ret.add (Ret.reader (Ret.add (Ret.getCur ?_))))
          subst hq3
          rw [Item.addAll_addAll, Item.addAll_addAll, subHead_add, hsz]
          have := AttrShown.experimental (o := o) (t := t) (l0 := l0) (l1 := l1) (v := v) (e := e) (r := q3) h h2.1 h2.2
          exact this
        · rw [if_neg h2]
          refine Ret.add (Ret.reader (Ret.add (Ret.getCur ?_)))
          rw [Item.addAll_addAll, subHead_add, hsz]
          have := AttrShown.image (o := o) (t := t) (l0 := l0) (l1 := l1) (v := v) (r := q2) h (by omega)
          rw [if_neg h1] at this
          exact this
  · have hb : sub17Body (t.toNat % 128) = getCur := by
      generalize ht : t.toNat % 128 = n at h
      unfold sub17Body
      split
      · exact (h rfl).elim
      · rfl
    rw [hb]
    exact Ret.getCur (.other h)

end

end Gpgpdump
