import Verif.DisplayRows

/-!
# What is displayed of the octets that are read

`Shows o m E`: when the parse method `m` succeeds under the options `o`, it has read octets `f`, appended items `l` to the current
item, and `E result f rest l` holds.
-/

namespace Gpgpdump
open P Spec

def Shows (o : OptCode → Bool) {α} (m : P α) (E : α → Bytes → Bytes → List Item → Prop) : Prop :=
  ∀ x p q j a s, x.opts = o → m (St.at (some x) p q j) = (.ok a, s) →
    ∃ x' f q' l, x'.opts = o ∧ q = f ++ q' ∧ s = St.at (some x') (p ++ f) q' (j.addAll l) ∧ E a f q' l

variable {o : OptCode → Bool}

namespace Shows

theorem mono {α} {m : P α} {E E' : α → Bytes → Bytes → List Item → Prop} (h : Shows o m E) (h' : ∀ a f q l, E a f q l → E' a f q l) : Shows o m E' := by
  intro x p q j a s hx hr
  obtain ⟨x', f, q', l, h1, h2, h3, h4⟩ := h x p q j a s hx hr
  exact ⟨x', f, q', l, h1, h2, h3, h' _ _ _ _ h4⟩

theorem pure {α} {a : α} {E : α → Bytes → Bytes → List Item → Prop} (h : ∀ q, E a [] q []) : Shows o (Pure.pure a) E := by
  intro x p q j b s hx hr
  obtain ⟨rfl, rfl⟩ := pure_inv hr
  exact ⟨x, [], q, [], hx, rfl, by simp, h q⟩

theorem fail {α} {e} {E : α → Bytes → Bytes → List Item → Prop} : Shows o (P.fail e : P α) E := by
  intro x p q j b s hx hr
  rw [fail_run] at hr; simp at hr

theorem panic {α} {e} {E : α → Bytes → Bytes → List Item → Prop} : Shows o (P.panic e : P α) E := by
  intro x p q j b s hx hr
  simp [P.panic] at hr

theorem bind {α β} {m : P α} {g : α → P β} {E1 : α → Bytes → Bytes → List Item → Prop} {E : β → Bytes → Bytes → List Item → Prop}
    (h : Shows o m E1) (h' : ∀ a f1 l1, Shows o (g a) (fun b f2 q l2 => E1 a f1 (f2 ++ q) l1 → E b (f1 ++ f2) q (l1 ++ l2))) : Shows o (m >>= g) E := by
  intro x p q j b s hx hr
  obtain ⟨a, s1, hr1, hr2⟩ := bind_inv hr
  obtain ⟨x1, f1, q1, l1, hx1, rfl, rfl, h1⟩ := h x p q j a s1 hx hr1
  obtain ⟨x2, f2, q2, l2, hx2, rfl, rfl, h2⟩ := h' a f1 l1 x1 _ _ _ b s hx1 hr2
  exact ⟨x2, f1 ++ f2, q2, l1 ++ l2, hx2, by simp, by simp [Item.addAll_addAll], h2 h1⟩

/-- the same, with the first part at hand when the second one is looked at -/
theorem bind' {α β} {m : P α} {g : α → P β} {E1 : α → Bytes → Bytes → List Item → Prop} {E : β → Bytes → Bytes → List Item → Prop}
    (h : Shows o m E1) (h' : ∀ a f1 q1 l1, E1 a f1 q1 l1 → Shows o (g a) (fun b f2 q l2 => q1 = f2 ++ q → E b (f1 ++ f2) q (l1 ++ l2))) : Shows o (m >>= g) E := by
  intro x p q j b s hx hr
  obtain ⟨a, s1, hr1, hr2⟩ := bind_inv hr
  obtain ⟨x1, f1, q1, l1, hx1, rfl, rfl, h1⟩ := h x p q j a s1 hx hr1
  obtain ⟨x2, f2, q2, l2, hx2, rfl, rfl, h2⟩ := h' a f1 _ l1 h1 x1 _ _ _ b s hx1 hr2
  exact ⟨x2, f1 ++ f2, q2, l1 ++ l2, hx2, by simp, by simp [Item.addAll_addAll], h2 rfl⟩

theorem ite {α} {c : Prop} [Decidable c] {m n : P α} {E : α → Bytes → Bytes → List Item → Prop} (h1 : c → Shows o m E) (h2 : ¬ c → Shows o n E) :
    Shows o (if c then m else n) E := by
  split
  · exact h1 ‹_›
  · exact h2 ‹_›

theorem byte {β} {g : UInt8 → P β} {E : β → Bytes → Bytes → List Item → Prop}
    (h : ∀ b, Shows o (g b) (fun a f q l => E a (b :: f) q l)) : Shows o (readByte >>= g) E := by
  intro x p q j b s hx hr
  obtain ⟨a, s1, hr1, hr2⟩ := bind_inv hr
  obtain ⟨q1, rfl, rfl⟩ := readByte_inv hr1
  obtain ⟨x2, f2, q2, l2, hx2, rfl, rfl, h2⟩ := h a x _ _ _ b s hx hr2
  exact ⟨x2, a :: f2, q2, l2, hx2, by simp, by simp, h2⟩

theorem readByte : Shows o P.readByte (fun b f _ l => f = [b] ∧ l = []) := by
  intro x p q j b s hx hr
  obtain ⟨q1, rfl, rfl⟩ := readByte_inv hr
  exact ⟨x, [b], q1, [], hx, rfl, by simp, rfl, rfl⟩

theorem bytes {β} (n : Nat) {g : Bytes → P β} {E : β → Bytes → Bytes → List Item → Prop}
    (h : ∀ b : Bytes, b.length = n → Shows o (g b) (fun a f q l => E a (b ++ f) q l)) : Shows o (readBytes n >>= g) E := by
  intro x p q j b s hx hr
  obtain ⟨a, s1, hr1, hr2⟩ := bind_inv hr
  obtain ⟨q1, rfl, hl, rfl⟩ := readBytes_inv hr1
  obtain ⟨x2, f2, q2, l2, hx2, rfl, rfl, h2⟩ := h a hl x _ _ _ b s hx hr2
  exact ⟨x2, a ++ f2, q2, l2, hx2, by simp, by simp, h2⟩

theorem lastAdd {i : Item} {E : Unit → Bytes → Bytes → List Item → Prop} (h : ∀ q, E () [] q [i]) : Shows o (P.add i) E := by
  intro x p q j b s hx hr
  have := add_inv hr; subst this
  exact ⟨x, [], q, [i], hx, rfl, by simp, h q⟩

theorem add {β} {i : Item} {g : Unit → P β} {E : β → Bytes → Bytes → List Item → Prop}
    (h : Shows o (g ()) (fun a f q l => E a f q (i :: l))) : Shows o (P.add i >>= g) E := by
  intro x p q j b s hx hr
  obtain ⟨a, s1, hr1, hr2⟩ := bind_inv hr
  have := add_inv hr1; subst this
  obtain ⟨x2, f2, q2, l2, hx2, rfl, rfl, h2⟩ := h x _ _ _ b s hx hr2
  exact ⟨x2, f2, q2, i :: l2, hx2, rfl, by simp [Item.addAll_addAll], h2⟩

theorem flag {β} {F : Ctx → Bool} {v : Bool} {g : Bool → P β} {E : β → Bytes → Bytes → List Item → Prop} (hv : ∀ x : Ctx, x.opts = o → F x = v)
    (h : Shows o (g v) E) : Shows o (P.flag F >>= g) E := by
  intro x p q j b s hx hr
  rw [bind_run, flag_run] at hr
  simp only [St.at_ctx, ctxFlag, hv x hx] at hr
  exact h x p q j b s hx hr

theorem debug {β} {g : Bool → P β} {E : β → Bytes → Bytes → List Item → Prop} (h : Shows o (g (o DEBUG)) E) : Shows o (P.flag Ctx.debug >>= g) E :=
  flag (fun x hx => by subst hx; rfl) h
theorem integer {β} {g : Bool → P β} {E : β → Bytes → Bytes → List Item → Prop} (h : Shows o (g (o INTEGER || o DEBUG)) E) : Shows o (P.flag Ctx.integer >>= g) E :=
  flag (fun x hx => by subst hx; rfl) h
theorem utc {β} {g : Bool → P β} {E : β → Bytes → Bytes → List Item → Prop} (h : Shows o (g (o UTC)) E) : Shows o (P.flag Ctx.utc >>= g) E :=
  flag (fun x hx => by subst hx; rfl) h
theorem literal {β} {g : Bool → P β} {E : β → Bytes → Bytes → List Item → Prop} (h : Shows o (g (o LITERAL || o DEBUG)) E) : Shows o (P.flag Ctx.literal >>= g) E :=
  flag (fun x hx => by subst hx; rfl) h
theorem marker {β} {g : Bool → P β} {E : β → Bytes → Bytes → List Item → Prop} (h : Shows o (g (o MARKER || o DEBUG)) E) : Shows o (P.flag Ctx.marker >>= g) E :=
  flag (fun x hx => by subst hx; rfl) h
theorem priv {β} {g : Bool → P β} {E : β → Bytes → Bytes → List Item → Prop} (h : Shows o (g (o PRIVATE || o DEBUG)) E) : Shows o (P.flag Ctx.priv >>= g) E :=
  flag (fun x hx => by subst hx; rfl) h

theorem rest {β} {g : Int → P β} {E : β → Bytes → Bytes → List Item → Prop}
    (h : ∀ n : Nat, Shows o (g n) (fun a f q l => (f ++ q).length = n → E a f q l)) : Shows o (Gpgpdump.rest >>= g) E := by
  intro x p q j b s hx hr
  rw [bind_run, rest_run] at hr
  obtain ⟨x2, f2, q2, l2, hx2, rfl, rfl, h2⟩ := h _ x p q j b s hx hr
  exact ⟨x2, f2, q2, l2, hx2, rfl, rfl, h2 rfl⟩

theorem ctx {β} {m : P Unit} {g : Unit → P β} {E : β → Bytes → Bytes → List Item → Prop}
    (hm : ∀ x p q j, ∃ x', x'.opts = x.opts ∧ m (St.at (some x) p q j) = (.ok (), St.at (some x') p q j))
    (h : Shows o (g ()) E) : Shows o (m >>= g) E := by
  intro x p q j b s hx hr
  obtain ⟨x', hx', h1⟩ := hm x p q j
  rw [bind_run, h1] at hr
  exact h x' p q j b s (hx'.trans hx) hr

theorem setKeyTime {β} {t} {g : Unit → P β} {E : β → Bytes → Bytes → List Item → Prop} (h : Shows o (g ()) E) : Shows o (P.setKeyTime t >>= g) E :=
  ctx (fun x _ _ _ => ⟨{ x with keyTime := t }, rfl, setKeyTime_run _ _ _ _ _⟩) h
theorem setSigTime {β} {t} {g : Unit → P β} {E : β → Bytes → Bytes → List Item → Prop} (h : Shows o (g ()) E) : Shows o (P.setSigTime t >>= g) E :=
  ctx (fun x _ _ _ => ⟨{ x with sigTime := t }, rfl, setSigTime_run _ _ _ _ _⟩) h
theorem setMode {β} {t} {g : Unit → P β} {E : β → Bytes → Bytes → List Item → Prop} (h : Shows o (g ()) E) : Shows o (P.setMode t >>= g) E :=
  ctx (fun x _ _ _ => ⟨{ x with mode := t }, rfl, setMode_run _ _ _ _ _⟩) h

theorem unknownData {E : Unit → Bytes → Bytes → List Item → Prop} (h : ∀ q, E () [] q (unknownRows o q)) : Shows o Gpgpdump.unknownData E := by
  intro x p q j b s hx hr
  rw [unknownData_run] at hr
  simp only [Prod.mk.injEq] at hr
  refine ⟨x, [], q, unknownRows o q, hx, rfl, ?_, h q⟩
  rw [← hr.2]
  unfold unknownRows
  have hd : ctxFlag Ctx.debug (some x) = o DEBUG := by subst hx; rfl
  by_cases hq : q = []
  · simp [hq]
  · rw [if_neg hq, if_neg hq, hd, rawItem_eq]
    simp [Item.add_eq, S]

theorem addOpaque {n : Str} {E : Unit → Bytes → Bytes → List Item → Prop}
    (h : ∀ q, E () [] q [leaf n [] (sizeText q.length) (dumpIf (o DEBUG) q)]) : Shows o (Gpgpdump.addOpaque n) E := by
  intro x p q j b s hx hr
  unfold Gpgpdump.addOpaque at hr
  rw [bind_run, flag_run] at hr
  simp only [St.at_ctx] at hr
  have hd : ctxFlag Ctx.debug (some x) = o DEBUG := by subst hx; rfl
  rw [addRaw_run, hd, rawItem_eq] at hr
  simp only [Prod.mk.injEq] at hr
  exact ⟨x, [], q, _, hx, rfl, by rw [← hr.2]; simp [Item.add_eq], h q⟩

/-- `m` reads the same octets and leaves the reader where it is, but fills the item `c` -/
theorem nested {α} {c : Item} {m : P α} {E1 : α → Bytes → Bytes → List Item → Prop} (h : Shows o m E1) :
    Shows o (P.nested c m) (fun a f q l => ∃ k, l = [c.addAll k] ∧ E1 a f q k) := by
  intro x p q j b s hx hr
  rw [nested_run] at hr
  rcases hm : m (St.at (some x) p q c) with ⟨r, s1⟩
  rw [hm] at hr
  simp only [Prod.mk.injEq] at hr
  obtain ⟨rfl, rfl⟩ := hr
  obtain ⟨x2, f2, q2, l2, hx2, rfl, rfl, h2⟩ := h x p q c b s1 hx hm
  exact ⟨x2, f2, q2, [c.addAll l2], hx2, rfl, by rw [St.at_cur, St.at_setCur, Item.add_eq], l2, rfl, h2⟩

theorem build {c : Item} {m : P Unit} {E1 : Unit → Bytes → Bytes → List Item → Prop} (h : Shows o m E1) :
    Shows o (P.build c m) (fun i f q l => l = [] ∧ ∃ k, i = c.addAll k ∧ E1 () f q k) := by
  intro x p q j b s hx hr
  rw [build_run] at hr
  rcases hm : m (St.at (some x) p q c) with ⟨r, s1⟩
  rw [hm] at hr
  simp only [Prod.mk.injEq] at hr
  obtain ⟨hr, rfl⟩ := hr
  cases r with
  | ok u =>
    obtain ⟨x2, f2, q2, l2, hx2, rfl, rfl, h2⟩ := h x p q c u s1 hx hm
    simp only [Res.map, Res.ok.injEq] at hr
    exact ⟨x2, f2, q2, [], hx2, rfl, by rw [St.at_setCur]; simp, rfl, l2, hr.symm, h2⟩
  | _ => simp [Res.map] at hr

/-! ## Integers -/

theorem mpi {β} {g : Nat × Bytes → P β} {E : β → Bytes → Bytes → List Item → Prop}
    (h : ∀ bits data, bits < 65536 → data.length = (bits + 7) / 8 → Shows o (g (bits, data)) (fun a f q l => E a (beOctets 2 bits ++ (data ++ f)) q l)) :
    Shows o (newMPI >>= g) E := by
  unfold newMPI
  rw [bind_assoc_P]
  refine bytes 2 fun l hl => ?_
  rw [bind_assoc_P]
  refine bytes _ fun d hd => ?_
  change Shows o (g (beNat l, d)) _
  refine (h (beNat l) d (beNat2 l hl) hd).mono fun a f q k hk => ?_
  have := beOctets_beNat l
  rw [hl] at this
  rwa [this] at hk

/-- the display of the given parts -/
def parts (o : OptCode → Bool) (ss : List Slot) : Unit → Bytes → Bytes → List Item → Prop := fun _ f q l => SlotRows o ss f q l

theorem int1 {l : String} : Shows o (addMPI (S l)) (parts o [.int l]) := by
  unfold addMPI
  refine mpi fun bits data hb hl => integer (lastAdd fun q => ?_)
  rw [mpiItem_eq]
  exact .int hb hl .nil

theorem intS {l : String} {ss} {m : P Unit} (h : Shows o m (parts o ss)) : Shows o (do addMPI (S l); m) (parts o (.int l :: ss)) := by
  refine int1.bind fun _ f1 l1 => h.mono fun _ f2 q l2 h2 h1 => ?_
  cases h1 with
  | @int _ _ bits data f _ is hb hl h' =>
    cases h'
    show SlotRows _ _ _ _ _
    rw [List.append_nil, List.append_assoc, List.singleton_append]
    exact .int hb hl h2

theorem point1 {l : String} : Shows o (addECPoint (S l)) (parts o [.point l]) := by
  unfold addECPoint
  refine mpi fun bits data hb hl => integer (lastAdd fun q => ?_)
  rw [mpiItem_eq]
  rw [show ecPointName (S l) data = _ from ecPointName_eq l data]
  exact .point hb hl .nil

theorem pointS {l : String} {ss} {m : P Unit} (h : Shows o m (parts o ss)) : Shows o (do addECPoint (S l); m) (parts o (.point l :: ss)) := by
  refine point1.bind fun _ f1 l1 => h.mono fun _ f2 q l2 h2 h1 => ?_
  cases h1 with
  | @point _ _ bits data f _ is hb hl h' =>
    cases h'
    show SlotRows _ _ _ _ _
    rw [List.append_nil, List.append_assoc, List.singleton_append]
    exact .point hb hl h2

theorem ofNat_len {l : UInt8} {b : Bytes} (h : b.length = l.toNat) : l = UInt8.ofNat b.length ∧ b.length < 256 :=
  ⟨by rw [h]; simp, by rw [h]; exact l.toNat_lt⟩

theorem counted {β} {l : UInt8} {g : Bytes → P β} {E : β → Bytes → Bytes → List Item → Prop}
    (h : ∀ b : Bytes, b.length = l.toNat → Shows o (g b) (fun a f q k => E a (b ++ f) q k)) :
    Shows o ((if l = 0 then Pure.pure [] else P.readBytes l.toNat : P Bytes) >>= g) E := by
  split
  · rename_i hl
    subst hl
    exact (h [] rfl).mono fun _ _ _ _ h => by simpa using h
  · exact bytes _ h

theorem curveS {ss} {m : P Unit} (h : Shows o m (parts o ss)) : Shows o (do let oid ← newOID; P.add (oidItem oid true); m) (parts o (.curve :: ss)) := by
  unfold newOID
  rw [bind_assoc_P]
  refine byte fun l => counted fun b hb => add (h.mono fun _ f q k hk => ?_)
  obtain ⟨h1, h2⟩ := ofNat_len hb
  rw [oidItem_eq, h1]
  exact .curve h2 hk

theorem ecparm {β} {g : Bytes → P β} {E : β → Bytes → Bytes → List Item → Prop}
    (h : ∀ b : Bytes, Shows o (g b) (fun a f q k => (b = [] → f = [] → q = [] → E a [] q k) ∧ (b.length < 256 → E a (UInt8.ofNat b.length :: (b ++ f)) q k))) :
    Shows o (newECParm >>= g) E := by
  unfold newECParm
  rw [bind_assoc_P]
  refine rest fun n => ?_
  by_cases hn : n = 0
  · rw [if_pos (by omega)]
    refine (h []).mono fun a f q k hk hl => ?_
    have hf : f = [] ∧ q = [] := by simpa [hn] using hl
    have := hk.1 rfl hf.1 hf.2
    rw [hf.1]; exact this
  · rw [if_neg (by omega), bind_assoc_P]
    refine byte fun l => counted fun b hb => (h b).mono fun a f q k hk _ => ?_
    obtain ⟨h1, h2⟩ := ofNat_len hb
    rw [h1]; exact hk.2 h2

end Shows
end Gpgpdump
