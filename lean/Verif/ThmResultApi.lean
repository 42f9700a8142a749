import Mathlib.Data.List.Perm.Subperm
import Verif.ResultApi

/-!
# C77: items are shared

The text of an item is that of the tree that can be reached from it at the moment of the call, and `ToString` ends if and only if no
item reached is reached from itself. `Add` changes the trees of the items that reach its receiver and of no others.
-/

namespace Gpgpdump

namespace Spec

/-- item `p` holds a pointer to item `q` -/
def Kid (h : Heap) (p q : Nat) : Prop := ∃ o, h[p]? = some o ∧ some q ∈ o.items

/-- item `q` can be reached from item `p` by one pointer or more -/
inductive Under (h : Heap) : Nat → Nat → Prop
  | kid {p q} : Kid h p q → Under h p q
  | step {p q r} : Kid h p r → Under h r q → Under h p q

/-- item `q` is item `p` or can be reached from it -/
def Holds (h : Heap) (p q : Nat) : Prop := p = q ∨ Under h p q

/-- some item seen from `p` can be reached from itself -/
def Cyclic (h : Heap) (p : Nat) : Prop := ∃ q, Holds h p q ∧ Under h q q

/-- the trees below a pointer, none for nil, by at most `fuel` pointers one after the other -/
def trees (h : Heap) : Nat → Option Nat → Option (List Item)
  | _, none => some []
  | 0, some _ => none
  | f + 1, some i =>
    match h[i]? with
    | none => some []
    | some o => (o.items.mapM (trees h f)).map fun ts => [.mk o.name o.value o.dump o.note ts.flatten]

/-- `t` is the tree that can be reached from item `p` -/
def Tree (h : Heap) (p : Nat) (t : Item) : Prop := ∃ f, trees h f (some p) = some [t]

/-- the item that a call changes -/
def changes : ItemCall → Option Nat
  | .new _ => none
  | .set i _ => some i
  | .add i _ => i

/-- what the items would be if they were copied: the tree of each, and whether it has been added to another -/
abbrev Forest := List (Item × Bool)

/-- an option on a tree -/
def setTree (t : Item) : ItemOpt → Item
  | .name s => t.setName s
  | .value s => t.setValue s
  | .dump s => t.setDump s
  | .note s => t.setNote s

/-- a call with copied items, which is meant for items that have not been added to another one yet: `none` otherwise -/
def Forest.call (F : Forest) : ItemCall → Option Forest
  | .new opts => some (F ++ [(opts.foldl setTree (newItem []), false)])
  | .set i opt =>
    match F[i]? with
    | some (t, false) => some (F.set i (setTree t opt, false))
    | _ => none
  | .add (some i) (some a) =>
    match F[i]?, F[a]? with
    | some (t, false), some (u, _) => if i = a then none else some ((F.set i (t.add u, false)).set a (u, true))
    | _, _ => none
  | .add _ _ => some F

def Forest.calls : Forest → List ItemCall → Option Forest
  | F, [] => some F
  | F, k :: ks => (F.call k).bind fun F' => Forest.calls F' ks

end Spec

open Spec

/-! ## `mapM` -/

section mapM
variable {α β : Type}

theorem mapM_mono {g g' : α → Option β} {l : List α} {ys : List β} (h : ∀ x ∈ l, ∀ y, g x = some y → g' x = some y) (e : l.mapM g = some ys) :
    l.mapM g' = some ys := by
  induction l generalizing ys with
  | nil => exact e
  | cons x l ih =>
    rw [List.mapM_cons] at e ⊢
    cases hx : g x with
    | none => rw [hx] at e; cases e
    | some y =>
      rw [hx] at e
      cases hl : l.mapM g with
      | none => rw [hl] at e; cases e
      | some zs =>
        rw [hl] at e
        rw [h x List.mem_cons_self y hx, ih (fun z hz => h z (List.mem_cons_of_mem _ hz)) hl]
        exact e

theorem mapM_congr {g g' : α → Option β} {l : List α} (h : ∀ x ∈ l, g x = g' x) : l.mapM g = l.mapM g' := by
  induction l with
  | nil => rfl
  | cons x l ih => rw [List.mapM_cons, List.mapM_cons, h x List.mem_cons_self, ih fun z hz => h z (List.mem_cons_of_mem _ hz)]

theorem mapM_mem {g : α → Option β} {l : List α} {ys : List β} (e : l.mapM g = some ys) {x : α} (hx : x ∈ l) : ∃ y, g x = some y := by
  induction l generalizing ys with
  | nil => cases hx
  | cons z l ih =>
    rw [List.mapM_cons] at e
    cases hz : g z with
    | none => rw [hz] at e; cases e
    | some y =>
      rw [hz] at e
      cases hl : l.mapM g with
      | none => rw [hl] at e; cases e
      | some zs =>
        rcases List.mem_cons.mp hx with rfl | hx
        · exact ⟨y, hz⟩
        · exact ih hl hx

theorem mapM_none {g : α → Option β} {l : List α} (e : l.mapM g = none) : ∃ x ∈ l, g x = none := by
  induction l with
  | nil => cases e
  | cons z l ih =>
    rw [List.mapM_cons] at e
    cases hz : g z with
    | none => exact ⟨z, List.mem_cons_self, hz⟩
    | some y =>
      rw [hz] at e
      cases hl : l.mapM g with
      | none =>
        obtain ⟨x, hx, h⟩ := ih hl
        exact ⟨x, List.mem_cons_of_mem _ hx, h⟩
      | some zs => rw [hl] at e; cases e

theorem mapM_append {g : α → Option β} {l : List α} {x : α} {ys : List β} {y : β} (e : l.mapM g = some ys) (hx : g x = some y) :
    (l ++ [x]).mapM g = some (ys ++ [y]) := by
  rw [List.mapM_append, e]
  show (do let b ← List.mapM g [x]; some (ys ++ b)) = _
  rw [List.mapM_cons, hx]
  rfl

end mapM

/-! ## Trees -/

theorem trees_succ {h : Heap} {f : Nat} {p : Option Nat} {t : List Item} (e : trees h f p = some t) : trees h (f + 1) p = some t := by
  induction f generalizing p t with
  | zero =>
    cases p with
    | none => exact e
    | some i => cases e
  | succ f ih =>
    cases p with
    | none => exact e
    | some i =>
      rw [trees] at e ⊢
      cases ho : h[i]? with
      | none => rw [ho] at e; exact e
      | some o =>
        rw [ho] at e
        simp only at e ⊢
        cases hm : o.items.mapM (trees h f) with
        | none => rw [hm] at e; cases e
        | some ts =>
          rw [mapM_mono (fun x _ y hy => ih hy) hm]
          rw [hm] at e
          exact e

theorem trees_le {h : Heap} {f g : Nat} (hl : f ≤ g) {p : Option Nat} {t : List Item} (e : trees h f p = some t) : trees h g p = some t := by
  induction hl with
  | refl => exact e
  | step _ ih => exact trees_succ ih

/-- the tree is unique -/
theorem Spec.Tree.unique {h : Heap} {p : Nat} {t u : Item} (a : Tree h p t) (b : Tree h p u) : t = u := by
  obtain ⟨f, a⟩ := a
  obtain ⟨g, b⟩ := b
  have := (trees_le (Nat.le_max_left f g) a).symm.trans (trees_le (Nat.le_max_right f g) b)
  simpa using this

theorem Spec.Kid.lt {h : Heap} {p q : Nat} (k : Kid h p q) : p < h.length := by
  obtain ⟨o, ho, -⟩ := k
  exact (List.getElem?_eq_some_iff.mp ho).1

theorem Spec.Under.trans {h : Heap} {p q r : Nat} (a : Under h p q) (b : Under h q r) : Under h p r := by
  induction a with
  | kid k => exact .step k b
  | step k _ ih => exact .step k (ih b)

theorem Spec.Holds.below {h : Heap} {p q r : Nat} (a : Holds h p q) (b : Under h q r) : Under h p r := by
  rcases a with rfl | a
  · exact b
  · exact a.trans b

theorem Spec.Holds.trans {h : Heap} {p q r : Nat} (a : Holds h p q) (b : Holds h q r) : Holds h p r := by
  rcases b with rfl | b
  · exact a
  · exact .inr (Holds.below a b)

theorem Spec.Holds.ofKid {h : Heap} {p q r : Nat} (k : Kid h p q) (b : Holds h q r) : Under h p r := by
  rcases b with rfl | b
  · exact .kid k
  · exact .step k b

/-- one pointer further, one step less -/
theorem trees_kid {h : Heap} {f p q : Nat} {t : List Item} (e : trees h f (some p) = some t) (k : Kid h p q) :
    ∃ g u, g < f ∧ trees h g (some q) = some u := by
  obtain ⟨o, ho, hq⟩ := k
  cases f with
  | zero => cases e
  | succ f =>
    rw [trees, ho] at e
    simp only at e
    cases hm : o.items.mapM (trees h f) with
    | none => rw [hm] at e; cases e
    | some ts =>
      obtain ⟨u, hu⟩ := mapM_mem hm hq
      exact ⟨f, u, Nat.lt_succ_self f, hu⟩

theorem trees_below {h : Heap} {p q : Nat} (b : Under h p q) : ∀ {f : Nat} {t : List Item}, trees h f (some p) = some t →
    ∃ g u, g < f ∧ trees h g (some q) = some u := by
  induction b with
  | kid k => exact fun e => trees_kid e k
  | step k _ ih =>
    intro f t e
    obtain ⟨g, u, hg, hu⟩ := trees_kid e k
    obtain ⟨g', u', hg', hu'⟩ := ih hu
    exact ⟨g', u', by omega, hu'⟩

theorem no_tree_of_cycle {h : Heap} {q : Nat} (b : Under h q q) (f : Nat) (t : List Item) : trees h f (some q) ≠ some t := by
  induction f using Nat.strongRecOn generalizing t with
  | _ f ih =>
    intro e
    obtain ⟨g, u, hg, hu⟩ := trees_below b e
    exact ih g hg u hu

theorem no_tree_of_cyclic {h : Heap} {p : Nat} (c : Cyclic h p) (f : Nat) (t : List Item) : trees h f (some p) ≠ some t := by
  obtain ⟨q, hs, hb⟩ := c
  intro e
  rcases hs with rfl | hs
  · exact no_tree_of_cycle hb f t e
  · obtain ⟨g, u, -, hu⟩ := trees_below hs e
    exact no_tree_of_cycle hb g u hu

/-- a way of `n + 1` items, all of them but the last on the heap -/
inductive Way (h : Heap) : Nat → List Nat → Prop
  | one (p) : Way h p [p]
  | step {p q l} : Kid h p q → Way h q l → Way h p (p :: l)

theorem way_of_none {h : Heap} {f p : Nat} (e : trees h f (some p) = none) : ∃ l, Way h p l ∧ l.length = f + 1 := by
  induction f generalizing p with
  | zero => exact ⟨[p], .one p, rfl⟩
  | succ f ih =>
    rw [trees] at e
    cases ho : h[p]? with
    | none => rw [ho] at e; cases e
    | some o =>
      rw [ho] at e
      simp only [Option.map_eq_none_iff] at e
      obtain ⟨x, hx, hn⟩ := mapM_none e
      cases x with
      | none => rw [trees] at hn; cases hn
      | some q =>
        obtain ⟨l, hw, hl⟩ := ih hn
        exact ⟨p :: l, .step ⟨o, ho, hx⟩ hw, by rw [List.length_cons, hl]⟩

theorem Way.head {h : Heap} {p : Nat} {l : List Nat} (w : Way h p l) : ∃ l', l = p :: l' := by
  cases w <;> exact ⟨_, rfl⟩

theorem Way.seen {h : Heap} {p : Nat} {l : List Nat} (w : Way h p l) {q : Nat} (hq : q ∈ l) : Holds h p q := by
  induction w with
  | one p => exact .inl (List.mem_singleton.mp hq).symm
  | step k w ih =>
    rcases List.mem_cons.mp hq with rfl | hq
    · exact .inl rfl
    · exact .inr (Holds.ofKid k (ih hq))

theorem Way.dropLast_lt {h : Heap} {p : Nat} {l : List Nat} (w : Way h p l) {q : Nat} (hq : q ∈ l.dropLast) : q < h.length := by
  induction w with
  | one p => simp at hq
  | step k w ih =>
    obtain ⟨l', rfl⟩ := w.head
    rw [List.dropLast_cons_cons] at hq
    rcases List.mem_cons.mp hq with rfl | hq
    · exact Kid.lt k
    · exact ih hq

theorem Way.cyclic {h : Heap} {p : Nat} {l : List Nat} (w : Way h p l) (hn : ¬ l.Nodup) : Cyclic h p := by
  induction w with
  | one p => exact absurd (by simp) hn
  | @step p q l k w ih =>
    by_cases hp : p ∈ l
    · exact ⟨p, .inl rfl, Holds.ofKid k (w.seen hp)⟩
    · have : ¬ l.Nodup := fun h' => hn (List.nodup_cons.mpr ⟨hp, h'⟩)
      obtain ⟨x, hx, hb⟩ := ih this
      exact ⟨x, .inr (Holds.ofKid k hx), hb⟩

/-- without a cycle, a depth of the number of items is enough -/
theorem trees_of_acyclic {h : Heap} {p : Nat} (c : ¬ Cyclic h p) : ∃ t, trees h (h.length + 1) (some p) = some t := by
  cases e : trees h (h.length + 1) (some p) with
  | some t => exact ⟨t, rfl⟩
  | none =>
    exfalso
    obtain ⟨l, w, hl⟩ := way_of_none e
    refine c (w.cyclic fun hn => ?_)
    have h1 : l.dropLast.Nodup := hn.sublist (List.dropLast_sublist l)
    have h2 : l.dropLast ⊆ List.range h.length := fun q hq => List.mem_range.mpr (w.dropLast_lt hq)
    have h3 := (h1.subperm h2).length_le
    rw [List.length_dropLast, List.length_range] at h3
    omega

/-! ## Text -/

theorem itemsToStr_app (indent : Str) (lvl : Nat) (a b : List Item) : itemsToStr indent lvl (a ++ b) = itemsToStr indent lvl a ++ itemsToStr indent lvl b := by
  induction a with
  | nil => rfl
  | cons x a ih => rw [List.cons_append, itemsToStr, itemsToStr, ih, List.append_assoc]

theorem toStr_trees (h : Heap) (indent : Str) (f lvl : Nat) (p : Option Nat) :
    h.toStr indent f lvl p = (trees h f p).map (itemsToStr indent lvl) := by
  induction f generalizing lvl p with
  | zero => cases p <;> rfl
  | succ f ih =>
    cases p with
    | none => rfl
    | some i =>
      rw [Heap.toStr, trees]
      cases h[i]? with
      | none => rfl
      | some o =>
        have key : o.items.mapM (Heap.toStr h indent f (lvl + 1)) = (o.items.mapM (trees h f)).map (List.map (itemsToStr indent (lvl + 1))) := by
          generalize o.items = l
          induction l with
          | nil => rfl
          | cons x l ihl =>
            rw [List.mapM_cons, List.mapM_cons, ihl, ih]
            cases trees h f x with
            | none => rfl
            | some y => cases List.mapM (trees h f) l <;> rfl
        simp only
        rw [key]
        cases o.items.mapM (trees h f) with
        | none => rfl
        | some ts =>
          simp only [Option.map_some, Option.some.injEq]
          rw [itemsToStr, itemsToStr, List.append_nil, Item.toStr]
          congr 1
          induction ts with
          | nil => rfl
          | cons t ts iht => rw [List.map_cons, List.flatten_cons, List.flatten_cons, itemsToStr_app, iht]

/-- **C77**: the text of an item is that of the tree that can be reached from it, at every level and indentation. -/
theorem C77_text (h : Heap) (indent : Str) (lvl p : Nat) (t : Item) (ht : Tree h p t) :
    ∃ f, ∀ g, f ≤ g → h.toStr indent g lvl (some p) = some (t.toStr indent lvl) := by
  obtain ⟨f, hf⟩ := ht
  refine ⟨f, fun g hg => ?_⟩
  rw [toStr_trees, trees_le hg hf]
  show some (t.toStr indent lvl ++ []) = _
  rw [List.append_nil]

/-- **C77**: `ToString` ends if and only if no item is reached from itself; then the nesting of calls is at most the number of items. -/
theorem C77_ends (h : Heap) (indent : Str) (lvl p : Nat) :
    ((∃ f, h.toStr indent f lvl (some p) ≠ none) ↔ ¬ Cyclic h p) ∧
    (¬ Cyclic h p → h.toStr indent (h.length + 1) lvl (some p) ≠ none) := by
  have h2 : ¬ Cyclic h p → h.toStr indent (h.length + 1) lvl (some p) ≠ none := by
    intro c
    obtain ⟨t, ht⟩ := trees_of_acyclic c
    rw [toStr_trees, ht]
    simp
  refine ⟨⟨fun ⟨f, hf⟩ c => hf ?_, fun c => ⟨_, h2 c⟩⟩, h2⟩
  rw [toStr_trees]
  cases e : trees h f (some p) with
  | none => rfl
  | some t => exact absurd e (no_tree_of_cyclic c f t)

/-- an item of the heap without a cycle has a tree, and it is made of its fields and the trees of its items in order -/
theorem C77_tree (h : Heap) (p : Nat) (o : ItemObj) (ho : h[p]? = some o) (c : ¬ Cyclic h p) :
    ∃ ts : List (List Item), Tree h p (.mk o.name o.value o.dump o.note ts.flatten) ∧
      List.Forall₂ (fun x t => match x with | none => t = [] | some q => (∃ u, Tree h q u ∧ t = [u]) ∨ (h[q]? = none ∧ t = [])) o.items ts := by
  obtain ⟨t, ht⟩ := trees_of_acyclic c
  have ht' := ht
  rw [trees, ho] at ht
  simp only at ht
  cases hm : o.items.mapM (trees h h.length) with
  | none => rw [hm] at ht; cases ht
  | some ts =>
    refine ⟨ts, ⟨h.length + 1, by rw [trees, ho]; simp only; rw [hm]; rfl⟩, ?_⟩
    clear ht ht' ho c
    generalize o.items = l at hm
    induction l generalizing ts with
    | nil => cases hm; exact .nil
    | cons x l ih =>
      rw [List.mapM_cons] at hm
      cases hx : trees h h.length x with
      | none => rw [hx] at hm; cases hm
      | some y =>
        rw [hx] at hm
        cases hl : l.mapM (trees h h.length) with
        | none => rw [hl] at hm; cases hm
        | some zs =>
          rw [hl] at hm
          cases hm
          refine .cons ?_ (ih zs hl)
          cases x with
          | none => rw [trees] at hx; cases hx; rfl
          | some q =>
            cases hq : h[q]? with
            | none =>
              refine .inr ⟨hq, ?_⟩
              cases hn : h.length with
              | zero => rw [hn] at hx; cases hx
              | succ n => rw [hn, trees, hq] at hx; cases hx; rfl
            | some o' =>
              refine .inl ?_
              have hx' := hx
              cases hn : h.length with
              | zero => rw [hn] at hx; cases hx
              | succ n =>
                rw [hn, trees, hq] at hx
                simp only at hx
                cases hm' : o'.items.mapM (trees h n) with
                | none => rw [hm'] at hx; cases hx
                | some us =>
                  rw [hm'] at hx
                  cases hx
                  exact ⟨_, ⟨_, hx'⟩, rfl⟩

/-! ## `Add` -/

theorem getElem?_modify_items (h : Heap) (g : ItemObj → ItemObj) (i p : Nat) :
    (h.modify i g)[p]? = if p = i then h[p]?.map g else h[p]? := by
  rw [List.getElem?_modify]
  by_cases hp : i = p
  · subst hp; simp
  · rw [if_neg (Ne.symm hp)]
    cases h[p]? <;> simp [hp]

theorem kid_add {h : Heap} {i a : Nat} (hi : i < h.length) (p q : Nat) : Kid (h.add (some i) (some a)) p q ↔ Kid h p q ∨ (p = i ∧ q = a) := by
  unfold Heap.add Kid
  simp only
  rw [getElem?_modify_items]
  by_cases hp : p = i
  · subst hp
    rw [if_pos rfl, List.getElem?_eq_getElem hi]
    simp
  · rw [if_neg hp]
    simp [hp]

/-- what is below an item after `Add` -/
theorem below_add {h : Heap} {i a : Nat} (hi : i < h.length) (ha : ¬ Holds h a i) {p q : Nat} (b : Under (h.add (some i) (some a)) p q) :
    Under h p q ∨ (Holds h p i ∧ Holds h a q) := by
  induction b with
  | kid k =>
    rcases (kid_add hi _ _).mp k with k | ⟨rfl, rfl⟩
    · exact .inl (.kid k)
    · exact .inr ⟨.inl rfl, .inl rfl⟩
  | step k _ ih =>
    rcases (kid_add hi _ _).mp k with k | ⟨rfl, rfl⟩
    · rcases ih with ih | ⟨h1, h2⟩
      · exact .inl (.step k ih)
      · exact .inr ⟨.inr (Holds.ofKid k h1), h2⟩
    · rcases ih with ih | ⟨h1, h2⟩
      · exact .inr ⟨.inl rfl, .inr ih⟩
      · exact absurd h1 ha

theorem below_add_of {h : Heap} {i a : Nat} (hi : i < h.length) {p q : Nat} (b : Under h p q) : Under (h.add (some i) (some a)) p q := by
  induction b with
  | kid k => exact .kid ((kid_add hi _ _).mpr (.inl k))
  | step k _ ih => exact .step ((kid_add hi _ _).mpr (.inl k)) ih

theorem seen_add_of {h : Heap} {i a : Nat} (hi : i < h.length) {p q : Nat} (b : Holds h p q) : Holds (h.add (some i) (some a)) p q := by
  rcases b with rfl | b
  · exact .inl rfl
  · exact .inr (below_add_of hi b)

/-- **C77**: `i.Add(a)` makes the text of an item endless if and only if it was endless before, or the item is `i` or holds it, and `a`
is `i`, or holds it, or has an endless text. -/
theorem C77_cycle (h : Heap) (i a p : Nat) (hi : i < h.length) :
    Cyclic (h.add (some i) (some a)) p ↔ Cyclic h p ∨ (Holds h p i ∧ (Holds h a i ∨ Cyclic h a)) := by
  constructor
  · intro ⟨q, hs, hb⟩
    by_cases ha : Holds h a i
    · by_cases hp : Holds h p i
      · exact .inr ⟨hp, .inl ha⟩
      · -- nothing below `p` has changed
        have same : ∀ {x y}, Under (h.add (some i) (some a)) x y → ¬ Holds h x i → Under h x y := by
          intro x y b
          induction b with
          | kid k =>
            intro hx
            rcases (kid_add hi _ _).mp k with k | ⟨rfl, rfl⟩
            · exact .kid k
            · exact absurd (.inl rfl) hx
          | step k _ ih =>
            intro hx
            rcases (kid_add hi _ _).mp k with k | ⟨rfl, rfl⟩
            · exact .step k (ih fun hr => hx (.inr (Holds.ofKid k hr)))
            · exact absurd (.inl rfl) hx
        have hq : Holds h p q := by
          rcases hs with rfl | hs
          · exact .inl rfl
          · exact .inr (same hs hp)
        exact .inl ⟨q, hq, same hb fun h' => hp (Holds.trans hq h')⟩
    · have hq : Holds h p q ∨ (Holds h p i ∧ Holds h a q) := by
        rcases hs with rfl | hs
        · exact .inl (.inl rfl)
        · rcases below_add hi ha hs with b | b
          · exact .inl (.inr b)
          · exact .inr b
      rcases below_add hi ha hb with b | ⟨b1, b2⟩
      · rcases hq with hq | ⟨h1, h2⟩
        · exact .inl ⟨q, hq, b⟩
        · exact .inr ⟨h1, .inr ⟨q, h2, b⟩⟩
      · exact absurd (Holds.trans b2 b1) ha
  · rintro (⟨q, hs, hb⟩ | ⟨hp, ha | ⟨q, hs, hb⟩⟩)
    · exact ⟨q, seen_add_of hi hs, below_add_of hi hb⟩
    · exact ⟨i, seen_add_of hi hp, Holds.ofKid ((kid_add hi _ _).mpr (.inr ⟨rfl, rfl⟩)) (seen_add_of hi ha)⟩
    · exact ⟨q, .inr (Holds.below (seen_add_of hi hp) (Holds.ofKid ((kid_add hi _ _).mpr (.inr ⟨rfl, rfl⟩)) (seen_add_of hi hs))), below_add_of hi hb⟩

/-- a change of item `i` is not seen from where `i` is not seen -/
theorem trees_modify {h : Heap} {i : Nat} {g : ItemObj → ItemObj} (f : Nat) {p : Nat} (hp : ¬ Holds h p i) :
    trees (h.modify i g) f (some p) = trees h f (some p) := by
  induction f generalizing p with
  | zero => rfl
  | succ f ih =>
    have hpi : p ≠ i := fun e => hp (.inl e)
    rw [trees, trees, getElem?_modify_items, if_neg hpi]
    cases ho : h[p]? with
    | none => rfl
    | some o =>
      simp only
      rw [mapM_congr]
      intro x hx
      cases x with
      | none => cases f <;> rfl
      | some q => exact ih fun hq => hp (.inr (Holds.ofKid ⟨o, ho, hx⟩ hq))

/-- **C77**: a change of an item (`Add`, or an option applied to it) leaves the text of every other item that does not hold it as it is. -/
theorem C77_frame (h : Heap) (indent : Str) (f lvl i p : Nat) (hp : ¬ Holds h p i) :
    (∀ a, (h.add (some i) a).toStr indent f lvl (some p) = h.toStr indent f lvl (some p)) ∧
    (∀ opt : ItemOpt, (h.call (.set i opt)).toStr indent f lvl (some p) = h.toStr indent f lvl (some p)) := by
  refine ⟨fun a => ?_, fun opt => ?_⟩
  · cases a with
    | none => rfl
    | some a => rw [toStr_trees, toStr_trees, Heap.add, trees_modify f hp]
  · rw [toStr_trees, toStr_trees]
    exact congrArg _ (trees_modify f hp)

/-- **C77**: unless `a` is `i` or holds it, `i.Add(a)` puts the tree of `a` at the end of that of `i`. -/
theorem C77_add (h : Heap) (i a : Nat) (t u : Item) (hi : Tree h i t) (hil : i < h.length) (ha : Tree h a u) (hs : ¬ Holds h a i) :
    Tree (h.add (some i) (some a)) i (t.add u) := by
  obtain ⟨f, hf⟩ := hi
  obtain ⟨g, hg⟩ := ha
  have hii : ¬ Under h i i := fun b => no_tree_of_cycle b f _ hf
  refine ⟨max f g + 1, ?_⟩
  rw [trees, Heap.add, getElem?_modify_items, if_pos rfl]
  rw [List.getElem?_eq_getElem hil]
  have hf' := trees_le (Nat.le_trans (Nat.le_max_left f g) (Nat.le_succ _)) hf
  rw [trees, List.getElem?_eq_getElem hil] at hf'
  simp only [Option.map_some] at hf' ⊢
  cases hm : h[i].items.mapM (trees h (max f g)) with
  | none => rw [hm] at hf'; cases hf'
  | some ts =>
    rw [hm] at hf'
    have hm' : h[i].items.mapM (trees (h.modify i fun o => { o with items := o.items ++ [some a] }) (max f g)) = some ts := by
      rw [← hm]
      refine mapM_congr fun x hx => ?_
      cases x with
      | none => cases max f g <;> rfl
      | some q => exact trees_modify _ fun hq => hii (Holds.ofKid ⟨h[i], List.getElem?_eq_getElem hil, hx⟩ hq)
    rw [mapM_append hm' (by rw [trees_modify _ hs]; exact trees_le (Nat.le_max_right f g) hg)]
    simp only [Option.map_some, Option.some.injEq, List.cons.injEq, and_true, List.flatten_append] at hf' ⊢
    rw [← hf']
    simp [Item.add, Item.name, Item.value, Item.dump, Item.note, Item.items]

/-- **C77**: nil receivers and nil arguments change nothing, and have no text. -/
theorem C77_nil (h : Heap) (indent : Str) (f lvl : Nat) (x : Option Nat) (l : List (Option Nat)) :
    h.add none x = h ∧ h.add x none = h ∧ h.toStr indent f lvl none = some [] ∧
    InfoObj.add none x = none ∧ InfoObj.add (some l) none = some l ∧ InfoObj.toStr h indent f none = some [] := by
  refine ⟨rfl, ?_, ?_, rfl, rfl, rfl⟩
  · cases x <;> rfl
  · cases f <;> rfl

/-! ## Histories -/

/-- **C77**: changes of different items may be made in any order. So an item that is added first and filled later (as in tag05.go:35-37)
shows the same as one that is filled first and added then. -/
theorem C77_commute (h : Heap) (k k' : ItemCall) (i j : Nat) (hk : changes k = some i) (hk' : changes k' = some j) (hij : i ≠ j) :
    (h.call k).call k' = (h.call k').call k := by
  have key : ∀ g g' : ItemObj → ItemObj, (h.modify i g).modify j g' = (h.modify j g').modify i g := by
    intro g g'
    apply List.ext_getElem?
    intro p
    rw [getElem?_modify_items, getElem?_modify_items, getElem?_modify_items, getElem?_modify_items]
    by_cases hp : p = i
    · rw [if_neg (by omega), if_pos hp, if_pos hp, if_neg (by omega)]
    · rw [if_neg hp, if_neg hp]
  have shape : ∀ (k : ItemCall) (i : Nat), changes k = some i → ∃ g : ItemObj → ItemObj, ∀ h : Heap, h.call k = h.modify i g := by
    intro k i hk
    cases k with
    | new _ => cases hk
    | set i' opt => cases hk; exact ⟨_, fun h => rfl⟩
    | add i' a =>
      cases hk
      cases a with
      | some a => exact ⟨_, fun h => rfl⟩
      | none => exact ⟨id, fun h => by rw [List.modify_id]; rfl⟩
  obtain ⟨g, hg⟩ := shape k i hk
  obtain ⟨g', hg'⟩ := shape k' j hk'
  rw [hg, hg', hg', hg, key]

structure Matches (h : Heap) (F : Forest) : Prop where
  len : h.length = F.length
  tree : ∀ i t b, F[i]? = some (t, b) → Tree h i t
  kid : ∀ p q, Kid h p q → ∃ t, F[q]? = some (t, true)

theorem Matches.not_seen {h : Heap} {F : Forest} (m : Matches h F) {i : Nat} {t : Item} (hi : F[i]? = some (t, false)) {p : Nat} (hp : p ≠ i) :
    ¬ Holds h p i := by
  rintro (e | b)
  · exact hp e
  · have : ∀ {x y}, Under h x y → ∃ z, Kid h z y := by
      intro x y b
      induction b with
      | kid k => exact ⟨_, k⟩
      | step _ _ ih => exact ih
    obtain ⟨z, k⟩ := this b
    obtain ⟨u, hu⟩ := m.kid _ _ k
    rw [hi] at hu
    cases hu

theorem optsTree (opts : List ItemOpt) (o : ItemObj) (t : Item) (ht : t = .mk o.name o.value o.dump o.note t.items) (ho : o.items = []) :
    opts.foldl setTree t = .mk (opts.foldl ItemOpt.on o).name (opts.foldl ItemOpt.on o).value (opts.foldl ItemOpt.on o).dump
      (opts.foldl ItemOpt.on o).note t.items ∧ (opts.foldl ItemOpt.on o).items = [] := by
  induction opts generalizing o t with
  | nil => exact ⟨ht, ho⟩
  | cons x opts ih =>
    rw [List.foldl_cons, List.foldl_cons]
    have h1 : (setTree t x).items = t.items := by cases x <;> rfl
    have h2 := ih (x.on o) (setTree t x) (by rw [h1, ht]; cases x <;> rfl) (by cases x <;> exact ho)
    rw [h1] at h2
    exact h2

theorem trees_append {h : Heap} (hc : ∀ p q, Kid h p q → q < h.length) (o : ItemObj) (f : Nat) {i : Nat} (hi : i < h.length) :
    trees (h ++ [o]) f (some i) = trees h f (some i) := by
  induction f generalizing i with
  | zero => rfl
  | succ f ih =>
    rw [trees, trees, List.getElem?_append_left hi]
    cases ho : h[i]? with
    | none => rfl
    | some o' =>
      simp only
      rw [mapM_congr]
      intro x hx
      cases x with
      | none => cases f <;> rfl
      | some q => exact ih (hc _ _ ⟨o', ho, hx⟩)

theorem tree_set {h : Heap} {i : Nat} {t : Item} (hi : Tree h i t) (hl : i < h.length) (opt : ItemOpt) : Tree (h.call (.set i opt)) i (setTree t opt) := by
  obtain ⟨f, hf⟩ := hi
  have hii : ¬ Under h i i := fun b => no_tree_of_cycle b f _ hf
  refine ⟨f + 1, ?_⟩
  have hf := trees_succ hf
  rw [trees, List.getElem?_eq_getElem hl] at hf
  rw [Heap.call, trees, getElem?_modify_items, if_pos rfl, List.getElem?_eq_getElem hl]
  simp only [Option.map_some] at hf ⊢
  have hit : (opt.on h[i]).items = h[i].items := by cases opt <;> rfl
  rw [hit, mapM_congr (g' := trees h f)]
  · cases hm : h[i].items.mapM (trees h f) with
    | none => rw [hm] at hf; cases hf
    | some ts =>
      rw [hm] at hf
      simp only [Option.map_some, Option.some.injEq, List.cons.injEq, and_true] at hf ⊢
      rw [← hf]
      cases opt <;> rfl
  · intro x hx
    cases x with
    | none => cases f <;> rfl
    | some q => exact trees_modify _ fun hq => hii (Holds.ofKid ⟨h[i], List.getElem?_eq_getElem hl, hx⟩ hq)

theorem Matches.call {h : Heap} {F F' : Forest} (m : Matches h F) (k : ItemCall) (e : F.call k = some F') : Matches (h.call k) F' := by
  have hclosed : ∀ p q, Kid h p q → q < h.length := by
    intro p q k
    obtain ⟨t, ht⟩ := m.kid p q k
    rw [m.len]
    exact (List.getElem?_eq_some_iff.mp ht).1
  cases k with
  | new opts =>
    cases e
    obtain ⟨h1, h2⟩ := optsTree opts {} (newItem []) rfl rfl
    refine ⟨by simp [Heap.call, Heap.newItem, m.len], ?_, ?_⟩
    · intro i t b hi
      show Tree (h ++ [_]) i t
      by_cases hlt : i < F.length
      · rw [List.getElem?_append_left hlt] at hi
        obtain ⟨f, hf⟩ := m.tree i t b hi
        exact ⟨f, by rw [trees_append hclosed _ _ (by rw [m.len]; exact hlt)]; exact hf⟩
      · rw [List.getElem?_append_right (by omega)] at hi
        have h0 : i - F.length = 0 := by
          cases hx : i - F.length with
          | zero => rfl
          | succ n => rw [hx] at hi; simp at hi
        have hi' : i = h.length := by rw [m.len]; omega
        rw [h0] at hi
        simp only [List.getElem?_cons_zero, Option.some.injEq, Prod.mk.injEq] at hi
        obtain ⟨rfl, -⟩ := hi
        refine ⟨1, ?_⟩
        rw [trees, hi', List.getElem?_append_right (by omega), Nat.sub_self]
        simp only [List.getElem?_cons_zero]
        rw [h2, h1]
        rfl
    · rintro p q ⟨o, ho, hq⟩
      have ho : (h ++ [opts.foldl ItemOpt.on {}])[p]? = some o := ho
      by_cases hlt : p < h.length
      · rw [List.getElem?_append_left hlt] at ho
        obtain ⟨t, ht⟩ := m.kid p q ⟨o, ho, hq⟩
        exact ⟨t, by rw [List.getElem?_append_left (List.getElem?_eq_some_iff.mp ht).1]; exact ht⟩
      · rw [List.getElem?_append_right (by omega)] at ho
        cases hx : p - h.length with
        | zero =>
          rw [hx] at ho
          cases ho
          rw [h2] at hq
          cases hq
        | succ n => rw [hx] at ho; simp at ho
  | set i opt =>
    rw [Forest.call] at e
    rcases hF : F[i]? with _ | ⟨t, b⟩
    · rw [hF] at e; cases e
    · rw [hF] at e
      cases b with
      | true => cases e
      | false =>
        cases e
        have hl : i < F.length := (List.getElem?_eq_some_iff.mp hF).1
        refine ⟨by rw [List.length_set, ← m.len]; simp [Heap.call], ?_, ?_⟩
        · intro j u b hj
          by_cases hji : j = i
          · subst hji
            rw [List.getElem?_set_self hl] at hj
            cases hj
            exact tree_set (m.tree _ _ _ hF) (by rw [m.len]; exact hl) opt
          · rw [List.getElem?_set_ne (Ne.symm hji)] at hj
            obtain ⟨f, hf⟩ := m.tree _ _ _ hj
            refine ⟨f, ?_⟩
            show trees (h.modify i _) f (some j) = _
            rw [trees_modify _ (m.not_seen hF hji)]
            exact hf
        · rintro p q ⟨o, ho, hq⟩
          have hk : Kid h p q := by
            have ho : (h.modify i fun o => opt.on o)[p]? = some o := ho
            rw [getElem?_modify_items] at ho
            by_cases hp : p = i
            · rw [if_pos hp] at ho
              cases hx : h[p]? with
              | none => rw [hx] at ho; cases ho
              | some o' =>
                rw [hx] at ho
                cases ho
                exact ⟨o', hx, by cases opt <;> exact hq⟩
            · rw [if_neg hp] at ho
              exact ⟨o, ho, hq⟩
          obtain ⟨u, hu⟩ := m.kid p q hk
          have hqi : q ≠ i := by rintro rfl; rw [hF] at hu; cases hu
          exact ⟨u, by rw [List.getElem?_set_ne (Ne.symm hqi)]; exact hu⟩
  | add x y =>
    cases x with
    | none => cases y <;> (cases e; exact m)
    | some i =>
      cases y with
      | none => cases e; exact m
      | some a =>
        rw [Forest.call] at e
        rcases hF : F[i]? with _ | ⟨t, b⟩
        · rw [hF] at e; cases e
        · rw [hF] at e
          cases b with
          | true => cases F[a]? <;> cases e
          | false =>
            rcases hA : F[a]? with _ | ⟨u, b⟩
            · rw [hA] at e; cases e
            · rw [hA] at e
              simp only at e
              by_cases hia : i = a
              · rw [if_pos hia] at e; cases e
              · rw [if_neg hia] at e
                cases e
                have hl : i < F.length := (List.getElem?_eq_some_iff.mp hF).1
                have hla : a < F.length := (List.getElem?_eq_some_iff.mp hA).1
                have hlh : i < h.length := by rw [m.len]; exact hl
                refine ⟨by rw [List.length_set, List.length_set, ← m.len]; simp [Heap.call, Heap.add], ?_, ?_⟩
                · intro j v b' hj
                  by_cases hja : j = a
                  · subst hja
                    rw [List.getElem?_set_self (by rw [List.length_set]; exact hla)] at hj
                    cases hj
                    obtain ⟨f, hf⟩ := m.tree _ _ _ hA
                    refine ⟨f, ?_⟩
                    show trees (h.modify i _) f (some j) = _
                    rw [trees_modify _ (m.not_seen hF (Ne.symm hia))]
                    exact hf
                  · rw [List.getElem?_set_ne (Ne.symm hja)] at hj
                    by_cases hji : j = i
                    · subst hji
                      rw [List.getElem?_set_self hl] at hj
                      cases hj
                      exact C77_add h j a t u (m.tree _ _ _ hF) hlh (m.tree _ _ _ hA) (m.not_seen hF (Ne.symm hia))
                    · rw [List.getElem?_set_ne (Ne.symm hji)] at hj
                      obtain ⟨f, hf⟩ := m.tree _ _ _ hj
                      refine ⟨f, ?_⟩
                      show trees (h.modify i _) f (some j) = _
                      rw [trees_modify _ (m.not_seen hF hji)]
                      exact hf
                · intro p q k
                  rcases (kid_add hlh p q).mp k with k | ⟨rfl, rfl⟩
                  · obtain ⟨v, hv⟩ := m.kid p q k
                    have hqi : q ≠ i := by rintro rfl; rw [hF] at hv; cases hv
                    by_cases hqa : q = a
                    · subst hqa
                      exact ⟨u, List.getElem?_set_self (by rw [List.length_set]; exact hla)⟩
                    · exact ⟨v, by rw [List.getElem?_set_ne (Ne.symm hqa), List.getElem?_set_ne (Ne.symm hqi)]; exact hv⟩
                  · exact ⟨u, List.getElem?_set_self (by rw [List.length_set]; exact hla)⟩

theorem matches_calls (ks : List ItemCall) (F : Forest) (hF : Forest.calls [] ks = some F) : Matches (Heap.calls [] ks) F := by
  have key : ∀ (ks : List ItemCall) (h : Heap) (F F' : Forest), Matches h F → F.calls ks = some F' → Matches (h.calls ks) F' := by
    intro ks
    induction ks with
    | nil => intro h F F' m e; cases e; exact m
    | cons k ks ih =>
      intro h F F' m e
      rw [Forest.calls] at e
      cases hc : F.call k with
      | none => rw [hc] at e; cases e
      | some G =>
        rw [hc] at e
        exact ih _ _ _ (m.call k hc) e
  exact key ks [] [] F ⟨rfl, fun i t b hi => by simp at hi, fun p q ⟨o, ho, _⟩ => by simp at ho⟩ hF

/-- **C77**: as long as an item is changed only before it is added to another, every item is at every time the tree that it would be if
items were copied: so the packet methods can be described with trees. -/
theorem C77_copies (ks : List ItemCall) (F : Forest) (hF : Forest.calls [] ks = some F) :
    (Heap.calls [] ks).length = F.length ∧ ∀ i t b, F[i]? = some (t, b) → Tree (Heap.calls [] ks) i t ∧
      ∀ indent lvl, (Heap.calls [] ks).toStr indent (F.length + 1) lvl (some i) = some (t.toStr indent lvl) := by
  have m := matches_calls ks F hF
  refine ⟨m.len, fun i t b hi => ⟨m.tree i t b hi, fun indent lvl => ?_⟩⟩
  obtain ⟨f, hf⟩ := m.tree i t b hi
  obtain ⟨t', ht'⟩ := trees_of_acyclic fun c => no_tree_of_cyclic c f _ hf
  have := (trees_le (Nat.le_max_left f ((Heap.calls [] ks).length + 1)) hf).symm.trans (trees_le (Nat.le_max_right _ _) ht')
  cases this
  rw [toStr_trees, ← m.len, ht']
  show some (t.toStr indent lvl ++ []) = _
  rw [List.append_nil]

/-- **C77**: the text of an `Info` is that of the trees of its packets in order. -/
theorem C77_info (h : Heap) (indent : Str) (ps : List Nat) (ts : List Item) (hp : List.Forall₂ (Tree h) ps ts) :
    ∃ f, ∀ g, f ≤ g → InfoObj.toStr h indent g (some (ps.map some)) = some (infoToString indent ts) := by
  have key : ∃ f, ∀ g, f ≤ g → (ps.map some).mapM (h.toStr indent g 0) = some (ts.map (Item.toStr indent 0)) := by
    induction hp with
    | nil => exact ⟨0, fun g _ => rfl⟩
    | cons hx _ ih =>
      obtain ⟨f, hf⟩ := ih
      obtain ⟨f', hf'⟩ := C77_text h indent 0 _ _ hx
      refine ⟨max f f', fun g hg => ?_⟩
      rw [List.map_cons, List.mapM_cons, hf' g (by omega), hf g (by omega)]
      rfl
  obtain ⟨f, hf⟩ := key
  refine ⟨f, fun g hg => ?_⟩
  rw [InfoObj.toStr, hf g hg, Option.map_some, infoToString]
  congr 1
  clear hf hp
  induction ts with
  | nil => rfl
  | cons t ts ih => rw [List.map_cons, List.flatten_cons, itemsToStr, ih]

/-! Item 1 is added to items 0 and 2 and gets a value and an item of its own later; both show it. Then item 0 is added to item 3, which it
holds: its text has no end, and that of item 2 has no end because it holds item 1 that holds item 3. -/

def Spec.exampleCalls : List ItemCall :=
  [.new [.name ['a']], .new [.name ['b']], .new [.name ['c']], .add (some 0) (some 1), .add (some 2) (some 1),
    .set 1 (.value ['v']), .new [.note ['n'], .name ['d']], .add (some 1) (some 3), .add (some 2) none]

theorem C77_example :
    (Heap.calls [] exampleCalls).toStr ['\t'] 5 0 (some 0) = some "a\n\tb: v\n\t\td (n)\n".toList ∧
    (Heap.calls [] exampleCalls).toStr ['\t'] 5 0 (some 2) = some "c\n\tb: v\n\t\td (n)\n".toList ∧
    Forest.calls [] exampleCalls = none ∧
    Cyclic ((Heap.calls [] exampleCalls).add (some 3) (some 0)) 2 := by
  refine ⟨by decide +kernel, by decide +kernel, by decide +kernel, ?_⟩
  rw [C77_cycle _ _ _ _ (by decide)]
  have k03 : ∀ p, p = 0 ∨ p = 2 → Under (Heap.calls [] exampleCalls) p 3 := by
    rintro p (rfl | rfl)
    · exact .step (r := 1) ⟨_, rfl, by decide⟩ (.kid ⟨_, rfl, by decide⟩)
    · exact .step (r := 1) ⟨_, rfl, by decide⟩ (.kid ⟨_, rfl, by decide⟩)
  exact .inr ⟨.inr (k03 2 (.inr rfl)), .inl (.inr (k03 0 (.inl rfl)))⟩

/-- items that are filled before they are added -/
theorem C77_copies_example :
    (Forest.calls [] [.new [.name ['a']], .new [.name ['b']], .set 1 (.value ['v']), .add (some 0) (some 1), .set 0 (.note ['n'])]).map
      (fun F => F.map fun x => String.ofList (x.1.toStr ['\t'] 0)) = some ["a (n)\n\tb: v\n", "b: v\n"] := by decide +kernel

end Gpgpdump
