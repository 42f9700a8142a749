import Verif.ResultJson
import Verif.ThmResultApi
import Verif.ThmJson

/-!
# C91: the JSON of shared items

Unlike `ToString`, `JSON` always ends: it is an error if an item is reached from itself, and otherwise the text shows what can be reached.
-/

namespace Gpgpdump
open Spec Spec.Json

namespace Spec.Json

mutual
/-- `v` shows what the pointer leads to: null for nil, an object with the fields of the item otherwise -/
inductive Shows (h : Heap) : Value → Option Nat → Prop
  | null : Shows h .null none
  | gone {p} (hp : h[p]? = none) : Shows h .null (some p)
  | item {ms p o} (ho : h[p]? = some o) (hn : Field "name" ms o.name) (hv : Field "value" ms o.value) (hd : Field "dump" ms o.dump)
      (ht : Field "note" ms o.note) (hi : ShowsAll h (get "Item" ms) o.items) : Shows h (.obj ms) (some p)
/-- the field shows the list of pointers; absent means empty -/
inductive ShowsAll (h : Heap) : Option Value → List (Option Nat) → Prop
  | none : ShowsAll h .none []
  | nil : ShowsAll h (some (.arr [])) []
  | cons {v p l ps} (hv : Shows h v p) (hl : ShowsAll h (some (.arr l)) ps) : ShowsAll h (some (.arr (v :: l))) (p :: ps)
end

/-- `v` shows the packets -/
def ShowsInfo (h : Heap) (v : Value) (l : List (Option Nat)) : Prop := ∃ ms, v = .obj ms ∧ ShowsAll h (get "Packet" ms) l

end Spec.Json

/-! ## One step -/

section forall2
variable {α β : Type}

theorem forall2_of_mapM {g : α → Option β} {l : List α} {ys : List β} (e : l.mapM g = some ys) : List.Forall₂ (fun x y => g x = some y) l ys := by
  induction l generalizing ys with
  | nil => cases e; exact .nil
  | cons x l ih =>
    rw [List.mapM_cons] at e
    cases hx : g x with
    | none => rw [hx] at e; cases e
    | some y =>
      rw [hx] at e
      cases hl : l.mapM g with
      | none => rw [hl] at e; cases e
      | some zs =>
        rw [hl] at e
        cases e
        exact .cons hx (ih hl)

theorem mapM_of_forall2 {g : α → Option β} {l : List α} {ys : List β} (e : List.Forall₂ (fun x y => g x = some y) l ys) : l.mapM g = some ys := by
  induction e with
  | nil => rfl
  | cons hx _ ih => rw [List.mapM_cons, hx, ih]; rfl

theorem texts_of_mapM {g : α → Option (Option β)} {l : List α} {rs : List (Option β)} {ts : List β} (e : l.mapM g = some rs)
    (e' : rs.mapM id = some ts) : List.Forall₂ (fun x t => g x = some (some t)) l ts := by
  have h1 := forall2_of_mapM e
  have h2 := forall2_of_mapM e'
  clear e e'
  induction h1 generalizing ts with
  | nil => cases h2; exact .nil
  | cons hx _ ih =>
    cases h2 with
    | cons hy h2 =>
      simp only [id] at hy
      rw [hy] at hx
      exact .cons hx (ih h2)

theorem forall2_mem_right {R : α → β → Prop} {l : List α} {ys : List β} (e : List.Forall₂ R l ys) {y : β} (hy : y ∈ ys) : ∃ x ∈ l, R x y := by
  induction e with
  | nil => cases hy
  | cons hx _ ih =>
    rcases List.mem_cons.mp hy with rfl | hy
    · exact ⟨_, List.mem_cons_self, hx⟩
    · obtain ⟨x, hx, e⟩ := ih hy
      exact ⟨x, List.mem_cons_of_mem _ hx, e⟩

theorem forall2_mem_left {R : α → β → Prop} {l : List α} {ys : List β} (e : List.Forall₂ R l ys) {x : α} (hx : x ∈ l) : ∃ y ∈ ys, R x y := by
  induction e with
  | nil => cases hx
  | cons hy _ ih =>
    rcases List.mem_cons.mp hx with rfl | hx
    · exact ⟨_, List.mem_cons_self, hy⟩
    · obtain ⟨y, hy, e⟩ := ih hx
      exact ⟨y, List.mem_cons_of_mem _ hy, e⟩

end forall2

/-- what a text is made of -/
theorem marshal_text {h : Heap} {sl : Bool} {f lvl : Nat} {seen sls : List Nat} {i : Nat} {t : Str}
    (e : h.marshal sl (f + 1) lvl seen sls (some i) = some (some t)) :
    (h[i]? = none ∧ t = S "null") ∨ ∃ o, h[i]? = some o ∧ ((o.items = [] ∧ t = o.fields ++ ['}']) ∨
      (o.items ≠ [] ∧ ∃ lvl' seen' sls' ts, List.Forall₂ (fun x u => h.marshal sl f lvl' seen' sls' x = some (some u)) o.items ts ∧
        t = o.fields ++ [','] ++ jsonKey (S "Item") ++ ['['] ++ jsonElems ts ++ [']', '}'])) := by
  rw [Heap.marshal] at e
  by_cases hs : lvl + 1 > startDetectCyclesAfter ∧ i ∈ seen
  · rw [if_pos hs] at e; cases e
  · rw [if_neg hs] at e
    cases ho : h[i]? with
    | none => rw [ho] at e; cases e; exact .inl ⟨rfl, rfl⟩
    | some o =>
      rw [ho] at e
      simp only at e
      refine .inr ⟨o, rfl, ?_⟩
      by_cases hi : o.items = []
      · rw [if_pos hi] at e; cases e; exact .inl ⟨hi, rfl⟩
      · rw [if_neg hi] at e
        refine .inr ⟨hi, ?_⟩
        by_cases hl : sl = true ∧ lvl + 2 > startDetectCyclesAfter ∧ i ∈ sls
        · rw [if_pos hl] at e; cases e
        · rw [if_neg hl] at e
          obtain ⟨rs, hrs, e⟩ := Option.map_eq_some_iff.mp e
          obtain ⟨ts, hts, rfl⟩ := Option.map_eq_some_iff.mp e
          exact ⟨_, _, _, ts, texts_of_mapM hrs hts, rfl⟩

/-- with more steps the outcome is the same -/
theorem marshal_succ {h : Heap} {sl : Bool} {f lvl : Nat} {seen sls : List Nat} {p : Option Nat} {r : Option Str}
    (e : h.marshal sl f lvl seen sls p = some r) : h.marshal sl (f + 1) lvl seen sls p = some r := by
  induction f generalizing lvl seen sls p r with
  | zero =>
    cases p with
    | none => rw [Heap.marshal] at e ⊢; exact e
    | some i => rw [Heap.marshal] at e; cases e
  | succ f ih =>
    cases p with
    | none => rw [Heap.marshal] at e ⊢; exact e
    | some i =>
      rw [Heap.marshal] at e ⊢
      by_cases hs : lvl + 1 > startDetectCyclesAfter ∧ i ∈ seen
      · rw [if_pos hs] at e ⊢; exact e
      · rw [if_neg hs] at e ⊢
        cases ho : h[i]? with
        | none => rw [ho] at e; exact e
        | some o =>
          rw [ho] at e
          simp only at e ⊢
          by_cases hi : o.items = []
          · rw [if_pos hi] at e ⊢; exact e
          · rw [if_neg hi] at e ⊢
            by_cases hl : sl = true ∧ lvl + 2 > startDetectCyclesAfter ∧ i ∈ sls
            · rw [if_pos hl] at e ⊢; exact e
            · rw [if_neg hl] at e ⊢
              obtain ⟨rs, hrs, e⟩ := Option.map_eq_some_iff.mp e
              rw [mapM_mono (fun x _ y hy => ih hy) hrs]
              exact congrArg some e

theorem marshal_le {h : Heap} {sl : Bool} {f g lvl : Nat} {seen sls : List Nat} {p : Option Nat} {r : Option Str} (hl : f ≤ g)
    (e : h.marshal sl f lvl seen sls p = some r) : h.marshal sl g lvl seen sls p = some r := by
  induction hl with
  | refl => exact e
  | step _ ih => exact marshal_succ ih

/-! ## The end -/

/-- below level 1000 the level grows, above it another item is remembered -/
theorem marshal_ends {h : Heap} {sl : Bool} {f lvl : Nat} {seen sls : List Nat} {p : Option Nat} (hn : seen.Nodup)
    (hr : seen ⊆ List.range h.length) (hf : (startDetectCyclesAfter - lvl) + (h.length - seen.length) < f) :
    ∃ r, h.marshal sl f lvl seen sls p = some r := by
  induction f generalizing lvl seen sls p with
  | zero => omega
  | succ f ih =>
    cases p with
    | none => exact ⟨_, by rw [Heap.marshal]⟩
    | some i =>
      rw [Heap.marshal]
      by_cases hs : lvl + 1 > startDetectCyclesAfter ∧ i ∈ seen
      · exact ⟨_, by rw [if_pos hs]⟩
      · rw [if_neg hs]
        cases ho : h[i]? with
        | none => exact ⟨_, rfl⟩
        | some o =>
          simp only
          by_cases hi : o.items = []
          · exact ⟨_, by rw [if_pos hi]⟩
          · rw [if_neg hi]
            by_cases hl : sl = true ∧ lvl + 2 > startDetectCyclesAfter ∧ i ∈ sls
            · exact ⟨_, by rw [if_pos hl]⟩
            · rw [if_neg hl]
              have hlt : i < h.length := by
                rcases Nat.lt_or_ge i h.length with hi' | hi'
                · exact hi'
                · rw [List.getElem?_eq_none hi'] at ho; cases ho
              generalize hsls : (if sl = true ∧ lvl + 2 > startDetectCyclesAfter then i :: sls else sls) = sls'
              have hlvl : lvl + 1 ≤ (if sl then lvl + 2 else lvl + 1) := by split <;> omega
              generalize (if sl then lvl + 2 else lvl + 1) = lvl' at hlvl
              have key : ∀ x, ∃ r, h.marshal sl f lvl' (if lvl + 1 > startDetectCyclesAfter then i :: seen else seen) sls' x = some r := by
                intro x
                by_cases hd : lvl + 1 > startDetectCyclesAfter
                · rw [if_pos hd]
                  have hni : i ∉ seen := fun hm => hs ⟨hd, hm⟩
                  have hn' : (i :: seen).Nodup := List.nodup_cons.mpr ⟨hni, hn⟩
                  have hr' : (i :: seen) ⊆ List.range h.length := by
                    intro q hq
                    rcases List.mem_cons.mp hq with rfl | hq
                    · exact List.mem_range.mpr hlt
                    · exact hr hq
                  have hle := (hn'.subperm hr').length_le
                  rw [List.length_range, List.length_cons] at hle
                  refine ih hn' hr' ?_
                  rw [List.length_cons]
                  omega
                · rw [if_neg hd]
                  refine ih hn hr ?_
                  omega
              cases hm : o.items.mapM (h.marshal sl f lvl' (if lvl + 1 > startDetectCyclesAfter then i :: seen else seen) sls') with
              | some rs => exact ⟨_, rfl⟩
              | none =>
                obtain ⟨x, _, hx⟩ := mapM_none hm
                obtain ⟨r, hr⟩ := key x
                rw [hr] at hx; cases hx

/-! ## Errors -/

theorem mapM_id_none {α : Type} {rs : List (Option α)} (e : rs.mapM id = none) : none ∈ rs := by
  obtain ⟨x, hx, h⟩ := mapM_none e
  simp only [id] at h
  exact h ▸ hx

/-- without a cycle nothing is met again -/
theorem marshal_acyclic {h : Heap} {sl : Bool} {f lvl : Nat} {seen sls : List Nat} {p : Nat} (hc : ¬ Cyclic h p)
    (hs : ∀ q ∈ seen, Under h q p) (hl : ∀ q ∈ sls, Under h q p) : h.marshal sl f lvl seen sls (some p) ≠ some none := by
  induction f generalizing lvl seen sls p with
  | zero => rw [Heap.marshal]; nofun
  | succ f ih =>
    rw [Heap.marshal, if_neg fun hx => hc ⟨p, .inl rfl, hs p hx.2⟩]
    cases ho : h[p]? with
    | none => nofun
    | some o =>
      simp only
      by_cases hi : o.items = []
      · rw [if_pos hi]; nofun
      · rw [if_neg hi, if_neg fun hx => hc ⟨p, .inl rfl, hl p hx.2.2⟩]
        intro e
        obtain ⟨rs, hrs, e⟩ := Option.map_eq_some_iff.mp e
        have hn := mapM_id_none (Option.map_eq_none_iff.mp e)
        obtain ⟨x, hx, hxn⟩ := forall2_mem_right (forall2_of_mapM hrs) hn
        cases x with
        | none => rw [Heap.marshal] at hxn; cases hxn
        | some q =>
          have k : Kid h p q := ⟨o, ho, hx⟩
          have hstep : ∀ {s : List Nat}, (∀ a ∈ s, Under h a p) → ∀ (c : Prop) [Decidable c], ∀ a ∈ (if c then p :: s else s), Under h a q := by
            intro s hs c _ a ha
            split at ha
            · rcases List.mem_cons.mp ha with rfl | ha
              · exact .kid k
              · exact (hs a ha).trans (.kid k)
            · exact (hs a ha).trans (.kid k)
          refine ih (fun ⟨r, hr, hb⟩ => hc ⟨r, .inr (Holds.ofKid k hr), hb⟩) (hstep hs _) (hstep hl _) hxn

/-- a text means that there is a tree -/
theorem trees_of_text {h : Heap} {sl : Bool} {f lvl : Nat} {seen sls : List Nat} {p : Option Nat} {t : Str}
    (e : h.marshal sl f lvl seen sls p = some (some t)) : ∃ ts, trees h f p = some ts := by
  induction f generalizing lvl seen sls p t with
  | zero =>
    cases p with
    | none => exact ⟨_, by rw [trees]⟩
    | some i => rw [Heap.marshal] at e; cases e
  | succ f ih =>
    cases p with
    | none => exact ⟨_, by rw [trees]⟩
    | some i =>
      rw [trees]
      rcases marshal_text e with ⟨ho, -⟩ | ⟨o, ho, ⟨hi, -⟩ | ⟨-, lvl', seen', sls', ts, h2, -⟩⟩
      · rw [ho]; exact ⟨_, rfl⟩
      · rw [ho]; simp only; rw [hi]; exact ⟨_, rfl⟩
      · rw [ho]
        simp only
        cases hm : o.items.mapM (trees h f) with
        | some ys => exact ⟨_, rfl⟩
        | none =>
          obtain ⟨x, hx, hn⟩ := mapM_none hm
          clear hm ho e
          exfalso
          generalize o.items = l at h2 hx
          induction h2 with
          | nil => cases hx
          | cons hy _ ih' =>
            rcases List.mem_cons.mp hx with rfl | hx
            · obtain ⟨ts, hts⟩ := ih hy
              rw [hts] at hn; cases hn
            · exact ih' hx

/-! ## Values -/

theorem elems_join {l : List Value} {ts : List Str} (e : List.Forall₂ Val l ts) (hne : l ≠ []) : Elems l (jsonElems ts) := by
  induction e with
  | nil => exact absurd rfl hne
  | @cons v t l ts hv hl ih =>
    cases hl with
    | nil =>
      have := Elems.one Json.ws_nil hv Json.ws_nil
      simpa [jsonElems] using this
    | @cons v' t' l ts hv' hl =>
      have := Elems.more Json.ws_nil hv Json.ws_nil (ih (by nofun))
      simpa [jsonElems] using this

/-- the value of an item, given those of its items -/
def objVal (o : ItemObj) (vs : List Value) : Value :=
  .obj ((S "name", .str o.name) :: (Json.optField "value" o.value ++ (Json.optField "dump" o.dump ++ (Json.optField "note" o.note ++ Json.listField vs))))

theorem shows_objVal {h : Heap} {p : Nat} {o : ItemObj} {vs : List Value} (ho : h[p]? = some o) (hi : List.Forall₂ (Shows h) vs o.items) :
    Shows h (objVal o vs) (some p) := by
  have hm : ∀ k : String, k.toList ≠ S "Item" → get k (Json.listField vs) = none := by
    intro k hk
    cases vs with
    | nil => rfl
    | cons v vs => rw [Json.listField, Json.get_cons_ne _ _ _ (Ne.symm hk)]; rfl
  refine .item ho (.inl rfl) ?_ ?_ ?_ ?_
  · refine Json.field_of_get (Json.get_cons_ne _ _ _ (by decide)) (Json.get_opt_self _ _ _ ?_)
    rw [Json.get_opt_ne _ _ (by decide), Json.get_opt_ne _ _ (by decide), hm _ (by decide)]
  · refine Json.field_of_get (Json.get_cons_ne _ _ _ (by decide)) (Json.field_of_get (Json.get_opt_ne _ _ (by decide)) (Json.get_opt_self _ _ _ ?_))
    rw [Json.get_opt_ne _ _ (by decide), hm _ (by decide)]
  · refine Json.field_of_get (Json.get_cons_ne _ _ _ (by decide)) (Json.field_of_get (Json.get_opt_ne _ _ (by decide))
      (Json.field_of_get (Json.get_opt_ne _ _ (by decide)) (Json.get_opt_self _ _ _ ?_)))
    rw [hm _ (by decide)]
  · rw [Json.get_cons_ne _ _ _ (by decide), Json.get_opt_ne _ _ (by decide), Json.get_opt_ne _ _ (by decide), Json.get_opt_ne _ _ (by decide)]
    have hall : ∀ {vs : List Value} {l}, List.Forall₂ (Shows h) vs l → ShowsAll h (some (.arr vs)) l := by
      intro vs l e
      induction e with
      | nil => exact .nil
      | cons hv _ ih => exact .cons hv ih
    cases hvs : vs with
    | nil =>
      rw [hvs] at hi
      cases hx : o.items with
      | nil => exact .none
      | cons y ys => rw [hx] at hi; cases hi
    | cons v vs' => rw [hvs] at hi; exact hall hi

theorem val_objVal (o : ItemObj) {vs : List Value} {ts : List Str} (e : List.Forall₂ Val vs ts) :
    Val (objVal o vs) (if vs = [] then o.fields ++ ['}'] else
      o.fields ++ [','] ++ jsonKey (S "Item") ++ ['['] ++ jsonElems ts ++ [']', '}']) := by
  have key : ∀ {ms u}, Json.Tail ms u → Val (.obj ((S "name", .str o.name) :: (Json.optField "value" o.value ++ (Json.optField "dump" o.dump ++
      (Json.optField "note" o.note ++ ms))))) ('{' :: (jsonKey (S "name") ++ jsonString (utf8 o.name) ++ (jsonOpt (S "value") (utf8 o.value) ++
      (jsonOpt (S "dump") (utf8 o.dump) ++ (jsonOpt (S "note") (utf8 o.note) ++ u)))) ++ ['}']) :=
    fun {ms u} h => .obj (Json.members_key Json.chars_keys.1 (Json.val_jsonString (Json.coerce_utf8 _)) (Json.tail_opt Json.chars_keys.2.1
      (Json.coerce_utf8 _) (Json.tail_opt Json.chars_keys.2.2.1 (Json.coerce_utf8 _)
      (Json.tail_opt Json.chars_keys.2.2.2.1 (Json.coerce_utf8 _) h))))
  unfold objVal
  cases hvs : vs with
  | nil =>
    rw [if_pos rfl]
    have := key Json.Tail.nil
    simpa [ItemObj.fields, Json.listField] using this
  | cons v vs' =>
    rw [if_neg (by nofun), ← hvs]
    have hne : vs ≠ [] := by rw [hvs]; nofun
    have := key (Json.tail_key Json.chars_keys.2.2.2.2.1 (Val.arr (elems_join e hne)) Json.Tail.nil)
    rw [hvs] at this ⊢
    simpa [ItemObj.fields, Json.listField] using this

theorem marshal_val {h : Heap} {sl : Bool} {f lvl : Nat} {seen sls : List Nat} {p : Option Nat} {t : Str}
    (e : h.marshal sl f lvl seen sls p = some (some t)) : ∃ v, Val v t ∧ Shows h v p := by
  induction f generalizing lvl seen sls p t with
  | zero =>
    cases p with
    | none => rw [Heap.marshal] at e; cases e; exact ⟨.null, .null, .null⟩
    | some i => rw [Heap.marshal] at e; cases e
  | succ f ih =>
    cases p with
    | none => rw [Heap.marshal] at e; cases e; exact ⟨.null, .null, .null⟩
    | some i =>
      rcases marshal_text e with ⟨ho, rfl⟩ | ⟨o, ho, ⟨hi, rfl⟩ | ⟨hi, lvl', seen', sls', ts, h2, rfl⟩⟩
      · exact ⟨.null, .null, .gone ho⟩
      · refine ⟨objVal o [], ?_, shows_objVal ho (by rw [hi]; exact .nil)⟩
        have := val_objVal o (vs := []) (ts := []) .nil
        rwa [if_pos rfl] at this
      · have key : ∃ vs : List Value, List.Forall₂ Val vs ts ∧ List.Forall₂ (Shows h) vs o.items := by
          clear hi ho e
          generalize o.items = l at h2
          induction h2 with
          | nil => exact ⟨[], .nil, .nil⟩
          | cons hy _ ih' =>
            obtain ⟨v, hv, hs⟩ := ih hy
            obtain ⟨vs, hvs, hss⟩ := ih'
            exact ⟨v :: vs, .cons hv hvs, .cons hs hss⟩
        obtain ⟨vs, hvs, hss⟩ := key
        refine ⟨objVal o vs, ?_, shows_objVal ho hss⟩
        have := val_objVal o hvs
        rwa [if_neg (by rintro rfl; cases hi' : o.items with
          | nil => exact hi hi'
          | cons y ys => rw [hi'] at hss; cases hss)] at this

/-- neither the level nor whether slices are counted shows in a text -/
theorem marshal_text_unique {h : Heap} {sl sl' : Bool} {f lvl lvl' : Nat} {seen sls seen' sls' : List Nat} {p : Option Nat} {t t' : Str}
    (e : h.marshal sl f lvl seen sls p = some (some t)) (e' : h.marshal sl' f lvl' seen' sls' p = some (some t')) : t = t' := by
  induction f generalizing lvl seen sls lvl' seen' sls' p t t' with
  | zero =>
    cases p with
    | none => rw [Heap.marshal] at e e'; rw [e] at e'; cases e'; rfl
    | some i => rw [Heap.marshal] at e; cases e
  | succ f ih =>
    cases p with
    | none => rw [Heap.marshal] at e e'; rw [e] at e'; cases e'; rfl
    | some i =>
      rcases marshal_text e with ⟨ho, rfl⟩ | ⟨o, ho, ⟨hi, rfl⟩ | ⟨hi, _, _, _, ts, h2, rfl⟩⟩ <;>
      rcases marshal_text e' with ⟨ho', rfl⟩ | ⟨o', ho', ⟨hi', rfl⟩ | ⟨hi', _, _, _, ts', h2', rfl⟩⟩ <;>
      rw [ho] at ho' <;> cases ho'
      · rfl
      · exact absurd hi hi'
      · exact absurd hi' hi
      · have : ts = ts' := by
          clear hi hi' ho e e'
          generalize o.items = l at h2 h2'
          induction h2 generalizing ts' with
          | nil => cases h2'; rfl
          | cons hy _ ih' =>
            cases h2' with
            | cons hy' h2' => rw [ih hy hy', ih' _ h2']
        rw [this]

/-! ## Trees -/

theorem elems_marshal (gs : List GItem) (g : GItem) : jsonElems ((g :: gs).map GItem.marshal) = g.marshal ++ marshalMore gs := by
  induction gs generalizing g with
  | nil => simp [jsonElems, marshalMore]
  | cons g' gs ih =>
    rw [List.map_cons, List.map_cons, jsonElems, ← List.map_cons, ih, marshalMore]
    simp

theorem goItems_map (is : List Item) : goItems is = is.map goItem := by
  induction is with
  | nil => rfl
  | cons i is ih => rw [goItems, ih, List.map_cons]

/-- every item seen from `p` is on the heap and holds no nil pointers -/
def Spec.Solid (h : Heap) (p : Nat) : Prop := ∀ q, Spec.Holds h p q → ∃ o, h[q]? = some o ∧ none ∉ o.items

theorem Spec.Solid.kid {h : Heap} {p q : Nat} (s : Solid h p) (k : Kid h p q) : Solid h q := fun r hr => s r (.inr (Holds.ofKid k hr))

theorem marshal_tree {h : Heap} {sl : Bool} {f lvl : Nat} {seen sls : List Nat} {p : Nat} {t : Str} (s : Solid h p)
    (e : h.marshal sl f lvl seen sls (some p) = some (some t)) : ∃ T, trees h f (some p) = some [T] ∧ t = (goItem T).marshal := by
  induction f generalizing lvl seen sls p t with
  | zero => rw [Heap.marshal] at e; cases e
  | succ f ih =>
    obtain ⟨o', ho', hnone⟩ := s p (.inl rfl)
    rw [trees]
    rcases marshal_text e with ⟨ho, rfl⟩ | ⟨o, ho, ⟨hi, rfl⟩ | ⟨hi, lvl', seen', sls', ts, h2, rfl⟩⟩
    · rw [ho] at ho'; cases ho'
    · rw [ho]
      simp only
      rw [hi]
      exact ⟨_, rfl, by simp [goItem, goItems, GItem.marshal, ItemObj.fields]⟩
    · have hoo : o = o' := by rw [ho] at ho'; cases ho'; rfl
      rw [← hoo] at hnone
      have key : ∃ Ts : List Item, o.items.mapM (trees h f) = some (Ts.map fun T => [T]) ∧ ts = (Ts.map goItem).map GItem.marshal := by
        have hk : ∀ q, some q ∈ o.items → Kid h p q := fun q hq => ⟨o, ho, hq⟩
        clear hi e
        generalize o.items = l at h2 hk hnone
        induction h2 with
        | nil => exact ⟨[], rfl, rfl⟩
        | @cons x u l us hx _ ih' =>
          cases x with
          | none => exact absurd List.mem_cons_self hnone
          | some q =>
            obtain ⟨T, hT, hu⟩ := ih (s.kid (hk q List.mem_cons_self)) hx
            obtain ⟨Ts, hTs, hus⟩ := ih' (fun q hq => hk q (List.mem_cons_of_mem _ hq)) fun h' => hnone (List.mem_cons_of_mem _ h')
            exact ⟨T :: Ts, by rw [List.mapM_cons, hT, hTs]; rfl, by rw [hu, hus]; rfl⟩
      obtain ⟨Ts, hTs, rfl⟩ := key
      rw [ho]
      simp only
      rw [hTs]
      have hfl : (Ts.map fun T => [T]).flatten = Ts := by
        clear hTs h2 e
        induction Ts with
        | nil => rfl
        | cons T Ts ih => rw [List.map_cons, List.flatten_cons, ih]; rfl
      refine ⟨_, rfl, ?_⟩
      rw [hfl]
      cases Ts with
      | nil =>
        exfalso
        cases hx : o.items with
        | nil => exact hi hx
        | cons y ys => rw [hx] at h2; cases h2
      | cons T Ts =>
        rw [List.map_cons, elems_marshal]
        simp [goItem, goItems, goItems_map, GItem.marshal, ItemObj.fields]

/-! ## The whole text -/

theorem info_ends (h : Heap) (sl : Bool) (l : List (Option Nat)) :
    ∃ r, ∀ g, h.length + 1001 ≤ g → h.marshalInfo sl g l = some r := by
  by_cases hl : l = []
  · exact ⟨_, fun g _ => by rw [Heap.marshalInfo, if_pos hl]⟩
  · have key : ∃ rs, ∀ g, h.length + 1001 ≤ g → l.mapM (h.marshal sl g (if sl then 2 else 1) [] []) = some rs := by
      clear hl
      induction l with
      | nil => exact ⟨[], fun g _ => rfl⟩
      | cons x l ih =>
        obtain ⟨rs, hrs⟩ := ih
        obtain ⟨r, hr⟩ := marshal_ends (h := h) (sl := sl) (f := h.length + 1001) (lvl := if sl then 2 else 1) (seen := []) (sls := []) (p := x)
          List.nodup_nil (List.nil_subset _) (by rw [startDetectCyclesAfter, List.length_nil]; split <;> omega)
        exact ⟨r :: rs, fun g hg => by rw [List.mapM_cons, marshal_le hg hr, hrs g hg]; rfl⟩
    obtain ⟨rs, hrs⟩ := key
    exact ⟨_, fun g hg => by rw [Heap.marshalInfo, if_neg hl, hrs g hg]; rfl⟩

/-- what the text of an `Info` is made of -/
theorem info_text {h : Heap} {sl : Bool} {g : Nat} {l : List (Option Nat)} {t : Str} (e : h.marshalInfo sl g l = some (some t)) :
    ∃ ts, List.Forall₂ (fun x u => h.marshal sl g (if sl then 2 else 1) [] [] x = some (some u)) l ts ∧
      t = if l = [] then S "{}" else ['{'] ++ jsonKey (S "Packet") ++ ['['] ++ jsonElems ts ++ [']', '}'] := by
  rw [Heap.marshalInfo] at e
  by_cases hl : l = []
  · rw [if_pos hl] at e
    cases e
    exact ⟨[], by rw [hl]; exact .nil, by rw [if_pos hl]⟩
  · rw [if_neg hl] at e
    obtain ⟨rs, hrs, e⟩ := Option.map_eq_some_iff.mp e
    obtain ⟨ts, hts, rfl⟩ := Option.map_eq_some_iff.mp e
    exact ⟨ts, texts_of_mapM hrs hts, by rw [if_neg hl]⟩

theorem info_cyclic {h : Heap} {sl : Bool} {g : Nat} {l : List (Option Nat)} {p : Nat} (hp : some p ∈ l) (c : Cyclic h p) (t : Str) :
    h.marshalInfo sl g l ≠ some (some t) := by
  intro e
  obtain ⟨ts, h2, -⟩ := info_text e
  obtain ⟨u, -, hu⟩ := forall2_mem_left h2 hp
  obtain ⟨T, hT⟩ := trees_of_text hu
  exact no_tree_of_cyclic c g T hT

theorem info_acyclic {h : Heap} {sl : Bool} {g : Nat} {l : List (Option Nat)} (hc : ∀ p, some p ∈ l → ¬ Cyclic h p) :
    h.marshalInfo sl g l ≠ some none := by
  intro e
  rw [Heap.marshalInfo] at e
  by_cases hl : l = []
  · rw [if_pos hl] at e; cases e
  · rw [if_neg hl] at e
    obtain ⟨rs, hrs, e⟩ := Option.map_eq_some_iff.mp e
    have hn := mapM_id_none (Option.map_eq_none_iff.mp e)
    obtain ⟨x, hx, hxn⟩ := forall2_mem_right (forall2_of_mapM hrs) hn
    cases x with
    | none => rw [Heap.marshal] at hxn; cases hxn
    | some q => exact marshal_acyclic (hc q hx) (by simp) (by simp) hxn

theorem info_shows {h : Heap} {sl : Bool} {g : Nat} {l : List (Option Nat)} {t : Str} (e : h.marshalInfo sl g l = some (some t)) :
    ∃ v, ShowsInfo h v l ∧ Text v t := by
  obtain ⟨ts, h2, rfl⟩ := info_text e
  by_cases hl : l = []
  · rw [if_pos hl, hl]
    exact ⟨.obj [], ⟨[], rfl, .none⟩, [], _, [], Json.ws_nil, .obj0 Json.ws_nil, Json.ws_nil, rfl⟩
  · rw [if_neg hl]
    have key : ∃ vs : List Value, List.Forall₂ Val vs ts ∧ ShowsAll h (some (.arr vs)) l := by
      clear hl e
      induction h2 with
      | nil => exact ⟨[], .nil, .nil⟩
      | cons hy _ ih' =>
        obtain ⟨v, hv, hs⟩ := marshal_val hy
        obtain ⟨vs, hvs, hss⟩ := ih'
        exact ⟨v :: vs, .cons hv hvs, .cons hs hss⟩
    obtain ⟨vs, hvs, hss⟩ := key
    have hne : vs ≠ [] := by rintro rfl; cases hss; exact hl rfl
    refine ⟨.obj [(S "Packet", .arr vs)], ⟨_, rfl, hss⟩, [], _, [], Json.ws_nil, ?_, Json.ws_nil, by rw [List.append_nil]; rfl⟩
    have := Val.obj (Json.members_key Json.chars_keys.2.2.2.2.2 (Val.arr (elems_join hvs hne)) Json.Tail.nil)
    simpa using this

/-- **C91**: `JSON` ends, whatever the items hold. -/
theorem C91_ends (h : Heap) (sl : Bool) (indent : Int) (i : InfoObj) :
    ∃ r, ∀ g, h.length + 1001 ≤ g → InfoObj.json h sl indent g i = some r := by
  cases i with
  | none => exact ⟨_, fun g _ => rfl⟩
  | some l =>
    obtain ⟨r, hr⟩ := info_ends h sl l
    exact ⟨_, fun g hg => by rw [InfoObj.json, hr g hg]; rfl⟩

/-- **C91**: it is an error if an item that is reached from a packet is reached from itself. -/
theorem C91_cycle (h : Heap) (sl : Bool) (indent : Int) (l : List (Option Nat)) (p : Nat) (hp : some p ∈ l) (c : Cyclic h p) (g : Nat)
    (hg : h.length + 1001 ≤ g) : InfoObj.json h sl indent g (some l) = some none := by
  obtain ⟨r, hr⟩ := info_ends h sl l
  cases r with
  | some t => exact absurd (hr g hg) (info_cyclic hp c t)
  | none =>
    rw [InfoObj.json, hr g hg]
    show some (if indent > 0 then none else none) = _
    split <;> rfl

/-- **C91**: otherwise the text is JSON and shows all that can be reached, nil pointers as null; only nested more than 10000 deep and
with an indentation it is an error. -/
theorem C91_shown (h : Heap) (sl : Bool) (l : List (Option Nat)) (hc : ∀ p, some p ∈ l → ¬ Cyclic h p) :
    ∃ v, ShowsInfo h v l ∧ ∀ indent : Int,
      (indent ≤ 0 ∨ nesting v ≤ 10000 → ∃ t, Text v t ∧ ∀ g, h.length + 1001 ≤ g → InfoObj.json h sl indent g (some l) = some (some t)) ∧
      (0 < indent → 10000 < nesting v → ∀ g, h.length + 1001 ≤ g → InfoObj.json h sl indent g (some l) = some none) := by
  obtain ⟨r, hr⟩ := info_ends h sl l
  cases r with
  | none => exact absurd (hr _ (Nat.le_refl _)) (info_acyclic hc)
  | some t =>
    obtain ⟨v, hs, ht⟩ := info_shows (hr _ (Nat.le_refl _))
    refine ⟨v, hs, fun indent => ⟨fun hd => ?_, fun hi hd g hg => ?_⟩⟩
    · by_cases hi : indent > 0
      · obtain ⟨t', e, ht'⟩ := Json.indent_text (Json.ws_spaces indent.toNat) ht (by rw [jsonMaxNesting]; omega)
        refine ⟨t', ht', fun g hg => ?_⟩
        rw [InfoObj.json, hr g hg]
        show some (if indent > 0 then jsonIndent _ t else some t) = _
        rw [if_pos hi, e]
      · refine ⟨t, ht, fun g hg => ?_⟩
        rw [InfoObj.json, hr g hg]
        show some (if indent > 0 then jsonIndent _ t else some t) = _
        rw [if_neg hi]
    · rw [InfoObj.json, hr g hg]
      show some (if indent > 0 then jsonIndent _ t else some t) = _
      rw [if_pos hi, Json.indent_deep (Json.ws_spaces indent.toNat) ht (by rw [jsonMaxNesting]; omega)]

/-- **C91**: it does not matter whether slices are counted. -/
theorem C91_versions (h : Heap) (indent : Int) (i : InfoObj) (g : Nat) (hg : h.length + 1001 ≤ g) :
    InfoObj.json h true indent g i = InfoObj.json h false indent g i := by
  cases i with
  | none => rfl
  | some l =>
    have key : h.marshalInfo true g l = h.marshalInfo false g l := by
      obtain ⟨r, hr⟩ := info_ends h true l
      obtain ⟨r', hr'⟩ := info_ends h false l
      rw [hr g hg, hr' g hg]
      by_cases hc : ∃ p, some p ∈ l ∧ Cyclic h p
      · obtain ⟨p, hp, c⟩ := hc
        cases r with
        | some t => exact absurd (hr g hg) (info_cyclic hp c t)
        | none =>
          cases r' with
          | some t => exact absurd (hr' g hg) (info_cyclic hp c t)
          | none => rfl
      · have hc' : ∀ p, some p ∈ l → ¬ Cyclic h p := fun p hp c => hc ⟨p, hp, c⟩
        cases r with
        | none => exact absurd (hr g hg) (info_acyclic hc')
        | some t =>
          cases r' with
          | none => exact absurd (hr' g hg) (info_acyclic hc')
          | some t' =>
            obtain ⟨ts, h2, rfl⟩ := info_text (hr g hg)
            obtain ⟨ts', h2', rfl⟩ := info_text (hr' g hg)
            have : ts = ts' := by
              clear hr hr' hc hc'
              induction h2 generalizing ts' with
              | nil => cases h2'; rfl
              | cons hy _ ih' =>
                cases h2' with
                | cons hy' h2' => rw [marshal_text_unique hy hy', ih' _ h2']
            rw [this]
    rw [InfoObj.json, InfoObj.json, key]

/-- **C91**: with copied items the text would be the same: it is that of the trees (of which C30 says what it decodes to). -/
theorem C91_tree (h : Heap) (sl : Bool) (indent : Int) (ps : List Nat) (hs : ∀ p ∈ ps, Solid h p) (hc : ∀ p ∈ ps, ¬ Cyclic h p) :
    ∃ ts, List.Forall₂ (Tree h) ps ts ∧ ∀ g, h.length + 1001 ≤ g →
      InfoObj.json h sl indent g (some (ps.map some)) = some (infoJSON indent (goItems ts)) := by
  obtain ⟨r, hr⟩ := info_ends h sl (ps.map some)
  cases r with
  | none =>
    refine absurd (hr _ (Nat.le_refl _)) (info_acyclic fun p hp => ?_)
    obtain ⟨q, hq, e⟩ := List.mem_map.mp hp
    cases e
    exact hc p hq
  | some t =>
    obtain ⟨us, h2, rfl⟩ := info_text (hr _ (Nat.le_refl _))
    have key : ∃ ts : List Item, List.Forall₂ (Tree h) ps ts ∧ us = (ts.map goItem).map GItem.marshal := by
      clear hr hc
      induction ps generalizing us with
      | nil => cases h2; exact ⟨[], .nil, rfl⟩
      | cons p ps ih =>
        cases h2 with
        | cons hx h2 =>
          obtain ⟨T, hT, hu⟩ := marshal_tree (hs p List.mem_cons_self) hx
          obtain ⟨Ts, hTs, hus⟩ := ih (fun q hq => hs q (List.mem_cons_of_mem _ hq)) _ h2
          exact ⟨T :: Ts, .cons ⟨_, hT⟩ hTs, by rw [hu, hus]; rfl⟩
    obtain ⟨ts, hts, rfl⟩ := key
    refine ⟨ts, hts, fun g hg => ?_⟩
    have ht : (if ps.map some = [] then S "{}" else
        ['{'] ++ jsonKey (S "Packet") ++ ['['] ++ jsonElems ((ts.map goItem).map GItem.marshal) ++ [']', '}']) = marshalInfo (goItems ts) := by
      cases hts with
      | nil => rfl
      | cons hx hts =>
        rw [if_neg (by simp), List.map_cons, elems_marshal, goItems, marshalInfo, goItems_map]
        simp
    rw [InfoObj.json, hr g hg, ht, infoJSON]
    rfl

theorem calls_nonil (ks : List ItemCall) (h : Heap) (hn : ∀ o ∈ h, none ∉ o.items) : ∀ o ∈ h.calls ks, none ∉ o.items := by
  induction ks generalizing h with
  | nil => exact hn
  | cons k ks ih =>
    refine ih _ fun o ho => ?_
    have hmod : ∀ (i : Nat) (g : ItemObj → ItemObj), (∀ o, none ∉ o.items → none ∉ (g o).items) → o ∈ h.modify i g → none ∉ o.items := by
      intro i g hg hm
      obtain ⟨j, hj, e⟩ := List.mem_iff_getElem.mp hm
      rw [List.getElem_modify] at e
      rw [← e]
      split
      · exact hg _ (hn _ (List.getElem_mem _))
      · exact hn _ (List.getElem_mem _)
    cases k with
    | new opts =>
      rcases List.mem_append.mp ho with ho | ho
      · exact hn o ho
      · rw [List.mem_singleton.mp ho]
        have : ∀ (os : List ItemOpt) (o : ItemObj), none ∉ o.items → none ∉ (os.foldl ItemOpt.on o).items := by
          intro os
          induction os with
          | nil => exact fun o h => h
          | cons x os ih => exact fun o h => ih _ (by cases x <;> exact h)
        exact this opts {} (by nofun)
    | set i opt => exact hmod i _ (fun o h => by cases opt <;> exact h) ho
    | add i a =>
      cases i with
      | none => exact hn o ho
      | some i =>
        cases a with
        | none => exact hn o ho
        | some a => exact hmod i _ (fun o h => by simpa using h) ho

/-- **C91**: as long as an item is changed only before it is added to another, as the parser does it, the JSON is that of the trees the
items would be if they were copied. -/
theorem C91_copies (ks : List ItemCall) (F : Forest) (hF : Forest.calls [] ks = some F) (sl : Bool) (indent : Int) (ps : List Nat)
    (ts : List Item) (hp : List.Forall₂ (fun p t => ∃ b, F[p]? = some (t, b)) ps ts) (g : Nat) (hg : F.length + 1001 ≤ g) :
    InfoObj.json (Heap.calls [] ks) sl indent g (some (ps.map some)) = some (infoJSON indent (goItems ts)) := by
  have m := matches_calls ks F hF
  have htree : ∀ p ∈ ps, ∃ t b, F[p]? = some (t, b) := fun p hm => by
    obtain ⟨t, -, b, hb⟩ := forall2_mem_left hp hm
    exact ⟨t, b, hb⟩
  have hlast : ∀ {x y}, Under (Heap.calls [] ks) x y → ∃ z, Kid (Heap.calls [] ks) z y := by
    intro x y b
    induction b with
    | kid k => exact ⟨_, k⟩
    | step _ _ ih => exact ih
  obtain ⟨us, hus, e⟩ := C91_tree (Heap.calls [] ks) sl indent ps (fun p hm q hq => by
      have hlt : q < (Heap.calls [] ks).length := by
        rw [m.len]
        have : ∃ t b, F[q]? = some (t, b) := by
          rcases hq with rfl | hq
          · exact htree _ hm
          · obtain ⟨z, k⟩ := hlast hq
            obtain ⟨t, ht⟩ := m.kid _ _ k
            exact ⟨t, _, ht⟩
        obtain ⟨t, b, hb⟩ := this
        exact (List.getElem?_eq_some_iff.mp hb).1
      exact ⟨_, List.getElem?_eq_getElem hlt, calls_nonil ks [] (by nofun) _ (List.getElem_mem _)⟩)
    (fun p hm c => by
      obtain ⟨t, b, hb⟩ := htree p hm
      obtain ⟨f, hf⟩ := m.tree p t b hb
      exact no_tree_of_cyclic c f _ hf)
  have : us = ts := by
    clear e htree
    induction hp generalizing us with
    | nil => cases hus; rfl
    | cons hx _ ih =>
      cases hus with
      | cons hu hus =>
        obtain ⟨b, hb⟩ := hx
        rw [Spec.Tree.unique hu (m.tree _ _ _ hb), ih _ hus]
  rw [← this]
  exact e g (by rw [m.len]; exact hg)

/-- A shared item is written twice, a nil pointer is null; after a cycle is closed the text of item 2 has no end and its JSON is an error. -/
theorem C91_example :
    let h := Heap.calls [] exampleCalls
    (InfoObj.json h true 0 5 (some [some 0, none, some 2]) =
      some (some (S ("{\"Packet\":[{\"name\":\"a\",\"Item\":[{\"name\":\"b\",\"value\":\"v\",\"Item\":[{\"name\":\"d\",\"note\":\"n\"}]}]}," ++
        "null,{\"name\":\"c\",\"Item\":[{\"name\":\"b\",\"value\":\"v\",\"Item\":[{\"name\":\"d\",\"note\":\"n\"}]}]}]}")))) ∧
    (∀ g, 1005 ≤ g → InfoObj.json (h.add (some 3) (some 0)) true 0 g (some [some 2]) = some none) ∧
    ∀ f lvl, (h.add (some 3) (some 0)).toStr ['\t'] f lvl (some 2) = none := by
  have c := C77_example.2.2.2
  refine ⟨by decide +kernel, fun g hg => C91_cycle _ _ _ _ 2 (by decide) c g hg, fun f lvl => ?_⟩
  rw [toStr_trees]
  cases e : trees ((Heap.calls [] exampleCalls).add (some 3) (some 0)) f (some 2) with
  | none => rfl
  | some t => exact absurd e (no_tree_of_cyclic c f t)

end Gpgpdump
