import Verif.RelTags
import Verif.Unpack
import Verif.ThmPackets

/-!
# Whole parses under comparison
-/

namespace Gpgpdump
open Spec P Src Cmp

namespace Cmp
variable {k : Cmp}

/-- adding what is known about the result of one run -/
theorem At.post {α} {p q : Bytes} {m m' : P α} {Q : α → α → Prop} {T : α → Prop} (h : k.At p q m m' Q)
    (ht : ∀ c j a, (m (St.at c p q j)).1 = .ok a → T a) : k.At p q m m' (fun a a' => Q a a' ∧ T a) := by
  constructor
  intro c c' j j' hc hj
  have h1 := h.run c c' j j' hc hj
  have h2 := ht c j
  generalize m (St.at c p q j) = r at h1 h2 ⊢
  generalize m' (St.at c' p q j') = r' at h1 ⊢
  cases h1 with
  | ok ha hs => exact .ok ⟨ha, h2 _ rfl⟩ hs
  | err he hs => exact .err he hs
  | panic hp hs => exact .panic hp hs
  | nil hp => exact .nil hp

end Cmp

theorem mem_split {d : Bytes} {p : Nat × Bytes} (h : p ∈ (split d).1) : Contains d p := by
  obtain ⟨a, b, h1, h2, -⟩ := split_spec d
  exact ⟨_, a, b, h2, h1, .inl h⟩

theorem toEnd_split {d : Bytes} {t : Nat} {b : Bytes} (h : (split d).2 = .toEnd t b) : Contains d (t, b) := by
  obtain ⟨a, r, h1, h2, h3, h4, h5⟩ := split_spec d
  refine ⟨_, a, r, h2, h1, .inr ?_⟩
  rw [h] at h4
  exact decNext_toEnd (((decNext_of_stop h5).2.2.2 t b).mp h4)

theorem contains_nil {p : Nat × Bytes} : ¬ Contains [] p := by
  rintro ⟨ps, a, rest, h, hp, hm⟩
  have := List.append_eq_nil_iff.mp h.symm
  obtain ⟨rfl, rfl⟩ := this
  rcases hm with hm | hm
  · generalize he : ([] : Bytes) = e at hp
    cases hp with
    | nil => simp at hm
    | cons h' =>
      have := h'.length_lt
      have := congrArg List.length he
      simp at this
      omega
  · cases hm

section
variable {k : Cmp} (X : Ext)

/-- what `tag08` returns -/
theorem tag08_data (c : Option Ctx) (j : Item) (body : Bytes) (a : Option Bytes) (h : (tag08 X (St.at c [] body j)).1 = .ok a) :
    ∀ z, a = some z → z = [] ∨ Unpacks X body z := by
  intro z hz
  subst hz
  cases body with
  | nil =>
    have h' : tag08 X (St.at c [] [] j) = (.err (rawErr .eof).wrap, St.at c [] [] j) := by
      rw [tag08_eq, bind_run, readByte_nil]; rfl
    rw [h'] at h
    cases h
  | cons x zd =>
    by_cases hz : zd = []
    · subst hz
      rw [tag08_one] at h
      left; cases h; rfl
    · rw [(tag08_run X c j x zd hz).1] at h
      unfold packedOut at h
      cases hr : unpackRes X x zd with
      | ok d =>
        rw [hr] at h
        cases h
        rcases (unpackRes_ok hz).mp hr with h | h
        · exact .inr h
        · exact .inl h.2
      | error e =>
        rw [hr] at h
        simp only at h
        split at h <;> cases h

variable (hX : k.clean = true → CleanX X) (hR : k.real = true → RealX X)
include hX hR

theorem r_packetsParse (tag : Nat) (body : Bytes) (hs : k.mayPanic = true ∨ (∀ q, Within (tag, body) q → SafeSecret q) ∧
      (tag = 8 → ∀ z p q, Unpacks X body z → Contains z p → Within p q → SafeSecret q)) :
    k.R (packetsParse X tag body) (packetsParse X tag body) k.item := by
  by_cases h8 : tag = 8
  · subst h8
    have e : packetsParse X 8 body = (do
        let (item, data) ← compressed X body
        match data with
        | none => return item
        | some z => build item (packetLoop X (parseTag X) (Src.ofBytes z))) := rfl
    rw [e]
    have hc : k.R (compressed X body) (compressed X body)
        (fun a a' => k.item a.1 a'.1 ∧ a.2 = a'.2 ∧ ∀ z, a.2 = some z → z = [] ∨ Unpacks X body z) := by
      unfold compressed
      refine r_tagScope X hX hR (At.bindR X hX hR (Cmp.At.post ((r_tag08 X hX hR).at [] body) (T := fun a => ∀ z, a = some z → z = [] ∨ Unpacks X body z)
        fun c j a h => tag08_data X c j body a h) fun a a' ⟨ha, hb⟩ => ?_)
      exact R.bindItem R.getCur fun i i' hi => R.pure ⟨hi, ha, hb⟩
    refine R.bind hc fun a a' ⟨hi, h2, h3⟩ => ?_
    obtain ⟨i, z⟩ := a
    obtain ⟨i', z'⟩ := a'
    simp only at hi h2 h3
    subst h2
    cases z with
    | none => exact R.pure hi
    | some z =>
      refine R.build hi (Q := Eq) ?_
      have hin : ∀ p, Contains z p → k.R (parseTag X p.1 p.2) (parseTag X p.1 p.2) k.item := by
        intro p hp
        refine r_parseTag X hX hR _ _ (hs.imp id fun h q hq => ?_)
        rcases h3 z rfl with rfl | hu
        · exact absurd hp contains_nil
        · exact h.2 rfl z p q hu hp hq
      exact r_forPackets X _ _ (.inr rfl) (Nat.lt_succ_self _) (fun _ => by intro h; cases h) (fun p hp => hin p (mem_split hp)) fun _ t b h => hin (t, b) (toEnd_split h)
  · rw [packetsParse_other X tag body h8]
    exact r_parseTag X hX hR tag body (hs.imp id And.left)

/-- whole parses -/
theorem r_parse (d : Bytes) (src : Src) (hd : src.data = d) (hl : Lazy src) (ht : k.real = true → src.tail.real)
    (hs : k.mayPanic = true ∨ ∀ q, Somewhere X d q → SafeSecret q) :
    k.R (forPackets X (packetsParse X) (src.data.length + 1) src) (forPackets X (packetsParse X) (src.data.length + 1) src) Eq := by
  subst hd
  have hin : ∀ p, Contains src.data p → k.R (packetsParse X p.1 p.2) (packetsParse X p.1 p.2) k.item := by
    intro p hp
    refine r_packetsParse X hX hR _ _ (hs.imp id fun h => ⟨fun q hq => h q (.plain hp hq), fun h8 z r q hu hr hq => ?_⟩)
    refine h q (.packed ?_ hu hr hq)
    rw [← h8]; exact hp
  exact r_forPackets X _ _ hl (by omega) ht (fun p hp => hin p (mem_split hp)) fun _ t b h => hin (t, b) (toEnd_split h)

/-- whole parses of any source, when panics are compared -/
theorem r_parseAny (src : Src) (ht : k.real = true → src.tail.real) (hs : k.mayPanic = true) :
    k.R (forPackets X (packetsParse X) (src.data.length + 1) src) (forPackets X (packetsParse X) (src.data.length + 1) src) Eq :=
  r_forPacketsAny X _ _ (by omega) ht fun t b => r_packetsParse X hX hR t b (.inl hs)

end
end Gpgpdump
