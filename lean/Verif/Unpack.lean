import Verif.Run
import Verif.SpecPackets

/-!
# Running the compressed-data parser
-/

namespace Gpgpdump
open Spec P

/-- what the decompressors make of the data (Tag08.go:40-62) -/
def unpackRes (X : Ext) (c : UInt8) (zd : Bytes) : Except GoErr Bytes :=
  match c.toNat with
  | 0 => .ok zd
  | 1 => copyFrom (X.flate zd)
  | 2 => match X.zlib zd with
    | .error e => .error e.wrap
    | .ok z => copyFrom z
  | 3 => copyFrom (X.bzip2 zd)
  | _ => .ok []

theorem copyFrom_ok {z : Stream} {d : Bytes} : copyFrom z = .ok d ↔ z.data.length < 2 ^ 30 ∧ z.tail.isEOF = true ∧ z.data = d := by
  unfold copyFrom maxDecompressionDataSize
  split
  · constructor
    · intro h; cases h
    · intro h; omega
  · split
    · constructor
      · intro h; cases h; exact ⟨by omega, ‹_›, rfl⟩
      · rintro ⟨-, -, rfl⟩; rfl
    · constructor
      · intro h; cases h
      · rintro ⟨-, h, -⟩; contradiction

theorem unpackRes_ok {X : Ext} {c : UInt8} {zd z : Bytes} (hz : zd ≠ []) :
    unpackRes X c zd = .ok z ↔ Unpacks X (c :: zd) z ∨ (c.toNat > 3 ∧ z = []) := by
  have hc : ∀ n : Nat, n < 256 → c.toNat = n → c = UInt8.ofNat n := by
    rintro n - rfl; simp
  constructor
  · intro h
    unfold unpackRes at h
    split at h
    · rename_i h0; cases hc 0 (by omega) h0; cases h; exact .inl (.stored hz)
    · rename_i h0; cases hc 1 (by omega) h0
      obtain ⟨h1, h2, rfl⟩ := copyFrom_ok.mp h
      exact .inl (.zip hz h1 h2)
    · rename_i h0; cases hc 2 (by omega) h0
      split at h
      · cases h
      · rename_i he
        obtain ⟨h1, h2, rfl⟩ := copyFrom_ok.mp h
        exact .inl (.zlib hz he h1 h2)
    · rename_i h0; cases hc 3 (by omega) h0
      obtain ⟨h1, h2, rfl⟩ := copyFrom_ok.mp h
      exact .inl (.bzip2 hz h1 h2)
    · rename_i h0 h1 h2 h3
      cases h
      refine .inr ⟨?_, rfl⟩
      simp only [imp_false] at h0 h1 h2 h3
      omega
  · rintro (h | ⟨h, rfl⟩)
    · cases h with
      | stored h => rfl
      | zip h h1 h2 => exact copyFrom_ok.mpr ⟨h1, h2, rfl⟩
      | zlib h he h1 h2 =>
        change (match X.zlib zd with | .error e => Except.error e.wrap | .ok z => copyFrom z) = _
        rw [he]; exact copyFrom_ok.mpr ⟨h1, h2, rfl⟩
      | bzip2 h h1 h2 => exact copyFrom_ok.mpr ⟨h1, h2, rfl⟩
    · unfold unpackRes
      split <;> first | omega | rfl

/-- the item for the compressed octets -/
def packedItem (zd : Bytes) (d : Bool) : Item := newItem (S "Compressed data") [] (nBytes zd.length) (if d then Reader.dumpHex zd else [])

/-- tag08 after the algorithm octet -/
def tail08 (X : Ext) (compID : UInt8) (d : Bool) (r : Reader) : P (Option Bytes) :=
  if r.rest > 0 then do
    let zd ← (if compID.toNat ≤ 3 then read2EOF else return [] : P Bytes)
    match unpackRes X compID zd with
    | .ok data => do
      add (rawData r (S "Compressed data") d)
      return some data
    | .error e =>
      if e.cause = .tooLarge then do
        add ((rawData r (S "Compressed data") d).setValue (S "<too laege decompressed data>"))
        return none
      else do
        add (rawData r (S "Compressed data") d)
        P.fail e.wrap
  else return some []

theorem tag08_eq (X : Ext) : tag08 X = (do
    let compID ← readByte
    let d ← flag Ctx.debug
    add (compItem compID d)
    let r ← reader
    tail08 X compID d r) := rfl

/-- the outcome after the compressed octets -/
def packedOut (X : Ext) (x : UInt8) (zd : Bytes) (d : Bool) (j : Item) : Res (Option Bytes) × Item :=
  match unpackRes X x zd with
  | .ok data => (.ok (some data), j.add (packedItem zd d))
  | .error e =>
    if e.cause = .tooLarge then (.ok none, j.add ((packedItem zd d).setValue (S "<too laege decompressed data>")))
    else (.err e.wrap, j.add (packedItem zd d))

theorem unpackRes_unknown {X : Ext} {x : UInt8} (h : ¬ x.toNat ≤ 3) (zd zd' : Bytes) : unpackRes X x zd = unpackRes X x zd' := by
  unfold unpackRes
  split <;> first | omega | rfl

theorem tail08_run (X : Ext) (c : Option Ctx) (j : Item) (x : UInt8) (zd : Bytes) (d : Bool) (hz : zd ≠ []) :
    (tail08 X x d ⟨[x] ++ zd, 1⟩ (St.at c [x] zd j)).1 = (packedOut X x zd d j).1 ∧
    (tail08 X x d ⟨[x] ++ zd, 1⟩ (St.at c [x] zd j)).2.cur = (packedOut X x zd d j).2 ∧
    (tail08 X x d ⟨[x] ++ zd, 1⟩ (St.at c [x] zd j)).2.ctx = c := by
  have hr : (⟨[x] ++ zd, 1⟩ : Reader).rest > 0 := by
    have := List.length_pos_iff.mpr hz
    simp only [Reader.rest, Reader.size, List.length_append, List.length_singleton]
    omega
  have hraw : rawData ⟨[x] ++ zd, 1⟩ (S "Compressed data") d = packedItem zd d := rawData_at [x] zd _ d
  unfold tail08
  rw [if_pos hr, hraw]
  have tail : ∀ (y : Bytes) (st : St), st.ctx = c → st.cur = j → unpackRes X x y = unpackRes X x zd →
      let m : P (Option Bytes) := match unpackRes X x y with
        | .ok data => do
          add (packedItem zd d)
          return some data
        | .error e =>
          if e.cause = .tooLarge then do
            add ((packedItem zd d).setValue (S "<too laege decompressed data>"))
            return none
          else do
            add (packedItem zd d)
            P.fail e.wrap
      (m st).1 = (packedOut X x zd d j).1 ∧ (m st).2.cur = (packedOut X x zd d j).2 ∧ (m st).2.ctx = c := by
    intro y st h1 h2 h3
    subst h1 h2
    intro m
    simp only [m, packedOut, h3]
    cases unpackRes X x zd with
    | ok z => exact ⟨rfl, rfl, rfl⟩
    | error e =>
      simp only
      split
      · exact ⟨rfl, rfl, rfl⟩
      · exact ⟨rfl, rfl, rfl⟩
  by_cases h3 : x.toNat ≤ 3
  · rw [if_pos h3]
    obtain ⟨rd, hrd, -⟩ := read2EOF_ok c [x] zd j hz
    rw [bind_run, hrd]
    exact tail zd _ rfl rfl rfl
  · rw [if_neg h3]
    exact tail [] _ rfl rfl (unpackRes_unknown h3 _ _)

theorem tag08_run (X : Ext) (c : Option Ctx) (j : Item) (x : UInt8) (zd : Bytes) (hz : zd ≠ []) :
    (tag08 X (St.at c [] (x :: zd) j)).1 = (packedOut X x zd (ctxFlag Ctx.debug c) (j.add (compItem x (ctxFlag Ctx.debug c)))).1 ∧
    (tag08 X (St.at c [] (x :: zd) j)).2.cur = (packedOut X x zd (ctxFlag Ctx.debug c) (j.add (compItem x (ctxFlag Ctx.debug c)))).2 ∧
    (tag08 X (St.at c [] (x :: zd) j)).2.ctx = c := by
  rw [tag08_eq, bind_run, readByte_cons]
  exact tail08_run X c _ x zd _ hz

theorem tag08_one (X : Ext) (c : Option Ctx) (j : Item) (x : UInt8) :
    tag08 X (St.at c [] [x] j) = (.ok (some []), St.at c [x] [] (j.add (compItem x (ctxFlag Ctx.debug c)))) := by
  rw [tag08_eq, bind_run, readByte_cons]
  rfl

end Gpgpdump
