import Verif.Rel
import Verif.ThmText

/-!
# Items under comparison

Every kind of item the parsers build: equal up to dumps, equal when the dump flags agree, free of control characters.
-/

namespace Gpgpdump
open Spec P Src

/-- the environment formats times without control characters -/
structure CleanX (X : Ext) : Prop where
  time : ∀ t, Clean (X.localTime t)
  days : ∀ t, Clean (X.days t)

/-! ## Clean strings -/

theorem digit_clean (n : Nat) (h : n < 16) : isControl (digit n) = false := by
  have : ∀ n : Fin 16, isControl (digit n.val) = false := by decide
  exact this ⟨n, h⟩

theorem digitU_clean (n : Nat) (h : n < 16) : isControl (digitU n) = false := by
  have : ∀ n : Fin 16, isControl (digitU n.val) = false := by decide
  exact this ⟨n, h⟩

namespace Clean

theorem digitsAux {b : Nat} {f : Nat → Char} (hb : 0 < b) (hf : ∀ n < b, isControl (f n) = false) (fuel n : Nat) :
    Clean (digitsAux b f fuel n) := by
  induction fuel generalizing n with
  | zero => exact .cons (hf _ (Nat.mod_lt _ hb)) .nil
  | succ fuel ih =>
    rw [Gpgpdump.digitsAux]
    split
    · exact .cons (hf _ ‹_›) .nil
    · exact .append (ih _) (.cons (hf _ (Nat.mod_lt _ hb)) .nil)

theorem dec (n : Nat) : Clean (dec n) := digitsAux (by omega) (fun n h => digit_clean n (by omega)) _ _
theorem hex (n : Nat) : Clean (hex n) := digitsAux (by omega) (fun n h => digit_clean n (by omega)) _ _
theorem decInt (n : Int) : Clean (decInt n) := by
  unfold Gpgpdump.decInt
  split
  · exact .cons (by decide) (dec _)
  · exact dec _
theorem zpad {s : Str} (w : Nat) (h : Clean s) : Clean (zpad w s) := by
  refine .append (.of_mem ?_) h
  intro c hc
  rw [List.eq_of_mem_replicate hc]; decide
theorem hashHex2 (n : Nat) : Clean (hashHex2 n) := .append (.lit (by decide)) (zpad _ (hex n))
theorem hashHex16 (n : Nat) : Clean (hashHex16 n) := .append (.lit (by decide)) (zpad _ (hex n))
theorem fmtU (c : Char) : Clean (fmtU c) :=
  .append (.lit (by decide)) (zpad _ (digitsAux (by omega) (fun n h => digitU_clean n (by omega)) _ _))
theorem nBytes (n : Nat) : Clean (nBytes n) := .append (dec n) (.lit (by decide))
theorem iBytes (n : Int) : Clean (iBytes n) := .append (decInt n) (.lit (by decide))
theorem hex2 (b : UInt8) : Clean (hex2 b) :=
  .cons (digit_clean _ (by have := b.toNat_lt; omega)) (.cons (digit_clean _ (by omega)) .nil)
theorem dumpHex : ∀ b : Bytes, Clean (Reader.dumpHex b)
  | [] => .nil
  | [b] => hex2 b
  | b :: b' :: bs => .append (hex2 b) (.cons (by decide) (dumpHex (b' :: bs)))
theorem dumpString (r : Reader) (n : Nat) : Clean (r.dumpString n) := by
  unfold Reader.dumpString; split
  · exact .nil
  · exact dumpHex _
theorem dumpBytes (b f) : Clean (dumpBytes b f) := by
  unfold Gpgpdump.dumpBytes; split
  · exact dumpString _ _
  · exact .nil
theorem dumpRest (b f) : Clean (dumpRest b f) := by
  unfold Gpgpdump.dumpRest; split
  · exact dumpString _ _
  · exact .nil
theorem dumpByte (b f) : Clean (dumpByte b f) := by
  unfold Gpgpdump.dumpByte; split
  · exact hex2 _
  · exact .nil

theorem get {t : Msgs} {d : Str} (i : Nat) (h : t.all (fun kv => cleanB kv.2) = true) (hd : Clean d) : Clean (t.get i d) := by
  unfold Msgs.get
  split
  · rename_i kv hkv
    exact ⟨List.all_eq_true.mp h kv (List.mem_of_find?_eq_some hkv)⟩
  · exact hd
theorem algName {t : Msgs} (b : UInt8) (h : t.all (fun kv => cleanB kv.2) = true) : Clean (algName t b) := by
  unfold Gpgpdump.algName
  split
  · exact .lit (by decide +kernel)
  · exact .get _ h (.lit (by decide))

theorem rfc3339UTC (t : UInt32) : Clean (rfc3339UTC t) := by
  unfold Gpgpdump.rfc3339UTC
  dsimp only
  repeat' first | with_reducible apply Clean.zpad | with_reducible apply Clean.append | with_reducible apply Clean.cons (by decide) | exact Clean.dec _ | exact Clean.nil

theorem rfc3339 {X : Ext} (h : CleanX X) (t : UInt32) (u : Bool) : Clean (rfc3339 X t u) := by
  unfold Gpgpdump.rfc3339
  split
  · exact rfc3339UTC t
  · exact h.time t

theorem escapeText (s : Str) : Clean (escapeText s) := by
  induction s with
  | nil => exact .nil
  | cons c s ih =>
    rw [Gpgpdump.escapeText]
    refine .append ?_ ih
    split
    · exact .cons (by decide) (.append (fmtU c) (.cons (by decide) .nil))
    · rename_i h
      exact .cons (by simpa using h) .nil
theorem Unknown : Clean Unknown := .lit (by decide)
theorem oidStr (b) : Clean (oidStr b) := by
  unfold Gpgpdump.oidStr oidStrWith
  split
  · rename_i kv hkv
    have h : oidList.all (fun kv => cleanB kv.1) = true := by decide +kernel
    exact ⟨List.all_eq_true.mp h kv (List.mem_of_find?_eq_some hkv)⟩
  · exact Unknown
end Clean

/-- show that a string has no control characters -/
macro "clean" : tactic => `(tactic| repeat' (first
  | with_reducible assumption
  | with_reducible exact Clean.nil
  | with_reducible exact Clean.dec _
  | with_reducible exact Clean.decInt _
  | with_reducible exact Clean.nBytes _
  | with_reducible exact Clean.iBytes _
  | with_reducible exact Clean.hex2 _
  | with_reducible exact Clean.hashHex2 _
  | with_reducible exact Clean.hashHex16 _
  | with_reducible exact Clean.dumpBytes _ _
  | with_reducible exact Clean.dumpRest _ _
  | with_reducible exact Clean.dumpByte _ _
  | with_reducible exact Clean.escapeText _
  | with_reducible exact Clean.oidStr _
  | with_reducible exact Clean.Unknown
  | (with_reducible refine Clean.algName _ ?_); decide +kernel
  | with_reducible apply Clean.append
  | with_reducible apply Clean.ite
  | (with_reducible refine Clean.get _ ?_ ?_); focus decide +kernel
  | (with_reducible refine Clean.lit ?_); decide +kernel))

namespace Cmp
variable {k : Cmp}

/-- an item whose dump alone depends on a flag -/
theorem item_dump {n v t : Str} {d : Bool → Str} {b b' : Bool} (hb : k.same = true → b = b')
    (hn : k.clean = true → Clean n) (hv : k.clean = true → Clean v) (ht : k.clean = true → Clean t)
    (hd : k.clean = true → ∀ b, Clean (d b)) :
    k.item (newItem n v t (d b)) (newItem n v t (d b')) :=
  item_new (fun h => by rw [hb h]) fun h => ⟨hn h, .inl (hv h), ht h, hd h _, hd h _⟩

theorem item_const {n v t d : Str} (hn : k.clean = true → Clean n) (hv : k.clean = true → Clean v) (ht : k.clean = true → Clean t)
    (hd : k.clean = true → Clean d) : k.item (newItem n v t d) (newItem n v t d) :=
  item_new (fun _ => rfl) fun h => ⟨hn h, .inl (hv h), ht h, hd h, hd h⟩

variable {b b' : Bool} (hb : k.same = true → b = b')
include hb

theorem it_hash (x) : k.item (hashItem x b) (hashItem x b') := by
  apply item_dump (d := dumpByte x) hb <;> intros <;> (try unfold hashStr) <;> clean
theorem it_sig (x) : k.item (sigItem x b) (sigItem x b') := by
  apply item_dump (d := dumpByte x) hb <;> intros <;> (try unfold sigStr) <;> clean
theorem it_comp (x) : k.item (compItem x b) (compItem x b') := by
  apply item_dump (d := dumpByte x) hb <;> intros <;> (try unfold compStr) <;> clean
theorem it_aead (x) : k.item (aeadItem x b) (aeadItem x b') := by
  apply item_dump (d := dumpByte x) hb <;> intros <;> (try unfold aeadStr) <;> clean
theorem it_pub (x) : k.item (pubItem x b) (pubItem x b') := by
  apply item_dump (d := dumpByte x) hb <;> intros <;> (try unfold pubStr) <;> clean
theorem it_sym (x) : k.item (symItem x b) (symItem x b') := by
  apply item_dump (d := dumpByte x) hb <;> intros <;> (try unfold symStr) <;> clean
theorem it_s2k (x) : k.item (s2kItem x b) (s2kItem x b') := by
  apply item_dump (d := dumpByte x) hb <;> intros <;> (try unfold s2kStr) <;> clean
theorem it_sub (x body) : k.item (subItem x body b) (subItem x body b') := by
  apply item_dump (d := dumpRest (Reader.new body)) hb <;> intros <;> (try unfold subStr) <;> clean
theorem it_tag (x body) : k.item (tagItem x body b) (tagItem x body b') := by
  apply item_dump (d := dumpRest (Reader.new body)) hb <;> intros <;> (try unfold tagStr) <;> clean
theorem it_version (v : Version) : k.item (v.item b) (v.item b') := by
  apply item_dump (d := dumpByte v.ver) hb <;> intros <;> clean
theorem it_oid (x) : k.item (oidItem x b) (oidItem x b') := by
  apply item_dump (d := dumpBytes x) hb <;> intros <;> clean
theorem it_salt (x) : k.item (saltItem x b) (saltItem x b') := by
  apply item_dump (d := dumpBytes x) hb <;> intros <;> clean
theorem it_ecParm (x n) (hn : k.clean = true → Clean n) : k.item (ecParmItem x n b) (ecParmItem x n b') := by
  apply item_dump (d := dumpBytes x) hb hn <;> intros <;> clean
theorem it_mpi (x n bits) (hn : k.clean = true → Clean n) : k.item (mpiItem n bits x b) (mpiItem n bits x b') := by
  apply item_dump (d := dumpBytes x) hb hn <;> intros <;> clean
theorem it_raw (r n) (hn : k.clean = true → Clean n) : k.item (rawData r n b) (rawData r n b') := by
  apply item_dump (d := dumpRest r) hb hn <;> intros <;> clean
theorem it_text (x n) (hn : k.clean = true → Clean n) : k.item (textItem n x b) (textItem n x b') := by
  unfold textItem
  split
  · apply item_const hn <;> intros <;> clean
  · split
    · apply item_const hn <;> intros <;> clean
    · apply item_dump (d := dumpBytes x) hb hn <;> intros <;> clean
theorem it_date {X : Ext} (hX : k.clean = true → CleanX X) (x n) (hn : k.clean = true → Clean n) :
    k.item (dateTimeItem X x n b) (dateTimeItem X x n b') := by
  apply item_dump (d := dumpBytes x.tm) hb hn <;> intro h
  · exact .rfc3339 (hX h) _ _
  · exact .nil
  · intro; clean
theorem it_fileTime {X : Ext} (hX : k.clean = true → CleanX X) (x) : k.item (fileTimeItem X x b) (fileTimeItem X x b') := by
  unfold fileTimeItem
  split
  · apply item_dump (d := dumpBytes x.tm) hb <;> intros <;> clean
  · exact it_date hb hX _ _ fun _ => by clean
theorem it_expire {X : Ext} (hX : k.clean = true → CleanX X) (n day start) (hn : k.clean = true → Clean n) :
    k.item (expireItem X n day start b) (expireItem X n day start b') := by
  apply item_dump (d := dumpBytes day) hb hn <;> intro h
  · exact .append ((hX h).days _) (.lit (by decide))
  · cases start with
    | none => exact .nil
    | some s =>
      simp only
      split
      · exact .rfc3339 (hX h) _ _
      · exact .nil
  · intro; clean

omit hb

theorem it_keyID (x) : k.item (keyIDItem x) (keyIDItem x) := by
  apply item_const <;> intros <;> clean
theorem it_stretch (x) : k.item (stretchItem x) (stretchItem x) := by
  apply item_const <;> intros <;> clean
theorem it_num (n x) (hn : k.clean = true → Clean n) : k.item (numItem n x) (numItem n x) := by
  apply item_const hn <;> intros <;> clean
theorem it_hashLeft2 (x) : k.item (hashLeft2 x) (hashLeft2 x) := by
  apply item_const <;> intros <;> clean
theorem it_literal (x) : k.item (literalFormatItem x) (literalFormatItem x) := by
  apply item_new (fun _ => rfl)
  intro h
  refine ⟨by clean, .inr ⟨rfl, rfl⟩, by clean, by clean, by clean⟩
theorem clean_unknownFlag (n b) : Clean (unknownFlag n b) := by unfold unknownFlag; clean
theorem clean_ecPointName (a : Str) (b) (h : Clean a) : Clean (ecPointName a b) := by unfold ecPointName; clean
theorem it_flag2 (f v) (hv : k.clean = true → Clean v) : k.clean = true → ∀ i, flag2Item f v = some i → CleanItem i := by
  intro hc i
  unfold flag2Item
  split
  · intro h
    obtain rfl := Option.some.inj h
    exact .mk (by clean) (.inl (hv hc)) .nil .nil (by simp)
  · intro h; cases h

end Cmp
end Gpgpdump
