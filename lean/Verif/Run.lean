import Verif.Tags
import Verif.NumLemmas

/-!
# Running parse methods

Simplification lemmas that execute `P` programs on a state whose reader is split at the read position.
-/

namespace Gpgpdump
open P

/-- state with `pre` read and `post` unread -/
def St.at (ctx : Option Ctx) (pre post : Bytes) (cur : Item) : St := ⟨ctx, ⟨pre ++ post, pre.length⟩, cur⟩

theorem St.at_new (ctx : Option Ctx) (body : Bytes) (cur : Item) : (⟨ctx, Reader.new body, cur⟩ : St) = St.at ctx [] body cur := rfl

@[simp] theorem St.at_ctx (c p q i) : (St.at c p q i).ctx = c := rfl
@[simp] theorem St.at_cur (c p q i) : (St.at c p q i).cur = i := rfl
@[simp] theorem St.at_rd (c p q i) : (St.at c p q i).rd = ⟨p ++ q, p.length⟩ := rfl
theorem St.at_setCur (c p q i j) : ({ St.at c p q i with cur := j } : St) = St.at c p q j := rfl
theorem St.at_setCtx (c p q i d) : ({ St.at c p q i with ctx := d } : St) = St.at d p q i := rfl

theorem bind_run {α β} (m : P α) (f : α → P β) (st : St) : (m >>= f) st = match m st with
    | (.ok a, st') => f a st'
    | (.err e, st') => (.err e, st')
    | (.panic s, st') => (.panic s, st')
    | (.stuck, st') => (.stuck, st') := rfl
theorem pure_run {α} (a : α) (st : St) : (Pure.pure a : P α) st = (.ok a, st) := rfl
theorem map_run {α β} (f : α → β) (m : P α) (st : St) : (f <$> m) st = match m st with
    | (.ok a, st') => (.ok (f a), st')
    | (.err e, st') => (.err e, st')
    | (.panic s, st') => (.panic s, st')
    | (.stuck, st') => (.stuck, st') := rfl

theorem fail_run {α} (e : GoErr) (st : St) : (P.fail e : P α) st = (.err e, st) := rfl
theorem flag_run (f : Ctx → Bool) (st : St) : flag f st = (.ok (ctxFlag f st.ctx), st) := rfl
theorem reader_run (st : St) : reader st = (.ok st.rd, st) := rfl
theorem getCur_run (st : St) : getCur st = (.ok st.cur, st) := rfl
theorem add_run (i : Item) (c p q j) : add i (St.at c p q j) = (.ok (), St.at c p q (j.add i)) := rfl
theorem setValue_run (v c p q j) : setValue v (St.at c p q j) = (.ok (), St.at c p q (j.setValue v)) := rfl
theorem setNote_run (v c p q j) : setNote v (St.at c p q j) = (.ok (), St.at c p q (j.setNote v)) := rfl
theorem setDump_run (v c p q j) : setDump v (St.at c p q j) = (.ok (), St.at c p q (j.setDump v)) := rfl
theorem getMode_run (x p q j) : getMode (St.at (some x) p q j) = (.ok x.mode, St.at (some x) p q j) := rfl
theorem getSigTime_run (x p q j) : getSigTime (St.at (some x) p q j) = (.ok x.sigTime, St.at (some x) p q j) := rfl
theorem getKeyTime_run (x p q j) : getKeyTime (St.at (some x) p q j) = (.ok x.keyTime, St.at (some x) p q j) := rfl
theorem setMode_run (m x p q j) : setMode m (St.at (some x) p q j) = (.ok (), St.at (some { x with mode := m }) p q j) := rfl
theorem setSigTime_run (m x p q j) :
    setSigTime m (St.at (some x) p q j) = (.ok (), St.at (some { x with sigTime := m }) p q j) := rfl
theorem setKeyTime_run (m x p q j) :
    setKeyTime m (St.at (some x) p q j) = (.ok (), St.at (some { x with keyTime := m }) p q j) := rfl
theorem addOpt_none (st : St) : addOpt none st = (.ok (), st) := rfl
theorem addOpt_some (i c p q j) : addOpt (some i) (St.at c p q j) = (.ok (), St.at c p q (j.add i)) := rfl

theorem getBody_run (c p q j) : getBody (St.at c p q j) = (.ok (p ++ q), St.at c p q j) := rfl

theorem rest_eq (p q : Bytes) : (⟨p ++ q, p.length⟩ : Reader).rest = q.length := by
  simp [Reader.rest, Reader.size]; omega
theorem rest_run (c p q j) : rest (St.at c p q j) = (.ok (q.length : Int), St.at c p q j) := by
  have h : rest (St.at c p q j) = (.ok (⟨p ++ q, p.length⟩ : Reader).rest, St.at c p q j) := rfl
  rw [h, rest_eq]

theorem rd_readBytes_ok (p q : Bytes) (n : Nat) (h : n ≤ q.length) :
    (⟨p ++ q, p.length⟩ : Reader).readBytes n = (.ok (q.take n), ⟨p ++ q.take n ++ q.drop n, (p ++ q.take n).length⟩) := by
  have h2 : (⟨p ++ q, p.length⟩ : Reader) = ⟨p ++ q.take n ++ q.drop n, p.length⟩ := by simp
  by_cases h0 : n = 0
  · subst h0; simp [Reader.readBytes]
  · unfold Reader.readBytes
    have hs : (⟨p ++ q, p.length⟩ : Reader).size = p.length + q.length := by simp [Reader.size]
    rw [if_neg (by omega), if_neg (by rw [hs]; simp only; omega), if_neg (by rw [hs]; simp only; omega), if_neg (by omega)]
    simp; omega

theorem rd_readBytes_err (p q : Bytes) (n : Nat) (h : q.length < n) :
    (⟨p ++ q, p.length⟩ : Reader).readBytes n =
      (.err (wrapErr (if q = [] then .eof else .unexpectedEOF)), ⟨p ++ q, p.length⟩) := by
  unfold Reader.readBytes
  have hs : (⟨p ++ q, p.length⟩ : Reader).size = p.length + q.length := by simp [Reader.size]
  rw [if_neg (by omega)]
  by_cases hq : q = []
  · subst hq
    rw [if_pos (by rw [hs]; simp)]; rfl
  · have : 0 < q.length := List.length_pos_iff.mpr hq
    rw [if_neg (by rw [hs]; simp only; omega), if_pos (by rw [hs]; simp only; omega), if_neg hq]

theorem readBytes_def (c p q j) (n : Int) : readBytes n (St.at c p q j) =
    (((⟨p ++ q, p.length⟩ : Reader).readBytes n).1, ⟨c, ((⟨p ++ q, p.length⟩ : Reader).readBytes n).2, j⟩) := rfl

theorem readBytes_ok (c p q j) (n : Nat) (h : n ≤ q.length) :
    readBytes n (St.at c p q j) = (.ok (q.take n), St.at c (p ++ q.take n) (q.drop n) j) := by
  rw [readBytes_def, rd_readBytes_ok _ _ _ h]; rfl

theorem readBytes_err (c p q j) (n : Nat) (h : q.length < n) :
    readBytes n (St.at c p q j) = (.err (wrapErr (if q = [] then .eof else .unexpectedEOF)), St.at c p q j) := by
  rw [readBytes_def, rd_readBytes_err _ _ _ h]; rfl

theorem readByte_def (c p q j) : readByte (St.at c p q j) =
    ((⟨p ++ q, p.length⟩ : Reader).readByte.1, ⟨c, (⟨p ++ q, p.length⟩ : Reader).readByte.2, j⟩) := rfl

theorem readByte_nil (c p j) : readByte (St.at c p [] j) = (.err (wrapErr .eof), St.at c p [] j) := by
  have h := rd_readBytes_err p [] 1 (by simp)
  rw [readByte_def]; unfold Reader.readByte
  rw [show ((1 : Nat) : Int) = 1 from rfl] at h
  rw [h]; rfl
theorem readByte_cons (c p b q j) : readByte (St.at c p (b :: q) j) = (.ok b, St.at c (p ++ [b]) q j) := by
  have h := rd_readBytes_ok p (b :: q) 1 (by simp)
  rw [readByte_def]; unfold Reader.readByte
  rw [show ((1 : Nat) : Int) = 1 from rfl] at h
  rw [h]; rfl

/-- reading a known prefix -/
theorem readBytes_append (c p a q j) : readBytes (a.length : Nat) (St.at c p (a ++ q) j) = (.ok a, St.at c (p ++ a) q j) := by
  rw [readBytes_ok _ _ _ _ _ (by simp)]; simp

theorem read2EOF_ok (c p q j) (h : q ≠ []) : ∃ rd, read2EOF (St.at c p q j) = (.ok q, ⟨c, rd, j⟩) ∧ rd.rest ≤ 0 ∧ rd.buf = p ++ q := by
  have hl : 0 < q.length := List.length_pos_iff.mpr h
  have hr : (⟨p ++ q, p.length⟩ : Reader).read2EOF = (.ok q, ⟨p ++ q, p.length + (p ++ q).length⟩) := by
    unfold Reader.read2EOF
    rw [if_neg (by simp [Reader.size]; omega)]
    simp [Reader.size]
  have hd : read2EOF (St.at c p q j) =
    ((⟨p ++ q, p.length⟩ : Reader).read2EOF.1, ⟨c, (⟨p ++ q, p.length⟩ : Reader).read2EOF.2, j⟩) := rfl
  refine ⟨⟨p ++ q, p.length + (p ++ q).length⟩, by rw [hd, hr], ?_, rfl⟩
  simp [Reader.rest, Reader.size]; omega

theorem scope_run {α} (body : Bytes) (hdr : Item) (m : P α) (st : St) :
    scope body hdr m st = ((m (St.at st.ctx [] body hdr)).1,
      { (m (St.at st.ctx [] body hdr)).2 with rd := st.rd, cur := st.cur }) := rfl

theorem nested_run {α} (child : Item) (m : P α) (c p q j) :
    nested child m (St.at c p q j) = ((m (St.at c p q child)).1,
      { (m (St.at c p q child)).2 with cur := j.add (m (St.at c p q child)).2.cur }) := rfl

theorem build_run (hdr : Item) (m : P Unit) (c p q j) :
    build hdr m (St.at c p q j) = ((m (St.at c p q hdr)).1.map (fun _ => (m (St.at c p q hdr)).2.cur),
      { (m (St.at c p q hdr)).2 with cur := j }) := rfl

theorem rawData_at (p q : Bytes) (name : Str) (f : Bool) :
    rawData ⟨p ++ q, p.length⟩ name f = newItem name [] (nBytes q.length) (if f then Reader.dumpHex q else []) := by
  unfold rawData dumpRest
  rw [rest_eq]
  have : iBytes (q.length : Int) = nBytes q.length := by
    unfold iBytes nBytes decInt
    rw [if_neg (by omega)]; rfl
  rw [this]
  congr 1
  split
  · unfold Reader.dumpString Reader.size
    split
    · rename_i h
      have : q = [] := List.eq_nil_of_length_eq_zero (by simp only [List.length_append] at h; omega)
      subst this; rfl
    · simp
  · rfl

theorem addRaw_run (name : Str) (f : Bool) (c p q j) :
    addRaw name f (St.at c p q j) = (.ok (), St.at c p q (j.add (newItem name [] (nBytes q.length) (if f then Reader.dumpHex q else [])))) := by
  have h : addRaw name f (St.at c p q j) = (.ok (), St.at c p q (j.add (rawData ⟨p ++ q, p.length⟩ name f))) := rfl
  rw [h, rawData_at]

theorem dumpBytes_eq (b : Bytes) (f : Bool) : dumpBytes b f = if f then Reader.dumpHex b else [] := by
  unfold dumpBytes
  split
  · unfold Reader.dumpString Reader.size Reader.new
    split
    · rename_i h
      have : b = [] := List.eq_nil_of_length_eq_zero (by simp only at h; omega)
      subst this; rfl
    · simp
  · rfl

theorem dumpRest_new (b : Bytes) (f : Bool) : dumpRest (Reader.new b) f = if f then Reader.dumpHex b else [] := by
  have := dumpBytes_eq b f
  exact this

theorem unknownData_run (c p q j) : unknownData (St.at c p q j) = (.ok (), St.at c p q
    (if q = [] then j else j.add (newItem (S "Unknown data") [] (nBytes q.length) (if ctxFlag Ctx.debug c then Reader.dumpHex q else [])))) := by
  simp only [unknownData, bind_run, rest_run]
  by_cases hq : q = []
  · subst hq; simp [pure_run]
  · have : 0 < q.length := List.length_pos_iff.mpr hq
    rw [if_pos (by omega)]
    simp only [bind_run, flag_run, addRaw_run, St.at_ctx, if_neg hq]

/-! ## Dispatch -/

section
variable (X : Ext) (recur : TagParser)
theorem tagBody_1 : tagBody X recur 1 = tag01 := rfl
theorem tagBody_2 : tagBody X recur 2 = tag02 X recur := rfl
theorem tagBody_3 : tagBody X recur 3 = tag03 := rfl
theorem tagBody_4 : tagBody X recur 4 = tag04 := rfl
theorem tagBody_5 : tagBody X recur 5 = tag05 X := rfl
theorem tagBody_6 : tagBody X recur 6 = tag06 X := rfl
theorem tagBody_7 : tagBody X recur 7 = tag05 X := rfl
theorem tagBody_9 : tagBody X recur 9 = tag09 := rfl
theorem tagBody_10 : tagBody X recur 10 = tag10 := rfl
theorem tagBody_11 : tagBody X recur 11 = tag11 X := rfl
theorem tagBody_12 : tagBody X recur 12 = tag12 := rfl
theorem tagBody_13 : tagBody X recur 13 = tag13 := rfl
theorem tagBody_14 : tagBody X recur 14 = tag06 X := rfl
theorem tagBody_17 : tagBody X recur 17 = tag17 := rfl
theorem tagBody_18 : tagBody X recur 18 = tag18 := rfl
theorem tagBody_19 : tagBody X recur 19 = tag19 := rfl
theorem tagBody_20 : tagBody X recur 20 = tag20 := rfl
theorem tagBody_8 : tagBody X recur 8 = (do let _ ← tag08 X) := rfl
theorem sub02Body_2 : sub02Body X recur 2 = sub02 X := rfl
theorem sub02Body_3 : sub02Body X recur 3 = sub03 X := rfl
theorem sub02Body_4 : sub02Body X recur 4 = sub04 := rfl
theorem sub02Body_5 : sub02Body X recur 5 = sub05 := rfl
theorem sub02Body_6 : sub02Body X recur 6 = subText := rfl
theorem sub02Body_7 : sub02Body X recur 7 = sub07 := rfl
theorem sub02Body_9 : sub02Body X recur 9 = sub09 X := rfl
theorem sub02Body_10 : sub02Body X recur 10 = getCur := rfl
theorem sub02Body_11 : sub02Body X recur 11 = subList symItem := rfl
theorem sub02Body_12 : sub02Body X recur 12 = sub12 := rfl
theorem sub02Body_16 : sub02Body X recur 16 = sub16 := rfl
theorem sub02Body_20 : sub02Body X recur 20 = sub20 := rfl
theorem sub02Body_21 : sub02Body X recur 21 = subList hashItem := rfl
theorem sub02Body_22 : sub02Body X recur 22 = subList compItem := rfl
theorem sub02Body_23 : sub02Body X recur 23 = sub23 := rfl
theorem sub02Body_24 : sub02Body X recur 24 = subText := rfl
theorem sub02Body_25 : sub02Body X recur 25 = sub25 := rfl
theorem sub02Body_26 : sub02Body X recur 26 = subText := rfl
theorem sub02Body_27 : sub02Body X recur 27 = sub27 := rfl
theorem sub02Body_28 : sub02Body X recur 28 = subText := rfl
theorem sub02Body_29 : sub02Body X recur 29 = sub29 := rfl
theorem sub02Body_30 : sub02Body X recur 30 = sub30 := rfl
theorem sub02Body_31 : sub02Body X recur 31 = sub31 := rfl
theorem sub02Body_32 : sub02Body X recur 32 = sub32 recur := rfl
theorem sub02Body_33 : sub02Body X recur 33 = subFingerprint := rfl
theorem sub02Body_34 : sub02Body X recur 34 = subList aeadItem := rfl
theorem sub02Body_35 : sub02Body X recur 35 = subFingerprint := rfl
theorem sub02Body_37 : sub02Body X recur 37 = sub37 := rfl
theorem sub02Body_38 : sub02Body X recur 38 = sub38 X recur := rfl
theorem sub17Body_1 : sub17Body 1 = sub01 := rfl
end

end Gpgpdump
