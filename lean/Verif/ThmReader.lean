import Verif.NumLemmas

/-!
# C09, C10, C11, C55: the octet reader

Specification: a buffer cut at a position. `Cursor pre post r` says that the reader `r` has `pre` behind it and `post` ahead.
-/

namespace Gpgpdump
open Reader

/-- `r` is positioned between `pre` and `post`. -/
def Cursor (pre post : Bytes) (r : Reader) : Prop := r.buf = pre ++ post ∧ r.off = pre.length

/-- An operation that moves the read position. -/
inductive ROp
  | readByte
  | readBytes (n : Nat)
  | read (n : Nat)
  | seek (offset whence : Int)
  | readAt (n : Nat) (off : Int)
  | writeTo
  | read2EOF

/-- Effect of an operation on the reader. -/
def ROp.run : ROp → Reader → Reader
  | .readByte, r => r.readByte.2
  | .readBytes n, r => (r.readBytes n).2
  | .read n, r => (r.read n).2
  | .seek o w, r => (r.seek o w).2
  | .readAt n o, r => (r.readAt n o).2
  | .writeTo, r => r.writeTo.2
  | .read2EOF, r => r.read2EOF.2

/-- Effect of a history of operations. -/
def ROp.runAll (ops : List ROp) (r : Reader) : Reader := ops.foldl (fun r op => op.run r) r

/-! ## Helper lemmas -/

theorem readBytes_cases (r : Reader) (n : Nat) (h : r.off ≤ r.size) :
    (n ≤ r.size - r.off ∧ r.readBytes n = (.ok (r.remaining.take n), { r with off := r.off + n })) ∨
    (r.size - r.off < n ∧ ∃ e, r.readBytes n = (.err e, r)) := by
  unfold readBytes remaining
  by_cases h0 : n = 0
  · subst h0
    left
    refine ⟨by omega, ?_⟩
    simp
  · rw [if_neg (by omega)]
    by_cases h1 : r.off ≥ r.size
    · rw [if_pos h1]; exact .inr ⟨by omega, _, rfl⟩
    · rw [if_neg h1]
      by_cases h2 : (r.off : Int) + (n : Int) > (r.size : Int)
      · rw [if_pos h2]; exact .inr ⟨by omega, _, rfl⟩
      · rw [if_neg h2, if_neg (by omega)]
        exact .inl ⟨by omega, rfl⟩

theorem readBytes_off_le (r : Reader) (n : Nat) (h : r.off ≤ r.size) :
    (r.readBytes n).2.buf = r.buf ∧ (r.readBytes n).2.off ≤ r.size := by
  rcases readBytes_cases r n h with ⟨hn, e⟩ | ⟨_, _, e⟩
  · rw [e]; exact ⟨rfl, by simp only; omega⟩
  · rw [e]; exact ⟨rfl, h⟩

theorem readByte_snd (r : Reader) : r.readByte.2 = (r.readBytes 1).2 := by
  unfold readByte; split <;> simp_all

theorem read_snd (r : Reader) (n : Nat) : (r.read n).2 = (r.readBytes n).2 := by
  unfold Reader.read; split <;> simp_all

theorem seek_off_le (r : Reader) (o w : Int) (h : r.off ≤ r.size) :
    (r.seek o w).2.buf = r.buf ∧ (r.seek o w).2.off ≤ r.size := by
  have go : ∀ origin : Int,
      (if origin + o < 0 ∨ origin + o > (r.size : Int) then ((.err (wrapErr .invalidOffset), r) : Res Int × Reader)
        else (.ok (origin + o), { r with off := (origin + o).toNat })).2.buf = r.buf ∧
      (if origin + o < 0 ∨ origin + o > (r.size : Int) then ((.err (wrapErr .invalidOffset), r) : Res Int × Reader)
        else (.ok (origin + o), { r with off := (origin + o).toNat })).2.off ≤ r.size := by
    intro origin
    split
    · exact ⟨rfl, h⟩
    · refine ⟨rfl, ?_⟩
      simp only
      omega
  unfold seek
  simp only
  split
  · exact go 0
  · split
    · exact go r.off
    · split
      · exact go r.size
      · exact ⟨rfl, h⟩

theorem ROp.run_inv (op : ROp) (r : Reader) (h : r.off ≤ r.size) (hop : op ≠ .read2EOF) :
    (op.run r).buf = r.buf ∧ (op.run r).off ≤ r.size := by
  cases op with
  | readByte => show r.readByte.2.buf = _ ∧ r.readByte.2.off ≤ _; rw [readByte_snd]; exact readBytes_off_le r 1 h
  | readBytes n => exact readBytes_off_le r n h
  | read n => show (r.read n).2.buf = _ ∧ (r.read n).2.off ≤ _; rw [read_snd]; exact readBytes_off_le r n h
  | seek o w => exact seek_off_le r o w h
  | readAt n o =>
    have hs := seek_off_le r o 0 h
    show (r.readAt n o).2.buf = _ ∧ (r.readAt n o).2.off ≤ _
    unfold Reader.readAt
    split
    · rename_i r' e
      rw [e] at hs
      simp only at hs ⊢
      rw [read_snd]
      have hsz : r'.size = r.size := by unfold size; rw [hs.1]
      have := readBytes_off_le r' n (by rw [hsz]; exact hs.2)
      rw [hsz] at this
      exact ⟨this.1.trans hs.1, this.2⟩
    · rename_i r' e; rw [e] at hs; exact hs
    · rename_i r' e; rw [e] at hs; exact hs
    · rename_i r' e; rw [e] at hs; exact hs
  | writeTo => exact ⟨rfl, Nat.le_refl _⟩
  | read2EOF => exact absurd rfl hop

/-! ## C09 Sequential reads -/

/-- C09: a read of `n` octets that are there returns exactly the next `n` octets and moves behind them. -/
theorem C09_read_exact {pre a post : Bytes} {r : Reader} (h : Cursor pre (a ++ post) r) :
    ∃ r', r.readBytes a.length = (.ok a, r') ∧ Cursor (pre ++ a) post r' := by
  obtain ⟨hb, ho⟩ := h
  have hle : r.off ≤ r.size := by unfold size; rw [hb, ho]; simp
  have hsz : r.size - r.off = a.length + post.length := by unfold size; rw [hb, ho]; simp
  rcases readBytes_cases r a.length hle with ⟨_, e⟩ | ⟨hlt, _⟩
  · refine ⟨{ r with off := r.off + a.length }, e.trans ?_, ?_, ?_⟩
    · unfold remaining
      rw [hb, ho, List.drop_left, List.take_left]
    · rw [hb]; simp
    · simp [ho]
  · omega

/-- C09: a read of more octets than are left fails — EOF if nothing is left, unexpected EOF otherwise — and does not move. -/
theorem C09_read_short {pre post : Bytes} {r : Reader} (h : Cursor pre post r) {n : Nat} (hn : post.length < n) :
    r.readBytes n = (.err (wrapErr (if post = [] then .eof else .unexpectedEOF)), r) := by
  obtain ⟨hb, ho⟩ := h
  have hsz : r.size = r.off + post.length := by unfold size; rw [hb, ho]; simp
  unfold readBytes
  rw [if_neg (by omega)]
  by_cases hp : post = []
  · rw [if_pos (by simp [hsz, hp]), if_pos hp]
  · have : 0 < post.length := List.length_pos_iff.mpr hp
    rw [if_neg (by omega), if_pos (by omega), if_neg hp]

/-- C09: splitting a read into two consecutive reads yields the same octets and the same position. -/
theorem C09_read_split {r r1 r2 : Reader} {m n : Nat} {a b : Bytes} (h : r.off ≤ r.size)
    (h1 : r.readBytes m = (.ok a, r1)) (h2 : r1.readBytes n = (.ok b, r2)) :
    r.readBytes (m + n : Nat) = (.ok (a ++ b), r2) := by
  rcases readBytes_cases r m h with ⟨hm, e1⟩ | ⟨_, _, e1⟩
  · rw [e1] at h1
    simp only [Prod.mk.injEq, Res.ok.injEq] at h1
    obtain ⟨rfl, rfl⟩ := h1
    have hs1 : ({ r with off := r.off + m } : Reader).size = r.size := rfl
    rcases readBytes_cases { r with off := r.off + m } n (by rw [hs1]; simp only; omega) with ⟨hn, e2⟩ | ⟨_, _, e2⟩
    · rw [e2] at h2
      simp only [Prod.mk.injEq, Res.ok.injEq] at h2
      obtain ⟨rfl, rfl⟩ := h2
      rw [hs1] at hn
      simp only at hn
      rcases readBytes_cases r (m + n) h with ⟨_, e3⟩ | ⟨hlt, _⟩
      · rw [e3]
        simp only [remaining, Prod.mk.injEq, Res.ok.injEq, Reader.mk.injEq, true_and]
        refine ⟨?_, by omega⟩
        rw [List.take_add, ← List.drop_drop]
      · omega
    · rw [e2] at h2; simp at h2
  · rw [e1] at h1; simp at h1

/-- C09: `Read2EOF` returns exactly the rest (and fails with EOF, not moving, when nothing is left). -/
theorem C09_read2EOF {pre post : Bytes} {r : Reader} (h : Cursor pre post r) :
    (post ≠ [] → r.read2EOF.1 = .ok post ∧ r.read2EOF.2.remaining = []) ∧
    (post = [] → r.read2EOF = (.err (wrapErr .eof), r)) := by
  obtain ⟨hb, ho⟩ := h
  have hsz : r.size = r.off + post.length := by unfold size; rw [hb, ho]; simp
  unfold read2EOF remaining
  constructor
  · intro hp
    have : 0 < post.length := List.length_pos_iff.mpr hp
    rw [if_neg (by omega)]
    refine ⟨?_, ?_⟩
    · rw [hb, ho]; simp
    · simp only; rw [List.drop_eq_nil_iff]; show r.size ≤ _; omega
  · intro hp
    rw [if_pos (by simp [hsz, hp])]

/-- C09: whatever reads and seeks were done before, the reader is at some position of the original buffer, so the above
applies. -/
theorem C09_history (data : Bytes) (ops : List ROp) (hops : ∀ op ∈ ops, op ≠ .read2EOF) :
    ∃ pre post, data = pre ++ post ∧ Cursor pre post (ROp.runAll ops (Reader.new data)) := by
  have inv : ∀ (ops : List ROp) (r : Reader), (∀ op ∈ ops, op ≠ .read2EOF) → r.off ≤ r.size →
      (ROp.runAll ops r).buf = r.buf ∧ (ROp.runAll ops r).off ≤ r.size := by
    intro ops
    induction ops with
    | nil => intro r _ h; exact ⟨rfl, h⟩
    | cons op ops ih =>
      intro r hops h
      have h1 := ROp.run_inv op r h (hops op (by simp))
      have hsz : (op.run r).size = r.size := by unfold size; rw [h1.1]
      have h2 := ih (op.run r) (fun o ho => hops o (by simp [ho])) (by rw [hsz]; exact h1.2)
      rw [hsz] at h2
      exact ⟨h2.1.trans h1.1, h2.2⟩
  have h := inv ops (Reader.new data) hops (Nat.zero_le _)
  generalize ROp.runAll ops (Reader.new data) = r at h
  have hb : r.buf = data := h.1
  have ho : r.off ≤ data.length := h.2
  refine ⟨data.take r.off, data.drop r.off, by simp, ?_, ?_⟩
  · rw [hb]; simp
  · rw [List.length_take]; omega

/-- the hypotheses of `C09_read_exact`, `C09_read_short` are met in the middle of a buffer -/
example : Cursor [1, 2] [3, 4, 5] ⟨[1, 2, 3, 4, 5], 2⟩ := ⟨rfl, rfl⟩
example : (⟨[1, 2, 3, 4, 5], 2⟩ : Reader).readBytes 2 = (.ok [3, 4], ⟨[1, 2, 3, 4, 5], 4⟩) := by decide
example : (⟨[1, 2, 3, 4, 5], 2⟩ : Reader).readBytes 4 = (.err (wrapErr .unexpectedEOF), ⟨[1, 2, 3, 4, 5], 2⟩) := by decide

/-! ## C10 Seek -/

/-- the origin a `whence` value denotes -/
def seekOrigin (r : Reader) (whence : Int) : Option Int :=
  if whence = 0 then some 0 else if whence = 1 then some r.off else if whence = 2 then some r.buf.length else none

/-- C10: `Seek` succeeds exactly when the target is within the buffer and then moves exactly there; otherwise it returns an
error and the position is unchanged. -/
theorem C10_seek (r : Reader) (offset whence : Int) :
    (∀ o, seekOrigin r whence = some o → 0 ≤ o + offset → o + offset ≤ r.buf.length →
      ∃ r', r.seek offset whence = (.ok (o + offset), r') ∧ (r'.off : Int) = o + offset ∧ r'.buf = r.buf) ∧
    ((∀ o, seekOrigin r whence = some o → ¬ (0 ≤ o + offset ∧ o + offset ≤ r.buf.length)) →
      ∃ e, r.seek offset whence = (.err e, r)) := by
  have go : ∀ origin : Int,
      (0 ≤ origin + offset → origin + offset ≤ r.buf.length →
        ∃ r', (if origin + offset < 0 ∨ origin + offset > (r.size : Int) then
            ((.err (wrapErr .invalidOffset), r) : Res Int × Reader)
          else (.ok (origin + offset), { r with off := (origin + offset).toNat })) = (.ok (origin + offset), r') ∧
          (r'.off : Int) = origin + offset ∧ r'.buf = r.buf) ∧
      (¬ (0 ≤ origin + offset ∧ origin + offset ≤ r.buf.length) →
        ∃ e, (if origin + offset < 0 ∨ origin + offset > (r.size : Int) then
            ((.err (wrapErr .invalidOffset), r) : Res Int × Reader)
          else (.ok (origin + offset), { r with off := (origin + offset).toNat })) = (.err e, r)) := by
    intro origin
    unfold size
    constructor
    · intro h1 h2
      rw [if_neg (by omega)]
      exact ⟨_, rfl, by simp only; omega, rfl⟩
    · intro h
      rw [if_pos (by omega)]
      exact ⟨_, rfl⟩
  unfold seek seekOrigin
  simp only
  split
  · constructor
    · intro o ho; cases ho; exact (go 0).1
    · intro h; exact (go 0).2 (h _ rfl)
  · split
    · constructor
      · intro o ho; cases ho; exact (go r.off).1
      · intro h; exact (go r.off).2 (h _ rfl)
    · split
      · constructor
        · intro o ho; cases ho; exact (go r.size).1
        · intro h; exact (go r.size).2 (h _ rfl)
      · exact ⟨fun o ho => (by cases ho), fun _ => ⟨_, rfl⟩⟩

/-- C10: the position stays within the buffer, whatever is read and sought. -/
theorem C10_in_buffer (data : Bytes) (ops : List ROp) (hops : ∀ op ∈ ops, op ≠ .read2EOF) :
    (ROp.runAll ops (Reader.new data)).buf = data ∧ (ROp.runAll ops (Reader.new data)).off ≤ data.length := by
  obtain ⟨pre, post, h, hb, ho⟩ := C09_history data ops hops
  exact ⟨hb.trans h.symm, by rw [ho, h]; simp⟩

/-- seeks that succeed and seeks that fail exist -/
example : (⟨[1, 2, 3], 1⟩ : Reader).seek (-1) 2 = (.ok 2, ⟨[1, 2, 3], 2⟩) := by decide
example : (⟨[1, 2, 3], 1⟩ : Reader).seek 3 1 = (.err (wrapErr .invalidOffset), ⟨[1, 2, 3], 1⟩) := by decide
example : (⟨[1, 2, 3], 1⟩ : Reader).seek 0 3 = (.err (wrapErr .invalidWhence), ⟨[1, 2, 3], 1⟩) := by decide

/-! ## C11 Hex dumps

Specification: reading back a dump. Two hexadecimal digits per octet, one space between octets. -/

/-- octets denoted by a hex dump -/
def readDump : Str → Option Bytes
  | [] => some []
  | [a, b] => do return [UInt8.ofNat ((← hexVal a) * 16 + (← hexVal b))]
  | a :: b :: c :: rest => do
    if c = ' ' ∧ rest ≠ [] then
      return UInt8.ofNat ((← hexVal a) * 16 + (← hexVal b)) :: (← readDump rest)
    else none
  | _ => none

theorem dumpHex_ne_nil (b : UInt8) (bs : Bytes) : dumpHex (b :: bs) ≠ [] := by
  cases bs <;> simp [dumpHex, hex2]

/-- C11: the dump determines the octets. -/
theorem C11_dump_readable (bs : Bytes) : readDump (dumpHex bs) = some bs := by
  induction bs with
  | nil => rfl
  | cons b bs ih =>
    have hb := b.toNat_lt
    have h1 := hexVal_digit (b.toNat / 16) (by omega)
    have h2 := hexVal_digit (b.toNat % 16) (by omega)
    have hv : UInt8.ofNat (b.toNat / 16 * 16 + b.toNat % 16) = b := by
      have : b.toNat / 16 * 16 + b.toNat % 16 = b.toNat := by omega
      rw [this]; simp
    simp only [UInt8.ofNat_add, UInt8.ofNat_mul, show UInt8.ofNat 16 = 16 from rfl] at hv
    cases bs with
    | nil => simp [dumpHex, hex2, readDump, h1, h2, hv]
    | cons c cs =>
      have hne := dumpHex_ne_nil c cs
      simp only [dumpHex, hex2, List.cons_append, List.nil_append, readDump]
      simp only [hne, h1, h2, ih, ne_eq, not_false_eq_true, and_self, if_true]
      simp [hv]

/-- C11: different octets give different dumps. -/
theorem C11_dump_injective {a b : Bytes} (h : dumpHex a = dumpHex b) : a = b := by
  have := C11_dump_readable a
  rw [h, C11_dump_readable b] at this
  exact (Option.some.inj this).symm

/-- C11: the layout: two lower-case digits for each octet, a space between octets. -/
theorem C11_dump_layout (bs : Bytes) :
    (∀ i b, bs[i]? = some b → (dumpHex bs)[3 * i]? = some (Nat.digitChar (b.toNat / 16)) ∧
      (dumpHex bs)[3 * i + 1]? = some (Nat.digitChar (b.toNat % 16)) ∧
      (i + 1 < bs.length → (dumpHex bs)[3 * i + 2]? = some ' ')) ∧
    (dumpHex bs).length = 3 * bs.length - 1 := by
  induction bs with
  | nil => simp [dumpHex]
  | cons x bs ih =>
    have hx := x.toNat_lt
    have e1 := digit_eq (x.toNat / 16) (by omega)
    have e2 := digit_eq (x.toNat % 16) (by omega)
    cases bs with
    | nil =>
      refine ⟨?_, by simp [dumpHex, hex2]⟩
      intro i b h
      cases i with
      | zero => simp at h; subst h; simp [dumpHex, hex2, e1, e2]
      | succ i => simp at h
    | cons y ys =>
      refine ⟨?_, ?_⟩
      · intro i b h
        cases i with
        | zero => simp at h; subst h; simp [dumpHex, hex2, e1, e2]
        | succ i =>
          simp only [List.getElem?_cons_succ] at h
          have := ih.1 i b h
          have e : ∀ k, (dumpHex (x :: y :: ys))[k + 3]? = (dumpHex (y :: ys))[k]? := by
            intro k; simp [dumpHex, hex2]
          rw [show 3 * (i + 1) = 3 * i + 3 by omega, show 3 * i + 3 + 1 = 3 * i + 1 + 3 by omega,
            show 3 * i + 3 + 2 = 3 * i + 2 + 3 by omega, e, e, e]
          refine ⟨this.1, this.2.1, fun hl => this.2.2 (by simpa using hl)⟩
      · simp only [dumpHex, List.length_append, List.length_cons, hex2, List.length_nil] at ih ⊢
        rw [ih.2]; omega

/-- C11: `DumpString(off)` shows exactly the octets from `off` on; `Dump` of a reader exactly the octets still to be read
(the reader is an argument only: nothing moves). -/
theorem C11_dump_rest {pre post : Bytes} {r : Reader} (h : Cursor pre post r) :
    readDump (dumpRest r true) = some post ∧ readDump (dumpBytes post true) = some post ∧ dumpRest r false = [] := by
  obtain ⟨hb, ho⟩ := h
  have e1 : dumpRest r true = dumpHex post := by
    unfold dumpRest dumpString size
    rw [if_pos rfl]
    split
    · rename_i hge
      rw [ho, hb] at hge
      have : post = [] := by
        rw [List.length_append] at hge
        exact List.eq_nil_of_length_eq_zero (by omega)
      subst this; rfl
    · rw [hb, ho]; simp
  have e2 : dumpBytes post true = dumpHex post := by
    unfold dumpBytes dumpString size Reader.new
    rw [if_pos rfl]
    split
    · rename_i hge
      have : post = [] := List.eq_nil_of_length_eq_zero (by simp only at hge; omega)
      subst this; rfl
    · rfl
  rw [e1, e2]
  exact ⟨C11_dump_readable _, C11_dump_readable _, rfl⟩

example : dumpHex [0x0a, 0xff, 0x00] = S "0a ff 00" := by decide

/-! ## C55 Huge sizes

`ReadBytes` computes `offset + size` in int64. The model used by the parsers (`readBytes`) does not wrap; it agrees with the
wrapping one as long as the sum fits, and every size the parsers ask for is below 2^32. -/

/-- C55 (partial: sizes for which `offset + size` overflows are excluded): no size makes `ReadBytes` panic, and it behaves as
described in C09. Missing: sizes above `2^63 - offset`, for which it is false (`C55_panics`). -/
theorem C55_no_panic_partial {pre post : Bytes} {r : Reader} (h : Cursor pre post r) (n : Nat)
    (hfit : pre.length + n < 2 ^ 63) :
    r.readBytes64 n = r.readBytes n ∧ (r.readBytes64 n).1.isPanic = false := by
  obtain ⟨hb, ho⟩ := h
  have hw : wrap64 ((r.off : Int) + (n : Int)) = (r.off : Int) + (n : Int) := by
    unfold wrap64; rw [ho]; omega
  have he : r.readBytes64 n = r.readBytes n := by
    unfold readBytes64 readBytes
    rw [hw]
    have hneg : ((r.off : Int) + (n : Int) < (r.off : Int)) = ((n : Int) < 0) := by
      apply propext; omega
    simp only [hneg]
  refine ⟨he, ?_⟩
  rw [he]
  unfold readBytes
  repeat' split
  all_goals first | rfl | omega

/-- C55 is false in general: one octet read, then a read of the largest int64 panics instead of failing. -/
theorem C55_panics : ∃ (r : Reader) (n : Nat), r.off ≤ r.size ∧ n < 2 ^ 63 ∧ (r.readBytes64 n).1.isPanic = true :=
  ⟨⟨[1, 2], 1⟩, 2 ^ 63 - 1, by decide, by decide, by decide⟩

/-- C66: what `ReadBytes(size)` does, for every reader of less than 2^63 octets at every position and every int64 `size`: it
crashes exactly when octets are left and the size is negative or reaches 2^63 when added to the position; otherwise it returns
the next `size` octets and moves past them, or fails and stays where it is. -/
theorem C66_read_bytes {pre post : Bytes} {r : Reader} (h : Cursor pre post r) (hlen : pre.length + post.length < 2 ^ 63)
    (n : Int) (hlo : -2 ^ 63 ≤ n) (hhi : n < 2 ^ 63) :
    ((r.readBytes64 n).1.isPanic = true ↔ post ≠ [] ∧ (n < 0 ∨ 2 ^ 63 ≤ pre.length + n)) ∧
    (∀ b, (r.readBytes64 n).1 = .ok b ↔ (b.length : Int) = n ∧ b <+: post) ∧
    (∀ e, (r.readBytes64 n).1 = .err e ↔ (n ≠ 0 ∧ post = [] ∧ e = wrapErr .eof) ∨
      (post ≠ [] ∧ (post.length : Int) < n ∧ pre.length + n < 2 ^ 63 ∧ e = wrapErr .unexpectedEOF)) ∧
    (∀ b, (r.readBytes64 n).1 = .ok b → ∀ post', post = b ++ post' → Cursor (pre ++ b) post' (r.readBytes64 n).2) ∧
    ((∀ b, (r.readBytes64 n).1 ≠ .ok b) → (r.readBytes64 n).2 = r) := by
  obtain ⟨hb, ho⟩ := h
  have hsz : r.size = pre.length + post.length := by unfold Reader.size; rw [hb]; simp
  have hdrop : r.buf.drop r.off = post := by rw [hb, ho]; simp
  have hpos : post = [] ↔ post.length = 0 := by cases post <;> simp
  by_cases h0 : n = 0
  · subst h0
    have he : r.readBytes64 0 = (.ok [], r) := by unfold readBytes64; rw [if_pos rfl]
    rw [he]
    refine ⟨?_, ?_, ?_, ?_, ?_⟩
    · simp only [Res.isPanic, Bool.false_eq_true, false_iff]
      rintro ⟨-, h | h⟩ <;> omega
    · intro b
      constructor
      · intro hh; injection hh with hh; subst hh; simp
      · rintro ⟨hl, -⟩
        cases b with
        | nil => rfl
        | cons x y => simp at hl; omega
    · intro e
      constructor
      · intro hh; cases hh
      · rintro (⟨h1, -⟩ | ⟨-, h1, -⟩)
        · exact absurd rfl h1
        · omega
    · intro b hh post' hp
      injection hh with hh; subst hh
      simp at hp; subst hp
      exact ⟨by simpa using hb, by simpa using ho⟩
    · intro hh; rfl
  by_cases hp : post = []
  · have he : r.readBytes64 n = (.err (wrapErr .eof), r) := by
      unfold readBytes64
      rw [if_neg h0, if_pos (by rw [hsz, ho, hp]; simp)]
    rw [he]
    refine ⟨?_, ?_, ?_, ?_, fun _ => rfl⟩
    · simp [Res.isPanic, hp]
    · intro b
      constructor
      · intro hh; cases hh
      · rintro ⟨hl, hpre⟩
        rw [hp] at hpre
        have := List.prefix_nil.mp hpre
        subst this
        exact absurd hl.symm h0
    · intro e
      constructor
      · intro hh; injection hh with hh; exact .inl ⟨h0, hp, hh.symm⟩
      · rintro (⟨-, -, rfl⟩ | ⟨h1, -⟩)
        · rfl
        · exact absurd hp h1
    · intro b hh; cases hh
  have hlp : 0 < post.length := by
    rcases Nat.eq_zero_or_pos post.length with hz | hz
    · exact absurd (hpos.mpr hz) hp
    · exact hz
  have hoff : ¬ r.off ≥ r.size := by rw [hsz, ho]; omega
  by_cases hneg : n < 0 ∨ 2 ^ 63 ≤ (pre.length : Int) + n
  · have he : r.readBytes64 n = (.panic .sliceRange, r) := by
      unfold readBytes64
      have hw : wrap64 ((r.off : Int) + n) < (r.off : Int) := by
        unfold wrap64; rw [ho]
        rcases hneg with hneg | hneg <;> omega
      rw [if_neg h0, if_neg hoff, if_neg (by rw [hsz]; rw [ho] at hw ⊢; omega), if_pos hw]
    rw [he]
    refine ⟨?_, ?_, ?_, ?_, fun _ => rfl⟩
    · exact ⟨fun _ => ⟨hp, hneg⟩, fun _ => rfl⟩
    · intro b
      constructor
      · intro hh; cases hh
      · rintro ⟨hl, hpre⟩
        have := hpre.length_le
        rcases hneg with hneg | hneg <;> omega
    · intro e
      constructor
      · intro hh; cases hh
      · rintro (⟨-, h1, -⟩ | ⟨-, h1, h2, -⟩)
        · exact absurd h1 hp
        · rcases hneg with hneg | hneg <;> omega
    · intro b hh; cases hh
  have hn0 : 0 < n := by omega
  have hw : wrap64 ((r.off : Int) + n) = (r.off : Int) + n := by unfold wrap64; rw [ho]; omega
  by_cases hlong : (post.length : Int) < n
  · have he : r.readBytes64 n = (.err (wrapErr .unexpectedEOF), r) := by
      unfold readBytes64
      rw [if_neg h0, if_neg hoff, if_pos (by rw [hw, hsz, ho]; omega)]
    rw [he]
    refine ⟨?_, ?_, ?_, ?_, fun _ => rfl⟩
    · exact ⟨fun hh => (by cases hh), fun hh => absurd hh.2 hneg⟩
    · intro b
      constructor
      · intro hh; cases hh
      · rintro ⟨hl, hpre⟩
        have := hpre.length_le
        omega
    · intro e
      constructor
      · intro hh; injection hh with hh; exact .inr ⟨hp, hlong, by omega, hh.symm⟩
      · rintro (⟨-, h1, -⟩ | ⟨-, -, -, rfl⟩)
        · exact absurd h1 hp
        · rfl
    · intro b hh; cases hh
  have he : r.readBytes64 n = (.ok (post.take n.toNat), { r with off := r.off + n.toNat }) := by
    unfold readBytes64
    rw [if_neg h0, if_neg hoff, if_neg (by rw [hw, hsz, ho]; omega), if_neg (by rw [hw]; omega), hdrop]
  have hlt : (post.take n.toNat).length = n.toNat := by rw [List.length_take]; omega
  rw [he]
  refine ⟨?_, ?_, ?_, ?_, ?_⟩
  · exact ⟨fun hh => (by cases hh), fun hh => absurd hh.2 hneg⟩
  · intro b
    constructor
    · intro hh; injection hh with hh; subst hh
      exact ⟨by omega, List.take_prefix _ _⟩
    · rintro ⟨hl, hpre⟩
      rw [List.prefix_iff_eq_take.mp hpre, show b.length = n.toNat by omega]
  · intro e
    constructor
    · intro hh; cases hh
    · rintro (⟨-, h1, -⟩ | ⟨-, h1, -⟩)
      · exact absurd h1 hp
      · exact absurd h1 hlong
  · intro b hh post' hpp
    injection hh with hh; subst hh
    refine ⟨?_, ?_⟩
    · show r.buf = _
      rw [hb, List.append_assoc, ← hpp]
    · show r.off + n.toNat = _
      rw [ho, List.length_append, hlt]
  · intro hh; exact absurd rfl (hh _)

/-- three octets, one already read: two can be read, three cannot, the largest int64 and -1 crash -/
example : (Reader.readBytes64 ⟨[1, 2, 3], 1⟩ 2).1 = .ok [2, 3] ∧
    (Reader.readBytes64 ⟨[1, 2, 3], 1⟩ 3).1 = .err (wrapErr .unexpectedEOF) ∧
    (Reader.readBytes64 ⟨[1, 2, 3], 1⟩ (2 ^ 63 - 1)).1.isPanic = true ∧ (Reader.readBytes64 ⟨[1, 2, 3], 1⟩ (-1)).1.isPanic = true := by
  decide

end Gpgpdump
