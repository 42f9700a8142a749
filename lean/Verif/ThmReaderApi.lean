import Verif.ReaderApi

/-!
# C69: every history of calls on a `Reader`

Specification: the octets `d` never change; the state is one position. `Step d p c o p'` says what call `c` at position `p`
returns and where it leaves the position, in terms of `d` only.
-/

namespace Gpgpdump

namespace Spec.RD

/-- the position a `whence` value counts from -/
inductive From (d : Bytes) (p : Nat) : Int → Nat → Prop
  | start : From d p 0 0
  | current : From d p 1 p
  | stop : From d p 2 d.length

/-- a hex dump: two lower-case digits per octet, a space between octets -/
inductive Dumped : Bytes → Str → Prop
  | none : Dumped [] []
  | last (b) : Dumped [b] [Nat.digitChar (b.toNat / 16), Nat.digitChar (b.toNat % 16)]
  | more (b) {bs t} : bs ≠ [] → Dumped bs t →
      Dumped (b :: bs) (Nat.digitChar (b.toNat / 16) :: Nat.digitChar (b.toNat % 16) :: ' ' :: t)

/-- taking `n` octets at position `p` -/
inductive Take (d : Bytes) : Nat → Int → ROut → Nat → Prop
  | nothing {p} : Take d p 0 (.bytes []) p
  | taken {pre b post} : d = pre ++ b ++ post → b ≠ [] →
      Take d pre.length b.length (.bytes b) (pre.length + b.length)
  | atEnd {p} {n : Int} : n ≠ 0 → d.length ≤ p → Take d p n (.fail (wrapErr .eof)) p
  | short {p} {n : Int} : p < d.length → (d.length : Int) < p + n → p + n < 2 ^ 63 → Take d p n (.fail (wrapErr .unexpectedEOF)) p
  | crash {p} {n : Int} : p < d.length → n < 0 ∨ 2 ^ 63 ≤ p + n → Take d p n .crash p

/-- One call at position `p`. -/
inductive Step (d : Bytes) : Nat → RCall → ROut → Nat → Prop
  | read {p o p'} {n : Nat} : Take d p n o p' → Step d p (.read n) o p'
  | readByte {p o p'} : Take d p 1 o p' → Step d p .readByte o p'
  | readBytes {p n o p'} : Take d p n o p' → Step d p (.readBytes n) o p'
  | readAt {p o p'} {n q : Nat} : q ≤ d.length → Take d q n o p' → Step d p (.readAt n q) o p'
  | readAtOutside {p n} {off : Int} : off < 0 ∨ (d.length : Int) < off →
      Step d p (.readAt n off) (.fail (wrapErr .invalidOffset)) p
  /-- the position moves by the size of the buffer -/
  | read2EOF {pre b} : d = pre ++ b → b ≠ [] → Step d pre.length .read2EOF (.bytes b) (pre.length + d.length)
  | read2EOFEnd {p} : d.length ≤ p → Step d p .read2EOF (.fail (wrapErr .eof)) p
  | seek {p w s} {off : Int} {q : Nat} : From d p w s → (s : Int) + off = q → q ≤ d.length → Step d p (.seek off w) (.num q) q
  | seekOutside {p w s} {off : Int} : From d p w s → (s : Int) + off < 0 ∨ (d.length : Int) < s + off →
      Step d p (.seek off w) (.seekFail p (wrapErr .invalidOffset)) p
  | seekWhence {p w} {off : Int} : (∀ s, ¬ From d p w s) → Step d p (.seek off w) (.seekFail p (wrapErr .invalidWhence)) p
  | writeNothing {p w} : d = [] → Step d p (.writeTo w) (.num 0) 0
  /-- all octets are written, wherever the position was -/
  | write {p} {w : Writer} : d ≠ [] → w d = ((d.length : Int), none) → Step d p (.writeTo w) (.num d.length) d.length
  | writeShort {p} {m : Int} {w : Writer} : d ≠ [] → w d = (m, none) → m < d.length → Step d p (.writeTo w) (.writeFail m none) p
  | writeError {p} {m : Int} {e} {w : Writer} : d ≠ [] → w d = (m, some e) → m ≤ d.length →
      Step d p (.writeTo w) (.writeFail m (some e.wrap)) p
  | writeMore {p} {m : Int} {e} {w : Writer} : d ≠ [] → w d = (m, e) → (d.length : Int) < m → Step d p (.writeTo w) .crash p
  | len {p} : Step d p .len (.num d.length) p
  | rest {p} : Step d p .rest (.num ((d.length : Int) - p)) p
  | getBody {p} : Step d p .getBody (.bytes d) p
  | dump {p pre b t} : d = pre ++ b → b ≠ [] → Dumped b t → Step d p (.dumpString pre.length) (.text t) p
  | dumpEnd {p} {off : Int} : (d.length : Int) ≤ off → Step d p (.dumpString off) (.text []) p
  | dumpCrash {p} {off : Int} : off < 0 → off < d.length → Step d p (.dumpString off) .crash p

/-- The outcomes of a sequence of calls. -/
inductive Steps (d : Bytes) : Nat → List RCall → List ROut → Nat → Prop
  | nil {p} : Steps d p [] [] p
  | cons {p c o p' cs os q} : Step d p c o p' → Steps d p' cs os q → Steps d p (c :: cs) (o :: os) q

end Spec.RD

open Reader Spec.RD

theorem wrap64_of_fits {i : Int} (h1 : -2 ^ 63 ≤ i) (h2 : i < 2 ^ 63) : wrap64 i = i := by unfold wrap64; omega

theorem dumped_hex (b : Bytes) : Dumped b (dumpHex b) := by
  induction b with
  | nil => exact .none
  | cons x xs ih =>
    have hx := x.toNat_lt
    have e1 := digit_eq (x.toNat / 16) (by omega)
    have e2 := digit_eq (x.toNat % 16) (by omega)
    cases xs with
    | nil => simp only [dumpHex, hex2, e1, e2]; exact .last x
    | cons y ys =>
      simp only [dumpHex, hex2, e1, e2]
      exact .more x (by simp) ih

theorem dumped_unique {b : Bytes} {t t' : Str} (h : Dumped b t) (h' : Dumped b t') : t = t' := by
  induction h generalizing t' with
  | none => cases h'; rfl
  | last b => cases h' with
    | last => rfl
    | more _ hne => exact absurd rfl hne
  | more b hne _ ih =>
    cases h' with
    | last => exact absurd rfl hne
    | more _ _ h2 => rw [ih h2]

theorem take_run (d : Bytes) (p : Nat) (n : Int) (_ : d.length < 2 ^ 62) (hp : p ≤ 2 * d.length)
    (h1 : -2 ^ 63 ≤ n) (h2 : n < 2 ^ 63) :
    ∃ o p', outOf ((⟨d, p⟩ : Reader).readBytes64 n) = (o, ⟨d, p'⟩) ∧ Take d p n o p' ∧ p' ≤ 2 * d.length := by
  have hsz : (⟨d, p⟩ : Reader).size = d.length := rfl
  unfold readBytes64
  simp only [hsz]
  by_cases h0 : n = 0
  · rw [if_pos h0]; subst h0; exact ⟨_, _, rfl, .nothing, hp⟩
  rw [if_neg h0]
  by_cases hend : p ≥ d.length
  · rw [if_pos hend]; exact ⟨_, _, rfl, .atEnd h0 hend, hp⟩
  rw [if_neg hend]
  by_cases hbad : n < 0 ∨ 2 ^ 63 ≤ (p : Int) + n
  · have hw : wrap64 ((p : Int) + n) < (p : Int) := by
      unfold wrap64; rcases hbad with hbad | hbad <;> omega
    rw [if_neg (show ¬ wrap64 ((p : Int) + n) > (d.length : Int) by omega), if_pos hw]
    exact ⟨_, _, rfl, .crash (Nat.lt_of_not_le hend) hbad, hp⟩
  have hw : wrap64 ((p : Int) + n) = (p : Int) + n := wrap64_of_fits (by omega) (by omega)
  rw [hw]
  by_cases hs : (p : Int) + n > d.length
  · rw [if_pos hs]; exact ⟨_, _, rfl, .short (by omega) (by omega) (by omega), hp⟩
  rw [if_neg hs, if_neg (by omega)]
  refine ⟨_, _, rfl, ?_, by omega⟩
  have hsplit : d = d.take p ++ (d.drop p).take n.toNat ++ (d.drop p).drop n.toNat := by
    rw [List.append_assoc, List.take_append_drop, List.take_append_drop]
  have hl1 : (d.take p).length = p := by rw [List.length_take]; omega
  have hl2 : ((d.drop p).take n.toNat).length = n.toNat := by rw [List.length_take, List.length_drop]; omega
  have := Take.taken hsplit (by intro h; rw [h] at hl2; simp at hl2; omega)
  rw [hl1, hl2] at this
  rwa [show ((n.toNat : Nat) : Int) = n by omega] at this

theorem take_fun {d : Bytes} (hd : d.length < 2 ^ 62) {p : Nat} {n : Int} {o o' : ROut} {q q' : Nat}
    (hp : p ≤ 2 * d.length) (h : Take d p n o q) (h' : Take d p n o' q') :
    o = o' ∧ q = q' := by
  cases h with
  | nothing =>
    generalize hn : (0 : Int) = n at h'
    cases h' with
    | nothing => exact ⟨rfl, rfl⟩
    | taken e hne => exact absurd (List.eq_nil_of_length_eq_zero (by omega)) hne
    | atEnd hz => exact absurd hn.symm hz
    | short => omega
    | crash _ hb => rcases hb with hb | hb <;> omega
  | @taken pre b post e hne =>
    have hl : 0 < b.length := List.length_pos_iff.mpr hne
    have hd : d.length = pre.length + b.length + post.length := by rw [e]; simp only [List.length_append]
    generalize hp : pre.length = p at h'
    generalize hn : (b.length : Int) = n at h'
    cases h' with
    | nothing => omega
    | @taken pre' b' post' e' =>
      have hbl : b.length = b'.length := by omega
      have heq : pre ++ b ++ post = pre' ++ b' ++ post' := e.symm.trans e'
      rw [List.append_assoc, List.append_assoc] at heq
      have h1 := List.append_inj heq hp
      have h2 := List.append_inj h1.2 hbl
      rw [h2.1]
      exact ⟨rfl, rfl⟩
    | atEnd _ hh => omega
    | short => omega
    | crash _ hb => exfalso; rcases hb with hb | hb <;> omega
  | atEnd hz hend =>
    cases h' with
    | nothing => exact absurd rfl hz
    | @taken pre b post e hne =>
      have hl : 0 < b.length := List.length_pos_iff.mpr hne
      have : d.length = pre.length + b.length + post.length := by rw [e]; simp only [List.length_append]
      omega
    | atEnd => exact ⟨rfl, rfl⟩
    | short => omega
    | crash => omega
  | short h1 h2 h3 =>
    cases h' with
    | nothing => omega
    | @taken pre b post e hne =>
      have : d.length = pre.length + b.length + post.length := by rw [e]; simp only [List.length_append]
      omega
    | atEnd => omega
    | short => exact ⟨rfl, rfl⟩
    | crash _ hb => exfalso; rcases hb with hb | hb <;> omega
  | crash h1 h2 =>
    cases h' with
    | nothing => exfalso; rcases h2 with hb | hb <;> simp at hb <;> omega
    | @taken pre b post e hne =>
      have : d.length = pre.length + b.length + post.length := by rw [e]; simp only [List.length_append]
      exfalso; rcases h2 with hb | hb <;> omega
    | atEnd => omega
    | short => exfalso; rcases h2 with hb | hb <;> omega
    | crash => exact ⟨rfl, rfl⟩


theorem from_fun {d : Bytes} {p s s' : Nat} {w : Int} (h : From d p w s) (h' : From d p w s') : s = s' := by
  cases h <;> cases h' <;> rfl

theorem wrap_fail (e : Cause) : (wrapErr e).wrap = wrapErr e := rfl

theorem take_err {d : Bytes} {p p' : Nat} {n : Int} {e : GoErr} (h : Take d p n (.fail e) p') : e.wrap = e := by
  cases h <;> rfl

theorem read64_eq (d : Bytes) (p n : Nat) (hd : d.length < 2 ^ 62) (hp : p ≤ 2 * d.length) (hn : (n : Int) < 2 ^ 63) :
    (⟨d, p⟩ : Reader).read64 n = outOf ((⟨d, p⟩ : Reader).readBytes64 n) := by
  obtain ⟨o, p', e, ht, -⟩ := take_run d p n hd hp (by omega) hn
  unfold read64
  split
  · rename_i e' r' he
    rw [he] at e ⊢
    simp only [outOf, Prod.mk.injEq] at e
    obtain ⟨rfl, rfl⟩ := e
    simp only [outOf, take_err ht]
  · rfl

theorem seek64_spec (d : Bytes) (p : Nat) (off w : Int) (hd : d.length < 2 ^ 62) (hp : p ≤ 2 * d.length)
    (h1 : -2 ^ 63 ≤ off) (h2 : off < 2 ^ 63) :
    ∃ o p', (⟨d, p⟩ : Reader).seek64 off w = (o, ⟨d, p'⟩) ∧ Step d p (.seek off w) o p' ∧ p' ≤ 2 * d.length := by
  have go : ∀ s : Nat, From d p w s → s ≤ 2 * d.length → ∃ o p',
      (if wrap64 ((s : Int) + off) < 0 ∨ wrap64 ((s : Int) + off) > (d.length : Int) then
        ((.seekFail p (wrapErr .invalidOffset), ⟨d, p⟩) : ROut × Reader)
      else (.num (wrap64 ((s : Int) + off)), ⟨d, (wrap64 ((s : Int) + off)).toNat⟩)) = (o, ⟨d, p'⟩) ∧
      Step d p (.seek off w) o p' ∧ p' ≤ 2 * d.length := by
    intro s hs hle
    by_cases hin : 0 ≤ (s : Int) + off ∧ (s : Int) + off ≤ d.length
    · have hw : wrap64 ((s : Int) + off) = (s : Int) + off := wrap64_of_fits (by omega) (by omega)
      rw [hw, if_neg (by omega)]
      have := Step.seek hs (show (s : Int) + off = (((s : Int) + off).toNat : Nat) by omega) (by omega)
      rw [show ((((s : Int) + off).toNat : Nat) : Int) = (s : Int) + off by omega] at this
      exact ⟨_, _, rfl, this, by omega⟩
    · have hw : wrap64 ((s : Int) + off) < 0 ∨ wrap64 ((s : Int) + off) > (d.length : Int) := by
        unfold wrap64; omega
      rw [if_pos hw]
      exact ⟨_, _, rfl, .seekOutside hs (by omega), hp⟩
  unfold seek64
  simp only [show (⟨d, p⟩ : Reader).size = d.length from rfl]
  by_cases w0 : w = 0
  · rw [if_pos w0]; subst w0
    exact go 0 .start (by omega)
  by_cases w1 : w = 1
  · rw [if_neg w0, if_pos w1]; subst w1
    exact go p .current hp
  by_cases w2 : w = 2
  · rw [if_neg w0, if_neg w1, if_pos w2]; subst w2
    exact go d.length .stop (by omega)
  rw [if_neg w0, if_neg w1, if_neg w2]
  refine ⟨_, _, rfl, .seekWhence ?_, hp⟩
  intro s hs
  cases hs <;> contradiction

/-- every call does what the specification says -/
theorem call_step (d : Bytes) (p : Nat) (c : RCall) (hd : d.length < 2 ^ 62) (hp : p ≤ 2 * d.length) (hc : c.Int64) :
    ∃ o p', c.run ⟨d, p⟩ = (o, ⟨d, p'⟩) ∧ Step d p c o p' ∧ p' ≤ 2 * d.length := by
  cases c with
  | read n =>
    obtain ⟨o, p', e, ht, hl⟩ := take_run d p n hd hp (by omega) hc
    exact ⟨o, p', (read64_eq d p n hd hp hc).trans e, .read ht, hl⟩
  | readAt n off =>
    obtain ⟨hn, ho1, ho2⟩ : (n : Int) < 2 ^ 63 ∧ -2 ^ 63 ≤ off ∧ off < 2 ^ 63 := hc
    obtain ⟨o, q, e, hs, hl⟩ := seek64_spec d p off 0 hd hp ho1 ho2
    show ∃ o p', (⟨d, p⟩ : Reader).readAt64 n off = _ ∧ _
    unfold readAt64
    rw [e]
    cases hs with
    | seek hf hq hle =>
      cases hf
      simp only
      obtain ⟨o, p', e2, ht, hl⟩ := take_run d q n hd (by omega) (by omega) hn
      have : off = (q : Int) := by omega
      subst this
      rw [read64_eq d q n hd (by omega) hn, e2]
      exact ⟨o, p', rfl, .readAt hle ht, hl⟩
    | seekOutside hf hq =>
      cases hf
      exact ⟨_, _, rfl, .readAtOutside (by omega), hp⟩
    | seekWhence hn => exact absurd .start (hn 0)
  | readByte =>
    obtain ⟨o, p', e, ht, hl⟩ := take_run d p 1 hd hp (by omega) (by omega)
    refine ⟨o, p', ?_, .readByte ht, hl⟩
    show (⟨d, p⟩ : Reader).readByte64 = _
    unfold readByte64
    split
    · rename_i b r' he
      rw [he] at e
      simp only [outOf, Prod.mk.injEq] at e
      obtain ⟨rfl, rfl⟩ := e
      generalize hn : (1 : Int) = n at ht
      have : b.length ≤ 1 := by
        cases ht with
        | nothing => simp
        | taken => omega
      rw [List.take_of_length_le this]
    · rename_i e' r' he
      rw [he] at e
      simp only [outOf, Prod.mk.injEq] at e
      obtain ⟨rfl, rfl⟩ := e
      rw [take_err ht]
    · exact e
  | readBytes n =>
    obtain ⟨o, p', e, ht, hl⟩ := take_run d p n hd hp hc.1 hc.2
    exact ⟨o, p', e, .readBytes ht, hl⟩
  | read2EOF =>
    show ∃ o p', outOf (⟨d, p⟩ : Reader).read2EOF = _ ∧ _
    unfold read2EOF
    simp only [show (⟨d, p⟩ : Reader).size = d.length from rfl]
    by_cases h : p ≥ d.length
    · rw [if_pos h]; exact ⟨_, _, rfl, .read2EOFEnd h, hp⟩
    · rw [if_neg h]
      have hl : (d.take p).length = p := by rw [List.length_take]; omega
      have := Step.read2EOF (List.take_append_drop p d).symm (by
        intro hn; have := List.drop_eq_nil_iff.mp hn; omega)
      rw [hl] at this
      exact ⟨_, _, rfl, this, by omega⟩
  | seek o w => exact seek64_spec d p o w hd hp hc.1 hc.2
  | writeTo w =>
    show ∃ o p', (⟨d, p⟩ : Reader).writeTo64 w = _ ∧ _
    unfold writeTo64
    simp only [show (⟨d, p⟩ : Reader).size = d.length from rfl]
    by_cases h0 : d = []
    · rw [if_pos h0]; subst h0; exact ⟨_, _, rfl, .writeNothing rfl, by simp⟩
    rw [if_neg h0]
    rcases hw : w d with ⟨m, e⟩
    simp only
    by_cases hm : m > (d.length : Int)
    · rw [if_pos hm]; exact ⟨_, _, rfl, .writeMore h0 hw hm, hp⟩
    rw [if_neg hm]
    cases e with
    | some e => exact ⟨_, _, rfl, .writeError h0 hw (by omega), hp⟩
    | none =>
      simp only
      by_cases hne : m = (d.length : Int)
      · rw [if_neg (by omega)]; subst hne; exact ⟨_, _, rfl, .write h0 hw, by omega⟩
      · rw [if_pos hne]; exact ⟨_, _, rfl, .writeShort h0 hw (by omega), hp⟩
  | len => exact ⟨_, _, rfl, .len, hp⟩
  | rest => exact ⟨_, _, rfl, .rest, hp⟩
  | getBody => exact ⟨_, _, rfl, .getBody, hp⟩
  | dumpString off =>
    show ∃ o p', (⟨d, p⟩ : Reader).dumpString64 off = _ ∧ _
    unfold dumpString64
    simp only [show (⟨d, p⟩ : Reader).size = d.length from rfl]
    by_cases h : off ≥ (d.length : Int)
    · rw [if_pos h]; exact ⟨_, _, rfl, .dumpEnd h, hp⟩
    rw [if_neg h]
    by_cases hneg : off < 0
    · rw [if_pos hneg]; exact ⟨_, _, rfl, .dumpCrash hneg (by omega), hp⟩
    · rw [if_neg hneg]
      have hl : ((d.take off.toNat).length : Int) = off := by rw [List.length_take]; omega
      have := Step.dump (p := p) (List.take_append_drop off.toNat d).symm (by
        intro hn; have := List.drop_eq_nil_iff.mp hn; omega) (dumped_hex _)
      rw [hl] at this
      exact ⟨_, _, rfl, this, hp⟩

/-- the specification leaves no choice -/
theorem step_fun {d : Bytes} (hd : d.length < 2 ^ 62) {p : Nat} {c : RCall} {o o' : ROut} {q q' : Nat}
    (hp : p ≤ 2 * d.length) (h : Step d p c o q) (h' : Step d p c o' q') : o = o' ∧ q = q' := by
  cases h with
  | read h => cases h' with | read h' => exact take_fun hd hp h h'
  | readByte h => cases h' with | readByte h' => exact take_fun hd hp h h'
  | readBytes h => cases h' with | readBytes h' => exact take_fun hd hp h h'
  | @readAt _ _ _ n k hk h =>
    generalize hx : (k : Int) = x at h'
    cases h' with
    | @readAt _ _ _ _ k' _ h' =>
      have : k = k' := by omega
      subst this
      exact take_fun hd (by omega) h h'
    | readAtOutside ho => omega
  | readAtOutside ho =>
    cases h' with
    | readAt => omega
    | readAtOutside => exact ⟨rfl, rfl⟩
  | @read2EOF pre b e hne =>
    have hl : 0 < b.length := List.length_pos_iff.mpr hne
    have hlen : d.length = pre.length + b.length := by rw [e]; simp only [List.length_append]
    generalize hx : pre.length = x at h'
    cases h' with
    | @read2EOF pre' b' e' _ =>
      have := List.append_inj (e.symm.trans e') hx
      rw [this.2]; exact ⟨rfl, rfl⟩
    | read2EOFEnd => omega
  | read2EOFEnd he =>
    cases h' with
    | @read2EOF pre b e hne =>
      have hl : 0 < b.length := List.length_pos_iff.mpr hne
      have hlen : d.length = pre.length + b.length := by rw [e]; simp only [List.length_append]
      omega
    | read2EOFEnd => exact ⟨rfl, rfl⟩
  | seek hf hq hle =>
    cases h' with
    | seek hf' hq' _ =>
      have := from_fun hf hf'
      subst this
      have := hq.symm.trans hq'
      refine ⟨by rw [this], by omega⟩
    | seekOutside hf' ho => have := from_fun hf hf'; subst this; omega
    | seekWhence hn => exact absurd hf (hn _)
  | seekOutside hf ho =>
    cases h' with
    | seek hf' hq' _ => have := from_fun hf hf'; subst this; omega
    | seekOutside => exact ⟨rfl, rfl⟩
    | seekWhence hn => exact absurd hf (hn _)
  | seekWhence hn =>
    cases h' with
    | seek hf' => exact absurd hf' (hn _)
    | seekOutside hf' => exact absurd hf' (hn _)
    | seekWhence => exact ⟨rfl, rfl⟩
  | writeNothing h0 =>
    cases h' with
    | writeNothing => exact ⟨rfl, rfl⟩
    | write h1 => exact absurd h0 h1
    | writeShort h1 => exact absurd h0 h1
    | writeError h1 => exact absurd h0 h1
    | writeMore h1 => exact absurd h0 h1
  | write h0 hw =>
    cases h' with
    | writeNothing h1 => exact absurd h1 h0
    | write => exact ⟨rfl, rfl⟩
    | writeShort _ h1 => rw [hw] at h1; cases h1; omega
    | writeError _ h1 => rw [hw] at h1; cases h1
    | writeMore _ h1 => rw [hw] at h1; cases h1; omega
  | writeShort h0 hw hm =>
    cases h' with
    | writeNothing h1 => exact absurd h1 h0
    | write _ h1 => rw [hw] at h1; cases h1; omega
    | writeShort _ h1 => rw [hw] at h1; cases h1; exact ⟨rfl, rfl⟩
    | writeError _ h1 => rw [hw] at h1; cases h1
    | writeMore _ h1 => rw [hw] at h1; cases h1; omega
  | writeError h0 hw hm =>
    cases h' with
    | writeNothing h1 => exact absurd h1 h0
    | write _ h1 => rw [hw] at h1; cases h1
    | writeShort _ h1 => rw [hw] at h1; cases h1
    | writeError _ h1 => rw [hw] at h1; cases h1; exact ⟨rfl, rfl⟩
    | writeMore _ h1 => rw [hw] at h1; cases h1; omega
  | writeMore h0 hw hm =>
    cases h' with
    | writeNothing h1 => exact absurd h1 h0
    | write _ h1 => rw [hw] at h1; cases h1; omega
    | writeShort _ h1 => rw [hw] at h1; cases h1; omega
    | writeError _ h1 => rw [hw] at h1; cases h1; omega
    | writeMore => exact ⟨rfl, rfl⟩
  | len => cases h'; exact ⟨rfl, rfl⟩
  | rest => cases h'; exact ⟨rfl, rfl⟩
  | getBody => cases h'; exact ⟨rfl, rfl⟩
  | @dump _ pre b t e hne hd' =>
    have hl : 0 < b.length := List.length_pos_iff.mpr hne
    have hlen : d.length = pre.length + b.length := by rw [e]; simp only [List.length_append]
    generalize hx : (pre.length : Int) = x at h'
    cases h' with
    | @dump _ pre' b' t' e' _ hd'' =>
      have := List.append_inj (e.symm.trans e') (by omega)
      rw [this.2] at hd'
      rw [dumped_unique hd' hd'']; exact ⟨rfl, rfl⟩
    | dumpEnd => omega
    | dumpCrash => omega
  | dumpEnd he =>
    cases h' with
    | @dump _ pre b _ e hne =>
      have hl : 0 < b.length := List.length_pos_iff.mpr hne
      have hlen : d.length = pre.length + b.length := by rw [e]; simp only [List.length_append]
      omega
    | dumpEnd => exact ⟨rfl, rfl⟩
    | dumpCrash => omega
  | dumpCrash h1 h2 =>
    cases h' with
    | dump => omega
    | dumpEnd => omega
    | dumpCrash => exact ⟨rfl, rfl⟩

/-- C69: whatever is called before, with whatever arguments, every call on a reader returns what the specification says for
the octets given to `New` and the position reached, and nothing else. -/
theorem C69_history (d : Bytes) (hd : d.length < 2 ^ 62) (cs : List RCall) (hcs : ∀ c ∈ cs, c.Int64) (os : List ROut) :
    (RCall.runAll cs (Reader.new d)).1 = os ↔ ∃ p, Steps d 0 cs os p := by
  have run : ∀ (cs : List RCall) (p : Nat), (∀ c ∈ cs, c.Int64) → p ≤ 2 * d.length →
      ∃ q, Steps d p cs (RCall.runAll cs ⟨d, p⟩).1 q := by
    intro cs
    induction cs with
    | nil => intro p _ _; exact ⟨p, .nil⟩
    | cons c cs ih =>
      intro p hcs hp
      obtain ⟨o, p', e, hs, hl⟩ := call_step d p c hd hp (hcs c (by simp))
      obtain ⟨q, hq⟩ := ih p' (fun c hc => hcs c (by simp [hc])) hl
      refine ⟨q, ?_⟩
      simp only [RCall.runAll, e]
      exact .cons hs hq
  have uniq : ∀ (cs : List RCall) (p : Nat) (os os' : List ROut) (q q' : Nat), (∀ c ∈ cs, c.Int64) → p ≤ 2 * d.length →
      Steps d p cs os q → Steps d p cs os' q' → os = os' := by
    intro cs
    induction cs with
    | nil => intro p os os' q q' _ _ h h'; cases h; cases h'; rfl
    | cons c cs ih =>
      intro p os os' q q' hcs hp h h'
      cases h with
      | @cons _ _ o p1 _ os1 _ h1 h2 =>
        cases h' with
        | cons h1' h2' =>
          obtain ⟨o2, p2, _, hs, hl⟩ := call_step d p c hd hp (hcs c (by simp))
          have e1 := step_fun hd hp hs h1
          have e2 := step_fun hd hp hs h1'
          obtain ⟨rfl, rfl⟩ := e1
          obtain ⟨rfl, rfl⟩ := e2
          rw [ih _ _ _ _ _ (fun c hc => hcs c (by simp [hc])) hl h2 h2']
  obtain ⟨q, hq⟩ := run cs 0 hcs (by omega)
  constructor
  · rintro rfl; exact ⟨q, hq⟩
  · rintro ⟨q', hq'⟩
    exact uniq cs 0 _ _ q q' hcs (by omega) hq hq'

/-- C69: the position never leaves `0 .. 2·size`; it is behind the end only after `Read2EOF` from a position that was not the
start, until a successful `Seek`, `ReadAt` or `WriteTo`. -/
theorem C69_position (d : Bytes) (hd : d.length < 2 ^ 62) (p : Nat) (hp : p ≤ 2 * d.length) (c : RCall) (hc : c.Int64)
    {o : ROut} {r' : Reader} (h : c.run ⟨d, p⟩ = (o, r')) :
    r'.buf = d ∧ r'.off ≤ 2 * d.length ∧
    (d.length < r'.off → r'.off = p ∨ (∃ b, o = .bytes b ∧ b = d.drop p ∧ b ≠ []) ∧ 0 < p ∧ r'.off = p + d.length) := by
  obtain ⟨o', p', e, hs, hl⟩ := call_step d p c hd hp hc
  rw [h] at e
  simp only [Prod.mk.injEq] at e
  obtain ⟨rfl, rfl⟩ := e
  refine ⟨rfl, hl, ?_⟩
  have tk : ∀ {q n o p'}, Take d q n o p' → d.length < p' → p' = q := by
    intro q n o p' ht hlt
    cases ht with
    | @taken pre b post e _ =>
      have hlen : d.length = pre.length + b.length + post.length := by rw [e]; simp only [List.length_append]
      omega
    | _ => rfl
  intro hlt
  simp only at hlt ⊢
  cases hs with
  | read ht => exact .inl (tk ht hlt)
  | readByte ht => exact .inl (tk ht hlt)
  | readBytes ht => exact .inl (tk ht hlt)
  | readAt hq ht => have := tk ht hlt; omega
  | @read2EOF pre b e hne =>
    right
    refine ⟨⟨b, rfl, ?_, hne⟩, ?_, rfl⟩
    · rw [e, List.drop_left]
    · omega
  | seek => omega
  | writeNothing => omega
  | write => omega
  | _ => exact .inl rfl

/-- five octets: a byte, the rest, a failing read, the negative rest, a seek back from the position behind the end, a failing
writer, a complete write from the start of the buffer -/
example : (RCall.runAll [.readByte, .read2EOF, .readBytes 1, .rest, .seek (-3) 1, .read 2, .writeTo (fun _ => (2, none)),
      .writeTo (fun b => (b.length, none)), .rest, .readAt 2 1, .readBytes (2 ^ 63 - 1), .dumpString 3, .dumpString (-1)]
      (Reader.new [1, 2, 3, 4, 5])).1 =
    [.bytes [1], .bytes [2, 3, 4, 5], .fail (wrapErr .eof), .num (-1), .num 3, .bytes [4, 5], .writeFail 2 none,
      .num 5, .num 0, .bytes [2, 3], .crash, .text (S "04 05"), .crash] := by
  decide +kernel

end Gpgpdump
