import Verif.PubkeyApi
import Verif.DisplayKeys
import Verif.FailKeys
import Verif.PanicKeys
import Verif.ThmAccount

/-!
# C96: every history of calls on a `Pubkey` or an `S2K`
-/

namespace Gpgpdump
open P Spec

namespace Spec

/-- the fields a method reads, for the algorithms it knows -/
def pkSlots : PKMethod → UInt8 → Option (List Slot)
  | .sig => sigSlots
  | .pub => pubSlots
  | .ses => sesSlots
  | .secPlain => secSlots
  | .secEnc => fun _ => none

/-- A successful call: the octets `f` read, the octets `q` left behind them, the items added. `n` is the number of octets that were left
when the object was made. -/
inductive PKShown (o : OptCode → Bool) (n : Nat) (a : UInt8) : PKMethod → Bytes → Bytes → List Item → Prop
  | known {m ss f q is} (hs : pkSlots m a = some ss) (h : SlotRows o ss f q is) : PKShown o n a m f q is
  | unknown {m q} (hm : m ∈ [.sig, .pub, .ses]) (hs : pkSlots m a = none) :
      PKShown o n a m [] q [leaf (opaqueName a) [] (sizeText n) (dumpIf (o DEBUG) q)]
  | encrypted {f} : PKShown o n a .secEnc f [] [leaf (encryptedName a) [] (sizeText n) (dumpIf (o DEBUG) f)]
  | plain {f q} (hs : secSlots a = none) (hn : f.length + 2 = n) :
      PKShown o n a .secPlain f q [leaf ("Multi-precision integers of unknown secret key (pub ".toList ++ dec a.toNat ++ ")".toList) []
        (sizeText f.length) (dumpIf (o DEBUG) f)]

/-- A call that fails, with the cause, on the octets `q`. -/
inductive PKCut (n : Nat) (a : UInt8) : PKMethod → Cause → Bytes → Prop
  | sig {c q} (h : IntegersCut (sigInts a) c q) : PKCut n a .sig c q
  | pub {c q} (h : PubCut a c q) : PKCut n a .pub c q
  | ses {c q} (h : SesCut a c q) : PKCut n a .ses c q
  | sec {c q} (ha : ¬ Foreign a) (h : SecCut a c q) : PKCut n a .secPlain c q
  | none (ha : Foreign a) (hn : n ≠ 2) : PKCut n a .secPlain .eof []
  | few {q} (ha : Foreign a) (hq : q ≠ []) (hn : q.length + 2 < n) : PKCut n a .secPlain .unexpectedEOF q

/-- `101 "GNU"` and one more octet -/
def GnuMark (q : Bytes) : Prop := ∃ n r, q = 101 :: 0x47 :: 0x4e :: 0x55 :: n :: r

end Spec

/-! ## One call -/

/-- C96: on an object that was just made the methods do what the parsers of packets do. -/
theorem C96_fresh (a : UInt8) (st : St) :
    pkCall st.rd.rest a .sig st = parseSig a st ∧ pkCall st.rd.rest a .pub st = parsePub a st ∧ pkCall st.rd.rest a .ses st = parseSes a st ∧
    pkCall st.rd.rest a .secPlain st = parseSecPlain a st ∧ pkCall st.rd.rest a .secEnc st = parseSecEnc a st := by
  refine ⟨?_, ?_, ?_, ?_, ?_⟩
  · unfold pkCall pkSig parseSig
    cases h : pubAlg a <;> rfl
  · unfold pkCall pkPub parsePub
    cases h : pubAlg a <;> rfl
  · unfold pkCall pkSes parseSes
    cases h : pubAlg a <;> rfl
  · unfold pkCall pkSecPlain parseSecPlain
    cases h : pubAlg a <;> rfl
  · unfold pkCall pkSecEnc parseSecEnc
    cases h : pubAlg a <;> rfl

theorem pkSized_run (n : Nat) (name : Str) (c p q j) :
    pkSized n name (St.at c p q j) = (.ok (), St.at c p q (j.addAll [leaf name [] (sizeText n) (dumpIf (ctxFlag Ctx.debug c) q)])) := by
  have h1 : pkSized n name (St.at c p q j) = (.ok (), St.at c p q (j.add (newItem name [] (iBytes n) (rawData ⟨p ++ q, p.length⟩ name (ctxFlag Ctx.debug c)).dump))) := rfl
  rw [h1, rawData_at, rawItem_eq, Item.add_eq]
  have h2 : iBytes (n : Int) = sizeText n := by
    unfold iBytes sizeText decInt
    rw [if_neg (by omega)]; rfl
  rw [h2]
  rfl

/-- the methods on the algorithms they know and on the others -/
theorem pk_cases (n : Nat) (a : UInt8) :
    ((sigSlots a ≠ none ∧ pkSig n a = parseSig a) ∨ (sigSlots a = none ∧ pkSig n a = pkSized n (opaqueName a) ∧ sigInts a = 0)) ∧
    ((pubSlots a ≠ none ∧ pkPub n a = parsePub a) ∨ (pubSlots a = none ∧ pkPub n a = pkSized n (opaqueName a) ∧ Foreign a)) ∧
    ((sesSlots a ≠ none ∧ pkSes n a = parseSes a) ∨ (sesSlots a = none ∧ pkSes n a = pkSized n (opaqueName a) ∧ a ∉ [1, 2, 3, 16, 20, 18])) ∧
    ((secSlots a ≠ none ∧ ¬ Foreign a ∧ pkSecPlain n a = parseSecPlain a) ∨ (secSlots a = none ∧ Foreign a ∧ pkSecPlain n a = (do
      let b ← P.readBytes ((n : Int) - 2)
      let d ← P.flag Ctx.debug
      P.add (newItem (S "Multi-precision integers of unknown secret key (pub " ++ dec a.toNat ++ S ")") [] (iBytes ((n : Int) - 2)) (dumpBytes b d))))) := by
  unfold pkSig pkPub pkSes pkSecPlain
  rcases Lang.pubAlg_cases a with ⟨ha, h⟩ | ⟨rfl, h⟩ | ⟨ha, h⟩ | ⟨rfl, h⟩ | ⟨rfl, h⟩ | ⟨rfl, h⟩ | ⟨ha, h⟩ <;> rw [h]
  · have ha' := ha
    simp only [List.mem_cons, List.not_mem_nil, or_false] at ha'
    rcases ha' with rfl | rfl | rfl <;>
      exact ⟨.inl ⟨nofun, rfl⟩, .inl ⟨nofun, rfl⟩, .inl ⟨nofun, rfl⟩, .inl ⟨nofun, by unfold Foreign; decide, rfl⟩⟩
  · exact ⟨.inl ⟨nofun, rfl⟩, .inl ⟨nofun, rfl⟩, .inr ⟨rfl, rfl, by decide⟩, .inl ⟨nofun, by unfold Foreign; decide, rfl⟩⟩
  · have ha' := ha
    simp only [List.mem_cons, List.not_mem_nil, or_false] at ha'
    rcases ha' with rfl | rfl <;>
      exact ⟨.inl ⟨nofun, rfl⟩, .inl ⟨nofun, rfl⟩, .inl ⟨nofun, rfl⟩, .inl ⟨nofun, by unfold Foreign; decide, rfl⟩⟩
  · exact ⟨.inr ⟨rfl, rfl, rfl⟩, .inl ⟨nofun, rfl⟩, .inl ⟨nofun, rfl⟩, .inl ⟨nofun, by unfold Foreign; decide, rfl⟩⟩
  · exact ⟨.inl ⟨nofun, rfl⟩, .inl ⟨nofun, rfl⟩, .inr ⟨rfl, rfl, by decide⟩, .inl ⟨nofun, by unfold Foreign; decide, rfl⟩⟩
  · exact ⟨.inl ⟨nofun, rfl⟩, .inl ⟨nofun, rfl⟩, .inr ⟨rfl, rfl, by decide⟩, .inl ⟨nofun, by unfold Foreign; decide, rfl⟩⟩
  · obtain ⟨h1, h2, h3, h4, h5, h6⟩ := Shows.not_mem9 ha
    have hn : opaqueName a = pkUnknown a := by simp only [opaqueName, if_neg h2, if_neg h4, if_neg h5, if_neg h6]; rfl
    have h7 : a ∉ [16, 17, 19, 20, 22] := fun hm => ha (by simp only [List.mem_cons, List.not_mem_nil, or_false] at hm ⊢; grind)
    have h8 : a ∉ [1, 2, 3, 16, 20, 18] := fun hm => ha (by simp only [List.mem_cons, List.not_mem_nil, or_false] at hm ⊢; grind)
    refine ⟨.inr ⟨?_, by rw [hn], ?_⟩, .inr ⟨?_, by rw [hn], ha⟩, .inr ⟨?_, by rw [hn], h8⟩, .inr ⟨?_, ha, rfl⟩⟩
    · simp only [sigSlots, if_neg h1, if_neg h2, if_neg h3, if_neg h5, if_neg h6]
    · simp only [sigInts, if_neg h1, if_neg h7]
    · simp only [pubSlots, if_neg h1, if_neg h2, if_neg h3, if_neg h4, if_neg h5, if_neg h6]
    · simp only [sesSlots, if_neg h1, if_neg h3, if_neg h4]
    · simp only [secSlots, if_neg h1, if_neg h2, if_neg h3, if_neg h4, if_neg h5, if_neg h6]

theorem pkSecEnc_run (n : Nat) (a : UInt8) (c p q j) :
    pkSecEnc n a (St.at c p q j) =
      (.ok (), St.at c (p ++ q) [] (j.addAll [leaf (encryptedName a) [] (sizeText n) (dumpIf (ctxFlag Ctx.debug c) q)])) := by
  have key : ∀ name : Str, name = encryptedName a → (do pkSized n name; let _ ← P.seek 0 2; Pure.pure () : P Unit) (St.at c p q j) =
      (.ok (), St.at c (p ++ q) [] (j.addAll [leaf (encryptedName a) [] (sizeText n) (dumpIf (ctxFlag Ctx.debug c) q)])) := by
    rintro name rfl
    rw [bind_run, pkSized_run]
    simp only [bind_run, seek_end, pure_run]
  unfold pkSecEnc
  rcases Lang.pubAlg_cases a with ⟨ha, h⟩ | ⟨rfl, h⟩ | ⟨ha, h⟩ | ⟨rfl, h⟩ | ⟨rfl, h⟩ | ⟨rfl, h⟩ | ⟨ha, h⟩ <;> simp only [h] <;> refine key _ ?_
  · exact (if_pos ha).symm
  · rfl
  · simp only [List.mem_cons, List.not_mem_nil, or_false] at ha
    rcases ha with rfl | rfl <;> rfl
  · rfl
  · rfl
  · rfl
  · obtain ⟨h1, h2, h3, h4, h5, h6⟩ := Shows.not_mem9 ha
    simp only [encryptedName, if_neg h1, if_neg h2, if_neg h3, if_neg h4, if_neg h5, if_neg h6]; rfl

/-- the octets of an unknown secret key -/
theorem unknownPlain_run (n : Nat) (name : Str) (c p q j) :
    (do
      let b ← P.readBytes ((n : Int) - 2)
      let d ← P.flag Ctx.debug
      P.add (newItem name [] (iBytes ((n : Int) - 2)) (dumpBytes b d)) : P Unit) (St.at c p q j) =
    if n = 2 then (.ok (), St.at c p q (j.addAll [leaf name [] (sizeText 0) (dumpIf (ctxFlag Ctx.debug c) [])]))
    else if q = [] then (.err (wrapErr .eof), St.at c p q j)
    else if q.length + 2 < n then (.err (wrapErr .unexpectedEOF), St.at c p q j)
    else if n < 2 then (.panic .sliceRange, St.at c p q j)
    else (.ok (), St.at c (p ++ q.take (n - 2)) (q.drop (n - 2)) (j.addAll [leaf name [] (sizeText (n - 2)) (dumpIf (ctxFlag Ctx.debug c) (q.take (n - 2)))])) := by
  by_cases h2 : 2 ≤ n
  · have e : (n : Int) - 2 = ((n - 2 : Nat) : Int) := by omega
    have ei : ∀ k : Nat, iBytes (k : Int) = sizeText k := by
      intro k
      unfold iBytes sizeText decInt
      rw [if_neg (by omega)]; rfl
    rw [e, bind_run]
    by_cases hq : n - 2 ≤ q.length
    · rw [readBytes_ok _ _ _ _ _ hq]
      simp only [bind_run, flag_run, St.at_ctx, add_run, ei, dumpIf_eq, Item.add_eq]
      by_cases hn : n = 2
      · subst hn
        rw [if_pos rfl]
        simp
        rfl
      · have : q ≠ [] := by rintro rfl; simp only [List.length_nil] at hq; omega
        rw [if_neg hn, if_neg this, if_neg (by omega), if_neg (by omega)]
        rfl
    · rw [readBytes_err _ _ _ _ _ (by omega)]
      have hn : ¬ n = 2 := by omega
      by_cases h0 : q = []
      · rw [if_neg hn, if_pos h0, if_pos h0]
      · rw [if_neg hn, if_neg h0, if_neg h0, if_pos (by omega)]
  · rw [if_neg (by omega), bind_run, readBytes_def]
    have hs : (⟨p ++ q, p.length⟩ : Reader).size = p.length + q.length := by simp [Reader.size]
    unfold Reader.readBytes
    rw [if_neg (by omega)]
    by_cases h0 : q = []
    · subst h0
      rw [if_pos (by rw [hs]; simp), if_pos rfl]
      rfl
    · have := List.length_pos_iff.2 h0
      rw [if_neg (by rw [hs]; simp only; omega), if_neg (by rw [hs]; simp only; omega), if_pos (by omega), if_neg h0, if_neg (by omega), if_pos (by omega)]
      rfl

/-- C96: what a successful call has read and shown. The size it prints is that of the time when the object was made. -/
theorem C96_shown (x : Ctx) (n : Nat) (a : UInt8) (m : PKMethod) (p q : Bytes) (j : Item) {s : St}
    (h : pkCall n a m (St.at (some x) p q j) = (.ok (), s)) :
    ∃ f q' is, q = f ++ q' ∧ s.rd = ⟨p ++ q, (p ++ f).length⟩ ∧ s.cur = j.addAll is ∧ PKShown x.opts n a m f q' is := by
  obtain ⟨c1, c2, c3, c4⟩ := pk_cases n a
  have opq : ∀ {name : Str}, pkSized n name (St.at (some x) p q j) = (.ok (), s) →
      s = St.at (some x) p q (j.addAll [leaf name [] (sizeText n) (dumpIf (x.opts DEBUG) q)]) := by
    intro name h
    rw [pkSized_run] at h
    cases h
    rfl
  have fin : ∀ {m' : P Unit} {slots : UInt8 → Option (List Slot)}, Shows x.opts m' (fun _ => Integers x.opts slots a) → slots a ≠ none →
      m' (St.at (some x) p q j) = (.ok (), s) → pkSlots m = slots →
      ∃ f q' is, q = f ++ q' ∧ s.rd = ⟨p ++ q, (p ++ f).length⟩ ∧ s.cur = j.addAll is ∧ PKShown x.opts n a m f q' is := by
    intro m' slots hs hn hr hm
    obtain ⟨x', f, q', l, -, h2, rfl, h4⟩ := hs x p q j () s rfl hr
    refine ⟨f, q', l, h2, by rw [h2, St.at_rd, List.append_assoc], rfl, ?_⟩
    cases h4 with
    | known ha h => exact .known (by rw [hm]; exact ha) h
    | unknown ha => exact absurd ha hn
  cases m with
  | sig =>
    simp only [pkCall] at h
    rcases c1 with ⟨hn, e⟩ | ⟨hn, e, -⟩
    · rw [e] at h
      exact fin (Shows.parseSig a) hn h rfl
    · rw [e] at h
      have := opq h
      subst this
      exact ⟨[], q, _, rfl, by simp, rfl, .unknown (by simp) hn⟩
  | pub =>
    simp only [pkCall] at h
    rcases c2 with ⟨hn, e⟩ | ⟨hn, e, -⟩
    · rw [e] at h
      exact fin (Shows.parsePub a) hn h rfl
    · rw [e] at h
      have := opq h
      subst this
      exact ⟨[], q, _, rfl, by simp, rfl, .unknown (by simp) hn⟩
  | ses =>
    simp only [pkCall] at h
    rcases c3 with ⟨hn, e⟩ | ⟨hn, e, -⟩
    · rw [e] at h
      exact fin (Shows.parseSes a) hn h rfl
    · rw [e] at h
      have := opq h
      subst this
      exact ⟨[], q, _, rfl, by simp, rfl, .unknown (by simp) hn⟩
  | secPlain =>
    simp only [pkCall] at h
    rcases c4 with ⟨hn, -, e⟩ | ⟨hn, -, e⟩
    · rw [e] at h
      obtain ⟨x', f, q', l, -, h2, rfl, h4⟩ := Shows.parseSecPlain a x p q j () s rfl h
      refine ⟨f, q', l, h2, by rw [h2, St.at_rd, List.append_assoc], rfl, ?_⟩
      cases h4 with
      | known ha h => exact .known ha h
      | unknown ha => exact absurd ha hn
    · rw [e, unknownPlain_run] at h
      split at h
      · rename_i h2
        subst h2
        cases h
        exact ⟨[], q, _, rfl, by simp, rfl, .plain hn rfl⟩
      · split at h
        · cases h
        · split at h
          · cases h
          · split at h
            · cases h
            · cases h
              have hl : (q.take (n - 2)).length = n - 2 := by rw [List.length_take]; omega
              refine ⟨q.take (n - 2), q.drop (n - 2), _, by simp, by simp, rfl, ?_⟩
              have := PKShown.plain (o := x.opts) (n := n) (f := q.take (n - 2)) (q := q.drop (n - 2)) hn (by omega)
              rw [hl] at this
              exact this
  | secEnc =>
    simp only [pkCall] at h
    rw [pkSecEnc_run] at h
    cases h
    exact ⟨q, [], _, by simp, by simp, rfl, .encrypted⟩

theorem pkSized_noerr {n : Nat} {name : Str} {x p q j c} : ¬ ∃ e s, pkSized n name (St.at (some x) p q j) = (.err e, s) ∧ e.cause = c := by
  rintro ⟨e, s, h, -⟩
  rw [pkSized_run] at h
  cases h

/-- C96: when a call fails, and the cause. -/
theorem C96_errors (x : Ctx) (n : Nat) (a : UInt8) (m : PKMethod) (p q : Bytes) (j : Item) (c : Cause) :
    (∃ e s, pkCall n a m (St.at (some x) p q j) = (.err e, s) ∧ e.cause = c) ↔ PKCut n a m c q := by
  obtain ⟨c1, c2, c3, c4⟩ := pk_cases n a
  cases m with
  | sig =>
    simp only [pkCall]
    rcases c1 with ⟨hn, e⟩ | ⟨hn, e, h0⟩
    · rw [e, (Errs.parseSig a).run]
      exact ⟨.sig, by rintro ⟨⟩; assumption⟩
    · rw [e]
      refine ⟨fun h => absurd h pkSized_noerr, ?_⟩
      rintro ⟨⟩
      rename_i h
      rw [h0] at h
      exact absurd h intsCut_zero
  | pub =>
    simp only [pkCall]
    rcases c2 with ⟨hn, e⟩ | ⟨hn, e, h0⟩
    · rw [e, (Errs.parsePub a).run]
      exact ⟨.pub, by rintro ⟨⟩; assumption⟩
    · rw [e]
      refine ⟨fun h => absurd h pkSized_noerr, ?_⟩
      rintro ⟨⟩
      rename_i h
      exfalso
      apply h0
      cases h <;> grind
  | ses =>
    simp only [pkCall]
    rcases c3 with ⟨hn, e⟩ | ⟨hn, e, h0⟩
    · rw [e, (Errs.parseSes a).run]
      exact ⟨.ses, by rintro ⟨⟩; assumption⟩
    · rw [e]
      refine ⟨fun h => absurd h pkSized_noerr, ?_⟩
      rintro ⟨⟩
      rename_i h
      exfalso
      apply h0
      cases h <;> grind
  | secPlain =>
    simp only [pkCall]
    rcases c4 with ⟨hn, hf, e⟩ | ⟨hn, hf, e⟩
    · rw [e, (Errs.parseSecPlain a).run]
      refine ⟨.sec hf, ?_⟩
      intro h
      cases h with
      | sec ha h => exact h
      | none ha => exact absurd ha hf
      | few ha => exact absurd ha hf
    · rw [e, unknownPlain_run]
      constructor
      · rintro ⟨e, s, h, rfl⟩
        split at h
        · cases h
        · split at h
          · cases h
            rename_i h0
            subst h0
            exact .none hf (by assumption)
          · split at h
            · cases h
              exact .few hf (by assumption) (by assumption)
            · split at h <;> cases h
      · intro h
        cases h with
        | sec ha h => exact absurd hf ha
        | none ha hn => exact ⟨_, _, by rw [if_neg hn, if_pos rfl], rfl⟩
        | few ha hq hn => exact ⟨_, _, by rw [if_neg (by omega), if_neg hq, if_pos hn], rfl⟩
  | secEnc =>
    simp only [pkCall, pkSecEnc_run]
    exact ⟨(by rintro ⟨_, _, h, -⟩; cases h), (fun h => by cases h)⟩

/-! ## Histories -/

/-- a value, or an error of a reader that has too few octets -/
def Tidy {α} (r : Res α) : Prop := (∃ a, r = .ok a) ∨ ∃ e, r = .err e ∧ (e.cause = .eof ∨ e.cause = .unexpectedEOF)

/-- reads forward, adds items behind the others, and does not panic -/
structure Fwd {α} (m : P α) : Prop where
  run : ∀ c p q j, ∃ f q' l, q = f ++ q' ∧ (m (St.at c p q j)).2 = St.at c (p ++ f) q' (j.addAll l) ∧ Tidy (m (St.at c p q j)).1

namespace Fwd

theorem same {α} {m : P α} {a : St → α} (h : ∀ st, m st = (.ok (a st), st)) : Fwd m :=
  ⟨fun c p q j => ⟨[], q, [], rfl, by rw [h]; simp [Item.addAll_nil], by rw [h]; exact .inl ⟨_, rfl⟩⟩⟩
theorem pure {α} (a : α) : Fwd (Pure.pure a : P α) := same (a := fun _ => a) fun _ => rfl
theorem flag (f) : Fwd (P.flag f) := same (a := fun st => ctxFlag f st.ctx) fun _ => rfl
theorem reader : Fwd P.reader := same (a := fun st => st.rd) fun _ => rfl
theorem rest : Fwd Gpgpdump.rest := same (a := fun st => st.rd.rest) fun _ => rfl
theorem add (i) : Fwd (P.add i) := ⟨fun c p q j => ⟨[], q, [i], rfl, by rw [add_run, Item.add_eq]; simp, .inl ⟨_, rfl⟩⟩⟩
theorem readBytes (n : Nat) : Fwd (P.readBytes n) := ⟨fun c p q j => by
  by_cases h : n ≤ q.length
  · rw [readBytes_ok _ _ _ _ _ h]
    exact ⟨q.take n, q.drop n, [], by simp, by simp, .inl ⟨_, rfl⟩⟩
  · rw [readBytes_err _ _ _ _ _ (by omega)]
    refine ⟨[], q, [], rfl, by simp, .inr ⟨_, rfl, ?_⟩⟩
    split
    · exact .inl rfl
    · exact .inr rfl⟩
theorem readBytes2 : Fwd (P.readBytes 2) := readBytes 2
theorem readBytes3 : Fwd (P.readBytes 3) := readBytes 3
theorem readBytes8 : Fwd (P.readBytes 8) := readBytes 8
theorem readByte : Fwd P.readByte := ⟨fun c p q j => by
  cases q with
  | nil =>
    rw [readByte_nil]
    exact ⟨[], [], [], rfl, by simp, .inr ⟨_, rfl, .inl rfl⟩⟩
  | cons b q =>
    rw [readByte_cons]
    exact ⟨[b], q, [], rfl, by simp, .inl ⟨_, rfl⟩⟩⟩
theorem bind {α β} {m : P α} {g : α → P β} (h : Fwd m) (h' : ∀ a, Fwd (g a)) : Fwd (m >>= g) := ⟨fun c p q j => by
  obtain ⟨f, q', l, rfl, h2, h3⟩ := h.run c p q j
  rw [bind_run]
  rcases hm : m (St.at c p (f ++ q') j) with ⟨r, s⟩
  rw [hm] at h2 h3
  simp only at h2 h3
  subst h2
  rcases h3 with ⟨a, rfl⟩ | ⟨e, rfl, he⟩
  · obtain ⟨f2, q2, l2, rfl, h5, h6⟩ := (h' a).run c (p ++ f) q' (j.addAll l)
    refine ⟨f ++ f2, q2, l ++ l2, by simp, ?_, h6⟩
    simp only [h5, Item.addAll_addAll, List.append_assoc]
  · exact ⟨f, q', l, rfl, rfl, .inr ⟨e, rfl, he⟩⟩⟩
theorem ite {α} {c : Prop} [Decidable c] {m m' : P α} (h : Fwd m) (h' : Fwd m') : Fwd (if c then m else m') := by
  split <;> assumption
theorem build {i : Item} {m : P Unit} (h : Fwd m) : Fwd (P.build i m) := ⟨fun c p q j => by
  obtain ⟨f, q', l, rfl, h2, h3⟩ := h.run c p q i
  rw [build_run, h2]
  refine ⟨f, q', [], rfl, by rw [Item.addAll_nil]; rfl, ?_⟩
  rcases h3 with ⟨a, h3⟩ | ⟨e, h3, he⟩ <;> rw [h3]
  · exact .inl ⟨_, rfl⟩
  · exact .inr ⟨e, rfl, he⟩⟩

end Fwd

macro "fwd" : tactic => `(tactic| repeat' (first
  | with_reducible apply Fwd.bind
  | intro _
  | with_reducible exact Fwd.pure _
  | with_reducible exact Fwd.readByte
  | with_reducible exact Fwd.readBytes2
  | with_reducible exact Fwd.readBytes3
  | with_reducible exact Fwd.readBytes8
  | with_reducible exact Fwd.readBytes _
  | with_reducible exact Fwd.reader
  | with_reducible exact Fwd.rest
  | with_reducible exact Fwd.flag _
  | with_reducible exact Fwd.add _
  | with_reducible apply Fwd.build
  | with_reducible assumption
  | split
  | dsimp only))

namespace Fwd
theorem newMPI : Fwd newMPI := by unfold Gpgpdump.newMPI; fwd
theorem newOID : Fwd newOID := by unfold Gpgpdump.newOID; fwd
theorem newECParm : Fwd newECParm := by unfold Gpgpdump.newECParm; fwd
theorem addMPI (n) : Fwd (addMPI n) := by have := newMPI; unfold Gpgpdump.addMPI; fwd
theorem addECPoint (n) : Fwd (addECPoint n) := by have := newMPI; unfold Gpgpdump.addECPoint; fwd
theorem addOpaque (n) : Fwd (addOpaque n) := by unfold Gpgpdump.addOpaque Gpgpdump.addRaw; fwd

macro "fwd_fields" : tactic => `(tactic| repeat' (first
  | with_reducible exact Fwd.addMPI _
  | with_reducible exact Fwd.addECPoint _
  | with_reducible exact Fwd.addOpaque _
  | with_reducible exact Fwd.newOID
  | with_reducible exact Fwd.newECParm
  | with_reducible exact Fwd.add _
  | with_reducible exact Fwd.flag _
  | with_reducible apply Fwd.bind
  | intro _
  | split))

theorem parseSig (a) : Fwd (parseSig a) := by unfold Gpgpdump.parseSig; fwd_fields
theorem parsePub (a) : Fwd (parsePub a) := by unfold Gpgpdump.parsePub ecdhPub; fwd_fields
theorem parseSes (a) : Fwd (parseSes a) := by unfold Gpgpdump.parseSes; fwd_fields
theorem parseSecPlain {a} (ha : ¬ Foreign a) : Fwd (parseSecPlain a) := by
  unfold Gpgpdump.parseSecPlain
  split
  case h_7 h => exact absurd (foreign_iff.2 h) ha
  all_goals fwd_fields
theorem sized (n : Nat) (name) : Fwd (pkSized n name) := by unfold pkSized; fwd
theorem secEnc (n : Nat) (a) : Fwd (pkSecEnc n a) :=
  ⟨fun c p q j => by rw [pkSecEnc_run]; exact ⟨q, [], _, by simp, rfl, .inl ⟨_, rfl⟩⟩⟩

/-- every call but one -/
theorem call (n : Nat) (a : UInt8) (m : PKMethod) (h : m = .secPlain → Foreign a → 2 ≤ n) : Fwd (pkCall n a m) := by
  obtain ⟨c1, c2, c3, c4⟩ := pk_cases n a
  cases m with
  | sig =>
    simp only [pkCall]
    rcases c1 with ⟨-, e⟩ | ⟨-, e, -⟩ <;> rw [e]
    · exact parseSig a
    · exact sized n _
  | pub =>
    simp only [pkCall]
    rcases c2 with ⟨-, e⟩ | ⟨-, e, -⟩ <;> rw [e]
    · exact parsePub a
    · exact sized n _
  | ses =>
    simp only [pkCall]
    rcases c3 with ⟨-, e⟩ | ⟨-, e, -⟩ <;> rw [e]
    · exact parseSes a
    · exact sized n _
  | secPlain =>
    simp only [pkCall]
    rcases c4 with ⟨-, hf, e⟩ | ⟨-, hf, e⟩ <;> rw [e]
    · exact parseSecPlain hf
    · rw [show (n : Int) - 2 = ((n - 2 : Nat) : Int) by have := h rfl hf; omega]
      fwd
  | secEnc => exact secEnc n a
end Fwd

/-- C96: when a call panics. -/
theorem C96_panics (c : Option Ctx) (n : Nat) (a : UInt8) (m : PKMethod) (p q : Bytes) (j : Item) :
    (∃ site s, pkCall n a m (St.at c p q j) = (.panic site, s)) ↔ m = .secPlain ∧ Foreign a ∧ n < 2 ∧ q ≠ [] := by
  by_cases h : m = .secPlain → Foreign a → 2 ≤ n
  · constructor
    · rintro ⟨site, s, hp⟩
      obtain ⟨f, q', l, -, -, h3⟩ := (Fwd.call n a m h).run c p q j
      rw [hp] at h3
      rcases h3 with ⟨_, h3⟩ | ⟨_, h3, -⟩ <;> cases h3
    · rintro ⟨h1, h2, h3, -⟩
      have := h h1 h2
      omega
  · have hm : m = .secPlain := Classical.byContradiction fun hm => h fun e => absurd e hm
    have ha : Foreign a := Classical.byContradiction fun ha => h fun _ e => absurd e ha
    have hn : n < 2 := Nat.lt_of_not_le fun hn => h fun _ _ => hn
    subst hm
    obtain ⟨-, -, -, ⟨-, hf, -⟩ | ⟨-, -, e⟩⟩ := pk_cases n a
    · exact absurd ha hf
    · simp only [pkCall]
      rw [e, unknownPlain_run, if_neg (by omega)]
      by_cases h0 : q = []
      · rw [if_pos h0]
        exact ⟨(by rintro ⟨_, _, h⟩; cases h), fun h => absurd h0 h.2.2.2⟩
      · rw [if_neg h0, if_neg (by omega), if_pos hn]
        exact ⟨fun _ => ⟨trivial, ha, hn, h0⟩, fun _ => ⟨_, _, rfl⟩⟩

/-- on an algorithm that is not known nothing is read by these -/
theorem pk_foreign {a : UInt8} (ha : Foreign a) (n : Nat) (c p q j) {m} (hm : m ≠ .secPlain) :
    ∃ l, pkCall n a m (St.at c p q j) = (.ok (), if m = .secEnc then St.at c (p ++ q) [] (j.addAll l) else St.at c p q (j.addAll l)) := by
  have hu := foreign_iff.1 ha
  cases m with
  | sig => simp only [pkCall, pkSig, hu]; rw [pkSized_run]; exact ⟨_, rfl⟩
  | pub => simp only [pkCall, pkPub, hu]; rw [pkSized_run]; exact ⟨_, rfl⟩
  | ses => simp only [pkCall, pkSes, hu]; rw [pkSized_run]; exact ⟨_, rfl⟩
  | secPlain => exact absurd rfl hm
  | secEnc => simp only [pkCall]; rw [pkSecEnc_run]; exact ⟨_, rfl⟩

theorem pkCalls_run (n : Nat) (a : UInt8) (c : Option Ctx) (ms : List PKMethod) (p q : Bytes) (j : Item) :
    (∃ f q' l, q = f ++ q' ∧ (pkCalls n a ms (St.at c p q j)).2 = St.at c (p ++ f) q' (j.addAll l)) ∧
    (((∃ site, .panic site ∈ (pkCalls n a ms (St.at c p q j)).1) ↔
      (Foreign a ∧ n < 2 ∧ q ≠ []) ∧ ∃ before after, ms = before ++ .secPlain :: after ∧ .secEnc ∉ before)) ∧
    (∀ r ∈ (pkCalls n a ms (St.at c p q j)).1, Tidy r ∨ r = .panic .sliceRange) ∧
    ((¬ ∃ site, .panic site ∈ (pkCalls n a ms (St.at c p q j)).1) → (pkCalls n a ms (St.at c p q j)).1.length = ms.length) := by
  induction ms generalizing p q j with
  | nil =>
    refine ⟨⟨[], q, [], rfl, by simp [pkCalls, Item.addAll_nil]⟩, ⟨?_, ?_⟩, ?_, fun _ => rfl⟩
    · rintro ⟨site, h⟩
      cases h
    · rintro ⟨-, b, e, h, -⟩
      cases b <;> cases h
    · intro r h
      cases h
  | cons m ms ih =>
    by_cases hp : ∃ site s, pkCall n a m (St.at c p q j) = (.panic site, s)
    · obtain ⟨rfl, ha, hn, hq⟩ := (C96_panics c n a m p q j).1 hp
      have e : pkCall n a .secPlain (St.at c p q j) = (.panic .sliceRange, St.at c p q j) := by
        obtain ⟨-, -, -, ⟨-, hf, -⟩ | ⟨-, -, e⟩⟩ := pk_cases n a
        · exact absurd ha hf
        · simp only [pkCall]
          rw [e, unknownPlain_run, if_neg (by omega), if_neg hq, if_neg (by omega), if_pos hn]
      have e2 : pkCalls n a (.secPlain :: ms) (St.at c p q j) = ([.panic .sliceRange], St.at c p q j) := by
        rw [pkCalls, e]
      rw [e2]
      refine ⟨⟨[], q, [], rfl, by simp [Item.addAll_nil]⟩, ⟨fun _ => ⟨⟨ha, hn, hq⟩, [], ms, rfl, by simp⟩, fun _ => ⟨.sliceRange, by simp⟩⟩, ?_, ?_⟩
      · intro r hr
        simp only [List.mem_singleton] at hr
        exact .inr hr
      · intro h
        exact absurd ⟨.sliceRange, by simp⟩ h
    · obtain ⟨f, q', l, r, hq, hr, hc⟩ : ∃ f q' l r, q = f ++ q' ∧ pkCall n a m (St.at c p q j) = (r, St.at c (p ++ f) q' (j.addAll l)) ∧ Tidy r := by
        by_cases h : m = .secPlain → Foreign a → 2 ≤ n
        · obtain ⟨f, q', l, h1, h2, h3⟩ := (Fwd.call n a m h).run c p q j
          exact ⟨f, q', l, _, h1, by rw [← h2], h3⟩
        · have hm : m = .secPlain := Classical.byContradiction fun hm => h fun e => absurd e hm
          have ha : Foreign a := Classical.byContradiction fun ha => h fun _ e => absurd e ha
          have hn : n < 2 := Nat.lt_of_not_le fun hn => h fun _ _ => hn
          subst hm
          have h0 : q = [] := Classical.byContradiction fun h0 => hp ((C96_panics c n a .secPlain p q j).2 ⟨rfl, ha, hn, h0⟩)
          obtain ⟨-, -, -, ⟨-, hf, -⟩ | ⟨-, -, e⟩⟩ := pk_cases n a
          · exact absurd ha hf
          · refine ⟨[], q, [], .err (wrapErr .eof), rfl, ?_, .inr ⟨_, rfl, .inl rfl⟩⟩
            simp only [pkCall]
            rw [e, unknownPlain_run, if_neg (by omega), if_pos h0]
            simp [Item.addAll_nil]
      have e2 : pkCalls n a (m :: ms) (St.at c p q j) =
          (r :: (pkCalls n a ms (St.at c (p ++ f) q' (j.addAll l))).1, (pkCalls n a ms (St.at c (p ++ f) q' (j.addAll l))).2) := by
        rw [pkCalls, hr]
        rcases hc with ⟨_, rfl⟩ | ⟨_, rfl, -⟩ <;> rfl
      have hr0 : ∀ site, r ≠ .panic site := by
        rintro site rfl
        rcases hc with ⟨_, h⟩ | ⟨_, h, -⟩ <;> cases h
      obtain ⟨⟨f2, q2, l2, h1, h2⟩, h3, h4, h5⟩ := ih (p ++ f) q' (j.addAll l)
      rw [e2]
      have hpan : (∃ site, Res.panic site ∈ r :: (pkCalls n a ms (St.at c (p ++ f) q' (j.addAll l))).1) ↔
          ∃ site, Res.panic site ∈ (pkCalls n a ms (St.at c (p ++ f) q' (j.addAll l))).1 := by
        constructor
        · rintro ⟨site, h⟩
          rcases List.mem_cons.1 h with h | h
          · exact absurd h.symm (hr0 site)
          · exact ⟨site, h⟩
        · rintro ⟨site, h⟩
          exact ⟨site, List.mem_cons_of_mem _ h⟩
      refine ⟨⟨f ++ f2, q2, l ++ l2, by rw [hq, h1, List.append_assoc], by rw [h2, Item.addAll_addAll, List.append_assoc]⟩, ?_, ?_, ?_⟩
      · rw [hpan, h3]
        constructor
        · rintro ⟨⟨ha, hn, hq'⟩, b, e, rfl, hb⟩
          have hq0 : q ≠ [] := by rintro rfl; simp only [List.nil_eq, List.append_eq_nil_iff] at hq; exact hq' hq.2
          refine ⟨⟨ha, hn, hq0⟩, m :: b, e, rfl, ?_⟩
          intro hm
          rcases List.mem_cons.1 hm with rfl | hm
          · rw [show pkCall n a .secEnc = pkSecEnc n a from rfl, pkSecEnc_run] at hr
            have := congrArg (fun x => x.2.rd) hr
            simp only [St.at_rd, Reader.mk.injEq, List.length_append] at this
            have h0 : f.length = q.length := by omega
            rw [hq, List.length_append] at h0
            exact hq' (List.length_eq_zero_iff.1 (by omega))
          · exact hb hm
        · rintro ⟨⟨ha, hn, hq0⟩, b, e, hb, hbe⟩
          have hm : m ≠ .secPlain := fun hm => hp ((C96_panics c n a m p q j).2 ⟨hm, ha, hn, hq0⟩)
          cases b with
          | nil => exact absurd (List.cons.inj hb).1 hm
          | cons m' b =>
            obtain ⟨rfl, rfl⟩ := List.cons.inj hb
            have hm2 : m ≠ .secEnc := fun h => hbe (h ▸ List.mem_cons_self)
            obtain ⟨l', hr'⟩ := pk_foreign ha n c p q j hm
            rw [hr', if_neg hm2] at hr
            have := congrArg (fun x => x.2.rd) hr
            simp only [St.at_rd, Reader.mk.injEq, List.length_append] at this
            have h0 : f = [] := List.length_eq_zero_iff.1 (by omega)
            subst h0
            exact ⟨⟨ha, hn, by rw [← List.nil_append q', ← hq]; exact hq0⟩, b, e, rfl, fun h => hbe (List.mem_cons_of_mem _ h)⟩
      · intro r' h
        rcases List.mem_cons.1 h with rfl | h
        · exact .inl hc
        · exact h4 r' h
      · intro h
        rw [hpan] at h
        rw [List.length_cons, h5 h, List.length_cons]

/-- C96: any calls in any order on one object, in any context: the octets are read forward and each at most once, the items that were
there stay, each call gives a value or the error of missing octets, and the only panic is the one of `ParseSecPlain` on an algorithm that
is not known, with exactly one octet there when the object was made, and not yet read. -/
theorem C96_history (c : Option Ctx) (a : UInt8) (ms : List PKMethod) (p q : Bytes) (j : Item) :
    (∃ f q' l, q = f ++ q' ∧ (pkHistory a ms (St.at c p q j)).2 = St.at c (p ++ f) q' (j.addAll l)) ∧
    ((∃ site, .panic site ∈ (pkHistory a ms (St.at c p q j)).1) ↔
      Foreign a ∧ q.length = 1 ∧ ∃ before after, ms = before ++ .secPlain :: after ∧ .secEnc ∉ before) ∧
    (∀ r ∈ (pkHistory a ms (St.at c p q j)).1, r = .ok () ∨ (∃ e, r = .err e ∧ (e.cause = .eof ∨ e.cause = .unexpectedEOF)) ∨ r = .panic .sliceRange) ∧
    ((¬ ∃ site, .panic site ∈ (pkHistory a ms (St.at c p q j)).1) → (pkHistory a ms (St.at c p q j)).1.length = ms.length) := by
  have hn : (St.at c p q j).rd.rest = (q.length : Int) := by rw [St.at_rd, rest_eq]
  unfold pkHistory
  rw [hn]
  obtain ⟨h1, h2, h3, h4⟩ := pkCalls_run q.length a c ms p q j
  refine ⟨h1, ?_, ?_, h4⟩
  · rw [h2]
    constructor
    · rintro ⟨⟨ha, hl, h0⟩, h⟩
      have := List.length_pos_iff.2 h0
      exact ⟨ha, by omega, h⟩
    · rintro ⟨ha, hl, h⟩
      exact ⟨⟨ha, by omega, by rintro rfl; cases hl⟩, h⟩
  · intro r hr
    rcases h3 r hr with (⟨_, h⟩ | h) | h
    · exact .inl h
    · exact .inr (.inl h)
    · exact .inr (.inr h)

/-! ## S2K -/

/-- the result of `s2kParse` out of that of `s2kMarked` -/
def s2kCollapse : Res (Bool × Option GoErr) × St → Res Bool × St
  | (.ok (g, none), s) => (.ok (!g), s)
  | (.ok (_, some e), s) => (.err e, s)
  | (.err e, s) => (.err e, s)
  | (.panic x, s) => (.panic x, s)
  | (.stuck, s) => (.stuck, s)

structure Coll (m : P Bool) (m' : P (Bool × Option GoErr)) : Prop where
  run : ∀ st, m st = s2kCollapse (m' st)

namespace Coll
theorem bind {α} {m : P α} {g g'} (h : ∀ a, Coll (g a) (g' a)) : Coll (m >>= g) (m >>= g') := ⟨fun st => by
  rw [bind_run, bind_run]
  rcases m st with ⟨_ | _ | _ | _, s⟩
  · exact (h _).run _
  · rfl
  · rfl
  · rfl⟩
theorem no : Coll (Pure.pure true) (Pure.pure (false, none)) := ⟨fun _ => rfl⟩
theorem ite {c : Prop} [Decidable c] {m n m' n'} (h : Coll m m') (h' : Coll n n') : Coll (if c then m else n) (if c then m' else n') := by
  split <;> assumption
theorem nested (i : Item) {m m'} (h : Coll m m') : Coll (P.nested i m) (P.nested i m') := ⟨fun st => by
  have e : ∀ {α} (m : P α), P.nested i m st = ((m { st with cur := i }).1, { (m { st with cur := i }).2 with cur := st.cur.add (m { st with cur := i }).2.cur }) := fun _ => rfl
  rw [e, e, h.run]
  rcases m' { st with cur := i } with ⟨⟨_, _ | _⟩ | _ | _ | _, s⟩ <;> rfl⟩
theorem caught (m : P Unit) : Coll (m >>= fun _ => Pure.pure false) (P.caught m >>= fun e => Pure.pure (true, e)) := ⟨fun st => by
  rw [bind_run, bind_run]
  unfold P.caught
  rcases m st with ⟨_ | _ | _ | _, s⟩ <;> rfl⟩
theorem s2k (d) : Coll (s2kParse d) (s2kMarked d) := by
  unfold s2kParse s2kMarked
  refine bind fun ss => nested _ (ite ?_ (ite (bind fun _ => ite no (bind fun _ => ite ?_ (bind fun _ => no))) no))
  · refine bind fun _ => bind fun _ => ?_
    simp only
    split
    · refine bind fun _ => bind fun _ => ?_
      split
      · exact bind fun _ => bind fun _ => no
      · exact no
    · split
      · exact bind fun _ => bind fun _ => no
      · exact no
  · have := caught (do
            let n ← P.readByte
            let enum := 1000 + n.toNat
            let gnu ← P.build (newItem (S "GNU-divert-to-card") (S "Extension Number " ++ dec enum)) (do
              if enum = 1002 then
                let l ← P.readByte
                let ser ← P.readBytes l.toNat
                P.add (newItem (S "Serial Number") [] [] (dumpBytes ser true))
              else Pure.pure ())
            P.add gnu)
    simp only [bind_assoc_P] at this ⊢
    exact this
end Coll

/-- runs to a value, forward -/
structure S2KRun (m : P (Bool × Option GoErr)) (M : Bytes → Prop) : Prop where
  run : ∀ c p q j, ∃ f q' l r, q = f ++ q' ∧ m (St.at c p q j) = (r, St.at c (p ++ f) q' (j.addAll l)) ∧
    ((∃ g e, r = .ok (g, e) ∧ (g = true ↔ M q) ∧ (g = false → e = none) ∧ ∀ x, e = some x → x.cause = .eof ∨ x.cause = .unexpectedEOF) ∨
      ∃ e, r = .err e ∧ (e.cause = .eof ∨ e.cause = .unexpectedEOF) ∧ ¬ M q)

namespace S2KRun
theorem plain {m : P Unit} (h : Fwd m) : S2KRun (m >>= fun _ => Pure.pure (false, none)) (fun _ => False) := ⟨fun c p q j => by
  obtain ⟨f, q', l, h1, h2, h3⟩ := h.run c p q j
  rw [bind_run]
  rcases hm : m (St.at c p q j) with ⟨r, s⟩
  rw [hm] at h2 h3
  simp only at h2 h3
  subst h2
  rcases h3 with ⟨a, rfl⟩ | ⟨e, rfl, he⟩
  · exact ⟨f, q', l, _, h1, rfl, .inl ⟨false, none, rfl, by simp, fun _ => rfl, nofun⟩⟩
  · exact ⟨f, q', l, _, h1, rfl, .inr ⟨e, rfl, he, nofun⟩⟩⟩
theorem nested (i : Item) {m M} (h : S2KRun m M) : S2KRun (P.nested i m) M := ⟨fun c p q j => by
  obtain ⟨f, q', l, r, h1, h2, h3⟩ := h.run c p q i
  refine ⟨f, q', [i.addAll l], r, h1, ?_, h3⟩
  rw [nested_run, h2]
  simp only [Item.add_eq]
  rfl⟩

theorem read3 (c p) (a b d : UInt8) (q j) :
    P.readBytes 3 (St.at c p (a :: b :: d :: q) j) = (.ok [a, b, d], St.at c (p ++ [a, b, d]) q j) := readBytes_append c p [a, b, d] q j

theorem gnu {m : P Unit} (h : Fwd m) : S2KRun (do
      if (← rest) < 4 then Pure.pure (false, none)
      else
        let mrk ← P.readBytes 3
        if mrk = [0x47, 0x4e, 0x55] then
          let e ← P.caught m
          Pure.pure (true, e)
        else
          let _ ← P.seek (-3) 1
          Pure.pure (false, none)) (fun q => ∃ n r, q = 0x47 :: 0x4e :: 0x55 :: n :: r) := ⟨fun c p q j => by
  rw [bind_run, rest_run]
  simp only
  match q with
  | [] => exact ⟨[], [], [], _, rfl, by simp [Item.addAll_nil]; rfl, .inl ⟨false, none, rfl, by simp, fun _ => rfl, nofun⟩⟩
  | [a] => exact ⟨[], [a], [], _, rfl, by simp [Item.addAll_nil]; rfl, .inl ⟨false, none, rfl, by simp, fun _ => rfl, nofun⟩⟩
  | [a, b] => exact ⟨[], [a, b], [], _, rfl, by simp [Item.addAll_nil]; rfl, .inl ⟨false, none, rfl, by simp, fun _ => rfl, nofun⟩⟩
  | [a, b, d] => exact ⟨[], [a, b, d], [], _, rfl, by simp [Item.addAll_nil]; rfl, .inl ⟨false, none, rfl, by simp, fun _ => rfl, nofun⟩⟩
  | a :: b :: d :: n :: r =>
    rw [if_neg (by simp only [List.length_cons]; omega), bind_run, read3]
    simp only
    by_cases hm : [a, b, d] = [0x47, 0x4e, 0x55]
    · rw [if_pos hm, bind_run]
      simp only [List.cons.injEq, and_true] at hm
      obtain ⟨rfl, rfl, rfl⟩ := hm
      obtain ⟨f, q', l, h1, h2, h3⟩ := h.run c (p ++ [0x47, 0x4e, 0x55]) (n :: r) j
      unfold P.caught
      rcases hm : m (St.at c (p ++ [0x47, 0x4e, 0x55]) (n :: r) j) with ⟨x, s⟩
      rw [hm] at h2 h3
      simp only at h2 h3
      subst h2
      rcases h3 with ⟨_, rfl⟩ | ⟨e, rfl, he⟩
      · exact ⟨0x47 :: 0x4e :: 0x55 :: f, q', l, .ok (true, none), by rw [h1]; rfl, by simp [pure_run],
          .inl ⟨true, none, rfl, by simp, nofun, nofun⟩⟩
      · exact ⟨0x47 :: 0x4e :: 0x55 :: f, q', l, .ok (true, some e), by rw [h1]; rfl, by simp [pure_run],
          .inl ⟨true, some e, rfl, by simp, nofun, by rintro _ ⟨⟩; exact he⟩⟩
    · rw [if_neg hm, bind_run, seek_back3 _ _ _ _ _ rfl]
      refine ⟨[], a :: b :: d :: n :: r, [], _, rfl, by simp [Item.addAll_nil]; rfl, .inl ⟨false, none, rfl, ?_, fun _ => rfl, nofun⟩⟩
      constructor
      · intro h
        cases h
      · rintro ⟨n', r', h⟩
        simp only [List.cons.injEq] at h
        obtain ⟨rfl, rfl, rfl, -⟩ := h
        exact absurd rfl hm⟩

theorem s2k (d) : S2KRun (s2kMarked d) GnuMark := ⟨fun c p q j => by
  cases q with
  | nil =>
    refine ⟨[], [], [], .err (wrapErr .eof), rfl, ?_, .inr ⟨_, rfl, .inl rfl, by rintro ⟨_, _, h⟩; cases h⟩⟩
    unfold s2kMarked
    rw [bind_run, readByte_nil]
    simp [Item.addAll_nil]
  | cons ss q =>
    have key : ∀ {m : P (Bool × Option GoErr)} {M : Bytes → Prop}, S2KRun m M → (M q ↔ GnuMark (ss :: q)) →
        ∃ f q' l r, ss :: q = f ++ q' ∧ m (St.at c (p ++ [ss]) q j) = (r, St.at c (p ++ f) q' (j.addAll l)) ∧
          ((∃ g e, r = .ok (g, e) ∧ (g = true ↔ GnuMark (ss :: q)) ∧ (g = false → e = none) ∧ ∀ x, e = some x → x.cause = .eof ∨ x.cause = .unexpectedEOF) ∨
            ∃ e, r = .err e ∧ (e.cause = .eof ∨ e.cause = .unexpectedEOF) ∧ ¬ GnuMark (ss :: q)) := by
      intro m M h hM
      obtain ⟨f, q', l, r, h1, h2, h3⟩ := h.run c (p ++ [ss]) q j
      refine ⟨ss :: f, q', l, r, by rw [h1]; rfl, by rw [h2]; simp, ?_⟩
      rw [← hM]
      exact h3
    unfold s2kMarked
    rw [bind_run, readByte_cons]
    simp only
    by_cases h0 : ss = 0 ∨ ss = 1 ∨ ss = 3
    · simp only [if_pos h0]
      refine key (M := fun _ => False) (nested _ ?_) ⟨nofun, ?_⟩
      · have := plain (m := do
            let hashid ← P.readByte
            P.add (hashItem hashid d)
            if ss ≠ 0x00 then
              let salt ← P.readBytes 8
              P.add (saltItem salt true)
            else Pure.pure ()
            if ss = 0x03 then
              let ct ← P.readByte
              P.add (stretchItem ct)
            else Pure.pure ()) (by fwd)
        rcases h0 with rfl | rfl | rfl
        · simp only [if_neg (show ¬ (0 : UInt8) ≠ 0 by decide), if_neg (show ¬ (0 : UInt8) = 3 by decide), bind_assoc_P, pure_bind_P] at this ⊢
          exact this
        · simp only [if_pos (show (1 : UInt8) ≠ 0 by decide), if_neg (show ¬ (1 : UInt8) = 3 by decide), bind_assoc_P, pure_bind_P] at this ⊢
          exact this
        · simp only [if_pos (show (3 : UInt8) ≠ 0 by decide), if_true, bind_assoc_P] at this ⊢
          exact this
      · rintro ⟨n, r, h⟩
        cases h
        simp at h0
    · simp only [if_neg h0]
      by_cases h1 : ss = 101
      · subst h1
        simp only [if_true]
        refine key (nested _ (gnu ?_)) ⟨?_, ?_⟩
        · fwd
        · rintro ⟨n, r, h⟩
          exact ⟨n, r, by rw [h]⟩
        · rintro ⟨n, r, h⟩
          exact ⟨n, r, (List.cons.inj h).2⟩
      · simp only [if_neg h1]
        refine key (M := fun _ => False) (nested _ ?_) ⟨nofun, ?_⟩
        · exact plain (m := Pure.pure ()) (Fwd.pure _)
        · rintro ⟨n, r, h⟩
          exact h1 (List.cons.inj h).1⟩
end S2KRun

/-- C96: one call of `Parse` of an `S2K`: it does what `s2kParse` does, and the object keeps or loses the IV. -/
theorem C96_s2k (d iv : Bool) (c : Option Ctx) (p q : Bytes) (j : Item) :
    (∃ f q' l, q = f ++ q' ∧ (S2KPtr.parse d (some iv) (St.at c p q j)).2.2 = St.at c (p ++ f) q' (j.addAll l)) ∧
    (S2KPtr.hasIV (S2KPtr.parse d (some iv) (St.at c p q j)).2.1 = some true ↔ iv = true ∧ ¬ GnuMark q) ∧
    (S2KPtr.hasIV (S2KPtr.parse d (some iv) (St.at c p q j)).2.1 = some false ↔ iv = false ∨ GnuMark q) ∧
    ((S2KPtr.parse d (some iv) (St.at c p q j)).1 = .ok () ∨
      ∃ e, (S2KPtr.parse d (some iv) (St.at c p q j)).1 = .err e ∧ (e.cause = .eof ∨ e.cause = .unexpectedEOF)) ∧
    s2kParse d (St.at c p q j) = ((S2KPtr.parse d (some iv) (St.at c p q j)).1.map fun _ => S2KPtr.hasIV (S2KPtr.parse d .new (St.at c p q j)).2.1 == some true,
      (S2KPtr.parse d (some iv) (St.at c p q j)).2.2) := by
  obtain ⟨f, q', l, r, h1, h2, h3⟩ := (S2KRun.s2k d).run c p q j
  have hc := (Coll.s2k d).run (St.at c p q j)
  simp only [S2KPtr.parse, S2KPtr.new, S2KPtr.hasIV]
  rw [h2] at hc ⊢
  rcases h3 with ⟨g, e, rfl, hg, he, hx⟩ | ⟨e, rfl, he, hg⟩
  · rw [← hg]
    cases e with
    | none =>
      refine ⟨⟨f, q', l, h1, rfl⟩, by simp, by cases iv <;> cases g <;> simp, .inl rfl, ?_⟩
      rw [hc]
      cases g <;> rfl
    | some e =>
      have : g = true := by cases g with
        | false => cases he rfl
        | true => rfl
      subst this
      exact ⟨⟨f, q', l, h1, rfl⟩, by simp, by cases iv <;> simp, .inr ⟨e, rfl, hx e rfl⟩, by rw [hc]; rfl⟩
  · exact ⟨⟨f, q', l, h1, rfl⟩, by simp [hg], by simp [hg], .inr ⟨e, rfl, he⟩, by rw [hc]; rfl⟩

theorem s2k_step (c : Option Ctx) (d iv : Bool) (p q : Bytes) (j : Item) :
    ∃ f q' l iv', q = f ++ q' ∧ (S2KPtr.parse d (some iv) (St.at c p q j)).2 = (some iv', St.at c (p ++ f) q' (j.addAll l)) ∧
      (iv' = false ↔ iv = false ∨ GnuMark q) := by
  obtain ⟨⟨f, q', l, h1, h2⟩, h3, h4, -⟩ := C96_s2k d iv c p q j
  obtain ⟨iv1, h5⟩ : ∃ iv1, (S2KPtr.parse d (some iv) (St.at c p q j)).2.1 = some iv1 := by
    by_cases h : iv = true ∧ ¬ GnuMark q
    · exact ⟨_, h3.2 h⟩
    · refine ⟨_, h4.2 ?_⟩
      cases iv with
      | false => exact .inl rfl
      | true => exact .inr (Classical.byContradiction fun hg => h ⟨rfl, hg⟩)
  simp only [h5, S2KPtr.hasIV, Option.some.injEq] at h4
  exact ⟨f, q', l, iv1, h1, Prod.ext h5 h2, h4⟩

theorem s2k_fwd (c : Option Ctx) (ds : List Bool) (iv : Bool) (p q : Bytes) (j : Item) :
    ∃ f q' l iv', q = f ++ q' ∧ S2KPtr.parses ds (some iv) (St.at c p q j) = (some iv', St.at c (p ++ f) q' (j.addAll l)) := by
  induction ds generalizing iv p q j with
  | nil => exact ⟨[], q, [], iv, rfl, by simp [S2KPtr.parses, Item.addAll_nil]⟩
  | cons d ds ih =>
    obtain ⟨f, q', l, iv1, rfl, h2, -⟩ := s2k_step c d iv p q j
    obtain ⟨f2, q2, l2, iv', rfl, h6⟩ := ih iv1 (p ++ f) q' (j.addAll l)
    exact ⟨f ++ f2, q2, l ++ l2, iv', by simp, by rw [S2KPtr.parses, h2, h6, Item.addAll_addAll, List.append_assoc]⟩

theorem s2k_parses (c : Option Ctx) (ds : List Bool) (iv : Bool) (p q : Bytes) (j : Item) :
    ∃ f q' l iv', q = f ++ q' ∧ S2KPtr.parses ds (some iv) (St.at c p q j) = (some iv', St.at c (p ++ f) q' (j.addAll l)) ∧
    (iv' = false ↔ iv = false ∨ ∃ before d after f q' l, ds = before ++ d :: after ∧ q = f ++ q' ∧
        (S2KPtr.parses before (some iv) (St.at c p q j)).2 = St.at c (p ++ f) q' (j.addAll l) ∧ GnuMark q') := by
  induction ds generalizing iv p q j with
  | nil =>
    refine ⟨[], q, [], iv, rfl, by simp [S2KPtr.parses, Item.addAll_nil], ⟨.inl, ?_⟩⟩
    rintro (h | ⟨b, d, e, _, _, _, h, -⟩)
    · exact h
    · cases b <;> cases h
  | cons d ds ih =>
    obtain ⟨f, q', l, iv1, rfl, h2, h4⟩ := s2k_step c d iv p q j
    have e : ∀ ds, S2KPtr.parses (d :: ds) (some iv) (St.at c p (f ++ q') j) = S2KPtr.parses ds (some iv1) (St.at c (p ++ f) q' (j.addAll l)) := by
      intro ds
      rw [S2KPtr.parses, h2]
    obtain ⟨f2, q2, l2, iv', rfl, h6, h7⟩ := ih iv1 (p ++ f) q' (j.addAll l)
    refine ⟨f ++ f2, q2, l ++ l2, iv', by simp, by rw [e, h6, Item.addAll_addAll, List.append_assoc], ?_⟩
    rw [h7, h4]
    constructor
    · rintro ((h | h) | ⟨b, d', a, f3, q3, l3, rfl, h8, h9, hg⟩)
      · exact .inl h
      · exact .inr ⟨[], d, ds, [], _, [], rfl, rfl, by simp [S2KPtr.parses, Item.addAll_nil], h⟩
      · exact .inr ⟨d :: b, d', a, f ++ f3, q3, l ++ l3, rfl, by rw [h8, List.append_assoc],
          by rw [e, h9, Item.addAll_addAll, List.append_assoc], hg⟩
    · rintro (h | ⟨b, d', a, f3, q3, l3, h8, h9, h10, hg⟩)
      · exact .inl (.inl h)
      · cases b with
        | nil =>
          have := congrArg (fun s => s.rd.off) h10
          simp only [S2KPtr.parses, St.at_rd, List.length_append] at this
          have h0 : f3 = [] := List.length_eq_zero_iff.1 (by omega)
          subst h0
          exact .inl (.inr (by rw [h9]; exact hg))
        | cons d0 b =>
          obtain ⟨rfl, rfl⟩ := List.cons.inj h8
          obtain ⟨f4, q4, l4, iv4, h11, h12⟩ := s2k_fwd c b iv1 (p ++ f) (f2 ++ q2) (j.addAll l)
          rw [e, h12] at h10
          have := congrArg (fun s => s.rd.off) h10
          simp only [St.at_rd, List.length_append] at this
          rw [h11, ← List.append_assoc] at h9
          have h13 := List.append_inj' h9 (by have := congrArg List.length h9; simp only [List.length_append] at this; omega)
          exact .inr ⟨b, d', a, f4, q4, l4, rfl, h11, by rw [h12], by rw [h13.2]; exact hg⟩

/-- C96: any number of calls of `Parse` on one `S2K`: there is no IV as soon as one of them met the marker, and it does not come back. -/
theorem C96_s2k_history (c : Option Ctx) (ds : List Bool) (p q : Bytes) (j : Item) :
    (∃ f q' l, q = f ++ q' ∧ (S2KPtr.parses ds .new (St.at c p q j)).2 = St.at c (p ++ f) q' (j.addAll l)) ∧
    (S2KPtr.hasIV (S2KPtr.parses ds .new (St.at c p q j)).1 = some true ∨ S2KPtr.hasIV (S2KPtr.parses ds .new (St.at c p q j)).1 = some false) ∧
    (S2KPtr.hasIV (S2KPtr.parses ds .new (St.at c p q j)).1 = some false ↔
      ∃ before d after f q' l, ds = before ++ d :: after ∧ q = f ++ q' ∧
        (S2KPtr.parses before .new (St.at c p q j)).2 = St.at c (p ++ f) q' (j.addAll l) ∧ GnuMark q') := by
  obtain ⟨f, q', l, iv, h1, h2, h3⟩ := s2k_parses c ds true p q j
  unfold S2KPtr.new
  rw [h2]
  refine ⟨⟨f, q', l, h1, rfl⟩, by cases iv <;> simp [S2KPtr.hasIV], ?_⟩
  simp only [S2KPtr.hasIV, Option.some.injEq]
  rw [h3]
  simp

/-- C96: a nil `*S2K`: `Parse` does nothing, `HasIV` panics. -/
theorem C96_s2k_nil (ds : List Bool) (st : St) : S2KPtr.parses ds none st = (none, st) ∧ S2KPtr.hasIV (S2KPtr.parses ds none st).1 = none := by
  induction ds with
  | nil => exact ⟨rfl, rfl⟩
  | cons d ds ih => exact ih

/-! ## Concrete cases -/

/-- The second call on a known algorithm finds nothing; the object of an
algorithm that is not known shows the size it had when it was made -/
example : (pkHistory 1 [.sig, .sig] (St.at none [] [0, 9, 1, 7] (newItem []))).1 = [.ok (), .err (wrapErr .eof)] := by rfl
example : (pkHistory 99 [.secEnc, .sig] (St.at none [] [5, 6, 7] (newItem []))).2 =
    St.at none [5, 6, 7] [] ((newItem []).addAll [leaf (encryptedName 99) [] (sizeText 3) [], leaf (opaqueName 99) [] (sizeText 3) []]) := by rfl
/-- one octet, an algorithm that is not known -/
example : (pkHistory 99 [.pub, .secPlain, .sig] (St.at none [] [5] (newItem []))).1 = [.ok (), .panic .sliceRange] := by rfl
example : (pkHistory 99 [.secEnc, .secPlain, .sig] (St.at none [] [5] (newItem []))).1 = [.ok (), .err (wrapErr .eof), .ok ()] := by rfl
example : Foreign 99 ∧ PKCut 5 99 .secPlain .unexpectedEOF [1, 2] := ⟨by unfold Foreign; decide, .few (by unfold Foreign; decide) (by simp) (by decide)⟩
example : PKCut 1 1 .sig .eof [] ∧ PKCut 5 99 .secPlain .eof [] :=
  ⟨.sig (.here (.length (.none (by decide)))), .none (by unfold Foreign; decide) (by decide)⟩
/-- the marker, also when the octets after it are missing, and an object that is used again -/
example : GnuMark [101, 0x47, 0x4e, 0x55, 2, 9] := ⟨2, [9], rfl⟩
example : (S2KPtr.parse true .new (St.at none [] [101, 0x47, 0x4e, 0x55, 2, 9] (newItem []))).1 = .err (wrapErr .eof) ∧
    (S2KPtr.parse true .new (St.at none [] [101, 0x47, 0x4e, 0x55, 2, 9] (newItem []))).2.1 = some false := by
  constructor <;> rfl
example : (S2KPtr.parses [true, false] .new (St.at none [] [101, 0x47, 0x4e, 0x55, 1, 0, 8] (newItem []))).1 = some false ∧
    (S2KPtr.parses [true, false] .new (St.at none [] [0, 8, 101, 0x47, 0x4e] (newItem []))).1 = some true := by
  constructor <;> rfl

end Gpgpdump
