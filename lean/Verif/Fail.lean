import Verif.Panic
import Verif.SpecFail

/-!
# Which octets a parse method rejects, and with what error

`Errs m E`: run with a context, the octets `p` read and `q` unread, the method `m` returns an error with the root cause `c` exactly if
`E c p q`. The rule for a sequence uses the accepted language (`Lang`, `Sub`) of its first step.
-/

namespace Gpgpdump
open P

structure Errs {α} (m : P α) (E : Cause → Bytes → Bytes → Prop) : Prop where
  run : ∀ x p q j c, (∃ e s, m (St.at (some x) p q j) = (.err e, s) ∧ e.cause = c) ↔ E c p q

/-- never -/
abbrev Firm {α} (m : P α) : Prop := Errs m (fun _ _ _ => False)

theorem bind_err {α β} {m : P α} {g : α → P β} {st : St} {c : Cause} :
    (∃ e s, (m >>= g) st = (.err e, s) ∧ e.cause = c) ↔
      (∃ e s, m st = (.err e, s) ∧ e.cause = c) ∨ ∃ a s', m st = (.ok a, s') ∧ ∃ e s, g a s' = (.err e, s) ∧ e.cause = c := by
  rw [bind_run]
  rcases m st with ⟨r, s⟩
  cases r with
  | ok a =>
    constructor
    · intro h; exact .inr ⟨a, s, rfl, h⟩
    · rintro (⟨e, s, h, -⟩ | ⟨_, _, h, h'⟩)
      · cases h
      · cases h; exact h'
  | err e =>
    constructor
    · rintro ⟨_, _, h, h'⟩; cases h; exact .inl ⟨_, _, rfl, h'⟩
    · rintro (⟨_, _, h, h'⟩ | ⟨_, _, h, -⟩)
      · cases h; exact ⟨_, _, rfl, h'⟩
      · cases h
  | panic => simp
  | stuck => simp

/-! ## The fields -/

theorem shortIn_cons {n ns c q} : Spec.ShortIn (n :: ns) c q ↔ Spec.Short n c q ∨ ∃ f r, q = f ++ r ∧ f.length = n ∧ Spec.ShortIn ns c r := by
  constructor
  · intro h
    cases h with
    | here h => exact .inl h
    | later hf h => exact .inr ⟨_, _, rfl, hf, h⟩
  · rintro (h | ⟨f, r, rfl, hf, h⟩)
    · exact .here h
    · exact .later hf h

theorem shortIn_nil {c q} : ¬ Spec.ShortIn [] c q := nofun

theorem short_one {c q} : Spec.Short 1 c q ↔ q = [] ∧ c = .eof := by
  constructor
  · intro h
    cases h with
    | none => exact ⟨rfl, rfl⟩
    | some h0 h => exact absurd (List.eq_nil_of_length_eq_zero (by omega)) h0
  · rintro ⟨rfl, rfl⟩; exact .none (by decide)

theorem short_zero {c q} : ¬ Spec.Short 0 c q := by
  intro h
  cases h with
  | none h => exact h rfl
  | some _ h => omega

namespace Errs
variable {α β : Type}

theorem congr {m : P α} {A A' : Cause → Bytes → Bytes → Prop} (h : Errs m A) (e : ∀ c p q, A c p q ↔ A' c p q) : Errs m A' :=
  ⟨fun x p q j c => (h.run x p q j c).trans (e c p q)⟩

theorem idle {m : P α} (h : Idle m) : Firm m := by
  constructor
  intro x p q j c
  obtain ⟨a, x', j', h1⟩ := h.run x p q j
  simp [h1]

/-- a method that always succeeds -/
theorem of_oks {m : P α} {A : Bytes → Bytes → Prop} (h : Oks m A) (ha : ∀ p q, A p q) : Firm m := by
  constructor
  intro x p q j c
  obtain ⟨a, s, h1⟩ := h.complete x p q j (ha p q)
  simp [h1]

theorem fail (e : GoErr) : Errs (P.fail e : P α) (fun c _ _ => c = e.cause) := by
  constructor
  intro x p q j c
  rw [fail_run]
  constructor
  · rintro ⟨e', s, h, rfl⟩; cases h; rfl
  · rintro rfl; exact ⟨e, _, rfl, rfl⟩

theorem panic (e : Site) : Firm (P.panic e : P α) := by
  constructor
  intro x p q j c
  simp [P.panic]

theorem bind {m : P α} {g : α → P β} {L : α → Bytes → Bytes → Prop} {A : Cause → Bytes → Bytes → Prop} {B : α → Cause → Bytes → Bytes → Prop}
    (hm : Errs m A) (h : Lang m L) (h' : ∀ a, Errs (g a) (B a)) :
    Errs (m >>= g) (fun c p q => A c p q ∨ ∃ a f r, q = f ++ r ∧ L a f r ∧ B a c (p ++ f) r) := by
  constructor
  intro x p q j c
  rw [bind_err, hm.run]
  refine or_congr Iff.rfl ⟨?_, ?_⟩
  · rintro ⟨a, s', h1, h2⟩
    obtain ⟨f, r, x1, j1, rfl, hl, rfl⟩ := h.sound _ _ _ _ _ _ h1
    exact ⟨a, f, r, rfl, hl, ((h' a).run _ _ _ _ _).mp h2⟩
  · rintro ⟨a, f, r, rfl, hl, hb⟩
    obtain ⟨x1, j1, h1⟩ := h.complete x p j a f r hl
    exact ⟨a, _, h1, ((h' a).run _ _ _ _ _).mpr hb⟩

/-- a sequence whose steps do not refer to the octets before them -/
theorem seq {m : P α} {g : α → P β} {L : Bytes → Bytes → Prop} {A B : Cause → Bytes → Prop}
    (hm : Errs m (fun c _ q => A c q)) (h : Lang m (fun _ => L)) (h' : ∀ a, Errs (g a) (fun c _ q => B c q)) [Nonempty α] :
    Errs (m >>= g) (fun c _ q => A c q ∨ ∃ f r, q = f ++ r ∧ L f r ∧ B c r) :=
  (bind hm h h').congr fun c p q => by simp

/-- the second step never fails -/
theorem first {m : P α} {g : α → P β} {A : Cause → Bytes → Bytes → Prop} {L : α → Bytes → Bytes → Prop} (hm : Errs m A) (h : Lang m L)
    (h' : ∀ a, Firm (g a)) : Errs (m >>= g) A :=
  (bind hm h h').congr fun _ _ _ => by simp

/-- the first step never fails -/
theorem after {m : P α} {g : α → P β} {L : α → Bytes → Bytes → Prop} {B : α → Cause → Bytes → Bytes → Prop}
    (hm : Firm m) (h : Lang m L) (h' : ∀ a, Errs (g a) (B a)) :
    Errs (m >>= g) (fun c p q => ∃ a f r, q = f ++ r ∧ L a f r ∧ B a c (p ++ f) r) :=
  (bind hm h h').congr fun _ _ _ => by simp

theorem skip {m : P α} {g : α → P β} {B : Cause → Bytes → Bytes → Prop} (h : Idle m) (h' : ∀ a, Errs (g a) B) : Errs (m >>= g) B := by
  constructor
  intro x p q j c
  obtain ⟨a, x', j', h1⟩ := h.run x p q j
  rw [bind_err, h1]
  constructor
  · rintro (⟨_, _, h, -⟩ | ⟨_, _, h, h2⟩)
    · cases h
    · cases h; exact ((h' _).run _ _ _ _ _).mp h2
  · intro hb; exact .inr ⟨a, _, rfl, ((h' _).run _ _ _ _ _).mpr hb⟩

/-- what follows may do anything as long as it never fails on the states that are met -/
theorem then_ok {m : P α} {g : α → P β} {A : Cause → Bytes → Bytes → Prop} (hm : Errs m A) (h' : ∀ a st e s, g a st ≠ (.err e, s)) :
    Errs (m >>= g) A := by
  constructor
  intro x p q j c
  rw [bind_err, hm.run]
  constructor
  · rintro (h | ⟨_, _, -, _, _, h, -⟩)
    · exact h
    · exact absurd h (h' _ _ _ _)
  · exact .inl

theorem readByte : Errs P.readByte (fun c _ q => Spec.Short 1 c q) := by
  constructor
  intro x p q j c
  rw [short_one]
  cases q with
  | nil => rw [readByte_nil]; simp [wrapErr, eq_comm]
  | cons b q => rw [readByte_cons]; simp

theorem readBytes (n : Nat) : Errs (P.readBytes n) (fun c _ q => Spec.Short n c q) := by
  constructor
  intro x p q j c
  by_cases h : n ≤ q.length
  · rw [readBytes_ok _ _ _ _ _ h]
    constructor
    · rintro ⟨_, _, h, -⟩; cases h
    · intro h'
      cases h' with
      | none h0 => simp at h; exact absurd h h0
      | some _ h' => omega
  · rw [readBytes_err _ _ _ _ _ (by omega)]
    constructor
    · rintro ⟨e, s, h1, rfl⟩
      cases h1
      split
      · subst_vars; exact .none (by rintro rfl; simp at h)
      · exact .some ‹_› (by omega)
    · intro h'
      cases h' with
      | none h0 => exact ⟨_, _, rfl, rfl⟩
      | some h0 _ => exact ⟨_, _, rfl, by rw [if_neg h0]; rfl⟩

theorem byte {g : UInt8 → P β} {B : UInt8 → Cause → Bytes → Bytes → Prop} (h' : ∀ a, Errs (g a) (B a)) :
    Errs (P.readByte >>= g) (fun c p q => (q = [] ∧ c = .eof) ∨ ∃ b r, q = b :: r ∧ B b c (p ++ [b]) r) :=
  (bind readByte Lang.readByte h').congr fun c p q => by
    rw [short_one]
    refine or_congr Iff.rfl ⟨?_, ?_⟩
    · rintro ⟨b, f, r, rfl, rfl, h⟩; exact ⟨b, r, rfl, h⟩
    · rintro ⟨b, r, rfl, h⟩; exact ⟨b, [b], r, rfl, rfl, h⟩

theorem bytes (n : Nat) {g : Bytes → P β} {B : Bytes → Cause → Bytes → Bytes → Prop} (h' : ∀ a, Errs (g a) (B a)) :
    Errs (P.readBytes n >>= g) (fun c p q => Spec.Short n c q ∨ ∃ b r, q = b ++ r ∧ b.length = n ∧ B b c (p ++ b) r) :=
  (bind (readBytes n) (Lang.readBytes n) h').congr fun c p q => by
    refine or_congr Iff.rfl ⟨?_, ?_⟩
    · rintro ⟨b, f, r, rfl, ⟨rfl, h1⟩, h⟩; exact ⟨f, r, rfl, h1, h⟩
    · rintro ⟨b, r, rfl, h1, h⟩; exact ⟨b, b, r, rfl, ⟨rfl, h1⟩, h⟩

/-- a method that reads these fields, then nothing that can fail -/
abbrev Fields {α} (ns : List Nat) (m : P α) : Prop := Errs m (fun c _ q => Spec.ShortIn ns c q)

theorem fields_nil {m : P α} (h : Firm m) : Fields [] m := h.congr fun _ _ _ => by simp [shortIn_nil]

theorem fields_byte {ns : List Nat} {g : UInt8 → P β} (h' : ∀ a, Fields ns (g a)) : Fields (1 :: ns) (P.readByte >>= g) :=
  (byte h').congr fun c p q => by
    rw [shortIn_cons, short_one]
    refine or_congr Iff.rfl ⟨?_, ?_⟩
    · rintro ⟨b, r, rfl, h⟩; exact ⟨[b], r, rfl, rfl, h⟩
    · rintro ⟨f, r, rfl, h1, h⟩
      match f, h1 with
      | [b], _ => exact ⟨b, r, rfl, h⟩

theorem fields_bytes (n : Nat) {ns : List Nat} {g : Bytes → P β} (h' : ∀ a, Fields ns (g a)) : Fields (n :: ns) (P.readBytes n >>= g) :=
  (bytes n h').congr fun c p q => by rw [shortIn_cons]

theorem rest {g : Int → P β} {B : Nat → Cause → Bytes → Bytes → Prop} (h' : ∀ n : Nat, Errs (g n) (B n)) :
    Errs (rest >>= g) (fun c p q => B q.length c p q) := by
  constructor
  intro x p q j c
  rw [bind_run, rest_run]
  exact (h' _).run _ _ _ _ _

theorem getBody {g : Bytes → P β} {B : Bytes → Cause → Bytes → Bytes → Prop} (h' : ∀ b, Errs (g b) (B b)) :
    Errs (getBody >>= g) (fun c p q => B (p ++ q) c p q) := by
  constructor
  intro x p q j c
  rw [bind_run, getBody_run]
  exact (h' _).run _ _ _ _ _

theorem reader {g : Reader → P β} {B : Reader → Cause → Bytes → Bytes → Prop} (h' : ∀ r, Errs (g r) (B r)) :
    Errs (P.reader >>= g) (fun c p q => B ⟨p ++ q, p.length⟩ c p q) :=
  ⟨fun x p q j c => (h' _).run x p q j c⟩

theorem nested {m : P α} {A : Cause → Bytes → Bytes → Prop} (i : Item) (h : Errs m A) : Errs (nested i m) A := by
  constructor
  intro x p q j c
  rw [← h.run x p q i c, nested_run]
  rcases m (St.at (some x) p q i) with ⟨r, s⟩
  simp

theorem build {m : P Unit} {A : Cause → Bytes → Bytes → Prop} (i : Item) (h : Errs m A) : Errs (build i m) A := by
  constructor
  intro x p q j c
  rw [← h.run x p q i c, build_run]
  rcases m (St.at (some x) p q i) with ⟨r, s⟩
  cases r <;> simp [Res.map]

/-- a method on a reader of its own -/
theorem onReader {m : P α} {A : Cause → Bytes → Bytes → Prop} (b : Bytes) (h : Errs m A) : Errs (onReader (Reader.new b) m) (fun c _ _ => A c [] b) := by
  constructor
  intro x p q j c
  have hr : P.onReader (Reader.new b) m (St.at (some x) p q j) =
      ((m (St.at (some x) [] b j)).1.map (fun a => (a, (m (St.at (some x) [] b j)).2.rd)),
        { (m (St.at (some x) [] b j)).2 with rd := ⟨p ++ q, p.length⟩ }) := rfl
  rw [hr, ← h.run x [] b j c]
  rcases m (St.at (some x) [] b j) with ⟨r, s⟩
  cases r <;> simp [Res.map]

theorem scope {m : P α} {A : Cause → Bytes → Bytes → Prop} (body : Bytes) (hdr : Item) (h : Errs m A) :
    Errs (P.scope body hdr m) (fun c _ _ => A c [] body) := by
  constructor
  intro x p q j c
  have hr : P.scope body hdr m (St.at (some x) p q j) =
      ((m (St.at (some x) [] body hdr)).1, { (m (St.at (some x) [] body hdr)).2 with rd := ⟨p ++ q, p.length⟩, cur := j }) := rfl
  rw [hr, ← h.run x [] body hdr c]
  rcases m (St.at (some x) [] body hdr) with ⟨r, s⟩
  simp

theorem flag {f : Ctx → Bool} {m : Bool → P α} {A : Cause → Bytes → Bytes → Prop} (h : ∀ d, Errs (m d) A) : Errs (P.flag f >>= m) A :=
  skip (.flag f) h

/-- after a method with a reader of its own -/
theorem sub {m : P α} {g : α → P β} {A : Prop} {C : Cause → Prop} {B : Cause → Bytes → Bytes → Prop} (hm : Errs m (fun c _ _ => C c))
    (h : Sub m A) (h' : ∀ a, Errs (g a) B) : Errs (m >>= g) (fun c p q => C c ∨ (A ∧ B c p q)) := by
  constructor
  intro x p q j c
  rw [bind_err, hm.run]
  refine or_congr Iff.rfl ⟨?_, ?_⟩
  · rintro ⟨a, s', h1, h2⟩
    obtain ⟨ha, x1, rfl⟩ := h.sound _ _ _ _ _ _ h1
    exact ⟨ha, ((h' a).run _ _ _ _ _).mp h2⟩
  · rintro ⟨ha, hb⟩
    obtain ⟨a, x1, h1⟩ := h.complete x p q j ha
    exact ⟨a, _, h1, ((h' a).run _ _ _ _ _).mpr hb⟩

end Errs
end Gpgpdump
