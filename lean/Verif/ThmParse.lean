import Verif.RelParse
import Verif.ThmHeader
import Verif.Tests

/-!
# C01, C02, C12, C16, C25, C28, C47, C52: facts about whole parses

All from the comparison of two runs in `RelParse`.
-/

namespace Gpgpdump
open Spec P Src Cmp

/-! ## Whole parses -/

/-- what the comparison says about `Parse` on a source -/
theorem Cmp.parseSrc {k : Cmp} {X : Ext} {src : Src}
    (h : k.R (forPackets X (packetsParse X) (src.data.length + 1) src) (forPackets X (packetsParse X) (src.data.length + 1) src) Eq)
    {c c' : Option Ctx} (hc : k.ctxs c c') :
    let o := Gpgpdump.parseSrc X c src
    let o' := Gpgpdump.parseSrc X c' src
    (k.nilCtx = true ∧ o.res = .panic .nilCtx) ∨
    (o.res = o'.res ∧ k.ctxs o.ctx o'.ctx ∧ o.packets.map Item.bare = o'.packets.map Item.bare ∧
      (k.same = true → o.packets = o'.packets) ∧ (k.clean = true → ∀ i ∈ o.packets, CleanItem i) ∧ o.res ≠ .stuck ∧
      (∀ e, o.res = .err e → k.real = true → e.real) ∧ (k.mayPanic = false → ∀ s, o.res ≠ .panic s)) := by
  intro o o'
  have hitem : k.item (newItem []) (newItem []) := item_refl fun _ => .mk .nil (.inl .nil) .nil .nil (by simp)
  have := h.run ⟨c, Reader.new [], newItem []⟩ ⟨c', Reader.new [], newItem []⟩ ⟨hc, rfl, hitem⟩
  simp only [o, o', Gpgpdump.parseSrc]
  generalize forPackets X (packetsParse X) (src.data.length + 1) src ⟨c, Reader.new [], newItem []⟩ = r at this ⊢
  generalize forPackets X (packetsParse X) (src.data.length + 1) src ⟨c', Reader.new [], newItem []⟩ = r' at this ⊢
  have items : ∀ s s' : St, k.sts s s' → s.cur.items.map Item.bare = s'.cur.items.map Item.bare ∧
      (k.same = true → s.cur.items = s'.cur.items) ∧ (k.clean = true → ∀ i ∈ s.cur.items, CleanItem i) := by
    intro s s' hs
    refine ⟨?_, fun h => by rw [hs.cur.same h], fun h => ?_⟩
    · have := hs.cur.bare
      revert this
      rcases s.cur with ⟨n, v, d, t, is⟩
      rcases s'.cur with ⟨n', v', d', t', is'⟩
      intro this
      simp only [Item.bare, Item.mk.injEq] at this
      rw [← bares_eq, ← bares_eq]
      exact this.2.2.2.2
    · have := (hs.cur.clean h).1
      revert this
      rcases s.cur with ⟨n, v, d, t, is⟩
      intro this
      cases this; assumption
  cases this with
  | @ok a a' s s' h hs =>
    obtain ⟨h1, h2, h3⟩ := items _ _ hs
    subst h
    exact .inr ⟨rfl, hs.ctx, h1, h2, h3, (by simp), (by simp), (by simp)⟩
  | err he hs =>
    obtain ⟨h1, h2, h3⟩ := items _ _ hs
    exact .inr ⟨rfl, hs.ctx, h1, h2, h3, (by simp), (by simp only [Res.err.injEq]; rintro e rfl; exact he), (by simp)⟩
  | panic hp hs =>
    obtain ⟨h1, h2, h3⟩ := items _ _ hs
    exact .inr ⟨rfl, hs.ctx, h1, h2, h3, (by simp), (by simp), (by rw [hp]; simp)⟩
  | nil hp => exact .inl ⟨hp, rfl⟩

theorem parserNew_tail {X : Ext} (hR : RealX X) {ctx : Option Ctx} {reader : Option Src} {src : Src} (h : parserNew X ctx reader = .ok src) :
    src.tail.real := by
  unfold parserNew at h
  cases reader with
  | none => cases h
  | some s =>
    simp only at h
    split at h
    · rename_i hn
      cases h
      unfold newReaderArmor at hn
      split at hn
      · cases hn
      · split at hn
        · cases hn
        · rename_i ha
          cases hn
          exact hR.armor _ _ ha
    · split at h <;> cases h
      exact real_eof

theorem parserNew_armor {X : Ext} {c c' : Option Ctx} (h : ctxFlag Ctx.armor c = ctxFlag Ctx.armor c') (reader : Option Src) :
    parserNew X c reader = parserNew X c' reader := by
  unfold parserNew
  rw [h]

/-! ## C12, C47 -/

/-- C12: two runs whose contexts differ in options other than ARMOR and UTC give the same error or success, the same context
state and trees that are equal up to dump strings. -/
theorem C12_options (X : Ext) (x x' : Ctx) (hutc : x.opts UTC = x'.opts UTC) (harm : x.opts ARMOR = x'.opts ARMOR)
    (hm : x.mode = x'.mode) (hs : x.sigTime = x'.sigTime) (hk : x.keyTime = x'.keyTime) (reader : Option Src) :
    let o := parse X (some x) reader
    let o' := parse X (some x') reader
    o.res = o'.res ∧ o.packets.map Item.bare = o'.packets.map Item.bare := by
  intro o o'
  have hn := parserNew_armor (X := X) (c := some x) (c' := some x') harm reader
  simp only [o, o', parse]
  rw [hn]
  cases hp : parserNew X (some x') reader with
  | error e => exact ⟨rfl, rfl⟩
  | ok src =>
    let k : Cmp := { o := x.opts, o' := x'.opts, same := false, clean := false, mayPanic := true, real := false, nilCtx := false,
                     hutc := hutc, hsame := by simp, hnil := by simp }
    have h := Cmp.parseSrc (k := k) (X := X) (src := src) (r_parseAny X (by simp [k]) (by simp [k]) src (by simp [k]) rfl)
      (c := some x) (c' := some x') ⟨by simp [k], fun _ => ⟨x, x', rfl, rfl, rfl, rfl, hm, hs, hk⟩⟩
    rcases h with ⟨h, -⟩ | ⟨h1, -, h3, -⟩
    · cases h
    · exact ⟨h1, h3⟩

/-- a parse with all dumps and one without (a one-octet user ID that is not UTF-8, so that there is something to dump) -/
example : (parseBytes Tests.X (some (Ctx.new [(DEBUG, true)])) [0xcd, 1, 0xff]).packets ≠
    (parseBytes Tests.X (some (Ctx.new [])) [0xcd, 1, 0xff]).packets := by
  intro h
  have := congrArg (List.map Item.dump) h
  revert this
  decide +kernel

/-- C47: `Parse` does not change the options of the context, whatever the outcome. -/
theorem C47_options_kept (X : Ext) (x : Ctx) (reader : Option Src) :
    ∃ x', (parse X (some x) reader).ctx = some x' ∧ x'.opts = x.opts := by
  simp only [parse]
  cases hp : parserNew X (some x) reader with
  | error e => exact ⟨x, rfl, rfl⟩
  | ok src =>
    let k : Cmp := { o := x.opts, o' := x.opts, same := false, clean := false, mayPanic := true, real := false, nilCtx := false,
                     hutc := rfl, hsame := by simp, hnil := by simp }
    have h := Cmp.parseSrc (k := k) (X := X) (src := src) (r_parseAny X (by simp [k]) (by simp [k]) src (by simp [k]) rfl)
      (c := some x) (c' := some x) ⟨by simp [k], fun _ => ⟨x, x, rfl, rfl, rfl, rfl, rfl, rfl, rfl⟩⟩
    rcases h with ⟨h, -⟩ | ⟨-, h2, -⟩
    · cases h
    · obtain ⟨y, y', e, -, e', -⟩ := h2.some rfl
      exact ⟨y, e, e'⟩

/-- the context does change: a session-key packet sets the mode -/
example : ((parseBytes Tests.X (some Ctx.empty) [0xc1, 10, 3, 1, 2, 3, 4, 5, 6, 7, 8, 1]).ctx.map (·.mode)) = some .pubEnc := by
  decide +kernel

/-! ## C02 -/

/-- what an empty comparison of a context with itself looks like -/
def selfCmp (o : OptCode → Bool) (clean mayPanic real : Bool) : Cmp :=
  { o := o, o' := o, same := true, clean := clean, mayPanic := mayPanic, real := real, nilCtx := false, hutc := rfl,
    hsame := fun _ => rfl, hnil := by simp }

/-- a nil context against an empty one -/
def nilCmp (clean real : Bool) : Cmp :=
  { o := fun _ => false, o' := fun _ => false, same := true, clean := clean, mayPanic := true, real := real, nilCtx := true,
    hutc := rfl, hsame := fun _ => rfl, hnil := fun _ => rfl }

theorem selfCmp_ctxs (x : Ctx) (a b c : Bool) : (selfCmp x.opts a b c).ctxs (some x) (some x) :=
  ⟨by simp [selfCmp], fun _ => ⟨x, x, rfl, rfl, rfl, rfl, rfl, rfl, rfl⟩⟩

theorem nilCmp_ctxs (a c : Bool) : (nilCmp a c).ctxs none (some Ctx.empty) :=
  ⟨fun _ => ⟨rfl, _, rfl, rfl⟩, by simp [nilCmp]⟩

/-- C02, packets: `Parse` on any source ends: the bounds the model puts on its recursions and loops are never reached (`stuck`, or
an error with the cause `fuel`). The bound on nested packets is the length of the outermost body, the bound on the packets of a
source is its length. -/
theorem C02_packets (X : Ext) (hR : RealX X) (ctx : Option Ctx) (src : Src) (ht : src.tail.real) :
    (parseSrc X ctx src).res ≠ .stuck ∧ ∀ e, (parseSrc X ctx src).res = .err e → e.cause ≠ .fuel := by
  cases ctx with
  | some x =>
    have h := Cmp.parseSrc (k := selfCmp x.opts false true true) (X := X) (src := src)
      (r_parseAny X (by simp [selfCmp]) (fun _ => hR) src (fun _ => ht) rfl) (selfCmp_ctxs x _ _ _)
    rcases h with ⟨h, -⟩ | ⟨-, -, -, -, -, h1, h2, -⟩
    · cases h
    · exact ⟨h1, fun e he => h2 e he rfl⟩
  | none =>
    have h := Cmp.parseSrc (k := nilCmp false true) (X := X) (src := src)
      (r_parseAny X (by simp [nilCmp]) (fun _ => hR) src (fun _ => ht) rfl) (nilCmp_ctxs _ _)
    rcases h with ⟨-, h⟩ | ⟨-, -, -, -, -, h1, h2, -⟩
    · rw [h]; simp
    · exact ⟨h1, fun e he => h2 e he rfl⟩

/-- C02: a packet inside another one is strictly shorter. -/
theorem C02_shorter {p q : Nat × Bytes} (h : Inside p q) : q.2.length < p.2.length := h.shorter

/-- C02: so nesting is never deeper than the body is long. -/
theorem C02_depth {chain : List (Nat × Bytes)} {p : Nat × Bytes} (h : List.IsChain Inside (p :: chain)) : chain.length ≤ p.2.length := by
  induction chain generalizing p with
  | nil => simp
  | cons q chain ih =>
    rw [List.isChain_cons_cons] at h
    have := ih h.2
    have := C02_shorter h.1
    simp only [List.length_cons]
    omega

/-- C02: any bound larger than the body gives the same result, so the result is that of the unbounded recursion of the program. -/
theorem C02_bound (X : Ext) (tag : Nat) (body : Bytes) (f f' : Nat) (hf : body.length < f) (hf' : body.length < f') (x : Ctx) :
    (onePacket (parseTagF X f) tag body (some x)).1 = (onePacket (parseTagF X f') tag body (some x)).1 ∧
    (onePacket (parseTagF X f) tag body (some x)).1 ≠ .stuck := by
  have h := r_parseTagF (k := selfCmp x.opts false true false) X (by simp [selfCmp]) (by simp [selfCmp]) f f' tag body hf hf' (.inl rfl)
  have hitem : (selfCmp x.opts false true false).item (newItem []) (newItem []) := item_refl fun _ => .mk .nil (.inl .nil) .nil .nil (by simp)
  have := h.run ⟨some x, Reader.new [], newItem []⟩ ⟨some x, Reader.new [], newItem []⟩ ⟨selfCmp_ctxs x _ _ _, rfl, hitem⟩
  unfold onePacket
  generalize parseTagF X f tag body ⟨some x, Reader.new [], newItem []⟩ = r at this ⊢
  generalize parseTagF X f' tag body ⟨some x, Reader.new [], newItem []⟩ = r' at this ⊢
  cases this with
  | ok h _ => exact ⟨by rw [h.same rfl], by simp⟩
  | err _ _ => exact ⟨rfl, by simp⟩
  | panic _ _ => exact ⟨rfl, by simp⟩
  | nil h => cases h

/-! ## C01 -/

/-- C01, what holds: with a context, `Parse` does not panic if every secret-key packet, at any depth and also in compressed
packets, is empty or has version 3 or 4 and a known public-key algorithm. Missing: the other secret-key packets, for some of
which it does panic (`C01_panics_unknown_algorithm`, `C01_panics_version_5`), and packet sources that report an error together
with their last octets. -/
theorem C01_no_panic_partial (X : Ext) (x : Ctx) (src : Src) (hl : Lazy src) (h : ∀ p, Somewhere X src.data p → SafeSecret p) :
    ∀ s, (parseSrc X (some x) src).res ≠ .panic s := by
  have h := Cmp.parseSrc (k := selfCmp x.opts false false false) (X := X) (src := src)
    (r_parse X (by simp [selfCmp]) (by simp [selfCmp]) src.data src rfl hl (by simp [selfCmp]) (.inr h)) (selfCmp_ctxs x _ _ _)
  rcases h with ⟨h, -⟩ | ⟨-, -, -, -, -, -, -, h⟩
  · cases h
  · exact h rfl

/-- C01 fails: a secret key of version 4 with an unknown algorithm, not encrypted, with one more octet -/
theorem C01_panics_unknown_algorithm (X : Ext) :
    (parseSrc X (some Ctx.empty) (Src.ofBytes [0xc5, 8, 4, 0, 0, 0, 0, 99, 0, 7])).res = .panic .sliceRange := rfl

/-- C01 fails: a secret key of version 5 that ends before the length of its secret part -/
theorem C01_panics_version_5 (X : Ext) :
    (parseSrc X (some Ctx.empty) (Src.ofBytes [0xc5, 12, 5, 0, 0, 0, 0, 99, 0, 0, 0, 0, 0, 0])).res = .panic .beShort := rfl

/-! ## C28 -/

/-- C28, what holds: no field of any item contains a control character, except the value of "Literal data format", which is one
arbitrary character. `CleanX`: the same is true of what the `time` and `fmt` packages print. -/
theorem C28_clean_partial (X : Ext) (hX : CleanX X) (ctx : Option Ctx) (reader : Option Src) (hn : ctx = none → ∀ s, (parse X ctx reader).res ≠ .panic s) :
    ∀ i ∈ (parse X ctx reader).packets, CleanItem i := by
  revert hn
  simp only [parse]
  cases hp : parserNew X ctx reader with
  | error e => simp
  | ok src =>
    simp only
    intro hn
    cases ctx with
    | some x =>
      have h := Cmp.parseSrc (k := selfCmp x.opts true true false) (X := X) (src := src)
        (r_parseAny X (fun _ => hX) (by simp [selfCmp]) src (by simp [selfCmp]) rfl) (selfCmp_ctxs x _ _ _)
      rcases h with ⟨h, -⟩ | ⟨-, -, -, -, h, -⟩
      · cases h
      · exact h rfl
    | none =>
      have h := Cmp.parseSrc (k := nilCmp true false) (X := X) (src := src)
        (r_parseAny X (fun _ => hX) (by simp [nilCmp]) src (by simp [nilCmp]) rfl) (nilCmp_ctxs _ _)
      rcases h with ⟨-, h⟩ | ⟨-, -, -, -, h, -⟩
      · exact absurd h (hn rfl _)
      · exact h rfl

/-- C28 fails: the format octet of a literal packet is shown as it is, here ESC -/
theorem C28_escape_shown :
    ((parseSrc Tests.X (some Ctx.empty) (Src.ofBytes [0xcb, 6, 0x1b, 0, 0, 0, 0, 0])).packets.head?.bind (·.items.head?)).map
      (fun j => (j.name, j.value)) = some ("Literal data format".toList, ['\x1b']) := by decide +kernel

/-! ## C52 -/

/-- C52, what holds: parsing with a nil context either gives what parsing with an empty context gives, or panics on the nil
context. -/
theorem C52_same_or_panic_partial (X : Ext) (reader : Option Src) :
    (parse X none reader).res = .panic .nilCtx ∨
    ((parse X none reader).packets = (parse X (some Ctx.empty) reader).packets ∧
      (parse X none reader).res = (parse X (some Ctx.empty) reader).res) := by
  have hn := parserNew_armor (X := X) (c := none) (c' := some Ctx.empty) rfl reader
  simp only [parse]
  rw [hn]
  cases hp : parserNew X (some Ctx.empty) reader with
  | error e => exact .inr ⟨rfl, rfl⟩
  | ok src =>
    have h := Cmp.parseSrc (k := nilCmp false false) (X := X) (src := src)
      (r_parseAny X (by simp [nilCmp]) (by simp [nilCmp]) src (by simp [nilCmp]) rfl) (nilCmp_ctxs _ _)
    rcases h with ⟨-, h⟩ | ⟨h1, -, -, h2, -⟩
    · exact .inl h
    · exact .inr ⟨h2 rfl, h1⟩

/-- C52 fails: a session-key packet with a nil context -/
theorem C52_panics (X : Ext) :
    (parseSrc X none (Src.ofBytes [0xc1, 10, 3, 1, 2, 3, 4, 5, 6, 7, 8, 1])).res = .panic .nilCtx := rfl

end Gpgpdump
