import Verif.Run
import Verif.Tags

/-!
# What happens to the context

`Moves T m`: whatever the state, the context before and the context after running `m` are related by `T`. `T` is a reflexive and
transitive relation, so that the rules compose.
-/

namespace Gpgpdump
open P

/-- a preorder on contexts -/
structure CtxOrder where
  T : Option Ctx → Option Ctx → Prop
  refl : ∀ c, T c c
  trans : ∀ {a b c}, T a b → T b c → T a c

structure Moves {α} (O : CtxOrder) (m : P α) : Prop where
  run : ∀ st, O.T st.ctx (m st).2.ctx

namespace Moves
variable {O : CtxOrder}

theorem of_same {α} {m : P α} (h : ∀ st, (m st).2.ctx = st.ctx) : Moves O m := ⟨fun st => by rw [h]; exact O.refl _⟩

theorem pure {α} (a : α) : Moves O (Pure.pure a : P α) := of_same fun _ => rfl
theorem fail {α} (e : GoErr) : Moves O (P.fail e : P α) := of_same fun _ => rfl
theorem panic {α} (s : Site) : Moves O (P.panic s : P α) := of_same fun _ => rfl
theorem stuck {α} : Moves O (P.stuck : P α) := of_same fun _ => rfl
theorem readByte : Moves O readByte := of_same fun _ => rfl
theorem readBytes (n : Int) : Moves O (readBytes n) := of_same fun _ => rfl
theorem read2EOF : Moves O read2EOF := of_same fun _ => rfl
theorem seek (a b : Int) : Moves O (seek a b) := of_same fun _ => rfl
theorem reader : Moves O reader := of_same fun _ => rfl
theorem flag (f : Ctx → Bool) : Moves O (flag f) := of_same fun _ => rfl
theorem getCur : Moves O getCur := of_same fun _ => rfl
theorem setValue (v) : Moves O (setValue v) := of_same fun _ => rfl
theorem setNote (v) : Moves O (setNote v) := of_same fun _ => rfl
theorem setDump (v) : Moves O (setDump v) := of_same fun _ => rfl
theorem getMode : Moves O getMode := of_same fun st => by
  rcases st with ⟨c, rd, cur⟩; cases c <;> rfl
theorem getSigTime : Moves O getSigTime := of_same fun st => by
  rcases st with ⟨c, rd, cur⟩; cases c <;> rfl
theorem getKeyTime : Moves O getKeyTime := of_same fun st => by
  rcases st with ⟨c, rd, cur⟩; cases c <;> rfl
theorem add (i : Item) : Moves O (add i) := of_same fun _ => rfl
theorem setMode {m : Mode} (h : ∀ x : Ctx, O.T (some x) (some { x with mode := m })) : Moves O (setMode m) := ⟨fun st => by
  rcases st with ⟨c, rd, cur⟩
  cases c with
  | none => exact O.refl _
  | some x => exact h x⟩
theorem setKeyTime {m} (h : ∀ x : Ctx, O.T (some x) (some { x with keyTime := m })) : Moves O (setKeyTime m) := ⟨fun st => by
  rcases st with ⟨c, rd, cur⟩
  cases c with
  | none => exact O.refl _
  | some x => exact h x⟩
theorem setSigTime {m} (h : ∀ x : Ctx, O.T (some x) (some { x with sigTime := m })) : Moves O (setSigTime m) := ⟨fun st => by
  rcases st with ⟨c, rd, cur⟩
  cases c with
  | none => exact O.refl _
  | some x => exact h x⟩

theorem bind {α β} {m : P α} {f : α → P β} (h : Moves O m) (h' : ∀ a, Moves O (f a)) : Moves O (m >>= f) := by
  constructor
  intro st
  rw [bind_run]
  have h1 := h.run st
  rcases hm : m st with ⟨r, s⟩
  rw [hm] at h1
  cases r with
  | ok a => exact O.trans h1 ((h' a).run s)
  | _ => exact h1
theorem nested {α} (child : Item) {m : P α} (h : Moves O m) : Moves O (nested child m) := ⟨fun st => h.run { st with cur := child }⟩
theorem scope {α} (body : Bytes) (hdr : Item) {m : P α} (h : Moves O m) : Moves O (scope body hdr m) :=
  ⟨fun st => h.run { st with rd := Reader.new body, cur := hdr }⟩
theorem build (hdr : Item) {m : P Unit} (h : Moves O m) : Moves O (build hdr m) := ⟨fun st => h.run { st with cur := hdr }⟩
theorem onReader {α} (r : Reader) {m : P α} (h : Moves O m) : Moves O (onReader r m) := ⟨fun st => h.run { st with rd := r }⟩
theorem failed {α} {m : P α} (h : Moves O m) : Moves O (failed m) := by
  constructor
  intro st
  have h1 := h.run st
  unfold P.failed
  rcases hm : m st with ⟨r, s⟩
  rw [hm] at h1
  cases r <;> exact h1

end Moves

/-- apply the rules -/
macro "moves" : tactic => `(tactic| repeat' (first
  | with_reducible apply Moves.bind
  | intro _
  | with_reducible exact Moves.pure _
  | with_reducible exact Moves.fail _
  | with_reducible exact Moves.panic _
  | with_reducible exact Moves.stuck
  | with_reducible exact Moves.readByte
  | with_reducible exact Moves.readBytes _
  | with_reducible exact Moves.read2EOF
  | with_reducible exact Moves.seek _ _
  | with_reducible exact Moves.reader
  | with_reducible exact Moves.flag _
  | with_reducible exact Moves.getCur
  | with_reducible exact Moves.getMode
  | with_reducible exact Moves.getSigTime
  | with_reducible exact Moves.getKeyTime
  | with_reducible exact Moves.setValue _
  | with_reducible exact Moves.setNote _
  | with_reducible exact Moves.setDump _
  | with_reducible exact Moves.add _
  | with_reducible apply Moves.nested
  | with_reducible apply Moves.scope
  | with_reducible apply Moves.build
  | with_reducible apply Moves.onReader
  | with_reducible apply Moves.failed
  | with_reducible assumption
  | split
  | dsimp only))

section
variable {O : CtxOrder}
theorem Moves.rest : Moves O rest := by unfold Gpgpdump.rest; moves
theorem Moves.getBody : Moves O getBody := by unfold Gpgpdump.getBody; moves
theorem Moves.addRaw (n f) : Moves O (addRaw n f) := by unfold Gpgpdump.addRaw; moves
theorem Moves.newMPI : Moves O newMPI := by unfold Gpgpdump.newMPI; moves
theorem Moves.newOID : Moves O newOID := by unfold Gpgpdump.newOID; moves
theorem Moves.newDateTime (u) : Moves O (newDateTime u) := by unfold Gpgpdump.newDateTime; moves
theorem Moves.addOpt (i) : Moves O (addOpt i) := by
  cases i
  · exact .pure _
  · exact .add _
theorem Moves.forEach {α} (l : List α) {f : α → P Unit} (h : ∀ a, Moves O (f a)) : Moves O (forEach l f) := by
  induction l with
  | nil => exact .pure _
  | cons a l ih => exact .bind (h a) fun _ => ih
theorem Moves.otherFlags (n bs) : Moves O (otherFlags n bs) := by
  induction bs generalizing n with
  | nil => exact .pure _
  | cons b l ih => exact .bind (.addOpt _) fun _ => ih _
theorem Moves.trailingFlags : Moves O trailingFlags := by
  have := Moves.rest (O := O); have := Moves.otherFlags (O := O)
  unfold Gpgpdump.trailingFlags; moves
  all_goals apply Moves.otherFlags
theorem Moves.unknownData : Moves O unknownData := by
  have := Moves.rest (O := O)
  unfold Gpgpdump.unknownData; moves
  all_goals apply Moves.addRaw
theorem Moves.newECParm : Moves O newECParm := by have := Moves.rest (O := O); unfold Gpgpdump.newECParm; moves
theorem Moves.addMPI (n) : Moves O (addMPI n) := by have := Moves.newMPI (O := O); unfold Gpgpdump.addMPI; moves
theorem Moves.addECPoint (n) : Moves O (addECPoint n) := by have := Moves.newMPI (O := O); unfold Gpgpdump.addECPoint; moves
theorem Moves.addOpaque (n) : Moves O (addOpaque n) := by unfold Gpgpdump.addOpaque; moves; apply Moves.addRaw
theorem Moves.parseSig (b) : Moves O (parseSig b) := by
  unfold Gpgpdump.parseSig; moves <;> first | apply Moves.addMPI | apply Moves.addOpaque
theorem Moves.ecdhPub : Moves O ecdhPub := by
  have := Moves.newECParm (O := O); have := Moves.newOID (O := O)
  unfold Gpgpdump.ecdhPub; moves <;> apply Moves.addECPoint
theorem Moves.parsePub (b) : Moves O (parsePub b) := by
  have := Moves.ecdhPub (O := O); have := Moves.newOID (O := O)
  unfold Gpgpdump.parsePub; moves <;> first | apply Moves.addMPI | apply Moves.addOpaque | apply Moves.addECPoint
theorem Moves.parseSes (b) : Moves O (parseSes b) := by
  have := Moves.newECParm (O := O)
  unfold Gpgpdump.parseSes; moves <;> first | apply Moves.addMPI | apply Moves.addOpaque | apply Moves.addECPoint
theorem Moves.parseSecPlain (b) : Moves O (parseSecPlain b) := by
  have := Moves.rest (O := O)
  unfold Gpgpdump.parseSecPlain; moves <;> apply Moves.addMPI
theorem Moves.parseSecEnc (b) : Moves O (parseSecEnc b) := by
  unfold Gpgpdump.parseSecEnc; moves <;> apply Moves.addOpaque
theorem Moves.s2kParse (d) : Moves O (s2kParse d) := by
  have := Moves.rest (O := O)
  unfold Gpgpdump.s2kParse; moves
theorem Moves.subLoop {p} (h : ∀ t b, Moves O (p t b)) (l) : Moves O (subLoop p l) := by
  induction l with
  | nil => exact .pure _
  | cons a l ih => exact .bind (h _ _) fun _ => .bind (.add _) fun _ => ih
theorem Moves.addSubpackets {p} (h : ∀ t b, Moves O (p t b)) (n a) : Moves O (addSubpackets p n a) := by
  unfold Gpgpdump.addSubpackets; moves; apply Moves.subLoop h

variable (X : Ext)
theorem Moves.forPackets {recur : TagParser} (h : ∀ t b, Moves O (recur t b)) (f src) : Moves O (forPackets X recur f src) := by
  induction f generalizing src with
  | zero => exact .stuck
  | succ f ih =>
    rw [Gpgpdump.forPackets]
    split
    · moves
    · exact .bind (h _ _) fun _ => .bind (.add _) fun _ => ih _
theorem Moves.packetLoop {recur : TagParser} (h : ∀ t b, Moves O (recur t b)) (src) : Moves O (packetLoop X recur src) := forPackets X h _ _

/-! ## Subpackets -/

theorem Moves.sub01 : Moves O sub01 := by unfold Gpgpdump.sub01; moves
theorem Moves.sub02 (hs : ∀ (x : Ctx) m, O.T (some x) (some { x with sigTime := m })) : Moves O (sub02 X) := by
  unfold Gpgpdump.sub02; moves <;> first | apply Moves.newDateTime | exact .setSigTime fun x => hs x _
theorem Moves.sub03 (hs : ∀ (x : Ctx) m, O.T (some x) (some { x with sigTime := m })) : Moves O (sub03 X) := by
  unfold Gpgpdump.sub03; moves; exact .setSigTime fun x => hs x _
theorem Moves.sub09 (hk : ∀ (x : Ctx), O.T (some x) (some { x with keyTime := none })) : Moves O (sub09 X) := by
  unfold Gpgpdump.sub09; moves; exact .setKeyTime hk
theorem Moves.subText : Moves O subText := by have := Moves.getBody (O := O); unfold Gpgpdump.subText; moves
theorem Moves.subList (f) : Moves O (subList f) := by
  have := Moves.getBody (O := O); unfold Gpgpdump.subList; moves; exact .forEach _ fun _ => .add _
theorem Moves.sub32 {recur : TagParser} (h : ∀ b, Moves O (recur 2 b)) : Moves O (sub32 recur) := by
  have := Moves.getBody (O := O); unfold Gpgpdump.sub32; moves; exact h _
theorem Moves.sub38 {recur : TagParser} (h : ∀ t b, Moves O (recur t b)) : Moves O (sub38 X recur) := by
  unfold Gpgpdump.sub38; moves; exact .packetLoop X h _

theorem Moves.sub02Body {recur : TagParser} (hs : ∀ (x : Ctx) m, O.T (some x) (some { x with sigTime := m })) (t)
    (hk : t = 9 → ∀ (x : Ctx), O.T (some x) (some { x with keyTime := none }))
    (h32 : t = 32 → ∀ b, Moves O (recur 2 b)) (h38 : t = 38 → ∀ t b, Moves O (recur t b)) : Moves O (sub02Body X recur t) := by
  have := Moves.rest (O := O)
  unfold Gpgpdump.sub02Body
  split
  · exact sub02 X hs
  · exact sub03 X hs
  · unfold Gpgpdump.sub04; moves
  · unfold Gpgpdump.sub05; moves
  · exact subText
  · unfold Gpgpdump.sub07; moves
  · exact sub09 X (hk rfl)
  · moves
  · exact subList _
  · unfold Gpgpdump.sub12; moves; apply Moves.addRaw
  · unfold Gpgpdump.sub16; moves
  · unfold Gpgpdump.sub20; moves <;> apply Moves.addOpt
  · exact subList _
  · exact subList _
  · unfold Gpgpdump.sub23; moves <;> first | apply Moves.addOpt | apply Moves.trailingFlags
  · exact subText
  · unfold Gpgpdump.sub25; moves
  · exact subText
  · unfold Gpgpdump.sub27; moves <;> first | apply Moves.addOpt | apply Moves.trailingFlags
  · exact subText
  · unfold Gpgpdump.sub29; moves
  · unfold Gpgpdump.sub30; moves <;> first | apply Moves.addOpt | apply Moves.trailingFlags
  · unfold Gpgpdump.sub31; moves; apply Moves.addRaw
  · exact sub32 (h32 rfl)
  · unfold Gpgpdump.subFingerprint; moves; apply Moves.addRaw
  · exact subList _
  · unfold Gpgpdump.subFingerprint; moves; apply Moves.addRaw
  · unfold Gpgpdump.sub37; moves; apply Moves.addRaw
  · exact sub38 X (h38 rfl)
  · moves

theorem Moves.parseSub02 {recur : TagParser} (hs : ∀ (x : Ctx) m, O.T (some x) (some { x with sigTime := m })) (t b)
    (hk : (t &&& 0x7f).toNat = 9 → ∀ (x : Ctx), O.T (some x) (some { x with keyTime := none }))
    (h32 : (t &&& 0x7f).toNat = 32 → ∀ b, Moves O (recur 2 b)) (h38 : (t &&& 0x7f).toNat = 38 → ∀ t b, Moves O (recur t b)) :
    Moves O (parseSub02 X recur t b) := .bind (.flag _) fun _ => .scope _ _ (sub02Body X hs _ hk h32 h38)
theorem Moves.parseSub17 (t b) : Moves O (parseSub17 t b) := by
  refine .bind (.flag _) fun _ => .scope _ _ ?_
  unfold Gpgpdump.sub17Body
  split
  · exact sub01
  · moves

/-! ## Packets -/

theorem Moves.tag01 (hm : ∀ (x : Ctx), O.T (some x) (some { x with mode := .pubEnc })) : Moves O tag01 := by
  have := Moves.unknownData (O := O); have := Moves.setMode hm
  unfold Gpgpdump.tag01; moves; apply Moves.parseSes
theorem Moves.subArea {recur : TagParser} (h : ∀ t b, Moves O (Gpgpdump.parseSub02 X recur t b)) (n) : Moves O (subArea X recur n) := by
  unfold Gpgpdump.subArea; moves; exact .addSubpackets h _ _
theorem Moves.tag02v3 : Moves O (tag02v3 X) := by
  unfold Gpgpdump.tag02v3; moves <;> first | apply Moves.parseSig | apply Moves.newDateTime
theorem Moves.tag02v4 {recur : TagParser} (h : ∀ t b, Moves O (Gpgpdump.parseSub02 X recur t b)) : Moves O (tag02v4 X recur) := by
  unfold Gpgpdump.tag02v4; moves <;> first | apply Moves.parseSig | exact .subArea X h _
theorem Moves.tag02 {recur : TagParser} (h : ∀ t b, Moves O (Gpgpdump.parseSub02 X recur t b)) : Moves O (tag02 X recur) := by
  have := Moves.unknownData (O := O); have := Moves.tag02v4 X h; have := Moves.tag02v3 (O := O) X
  unfold Gpgpdump.tag02; moves
theorem Moves.tag03 (hm : ∀ (x : Ctx), O.T (some x) (some { x with mode := .symEnc })) : Moves O tag03 := by
  have := Moves.unknownData (O := O); have := Moves.setMode hm
  unfold Gpgpdump.tag03; moves; apply Moves.s2kParse
theorem Moves.tag04 : Moves O tag04 := by
  have := Moves.unknownData (O := O)
  unfold Gpgpdump.tag04; moves
theorem Moves.pubkeyTime (hk : ∀ (x : Ctx) m, O.T (some x) (some { x with keyTime := some m })) : Moves O (pubkeyTime X) := by
  unfold Gpgpdump.pubkeyTime; moves
  · apply Moves.newDateTime
  · exact .setKeyTime fun x => hk x _
theorem Moves.pubkeyParse (hk : ∀ (x : Ctx) m, O.T (some x) (some { x with keyTime := some m })) (v) : Moves O (pubkeyParse X v) := by
  have := Moves.pubkeyTime X hk
  unfold Gpgpdump.pubkeyParse; moves <;> apply Moves.parsePub
theorem Moves.secOptions (u) : Moves O (secOptions u) := by
  unfold Gpgpdump.secOptions; moves <;> apply Moves.s2kParse
theorem Moves.onField {α} (f) {m : P α} (h : Moves O m) : Moves O (onField f m) := by
  unfold Gpgpdump.onField; moves
theorem Moves.fieldRest (r) : Moves O (fieldRest r) := by unfold Gpgpdump.fieldRest; moves
theorem Moves.secField1 (v u) : Moves O (secField1 v u) := by
  unfold Gpgpdump.secField1 Gpgpdump.getField1 Gpgpdump.secIV; moves <;>
    first | apply Moves.fieldRest | exact .onField _ (.secOptions _)
theorem Moves.secField2 (v u a) : Moves O (secField2 v u a) := by
  have := Moves.rest (O := O)
  unfold Gpgpdump.secField2 Gpgpdump.getField2; moves <;>
    first | apply Moves.fieldRest | exact .onField _ (.parseSecPlain _) | exact .onField _ (.parseSecEnc _)
theorem Moves.seckeyParse (v a) : Moves O (seckeyParse v a) := by
  unfold Gpgpdump.seckeyParse; moves
  · apply Moves.secField1
  · apply Moves.secField2
theorem Moves.tag05 (hk : ∀ (x : Ctx) m, O.T (some x) (some { x with keyTime := some m })) : Moves O (tag05 X) := by
  have := Moves.unknownData (O := O)
  unfold Gpgpdump.tag05; moves
  · exact .pubkeyParse X hk _
  · apply Moves.seckeyParse
theorem Moves.tag06 (hk : ∀ (x : Ctx) m, O.T (some x) (some { x with keyTime := some m })) : Moves O (tag06 X) := by
  have := Moves.unknownData (O := O)
  unfold Gpgpdump.tag06; moves; exact .pubkeyParse X hk _
theorem Moves.tag08 : Moves O (tag08 X) := by unfold Gpgpdump.tag08; moves
theorem Moves.tag09 (hm : ∀ (x : Ctx), O.T (some x) (some { x with mode := .notSpecified })) : Moves O tag09 := by
  have := Moves.setMode hm
  unfold Gpgpdump.tag09; moves
theorem Moves.tag18 (hm : ∀ (x : Ctx), O.T (some x) (some { x with mode := .notSpecified })) : Moves O tag18 := by
  have := Moves.setMode hm
  unfold Gpgpdump.tag18; moves

/-- A packet moves the context along `O` if the context changes its tag makes are in `O`. -/
theorem Moves.tagBody {recur : TagParser} (t)
    (h1 : t = 1 → ∀ (x : Ctx), O.T (some x) (some { x with mode := .pubEnc }))
    (h2 : t = 2 → ∀ t b, Moves O (Gpgpdump.parseSub02 X recur t b))
    (h3 : t = 3 → ∀ (x : Ctx), O.T (some x) (some { x with mode := .symEnc }))
    (hk : t = 5 ∨ t = 6 ∨ t = 7 ∨ t = 14 → ∀ (x : Ctx) m, O.T (some x) (some { x with keyTime := some m }))
    (h9 : t = 9 ∨ t = 18 → ∀ (x : Ctx), O.T (some x) (some { x with mode := .notSpecified })) : Moves O (tagBody X recur t) := by
  unfold Gpgpdump.tagBody
  split
  · exact tag01 (h1 rfl)
  · exact tag02 X (h2 rfl)
  · exact tag03 (h3 rfl)
  · exact tag04
  · exact tag05 X (hk (by simp))
  · exact tag06 X (hk (by simp))
  · exact tag05 X (hk (by simp))
  · have := Moves.tag08 (O := O) X; moves
  · exact tag09 (h9 (by simp))
  · unfold Gpgpdump.tag10; moves; apply Moves.addRaw
  · unfold Gpgpdump.tag11; moves <;> first | apply Moves.addRaw | apply Moves.newDateTime
  · unfold Gpgpdump.tag12; apply Moves.addRaw
  · have := Moves.getBody (O := O); unfold Gpgpdump.tag13; moves
  · exact tag06 X (hk (by simp))
  · have := Moves.getBody (O := O); unfold Gpgpdump.tag17; moves; exact .addSubpackets .parseSub17 _ _
  · exact tag18 (h9 (by simp))
  · unfold Gpgpdump.tag19; moves
  · have := Moves.rest (O := O); unfold Gpgpdump.tag20; moves; apply Moves.addRaw
  · moves

theorem Moves.tagParse {recur : TagParser} {t b} (h : Moves O (Gpgpdump.tagBody X recur t)) : Moves O (Gpgpdump.tagParse X recur t b) :=
  .bind (.flag _) fun _ => .scope _ _ (.bind h fun _ => .getCur)

/-- every change the parser makes -/
theorem Moves.parseTagF (hm : ∀ (x : Ctx) m, O.T (some x) (some { x with mode := m })) (hs : ∀ (x : Ctx) m, O.T (some x) (some { x with sigTime := m }))
    (hk : ∀ (x : Ctx) m, O.T (some x) (some { x with keyTime := m })) (f t b) : Moves O (parseTagF X f t b) := by
  induction f generalizing t b with
  | zero => exact .stuck
  | succ f ih =>
    exact .tagParse X (.tagBody X _ (fun _ x => hm x _) (fun _ t b => .parseSub02 X hs _ _ (fun _ x => hk x _) (fun _ b => ih 2 b) fun _ t b => ih t b)
      (fun _ x => hm x _) (fun _ x _ => hk x _) fun _ x => hm x _)
theorem Moves.packetsParse (hm : ∀ (x : Ctx) m, O.T (some x) (some { x with mode := m })) (hs : ∀ (x : Ctx) m, O.T (some x) (some { x with sigTime := m }))
    (hk : ∀ (x : Ctx) m, O.T (some x) (some { x with keyTime := m })) (t b) : Moves O (packetsParse X t b) := by
  have hp : ∀ t b, Moves O (parseTag X t b) := fun t b => .parseTagF X hm hs hk _ t b
  have := Moves.tag08 (O := O) X
  unfold Gpgpdump.packetsParse Gpgpdump.tagScope
  moves
  · exact .packetLoop X hp _
  · exact hp _ _

end

/-- the options stay -/
def optsOrder : CtxOrder where
  T c c' := c.map Ctx.opts = c'.map Ctx.opts
  refl _ := rfl
  trans := Eq.trans

theorem parseTagF_opts (X : Ext) (f t b) : Moves optsOrder (parseTagF X f t b) :=
  .parseTagF X (fun _ _ => rfl) (fun _ _ => rfl) (fun _ _ => rfl) _ _ _
theorem parseSub02_opts (X : Ext) (f t b) : Moves optsOrder (parseSub02 X (parseTagF X f) t b) :=
  .parseSub02 X (fun _ _ => rfl) _ _ (fun _ _ => rfl) (fun _ b => parseTagF_opts X f 2 b) fun _ t b => parseTagF_opts X f t b
theorem packetsParse_opts (X : Ext) (t b) : Moves optsOrder (packetsParse X t b) :=
  .packetsParse X (fun _ _ => rfl) (fun _ _ => rfl) (fun _ _ => rfl) _ _

end Gpgpdump
