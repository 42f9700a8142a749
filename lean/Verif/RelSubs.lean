import Verif.RelItems

/-!
# All packet and subpacket parsers, compared

`Cmp.R m m Q` for every parse method of the model.
-/

namespace Gpgpdump
open Spec P Src Cmp

theorem bind_assoc_P {α β γ} (m : P α) (f : α → P β) (g : β → P γ) : (m >>= f) >>= g = m >>= fun a => f a >>= g := by
  funext st
  simp only [bind_run]
  rcases m st with ⟨r, st'⟩
  cases r <;> rfl

theorem pure_bind_P {α β} (a : α) (f : α → P β) : (Pure.pure a : P α) >>= f = f a := rfl

/-- one rule -/
syntax "rel_step" : tactic
macro "rel" : tactic => `(tactic| repeat' (first | rel_step | fail))

macro_rules | `(tactic| rel_step) => `(tactic| dsimp only)
macro_rules | `(tactic| rel_step) => `(tactic| with_reducible refine R.ite (fun _ => ?_) (fun _ => ?_))
macro_rules | `(tactic| rel_step) => `(tactic| with_reducible exact R.pure rfl)
macro_rules | `(tactic| rel_step) => `(tactic| with_reducible refine R.fail ?_)
macro_rules | `(tactic| rel_step) => `(tactic| with_reducible refine R.pure ?_; assumption)
macro_rules | `(tactic| rel_step) => `(tactic| with_reducible assumption)
macro_rules | `(tactic| rel_step) => `(tactic| with_reducible exact R.getCur)
macro_rules | `(tactic| rel_step) => `(tactic| with_reducible refine R.add ?_)
macro_rules | `(tactic| rel_step) => `(tactic| with_reducible refine R.addOpt ?_)
macro_rules | `(tactic| rel_step) => `(tactic| with_reducible refine R.setDump ?_ ?_)
macro_rules | `(tactic| rel_step) => `(tactic| with_reducible refine R.setNote ?_)
macro_rules | `(tactic| rel_step) => `(tactic| with_reducible refine R.setValue ?_)
macro_rules | `(tactic| rel_step) => `(tactic| with_reducible refine R.nested ?_ ?_)
macro_rules | `(tactic| rel_step) => `(tactic| with_reducible exact R.readByte)
macro_rules | `(tactic| rel_step) => `(tactic| with_reducible exact R.read2EOF)
macro_rules | `(tactic| rel_step) => `(tactic| with_reducible exact R.seek _ _)
macro_rules | `(tactic| rel_step) => `(tactic| with_reducible exact R.reader)
macro_rules | `(tactic| rel_step) => `(tactic| with_reducible exact R.getMode)
macro_rules | `(tactic| rel_step) => `(tactic| with_reducible exact R.getSigTime)
macro_rules | `(tactic| rel_step) => `(tactic| with_reducible exact R.getKeyTime)
macro_rules | `(tactic| rel_step) => `(tactic| with_reducible exact R.setMode _)
macro_rules | `(tactic| rel_step) => `(tactic| with_reducible exact R.setSigTime _)
macro_rules | `(tactic| rel_step) => `(tactic| with_reducible exact R.setKeyTime _)
macro_rules | `(tactic| rel_step) => `(tactic| with_reducible exact R.utc)
macro_rules | `(tactic| rel_step) => `(tactic| with_reducible exact R.readBytes _ (.inl (by omega)))
macro_rules | `(tactic| rel_step) => `(tactic| with_reducible refine R.bindEq (R.failed (Q := Eq) ?_) fun _ => ?_)
macro_rules | `(tactic| rel_step) => `(tactic| with_reducible refine R.bindItem (R.build (Q := Eq) ?_ ?_) fun _ _ _ => ?_)
macro_rules | `(tactic| rel_step) => `(tactic| with_reducible refine R.bindEq ?_ fun _ => ?_; focus rel_step; done)
macro_rules | `(tactic| rel_step) => `(tactic| with_reducible refine R.bindEq (R.setDump ?_ ?_) fun _ => ?_)
macro_rules | `(tactic| rel_step) => `(tactic| with_reducible refine R.bindEq (R.setNote ?_) fun _ => ?_)
macro_rules | `(tactic| rel_step) => `(tactic| with_reducible refine R.bindEq (R.setValue ?_) fun _ => ?_)
macro_rules | `(tactic| rel_step) => `(tactic| with_reducible refine R.bindEq (R.addOpt ?_) fun _ => ?_)
macro_rules | `(tactic| rel_step) => `(tactic| with_reducible refine R.bindEq (R.add ?_) fun _ => ?_)
macro_rules | `(tactic| rel_step) => `(tactic| with_reducible refine R.bindEq (R.nested ?_ ?_) fun _ => ?_)
macro_rules | `(tactic| rel_step) => `(tactic| with_reducible refine R.bindItem R.getCur fun _ _ _ => ?_)
macro_rules | `(tactic| rel_step) => `(tactic| with_reducible refine R.bind (R.flag OptFlag.debug) fun _ _ _ => ?_)
macro_rules | `(tactic| rel_step) => `(tactic| with_reducible refine R.bind (R.flag OptFlag.cert) fun _ _ _ => ?_)
macro_rules | `(tactic| rel_step) => `(tactic| with_reducible refine R.bind (R.flag OptFlag.integer) fun _ _ _ => ?_)
macro_rules | `(tactic| rel_step) => `(tactic| with_reducible refine R.bind (R.flag OptFlag.literal) fun _ _ _ => ?_)
macro_rules | `(tactic| rel_step) => `(tactic| with_reducible refine R.bind (R.flag OptFlag.marker) fun _ _ _ => ?_)
macro_rules | `(tactic| rel_step) => `(tactic| with_reducible refine R.bind (R.flag OptFlag.priv) fun _ _ _ => ?_)
-- items
macro_rules | `(tactic| rel_step) => `(tactic| with_reducible refine item_const ?_ ?_ ?_ ?_)
macro_rules | `(tactic| rel_step) => `(tactic| with_reducible refine item.setNote ?_ ?_)
macro_rules | `(tactic| rel_step) => `(tactic| with_reducible refine item.setValue ?_ ?_)
macro_rules | `(tactic| rel_step) => `(tactic| with_reducible refine item.add ?_ ?_)
macro_rules | `(tactic| rel_step) => `(tactic| with_reducible exact it_hash (by first | assumption | (intro _; rfl)) _)
macro_rules | `(tactic| rel_step) => `(tactic| with_reducible exact it_sig (by assumption) _)
macro_rules | `(tactic| rel_step) => `(tactic| with_reducible exact it_comp (by assumption) _)
macro_rules | `(tactic| rel_step) => `(tactic| with_reducible exact it_aead (by assumption) _)
macro_rules | `(tactic| rel_step) => `(tactic| with_reducible exact it_pub (by assumption) _)
macro_rules | `(tactic| rel_step) => `(tactic| with_reducible exact it_sym (by assumption) _)
macro_rules | `(tactic| rel_step) => `(tactic| with_reducible exact it_s2k (by assumption) _)
macro_rules | `(tactic| rel_step) => `(tactic| with_reducible exact it_sub (by assumption) _ _)
macro_rules | `(tactic| rel_step) => `(tactic| with_reducible exact it_version (by assumption) _)
macro_rules | `(tactic| rel_step) => `(tactic| with_reducible exact it_oid (by first | assumption | (intro _; rfl)) _)
macro_rules | `(tactic| rel_step) => `(tactic| with_reducible exact it_salt (by first | assumption | (intro _; rfl)) _)
macro_rules | `(tactic| rel_step) => `(tactic| with_reducible refine it_ecParm (by assumption) _ _ ?_)
macro_rules | `(tactic| rel_step) => `(tactic| with_reducible refine it_mpi (by assumption) _ _ _ ?_)
macro_rules | `(tactic| rel_step) => `(tactic| with_reducible refine it_raw (by first | assumption | (intro _; rfl)) _ _ ?_)
macro_rules | `(tactic| rel_step) => `(tactic| with_reducible refine it_text (by assumption) _ _ ?_)
macro_rules | `(tactic| rel_step) => `(tactic| with_reducible refine it_date (by assumption) (by assumption) _ _ ?_)
macro_rules | `(tactic| rel_step) => `(tactic| with_reducible refine it_fileTime (by assumption) (by assumption) _)
macro_rules | `(tactic| rel_step) => `(tactic| with_reducible exact it_keyID _)
macro_rules | `(tactic| rel_step) => `(tactic| with_reducible exact it_stretch _)
macro_rules | `(tactic| rel_step) => `(tactic| with_reducible exact it_hashLeft2 _)
macro_rules | `(tactic| rel_step) => `(tactic| with_reducible exact it_literal _)
macro_rules | `(tactic| rel_step) => `(tactic| with_reducible refine it_num _ _ ?_)
macro_rules | `(tactic| rel_step) => `(tactic| with_reducible refine it_flag2 _ _ ?_)
macro_rules | `(tactic| rel_step) => `(tactic| (with_reducible refine fun (_ : Cmp.clean _ = true) => ?_); clean; done)
macro_rules | `(tactic| rel_step) => `(tactic| with_reducible exact fun _ => clean_unknownFlag _ _)

section
variable {k : Cmp}

theorem r_rest : k.R rest rest Eq := by unfold rest; rel
macro_rules | `(tactic| rel_step) => `(tactic| with_reducible exact r_rest)
theorem r_getBody : k.R getBody getBody Eq := by unfold getBody; rel
macro_rules | `(tactic| rel_step) => `(tactic| with_reducible exact r_getBody)
theorem r_addRaw (n : Str) {b b' : Bool} (hb : k.same = true → b = b') (hn : k.clean = true → Clean n) :
    k.R (addRaw n b) (addRaw n b') Eq := by unfold addRaw; rel
macro_rules | `(tactic| rel_step) => `(tactic| with_reducible refine r_addRaw _ (by first | assumption | (intro _; rfl)) ?_)
macro_rules | `(tactic| rel_step) => `(tactic| with_reducible refine R.bindEq (r_addRaw _ (by first | assumption | (intro _; rfl)) ?_) fun _ => ?_)
theorem r_unknownData : k.R unknownData unknownData Eq := by unfold unknownData; rel
macro_rules | `(tactic| rel_step) => `(tactic| with_reducible exact r_unknownData)
theorem r_newMPI : k.R newMPI newMPI Eq := by unfold newMPI; rel
macro_rules | `(tactic| rel_step) => `(tactic| with_reducible exact r_newMPI)
theorem r_newOID : k.R newOID newOID Eq := by unfold newOID; rel
macro_rules | `(tactic| rel_step) => `(tactic| with_reducible exact r_newOID)
theorem r_newECParm : k.R newECParm newECParm Eq := by unfold newECParm; rel
macro_rules | `(tactic| rel_step) => `(tactic| with_reducible exact r_newECParm)
theorem r_newDateTime (u) : k.R (newDateTime u) (newDateTime u) Eq := by unfold newDateTime; rel
macro_rules | `(tactic| rel_step) => `(tactic| with_reducible exact r_newDateTime _)
theorem r_addMPI (n) (hn : k.clean = true → Clean n) : k.R (addMPI n) (addMPI n) Eq := by unfold addMPI; rel
macro_rules | `(tactic| rel_step) => `(tactic| with_reducible refine r_addMPI _ ?_)
macro_rules | `(tactic| rel_step) => `(tactic| with_reducible refine R.bindEq (r_addMPI _ ?_) fun _ => ?_)
theorem r_addECPoint (n) (hn : k.clean = true → Clean n) : k.R (addECPoint n) (addECPoint n) Eq := by
  unfold addECPoint; rel
  exact fun h => clean_ecPointName _ _ (hn h)
macro_rules | `(tactic| rel_step) => `(tactic| with_reducible refine r_addECPoint _ ?_)
macro_rules | `(tactic| rel_step) => `(tactic| with_reducible refine R.bindEq (r_addECPoint _ ?_) fun _ => ?_)
theorem r_addOpaque (n) (hn : k.clean = true → Clean n) : k.R (addOpaque n) (addOpaque n) Eq := by unfold addOpaque; rel
macro_rules | `(tactic| rel_step) => `(tactic| with_reducible refine r_addOpaque _ ?_)
macro_rules | `(tactic| rel_step) => `(tactic| with_reducible refine R.bindEq (r_addOpaque _ ?_) fun _ => ?_)
theorem r_parseSig (b) : k.R (parseSig b) (parseSig b) Eq := by
  unfold parseSig; generalize pubAlg b = a; cases a <;> rel
macro_rules | `(tactic| rel_step) => `(tactic| with_reducible exact r_parseSig _)

theorem r_ecdhPub : k.R ecdhPub ecdhPub Eq := by
  unfold ecdhPub; rel
  rename_i ep b b' hb
  split <;> rel
macro_rules | `(tactic| rel_step) => `(tactic| with_reducible exact r_ecdhPub)
theorem r_parsePub (b) : k.R (parsePub b) (parsePub b) Eq := by
  unfold parsePub; generalize pubAlg b = a; cases a <;> rel
macro_rules | `(tactic| rel_step) => `(tactic| with_reducible exact r_parsePub _)
theorem r_parseSes (b) : k.R (parseSes b) (parseSes b) Eq := by
  unfold parseSes; generalize pubAlg b = a; cases a <;> rel
macro_rules | `(tactic| rel_step) => `(tactic| with_reducible exact r_parseSes _)

/-- secret integers: the length computed for an unknown algorithm can be negative -/
theorem r_parseSecPlain (b) (h : k.mayPanic = true ∨ pubAlg b ≠ .unknown) : k.R (parseSecPlain b) (parseSecPlain b) Eq := by
  unfold parseSecPlain
  generalize pubAlg b = a at h
  cases a <;> rel
  rcases h with h | h
  · refine R.bindEq (R.readBytes _ (.inr h)) fun _ => ?_
    rel
    exact item_dump (d := dumpBytes _) (by assumption) (by intro; clean) (by intro; clean) (by intro; clean) (by intros; clean)
  · exact absurd rfl h
theorem r_parseSecEnc (b) : k.R (parseSecEnc b) (parseSecEnc b) Eq := by
  unfold parseSecEnc; generalize pubAlg b = a; cases a <;> rel
macro_rules | `(tactic| rel_step) => `(tactic| with_reducible exact r_parseSecEnc _)

theorem r_s2kParse {d d' : Bool} (hd : k.same = true → d = d') : k.R (s2kParse d) (s2kParse d') Eq := by
  unfold s2kParse; rel
macro_rules | `(tactic| rel_step) => `(tactic| with_reducible exact r_s2kParse (by assumption))

/-! ## Subpackets -/

theorem r_sub01 : k.R sub01 sub01 k.item := by unfold sub01; rel
macro_rules | `(tactic| rel_step) => `(tactic| with_reducible exact r_sub01)

theorem item_cleanName {i i' : Item} (h : k.item i i') : k.clean = true → Clean i.name := by
  intro hc
  have := (h.clean hc).1
  cases this; assumption

section
variable (X : Ext) (hX : k.clean = true → CleanX X)
include hX
theorem r_sub02 : k.R (sub02 X) (sub02 X) k.item := by
  unfold sub02; rel
  rename_i i i' hi _ _ _ _ _ _
  rw [← hi.name_eq]
  exact R.pure (it_date (by assumption) hX _ _ (item_cleanName hi))
theorem r_sub03 : k.R (sub03 X) (sub03 X) k.item := by
  unfold sub03; rel
  rename_i i i' hi _ _ _ _ _ _
  rw [← hi.name_eq]
  exact R.pure (it_expire (by assumption) hX _ _ _ (item_cleanName hi))
theorem r_sub09 : k.R (sub09 X) (sub09 X) k.item := by
  unfold sub09; rel
  rename_i i i' hi _ _ _ _ _ _
  rw [← hi.name_eq]
  exact R.pure (it_expire (by assumption) hX _ _ _ (item_cleanName hi))
end
theorem r_sub04 : k.R sub04 sub04 k.item := by
  unfold sub04; rel
  exact fun _ => rfl
  exact fun _ => ⟨by clean, by clean⟩
theorem r_sub05 : k.R sub05 sub05 k.item := by unfold sub05; rel
theorem r_subText : k.R subText subText k.item := by
  unfold subText; rel
  rename_i i i' hi _ _ _ _
  rw [← hi.name_eq]
  exact R.pure (it_text (by assumption) _ _ (item_cleanName hi))
theorem r_sub07 : k.R sub07 sub07 k.item := by unfold sub07; rel
theorem r_forEach {xs : List UInt8} {f f' : UInt8 → P Unit} (h : ∀ x, k.R (f x) (f' x) Eq) : k.R (forEach xs f) (forEach xs f') Eq := by
  induction xs with
  | nil => exact R.pure rfl
  | cons x xs ih => exact R.bindEq (h x) fun _ => ih
theorem r_subList {f : UInt8 → Bool → Item} (h : ∀ x b b', (k.same = true → b = b') → k.item (f x b) (f x b')) :
    k.R (subList f) (subList f) k.item := by
  unfold subList; rel
  rename_i b b' hb
  exact R.bindEq (r_forEach fun x => R.add (h x b b' hb)) fun _ => R.getCur
theorem r_sub12 : k.R sub12 sub12 k.item := by unfold sub12; rel
theorem r_sub16 : k.R sub16 sub16 k.item := by
  unfold sub16; rel
  rename_i i i' hi b
  rw [← hi.name_eq]
  refine R.pure (item_refl fun h => ?_)
  exact .mk (item_cleanName hi h) (.inl (.hashHex16 _)) .nil .nil (by simp [keyIDItem, newItem, Item.items])
theorem r_sub20 : k.R sub20 sub20 k.item := by unfold sub20; rel
theorem r_otherFlags (i : Nat) (bs : Bytes) : k.R (otherFlags i bs) (otherFlags i bs) Eq := by
  induction bs generalizing i with
  | nil => exact R.pure rfl
  | cons b bs ih => rw [otherFlags]; rel; exact ih _
macro_rules | `(tactic| rel_step) => `(tactic| with_reducible exact r_otherFlags _ _)
theorem r_trailingFlags : k.R trailingFlags trailingFlags Eq := by unfold trailingFlags; rel
macro_rules | `(tactic| rel_step) => `(tactic| with_reducible exact r_trailingFlags)
theorem r_sub23 : k.R sub23 sub23 k.item := by unfold sub23; rel
theorem r_sub25 : k.R sub25 sub25 k.item := by unfold sub25; rel
theorem r_sub27 : k.R sub27 sub27 k.item := by unfold sub27; rel
theorem r_sub29 : k.R sub29 sub29 k.item := by unfold sub29; rel
theorem r_sub30 : k.R sub30 sub30 k.item := by unfold sub30; rel
theorem r_sub31 : k.R sub31 sub31 k.item := by unfold sub31; rel
theorem r_subFingerprint : k.R subFingerprint subFingerprint k.item := by unfold subFingerprint; rel
theorem r_sub37 : k.R sub37 sub37 k.item := by unfold sub37; rel
end
end Gpgpdump
