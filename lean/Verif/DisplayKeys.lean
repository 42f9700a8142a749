import Verif.Display
import Verif.AcceptKeys

/-!
# What is displayed of keys
-/

namespace Gpgpdump
open P Spec

variable {o : OptCode → Bool}

namespace Shows

theorem known {m : P Unit} {slots : UInt8 → Option (List Slot)} {a : UInt8} {ss : List Slot} (ha : slots a = some ss) (h : Shows o m (parts o ss)) :
    Shows o m (fun _ => Integers o slots a) := h.mono fun _ _ _ _ h => .known ha h

theorem opaqueInts {n : Str} {slots : UInt8 → Option (List Slot)} {a : UInt8} (ha : slots a = none) (hn : n = opaqueName a) :
    Shows o (Gpgpdump.addOpaque n) (fun _ => Integers o slots a) := addOpaque fun q => by subst hn; exact .unknown ha

theorem not_mem9 {a : UInt8} (h : a ∉ [1, 2, 3, 16, 17, 18, 19, 20, 22]) :
    a ∉ [1, 2, 3] ∧ a ≠ 17 ∧ a ∉ [16, 20] ∧ a ≠ 18 ∧ a ≠ 19 ∧ a ≠ 22 := by
  simp only [List.mem_cons, List.not_mem_nil, or_false, not_or] at h ⊢
  obtain ⟨h1, h2, h3, h4, h5, h6, h7, h8, h9⟩ := h
  exact ⟨⟨h1, h2, h3⟩, h5, ⟨h4, h8⟩, h6, h7, h9⟩

theorem parseSig (a : UInt8) : Shows o (parseSig a) (fun _ => Integers o sigSlots a) := by
  unfold Gpgpdump.parseSig
  rcases Lang.pubAlg_cases a with ⟨ha, h⟩ | ⟨rfl, h⟩ | ⟨ha, h⟩ | ⟨rfl, h⟩ | ⟨rfl, h⟩ | ⟨rfl, h⟩ | ⟨ha, h⟩ <;> simp only [h]
  · exact known (if_pos ha) int1
  · exact known rfl (intS int1)
  · refine known (ss := [.int "ElGamal a = g^k mod p", .int "ElGamal b = (h - a*x)/k mod p - 1"]) ?_ (intS int1)
    simp only [List.mem_cons, List.not_mem_nil, or_false] at ha
    rcases ha with rfl | rfl <;> rfl
  · exact opaqueInts rfl rfl
  · exact known rfl (intS int1)
  · exact known rfl (intS int1)
  · obtain ⟨h1, h2, h3, h4, h5, h6⟩ := not_mem9 ha
    refine opaqueInts ?_ ?_
    · simp only [sigSlots, if_neg h1, if_neg h2, if_neg h3, if_neg h5, if_neg h6]
    · simp only [opaqueName, if_neg h2, if_neg h4, if_neg h5, if_neg h6]; rfl

theorem kdf1 : Shows o (do
    let ep ← newECParm
    let i := ecParmItem ep (S "KDF parameters") (← P.flag Ctx.integer)
    match ep with
    | 0x01 :: h :: s :: _ => do
      let d ← P.flag Ctx.debug
      P.add ((i.add (hashItem h d)).add (symItem s d))
    | _ => P.add (i.setValue Unknown)) (parts o [.kdf]) := by
  refine ecparm fun b => integer ?_
  have key : ∀ {i}, i = kdfRow o b → ∀ q, (b = [] → ([] : Bytes) = [] → q = [] → parts o [.kdf] () [] q [i]) ∧
      (b.length < 256 → parts o [.kdf] () (UInt8.ofNat b.length :: (b ++ [])) q [i]) := by
    rintro i rfl q
    refine ⟨?_, fun h => .kdf h .nil⟩
    rintro rfl _ rfl
    exact .kdfMissing
  dsimp only
  split
  · refine debug (lastAdd fun q => key ?_ q)
    rw [hashItem_eq, symItem_eq]
    simp only [ecParmItem, dumpIf_eq, Item.add_eq, Item.addAll_addAll]
    rfl
  · rename_i hn
    refine lastAdd fun q => key ?_ q
    unfold kdfRow
    split
    · exact (hn _ _ _ rfl).elim
    · simp only [ecParmItem, dumpIf_eq]
      rfl

theorem parsePub (a : UInt8) : Shows o (parsePub a) (fun _ => Integers o pubSlots a) := by
  unfold Gpgpdump.parsePub
  rcases Lang.pubAlg_cases a with ⟨ha, h⟩ | ⟨rfl, h⟩ | ⟨ha, h⟩ | ⟨rfl, h⟩ | ⟨rfl, h⟩ | ⟨rfl, h⟩ | ⟨ha, h⟩ <;> simp only [h]
  · exact known (if_pos ha) (intS int1)
  · exact known rfl (intS (intS (intS int1)))
  · refine known (ss := [.int "ElGamal prime p", .int "ElGamal group generator g", .int "ElGamal public key value y (= g^x mod p where x is secret)"]) ?_
      (intS (intS int1))
    simp only [List.mem_cons, List.not_mem_nil, or_false] at ha
    rcases ha with rfl | rfl <;> rfl
  · exact known rfl (curveS (pointS kdf1))
  · exact known rfl (curveS point1)
  · exact known rfl (curveS point1)
  · obtain ⟨h1, h2, h3, h4, h5, h6⟩ := not_mem9 ha
    refine opaqueInts ?_ ?_
    · simp only [pubSlots, if_neg h1, if_neg h2, if_neg h3, if_neg h4, if_neg h5, if_neg h6]
    · simp only [opaqueName, if_neg h2, if_neg h4, if_neg h5, if_neg h6]; rfl

theorem wrapped1 : Shows o (do
    let ep ← newECParm
    P.add (ecParmItem ep (S "symmetric key (encoded)") (← P.flag Ctx.integer))) (parts o [.wrapped]) := by
  refine ecparm fun b => integer (lastAdd fun q => ⟨?_, fun h => ?_⟩)
  · rintro rfl _ rfl
    have : ecParmItem [] (S "symmetric key (encoded)") (o INTEGER || o DEBUG) = leaf "symmetric key (encoded)".toList [] (sizeText 0) [] := by
      simp only [ecParmItem, dumpIf_eq, dumpIf]
      split <;> rfl
    rw [this]
    exact .wrappedMissing
  · simp only [ecParmItem, dumpIf_eq]
    exact .wrapped h .nil

theorem parseSes (a : UInt8) : Shows o (parseSes a) (fun _ => Integers o sesSlots a) := by
  unfold Gpgpdump.parseSes
  rcases Lang.pubAlg_cases a with ⟨ha, h⟩ | ⟨rfl, h⟩ | ⟨ha, h⟩ | ⟨rfl, h⟩ | ⟨rfl, h⟩ | ⟨rfl, h⟩ | ⟨ha, h⟩ <;> simp only [h]
  · exact known (if_pos ha) int1
  · exact opaqueInts rfl rfl
  · refine known (ss := [.int "ElGamal g^k mod p",
      .int "ElGamal m * y^k mod p; m = sym alg(1 byte) + checksum(2 bytes) + PKCS#1 block encoding EME-PKCS1-v1_5"]) ?_ (intS int1)
    simp only [List.mem_cons, List.not_mem_nil, or_false] at ha
    rcases ha with rfl | rfl <;> rfl
  · exact known rfl (pointS wrapped1)
  · exact opaqueInts rfl rfl
  · exact opaqueInts rfl rfl
  · obtain ⟨h1, h2, h3, h4, h5, h6⟩ := not_mem9 ha
    refine opaqueInts ?_ ?_
    · simp only [sesSlots, if_neg h1, if_neg h3, if_neg h4]
    · simp only [opaqueName, if_neg h2, if_neg h4, if_neg h5, if_neg h6]; rfl

theorem knownSec {m : P Unit} {a : UInt8} {ss : List Slot} (ha : secSlots a = some ss) (h : Shows o m (parts o ss)) :
    Shows o m (fun _ => SecretInts o a) := h.mono fun _ _ _ _ h => .known ha h

theorem parseSecPlain (a : UInt8) : Shows o (parseSecPlain a) (fun _ => SecretInts o a) := by
  unfold Gpgpdump.parseSecPlain
  rcases Lang.pubAlg_cases a with ⟨ha, h⟩ | ⟨rfl, h⟩ | ⟨ha, h⟩ | ⟨rfl, h⟩ | ⟨rfl, h⟩ | ⟨rfl, h⟩ | ⟨ha, h⟩ <;> simp only [h]
  · exact knownSec (if_pos ha) (intS (intS (intS int1)))
  · exact knownSec rfl int1
  · refine knownSec (ss := [.int "ElGamal secret exponent x"]) ?_ int1
    simp only [List.mem_cons, List.not_mem_nil, or_false] at ha
    rcases ha with rfl | rfl <;> rfl
  · exact knownSec rfl int1
  · exact knownSec rfl int1
  · exact knownSec rfl int1
  · obtain ⟨h1, h2, h3, h4, h5, h6⟩ := not_mem9 ha
    have hs : secSlots a = none := by simp only [secSlots, if_neg h1, if_neg h2, if_neg h3, if_neg h4, if_neg h5, if_neg h6]
    refine rest fun n => ?_
    by_cases hn : 2 ≤ n
    · rw [show ((n : Int) - 2) = ((n - 2 : Nat) : Int) by omega]
      refine bytes _ fun b hb => debug (lastAdd fun q hq => ?_)
      rw [iBytes_nat, dumpIf_eq, ← hb, List.append_nil]
      refine .unknown hs ?_
      simp only [List.append_nil, List.length_append] at hq
      omega
    · intro x p q j b s hx hr
      exfalso
      obtain ⟨b, s1, h1, -⟩ := bind_inv hr
      rw [readBytes_def] at h1
      unfold Reader.readBytes at h1
      rw [if_neg (by omega)] at h1
      split at h1
      · simp at h1
      · by_cases hg : (⟨p ++ q, p.length⟩ : Reader).off + ((n : Int) - 2) > (⟨p ++ q, p.length⟩ : Reader).size
        · rw [if_pos hg] at h1; simp at h1
        · rw [if_neg hg, if_pos (by omega)] at h1
          simp at h1

theorem seekEnd {E : Unit → Bytes → Bytes → List Item → Prop} (h : ∀ q, E () q [] []) : Shows o (do let _ ← P.seek 0 2; Pure.pure () : P Unit) E := by
  intro x p q j b s hx hr
  rw [bind_run, seek_end] at hr
  obtain ⟨-, rfl⟩ := pure_inv hr
  exact ⟨x, q, [], [], hx, by simp, by simp, h q⟩

/-- all that is left is one item -/
theorem restItem {n : Str} : Shows o (do Gpgpdump.addOpaque n; let _ ← P.seek 0 2; Pure.pure () : P Unit)
    (fun _ f q l => q = [] ∧ l = [leaf n [] (sizeText f.length) (dumpIf (o DEBUG) f)]) := by
  refine (addOpaque (E := fun _ f q l => f = [] ∧ l = [leaf n [] (sizeText q.length) (dumpIf (o DEBUG) q)]) fun q => ⟨rfl, rfl⟩).bind fun _ f1 l1 =>
    seekEnd fun q h => ?_
  obtain ⟨rfl, rfl⟩ := h
  simp

theorem parseSecEnc (a : UInt8) : Shows o (parseSecEnc a) (fun _ f q l => q = [] ∧ l = [leaf (encryptedName a) [] (sizeText f.length) (dumpIf (o DEBUG) f)]) := by
  unfold Gpgpdump.parseSecEnc
  have key : ∀ n : Str, n = encryptedName a → Shows o (do Gpgpdump.addOpaque n; let _ ← P.seek 0 2; Pure.pure () : P Unit)
      (fun _ f q l => q = [] ∧ l = [leaf (encryptedName a) [] (sizeText f.length) (dumpIf (o DEBUG) f)]) := by
    rintro n rfl; exact restItem
  rcases Lang.pubAlg_cases a with ⟨ha, h⟩ | ⟨rfl, h⟩ | ⟨ha, h⟩ | ⟨rfl, h⟩ | ⟨rfl, h⟩ | ⟨rfl, h⟩ | ⟨ha, h⟩ <;> simp only [h] <;> refine key _ ?_
  · exact (if_pos ha).symm
  · rfl
  · simp only [List.mem_cons, List.not_mem_nil, or_false] at ha
    rcases ha with rfl | rfl <;> rfl
  · rfl
  · rfl
  · rfl
  · obtain ⟨h1, h2, h3, h4, h5, h6⟩ := not_mem9 ha
    simp only [encryptedName, if_neg h1, if_neg h2, if_neg h3, if_neg h4, if_neg h5, if_neg h6]; rfl

/-! ## String-to-key specifiers -/

/-- three octets, put back if they are not the given ones -/
theorem peek3 {M : Bytes} {g : P Bool} {E : Bool → Bytes → Bytes → List Item → Prop} (h1 : Shows o g (fun a f q l => E a (M ++ f) q l))
    (h2 : ∀ m q : Bytes, m.length = 3 → m ≠ M → E true [] (m ++ q) []) :
    Shows o (do
      let mrk ← P.readBytes 3
      if mrk = M then g
      else
        let _ ← P.seek (-3) 1
        return true) E := by
  intro x p q j b s hx hr
  obtain ⟨m, s1, hr1, hr2⟩ := bind_inv hr
  obtain ⟨q1, rfl, hl, rfl⟩ := readBytes_inv (n := 3) hr1
  by_cases hm : m = M
  · rw [if_pos hm] at hr2
    obtain ⟨x2, f2, q2, l2, hx2, rfl, rfl, h⟩ := h1 x _ _ _ _ _ hx hr2
    subst hm
    exact ⟨x2, m ++ f2, q2, l2, hx2, by simp, by simp, h⟩
  · rw [if_neg hm, bind_run, seek_back3 _ _ _ _ _ hl] at hr2
    obtain ⟨rfl, rfl⟩ := pure_inv hr2
    exact ⟨x, [], m ++ q1, [], hx, rfl, by simp, h2 m q1 hl hm⟩

theorem s2kParse : Shows o (s2kParse (o DEBUG)) (fun iv f q l => ∃ i, l = [i] ∧ S2KShown o iv f q i) := by
  unfold Gpgpdump.s2kParse
  refine byte fun ss => ?_
  suffices h : Shows o _ (fun iv f q k => S2KShown o iv (ss :: f) q (s2kRow o ss k)) from
    (nested h).mono fun iv f q l => by
      rintro ⟨k, rfl, hk⟩
      exact ⟨_, rfl, by rw [s2kItem_eq]; exact hk⟩
  by_cases h0 : ss = 0
  · subst h0
    rw [if_pos (.inl rfl)]
    refine byte fun h => add ?_
    simp only
    rw [if_neg (by simp), if_neg (by decide)]
    refine pure fun q => ?_
    rw [hashItem_eq]
    exact .simple
  · by_cases h1 : ss = 1
    · subst h1
      rw [if_pos (.inr (.inl rfl))]
      refine byte fun h => add ?_
      simp only
      rw [if_pos (by decide)]
      refine bytes 8 fun s hs => add ?_
      rw [if_neg (by decide)]
      refine pure fun q => ?_
      rw [hashItem_eq, saltItem, dumpTrue_eq, List.append_nil]
      exact .salted hs
    · by_cases h3 : ss = 3
      · subst h3
        rw [if_pos (.inr (.inr rfl))]
        refine byte fun h => add ?_
        simp only
        rw [if_pos (by decide)]
        refine bytes 8 fun s hs => add ?_
        rw [if_pos trivial]
        refine byte fun c => add ?_
        refine pure fun q => ?_
        rw [hashItem_eq, saltItem, dumpTrue_eq, stretch_eq]
        exact .iterated hs
      · rw [if_neg (by simp [h0, h1, h3])]
        by_cases h101 : ss = 101
        · subst h101
          rw [if_pos rfl]
          refine rest fun n => ?_
          by_cases hn : n < 4
          · rw [if_pos (by omega)]
            refine pure fun q hq => .notGnu ?_
            rintro ⟨n', r, rfl⟩
            simp at hq; omega
          · rw [if_neg (by omega)]
            refine peek3 ?_ ?_
            · refine byte fun n' => ?_
              dsimp only
              refine (build (E1 := fun _ f q k => (n' ≠ 2 ∧ f = [] ∧ k = []) ∨ (n' = 2 ∧ ∃ s : Bytes, s.length < 256 ∧ f = UInt8.ofNat s.length :: s ∧
                k = [leaf "Serial Number".toList [] [] (hexText s)])) ?_).bind fun i f1 l1 => add (pure fun q => ?_)
              · by_cases hn2 : n' = 2
                · subst hn2
                  rw [if_pos (by decide)]
                  refine byte fun l => bytes _ fun s hs => lastAdd fun q => .inr ⟨rfl, s, ?_⟩
                  obtain ⟨hs1, hs2⟩ := ofNat_len hs
                  exact ⟨hs2, by rw [← hs1, List.append_nil], by rw [dumpTrue_eq]; rfl⟩
                · have : n'.toNat ≠ 2 := fun h => hn2 (UInt8.toNat_inj.mp h)
                  rw [if_neg (by omega)]
                  exact pure fun q => .inl ⟨hn2, rfl, rfl⟩
              · rintro ⟨rfl, k, rfl, ⟨hn2, rfl, rfl⟩ | ⟨rfl, s, hs, rfl, rfl⟩⟩ hq
                · exact .gnu hn2
                · rw [List.append_nil]
                  exact .card hs
            · intro m q hl hm hq
              refine .notGnu ?_
              rintro ⟨n', r, h⟩
              match m, hl with
              | [a, b, c], _ => simp at h; exact hm (by rw [h.1, h.2.1, h.2.2.1])
        · rw [if_neg h101]
          exact pure fun q => .other (by simp [h0, h1, h3, h101])

/-! ## Public keys -/

theorem time {β} {g : DateTime → P β} {E : β → Bytes → Bytes → List Item → Prop}
    (h : ∀ tm : Bytes, tm.length = 4 → Shows o (g ⟨tm, o UTC⟩) (fun a f q l => E a (tm ++ f) q l)) : Shows o (P.flag Ctx.utc >>= fun u => newDateTime u >>= g) E := by
  refine utc ?_
  unfold newDateTime
  rw [bind_assoc_P]
  exact bytes 4 fun tm ht => h tm ht

theorem pubkeyTime (X : Ext) : Shows o (pubkeyTime X) (fun _ f _ l => f.length = 4 ∧
    l = [leaf "Public key creation time".toList (momentText o X f) [] (dumpIf (o DEBUG) f)]) := by
  unfold Gpgpdump.pubkeyTime
  refine time fun tm ht => setKeyTime (debug (lastAdd fun q => ⟨by simpa using ht, ?_⟩))
  rw [timeItem_eq, List.append_nil]; rfl

theorem onReader {α} {m : P α} {E1 : α → Bytes → Bytes → List Item → Prop} (b : Bytes) (h : Shows o m E1) :
    Shows o (P.onReader (Reader.new b) m) (fun a f _ l => f = [] ∧ ∃ g r, b = g ++ r ∧ a.2 = ⟨g ++ r, g.length⟩ ∧ E1 a.1 g r l) := by
  have hr : ∀ x p post j, P.onReader (Reader.new b) m (St.at (some x) p post j) =
      ((m (St.at (some x) [] b j)).1.map (fun a => (a, (m (St.at (some x) [] b j)).2.rd)),
        { (m (St.at (some x) [] b j)).2 with rd := ⟨p ++ post, p.length⟩ }) := fun _ _ _ _ => rfl
  intro x p q j a s hx hs
  rw [hr] at hs
  rcases hm : m (St.at (some x) [] b j) with ⟨r, s'⟩
  rw [hm] at hs
  cases r with
  | ok a' =>
    simp only [Res.map, Prod.mk.injEq, Res.ok.injEq] at hs
    obtain ⟨rfl, rfl⟩ := hs
    obtain ⟨x', f, q', l, hx', rfl, rfl, h2⟩ := h _ _ _ _ _ _ hx hm
    exact ⟨x', [], q, l, hx', rfl, by simp [St.at], rfl, f, q', rfl, rfl, h2⟩
  | _ => simp [Res.map] at hs

theorem pubkeyParse (X : Ext) (v : UInt8) : Shows o (pubkeyParse X (pubVer v)) (fun a f q l => PubShown o X v a f q l) := by
  unfold Gpgpdump.pubkeyParse
  rcases Lang.ver_cases v with ⟨rfl, h⟩ | ⟨rfl, h, h'⟩ | ⟨rfl, h, h', h''⟩ | ⟨hv, h, h', h''⟩ <;> simp only [h]
  · rw [if_pos trivial]
    refine (pubkeyTime X).bind fun _ f1 l1 => byte fun a => debug (add (bytes 4 fun sz hz => bytes _ fun b hb =>
      (onReader b (parsePub a)).bind fun _ f2 l2 => pure fun q => ?_))
    rintro ⟨rfl, g, r, rfl, -, hp⟩ ⟨ht, rfl⟩
    obtain ⟨hl, rfl⟩ := Lang.sized4 hz hb
    rw [pubItem_eq]
    have := PubShown.v5 (X := X) (q := q) ht hl hp
    simpa only [List.append_nil, List.nil_append, List.append_assoc, List.cons_append] using this
  · rw [if_neg (by decide), h', if_pos rfl]
    refine (pubkeyTime X).bind fun _ f1 l1 => byte fun a => debug (add ((parsePub a).bind fun _ f2 l2 => pure fun q => ?_))
    rintro hp ⟨ht, rfl⟩
    rw [pubItem_eq]
    have := PubShown.v4 (X := X) (q := q) ht (by simpa using hp)
    simpa only [List.append_nil, List.nil_append, List.append_assoc, List.cons_append] using this
  · rw [if_neg (by decide), h', if_neg (by decide), if_pos (by decide)]
    refine (pubkeyTime X).bind fun _ f1 l1 => bytes 2 fun d hd => add (byte fun a => debug (add ((parsePub a).bind fun _ f2 l2 => pure fun q => ?_)))
    rintro hp ⟨ht, rfl⟩
    rw [pubItem_eq]
    have := PubShown.v3 (X := X) (q := q) ht hd (by simpa using hp)
    simp only [List.append_nil, List.nil_append, List.cons_append]
    exact this
  · rw [if_neg (by decide), h', if_neg (by decide), h'', if_neg (by decide)]
    exact pure fun q => .other hv

/-! ## Secret keys -/

theorem secOptions (u : UInt8) : Shows o (secOptions u) (fun a f q l => OptionsShown o u a.1 a.2 f q l) := by
  unfold Gpgpdump.secOptions
  refine debug ?_
  by_cases h0 : u = 0
  · subst h0
    rw [if_neg (by decide), Lang.pure_then]
    simp only
    rw [if_neg (by decide), if_pos trivial]
    exact pure fun q => .plain
  · rw [if_pos h0, bind_assoc_P]
    refine byte fun c => ?_
    rw [bind_assoc_P]
    refine add ?_
    rw [Lang.pure_then, symItem_eq]
    by_cases h253 : u = 253
    · subst h253
      simp only
      rw [if_pos trivial]
      refine byte fun a => add ?_
      rw [if_neg (by decide), if_pos (by decide), aeadItem_eq]
      refine s2kParse.bind fun iv f l => pure fun q => ?_
      rintro ⟨i, rfl, h⟩
      simpa using OptionsShown.aead (c := c) (a := a) h
    · simp only
      rw [if_neg h253, if_neg h0]
      by_cases hs : u = 254 ∨ u = 255
      · rw [if_pos (.inr hs)]
        refine s2kParse.bind fun iv f l => pure fun q => ?_
        rintro ⟨i, rfl, h⟩
        simpa using OptionsShown.s2k (c := c) hs h
      · rw [if_neg (by rintro (h | h); exact h253 h; exact hs h)]
        refine pure fun q => .cipher ?_
        simp only [List.mem_cons, List.not_mem_nil, or_false, not_or]
        exact ⟨h0, h253, fun h => hs (.inl h), fun h => hs (.inr h)⟩

theorem fieldRest (g r : Bytes) : Shows o (Gpgpdump.fieldRest (some ⟨g ++ r, g.length⟩)) (fun _ f _ l => f = [] ∧ l = unknownRows o r) := by
  unfold Gpgpdump.fieldRest
  simp only [rest_eq]
  by_cases hr : r = []
  · subst hr
    rw [if_neg (by simp)]
    exact pure fun q => ⟨rfl, rfl⟩
  · have : 0 < r.length := List.length_pos_iff.mpr hr
    rw [if_pos (by omega)]
    refine debug (lastAdd fun q => ⟨rfl, ?_⟩)
    rw [rawData_at, rawItem_eq, unknownRows, if_neg hr]; rfl

theorem fieldNone : Shows o (Gpgpdump.fieldRest none) (fun _ f _ l => f = [] ∧ l = []) := pure fun _ => ⟨rfl, rfl⟩

theorem secIV (u c : UInt8) : Shows o (secIV c (u == 253)) (fun _ f _ l => IVShown u c true f l) := by
  unfold Gpgpdump.secIV
  refine bytes _ fun n hn => lastAdd fun q => ?_
  rw [dumpTrue_eq, List.append_nil]
  by_cases hu : u = 253
  · subst hu
    exact .nonce hn
  · rw [if_neg (by simpa using hu)]
    exact .iv hu hn

/-- the initialization vector and the octets left of the field -/
theorem ivRest (u c : UInt8) (iv : Bool) (r : Option Reader) (R : List Item) (hr : Shows o (Gpgpdump.fieldRest r) (fun _ f _ l => f = [] ∧ l = R)) (hu : u ≠ 0) :
    Shows o (if u ≠ 0 ∧ iv = true then (do Gpgpdump.secIV c (u == 253); Gpgpdump.fieldRest r) else Gpgpdump.fieldRest r)
      (fun _ f _ l => ∃ ivs, IVShown u c iv f ivs ∧ l = ivs ++ R) := by
  by_cases h : iv = true
  · subst h
    rw [if_pos ⟨hu, rfl⟩]
    refine (secIV u c).bind fun _ f1 l1 => hr.mono fun _ f2 q l2 => ?_
    rintro ⟨rfl, rfl⟩ h1
    exact ⟨l1, by simpa using h1, rfl⟩
  · rw [if_neg (by simp [h])]
    refine hr.mono fun _ f2 q l2 => ?_
    rintro ⟨rfl, rfl⟩
    have : iv = false := by simpa using h
    subst this
    exact ⟨[], .none, rfl⟩

theorem secField1_shared (v u : UInt8) (hv : v ≠ 5) : Shows o (secField1 (pubVer v) u) (fun _ f q l => ∃ c iv f1 n is ivs, f = f1 ++ n ∧
    OptionsShown o u c iv f1 (n ++ q) is ∧ l = is ++ ivs ∧ if u = 0 then n = [] ∧ ivs = [] else IVShown u c iv n ivs) := by
  rw [Lang.secField1_eq]
  have h : getField1 (pubVer v) = Pure.pure .shared := by
    unfold getField1
    exact if_neg hv
  rw [h, Lang.pure_then]
  simp only [onField, Lang.assoc, Lang.pure_then]
  refine (secOptions u).bind fun a f1 l1 => ?_
  unfold Lang.afterOptions
  by_cases hu : u = 0
  · rw [if_neg (by simp [hu])]
    refine fieldNone.mono fun _ f2 q l2 => ?_
    rintro ⟨rfl, rfl⟩ h1
    exact ⟨a.1, a.2, f1, [], l1, [], rfl, h1, rfl, by rw [if_pos hu]; exact ⟨rfl, rfl⟩⟩
  · refine (ivRest u a.1 a.2 none [] fieldNone hu).mono fun _ f2 q l2 => ?_
    rintro ⟨ivs, h2, rfl⟩ h1
    exact ⟨a.1, a.2, f1, f2, l1, ivs, rfl, h1, by simp, by rw [if_neg hu]; exact h2⟩

theorem secField1_own (u : UInt8) : Shows o (secField1 (pubVer 5) u) (fun _ f _ l => Options5Shown o u f l) := by
  rw [Lang.secField1_eq]
  have h : getField1 (pubVer 5) = (do
      let l ← P.readByte
      if l = 0 then return .absent
      else
        let b ← P.readBytes l.toNat
        return .own (Reader.new b)) := rfl
  rw [h, Lang.assoc]
  refine byte fun l => ?_
  by_cases hl : l = 0
  · subst hl
    rw [if_pos rfl, Lang.pure_then]
    exact pure fun q => .none
  · rw [if_neg hl, Lang.assoc]
    refine bytes _ fun b hb => ?_
    obtain ⟨hl1, hl2⟩ := ofNat_len hb
    have hb0 : b ≠ [] := by
      rintro rfl
      apply hl; rw [hl1]; rfl
    rw [Lang.pure_then]
    simp only [onField, Lang.assoc, Lang.pure_then]
    refine (onReader b (secOptions u)).bind' fun a f1 q1 l1 h1 => ?_
    obtain ⟨⟨c, iv⟩, rd⟩ := a
    obtain ⟨rfl, g, r, rfl, h2, ho⟩ := h1
    dsimp only at h2 ho
    unfold Lang.afterOptions
    rw [h2]
    by_cases hu : u = 0
    · subst hu
      rw [if_neg (by simp)]
      refine (fieldRest g r).mono fun _ f2 q l2 => ?_
      rintro ⟨rfl, rfl⟩ _
      cases ho with
      | plain =>
        rw [hl1]
        simpa using Options5Shown.plain (o := o) (by simpa using hl2) (by simpa using hb0)
      | s2k hu => simp at hu
      | cipher hu => simp at hu
    · refine (ivRest u c iv _ _ (fieldRest g r) hu).mono fun _ f2 q l2 => ?_
      rintro ⟨ivs, hiv, rfl⟩ _
      rw [hl1, List.nil_append, List.append_assoc, ← List.append_assoc l1]
      exact .some hu hl2 ho hiv

end Shows

/-! ## Methods that also set the note of the item -/

/-- the method sets the note to `n` -/
def Notes (o : OptCode → Bool) (m : P Unit) (E : Str → Bytes → Bytes → List Item → Prop) : Prop :=
  ∀ x p q name s, x.opts = o → ∀ l0, m (St.at (some x) p q ((newItem name).addAll l0)) = (.ok (), s) →
    ∃ x' f q' l n, x'.opts = o ∧ q = f ++ q' ∧ s = St.at (some x') (p ++ f) q' ((newItem name [] n).addAll (l0 ++ l)) ∧ E n f q' l

namespace Notes

theorem setNote {n : Str} {g : Unit → P Unit} {E : Unit → Bytes → Bytes → List Item → Prop} (h : Shows o (g ()) E) :
    Notes o (P.setNote n >>= g) (fun m f q l => m = n ∧ E () f q l) := by
  intro x p q name s hx l0 hr
  rw [bind_run, setNote_run] at hr
  obtain ⟨x', f, q', l, hx', rfl, rfl, h2⟩ := h x p q _ () s hx hr
  exact ⟨x', f, q', l, n, hx', rfl, by rw [show ((newItem name).addAll l0).setNote n = (newItem name [] n).addAll l0 from rfl, Item.addAll_addAll], rfl, h2⟩

theorem none {m : P Unit} {E : Unit → Bytes → Bytes → List Item → Prop} (h : Shows o m E) : Notes o m (fun n f q l => n = [] ∧ E () f q l) := by
  intro x p q name s hx l0 hr
  obtain ⟨x', f, q', l, hx', rfl, rfl, h2⟩ := h x p q _ () s hx hr
  exact ⟨x', f, q', l, [], hx', rfl, by rw [Item.addAll_addAll], rfl, h2⟩

theorem mono {m : P Unit} {E E' : Str → Bytes → Bytes → List Item → Prop} (h : Notes o m E) (h' : ∀ n f q l, E n f q l → E' n f q l) : Notes o m E' := by
  intro x p q name s hx l0 hr
  obtain ⟨x', f, q', l, n, h1, h2, h3, h4⟩ := h x p q name s hx l0 hr
  exact ⟨x', f, q', l, n, h1, h2, h3, h' _ _ _ _ h4⟩

theorem bind {α} {m : P α} {g : α → P Unit} {E1 : α → Bytes → Bytes → List Item → Prop} {E : Str → Bytes → Bytes → List Item → Prop} (h : Shows o m E1)
    (h' : ∀ a f1 q1 l1, E1 a f1 q1 l1 → Notes o (g a) (fun n f2 q l2 => q1 = f2 ++ q → E n (f1 ++ f2) q (l1 ++ l2))) : Notes o (m >>= g) E := by
  intro x p q name s hx l0 hr
  obtain ⟨a, s1, hr1, hr2⟩ := bind_inv hr
  obtain ⟨x1, f1, q1, l1, hx1, rfl, rfl, h1⟩ := h x p q _ a s1 hx hr1
  rw [Item.addAll_addAll] at hr2
  obtain ⟨x2, f2, q2, l2, n, hx2, rfl, rfl, h2⟩ := h' a f1 _ l1 h1 x1 _ _ name s hx1 _ hr2
  exact ⟨x2, f1 ++ f2, q2, l1 ++ l2, n, hx2, by simp, by simp, h2 rfl⟩

theorem nested {name : Str} {m : P Unit} {E1 : Str → Bytes → Bytes → List Item → Prop} (h : Notes o m E1) :
    Shows o (P.nested (newItem name) m) (fun _ f q l => ∃ n k, l = [.mk name [] [] n k] ∧ E1 n f q k) := by
  intro x p q j b s hx hr
  rw [nested_run] at hr
  rcases hm : m (St.at (some x) p q (newItem name)) with ⟨r, s1⟩
  rw [hm] at hr
  simp only [Prod.mk.injEq] at hr
  obtain ⟨rfl, rfl⟩ := hr
  obtain ⟨x2, f2, q2, l2, n, hx2, rfl, rfl, h2⟩ := h x p q name s1 hx [] (by simpa using hm)
  refine ⟨x2, f2, q2, [(newItem name [] n).addAll l2], hx2, rfl, by rw [St.at_cur, St.at_setCur, Item.add_eq]; simp, n, l2, ?_, h2⟩
  rfl

end Notes

theorem usageNote_eq {u : UInt8} (hu : u ≠ 0) : (if u = 253 then S "s2k usage 253; encrypted secret-key material and AEAD authentication tag"
        else if u = 254 then S "s2k usage 254; encrypted secret-key material and 20-octet SHA-1 hash"
        else S "s2k usage " ++ dec u.toNat ++ S "; encrypted secret-key material and 2-octet checksum") = usageNote u := by
  unfold usageNote
  rw [if_neg hu]; rfl

theorem pubField2 {v : UInt8} (hv : v ≠ 5) : getField2 (pubVer v) = Pure.pure .shared := by
  unfold getField2
  exact if_neg hv

theorem secField2_plain (v a : UInt8) (hv : v ≠ 5) : Notes o (secField2 (pubVer v) 0 a)
    (fun n f q l => n = usageNote 0 ∧ ∃ f1 c is, f = f1 ++ c ∧ c.length = 2 ∧ SecretInts o a f1 (c ++ q) is ∧ l = is ++ [checksumRow c]) := by
  unfold secField2
  rw [pubField2 hv, Lang.pure_then]
  simp only
  rw [if_pos trivial]
  refine (Notes.setNote (E := fun _ f q l => ∃ f1 c is, f = f1 ++ c ∧ c.length = 2 ∧ SecretInts o a f1 (c ++ q) is ∧ l = is ++ [checksumRow c]) ?_).mono
    fun n f q l h => ⟨h.1, h.2⟩
  simp only [onField, Lang.assoc, Lang.pure_then]
  refine (Shows.parseSecPlain a).bind fun _ f1 l1 => Shows.bytes 2 fun c hc => Shows.add (Shows.fieldNone.mono fun _ f2 q l2 => ?_)
  rintro ⟨rfl, rfl⟩ h
  rw [dumpTrue_eq]
  exact ⟨f1, c, l1, by simp, hc, by simpa using h, rfl⟩

theorem secField2_enc (v u a : UInt8) (hv : v ≠ 5) (hu : u ≠ 0) : Notes o (secField2 (pubVer v) u a)
    (fun n f q l => n = usageNote u ∧ q = [] ∧ l = [leaf (encryptedName a) [] (sizeText f.length) (dumpIf (o DEBUG) f)]) := by
  unfold secField2
  rw [pubField2 hv, Lang.pure_then]
  simp only
  rw [if_neg hu, usageNote_eq hu]
  refine (Notes.setNote (E := fun _ f q l => q = [] ∧ l = [leaf (encryptedName a) [] (sizeText f.length) (dumpIf (o DEBUG) f)]) ?_).mono
    fun n f q l h => h
  simp only [onField, Lang.assoc, Lang.pure_then]
  refine (Shows.parseSecEnc a).bind' fun _ f1 q1 l1 h1 => Shows.fieldNone.mono fun _ f2 q l2 => ?_
  obtain ⟨rfl, rfl⟩ := h1
  rintro ⟨rfl, rfl⟩ h
  exact ⟨by simpa using h.symm, by simp⟩

theorem secField2_own (u a : UInt8) : Notes o (secField2 (pubVer 5) u a) (fun n f q l => Material5Shown o u a f q n l) := by
  unfold secField2
  have h : getField2 (pubVer 5) = (do
      if (← Gpgpdump.rest) < 4 then P.panic .beShort
      else
        let l ← P.readBytes 4
        let ll := beNat l
        if ll = 0 then return .absent
        else
          let b ← P.readBytes ll
          return .own (Reader.new b)) := rfl
  rw [h]
  refine Notes.bind (E1 := fun a f _ l => l = [] ∧ ((f = [0, 0, 0, 0] ∧ a = .absent) ∨ (∃ b : Bytes, b ≠ [] ∧ b.length < 2 ^ 32 ∧
    f = beOctets 4 b.length ++ b ∧ a = .own (Reader.new b)))) ?_ ?_
  · refine Shows.rest fun n => Shows.ite (fun _ => Shows.panic) fun _ => Shows.bytes 4 fun sz hsz => ?_
    dsimp only
    refine Shows.ite (fun hz => Shows.pure fun q _ => ⟨rfl, .inl ⟨?_, rfl⟩⟩) fun hz => Shows.bytes _ fun b hb => Shows.pure fun q _ => ⟨rfl, .inr ⟨b, ?_⟩⟩
    · have : sz = beOctets 4 0 := by rw [← hz, ← hsz, beOctets_beNat]
      rw [this]; rfl
    · obtain ⟨hl, rfl⟩ := Lang.sized4 hsz hb
      refine ⟨?_, hl, by simp, rfl⟩
      rintro rfl
      apply hz; rw [← hb]; rfl
  · rintro a' f1 q1 l1 ⟨rfl, ⟨rfl, rfl⟩ | ⟨b, h0, hl, rfl, rfl⟩⟩
    · refine (Notes.none (Shows.pure (E := fun _ f q l => f = [] ∧ l = []) fun q => ⟨rfl, rfl⟩)).mono fun n f q l => ?_
      rintro ⟨rfl, rfl, rfl⟩ _
      exact .none
    · by_cases hu : u = 0
      · subst hu
        simp only
        rw [if_pos trivial]
        refine (Notes.setNote (E := fun _ c q l => ∃ f g is, b = f ++ g ∧ c.length = 2 ∧ SecretInts o a f g is ∧
          l = is ++ [checksumRow c] ++ unknownRows o g) ?_).mono fun n f q l => ?_
        · simp only [onField, Lang.assoc, Lang.pure_then]
          refine (Shows.onReader b (Shows.parseSecPlain a)).bind' fun a' f1 q1 l1 h1 => ?_
          obtain ⟨rfl, g, r, rfl, h2, h3⟩ := h1
          rw [h2]
          refine Shows.bytes 2 fun c hc => Shows.add ((Shows.fieldRest g r).mono fun _ f2 q l2 => ?_)
          rintro ⟨rfl, rfl⟩ _
          rw [dumpTrue_eq]
          exact ⟨g, r, l1, rfl, by simpa using hc, h3, by simp [checksumRow, leaf]; rfl⟩
        · rintro ⟨rfl, f', g, is, rfl, hc, hs, rfl⟩ _
          show Material5Shown _ _ _ _ _ (usageNote 0) _
          simpa only [List.append_assoc, List.nil_append] using Material5Shown.plain (q := q) h0 hl hs hc
      · simp only
        rw [if_neg hu, usageNote_eq hu]
        refine (Notes.setNote (E := fun _ f q l => f = [] ∧ l = [leaf (encryptedName a) [] (sizeText b.length) (dumpIf (o DEBUG) b)]) ?_).mono fun n f q l => ?_
        · simp only [onField, Lang.assoc, Lang.pure_then]
          refine (Shows.onReader b (Shows.parseSecEnc a)).bind' fun a' f1 q1 l1 h1 => ?_
          obtain ⟨rfl, g, r, rfl, h2, rfl, rfl⟩ := h1
          rw [h2]
          refine (Shows.fieldRest g []).mono fun _ f2 q l2 => ?_
          rintro ⟨rfl, rfl⟩ _
          exact ⟨rfl, by simp [unknownRows]⟩
        · rintro ⟨rfl, rfl, rfl⟩ _
          simpa using Material5Shown.encrypted (o := o) (q := q) (a := a) hu h0 hl

theorem Shows.seckey (v a : UInt8) : Shows o (P.nested (newItem (S "Secret-Key")) (seckeyParse (pubVer v) a))
    (fun _ f q l => ∃ i, l = [i] ∧ if v = 5 then Secret5Shown o a f q i else SecretShown o a f q i) := by
  unfold seckeyParse
  by_cases hv : v = 5
  · subst hv
    refine (Notes.nested (E1 := fun n f q k => ∃ u f1 m is ms, f = u :: (f1 ++ m) ∧ Options5Shown o u f1 is ∧ Material5Shown o u a m q n ms ∧ k = is ++ ms)
      (Notes.bind (E1 := fun b f _ l => f = [b] ∧ l = []) Shows.readByte fun u f1 q1 l1 h1 => ?_)).mono fun _ f q l => ?_
    · obtain ⟨rfl, rfl⟩ := h1
      refine Notes.bind (Shows.secField1_own u) fun _ f2 q2 l2 h2 => (secField2_own u a).mono fun n f3 q3 l3 h3 _ _ => ?_
      exact ⟨u, f2, f3, l2, l3, rfl, h2, h3, rfl⟩
    · rintro ⟨n, k, rfl, u, f1, m, is, ms, rfl, h1, h2, rfl⟩
      exact ⟨_, rfl, by rw [if_pos rfl]; exact .mk h1 h2⟩
  · refine (Notes.nested (E1 := fun n f q k => SecretShown o a f q (.mk "Secret-Key".toList [] [] n k))
      (Notes.bind (E1 := fun b f _ l => f = [b] ∧ l = []) Shows.readByte fun u f1 q1 l1 h1 => ?_)).mono fun _ f q l => ?_
    · obtain ⟨rfl, rfl⟩ := h1
      refine Notes.bind (Shows.secField1_shared v u hv) fun _ f2 q2 l2 h2 => ?_
      obtain ⟨c, iv, f1, n, is, ivs, rfl, h3, rfl, h4⟩ := h2
      by_cases hu : u = 0
      · subst hu
        rw [if_pos rfl] at h4
        obtain ⟨rfl, rfl⟩ := h4
        refine (secField2_plain v a hv).mono fun nt f q l => ?_
        rintro ⟨rfl, f1', c', is', rfl, hc, hs, rfl⟩ _ _
        generalize hz : (0 : UInt8) = z at h3
        cases h3 with
        | plain => simpa only [List.nil_append, List.append_nil, List.singleton_append] using SecretShown.plain hs hc
        | s2k hu => subst hz; simp at hu
        | aead => simp at hz
        | cipher hu => subst hz; simp at hu
      · rw [if_neg hu] at h4
        refine (secField2_enc v u a hv hu).mono fun nt f q l => ?_
        rintro ⟨rfl, rfl, rfl⟩ h5 _
        simp only [List.append_nil] at h5
        subst h5
        simpa only [List.nil_append, List.append_assoc, List.singleton_append] using SecretShown.encrypted (a := a) hu h3 h4
    · rintro ⟨n, k, rfl, h⟩
      exact ⟨_, rfl, by rw [if_neg hv]; exact h⟩

end Gpgpdump
