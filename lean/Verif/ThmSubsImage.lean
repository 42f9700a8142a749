import Verif.ThmSubsOutcome

/-!
# C97: every history of `Parse` calls on an image attribute

The type that `C97_history` leaves out of the user attributes: the size it shows is computed from the whole contents, not from what is left.
-/

namespace Gpgpdump
open P Spec

namespace Spec

/-- the option of a context, off without one -/
def debugOf : Option Ctx → Bool
  | none => false
  | some x => x.opts DEBUG

def privateUse (v : UInt8) : Bool := 100 ≤ v.toNat && v.toNat ≤ 110

def imageVersion (v : UInt8) : Item :=
  numRow "Version" v (if privateUse v then "private or experimental use".toList else if v = 1 then [] else "Unknown".toList)

def imageEncoding (e : UInt8) : Item :=
  leaf "Encoding".toList (if e = 1 then "JPEG".toList else "Unknown".toList) ("(enc ".toList ++ dec e.toNat ++ ")".toList)

/-- the whole size minus the header length, taken big-endian -/
def imageSize (n : Nat) (l0 l1 : UInt8) : Item :=
  leaf "Image data".toList [] (decInt ((n : Int) - (l0.toNat * 256 + l1.toNat : Nat)) ++ " bytes".toList)

/-- One call of `Parse` on an image attribute of `n` octets of which `u` are not yet read: the rows, the error, and what is left. A read
that finds too few octets takes none. -/
def imageCall (n : Nat) : Bytes → List Item × Option Cause × Bytes
  | [] => ([], some .eof, [])
  | [a] => ([], some .unexpectedEOF, [a])
  | [_, _] => ([], some .eof, [])
  | l0 :: l1 :: v :: r =>
    if privateUse v then
      match r with
      | [] => ([imageVersion v], some .eof, [])
      | e :: r => ([imageVersion v, imageEncoding e, imageSize n l0 l1], none, r)
    else ([imageVersion v, imageSize n l0 l1], none, r)

/-- the calls with these contexts -/
def imageCalls (typ : UInt8) (n : Nat) : List (Option Ctx) → Bytes → List (Item × Option Cause × Option Ctx)
  | [], _ => []
  | c :: cs, u => (.mk (subName typ) [] (dumpIf (debugOf c) u) (sizeText n) (imageCall n u).1, (imageCall n u).2.1, c) ::
      imageCalls typ n cs (imageCall n u).2.2

end Spec

/-- what a call returned, with the cause of the error only -/
def Returned.seen : Returned × Option Ctx → Option (Item × Option Cause × Option Ctx)
  | (.ret (some i) e, c) => some (i, e.map GoErr.cause, c)
  | _ => none

theorem image_once (c : Option Ctx) (p u : Bytes) (j : Item) (n : Nat) (hn : (p ++ u).length = n) :
    ∃ e p', sub01 (St.at c p u j) = (e, St.at c p' (imageCall n u).2.2 (j.addAll (imageCall n u).1)) ∧ p' ++ (imageCall n u).2.2 = p ++ u ∧
      (match (imageCall n u).2.1 with
      | none => e = .ok (j.addAll (imageCall n u).1)
      | some k => ∃ x, e = .err x ∧ x.cause = k) := by
  have short : ∀ u : Bytes, u.length < 2 → sub01 (St.at c p u j) = (.err (wrapErr (if u = [] then .eof else .unexpectedEOF)), St.at c p u (j.addAll [])) := fun u h => by
    unfold sub01
    rw [bind_run, show (2 : Int) = ((2 : Nat) : Int) from rfl, readBytes_err _ _ _ _ _ h, Item.addAll_nil]
  match u with
  | [] => exact ⟨_, p, short [] (by decide), rfl, _, rfl, rfl⟩
  | [a] => exact ⟨_, p, short [a] (Nat.lt_succ_self 1), rfl, _, rfl, rfl⟩
  | [a, b] =>
    have h2 : readBytes 2 (St.at c p [a, b] j) = (.ok [a, b], St.at c (p ++ [a, b]) [] j) := readBytes_append c p [a, b] [] j
    refine ⟨.err (wrapErr .eof), p ++ [a, b], ?_, List.append_nil _, _, rfl, rfl⟩
    unfold sub01
    rw [bind_run, h2]
    show (readByte >>= _) _ = _
    rw [bind_run, readByte_nil]
    show (_, St.at c _ [] j) = (_, St.at c _ [] (j.addAll []))
    rw [Item.addAll_nil]
  | l0 :: l1 :: v :: r =>
    have hbe : beNat [l0, l1] = l0.toNat * 256 + l1.toNat := by simp [beNat]
    have h2 : readBytes 2 (St.at c p (l0 :: l1 :: v :: r) j) = (.ok [l0, l1], St.at c (p ++ [l0, l1]) (v :: r) j) := readBytes_append c p [l0, l1] (v :: r) j
    have hr : ∀ (z : Res Item × St), sub01 (St.at c p (l0 :: l1 :: v :: r) j) = z ↔
        (do
          if v = 1 then
            add (numItem (S "Version") v)
          else if 100 ≤ v.toNat ∧ v.toNat ≤ 110 then
            add ((numItem (S "Version") v).setNote (S "private or experimental use"))
            let enc ← readByte
            add (newItem (S "Encoding") (if enc = 0x01 then S "JPEG" else Unknown) (S "(enc " ++ dec enc.toNat ++ S ")"))
          else
            add ((numItem (S "Version") v).setNote Unknown)
          let r ← reader
          add (newItem (S "Image data") [] (iBytes ((r.size : Int) - (beNat [l0, l1] : Int))))
          getCur : P Item) (St.at c (p ++ [l0, l1] ++ [v]) r j) = z := fun z => by
      unfold sub01
      rw [bind_run, h2]
      show (readByte >>= _) _ = _ ↔ _
      rw [bind_run, readByte_cons]
    have tail : ∀ (p' r' : Bytes) (j' : Item), (p' ++ r').length = n → (do
          let r ← reader
          add (newItem (S "Image data") [] (iBytes ((r.size : Int) - (beNat [l0, l1] : Int))))
          getCur : P Item) (St.at c p' r' j') = (.ok (j'.addAll [imageSize n l0 l1]), St.at c p' r' (j'.addAll [imageSize n l0 l1])) := fun p' r' j' h => by
      rw [bind_run, reader_run]
      show (add _ >>= _) _ = _
      rw [bind_run, add_run, Item.add_eq, hbe, ← h]
      rfl
    by_cases hv : 100 ≤ v.toNat ∧ v.toNat ≤ 110
    · have h1 : v ≠ 1 := by rintro rfl; exact absurd hv.1 (by decide)
      have hp : privateUse v = true := by unfold privateUse; simpa using hv
      have hver : (numItem (S "Version") v).setNote (S "private or experimental use") = imageVersion v := by
        unfold imageVersion; rw [if_pos hp]; rfl
      match r with
      | [] =>
        have hi : imageCall n [l0, l1, v] = ([imageVersion v], some .eof, []) := by
          show (if privateUse v then _ else _) = _
          rw [if_pos hp]
        rw [hi]
        refine ⟨.err (wrapErr .eof), p ++ [l0, l1] ++ [v], (hr _).mpr ?_, by simp, _, rfl, rfl⟩
        rw [if_neg h1, if_pos hv, hver, bind_run, add_run]
        show (readByte >>= _) _ = _
        rw [bind_run, readByte_nil, Item.add_eq]
      | e :: r =>
        have hi : imageCall n (l0 :: l1 :: v :: e :: r) = ([imageVersion v, imageEncoding e, imageSize n l0 l1], none, r) := by
          show (if privateUse v then _ else _) = _
          rw [if_pos hp]
        rw [hi]
        refine ⟨_, p ++ [l0, l1] ++ [v] ++ [e], (hr _).mpr ?_, by simp, rfl⟩
        rw [if_neg h1, if_pos hv, hver, bind_run, add_run]
        show (readByte >>= _) _ = _
        rw [bind_run, readByte_cons]
        show (add (imageEncoding e) >>= _) _ = _
        rw [bind_run, add_run, Item.add_eq, Item.add_eq, Item.addAll_addAll]
        refine (tail _ _ _ ?_).trans ?_
        · rw [← hn]; simp
        · rw [Item.addAll_addAll]; rfl
    · have hp : ¬ privateUse v = true := by unfold privateUse; simpa using hv
      have hi : imageCall n (l0 :: l1 :: v :: r) = ([imageVersion v, imageSize n l0 l1], none, r) := by
        show (if privateUse v then _ else _) = _
        rw [if_neg hp]
      have hver : ∃ i, i = imageVersion v ∧ ∀ (f : P Item) (g : P Item) (st : St), (if v = 1 then (add (numItem (S "Version") v) >>= fun _ => f) else
          if 100 ≤ v.toNat ∧ v.toNat ≤ 110 then g else (add ((numItem (S "Version") v).setNote Unknown) >>= fun _ => f)) st = (add i >>= fun _ => f) st := by
        refine ⟨_, rfl, fun f g st => ?_⟩
        unfold imageVersion
        rw [if_neg hp]
        by_cases h1 : v = 1
        · rw [if_pos h1, if_pos h1]; rfl
        · rw [if_neg h1, if_neg h1, if_neg hv]; rfl
      obtain ⟨i, rfl, hver⟩ := hver
      rw [hi]
      refine ⟨_, p ++ [l0, l1] ++ [v], (hr _).mpr ((hver _ _ _).trans ?_), by simp, rfl⟩
      rw [bind_run, add_run, Item.add_eq]
      refine (tail _ _ _ ?_).trans ?_
      · rw [← hn]; simp
      · rw [Item.addAll_addAll]; rfl

theorem image_header (typ : UInt8) (c : Option Ctx) (p u : Bytes) :
    SubObj.header ⟨false, typ, ⟨p ++ u, p.length⟩⟩ c = .mk (subName typ) [] (dumpIf (debugOf c) u) (sizeText (p ++ u).length) [] := by
  unfold SubObj.header dumpRest
  have hd : (⟨p ++ u, p.length⟩ : Reader).dumpString p.length = Reader.dumpHex u := by
    unfold Reader.dumpString
    simp only [Reader.size, List.length_append, List.drop_left]
    cases u with
    | nil => simp; rfl
    | cons a u => rw [if_neg (by simp)]
  have hc : ctxFlag Ctx.debug c = debugOf c := by cases c <;> rfl
  rw [hc, hd, dumpHexIf_eq, subNames_eq]
  rfl

/-- Any number of calls of `Parse` on an image attribute, with any contexts: each takes a header from the octets that are left, shows what
is left in the dump, and computes the size of the image data from the size of the whole contents. The contexts stay as they are, and no call
panics, also without a context. -/
theorem C97_image (X : Ext) (typ : UInt8) (ht : subNumber typ = 1) (body : Bytes) (o : SubObj) (h : SubObj.new 17 typ body = some o) (cs : List (Option Ctx)) :
    (o.parses X cs).map Returned.seen = (imageCalls typ body.length cs body).map some := by
  have key : ∀ (n : Nat) (cs : List (Option Ctx)) (p u : Bytes), (p ++ u).length = n →
      ((⟨false, typ, ⟨p ++ u, p.length⟩⟩ : SubObj).parses X cs).map Returned.seen = (imageCalls typ n cs u).map some := by
    intro n cs
    induction cs with
    | nil => intro p u _; rfl
    | cons c cs ih =>
      intro p u hn
      have hb : SubObj.body X ⟨false, typ, ⟨p ++ u, p.length⟩⟩ = sub01 := by
        unfold SubObj.body
        rw [if_neg (by simp), number_eq, ht]; rfl
      obtain ⟨e, p', h1, h2, h3⟩ := image_once c p u (.mk (subName typ) [] (dumpIf (debugOf c) u) (sizeText n) []) n hn
      have hp : ∃ r, (⟨false, typ, ⟨p ++ u, p.length⟩⟩ : SubObj).parse X c = (r, c, ⟨false, typ, ⟨p' ++ (imageCall n u).2.2, p'.length⟩⟩) ∧
          Returned.seen (r, c) = some (.mk (subName typ) [] (dumpIf (debugOf c) u) (sizeText n) (imageCall n u).1, (imageCall n u).2.1, c) := by
        unfold SubObj.parse
        rw [hb, image_header, hn]
        have h1' : sub01 ⟨c, ⟨p ++ u, p.length⟩, .mk (subName typ) [] (dumpIf (debugOf c) u) (sizeText n) []⟩ = _ := h1
        simp only [h1']
        generalize (imageCall n u).2.1 = k at h3
        cases k with
        | none => cases h3; exact ⟨_, rfl, rfl⟩
        | some k => obtain ⟨x, rfl, rfl⟩ := h3; exact ⟨_, rfl, rfl⟩
      obtain ⟨r, hp, hs⟩ := hp
      show Returned.seen (((⟨false, typ, ⟨p ++ u, p.length⟩⟩ : SubObj).parse X c).1, ((⟨false, typ, ⟨p ++ u, p.length⟩⟩ : SubObj).parse X c).2.1) ::
        (SubObj.parses X cs ((⟨false, typ, ⟨p ++ u, p.length⟩⟩ : SubObj).parse X c).2.2).map _ = _
      rw [hp]
      show Returned.seen (r, c) :: _ = some _ :: _
      rw [hs]
      congr 1
      exact ih p' _ (by rw [h2]; exact hn)
  obtain ⟨_, rfl⟩ := new_sub h
  exact key body.length cs [] body rfl

/-- four calls: a header of version 1, one of private use, and two with too little left -/
theorem C97_image_example :
    (imageCalls 1 9 [none, some Ctx.empty, none, none] [0, 2, 1, 0, 3, 100, 1, 9, 9]).map (fun a => (a.1.items.map fun i => (i.value, i.note), a.2.1)) =
      [([("1".toList, []), ([], "7 bytes".toList)], none),
       ([("100".toList, "private or experimental use".toList), ("JPEG".toList, "(enc 1)".toList), ([], "6 bytes".toList)], none),
       ([], some .eof), ([], some .eof)] := by decide +kernel

end Gpgpdump
