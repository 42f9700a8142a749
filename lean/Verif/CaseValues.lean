import Verif.CaseInput
import Verif.ThmContext
import Verif.ThmDays
import Verif.ThmDisplay
import Verif.ThmGithub
import Verif.ThmHistory
import Verif.ThmHkp
import Verif.ThmJson
import Verif.ThmLocalTime
import Verif.ThmReaderApi
import Verif.ThmRender
import Verif.ThmResultApi
import Verif.ThmText
import Verif.ThmValues
import Verif.ThmReader
import Verif.ThmPacketsInner

/-!
# Cases: values, options, reader and result

For theorems with hypotheses whose own file shows no applied case: each `example` below applies the theorem to concrete values, so
that its hypotheses are met there. The cases are illustrations; the theorems are the claims.
-/

namespace Gpgpdump

open Spec Case

/-! ## C14, C15, C17, C53 -/

namespace Case
/-- a literal packet with the file name `f` and three octets of data -/
def plain : Bytes := [0xcb, 10, 0x62, 1, 0x66, 0, 0, 0, 0, 1, 2, 3]
def plain' : Bytes := [0xcb, 10, 0x62, 1, 0x66, 0, 0, 0, 0, 9, 9, 9]
theorem plain_enc : Encodes 11 [0x62, 1, 0x66, 0, 0, 0, 0, 1, 2, 3] plain := .new (by decide) (.last (.one (by decide)))
theorem plain_enc' : Encodes 11 [0x62, 1, 0x66, 0, 0, 0, 0, 9, 9, 9] plain' := .new (by decide) (.last (.one (by decide)))
end Case

example := C14_literal_hidden Tests.X Ctx.empty rfl rfl (.cons plain_enc .nil) (.cons plain_enc' .nil) (.cons C14_example .nil) [] [4]
example := C14_shown Tests.X Ctx.empty (f := 0x62) (n := 1) (name := [0x66]) (time := [0, 0, 0, 0]) (data := [1, 2, 3]) rfl rfl plain_enc []
/-- a marker with other contents -/
example := C15_contents_hidden_partial Tests.X Ctx.empty (m := true) (p := true) (c := true) (e := true) (fun _ => rfl) (fun _ => rfl) (fun _ => rfl) rfl
  (.cons marker_enc .nil) (.cons (body := [1, 2, 3]) (.new (by decide) (.last (.one (by decide)))) .nil) (.cons (.marker rfl rfl) .nil) [] []
example := C15_marker_shown Tests.X Ctx.empty marker_enc []
example := C15_encrypted_shown Tests.X Ctx.empty (tag := 18) (.inr (.inl rfl)) (body := [1, 7]) (.new (by decide) (.last (.one (by decide)))) []
example := C15_private_shown Tests.X Ctx.empty (tag := 60) (by decide) (body := [1, 7]) (.new (by decide) (.last (.one (by decide)))) []
example := C15_attested_shown Tests.X (parseTagF Tests.X 3) Ctx.empty (t := 37) (by decide) [1, 2, 3] (Reader.new []) default

/-- a session key, a literal packet and encrypted data with integrity protection -/
example := C17_sequence Tests.X (some (Ctx.new [])) (before := []) (t := 1) (b := [3, 1, 2, 3, 4, 5, 6, 7, 8, 1, 0, 1, 1]) (between := [(11, [0x62, 1, 0x66, 0, 0, 0, 0, 1, 2, 3])])
  (t' := 18) (b' := [1, 7]) (after := []) (by decide) (by decide) (.inr rfl)
  (.cons (.new (by decide) (.last (.one (by decide)))) (.cons plain_enc (.cons (.new (by decide) (.last (.one (by decide)))) .nil))) []
  (i := (parseSrc Tests.X (some (Ctx.new [])) (Source.src ⟨[0xc1, 13, 3, 1, 2, 3, 4, 5, 6, 7, 8, 1, 0, 1, 1] ++ (plain ++ ([0xd2, 2, 1, 7] ++ [])), rawErr .eof, []⟩)).packets[2]!)
  (by decide +kernel)
example := C17_first Tests.X [] (between := [(11, [0x62, 1, 0x66, 0, 0, 0, 0, 1, 2, 3])]) (t' := 9) (b' := [5]) (after := []) (by decide) (.inl rfl)
  (.cons plain_enc (.cons (.new (by decide) (.last (.one (by decide)))) .nil)) []
  (i := (parseSrc Tests.X (some (Ctx.new [])) (Source.src ⟨plain ++ ([0xc9, 1, 5] ++ []), rawErr .eof, []⟩)).packets[1]!) (by decide +kernel)
/-- an option that is set twice, the second time like the only time -/
example := C53_fresh Tests.X [(DEBUG, false), (DEBUG, true)] [(DEBUG, true)] (by
  intro code h
  by_cases hc : code = DEBUG
  · subst hc; decide
  · simp [lastSet, Ne.symm hc]) sigEnc (rawErr .eof) [] [2]

/-! ## C18, C39, C48, C49, C51 -/

/-- the key was created at 1 590 000 000 and expires a day later -/
example := C18_items Tests.X (parseTagF Tests.X 3) 9 (by decide) { Ctx.empty with keyTime := some ⟨[0x5e, 0xc5, 0x75, 0x80], false⟩ } (Reader.new []) default
  ⟨[0x5e, 0xc5, 0x75, 0x80], false⟩ rfl (by decide) 0 1 0x51 0x80
example := C18_expiry_partial Tests.X (parseTagF Tests.X 3) 9 (by decide) { Ctx.empty with keyTime := some ⟨[0x5e, 0xc5, 0x75, 0x80], false⟩ } (Reader.new [])
  default ⟨[0x5e, 0xc5, 0x75, 0x80], false⟩ rfl (by decide) 0 1 0x51 0x80 (by decide)
example := C39_chunk_size_partial Tests.X (parseTagF Tests.X 3) ⟨some Ctx.empty, Reader.new [], default⟩ 1 9 1 14 [1, 2, 3] (by decide)
example := C39_wrong Tests.X (parseTagF Tests.X 3) ⟨some Ctx.empty, Reader.new [], default⟩ 1 9 1 58 [1, 2, 3] (by decide)
example := C48_features Tests.X (parseTagF Tests.X 3) 0x9e (by decide) 5 [0, 1] ⟨some Ctx.empty, Reader.new [], default⟩
example := C48_server_preferences Tests.X (parseTagF Tests.X 3) 23 (by decide) 0x80 [] ⟨some Ctx.empty, Reader.new [], default⟩
example := C48_key_flags_items Tests.X (parseTagF Tests.X 3) 27 (by decide) 0x2c 4 [1] ⟨some Ctx.empty, Reader.new [], default⟩
example := C48_key_flags_partial Tests.X (parseTagF Tests.X 3) 27 (by decide) 0x2c ⟨some Ctx.empty, Reader.new [], default⟩
example := C49_curve_names oidList.reverse (List.reverse_perm _) [0x2b, 6, 1, 4, 1, 0xda, 0x47, 0x0f, 1]
example := C51_items ⟨some Ctx.empty, Reader.new [], default⟩ 0x81 (by decide) 16 0 [1, 2, 3, 4]
example := C51_image_size_partial ⟨some Ctx.empty, Reader.new [], default⟩ 1 (by decide) 0 [1, 2, 3, 4] (by decide)

/-! ## C31, C32, C58 -/

example := C31_unknown_code [(DEBUG, true)] [(UTC, true)] (-3) true (by decide)
example : getOptCode (optName 7) = 7 := C32_round_trip 7 (by decide) (by decide)
example : optName 10 = S "unknown" := C32_names.2 10 (.inr (by decide))
example : getOptCode (S "DeBug") = DEBUG := (C32_lookup (S "DeBug") (by decide)).1 ("debug", DEBUG) (by decide) (by decide)
example := C58_distinct (fun _ => true) 1 17 (by decide)

/-! ## C78, C79, C80 -/

example := C78_injective (exp := 90000) (exp' := 90000) rfl
example := C78_exact 94500 ⟨3500, by decide⟩
example := C78_exact_only 94500 (n := 109375) (k := 5) (by decide)
/-- an expiry of 90000 seconds -/
example := C78_subpacket { Tests.X with days := goDays } rfl (parseTagF Tests.X 3) 9 (.inr (by decide)) [0, 1, 0x5f, 0x90] Ctx.empty [] [] default _ _ rfl

namespace Case
/-- Nepal: five hours and 45 minutes -/
def nepal : Zone := fun _ => 20700
def nepalX : Ext := { Tests.X with localTime := goLocalTime nepal }
theorem nepal_zone : GoZone nepalX nepal := ⟨rfl, fun _ => ⟨by show (-360000 : Int) < 20700; decide, by show (20700 : Int) < 360000; decide⟩, fun _ => ⟨345, rfl⟩⟩
end Case

example := C79_exact nepal 1590000000 (nepal_zone.2 _)
example := C79_minute nepal 1590000000 (nepal_zone.2 _)
example := C79_clock nepal 1590000000 1590020700 (by decide)
example := C79_utc (fun _ => 0) 1590000000 rfl
example := C79_item nepalX nepal nepal_zone (S "Creation time") [0x5e, 0xc5, 0x75, 0x80] false true rfl
example := C79_octets nepalX nepalX nepal nepal nepal_zone nepal_zone (S "a") (S "b") [0x5e, 0xc5, 0x75, 0x80] [0x5e, 0xc5, 0x75, 0x80] false false true false rfl rfl
  (by decide +kernel)
example := C79_period (fun _ => false) nepalX nepal nepal_zone 9 [0, 1, 0x51, 0x80] 1590000000 (by decide) (by decide)
example := C80_outcome Tests.X tests_own tests_armor Ctx.empty { Ctx.empty with mode := .symEnc } rfl empty_consistent
  ⟨fun d h => (by cases h), fun d h => (by cases h)⟩ oldMemory
example := C80_after Tests.X tests_own tests_armor Ctx.empty { Ctx.empty with mode := .symEnc } rfl empty_consistent
  ⟨fun d h => (by cases h), fun d h => (by cases h)⟩ oldMemory (by decide +kernel)

/-! ## C44, C46 -/

namespace Case
open Spec.GH
def ascii' : Unicode := ⟨Spec.GH.asciiLower, Spec.GH.asciiLower⟩
def otherKey : Option GHKey := some ⟨S "0000000000000000", some [0]⟩
def keyID : Str := S "0x3B460BA9A59048C9"
/-- a full first page; the second page as given -/
def server (second : GHPage) : GHServer := ⟨.error .noKey, fun n => if n = 1 then .ok (List.replicate 100 otherKey) else second⟩
theorem other_key : Other ascii' keyID otherKey := ⟨_, rfl, by decide⟩
theorem server_before (second : GHPage) : Before ascii' (server second) keyID 2 := by
  intro i h1 h2
  obtain rfl : i = 1 := by omega
  exact ⟨_, rfl, by rw [List.length_replicate], fun k hk => by rw [List.eq_of_mem_replicate hk]; exact other_key⟩
theorem others : ∀ x ∈ [otherKey], Other ascii' keyID x := by intro x hx; rw [List.mem_singleton.mp hx]; exact other_key
end Case

section
open Spec.GH
example := C44_same_key C44_tables (S "3b460ba9a59048c9") keyID (S "3B460BA9A59048C9") (.prefixed (.inl rfl) (by unfold IsHex; decide))
example := C44_same_key_any_partial C44_prefix_tables (S "3b46") (S "0X3B46") (by decide)
example := C44_found ascii' (server (.ok [otherKey, some ⟨S "3b460ba9a59048c9", some [65]⟩])) keyID (by decide) 2 (by decide) (server_before _) [otherKey] []
  ⟨S "3b460ba9a59048c9", some [65]⟩ [65] rfl others (by decide) rfl 5 (by decide)
example := C44_no_key ascii' (server (.ok [otherKey])) keyID (by decide) 2 (by decide) (server_before _) [otherKey] rfl (by decide) others 5 (by decide)
example := C44_page_error ascii' (server (.error .noKey)) keyID (by decide) 2 (by decide) (server_before _) .noKey rfl 5 (by decide)
example := C44_no_text ascii' (server (.ok [otherKey, some ⟨S "3b460ba9a59048c9", none⟩])) keyID (by decide) 2 (by decide) (server_before _) [otherKey] []
  ⟨S "3b460ba9a59048c9", none⟩ rfl others (by decide) rfl 5 (by decide)
example := C44_null_panics ascii' (server (.ok [otherKey, none])) keyID (by decide) 2 (by decide) (server_before _) [otherKey] [] rfl others 5 (by decide)
/-- every page is the full first page -/
example := C44_endless ascii' ⟨.error .noKey, fun _ => .ok (List.replicate 100 otherKey)⟩ keyID (by decide)
  (fun _ _ => ⟨_, rfl, by rw [List.length_replicate], fun k hk => by rw [List.eq_of_mem_replicate hk]; exact other_key⟩) 7
example := C44_page_url (S "a-user-1") (by decide) 12 (by decide)
end

example := C46_injective ⟨2, asciiBytes (S "keys.example.net"), 443⟩ (asciiBytes (S "Alice")) (asciiBytes (S "Alice")) rfl

/-! ## C09, C10, C11, C55, C69 -/

namespace Case
/-- two octets read, three to go -/
def half : Reader := { Reader.new [1, 2, 3, 4, 5] with off := 2 }
theorem half_at : Cursor [1, 2] [3, 4, 5] half := ⟨rfl, rfl⟩
end Case

example := C09_read_exact (pre := [1, 2]) (a := [3, 4]) (post := [5]) (r := half) ⟨rfl, rfl⟩
example := C09_read_short half_at (n := 4) (by decide)
example := C09_read_split (r := half) (m := 1) (n := 2) (a := [3]) (b := [4, 5]) (by decide) rfl rfl
example := C09_read2EOF half_at
example := (C10_seek half (-1) 2).1 5 rfl (by decide) (by decide)
example := C11_dump_injective (a := [1, 0xff]) (b := [1, 0xff]) rfl
example := C55_no_panic_partial half_at 3 (by decide)

/-! ## C27, C29, C30, C77 -/

example := C27_text_shown (S "User ID") (S "Zoë\n") (by decide) true
example := C27_text_invalid (S "User ID") [0xff] (fun ⟨cs, h⟩ => nomatch (show utf8Decode [0xff] = none by decide).symm.trans ((utf8Decode_iff _ cs).mpr h)) true
example := C27_text_verbatim (S "User ID") (S "Zoë") (by decide) (by decide) true

namespace Case
/-- a packet with one item and its dump -/
def shown : List Item := [(newItem (S "User ID Packet (tag 13)") [] (S "5 bytes")).add (newItem (S "User ID") (S "Alice") [] (S "41 6c"))]
theorem shown_each {p : Item → Prop} (h1 : ∀ i ∈ shown, p i) (h2 : p (newItem (S "User ID") (S "Alice") [] (S "41 6c"))) : ∀ i ∈ shown, Each p i := by
  intro i hi
  refine .mk (h1 i hi) ?_
  rw [show shown = [_] from rfl, List.mem_singleton] at hi
  subst hi
  intro k hk
  rw [show Item.items _ = [newItem (S "User ID") (S "Alice") [] (S "41 6c")] from rfl, List.mem_singleton] at hk
  subst hk
  exact .mk h2 (fun k hk => nomatch hk)
instance (indent : Str) (i : Item) : Decidable (OneLine indent i) := by unfold OneLine; infer_instance
theorem shown_one : ∀ i ∈ shown, Each (OneLine ['\t']) i := shown_each (by decide) (by decide)
/-- dumps start with a digit here, and the fields are those two -/
def fields (x : Str × Str × Str) : Prop := x = (S "User ID Packet (tag 13)", [], S "5 bytes") ∨ x = (S "User ID", S "Alice", [])
def isDump (s : Str) : Prop := s = S "41 6c"
instance (x) : Decidable (fields x) := by unfold fields; infer_instance
instance (x) : Decidable (isDump x) := by unfold isDump; infer_instance
instance (i : Item) : Decidable (Readable isDump fields i) := by unfold Readable; infer_instance
theorem fields_lines (i i' : Item) (h : fields (i.name, i.value, i.note)) (h' : fields (i'.name, i'.value, i'.note)) (he : itemLine i = itemLine i') :
    i.name = i'.name ∧ i.value = i'.value ∧ i.note = i'.note := by
  unfold fields at h h'
  simp only [Prod.mk.injEq] at h h'
  unfold itemLine at he
  rcases h with ⟨a, b, c⟩ | ⟨a, b, c⟩ <;> rcases h' with ⟨a', b', c'⟩ | ⟨a', b', c'⟩ <;> rw [a, b, c, a', b', c'] at he <;>
    first | exact ⟨a.trans a'.symm, b.trans b'.symm, c.trans c'.symm⟩ | exact absurd he (by decide)
end Case

example := C29_count ['\t'] (by decide) shown (shown_each (by decide) (by decide))
example := C29_determined_partial ['\t'] (by decide) shown shown shown_one shown_one rfl
example := C29_tree_partial ['\t'] (by decide) isDump fields fields_lines shown shown (shown_each (by decide) (by decide)) (shown_each (by decide) (by decide)) rfl
example := C30_json_partial [(newItem (S "a") (S "b") [] (S "00")).add (newItem (S "c"))] 2 (.inr (by decide))
example := C30_indent_irrelevant [newItem (S "a")] 0 2 _ _ rfl rfl

namespace Case
/-- two items, of which the first holds the second, and a third one -/
def heap : Heap := Heap.calls [] [.new [.name ['a']], .new [.name ['b']], .set 1 (.value ['v']), .add (some 0) (some 1), .new [.name ['c']]]
theorem heap_0 : Tree heap 0 (.mk ['a'] [] [] [] [.mk ['b'] ['v'] [] [] []]) := ⟨3, by decide +kernel⟩
theorem heap_2 : Tree heap 2 (.mk ['c'] [] [] [] []) := ⟨3, by decide +kernel⟩
theorem heap_1 : Tree heap 1 (.mk ['b'] ['v'] [] [] []) := ⟨3, by decide +kernel⟩
theorem heap_under_2 {q : Nat} : ¬ Under heap 2 q := by
  intro h
  cases h with
  | kid k => exact absurd k (by unfold Kid; rintro ⟨o, ho, hm⟩; obtain rfl : o = ⟨['c'], [], [], [], []⟩ := (Option.some.inj ho).symm; cases hm)
  | step k _ => exact absurd k (by unfold Kid; rintro ⟨o, ho, hm⟩; obtain rfl : o = ⟨['c'], [], [], [], []⟩ := (Option.some.inj ho).symm; cases hm)
theorem heap_2_0 : ¬ Holds heap 2 0 := by
  rintro (h | h)
  · cases h
  · exact heap_under_2 h
end Case

example := C77_text heap ['\t'] 0 0 _ heap_0
example := C77_tree heap 2 _ rfl (fun ⟨q, h, u⟩ => by
  rcases h with rfl | h
  · exact heap_under_2 u
  · exact heap_under_2 h)
example := C77_frame heap ['\t'] 4 0 0 2 heap_2_0
example := C77_add heap 0 2 _ _ heap_0 (by decide) heap_2 heap_2_0
example := C77_commute heap (.set 0 (.note ['n'])) (.set 1 (.note ['m'])) 0 1 rfl rfl (by decide)
example := C77_copies [.new [.name ['a']], .new [.name ['b']], .set 1 (.value ['v']), .add (some 0) (some 1)] _ rfl
example := C77_info heap ['\t'] [0, 2] _ (.cons heap_0 (.cons heap_2 .nil))
example := C69_history [1, 2, 3] (by decide) [.readByte, .seek (-1) 2, .readBytes 4] (by simp [RCall.Int64]) (RCall.runAll [.readByte, .seek (-1) 2, .readBytes 4] (Reader.new [1, 2, 3])).1
example := C26_header_accepted Tests.X (some Ctx.empty) (parseTag Tests.X) (parseTag_scoped Tests.X) (st := 38) (by decide) (tag := 13) (n := 5) (ps := []) (a := []) (hdr := [0xcd, 5]) .nil
  (.new (by decide) (.one (by decide))) (by decide) rfl
/-- a user ID and the first octet of another packet -/
example := C76_inner Tests.X (some Ctx.empty) (body := [0, 0xcd, 1, 0x41, 0xcd]) (.stored (by decide)) (fun p hp => by
  rcases contains_split hp with h | h
  · rw [show (split [0xcd, 1, 0x41, 0xcd]).1 = [(13, [0x41])] by decide +kernel, List.mem_singleton] at h
    rw [h]; decide
  · rw [show (split [0xcd, 1, 0x41, 0xcd]).2 = .truncated by decide +kernel] at h
    cases h)
example := C76_drain Tests.X (c := some Ctx.empty) (s := Source.src ⟨sigEnc, rawErr .eof, []⟩) rfl
example : ∃ ls r, Armor.decode (unlines ls) = .ok r :=
  (sampleMessage sampleBody (by decide)).elim fun _ ⟨_, _, _, _, h⟩ => (C67_reads h.2.2.2.2.2).elim fun r h => ⟨_, r, h.choose_spec.1⟩

end Gpgpdump
