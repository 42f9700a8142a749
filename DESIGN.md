# Formal model of gpgpdump: design

Subject: `spiegel-im-spiegel/gpgpdump`, Go source read as text from `/repo`.
Prover: Lean 4.33.0 (project in `lean/`, modules under `lean/Verif/`). The properties are in `properties.jsonl`, the theorems for each
of them in `MANIFEST.json`, the wrong programs the theorems were tested against in `seeded/LOG.jsonl`.

## Approach

The Go code is modelled function by function as total, computable Lean functions. Every definition cites its source lines.

* **Octet strings** are `List UInt8` (`Bytes`); **Go strings** that reach an item are `List Char` (`Str`). Every string the program
  puts into an item is valid UTF-8 (C27), so nothing is lost. Where Go strings can be arbitrary octets (JSON encoder, command line),
  the model uses `Bytes`.
* **Errors are values**: `GoErr` carries the root cause and whether it was wrapped by the `errs` package (x/crypto compares with `==`,
  gpgpdump with `errs.Is`).
* **Panics are values**: `Res.panic` for slice or index out of range and nil dereference.
* **Parsing functions** live in a state monad `P α := St → Res α × St`. The state has the Go `*context.Context` (possibly nil), the
  current `*reader.Reader` and the `*result.Item` under construction. State changes survive errors, as pointer mutation does in Go
  (this matters where the code drops errors).
* **Recursion** (signature, embedded signature, key block, packet) is written with open recursion and closed by structural recursion on
  a fuel number. Running out of fuel is the separate outcome `Res.stuck`; C02 shows that it never happens and that more fuel changes
  nothing.
* **I/O sources** are `Src`: remaining octets, the error reported at the end, a schedule of short reads, whether the last octets come
  together with the error (`eager`), and whether it is gpgpdump's own `reader.Reader` used as an `io.Reader` (`strict`: all or nothing,
  wrapped errors). `Spec.Source` is the view of a caller: octets, final error, schedule.
* **External components** are explicit parameters and every theorem holds for all of them: `Ext` (decompressors, armor decoder, local
  time zone, float formatting, growth of slices), `Unicode` (case tables), `World` (files, network, clipboard, standard output).

### Proof methods

| Method | Modules | Used for |
|---|---|---|
| symbolic execution of successful and failing runs | `Run`, `Inv` | single packets, witnesses |
| reference decoder for the packet grammar, refinement of the x/crypto reader to it | `Decode*`, `SrcLemmas`, `SrcAny`, `Stream` | C03-C08, C22 |
| relational logic: two runs with related contexts, readers and items | `Rel*` | C12, C16, C28, C47, C52, C01, C02 |
| two-run logic with different octets | `Moves`, `Two*` | C13-C15 |
| accounting logic: which octets an item stands for | `Account` | C42 |
| frame facts: methods look only at unread octets, only append items, leave the context alone | `Local`, `Keeps`, `Mon` | C17, C19, C25, C40 |
| reading the output tree in order | `Mon*` | C17, C19, C53 |
| cost logic | `Count*` | C54 |
| accepted-language logic: a method succeeds exactly on a set of octet strings | `Accept*` | C56, C26 |
| panic logic: a method panics exactly on a set of octet strings, built on the two above | `Panic*` | C59 |
| nil-context logic: a method run without a context fails exactly on a set of octet strings, and otherwise runs as with an empty one | `Nil`, `NilTags` | C61 |
| display logic: what a successful method appends, as a relation of octets and rows | `Display*` | C57, C58 |
| stateful display logic: the same with what is remembered before and after; the table is a function; what it displays is accepted | `Full`, `FullTags`, `Unique`, `FullAcc` | C62 |
| error logic: the octets on which a step reports an error, and its root cause | `Fail`, `FailKeys`, `FailTags` | C63 |
| scanner refinement | `ThmScanner` | C33-C35 |
| armor: invariants of the line reader, base64 decoder and checksum reader over any sequence of reads; polynomial division over two elements | `ArmorLemmas`, `ArmorReal`, `CrcLemmas` | C67, C68 |
| refinement of an abstract machine over any history of calls | `ThmReaderApi`, `ThmContextApi`, `ThmParserApi`, `LocalTags`, `ThmPacketsApi`, `ThmPubkeyApi`, `ThmSubsApi`, `ThmSubsError`, `ThmSubsOutcome`, `ThmSubsImage`, `ThmTagsApi` | C69, C70, C72, C76, C96, C97, C98 |
| rows that are there when a method reports an error, as a relation of octets and rows | `Cut*`, `ThmTagsError` | C98 |
| reachability on a heap of items; the tree model as a refinement | `ThmResultApi`, `ThmResultJson` | C77, C91 |
| rounding intervals of binary64 in fixed point; the text read back as a rational number | `DaysLemmas`, `ThmDays` | C78 |
| dates counted year by year from 0001; the text read back as an instant | `ThmLocalTime` | C79 |
| two memories side by side: the items that store or use something, in order | `ThmMemory` | C80 |
| unescaping as a relation; parse and print of URLs as inverses | `ThmUrl` | C85, C86 |
| composition: arguments, requests, answers, output; all cases of a run | `ThmNet`, `ThmMain`, `ThmSave`, `ThmStderr`, `ThmWrite` | C87, C88, C89, C90, C93 |
| inductive grammar of the command line, equivalent to the two passes of cobra over the arguments | `CmdLineLemmas`, `CmdLineParse`, `ThmCmdLine`, `ThmUsage` | C83, C84 |
| soundness and completeness of a recursive-descent parser for a grammar of octets, and of a typed decoder for its values | `GithubScan`, `GithubDecode`, `ThmGithubJson`, `ThmGithubTime` | C81, C82 |
| equivalence of a string comparison with a spelling relation | `ThmCompletion` | C74 |
| values of one kind of item, by induction over the display grammar | `ThmControl` | C73 |
| a reader for the text of every item of the display grammar, as a left inverse | `ThmReadBack`, `ThmReadTool` | C75, C92 |
| primitives shared by model and specifications, determined by Lean's own library | `ThmNotation` | C71 |

## Modules

| Module | Contents |
|---|---|
| `Basic`, `Utf8`, `Calendar` | `fmt` verbs, big-endian numbers, UTF-8 (`unicode/utf8`, rune iteration, `unicode.IsControl`), UTC calendar |
| `Reader`, `ReaderApi` | `parse/reader/reader.go`: what the parsers call; every method with int64 arithmetic |
| `Result` | `parse/result/result.go`: tree and text rendering |
| `Json` | `result.go` `JSON` with the encoder and `Indent` of encoding/json |
| `Context`, `ContextApi` | `parse/context/*.go`; every method on nil, zero and made contexts |
| `Values`, `ValuesApi` | `parse/values/*.go`; its types as callers use them, also nil and zero values |
| `Monad`, `S2K`, `Pubkey`, `Tags` | execution model, `parse/s2k`, `parse/pubkey`, `parse/tags` |
| `Packet` | x/crypto `openpgp/packet`: opaque packet reader, subpacket splitter |
| `Armtext`, `Parser`, `ParserApi` | `armtext/armtext.go` with `bufio.Scanner`; `parse/parser.go`, `parse/parse.go`; a `Parser` whose `Parse` is called any number of times |
| `PacketsApi` | `parse/tags/packets.go`: a `Packets` with `Next` and `Parse` called in any order |
| `SubsApi` | `parse/tags/subs.go`: what `NewSubs` returns, with `Parse` called any number of times |
| `TagsApi` | `parse/tags/tags.go`: what `NewTag` returns, with `Parse` called any number of times |
| `PubkeyApi` | `parse/pubkey`, `parse/s2k`: a `Pubkey` and an `S2K` with their methods called in any order |
| `ResultApi` | `parse/result/result.go` with items on a heap, shared by pointers |
| `ResultJson` | `result.go` `JSON` of such items: `ptrEncoder` and `sliceEncoder` of encoding/json with their search for cycles |
| `Days` | the text of a duration in `parse/values/expire.go`: binary64 division and `%v` of `fmt` and `strconv` |
| `LocalTime` | `unixtime2RFC3339` of `parse/values/datetime.go` in a time zone (a function from instants to offsets) |
| `Armor` | x/crypto `openpgp/armor` with `bufio.Reader.ReadLine` and the stream decoder of `encoding/base64` |
| `Hkp`, `Github`, `Facade`, `Completion` | `hkp/hkp.go` with net/url escaping, `github/*.go`, `facade/*.go` |
| `Url` | `makeURL`, `makeURLAPI` of `github/github.go`; `Parse`, `String` and `ParseQuery` of net/url. `apiURL` in `Github` is the same for plain names only |
| `Net` | what the packages hkp, github and fetch make of a client (`fetch.URL` taken to be `url.Parse`, `Get` to ask for `u.String()`) |
| `Stderr` | what kind of text `Execute` and cobra write to standard error |
| `Main` | `main.go`, with the numbers of the exit codes of gocli |
| `CmdLine` | `facade/*.go`: names and flags of the commands; the parts of cobra and pflag that read the arguments |
| `GithubJson`, `GithubTime` | `github/structs.go` and `getInPage`: the decoder of encoding/json for these types, `time.Time.UnmarshalJSON` |
| `SpecPacket`, `SpecPackets`, `SpecSig` | packet grammar, packets of an input, signatures and what is inside them |
| `SpecFields`, `SpecHidden`, `SpecHistory`, `SpecMemory`, `SpecAccept`, `SpecPanic`, `SpecNil`, `SpecDisplay`, `SpecFull`, `SpecFail` | octets behind an item, packets alike up to hidden contents, history of packets, what an earlier use leaves behind, accepted packets, packets that crash the tool, packets that need a context, rows displayed for a packet, the same with everything that depends on earlier packets, errors and their causes |
| `SpecLines`, `SpecArmor`, `SpecRender`, `SpecJson`, `SpecURL`, `SpecGithub` | lines, ASCII armor with its checksum (RFC 4880), text output, JSON (RFC 8259), URI references and form data, pages of keys as JSON octets |
| `Thm*` | the property theorems, named `Cnn_...`, with witnesses that their hypotheses can be met |
| `CasePackets`, `CaseInput`, `CaseValues` | theorems applied to concrete inputs, for those without such a case in their own file |
| `Tests`, `TestsGithub` | the packets and the GitHub page of the repository's own tests run through the model (tests, not proofs) |
| the others | lemmas, see the table of methods and the head of each file |

## Claims

`MANIFEST.json` has the status of each claim and a note on what is missing. A claim is `partial` in two cases: the program does not do
what the claim says (then there are theorems with witnesses of the failure, and `_partial` theorems for what holds), or the proof does
not cover all of it. The claims that are false of the program as stated:

| Id | What the program does |
|---|---|
| C01 | panics on secret keys of unknown algorithm with less than two octets left, and on some version 5 keys |
| C08, C34 | New without ARMOR drops read errors; a line of 64 KiB or more cuts the input |
| C15 | shows encrypted octets of version 5 keys as initialization vector |
| C18, C19 | end dates wrap modulo 2^32; a key expiration uses up the creation time; creation time 0 counts as none |
| C26, C40, C41 | accepts cut key blocks, cut version 3 signatures, cut initialization vectors |
| C28 | shows the format octet of literal data raw |
| C29, C30 | text output is ambiguous for some trees; indented JSON fails at 5000 levels |
| C44 | keys without text; `null` in the list |
| C33 | a line of 64 KiB anywhere makes armor extraction fail |
| C39, C51 | wrong chunk sizes from 2^64 on; wrong image size |
| C42 | octets behind the integers of version 5 keys are not shown |
| C45 | rendering or writing can fail after the parse; a second run in the same process sees old flags |
| C48 | octets of key flags are numbered wrongly |
| C84 | bundles with a value in the next argument are refused; a flag value equal to the name of the command is removed instead of it |
| C85 | `?`, `#` and `%` in a user name change what is asked for |
| C52, C53, C55 | nil context panics; reused contexts remember; huge reads panic |

## What is modelled and what is not

Modelled, line by line: all of `parse/`, `armtext/`, `ecode` (as error causes), `hkp/` (URL construction), `github/` (paging,
decoding of pages and selection of keys), `facade/` (arguments to command and flags, flags to context, input selection, `--raw`, output,
exit codes).

Modelled from the source of dependencies that are not in `/repo`, as part of the trusted base:

* x/crypto `openpgp/packet` v0.0.0-20210220033148: `readHeader`, `readLength`, `spanReader`, `partialLengthReader`, `OpaqueReader.Next`,
  `OpaqueSubpackets`;
* x/crypto `openpgp/armor` of the same version: `Decode`, `lineReader`, `openpgpReader`, `crc24` (C67, C68 only; elsewhere the armor
  decoder is a parameter);
* the Go standard library (1.16): `bufio.Scanner` (buffer sizes, limit, treatment of errors), `io.ReadFull`, `io.ReadAll`, `bytes.Buffer`,
  `bufio.Reader.ReadLine`, `bytes.TrimSpace`, the `encoding/base64` stream decoder,
  `encoding/json` encoder, `Indent` and decoder (scanner, strings, the types of `github/structs.go`), `time.Parse` for the layout of `UnmarshalJSON`, `net/url` escaping, `Values.Encode`,
  `Parse`, `URL.String`, `ParseQuery` and `Values.Set` (the last four for C85 to C87 only), `strconv`, `fmt` for the verbs used;
* cobra v1.1.3 (`Find`, `stripFlags`, `argsMinusFirstX`, `legacyArgs`, `ExecuteC`, the default help and completion commands) and pflag
  v1.0.5 (`parseArgs`, `parseLongArg`, `parseShortArg`, `parseSingleShortArg`, the value types), with `strconv.ParseInt` and
  `ParseBool` (C83, C84, C87, C88 and C90 only);
* `errs`: `Wrap(nil) = nil`, `errs.Is` sees through `Wrap` and `WithCause`.

Not modelled (parameters, quantified over, or left out):

* decompressors, armor decoder, time zone data, float formatting, capacity growth of slices: parameters (`Ext`). C78 uses the concrete
  text of durations (`goDays`), C79 that of local times (`goLocalTime`, for every function from instants to offsets), C67 and C68 the concrete armor decoder. The armor decoder is a
  function from texts to streams: its octets do not depend on the sizes of the reads. That is proved for armored text (C67_reads); for
  texts with base64 padding before the end the real decoder depends on them and is not represented exactly. A decompressor with
  endless output is represented by a finite stream of at least 1 GiB; no theorem can tell the difference because of the cap (C21).
* HTTP, DNS, clipboard, file system: parameters (`World`).
* the texts of help and of the completion scripts, and the texts on standard error (C90 says when something goes there and of which
  kind it is).
* memory exhaustion, real time, goroutines (signal handling of the commands that use the network).
* integer widths: `int`/`int64` arithmetic is modelled with its wraparound where octets of the input can reach it (C18, C39, C55);
  lengths of buffers are natural numbers.

Simplifications are noted at the definitions.

## Trusted base

* Lean's kernel.
* The axioms below; they are Lean's standard ones. There is no other axiom, no `sorry`, no `native_decide`, no `bv_decide`. `decide +kernel`
  is evaluation by the kernel.
* The reading of the Go code into Lean, including the dependencies listed above. The `#guard` tests of `Tests` run the packets of the
  repository's tests through the model and compare with the expected output.

### Axioms of the theorems named in MANIFEST.json

<!-- axioms -->
* no axioms (3 theorems): C14_example, C44_tables, C76_new.
* `Classical.choice`, `Quot.sound`, `propext` (462 theorems): C01_new_partial, C01_no_panic_partial, C01_panics_unknown_algorithm, C01_panics_version_5, C02_bound, C02_depth, C02_new, C02_packets, C02_shorter, C03_append, C03_append_fail, C03_prefix_kept, C04_bad_header, C04_truncated, C05_success, C05_unique, C06_encoding, C06_encoding_prefix, C07_new, C07_stream, C08_armor, C08_packets_partial, C08_swallowed, C09_read_exact, C09_read_split, C10_seek, C12_options, C13_example_encoded, C13_example_shown, C13_integers_hidden, C14_literal_hidden, C14_shown, C15_attested_shown, C15_contents_hidden_partial, C15_encrypted_shown, C15_marker_shown, C15_private_shown, C15_version_5_shown, C16_dumps, C16_lossless, C17_example, C17_first, C17_history, C17_sequence, C18_expiry_partial, C18_items, C18_wrong, C19_example, C19_history_partial, C19_second_0, C19_used_up, C19_wraps, C20_expand, C20_inner_item, C20_not_again, C20_same_as_unpacked, C21_flagged, C21_kept, C21_rest_ignored, C22_transparent, C22_unknown_tag, C23_name, C23_signature, C23_user_attribute, C24_rejected, C24_signature, C24_unique, C24_user_attribute, C25_embedded, C26_exact, C26_header_accepted, C26_reported_partial, C26_silent, C27_escape_ambiguous, C27_no_control, C27_text_empty, C27_text_invalid, C27_text_shown, C27_text_verbatim, C27_user_id, C28_clean_partial, C28_escape_shown, C29_ambiguous, C29_count, C29_determined_partial, C29_example, C29_lines, C29_no_indent, C29_tree_partial, C30_any_string, C30_deep, C30_example, C30_indent_irrelevant, C30_json_partial, C30_lossy, C30_nested, C30_unwritable, C31_by_string, C32_exact, C32_lookup, C32_names, C32_non_ascii, C32_round_trip, C33_found, C33_get_partial, C33_long_line, C33_not_found, C33_read_error, C33_unique, C34_large_packet_rejected, C34_long_line, C34_undecodable, C34_verbatim_partial, C35_armored, C35_same, C36_mpi_consumes, C36_mpi_truncated, C37_distinct, C37_keyid_shown, C38_count, C39_chunk_size_partial, C39_items, C39_wrong, C40_complete, C40_truncated_partial, C40_v3_accepted, C41_header_cut_partial, C41_iv_accepted, C42_accounted_partial, C42_signature, C42_signature_v3, C42_version_5_dropped, C43_exclusive, C43_version_label, C44_cases, C44_example, C44_page_url, C44_prefix_tables, C44_same_key, C45_cases, C45_debug, C45_example_failure, C45_example_panic, C45_example_success, C45_failure, C45_github_panic, C45_json_fails, C45_no_input, C45_normal_means_dumped, C45_panic, C45_raw, C45_rendered, C45_stale, C45_success_partial, C45_unwritable, C45_write_fails, C46_example, C46_injective, C46_nil_server, C46_url, C47_options_kept, C48_features, C48_key_flags_items, C48_key_flags_partial, C48_key_flags_wrong, C48_server_preferences, C48_tables_partition, C49_curve_names, C49_option_names, C50_utc_exact, C50_utc_injective, C51_image_size_partial, C51_items, C51_wrong, C52_panics, C52_same_or_panic_partial, C53_example, C53_fresh, C53_reused_mode, C53_reused_partial, C53_reused_time, C54_compressed, C54_example, C54_items, C54_new, C54_result, C55_no_panic_partial, C56_accepted, C56_exact, C56_new, C57_attribute, C57_displayed, C57_new, C57_prefix, C57_subpacket, C58_algorithms, C58_distinct, C58_types, C59_error, C59_exact, C59_new, C60_accepted, C60_corrupt, C60_every, C60_exit, C60_output, C60_refused, C60_rejected, C61_else, C61_exact, C61_new, C62_displayed, C62_exact, C62_fresh, C62_front, C62_new, C62_prefix, C62_unique, C63_cause, C63_every, C63_exact, C63_new, C64_displayed, C64_exact, C64_failing, C65_exact, C65_function, C67_every, C67_outcome, C67_parse, C67_reads, C67_same, C68_burst, C68_exact, C68_reported, C69_history, C69_position, C70_new, C70_nil, C70_zero, C71_decimal, C71_distinct, C71_hexadecimal, C71_text, C71_utf8, C72_call, C72_ends, C72_example, C72_left, C72_reported_once, C72_skips, C72_success, C73_exact, C74_argument, C74_output, C74_stale, C75_example, C75_packets, C75_text, C75_tool, C76_drain, C76_example, C76_history, C76_inner, C76_inner_example, C76_item_and_error, C76_used_up, C77_add, C77_commute, C77_copies, C77_copies_example, C77_cycle, C77_ends, C77_example, C77_frame, C77_info, C77_nil, C77_text, C78_characters, C78_exact, C78_exponent, C78_injective, C78_octets, C78_shortest, C78_subpacket, C78_value, C78_whole, C79_characters, C79_environment, C79_exact, C79_injective, C79_instant, C79_item, C79_minute, C79_octets, C79_period, C80_after, C80_exact, C80_outcome, C80_reuse, C80_stable, C80_twice, C81_answer, C81_example, C81_example_found, C81_example_panics, C81_example_refused, C81_found, C81_null_panics, C81_page, C81_refused, C81_rest, C81_spoiled, C81_string, C82_example, C82_rfc3339, C82_time, C83_completion, C83_example, C83_fetch, C83_github, C83_help, C83_hkp, C83_refused, C83_root, C83_unique, C83_values, C83_version, C84_bundle, C84_bundle_refused, C84_example_bundle, C84_example_shadow, C84_file, C84_help_refused, C84_letters, C84_name_behind_flags, C84_name_behind_value_partial, C84_name_first, C84_root_partial, C84_stdin, C85_accepted, C85_cut, C85_example, C85_injective_partial, C85_plain_partial, C85_profile, C85_request, C86_example, C86_url, C87_arguments, C87_example, C87_example_github, C87_fetch_dump, C87_fetch_failed, C87_fetch_raw, C87_github_dump, C87_github_raw, C87_hkp_dump, C87_hkp_failed, C87_hkp_raw, C87_profile_raw, C87_world, C88_armor, C88_debug, C88_debug_output, C88_ends, C88_example, C88_failure, C88_success, C89_armored, C89_damaged, C89_example, C89_example_armored, C89_example_damaged, C89_needs_armor, C89_saved, C90_debug, C90_example, C90_help, C90_panic, C90_silent, C90_status, C90_version, C91_copies, C91_cycle, C91_ends, C91_example, C91_shown, C91_tree, C91_versions, C92_example, C92_form, C92_packets, C92_process, C92_result, C92_text, C93_cut, C93_debug, C93_debug_example, C93_example, C93_reported, C93_success, C94_chain, C94_inside, C94_json, C94_levels, C94_reached, C94_recursion, C94_size, C95_date, C95_fname, C95_items, C95_made, C95_mpi, C95_nil, C95_others, C95_panics, C95_readers, C95_version, C96_errors, C96_fresh, C96_history, C96_panics, C96_s2k, C96_s2k_history, C96_s2k_nil, C96_shown, C97_cut, C97_cut_example, C97_example, C97_example_image, C97_fresh, C97_history, C97_image, C97_image_example, C97_item, C97_outcome, C97_outcome_example, C97_successes, C97_used_up, C98_context, C98_cut, C98_cut_context, C98_cut_context_example, C98_cut_example, C98_cut_history, C98_cut_history_unique, C98_cut_key, C98_cut_secret, C98_cut_signature, C98_cut_unique, C98_display, C98_example, C98_fresh, C98_full, C98_full_example, C98_history, C98_item, C98_memory, C98_memory_example, C98_options, C98_outcome.
* `Quot.sound`, `propext` (27 theorems): C09_history, C09_read2EOF, C09_read_short, C10_in_buffer, C11_dump_injective, C11_dump_layout, C11_dump_readable, C11_dump_rest, C31_fresh_state, C31_get, C31_reported, C31_unknown_code, C38_count_increasing, C44_endless, C44_found, C44_no_key, C44_no_text, C44_null_panics, C44_page_error, C44_same_key_any_partial, C45_context, C66_read_bytes, C71_big_endian, C77_tree, C78_exact_only, C79_clock, C79_utc.
* `propext` (8 theorems): C13_example, C13_example_signature, C15_example_attested, C15_example_secret, C44_dotted, C46_options, C55_panics, C71_dump.
<!-- end axioms -->
