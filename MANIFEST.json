{
 "claims": [
  {
   "property": "C01",
   "status": "partial",
   "theorems": [
    "Gpgpdump.C01_new_partial",
    "Gpgpdump.C01_no_panic_partial",
    "Gpgpdump.C01_panics_unknown_algorithm",
    "Gpgpdump.C01_panics_version_5"
   ],
   "note": "C01_no_panic_partial: no panic when every secret-key packet anywhere in the input has a known algorithm and is not version 5; C01_panics_* are witnesses that the program does panic otherwise. The claim is false of the program; C59 says exactly on which inputs."
  },
  {
   "property": "C02",
   "status": "proved",
   "theorems": [
    "Gpgpdump.C02_new",
    "Gpgpdump.C02_packets",
    "Gpgpdump.C02_shorter",
    "Gpgpdump.C02_depth",
    "Gpgpdump.C02_bound"
   ],
   "note": ""
  },
  {
   "property": "C03",
   "status": "proved",
   "theorems": [
    "Gpgpdump.C03_append",
    "Gpgpdump.C03_append_fail",
    "Gpgpdump.C03_prefix_kept"
   ],
   "note": "At the level of the packet stream (parseSrc)."
  },
  {
   "property": "C04",
   "status": "proved",
   "theorems": [
    "Gpgpdump.C04_truncated",
    "Gpgpdump.C04_bad_header"
   ],
   "note": "For end of file and for read errors; at the level of the packet stream (parseSrc)."
  },
  {
   "property": "C05",
   "status": "proved",
   "theorems": [
    "Gpgpdump.C05_success",
    "Gpgpdump.C05_unique"
   ],
   "note": ""
  },
  {
   "property": "C06",
   "status": "proved",
   "theorems": [
    "Gpgpdump.C06_encoding",
    "Gpgpdump.C06_encoding_prefix"
   ],
   "note": ""
  },
  {
   "property": "C07",
   "status": "proved",
   "theorems": [
    "Gpgpdump.C07_new",
    "Gpgpdump.C07_stream"
   ],
   "note": "For packet streams and for New/Parse."
  },
  {
   "property": "C08",
   "status": "partial",
   "theorems": [
    "Gpgpdump.C08_armor",
    "Gpgpdump.C08_packets_partial",
    "Gpgpdump.C08_swallowed"
   ],
   "note": "Proved with the ARMOR option (C08_armor) and for packet streams (C08_packets_partial). C08_swallowed proves that without ARMOR the program drops every read error of New and parses what was delivered."
  },
  {
   "property": "C09",
   "status": "proved",
   "theorems": [
    "Gpgpdump.C09_read_exact",
    "Gpgpdump.C09_read_short",
    "Gpgpdump.C09_read_split",
    "Gpgpdump.C09_read2EOF",
    "Gpgpdump.C09_history"
   ],
   "note": "Holds whenever offset+n is representable as int64; the overflow case is C55."
  },
  {
   "property": "C10",
   "status": "proved",
   "theorems": [
    "Gpgpdump.C10_seek",
    "Gpgpdump.C10_in_buffer"
   ],
   "note": ""
  },
  {
   "property": "C11",
   "status": "proved",
   "theorems": [
    "Gpgpdump.C11_dump_readable",
    "Gpgpdump.C11_dump_injective",
    "Gpgpdump.C11_dump_layout",
    "Gpgpdump.C11_dump_rest"
   ],
   "note": ""
  },
  {
   "property": "C12",
   "status": "proved",
   "theorems": [
    "Gpgpdump.C12_options"
   ],
   "note": ""
  },
  {
   "property": "C13",
   "status": "proved",
   "theorems": [
    "Gpgpdump.C13_integers_hidden",
    "Gpgpdump.C13_example",
    "Gpgpdump.C13_example_encoded",
    "Gpgpdump.C13_example_shown",
    "Gpgpdump.C13_example_signature"
   ],
   "note": "For every packet sequence, encoding and read schedule: inputs that agree except in the octets of integers (of points: except the first octet) give the same outcome when INTEGER and DEBUG are off. Covers versions 3-5, all algorithms, truncated integers; also plain secret keys of known algorithms up to version 4."
  },
  {
   "property": "C14",
   "status": "proved",
   "theorems": [
    "Gpgpdump.C14_literal_hidden",
    "Gpgpdump.C14_example",
    "Gpgpdump.C14_shown"
   ],
   "note": "Hidden: any packet sequence, only literal data differing with equal lengths. Shown: the last child of the packet has exactly the data as dump iff LITERAL or DEBUG."
  },
  {
   "property": "C15",
   "status": "partial",
   "theorems": [
    "Gpgpdump.C15_contents_hidden_partial",
    "Gpgpdump.C15_example_attested",
    "Gpgpdump.C15_example_secret",
    "Gpgpdump.C15_version_5_shown",
    "Gpgpdump.C15_marker_shown",
    "Gpgpdump.C15_encrypted_shown",
    "Gpgpdump.C15_private_shown",
    "Gpgpdump.C15_attested_shown"
   ],
   "note": "Hidden part proved for markers, private packets, attested certifications, tags 9/18/19/20 and encrypted secret keys of versions other than 5 (all string-to-key types including the GNU extension), in any packet sequence. For version 5 secret keys the claim is false: C15_version_5_shown (the code shows encrypted octets as IV). Shown part: markers, private packets, attested certifications, 9/18/19 have exactly the content as dump iff the option or DEBUG is set; for secret keys the packet dump under DEBUG is C16_dumps."
  },
  {
   "property": "C16",
   "status": "proved",
   "theorems": [
    "Gpgpdump.C16_dumps",
    "Gpgpdump.C16_lossless"
   ],
   "note": ""
  },
  {
   "property": "C17",
   "status": "proved",
   "theorems": [
    "Gpgpdump.C17_history",
    "Gpgpdump.C17_sequence",
    "Gpgpdump.C17_first",
    "Gpgpdump.C17_example"
   ],
   "note": "C17_history reads the whole output tree of any reader (nested packets included) with a fresh context; C17_sequence and C17_first state it in terms of the packets of the input, in any context."
  },
  {
   "property": "C18",
   "status": "partial",
   "theorems": [
    "Gpgpdump.C18_items",
    "Gpgpdump.C18_expiry_partial",
    "Gpgpdump.C18_wrong"
   ],
   "note": "C18_items and C18_expiry_partial: the shown end date is creation+validity when that sum is below 2^32; C18_wrong proves that beyond it the code wraps around (a defect of the program)."
  },
  {
   "property": "C19",
   "status": "partial",
   "theorems": [
    "Gpgpdump.C19_history_partial",
    "Gpgpdump.C19_used_up",
    "Gpgpdump.C19_second_0",
    "Gpgpdump.C19_wraps",
    "Gpgpdump.C19_example"
   ],
   "note": "C19_history_partial is the exact behaviour for every input with a fresh context. The claim as stated is false: a key expiration uses up the creation time (C19_used_up), creation time 0 gives no date (C19_second_0), the date wraps modulo 2^32 (C19_wraps)."
  },
  {
   "property": "C20",
   "status": "proved",
   "theorems": [
    "Gpgpdump.C20_expand",
    "Gpgpdump.C20_same_as_unpacked",
    "Gpgpdump.C20_inner_item",
    "Gpgpdump.C20_not_again"
   ],
   "note": ""
  },
  {
   "property": "C21",
   "status": "proved",
   "theorems": [
    "Gpgpdump.C21_flagged",
    "Gpgpdump.C21_rest_ignored",
    "Gpgpdump.C21_kept"
   ],
   "note": ""
  },
  {
   "property": "C22",
   "status": "proved",
   "theorems": [
    "Gpgpdump.C22_unknown_tag",
    "Gpgpdump.C22_transparent"
   ],
   "note": ""
  },
  {
   "property": "C23",
   "status": "proved",
   "theorems": [
    "Gpgpdump.C23_name",
    "Gpgpdump.C23_signature",
    "Gpgpdump.C23_user_attribute"
   ],
   "note": ""
  },
  {
   "property": "C24",
   "status": "proved",
   "theorems": [
    "Gpgpdump.C24_signature",
    "Gpgpdump.C24_rejected",
    "Gpgpdump.C24_unique",
    "Gpgpdump.C24_user_attribute"
   ],
   "note": ""
  },
  {
   "property": "C25",
   "status": "proved",
   "theorems": [
    "Gpgpdump.C25_embedded"
   ],
   "note": ""
  },
  {
   "property": "C26",
   "status": "partial",
   "theorems": [
    "Gpgpdump.C26_exact",
    "Gpgpdump.C26_reported_partial",
    "Gpgpdump.C26_header_accepted",
    "Gpgpdump.C26_silent"
   ],
   "note": "A cut after 1 to 511 octets of a definite-length body inside key data makes Parse fail (C26_reported_partial); C26_header_accepted and C26_silent prove that the program silently accepts key data that ends with a packet header. C26_exact characterises the accepted key data without a bound: complete packets followed by nothing, or by a packet cut exactly at a field boundary of its header or at one of the capacities of the buffer io.ReadAll grows (KeyEnd)."
  },
  {
   "property": "C27",
   "status": "proved",
   "theorems": [
    "Gpgpdump.C27_text_shown",
    "Gpgpdump.C27_text_invalid",
    "Gpgpdump.C27_text_empty",
    "Gpgpdump.C27_no_control",
    "Gpgpdump.C27_user_id",
    "Gpgpdump.C27_text_verbatim",
    "Gpgpdump.C27_escape_ambiguous"
   ],
   "note": "Escaping is not injective: C27_escape_ambiguous."
  },
  {
   "property": "C28",
   "status": "partial",
   "theorems": [
    "Gpgpdump.C28_clean_partial",
    "Gpgpdump.C28_escape_shown"
   ],
   "note": "C28_clean_partial: no control characters anywhere in the output except in the value of a literal-packet format item; C28_escape_shown is a witness that the literal format octet is shown raw; which control characters are displayed is decided exactly by C73."
  },
  {
   "property": "C29",
   "status": "partial",
   "theorems": [
    "Gpgpdump.C29_lines",
    "Gpgpdump.C29_count",
    "Gpgpdump.C29_determined_partial",
    "Gpgpdump.C29_tree_partial",
    "Gpgpdump.C29_ambiguous",
    "Gpgpdump.C29_no_indent",
    "Gpgpdump.C29_example"
   ],
   "note": "C29_lines and C29_count prove the first half for every tree. The text determines the lines and depths (C29_determined_partial). That it determines the tree is false as stated: a dump looks like a child, a value like a part of the name (C29_ambiguous); C29_tree_partial proves it when dumps are recognizable and item lines unambiguous."
  },
  {
   "property": "C30",
   "status": "partial",
   "theorems": [
    "Gpgpdump.C30_nested",
    "Gpgpdump.C30_unwritable",
    "Gpgpdump.C30_json_partial",
    "Gpgpdump.C30_any_string",
    "Gpgpdump.C30_indent_irrelevant",
    "Gpgpdump.C30_deep",
    "Gpgpdump.C30_lossy",
    "Gpgpdump.C30_example"
   ],
   "note": "Independent RFC 8259 grammar with unique decoding. Proved for all trees whose strings are valid UTF-8, for every indentation, under 5000 levels when indented (json.Indent of the standard library fails beyond: C30_deep; C30_unwritable is a packet that reaches it); arbitrary octets decode to the tree with replacement characters (C30_any_string, C30_lossy)."
  },
  {
   "property": "C31",
   "status": "proved",
   "theorems": [
    "Gpgpdump.C31_get",
    "Gpgpdump.C31_unknown_code",
    "Gpgpdump.C31_by_string",
    "Gpgpdump.C31_reported",
    "Gpgpdump.C31_fresh_state"
   ],
   "note": ""
  },
  {
   "property": "C32",
   "status": "proved",
   "theorems": [
    "Gpgpdump.C32_round_trip",
    "Gpgpdump.C32_names",
    "Gpgpdump.C32_lookup",
    "Gpgpdump.C32_exact",
    "Gpgpdump.C32_non_ascii"
   ],
   "note": "C32_exact is the full claim: for every string and code the lookup succeeds exactly for the forms of the name under the simple lower-case mapping of Unicode. C32_non_ascii shows the two non-ASCII letters that take part."
  },
  {
   "property": "C33",
   "status": "partial",
   "theorems": [
    "Gpgpdump.C33_found",
    "Gpgpdump.C33_not_found",
    "Gpgpdump.C33_unique",
    "Gpgpdump.C33_read_error",
    "Gpgpdump.C33_get_partial",
    "Gpgpdump.C33_long_line"
   ],
   "note": "Proved for every source without an overlong line (C33_get_partial); C33_long_line proves that one line of 65536 octets or more anywhere makes Get fail."
  },
  {
   "property": "C34",
   "status": "partial",
   "theorems": [
    "Gpgpdump.C34_verbatim_partial",
    "Gpgpdump.C34_undecodable",
    "Gpgpdump.C34_long_line",
    "Gpgpdump.C34_large_packet_rejected"
   ],
   "note": "Proved for octets whose lines are shorter than 65536 octets (C34_verbatim_partial, C34_undecodable). C34_long_line and C34_large_packet_rejected prove that longer lines cut the input."
  },
  {
   "property": "C35",
   "status": "proved",
   "theorems": [
    "Gpgpdump.C35_armored",
    "Gpgpdump.C35_same"
   ],
   "note": "The armor decoder is external; the body it delivers is assumed to end with a separate end of file."
  },
  {
   "property": "C36",
   "status": "proved",
   "theorems": [
    "Gpgpdump.C36_mpi_consumes",
    "Gpgpdump.C36_mpi_truncated"
   ],
   "note": ""
  },
  {
   "property": "C37",
   "status": "proved",
   "theorems": [
    "Gpgpdump.C37_distinct",
    "Gpgpdump.C37_keyid_shown"
   ],
   "note": ""
  },
  {
   "property": "C38",
   "status": "proved",
   "theorems": [
    "Gpgpdump.C38_count",
    "Gpgpdump.C38_count_increasing"
   ],
   "note": ""
  },
  {
   "property": "C39",
   "status": "partial",
   "theorems": [
    "Gpgpdump.C39_items",
    "Gpgpdump.C39_chunk_size_partial",
    "Gpgpdump.C39_wrong"
   ],
   "note": "Correct while 2^(c+6) fits in 64 bits (C39_chunk_size_partial); C39_wrong proves the program shows a wrong size beyond it."
  },
  {
   "property": "C40",
   "status": "partial",
   "theorems": [
    "Gpgpdump.C40_complete",
    "Gpgpdump.C40_truncated_partial",
    "Gpgpdump.C40_v3_accepted"
   ],
   "note": "Every proper cut of a version 4 or 5 signature body is reported (C40_truncated_partial) and complete ones parse (C40_complete); C40_v3_accepted proves that the program accepts every version 3 body, cut anywhere."
  },
  {
   "property": "C41",
   "status": "partial",
   "theorems": [
    "Gpgpdump.C41_header_cut_partial",
    "Gpgpdump.C41_iv_accepted"
   ],
   "note": "A body cut before the chunk-size octet is reported (C41_header_cut_partial); C41_iv_accepted proves that the program accepts every cut inside the initialization vector."
  },
  {
   "property": "C42",
   "status": "partial",
   "theorems": [
    "Gpgpdump.C42_accounted_partial",
    "Gpgpdump.C42_signature",
    "Gpgpdump.C42_signature_v3",
    "Gpgpdump.C42_version_5_dropped"
   ],
   "note": "C42_accounted_partial: the items of every accepted packet cover the octets read, in order, for the listed packet kinds; C42_version_5_dropped is a witness that the program drops octets of a version 5 key."
  },
  {
   "property": "C43",
   "status": "proved",
   "theorems": [
    "Gpgpdump.C43_version_label",
    "Gpgpdump.C43_exclusive"
   ],
   "note": ""
  },
  {
   "property": "C44",
   "status": "partial",
   "theorems": [
    "Gpgpdump.C44_same_key",
    "Gpgpdump.C44_same_key_any_partial",
    "Gpgpdump.C44_dotted",
    "Gpgpdump.C44_found",
    "Gpgpdump.C44_no_key",
    "Gpgpdump.C44_page_error",
    "Gpgpdump.C44_no_text",
    "Gpgpdump.C44_null_panics",
    "Gpgpdump.C44_endless",
    "Gpgpdump.C44_cases",
    "Gpgpdump.C44_page_url",
    "Gpgpdump.C44_tables",
    "Gpgpdump.C44_prefix_tables",
    "Gpgpdump.C44_example"
   ],
   "note": "Order of the requests, the three ends named in the claim, and the completeness of the case distinction (including an endless sequence of full pages), for every server. Which IDs count as equal is proved from facts about the Unicode tables (Spec.GH.Tables, Spec.GH.PrefixTables). Partial because the claim is false where a key has no text (ErrNoKey, C44_no_text), where the list has a null (a panic, C44_null_panics), and for request strings with U+0130 (C44_dotted). The JSON decoding of a page is in C81; the HTTP client is outside the model."
  },
  {
   "property": "C45",
   "status": "partial",
   "theorems": [
    "Gpgpdump.C45_unwritable",
    "Gpgpdump.C45_context",
    "Gpgpdump.C45_failure",
    "Gpgpdump.C45_no_input",
    "Gpgpdump.C45_panic",
    "Gpgpdump.C45_github_panic",
    "Gpgpdump.C45_success_partial",
    "Gpgpdump.C45_rendered",
    "Gpgpdump.C45_normal_means_dumped",
    "Gpgpdump.C45_write_fails",
    "Gpgpdump.C45_json_fails",
    "Gpgpdump.C45_raw",
    "Gpgpdump.C45_cases",
    "Gpgpdump.C45_debug",
    "Gpgpdump.C45_stale",
    "Gpgpdump.C45_example_success",
    "Gpgpdump.C45_example_failure",
    "Gpgpdump.C45_example_panic"
   ],
   "note": "Every command that dumps (root with stdin, file or clipboard; hkp; github; fetch), every source and every standard output. Failure and panic as claimed (C45_failure, C45_no_input, C45_panic); normal exit only after the whole text was written (C45_normal_means_dumped). Partial: the success half needs a renderer and a standard output that do not fail (C45_json_fails and C45_write_fails say what happens otherwise; C45_unwritable is an input of 27 KB), and a second Execute in one process can see the debug flag of the first (C45_stale). How arguments become commands is in C83."
  },
  {
   "property": "C46",
   "status": "proved",
   "theorems": [
    "Gpgpdump.C46_url",
    "Gpgpdump.C46_options",
    "Gpgpdump.C46_injective",
    "Gpgpdump.C46_nil_server",
    "Gpgpdump.C46_example"
   ],
   "note": "For every host, port, protocol and user ID. net/url escaping and Values.Encode are modelled; the decoder is an independent specification."
  },
  {
   "property": "C47",
   "status": "proved",
   "theorems": [
    "Gpgpdump.C47_options_kept"
   ],
   "note": ""
  },
  {
   "property": "C48",
   "status": "partial",
   "theorems": [
    "Gpgpdump.C48_features",
    "Gpgpdump.C48_server_preferences",
    "Gpgpdump.C48_key_flags_items",
    "Gpgpdump.C48_key_flags_partial",
    "Gpgpdump.C48_tables_partition",
    "Gpgpdump.C48_key_flags_wrong"
   ],
   "note": "Features and server preferences are fully proved; for key flags unknown octets are numbered wrongly by the program (C48_key_flags_wrong), C48_key_flags_partial is what holds."
  },
  {
   "property": "C49",
   "status": "proved",
   "theorems": [
    "Gpgpdump.C49_curve_names",
    "Gpgpdump.C49_option_names"
   ],
   "note": ""
  },
  {
   "property": "C50",
   "status": "proved",
   "theorems": [
    "Gpgpdump.C50_utc_exact",
    "Gpgpdump.C50_utc_injective"
   ],
   "note": ""
  },
  {
   "property": "C51",
   "status": "partial",
   "theorems": [
    "Gpgpdump.C51_items",
    "Gpgpdump.C51_image_size_partial",
    "Gpgpdump.C51_wrong"
   ],
   "note": "The program subtracts a constant header size that is wrong for the standard layout: C51_wrong; C51_image_size_partial is what it shows."
  },
  {
   "property": "C52",
   "status": "partial",
   "theorems": [
    "Gpgpdump.C52_same_or_panic_partial",
    "Gpgpdump.C52_panics"
   ],
   "note": "The claim is false of the program: C52_panics is a witness. C52_same_or_panic_partial: with a nil context the result is that with an empty one, or a nil-pointer panic. Which inputs panic is decided exactly by C61."
  },
  {
   "property": "C53",
   "status": "partial",
   "theorems": [
    "Gpgpdump.C53_fresh",
    "Gpgpdump.C53_reused_partial",
    "Gpgpdump.C53_example",
    "Gpgpdump.C53_reused_mode",
    "Gpgpdump.C53_reused_time"
   ],
   "note": "Fresh contexts: C53_fresh. Reused contexts: C53_reused_partial (no signatures, keys, compressed packets; every session key followed by encrypted data). Otherwise the claim is false: C53_reused_mode, C53_reused_time; C80 decides exactly when."
  },
  {
   "property": "C54",
   "status": "proved",
   "theorems": [
    "Gpgpdump.C54_items",
    "Gpgpdump.C54_result",
    "Gpgpdump.C54_new",
    "Gpgpdump.C54_compressed",
    "Gpgpdump.C54_example"
   ],
   "note": "32 items per octet, for any source (C54_items also counts the packets around compressed ones); C54_new through armor detection; C54_compressed bounds what a compressed packet adds by what it unpacks to."
  },
  {
   "property": "C55",
   "status": "partial",
   "theorems": [
    "Gpgpdump.C55_no_panic_partial",
    "Gpgpdump.C55_panics"
   ],
   "note": "No panic for sizes with offset+size below 2^63 (C55_no_panic_partial); C55_panics is a witness of the panic for larger sizes, so the claim is false as stated. C66_read_bytes says exactly which sizes panic."
  },
  {
   "property": "C56",
   "status": "proved",
   "theorems": [
    "Gpgpdump.C56_accepted",
    "Gpgpdump.C56_exact",
    "Gpgpdump.C56_new"
   ],
   "note": "Independent grammar of packet bodies (SpecAccept), exact for every input, option set and decompressor (C56_exact). The only hypothesis: the external decompressors do not return the own error value of the tool for too large data. C56_new is the same at New for input without an armor block and without overlong lines."
  },
  {
   "property": "C57",
   "status": "proved",
   "theorems": [
    "Gpgpdump.C57_displayed",
    "Gpgpdump.C57_prefix",
    "Gpgpdump.C57_new",
    "Gpgpdump.C57_subpacket",
    "Gpgpdump.C57_attribute"
   ],
   "note": "Independent table of rows (SpecDisplay), for every successful parse (C57_displayed), for failing ones (C57_prefix), at New (C57_new), and for subpackets in any state (C57_subpacket, C57_attribute). Left open in the table: the date in the note of an expiration subpacket (C19) and which of three texts names the session key (C17). The hypothesis on decompressors is that of C56."
  },
  {
   "property": "C58",
   "status": "proved",
   "theorems": [
    "Gpgpdump.C58_algorithms",
    "Gpgpdump.C58_types",
    "Gpgpdump.C58_distinct"
   ],
   "note": ""
  },
  {
   "property": "C59",
   "status": "proved",
   "theorems": [
    "Gpgpdump.C59_exact",
    "Gpgpdump.C59_error",
    "Gpgpdump.C59_new"
   ],
   "note": "Independent grammar of the crashing packets (SpecPanic); C59_exact is an equivalence for each kind of run-time error, C59_error gives the third outcome, C59_new is the same at New for input without an armor block and without overlong lines. Hypotheses on the external decompressors: they do not return the own error value of the tool for too large data, and their errors are not the fuel value of the model."
  },
  {
   "property": "C60",
   "status": "proved",
   "theorems": [
    "Gpgpdump.C60_every",
    "Gpgpdump.C60_accepted",
    "Gpgpdump.C60_rejected",
    "Gpgpdump.C60_corrupt",
    "Gpgpdump.C60_refused",
    "Gpgpdump.C60_exit",
    "Gpgpdump.C60_output"
   ],
   "note": "C60_every: the cases cover every input. C60_accepted (also with --debug), C60_rejected, C60_corrupt, C60_refused, C60_exit; C60_output is an equivalence between standard output and the independent tables (PacketSeq, FullTops, Rendered). Built on C34, C35, C45, C56, C57, C59, C62. The armor decoder and the decompressors are external; what is assumed of them: no own error value, no fuel value, no octets together with an error from the armor reader."
  },
  {
   "property": "C61",
   "status": "proved",
   "theorems": [
    "Gpgpdump.C61_exact",
    "Gpgpdump.C61_else",
    "Gpgpdump.C61_new"
   ],
   "note": "Independent grammar (SpecNil). C61_exact is an equivalence, C61_else the other inputs, C61_new the same at New for input without an armor block and without overlong lines. Only hypothesis: the external decompressors do not return the own error value of the tool."
  },
  {
   "property": "C62",
   "status": "proved",
   "theorems": [
    "Gpgpdump.C62_displayed",
    "Gpgpdump.C62_unique",
    "Gpgpdump.C62_exact",
    "Gpgpdump.C62_fresh",
    "Gpgpdump.C62_new",
    "Gpgpdump.C62_prefix",
    "Gpgpdump.C62_front"
   ],
   "note": "Independent table (SpecFull, on top of SpecDisplay and SpecHistory). C62_exact and C62_front are equivalences, C62_unique shows that the table is a function, C62_displayed also gives the context afterwards, C62_fresh and C62_new are the same for fresh contexts and at New, C62_prefix covers sources that end with an error. Only hypothesis on external components: the decompressors do not return the own error value of the tool."
  },
  {
   "property": "C63",
   "status": "proved",
   "theorems": [
    "Gpgpdump.C63_exact",
    "Gpgpdump.C63_cause",
    "Gpgpdump.C63_every",
    "Gpgpdump.C63_new"
   ],
   "note": "C63_exact: Parse returns an error with root cause c if and only if StreamFails (AccTop X) (FailTop X) c holds of the octets; the grammar of SpecFail.lean mentions no parse method. C63_cause: the cause is unique. C63_every: with the grammars of C56 and C59 every octet string falls in exactly one class. C63_new: at New and Parse without an armor block. Hypothesis OwnErrors: the decompressors do not return the size limit error of the tool; RealX where stuck runs are excluded."
  },
  {
   "property": "C64",
   "status": "proved",
   "theorems": [
    "Gpgpdump.C64_failing",
    "Gpgpdump.C64_exact",
    "Gpgpdump.C64_displayed"
   ],
   "note": "C64_failing: the packets, the context and the result are those of the complete packets alone, except for the error at the end; C64_exact and C64_displayed combine this with the grammars of C56, C59, C62 and C63."
  },
  {
   "property": "C65",
   "status": "proved",
   "theorems": [
    "Gpgpdump.C65_exact",
    "Gpgpdump.C65_function"
   ],
   "note": "C65_exact: New and Parse give these packets and this end if and only if Runs says so; C65_function: Runs is total and single valued. Hypotheses: OwnErrors and RealX for the decompressors, the reader of the armor package does not return octets together with an error, and the context is Consistent (times remembered under the current setting of UTC)."
  },
  {
   "property": "C66",
   "status": "proved",
   "theorems": [
    "Gpgpdump.C66_read_bytes"
   ],
   "note": "C66_read_bytes covers every int64 size."
  },
  {
   "property": "C67",
   "status": "proved",
   "theorems": [
    "Gpgpdump.C67_reads",
    "Gpgpdump.C67_parse",
    "Gpgpdump.C67_same",
    "Gpgpdump.C67_every",
    "Gpgpdump.C67_outcome"
   ],
   "note": "C67_reads (any sequence of reads), C67_parse (end to end), C67_same, C67_every (each octet string and checksum has a message), C67_outcome (C65 with this decoder). x/crypto armor and encoding/base64 are modelled from their sources."
  },
  {
   "property": "C68",
   "status": "proved",
   "theorems": [
    "Gpgpdump.C68_reported",
    "Gpgpdump.C68_burst",
    "Gpgpdump.C68_exact"
   ],
   "note": "C68_reported, C68_burst, C68_exact. The checksum is specified as the remainder of a polynomial division; the proof includes that bursts up to 24 bits change it."
  },
  {
   "property": "C69",
   "status": "proved",
   "theorems": [
    "Gpgpdump.C69_history",
    "Gpgpdump.C69_position"
   ],
   "note": "C69_history (outcomes of every sequence of calls are exactly those of the abstract machine), C69_position. The buffer is assumed to be smaller than 2^62 octets; a nil receiver and aliasing of returned slices are not modelled."
  },
  {
   "property": "C70",
   "status": "proved",
   "theorems": [
    "Gpgpdump.C70_new",
    "Gpgpdump.C70_nil",
    "Gpgpdump.C70_zero"
   ],
   "note": "C70_new, C70_nil, C70_zero: three kinds of receivers, every history, exact outcome of every call."
  },
  {
   "property": "C71",
   "status": "proved",
   "theorems": [
    "Gpgpdump.C71_decimal",
    "Gpgpdump.C71_hexadecimal",
    "Gpgpdump.C71_distinct",
    "Gpgpdump.C71_dump",
    "Gpgpdump.C71_big_endian",
    "Gpgpdump.C71_utf8",
    "Gpgpdump.C71_text"
   ],
   "note": "These functions are used by the model and by the specifications of C57 and C62 alike; here they are determined by toString, Nat.toDigits and String.utf8EncodeChar of the Lean library."
  },
  {
   "property": "C72",
   "status": "proved",
   "theorems": [
    "Gpgpdump.C72_call",
    "Gpgpdump.C72_left",
    "Gpgpdump.C72_success",
    "Gpgpdump.C72_reported_once",
    "Gpgpdump.C72_skips",
    "Gpgpdump.C72_ends",
    "Gpgpdump.C72_example"
   ],
   "note": "C72_call and C72_left are the exact behaviour of every call (any final error of the source); C72_success, C72_reported_once, C72_skips, C72_ends are about sources that end with EOF. consumeAll of x/crypto is modelled."
  },
  {
   "property": "C73",
   "status": "proved",
   "theorems": [
    "Gpgpdump.C73_exact"
   ],
   "note": "Every context from New, every input that ends with EOF, every control character; by induction over the display grammar of C62."
  },
  {
   "property": "C74",
   "status": "proved",
   "theorems": [
    "Gpgpdump.C74_argument",
    "Gpgpdump.C74_output",
    "Gpgpdump.C74_stale"
   ],
   "note": "strings.EqualFold and unicode.SimpleFold are modelled from the library source, the table of SimpleFold only where it reaches ASCII. The texts of the scripts are outside the model; how arguments reach the command is in C83."
  },
  {
   "property": "C75",
   "status": "proved",
   "theorems": [
    "Gpgpdump.C75_text",
    "Gpgpdump.C75_packets",
    "Gpgpdump.C75_tool",
    "Gpgpdump.C75_example"
   ],
   "note": "By a reader for the lines (decode, isDump) that is right for every item of the display grammar of C62. Assumed of the environment: CleanX (no control characters in times and durations) and TimeX (no parenthesis in them, and not empty), which RFC 3339 texts and numbers meet."
  },
  {
   "property": "C76",
   "status": "proved",
   "theorems": [
    "Gpgpdump.C76_history",
    "Gpgpdump.C76_drain",
    "Gpgpdump.C76_new",
    "Gpgpdump.C76_used_up",
    "Gpgpdump.C76_example",
    "Gpgpdump.C76_inner",
    "Gpgpdump.C76_item_and_error",
    "Gpgpdump.C76_inner_example"
   ],
   "note": "The octets left unread by Parse are a function of context, tag and unread octets, not further specified for tags 2, 8 and 20. Tag08.data is not part of the state: it is assigned in the call that uses it."
  },
  {
   "property": "C77",
   "status": "proved",
   "theorems": [
    "Gpgpdump.C77_text",
    "Gpgpdump.C77_ends",
    "Gpgpdump.C77_tree",
    "Gpgpdump.C77_cycle",
    "Gpgpdump.C77_frame",
    "Gpgpdump.C77_add",
    "Gpgpdump.C77_nil",
    "Gpgpdump.C77_commute",
    "Gpgpdump.C77_copies",
    "Gpgpdump.C77_info",
    "Gpgpdump.C77_example",
    "Gpgpdump.C77_copies_example"
   ],
   "note": "An endless text is a stack overflow in Go. Assigning Items directly is covered as far as the theorems are about arbitrary heaps; slices that share a backing array are not. JSON of shared items is not modelled."
  },
  {
   "property": "C78",
   "status": "proved",
   "theorems": [
    "Gpgpdump.C78_value",
    "Gpgpdump.C78_injective",
    "Gpgpdump.C78_exact",
    "Gpgpdump.C78_exact_only",
    "Gpgpdump.C78_whole",
    "Gpgpdump.C78_exponent",
    "Gpgpdump.C78_shortest",
    "Gpgpdump.C78_characters",
    "Gpgpdump.C78_subpacket",
    "Gpgpdump.C78_octets"
   ],
   "note": "Division and notation are modelled from the Go 1.16 standard library (strconv decimal.go, ftoa.go: the slow exact algorithm; the fast ones are documented to give the same digits). The division of the model was compared with a floating-point unit on 24,599 values."
  },
  {
   "property": "C79",
   "status": "proved",
   "theorems": [
    "Gpgpdump.C79_instant",
    "Gpgpdump.C79_exact",
    "Gpgpdump.C79_minute",
    "Gpgpdump.C79_injective",
    "Gpgpdump.C79_clock",
    "Gpgpdump.C79_utc",
    "Gpgpdump.C79_item",
    "Gpgpdump.C79_octets",
    "Gpgpdump.C79_period",
    "Gpgpdump.C79_characters",
    "Gpgpdump.C79_environment"
   ],
   "note": "The zone is an arbitrary function from instants to offsets under 100 hours; the search in the zone data of the system is not modelled."
  },
  {
   "property": "C80",
   "status": "proved",
   "theorems": [
    "Gpgpdump.C80_outcome",
    "Gpgpdump.C80_reuse",
    "Gpgpdump.C80_exact",
    "Gpgpdump.C80_after",
    "Gpgpdump.C80_twice",
    "Gpgpdump.C80_stable"
   ],
   "note": "The exact form of C53, which is false as stated. Contexts whose remembered times were made with another UTC setting than that of the context are excluded (Consistent); they cannot arise from Parse."
  },
  {
   "property": "C81",
   "status": "proved",
   "theorems": [
    "Gpgpdump.C81_page",
    "Gpgpdump.C81_answer",
    "Gpgpdump.C81_rest",
    "Gpgpdump.C81_spoiled",
    "Gpgpdump.C81_string",
    "Gpgpdump.C81_found",
    "Gpgpdump.C81_refused",
    "Gpgpdump.C81_null_panics",
    "Gpgpdump.C81_example",
    "Gpgpdump.C81_example_found",
    "Gpgpdump.C81_example_refused",
    "Gpgpdump.C81_example_panics"
   ],
   "note": "The decoder of encoding/json is modelled from the Go 1.16 source, which is not in /repo. C81_page and C81_answer hold for every set of accepted dates; the theorems on GetKey use the dates of C82. A null in the array is a panic (C81_null_panics, see C44)."
  },
  {
   "property": "C82",
   "status": "proved",
   "theorems": [
    "Gpgpdump.C82_time",
    "Gpgpdump.C82_rfc3339",
    "Gpgpdump.C82_example"
   ],
   "note": "time.Parse is modelled from the Go 1.16 source for this one layout; later versions of Go reject more (hours of one digit, offsets out of range)."
  },
  {
   "property": "C83",
   "status": "proved",
   "theorems": [
    "Gpgpdump.C83_unique",
    "Gpgpdump.C83_values",
    "Gpgpdump.C83_refused",
    "Gpgpdump.C83_help",
    "Gpgpdump.C83_root",
    "Gpgpdump.C83_version",
    "Gpgpdump.C83_hkp",
    "Gpgpdump.C83_github",
    "Gpgpdump.C83_fetch",
    "Gpgpdump.C83_completion",
    "Gpgpdump.C83_example"
   ],
   "note": "cobra v1.1.3 and pflag v1.0.5 are modelled from their sources, which are not in /repo. Accepted and Completes are stated by inductive relations that use no function of the model. C83_values: every flag has exactly one value, so the hypotheses of the theorems for the commands can always be met."
  },
  {
   "property": "C84",
   "status": "partial",
   "theorems": [
    "Gpgpdump.C84_name_first",
    "Gpgpdump.C84_name_behind_flags",
    "Gpgpdump.C84_name_behind_value_partial",
    "Gpgpdump.C84_root_partial",
    "Gpgpdump.C84_bundle",
    "Gpgpdump.C84_bundle_refused",
    "Gpgpdump.C84_help_refused",
    "Gpgpdump.C84_stdin",
    "Gpgpdump.C84_file",
    "Gpgpdump.C84_letters",
    "Gpgpdump.C84_example_shadow",
    "Gpgpdump.C84_example_bundle"
   ],
   "note": "False as stated, by cobra: a bundle whose last letter takes the next argument as value (-uf key.asc) is refused as an unknown command (C84_bundle, C84_bundle_refused, C84_example_bundle); a value equal to the name of the command in front of it is removed in its place (C84_example_shadow); --help in front of two words is refused (C84_help_refused). Proved for all other notations (C84_root_partial, C84_name_behind_value_partial) and without exception for C84_file, C84_letters, C84_stdin, C84_name_first, C84_name_behind_flags."
  },
  {
   "property": "C85",
   "status": "partial",
   "theorems": [
    "Gpgpdump.C85_accepted",
    "Gpgpdump.C85_request",
    "Gpgpdump.C85_profile",
    "Gpgpdump.C85_plain_partial",
    "Gpgpdump.C85_injective_partial",
    "Gpgpdump.C85_cut",
    "Gpgpdump.C85_example"
   ],
   "note": "False as stated: the name is put into the text of the URL as it is, so that a question mark or number sign in it cuts the path (C85_cut) and %41 is the name A (C85_example). Proved for every name: which names are accepted (C85_accepted), that the host is always the same and that page and per_page are always exactly those of the program (C85_request, C85_profile). Proved for names without control characters, %, ? and #: the claim itself (C85_plain_partial, C85_injective_partial)."
  },
  {
   "property": "C86",
   "status": "proved",
   "theorems": [
    "Gpgpdump.C86_url",
    "Gpgpdump.C86_example"
   ],
   "note": "url.Parse and URL.String of Go 1.16 are modelled from memory of their source, which is not in /repo."
  },
  {
   "property": "C87",
   "status": "proved",
   "theorems": [
    "Gpgpdump.C87_fetch_raw",
    "Gpgpdump.C87_fetch_dump",
    "Gpgpdump.C87_hkp_raw",
    "Gpgpdump.C87_hkp_dump",
    "Gpgpdump.C87_fetch_failed",
    "Gpgpdump.C87_hkp_failed",
    "Gpgpdump.C87_github_raw",
    "Gpgpdump.C87_github_dump",
    "Gpgpdump.C87_profile_raw",
    "Gpgpdump.C87_arguments",
    "Gpgpdump.C87_world",
    "Gpgpdump.C87_example",
    "Gpgpdump.C87_example_github"
   ],
   "note": "Built on C45, C46, C60, C81, C83, C85 and C86. The client is a parameter (a function from the text of a URL to an error or a body). Online relates the world of the commands to it; C87_world: there is such a world for every client."
  },
  {
   "property": "C88",
   "status": "proved",
   "theorems": [
    "Gpgpdump.C88_success",
    "Gpgpdump.C88_failure",
    "Gpgpdump.C88_ends",
    "Gpgpdump.C88_debug",
    "Gpgpdump.C88_debug_output",
    "Gpgpdump.C88_armor",
    "Gpgpdump.C88_example"
   ],
   "note": "Composition of C02, C45, C60, C74 and C83. Succeeds is stated with the relations of these claims, not with the program. Assumed (Usual): readers do not return octets together with their final error, decoders do not report the internal errors of the model, and the armor decoder ends with io.EOF itself or another error; the last is proved for the decoder of x/crypto (C88_armor). Panics are part of the other cases: Execute recovers them. Stack overflow and lack of memory are not modelled."
  },
  {
   "property": "C89",
   "status": "proved",
   "theorems": [
    "Gpgpdump.C89_saved",
    "Gpgpdump.C89_armored",
    "Gpgpdump.C89_damaged",
    "Gpgpdump.C89_example",
    "Gpgpdump.C89_example_armored",
    "Gpgpdump.C89_example_damaged",
    "Gpgpdump.C89_needs_armor"
   ],
   "note": "Composition of C07, C34, C67, C68 and C83 to whole runs. C89_saved covers debug and failing dumps too; standard output has to behave the same in both runs. C89_needs_armor: an answer in binary is refused by hkp, while what hkp --raw wrote is dumped without --armor. C89_armored is stated for the flags without --armor on both sides, since --armor refuses the binary file. C89_damaged is without --debug (with it the status is 0, C88_debug)."
  },
  {
   "property": "C90",
   "status": "proved",
   "theorems": [
    "Gpgpdump.C90_status",
    "Gpgpdump.C90_silent",
    "Gpgpdump.C90_help",
    "Gpgpdump.C90_version",
    "Gpgpdump.C90_panic",
    "Gpgpdump.C90_debug",
    "Gpgpdump.C90_example"
   ],
   "note": "The kind of text is modelled, not the text. That cobra prints Error: and the message for every error that RunE or the arguments give (SilenceErrors is not set) is taken from its source. What is meant is that the text is written; whether standard error takes it is a parameter. C90_debug: a failure with --debug cannot be seen in the status nor on standard error, only on standard output."
  },
  {
   "property": "C91",
   "status": "proved",
   "theorems": [
    "Gpgpdump.C91_ends",
    "Gpgpdump.C91_cycle",
    "Gpgpdump.C91_shown",
    "Gpgpdump.C91_versions",
    "Gpgpdump.C91_tree",
    "Gpgpdump.C91_copies",
    "Gpgpdump.C91_example"
   ],
   "note": "ptrEncoder and sliceEncoder of encoding/json are modelled with their level counter and the set of pointers seen; C91_versions: whether slices are counted too, which depends on the version, makes no difference. The strings of the items are valid UTF-8 and the slice of an item is its own (as Add leaves it). C91_tree and C91_copies connect the heap with the trees of which C30 and C75 speak. Contrast C77_ends: ToString does not end on a cycle."
  },
  {
   "property": "C92",
   "status": "proved",
   "theorems": [
    "Gpgpdump.C92_text",
    "Gpgpdump.C92_form",
    "Gpgpdump.C92_result",
    "Gpgpdump.C92_process",
    "Gpgpdump.C92_packets",
    "Gpgpdump.C92_example"
   ],
   "note": "Extends C75_tool, where --json and --indent are the same in both runs, to any two command lines, and C16 to the process. Without --debug for C92_process; with --debug C88_debug_output says that the display is what is written. Conditions on the environment: Usual (C88), and the texts of times and days have no control characters and no parentheses (CleanX, TimeX as in C75)."
  },
  {
   "property": "C93",
   "status": "proved",
   "theorems": [
    "Gpgpdump.C93_cut",
    "Gpgpdump.C93_success",
    "Gpgpdump.C93_reported",
    "Gpgpdump.C93_debug",
    "Gpgpdump.C93_example",
    "Gpgpdump.C93_debug_example"
   ],
   "note": "Removes the condition of C88 that standard output takes what is written. Standard output is a function from the octets offered to the number taken and an error; offering nothing (io.Copy then makes no call) has no error. C93_debug_example: with --debug a dump cut after ten octets ends with status 0."
  },
  {
   "property": "C94",
   "status": "proved",
   "theorems": [
    "Gpgpdump.C94_inside",
    "Gpgpdump.C94_chain",
    "Gpgpdump.C94_recursion",
    "Gpgpdump.C94_levels",
    "Gpgpdump.C94_size",
    "Gpgpdump.C94_json",
    "Gpgpdump.C94_reached"
   ],
   "note": "C94_reached: 4095 deep and 12286 levels exist, so the bounds are of the right order. C94_recursion and C94_levels hold whatever the environment is; a nil context is included in C94_levels and C94_size, not in C94_recursion (with it the parser can end earlier, by the panic of C61). C30_unwritable shows what happens above 5000 levels."
  },
  {
   "property": "C95",
   "status": "proved",
   "theorems": [
    "Gpgpdump.C95_panics",
    "Gpgpdump.C95_nil",
    "Gpgpdump.C95_date",
    "Gpgpdump.C95_items",
    "Gpgpdump.C95_mpi",
    "Gpgpdump.C95_version",
    "Gpgpdump.C95_fname",
    "Gpgpdump.C95_readers",
    "Gpgpdump.C95_others",
    "Gpgpdump.C95_made"
   ],
   "note": "The identifiers of algorithms, object identifiers and salts are numbers and slices without pointers: their items are those of the display table of C62. The local time and the text of a duration are parameters here as there, see C79 for the time zone."
  },
  {
   "property": "C96",
   "status": "proved",
   "theorems": [
    "Gpgpdump.C96_fresh",
    "Gpgpdump.C96_shown",
    "Gpgpdump.C96_errors",
    "Gpgpdump.C96_panics",
    "Gpgpdump.C96_history",
    "Gpgpdump.C96_s2k",
    "Gpgpdump.C96_s2k_history",
    "Gpgpdump.C96_s2k_nil"
   ],
   "note": "C96_fresh: the methods on a new object are what the parsers of packets call, so the theorems on packets (C05, C62, C72) speak of the same functions. The reader and the Pubkey are not nil. C96_shown and C96_errors need a context, C96_history and C96_panics hold for a nil context too."
  },
  {
   "property": "C97",
   "status": "proved",
   "theorems": [
    "Gpgpdump.C97_fresh",
    "Gpgpdump.C97_history",
    "Gpgpdump.C97_used_up",
    "Gpgpdump.C97_successes",
    "Gpgpdump.C97_item",
    "Gpgpdump.C97_example",
    "Gpgpdump.C97_example_image",
    "Gpgpdump.C97_cut",
    "Gpgpdump.C97_cut_example",
    "Gpgpdump.C97_image",
    "Gpgpdump.C97_image_example",
    "Gpgpdump.C97_outcome",
    "Gpgpdump.C97_outcome_example"
   ],
   "note": "C97_fresh and C97_item hold for all types. C97_history leaves out the image attribute, which shows the size of the whole contents minus the header length (C97_example_image) and has its own theorem C97_image, and the key block, whose reader is handed to NewPackets. C97_cut gives the item that comes with an error, of a new subpacket; with C97_history also that of later calls. C97_outcome says for every subpacket whether the first Parse succeeds, which error it gives and when it panics, in the grammars of C56, C59, C61 and C63. C97_used_up needs a context: with a nil one types 3 and 9 panic."
  },
  {
   "property": "C98",
   "status": "proved",
   "theorems": [
    "Gpgpdump.C98_item",
    "Gpgpdump.C98_fresh",
    "Gpgpdump.C98_outcome",
    "Gpgpdump.C98_history",
    "Gpgpdump.C98_example",
    "Gpgpdump.C98_cut",
    "Gpgpdump.C98_display",
    "Gpgpdump.C98_cut_signature",
    "Gpgpdump.C98_cut_key",
    "Gpgpdump.C98_cut_secret",
    "Gpgpdump.C98_cut_example",
    "Gpgpdump.C98_full",
    "Gpgpdump.C98_context",
    "Gpgpdump.C98_cut_history",
    "Gpgpdump.C98_cut_history_unique",
    "Gpgpdump.C98_full_example",
    "Gpgpdump.C98_memory",
    "Gpgpdump.C98_options",
    "Gpgpdump.C98_memory_example",
    "Gpgpdump.C98_cut_unique",
    "Gpgpdump.C98_cut_context",
    "Gpgpdump.C98_cut_context_example"
   ],
   "note": "A nil op, on which NewTag panics, is not modelled. C98_outcome, C98_display and C98_cut need OwnErrors, as C63 does. C98_cut gives the rows with an error for every tag. C98_cut_unique says that they are determined by tag and contents, for every tag but 2: the rows of a signature also show what the remembered creation times say (C98_cut_context_example). C98_cut_history gives them with these times and C98_cut_history_unique says that with these they are determined. C98_full is an equivalence; it needs Consistent, as C62 does. C98_memory gives the context after every outcome, for every tag but 2; for a signature with an error only the options are shown to stay (C98_options)."
  }
 ]
}
