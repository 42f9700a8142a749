{"id": "C01", "title": "Parsing never panics", "statement": "For every input, every option setting and a non-nil context, Parser.Parse returns a result and an error value; it does not panic.", "quantifier": "every byte string, every option set, every decompressor/clock behaviour", "why_tests_cant": "A panic depends on which of infinitely many byte strings is supplied; tests only exercise recorded packets.", "anchors": ["parse/parse.go:Parser.Parse", "parse/tags/*.go", "parse/tags/seckey.go:getField2", "parse/pubkey/parse_secplain.go:ParseSecPlain", "parse/reader/reader.go:ReadBytes"]}
{"id": "C02", "title": "Parsing always terminates", "statement": "Parse terminates on every input; the mutual recursion signature -> embedded signature / key block -> packet -> signature only ever descends into strictly shorter byte strings, so its depth is bounded by the packet length.", "quantifier": "every byte string, however deeply signatures and key blocks are nested", "why_tests_cant": "Nesting depth and length are unbounded; a test sees one depth.", "anchors": ["parse/parse.go:Parser.Parse", "parse/tags/sub32.go:Parse", "parse/tags/sub38.go:parseKeyData", "parse/tags/tag02.go:Parse"]}
{"id": "C03", "title": "Packets before an error are kept; parsing is compositional", "statement": "Parsing a++b, where a is a complete packet sequence, gives the items of a followed by what parsing b from the context left by a gives, with b's error; in particular everything parsed before an error is in the returned Info.", "quantifier": "every complete packet sequence a and every byte string b, every starting context", "why_tests_cant": "Quantifies over all prefixes/suffixes and the hidden context state carried between packets.", "anchors": ["parse/parse.go:Parser.Parse", "parse/tags/packets.go:Next", "parse/result/result.go:Info.Add"]}
{"id": "C04", "title": "Truncated packets are always reported", "statement": "If the input ends strictly inside a definite- or partial-length packet (header or body), Parse returns a non-nil error.", "quantifier": "every packet sequence, every cut point that is not a packet boundary", "why_tests_cant": "All cut points of all packets; a single silent cut would look like a clean end of file.", "anchors": ["parse/parse.go:Parser.Parse", "parse/tags/packets.go:Next"]}
{"id": "C05", "title": "Success means the input is exactly a packet sequence, one item each", "statement": "If Parse returns a nil error the input is a concatenation of well-formed RFC 4880 packets, the result has exactly one top-level item per packet, in order, and item k is headed by the name and number of packet k's tag with note '<n> bytes' where n is its body length.", "quantifier": "every byte string accepted by Parse", "why_tests_cant": "Needs a statement about all accepted inputs against an independent packet grammar.", "anchors": ["parse/parse.go:Parser.Parse", "parse/tags/packets.go", "parse/values/tagid.go:ToItem"]}
{"id": "C06", "title": "Length encoding does not matter", "statement": "The same tag and body produce the same item whichever legal header encoding carries them: old format 1/2/4-octet lengths, new format 1/2/5-octet lengths, or any split into partial-length chunks.", "quantifier": "every tag, body and legal encoding, including every partial-length split", "why_tests_cant": "The number of encodings (partial splits) is unbounded.", "anchors": ["parse/tags/packets.go:Next"]}
{"id": "C07", "title": "Result does not depend on how the source delivers bytes", "statement": "The result of parsing depends only on the bytes (and final error) a source delivers, not on how its Read calls split them.", "quantifier": "every byte string and every schedule of short reads", "why_tests_cant": "Schedules of short reads are unbounded and not controlled by tests.", "anchors": ["parse/parser.go:New", "parse/tags/packets.go:Next", "armtext/armtext.go:Get"]}
{"id": "C08", "title": "I/O errors of the source are reported", "statement": "If reading the source fails with an error other than end-of-file, New or Parse reports an error.", "quantifier": "every prefix delivered before the failure, every option set", "why_tests_cant": "Crash point of the source is arbitrary.", "anchors": ["parse/parser.go:New", "armtext/armtext.go:Get"]}
{"id": "C09", "title": "Sequential reads return consecutive octets", "statement": "Reader.ReadBytes(n) with n>=0 (and offset+n representable as int64, see C55) either returns exactly the next n octets and advances by n, or fails (EOF if nothing is left, ErrUnexpectedEOF if fewer than n are left) without moving; any split of a read into consecutive reads yields the same octets; Read2EOF returns exactly the rest.", "quantifier": "every buffer, every history of reads and seeks", "why_tests_cant": "History property over arbitrary interleavings of operations.", "anchors": ["parse/reader/reader.go"]}
{"id": "C10", "title": "Seek never leaves the buffer", "statement": "Seek succeeds exactly when the target is within 0..size, then moves exactly there; otherwise it returns an error and the position is unchanged. After any history of reads and seeks (without Read2EOF) the offset is within the buffer.", "quantifier": "every buffer, offset, whence and history", "why_tests_cant": "Invariant over all histories.", "anchors": ["parse/reader/reader.go:Seek", "parse/reader/reader.go:ReadBytes"]}
{"id": "C11", "title": "Hex dumps are faithful", "statement": "The dump string of a byte string is lower-case two-digit hex separated by single spaces and determines the bytes (different bytes give different dumps); dumping never moves the read position.", "quantifier": "every byte string and offset", "why_tests_cant": "Injectivity over all byte strings.", "anchors": ["parse/reader/reader.go:DumpString", "parse/values/dump.go"]}
{"id": "C12", "title": "Options only affect how much is shown", "statement": "Apart from ARMOR (input selection), options never change whether parsing succeeds, the error, the number, order, names, or notes/values of items: two runs that differ only in CERT/DEBUG/GDUMP/INTEGER/LITERAL/MARKER/PRIVATE produce trees equal up to dump strings.", "quantifier": "every input, every pair of option sets, every starting context", "why_tests_cant": "Two-run (relational) property over all inputs.", "anchors": ["parse/context/context.go", "parse/tags/*.go", "parse/pubkey/*.go", "parse/values/*.go"]}
{"id": "C13", "title": "Key material integers are not shown without INTEGER", "statement": "Without INTEGER and DEBUG, the item of a public-key, signature or session-key packet does not depend on the octets of its multi-precision integers beyond their bit lengths (and, for EC points, the leading format octet).", "quantifier": "every pair of packets with the same integer lengths", "why_tests_cant": "Non-interference: a relational property over all pairs of secrets.", "anchors": ["parse/values/mpi.go:ToItem", "parse/pubkey/*.go"]}
{"id": "C14", "title": "Literal data is not shown without LITERAL", "statement": "Without LITERAL and DEBUG, the item of a literal data packet does not depend on the octets of the literal data, only on its length.", "quantifier": "every pair of literal packets with the same header and data length", "why_tests_cant": "Non-interference over all contents.", "anchors": ["parse/tags/tag11.go:Parse", "parse/values/literal.go:RawData"]}
{"id": "C15", "title": "Marker, private, attested and encrypted contents are gated by their option", "statement": "Without the option (MARKER, PRIVATE, CERT, DEBUG respectively) the items of marker packets, private packets (60-63), attested-certification subpackets, symmetrically encrypted data (9, 18), MDC and encrypted secret-key material depend on the payload only through its length; with the option the complete payload is in the dump.", "quantifier": "every payload, every option set", "why_tests_cant": "Non-interference plus completeness over all contents.", "anchors": ["parse/tags/tag10.go", "parse/tags/tagPrivate.go", "parse/tags/sub37.go", "parse/tags/tag09.go", "parse/tags/tag18.go", "parse/tags/tag19.go", "parse/pubkey/parse_secenc.go"]}
{"id": "C16", "title": "DEBUG output is lossless at packet level", "statement": "With DEBUG every top-level item's dump is the hex of the complete packet body, so the packet bodies (hence the packet stream up to length encoding) can be reconstructed from the output.", "quantifier": "every accepted input", "why_tests_cant": "Round trip over all inputs.", "anchors": ["parse/values/tagid.go:ToItem", "parse/tags/tags.go:ToItem"]}
{"id": "C17", "title": "Encrypted data names the right session-key source", "statement": "The text shown for a symmetrically encrypted data packet (tag 9/18) says 'sym-key' / 'pub-key' / neither exactly according to the last session-key packet (tag 3 / tag 1) seen since the previous tag 9/18 packet or the start.", "quantifier": "every sequence of packets (any length), other packets in between", "why_tests_cant": "History property over unbounded packet sequences.", "anchors": ["parse/context/symalgmode.go", "parse/tags/tag01.go", "parse/tags/tag03.go", "parse/tags/tag09.go", "parse/tags/tag18.go"]}
{"id": "C18", "title": "Shown expiry date is creation time plus validity", "statement": "When an expiration subpacket is shown with an end date, that date is the creation time plus the validity period.", "quantifier": "every creation time and validity period (32-bit values)", "why_tests_cant": "All 2^64 pairs; overflow happens only for some.", "anchors": ["parse/values/expire.go:ToItem"]}
{"id": "C19", "title": "Expiry is computed from the right creation time", "statement": "A key expiration subpacket is shown with an end date exactly when a key packet precedes it (and the date is relative to the most recent one).", "quantifier": "every packet history", "why_tests_cant": "Hidden mutable context threaded through unbounded histories.", "anchors": ["parse/tags/sub03.go", "parse/tags/sub09.go", "parse/tags/sub02.go", "parse/tags/pubkey.go", "parse/context/context.go"]}
{"id": "C20", "title": "Compressed packets are expanded one level", "statement": "When the data of a compressed packet decompresses (below the limit) to a complete packet sequence, the packet's item consists of its own fields followed by exactly one item per inner packet, equal to the item that packet would have on its own (inner compressed packets are not expanded again); an inner error makes Parse fail.", "quantifier": "every decompressor behaviour and every inner packet sequence", "why_tests_cant": "Unbounded inner sequences and arbitrary codec results.", "anchors": ["parse/tags/Tag08.go", "parse/tags/packets.go:Parse"]}
{"id": "C21", "title": "Decompression is capped at 1 GiB", "statement": "If decompression yields 1 GiB or more, nothing of it is parsed, the packet is flagged '<too laege decompressed data>' and parsing continues with the next packet without error; never more than 1 GiB of decompressed data is kept.", "quantifier": "every decompressor output, including infinite ones", "why_tests_cant": "Cannot run decompression bombs of every size.", "anchors": ["parse/tags/Tag08.go:copyFrom", "parse/tags/Tag08.go:Parse"]}
{"id": "C22", "title": "Unknown packets are tolerated", "statement": "A packet with a tag the tool does not know yields one header-only item, no error, and leaves all context state unchanged.", "quantifier": "every unknown tag, body, option set and context", "why_tests_cant": "All bodies.", "anchors": ["parse/tags/tagUnknown.go", "parse/tags/tags.go:NewTag"]}
{"id": "C23", "title": "Unknown subpackets are tolerated and critical ones marked", "statement": "A subpacket with an unknown or reserved type yields one header item, no error and no context change, and its name carries '<critical>' exactly when bit 7 of the type is set.", "quantifier": "every subpacket type octet and body", "why_tests_cant": "All type octets and bodies.", "anchors": ["parse/tags/subReserved.go", "parse/tags/subs.go:NewSubs", "parse/values/subpacketid.go:String"]}
{"id": "C24", "title": "Subpacket areas are split exactly", "statement": "A subpacket area is accepted by the splitter iff it is a concatenation of length-prefixed subpackets (1-, 2- or 5-octet lengths, each of length >= 1); the shown area then has one item per subpacket in order, and no octet of the area is skipped or used twice.", "quantifier": "every octet string as subpacket area", "why_tests_cant": "Grammar equivalence over all strings.", "anchors": ["parse/tags/subParser.go:newSubparser", "parse/tags/subParser.go:Parse"]}
{"id": "C25", "title": "Embedded signatures are shown like stand-alone ones", "statement": "The item inside an embedded-signature subpacket equals the item that a stand-alone signature packet with the same body would have in the same context, at any nesting depth.", "quantifier": "every signature body, context and nesting depth", "why_tests_cant": "Unbounded nesting.", "anchors": ["parse/tags/sub32.go:Parse", "parse/tags/tag02.go:Parse"]}
{"id": "C26", "title": "Truncated key blocks are reported", "statement": "A key-block subpacket whose key data ends inside a packet makes parsing fail, as it does at top level.", "quantifier": "every key data octet string and cut point", "why_tests_cant": "All cut points; depends on error wrapping and read sizes.", "anchors": ["parse/tags/sub38.go:parseKeyData", "parse/reader/reader.go:Read"]}
{"id": "C27", "title": "Text fields are escaped or dumped", "statement": "User IDs, file names, notation texts, URIs and reasons are shown as text exactly when they are valid UTF-8, with every control character replaced by (U+XXXX) and everything else unchanged; otherwise only a hex dump is shown. No text value ever contains a control character.", "quantifier": "every octet string", "why_tests_cant": "All byte strings, including malicious terminal escapes.", "anchors": ["parse/values/literal.go:Text.ToItem"]}
{"id": "C28", "title": "Output is free of control characters", "statement": "No item field of any result contains a control character, so input cannot forge output lines or send terminal escapes.", "quantifier": "every input, every option set", "why_tests_cant": "Injection resistance must hold for every input.", "anchors": ["parse/values/*.go", "parse/result/result.go:toString"]}
{"id": "C29", "title": "Text rendering is faithful to the tree", "statement": "The text output has one line per item plus one per dump, in pre-order, indented by the depth; for fields without line breaks or leading indentation the rendering determines the tree (different trees render differently).", "quantifier": "every tree of items", "why_tests_cant": "Injectivity over all trees.", "anchors": ["parse/result/result.go:toString", "parse/result/result.go:ToString"]}
{"id": "C30", "title": "JSON output is faithful", "statement": "The JSON output of a result decodes to a tree equal to the result; it is always syntactically valid, whatever characters are in the fields.", "quantifier": "every tree of items with arbitrary strings, every indent", "why_tests_cant": "Round trip over all trees and strings.", "anchors": ["parse/result/result.go:JSON", "facade/facade.go:marshalPacketInfo"]}
{"id": "C31", "title": "Option laws", "statement": "After any sequence of Set calls, Get(code) is the last value set for that code (false if never set); unknown codes change nothing; CERT, GDUMP, INTEGER, LITERAL, MARKER and PRIVATE are reported true iff set or DEBUG is set; ARMOR, DEBUG and UTC are not implied by anything.", "quantifier": "every history of Set/SetByString calls", "why_tests_cant": "Unbounded histories.", "anchors": ["parse/context/context.go", "parse/context/options.go"]}
{"id": "C32", "title": "Option names", "statement": "GetOptCode inverts OptCode.String on all real options, ignores letter case as defined by Unicode's simple lower-case mapping (which takes U+212A for a k and U+0130 for an i), and returns UNKNOWN for any other string.", "quantifier": "every string", "why_tests_cant": "All strings.", "anchors": ["parse/context/options.go:GetOptCode"]}
{"id": "C33", "title": "Armor extraction finds exactly the first armor block", "statement": "armtext.Get returns precisely the lines from the first line that starts with '-----BEGIN PGP' (but not '-----BEGIN PGP SIGNED') to the next line starting with '-----END PGP'; text before and after is irrelevant; if either line is missing it returns ErrArmorText.", "quantifier": "every sequence of lines", "why_tests_cant": "All surrounding texts.", "anchors": ["armtext/armtext.go:Get"]}
{"id": "C34", "title": "Binary input is parsed verbatim", "statement": "Without the ARMOR option, input that contains no armor block is parsed exactly as given, octet for octet.", "quantifier": "every octet string without an armor block", "why_tests_cant": "All binary inputs; depends on scanner limits.", "anchors": ["parse/parser.go:New", "armtext/armtext.go:Get"]}
{"id": "C35", "title": "Armored and binary input give the same dump", "statement": "Parsing text whose armor block decodes to bytes b gives the same result as parsing b as binary, with and without the ARMOR option.", "quantifier": "every b, every surrounding text", "why_tests_cant": "All inputs.", "anchors": ["parse/parser.go:New", "parse/parser.go:newReaderArmor"]}
{"id": "C36", "title": "Multi-precision integers consume exactly their declared length", "statement": "Reading an MPI with declared bit length n consumes exactly 2+ceil(n/8) octets and succeeds iff that many are available; it shows n bits and, with INTEGER, exactly those octets.", "quantifier": "every buffer and position", "why_tests_cant": "All lengths and buffers.", "anchors": ["parse/values/mpi.go:NewMPI"]}
{"id": "C37", "title": "Key IDs are shown unambiguously", "statement": "A key ID is shown as 0x followed by exactly 16 hex digits, and different key IDs are shown differently.", "quantifier": "every 8-octet key ID", "why_tests_cant": "2^64 values.", "anchors": ["parse/values/keyid.go"]}
{"id": "C38", "title": "S2K iteration count follows RFC 4880", "statement": "The shown S2K count is (16 + (c and 15)) * 2^((c >> 4) + 6) for every octet c, without overflow, and is strictly increasing in c.", "quantifier": "every octet c", "why_tests_cant": "Arithmetic on fixed-width integers over the whole range; strict monotonicity is a statement about all pairs.", "anchors": ["parse/values/s2kid.go:Stretch.ToItem"]}
{"id": "C39", "title": "AEAD chunk size follows the draft", "statement": "The shown AEAD chunk size is 2^(c+6) for the chunk-size octet c.", "quantifier": "every octet c", "why_tests_cant": "Overflow only for part of the range.", "anchors": ["parse/tags/tag20.go:Parse"]}
{"id": "C40", "title": "Truncated signatures are reported", "statement": "A signature packet whose body ends before its last required field makes Parse return an error.", "quantifier": "every signature body and cut point, versions 3, 4 and 5", "why_tests_cant": "All cut points of all signatures.", "anchors": ["parse/tags/tag02.go:Parse", "parse/tags/tag02.go:parseV3", "parse/tags/tag02.go:parseV4"]}
{"id": "C41", "title": "Truncated AEAD packets are reported", "statement": "An AEAD encrypted data packet that ends before its initialization vector is complete makes Parse return an error.", "quantifier": "every tag 20 body", "why_tests_cant": "All cut points.", "anchors": ["parse/tags/tag20.go:Parse", "parse/tags/tag20.go:iv"]}
{"id": "C42", "title": "No octet of a fixed-layout packet is dropped silently", "statement": "For session-key, one-pass signature, signature, key and literal packets that parse, the octets consumed by the shown fields plus the '<n> bytes' of the trailing data item add up to the body length.", "quantifier": "every body", "why_tests_cant": "Accounting over all bodies.", "anchors": ["parse/tags/tag01.go", "parse/tags/tag04.go", "parse/tags/tag11.go", "parse/values/literal.go:RawData"]}
{"id": "C43", "title": "Version labels are exclusive and correct", "statement": "A version octet is labelled 'old', 'current', 'draft' or 'unknown' by exactly one rule: below the current version, equal to it, equal to the draft version (if one exists), anything else.", "quantifier": "every version octet and every current/draft pair", "why_tests_cant": "All octet triples.", "anchors": ["parse/values/version.go"]}
{"id": "C44", "title": "GitHub key lookup", "statement": "GetKey with a key ID asks for pages 1,2,3,... in order, stops at the first page containing a key whose ID equals the requested one up to letter case and an optional 0x prefix and returns that key's text; if a page with fewer than 100 keys is reached first it returns ErrNoKey; any page error is returned.", "quantifier": "every sequence of API pages and every key ID string", "why_tests_cant": "Unbounded number of pages.", "anchors": ["github/github.go:GetKey"]}
{"id": "C45", "title": "Exit status and standard output reflect the outcome", "statement": "Without --debug, if parsing fails nothing is written to standard output and the exit code is abnormal; if it succeeds standard output is exactly the rendered result and the exit code is normal; a panic is turned into an abnormal exit code.", "quantifier": "every input, flags and outcome", "why_tests_cant": "All outcomes of all stages.", "anchors": ["facade/facade.go:Execute", "facade/facade.go:newRootCmd", "facade/debug.go:debugPrint"]}
{"id": "C46", "title": "Key server queries cannot be altered by the user ID", "statement": "The URL requested from a key server has the scheme of the protocol, host:port, path /pks/lookup and a query that decodes to exactly op=get and search=<user ID>, whatever characters the user ID contains.", "quantifier": "every user ID string", "why_tests_cant": "Injection resistance over all strings.", "anchors": ["hkp/hkp.go:Fetch", "hkp/hkp.go:URL"]}
{"id": "C47", "title": "Parsing does not modify options", "statement": "No input makes Parse change the option settings of the context it was given.", "quantifier": "every input and context", "why_tests_cant": "Invariant over all executions.", "anchors": ["parse/context/context.go", "parse/tags/*.go"]}
{"id": "C48", "title": "Flag octets are shown completely", "statement": "For key flags, features and key server preferences, each set bit is accounted for by a shown flag item and no item is shown for a clear bit; unknown octets are numbered by their position.", "quantifier": "every flag octet string", "why_tests_cant": "All octet strings.", "anchors": ["parse/tags/sub27.go", "parse/tags/sub30.go", "parse/tags/sub23.go", "parse/values/misc.go:Flag2Item"]}
{"id": "C49", "title": "Results do not depend on Go map iteration order", "statement": "Curve-name and option-name lookups iterate over Go maps; their result is the same for every iteration order.", "quantifier": "every permutation of the map entries and every key", "why_tests_cant": "Map iteration order is an uncontrolled schedule.", "anchors": ["parse/values/ecc.go:OID.String", "parse/context/options.go:GetOptCode"]}
{"id": "C50", "title": "UTC time stamps are exact", "statement": "With the UTC option a 32-bit time stamp is shown as the RFC 3339 calendar date and time of that second; different time stamps are shown differently and the shown date is a real calendar date.", "quantifier": "every 32-bit time stamp", "why_tests_cant": "2^32 values, leap-year rules.", "anchors": ["parse/values/datetime.go:unixtime2RFC3339"]}
{"id": "C51", "title": "Image attribute size", "statement": "The number of image data bytes shown for an image attribute subpacket is the number of octets after the image header.", "quantifier": "every image attribute subpacket", "why_tests_cant": "All header lengths.", "anchors": ["parse/tags/sub01.go:Parse"]}
{"id": "C52", "title": "A nil context behaves like a context without options", "statement": "All option getters accept a nil context and New accepts one; parsing with a nil context gives the same outcome as with a fresh empty context.", "quantifier": "every input", "why_tests_cant": "Fails only for inputs that touch the shared state.", "anchors": ["parse/context/context.go", "parse/tags/tag01.go", "parse/tags/tag03.go", "parse/tags/pubkey.go"]}
{"id": "C53", "title": "A fresh context makes parsing deterministic; reusing one may not", "statement": "With a fresh context the result is a function of the options and the bytes; parsing the same bytes twice with the same (reused) context gives the same result.", "quantifier": "every input, every history of earlier parses with the same context", "why_tests_cant": "History of earlier parses.", "anchors": ["parse/context/context.go", "parse/parser.go:New"]}
{"id": "C54", "title": "Output size is bounded by the input", "statement": "Without compressed packets the number of items in the result is at most a fixed constant times the number of input octets.", "quantifier": "every input without compressed packets", "why_tests_cant": "Denial-of-service bound over all inputs.", "anchors": ["parse/tags/*.go", "parse/result/result.go"]}
{"id": "C55", "title": "Reads of any non-negative size are safe", "statement": "Reader.ReadBytes(n) with any n>=0 returns octets or an error; it does not panic, however large n is.", "quantifier": "every buffer, every offset, every int64 size n >= 0", "why_tests_cant": "Only sizes near 2^63 make offset+size wrap around.", "anchors": ["parse/reader/reader.go:ReadBytes"]}
{"id": "C56", "title": "Parse succeeds exactly on the packets of a grammar", "statement": "Without armor and with a source that ends with EOF, Parse returns no error exactly if the input is a sequence of packets (RFC 4880 framing) each of which has the fields of its type as listed in an explicit grammar of octets: numbers of integers per algorithm, sizes of key IDs, times, S2K specifiers and initialization vectors, subpacket lengths, nested signatures, key blocks and compressed data. Nothing else about the input (values, reserved numbers, options) leads to an error.", "quantifier": "every input, every option set, every chunking of the source, every decompressor", "why_tests_cant": "The claim excludes every other reason for an error on all inputs; a test suite only shows single accepted or rejected inputs.", "anchors": ["parse/tags/tags.go", "parse/tags/tag01.go", "parse/tags/tag02.go", "parse/tags/tag03.go", "parse/tags/tag05.go", "parse/tags/tag17.go", "parse/pubkey/pubkey.go", "parse/s2k/s2k.go", "parse/parse.go:Parse"]}
{"id": "C57", "title": "Each packet is displayed field by field as laid down", "statement": "If Parse returns no error (no armor, source ends with EOF), the result has one item per packet of the input, in order, and each item is the one an explicit table gives for the packet: heading, then every field in the order of the octets under its own label with its value, note and dump (dumps only if an option asks for them), nested subpackets, embedded signatures, key blocks and unpacked data included. If Parse fails, the packets in the result are the displays of the first packets of the input.", "quantifier": "every input, every option set, every chunking of the source, every decompressor", "why_tests_cant": "A swapped label, a wrong offset or a missing field shows only for particular versions, algorithms, lengths and nestings; the table fixes the output for all of them.", "anchors": ["parse/tags", "parse/tags/tag02.go", "parse/tags/sub02.go", "parse/tags/tag17.go", "parse/pubkey", "parse/s2k", "parse/values", "parse/parse.go:Parse"]}
{"id": "C58", "title": "Registry names", "statement": "For every identifier octet of the public-key, symmetric, hash, AEAD, compression and string-to-key algorithms, signature types, packet types, subpacket types, literal formats, and every curve OID, the item shows the name the registry of RFC 4880 (and the draft) has for it, private/experimental or unknown for the others, and the number; two different identifiers of one registry are never shown with the same text.", "quantifier": "every octet, every OID, every option set", "why_tests_cant": "A table test repeats the table for the numbers somebody thought of; the claim includes the unassigned, private and critical numbers and that no two are confused.", "anchors": ["parse/values/pubid.go", "parse/values/symid.go", "parse/values/hashid.go", "parse/values/aeadid.go", "parse/values/compid.go", "parse/values/s2kid.go", "parse/values/sigid.go", "parse/values/tagid.go", "parse/values/subpacketid.go", "parse/values/ecc.go", "parse/values/literal.go"]}
{"id": "C59", "title": "The inputs that crash the tool, exactly", "statement": "With a non-nil context and a source that ends with EOF, Parse panics exactly if the input starts with accepted packets followed by one that holds a secret key of one of two kinds: unencrypted material of an unknown public-key algorithm with exactly one octet left, or a version 5 key with less than four octets left for the length of its material; directly, in a key block or embedded signature of a signature whose subpackets before it are accepted, or in the decompressed data of a compressed packet. On every other input it returns, without an error exactly if the input is a sequence of accepted packets (C56), and with a real error otherwise.", "quantifier": "every input, every option set, every chunking of the source, every decompressor", "why_tests_cant": "That there are no other crashing inputs is a statement about all byte strings; which of them crash depends on what the packets before contain and on where in a nesting the key stands.", "anchors": ["parse/parse.go:Parse", "parse/pubkey/parse_secplain.go:ParseSecPlain", "parse/tags/seckey.go", "parse/tags/tag02.go", "parse/tags/sub38.go", "parse/tags/sub32.go", "parse/reader/reader.go:ReadBytes"]}
{"id": "C60", "title": "From the input to standard output and exit code", "statement": "For every command that dumps (root with stdin, file or clipboard; hkp; github; fetch) and every input: the octets read are those of its armor block if there is one that decodes, else, if armor is not required, the input itself up to an overlong line. If they are a sequence of packets of the acceptance grammar, standard output is exactly the rendering of the rows the display table gives for these packets under the flags, and the exit code is normal; otherwise (no armor where it is required, a corrupt armor block, rejected packets, a crash of the parser) nothing is written and the exit code is abnormal.", "quantifier": "every input, delivery, flag setting without --debug and command; standard output that takes everything; text or unindented JSON", "why_tests_cant": "It fixes the observable behaviour of the whole tool for all inputs at once, including how input selection, grammar, display and rendering fit together.", "anchors": ["facade/facade.go", "facade/hkp.go", "facade/github.go", "facade/fetch.go", "parse/parser.go:New", "parse/parse.go:Parse", "parse/result/result.go"]}
{"id": "C61", "title": "Parsing without a context fails exactly on packets that need one", "statement": "With a nil context, Parse stops with a nil pointer dereference exactly if the input begins with packets of the acceptance grammar followed by a packet that needs a context: session keys and encrypted data (tags 1, 3, 9, 18), a key of version 3 to 5 with a complete creation time, a signature of version 4 or 5 with a creation time or expiration subpacket before anything that is rejected (also inside embedded signatures and key blocks), or a compressed packet that unpacks to such a sequence. On every other input the packets and the error are those obtained with a fresh empty context.", "quantifier": "every input and every delivery of its octets", "why_tests_cant": "An equivalence over all inputs: it says both that these inputs crash and that no other does.", "anchors": ["parse/context/context.go", "parse/tags/tag01.go", "parse/tags/tag03.go", "parse/tags/tag09.go", "parse/tags/tag18.go", "parse/tags/sub02.go", "parse/pubkey/pubkey.go", "parse/parse.go:Parse"]}
{"id": "C62", "title": "Everything that is displayed, exactly", "statement": "There is one table, read over the packets in order with what has to be remembered from one to the next (source of the session key, creation times of the last key and signature), that fixes every item completely: names, values, notes, dumps, the dates of expiration times and the source of the session key, including embedded signatures, key blocks and compressed data. An input is displayed as a list of items without an error exactly if it is a sequence of packets for which the table gives these items. With or without an error, the items in the result are exactly those the table gives for the packets up to the first one that is not of the acceptance grammar. The table gives at most one list of items.", "quantifier": "every input, every delivery of its octets, every option setting and every context that comes from New and earlier calls", "why_tests_cant": "An equivalence between inputs and complete outputs for all inputs; tests compare single dumps.", "anchors": ["parse/parse.go:Parse", "parse/tags/tags.go", "parse/context/context.go", "parse/tags/sub02.go", "parse/values/datetime.go", "parse/pubkey/pubkey.go"]}
{"id": "C63", "title": "The error that is reported", "statement": "Parse returns an error with the root cause c exactly if the input is in a grammar, written in octets, of the inputs with that error: accepted packets, then a packet in which a named field cannot be read (io.EOF if nothing of it is left, io.ErrUnexpectedEOF if a part is left), a subpacket area that cannot be split, a compressed packet on which the decompressor fails, an octet without the first bit, or a packet cut off by the end of the input. The cause is unique, and every input is accepted, crashes the tool, or has an error, and only one of these.", "quantifier": "every octet string, every schedule of the source, every option set, every root cause", "why_tests_cant": "All inputs that are rejected, every position at which they can be cut, every nesting of signatures, key blocks and compressed data.", "anchors": ["parse/parse.go:Parse", "parse/reader/reader.go:ReadBytes", "parse/tags/packets.go:Parse", "parse/tags/tag02.go:Parse", "parse/tags/Tag08.go:Parse", "parse/tags/seckey.go:Parse", "parse/pubkey/parse_pub.go:ParsePub", "parse/s2k/s2k.go:Parse", "parse/values/mpi.go:NewMPI"]}
{"id": "C64", "title": "A source that fails, exactly", "statement": "If the source of the packets ends with an error that is not io.EOF, Parse displays, remembers and reports exactly what it does for the complete packets in front of the error alone; only if all of these are accepted the error of the source is reported instead of success (or, if the next octet cannot start a packet, that). An error that wraps io.EOF is taken for the end of the input, even inside a packet.", "quantifier": "every octet string delivered before the error, every error, every schedule, every option set", "why_tests_cant": "The position of the failure and the error are arbitrary.", "anchors": ["parse/parse.go:Parse", "parse/tags/packets.go:Next"]}
{"id": "C65", "title": "The complete outcome of New and Parse", "statement": "For every context and input one relation, stated in octets and lines, gives the packets that are displayed and whether the run succeeds, reports an error (and its root cause) or panics: an input that has to be armored and has no usable armor block is refused with a named cause; otherwise the packets of the armor block or of the octets are read, displayed up to the first that is not accepted, and the run ends as C56, C59, C63 and C64 say. The relation has one result for every input.", "quantifier": "every octet string, every error of the source, every schedule, every option set, every history of the context", "why_tests_cant": "It is a full characterisation; tests check single inputs.", "anchors": ["parse/parser.go:New", "parse/parser.go:newReaderArmor", "parse/parse.go:Parse", "armtext/armtext.go:Get"]}
{"id": "C66", "title": "ReadBytes, exactly", "statement": "For every size ReadBytes(size) panics exactly when octets are left and the size is negative or, added to the position, reaches 2^63; otherwise it returns exactly the next size octets and moves past them, or, when fewer are left, fails with io.EOF (none left) or io.ErrUnexpectedEOF and stays where it is.", "quantifier": "every buffer, every position, every int64 size", "why_tests_cant": "All sizes, including those that overflow when added to the position.", "anchors": ["parse/reader/reader.go:ReadBytes"]}
{"id": "C67", "title": "Armored input, end to end", "statement": "Text that contains an armored block as RFC 4880 defines it (header line, headers, blank line, base64 lines of at most 96 characters, optional checksum, tail) is dumped exactly as the octets the base64 stands for, whatever the text around it, the line ends, the headers, the way the base64 is broken into lines and the sizes of the reads. Every octet string has such a block. With the real decoder New and Parse have one outcome for every input.", "quantifier": "every octet string, every armored form of it, every surrounding text, every context, every schedule, every sequence of read sizes", "why_tests_cant": "All data, all line breaks and all read sizes; the decoder keeps state in three buffers.", "anchors": ["parse/parser.go:newReaderArmor", "parse/parser.go:New", "armtext/armtext.go:Get"]}
{"id": "C68", "title": "Damage to armored data is reported", "statement": "If the checksum of an armored block is not the CRC-24 (RFC 4880: remainder of a polynomial division) of its data, Parse returns an error, though the complete packets are displayed as ever; in particular after any change of the data within a burst of up to 24 bits. If nothing else is wrong the error is that of a corrupt armor.", "quantifier": "every armored block, every wrong checksum, every burst error of at most 24 bits, every context and schedule", "why_tests_cant": "All data and all error patterns; it rests on the algebra of the generator polynomial.", "anchors": ["parse/parser.go:newReaderArmor", "parse/parse.go:Parse"]}
{"id": "C69", "title": "Every history of calls on a Reader", "statement": "Whatever exported methods of a Reader (Read, ReadAt, ReadByte, ReadBytes, Read2EOF, Seek, WriteTo, Len, Size, Rest, GetBody, DumpString) are called in whatever order with whatever int64 arguments and whatever writer, every call returns exactly what an abstract machine with the given octets and one position returns: all or nothing reads, seeks within the buffer, WriteTo of the whole buffer with the position kept if the writer fails or is short, panics for negative and overflowing sizes and negative dump offsets only. The position leaves the buffer only by Read2EOF from the middle, and is never beyond twice the size.", "quantifier": "every buffer below 2^62 octets, every finite sequence of calls, every argument, every writer", "why_tests_cant": "All histories and all 64-bit arguments; the state depends on every earlier call.", "anchors": ["parse/reader/reader.go:Read", "parse/reader/reader.go:ReadAt", "parse/reader/reader.go:ReadByte", "parse/reader/reader.go:WriteTo", "parse/reader/reader.go:Seek", "parse/reader/reader.go:Rest", "parse/reader/reader.go:Read2EOF", "parse/reader/reader.go:GetBody", "parse/reader/reader.go:DumpString"]}
{"id": "C70", "title": "Every history of calls on a Context", "statement": "What any method of a Context returns after any calls is determined by the calls as follows: an option is on exactly if the last Set or SetByString (name in any letter case) that names it says so; CERT, GDUMP, INTEGER, LITERAL, MARKER, PRIVATE are also on while DEBUG is; String lists the nine options in order with these values; the mode is the one chosen last. On a nil pointer options are never on, setting them is ignored and the methods of the mode panic. On a zero value setting a known option panics.", "quantifier": "every finite sequence of calls, every code and name, for contexts made by New, nil pointers and zero values", "why_tests_cant": "All histories, all integers as codes and all strings as names.", "anchors": ["parse/context/context.go:New", "parse/context/context.go:Set", "parse/context/context.go:SetByString", "parse/context/context.go:Get", "parse/context/context.go:String", "parse/context/symalgmode.go:AlgMode", "parse/context/symalgmode.go:ResetAlg", "parse/context/symalgmode.go:String"]}
{"id": "C71", "title": "Notation of numbers and texts", "statement": "Numbers in the output are in ordinary decimal notation, identifiers and key IDs are 0x and lower-case hexadecimal digits padded to two and sixteen digits, dumps are two digits per octet separated by single blanks; no two numbers are written alike. Octets are read as numbers most significant first. A text field is shown as 0 byte if it is empty, dumped as an invalid text if it is not UTF-8, and otherwise shown character by character with control characters as (U+00XX).", "quantifier": "every number, every integer, every octet string, every text", "why_tests_cant": "All numbers and all octet strings, including every malformed UTF-8 sequence.", "anchors": ["parse/values/literal.go:ToItem", "parse/values/dump.go:DumpBytes", "parse/values/keyid.go:ToItem", "parse/reader/reader.go:DumpString"]}
{"id": "C72", "title": "Calling Parse again", "statement": "A Parser keeps its place. Each call of Parse returns what a new Parser on the octets that are left, with the present context, would return, behind the items of the earlier calls; left is what follows the packet that was rejected (or whose parsing panicked) or the octet that starts no packet, and nothing once the end of the input was met. So after a success every call returns the same result and no error; that the input ends inside a packet is reported only once; n octets of garbage cost n failing calls; an input of n octets is used up after at most n failing calls.", "quantifier": "every input, every context, every schedule of reads, every number of calls", "why_tests_cant": "All inputs and all numbers of calls; the position depends on where each earlier call stopped.", "anchors": ["parse/parse.go:Parse", "parse/tags/packets.go:Next", "parse/tags/packets.go:Parse"]}
{"id": "C73", "title": "Control characters in the output, exactly", "statement": "For every input that ends with EOF, a control character occurs in a name, value, note or dump of the result exactly if it is the format octet of a literal packet that is displayed: one of the accepted packets at the front of the input, or one inside them at any depth of embedded signatures and key blocks, or one of those a compressed packet unpacks to. No other octet of the input ever reaches the output as a control character.", "quantifier": "every input, every option set, every context, every control character (C0, DEL, C1)", "why_tests_cant": "An equivalence over all inputs and all nesting depths; tests only see the inputs they try.", "anchors": ["parse/values/*.go", "parse/tags/tag11.go", "parse/result/result.go:toString"]}
{"id": "C74", "title": "The completion command", "statement": "completion writes the script of a shell to standard output exactly if there is no argument (bash) or its only argument is bash, zsh, fish or powershell in any letter case (a long s, U+017F, counting as an s); no argument names two shells, and the exit code is normal exactly if the whole script was written. With any other arguments nothing is written and the exit code is abnormal, unless an earlier --debug in the same process left the debug flag set.", "quantifier": "every list of argument strings (any octets), every standard output, every table of Unicode foldings outside ASCII", "why_tests_cant": "The argument is an arbitrary octet string compared under Unicode case folding.", "anchors": ["facade/completion.go:newCompletionCmd", "facade/debug.go:debugPrint"]}
{"id": "C75", "title": "The output determines the result", "statement": "Two results of Parse with the same text (indented by spaces or tabs) are the same tree, although two arbitrary trees may have the same text (C29): names, values, notes and dumps can be told apart on every line Parse produces, even when a user ID looks like a note or a format octet is a line feed. With dumps (option DEBUG), two accepted inputs with the same text consist of the same packets. Two runs of the tool that end normally with the same standard output, as text or JSON, have the same result.", "quantifier": "every pair of inputs, readers, option sets, contexts and environments; every indentation by spaces and tabs; results that end with an error or a panic included", "why_tests_cant": "Injectivity over all pairs of inputs; a collision needs two inputs chosen to fit each other.", "anchors": ["parse/result/result.go:toString", "parse/result/result.go:ToString", "parse/tags/*.go", "parse/values/*.go", "facade/root.go"]}
{"id": "C76", "title": "tags.Packets with Next and Parse called in any order", "statement": "A Packets behaves, over every sequence of calls of Next and Parse, like a place in the input: Next moves to the next packet and leaves the current one in place if there is none; Parse calls Next if there is no packet yet (the end of the input is then no error) and otherwise shows the octets of the current packet that no earlier Parse has read, as a packet of their own whose header line gives the size of the whole packet. Only tags 1-6, 8, 11 and 20 use up octets; the last row of a session key, one-pass signature, key or literal packet tells how many are left; when none are left, Parse returns nil and an error with cause EOF. Calling Next and Parse in turn until the first error yields the items, the error and the context of Parser.Parse. For a compressed packet Parse returns an item with the packets inside up to the first error, and the error with it; an item never comes with an error otherwise.", "quantifier": "every reader (schedule, final error), context, environment and every finite sequence of calls", "why_tests_cant": "The tests call Next once and Parse once. The claim is about all interleavings, where the hidden reader position matters.", "anchors": ["parse/tags/packets.go:NewPackets", "parse/tags/packets.go:Next", "parse/tags/packets.go:Parse", "parse/tags/tags.go", "parse/parse.go:Parse"]}
{"id": "C77", "title": "Items are shared, and ToString ends unless an item holds itself", "statement": "result.Item values are shared by pointer: the text of an item or of an Info is that of the tree that can be reached from it at the moment of the call. ToString ends if and only if no item is reached from itself (with at most as many nested calls as there are items), and i.Add(a) makes a text endless exactly if the item is or holds i, and a is, or holds, i or has an endless text. Otherwise Add puts the tree of a at the end of that of i, and no item that does not hold i changes. Changes of different items may be made in any order, and as long as an item is changed only before it is added to another, all texts are as if items were copied. Nil receivers and nil arguments change nothing.", "quantifier": "every heap of items with any pointers (nil included), every item, indentation and level; every sequence of NewItem, Add and options", "why_tests_cant": "Aliasing and cycles concern all histories of calls; the tests build one tree.", "anchors": ["parse/result/result.go:NewItem", "parse/result/result.go:Add", "parse/result/result.go:toString", "parse/result/result.go:ToString", "parse/tags/tag05.go:Parse"]}
{"id": "C78", "title": "Durations in days", "statement": "The number in front of \"days after\" (signature and key expiration times) denotes the duration: read as a decimal number of days it is less than two microseconds off the seconds in the packet, and exact if and only if the seconds are a multiple of 27 (all finite decimals); whole days are displayed as whole numbers. It is the shortest decimal that identifies the nearest double, and the nearest of those. An exponent is used exactly for one to eight seconds. Different durations have different texts, so the value displayed for subpackets 3 and 9 determines their four octets.", "quantifier": "every 32-bit duration, every subpacket of type 3 or 9 in every state of the parser", "why_tests_cant": "There are 2^32 durations and 2^63 pairs of them; the tests use two.", "anchors": ["parse/values/expire.go:ToItem", "parse/tags/sub03.go:Parse", "parse/tags/sub09.go:Parse"]}
{"id": "C79", "title": "Times in local time", "statement": "Without the UTC option every time stamp is displayed as an RFC 3339 text that denotes the same instant, in every time zone whose offsets are whole minutes (the part before the offset is what a clock in the zone shows, which may be in 1969), and exactly in those: other offsets are cut towards zero to minutes and the text is off by the seconds that are cut off. No two time stamps have the same text, whatever the zones, the UTC option and changes of daylight saving time; where the offset is 0, local and UTC text are the same. The end of a validity period that fits into 32 bits is displayed likewise. The texts contain nothing but digits and - + : T Z, as C28, C73 and C75 require of the environment.", "quantifier": "every 32-bit time stamp, every function from instants to offsets below 100 hours, both settings of the UTC option", "why_tests_cant": "The tests fix one zone; the claim is about all zones and all instants.", "anchors": ["parse/values/datetime.go:unixtime2RFC3339", "parse/values/datetime.go:ToItem", "parse/values/expire.go:ToItem"]}
{"id": "C80", "title": "What an earlier use of a context changes", "statement": "Let two contexts have the same options but remember different things (kind of the last session key, creation time of the last key and of the last signature), as after earlier uses. Given the same input, they end in the same way (success, the same error or the same crash) and the items that store or use one of the three things are the same in the same order. The packets of the result are equal exactly if the contexts agree in every thing whose first item in the result is a use (a creation time 0 counts as none). After an input without an error, the things that have an item in the result depend on the input only; the others are as before. So the same input twice with one context gives the same packets exactly if the first time leaves unchanged what is used first, and from the second time on the packets do not change any more.", "quantifier": "every two contexts with the same options, every source (armored or not, with or without an error); for the converse every time zone with offsets of whole minutes", "why_tests_cant": "The tests use a new context for every input; the claim is about all pairs of earlier uses.", "anchors": ["parse/context/context.go:Context", "parse/context/symalgmode.go:AlgMode", "parse/tags/sub02.go:Parse", "parse/tags/sub03.go:Parse", "parse/parser.go:Parse"]}
{"id": "C81", "title": "What a page of the GitHub API must look like", "statement": "A body sent for a page is accepted exactly if it begins, after white space, with the JSON value null or with a JSON array, nested at most 10000 deep, whose elements are null or objects in which every member that has the name of a field (up to letter case, long s and kelvin sign) has null or a value of the type of that field; members with other names do not matter and neither does anything behind the array. The page then has one key per element, in order: its ID is the meaning of the last key_id that is not null, or empty; its text is the meaning of the last raw_key, or absent if that is null or missing. Every other body gives ErrInvalidRequest. GetKey returns the text of the first key with the requested ID in these bodies.", "quantifier": "every body (any octets, also ones that are not UTF-8), every sequence of bodies and every key ID", "why_tests_cant": "Unbounded texts, nesting, numbers and escapes; the repository's test decodes one page.", "anchors": ["github/github.go:getInPage", "github/github.go:GetKey", "github/structs.go:OpenPGPKey", "github/structs.go:EMailInfo"]}
{"id": "C82", "title": "Dates in a page of the GitHub API", "statement": "created_at and expires_at are accepted exactly if they are null or a string YYYY-MM-DDThh:mm:ss, with an hour of one or two digits below 24, minutes and seconds below 60, a day that exists in the month of the year, an optional fraction whose digits read as an integer are below 10^9, and Z or a sign with two parts of two characters separated by a colon, each two digits or a sign and a digit. In particular every RFC 3339 date with capital T and Z, without a leap second and with at most nine digits of fraction is accepted.", "quantifier": "every string of octets", "why_tests_cant": "Unbounded strings; the repository's test has two dates of one form.", "anchors": ["github/structs.go:OpenPGPKey", "github/github.go:getInPage"]}
{"id": "C83", "title": "Which command runs, with which flags, for which arguments", "statement": "The arguments of the process determine at most one command, assignments of values to its flags and remaining arguments: the word for the command is the first argument that is neither a flag nor behind a flag that takes it, the first argument equal to it is left out, and the others are read as flags of this command (--name, --name=value, --name value, -x, bundles -xyz, -xvalue, -x=value, -x value, nothing behind --). If there is no such reading with values of the right types (integers as in Go programs within 64 bits, true and false in six spellings each), nothing runs, standard output stays empty and the exit code is abnormal. A request for help or completions writes nothing to standard output and ends normally. Otherwise exactly that command runs, every flag with the value of its last assignment or its default (port 11371, keys.gnupg.net, no indent, all switches off).", "quantifier": "every list of arguments (any octets, any length), every state of files, network and clipboard", "why_tests_cant": "The tests of the repository call Execute with three fixed lists of arguments.", "anchors": ["facade/facade.go:newRootCmd", "facade/facade.go:Execute", "facade/hkp.go:newHkpCmd", "facade/github.go:newGitHubCmd", "facade/fetch.go:newFetchCmd", "facade/version.go:newVersionCmd", "facade/completion.go:newCompletionCmd"]}
{"id": "C84", "title": "The order and notation of flags do not matter", "statement": "A flag means the same in all its notations and in front of as well as behind the name of the command: -f FILE, --file FILE, --file=FILE and -fFILE dump that file whatever it is called; any bundle of option letters in any order and with repetitions dumps with exactly these options; the name of the command may stand behind flags; no arguments and a single hyphen mean standard input.", "quantifier": "every list of arguments of these forms, every file name, every bundle of letters", "why_tests_cant": "Unboundedly many notations of the same request; the repository tests none of them.", "anchors": ["facade/facade.go:newRootCmd", "facade/facade.go:parseContext", "facade/facade.go:Execute"]}
{"id": "C85", "title": "What is asked of GitHub for a user name", "statement": "For every user name the requests are for the keys of exactly this user: page n is at https://api.github.com with a path that decodes to /users/NAME/gpg_keys and the query page=n, per_page=100; without a key ID the request is for https://github.com with a path that decodes to /NAME.gpg. Different names and pages give different requests.", "quantifier": "every user name (any octets), every page number", "why_tests_cant": "The names of the repository's tests are plain; the escaping of arbitrary octets has unboundedly many cases.", "anchors": ["github/github.go:makeURL", "github/github.go:makeURLAPI"]}
{"id": "C86", "title": "fetch asks for exactly the URL given", "statement": "A URL with scheme http or https, a host name with optional port, a rooted path of allowed octets with well-formed escapes, and an optional query is accepted and asked for octet by octet as it was given.", "quantifier": "every such URL, of any length", "why_tests_cant": "There is no test of the fetch command without a network; parsing and writing URLs back has many special cases.", "anchors": ["facade/fetch.go:newFetchCmd"]}
{"id": "C87", "title": "The network commands, from arguments to standard output", "statement": "For arguments that select hkp, github or fetch with one argument: hkp asks for the URL whose parts decode to the scheme, server, port and user ID of the arguments; github takes the key from the pages of exactly this user (a name without control characters, %, ? and #); fetch asks for exactly the URL given (of the form of C86). With --raw exactly the answer, or the text of the first key with the ID, is written and the exit code is normal; without it the packets of the answer are dumped, and the run is successful with some output exactly if the octets are packets that are displayed as this output. If a request fails, the key is not there or a page is not decodable, nothing is written and the exit code is abnormal; so too with another number of arguments, whatever the network is.", "quantifier": "every such list of arguments, every behaviour of the servers, every number of pages", "why_tests_cant": "It needs servers with arbitrary answers; the repository has no test of these commands.", "anchors": ["facade/hkp.go:newHkpCmd", "facade/github.go:newGitHubCmd", "facade/fetch.go:newFetchCmd", "hkp/hkp.go:Fetch", "github/github.go:GetKey"]}
{"id": "C88", "title": "What the process does, for every list of arguments", "statement": "Without --debug, and if standard output takes what is written, the process ends with status 0 and a given standard output exactly in these cases: help or completions are asked for (no output); the version is asked for and standard error takes it (no output); a completion script is asked for (the script); --raw copies an answer that is received completely (the answer); or the input that the arguments select is, after removal of armor, a sequence of packets whose display, in the form that the flags ask for, is this output. In all other cases the status is 1 and standard output is empty, except that a raw copy that breaks off has been written as far as it came, and that the program goes on for ever if GitHub sends full pages without the key for ever. With --debug a command that reads something ends with status 0 whatever fails, except for panics (status 1) and the endless pages. With --debug a dump shows the same display if there is one; else it writes the description of the error to standard output with status 0, and nothing with status 1 after a panic.", "quantifier": "every list of arguments, every content of standard input, files, clipboard and network, every armor decoder and decompressor that reports errors of its own", "why_tests_cant": "It is a statement on all arguments and inputs together; the tests run the program with three lists of arguments.", "anchors": ["main.go:main", "facade/facade.go:Execute", "facade/facade.go:newRootCmd"]}
{"id": "C89", "title": "Saved answers and armored files", "statement": "If a request with --raw (hkp, github or fetch) ends with status 0, then dumping what it wrote, from standard input or a file and with the same output flags, gives the status and the standard output of the same request without --raw; for hkp and github --armor has to be added. A file and any intact armored form of it give the same status and the same output, if no line of the file itself starts an armored block and no line of it is overlong. An armored file whose checksum is not that of its data ends with status 1 and without output.", "quantifier": "every request and all its arguments, every answer, all output flags, every file, every armored form, every way the octets are delivered", "why_tests_cant": "It compares two runs of the process for all answers, files and flags.", "anchors": ["facade/hkp.go:newHkpCmd", "facade/github.go:newGitHubCmd", "facade/fetch.go:newFetchCmd", "facade/facade.go:newRootCmd", "parse/parser.go:New"]}
{"id": "C90", "title": "Standard error", "statement": "The status of the process is 1 exactly if an error message or the report of a panic goes to standard error. Without --debug nothing goes there exactly if a result is delivered to standard output (a display, a complete raw copy, a completion script) or GitHub never stops sending pages. Help and the version go there exactly if they are asked for, and the report of a panic exactly if the input makes the program panic. With --debug nothing goes there whatever fails, except for the version and panics.", "quantifier": "every list of arguments, every content of standard input, files, clipboard and network", "why_tests_cant": "It is a statement on all arguments and inputs; that failures are never silent cannot be seen from the failures that are tested.", "anchors": ["main.go:main", "facade/facade.go:Execute", "facade/facade.go:newRootCmd", "facade/debug.go:debugPrint"]}
{"id": "C91", "title": "JSON of shared items", "statement": "Info.JSON ends for every graph of items, whatever indentation is asked for. It returns an error if an item that is reached from a packet is reached from itself, and for no other graph without indentation; with indentation also if arrays and objects are nested more than 10000 deep. Otherwise the text is JSON that shows every item reached with its fields and its items in order, a shared item once for each way that leads to it and a nil pointer as null; for items that are changed only before they are added to another (as the parser does) it is the text of the trees the items would be if they were copied.", "quantifier": "every heap of items, including shared, nil and cyclic ones, every list of packets and every indentation", "why_tests_cant": "Which graphs have no text is decided by the absence of cycles, which no finite set of graphs shows; encoding/json looks for cycles only from the 1001st level on.", "anchors": ["parse/result/result.go:Info.JSON", "parse/result/result.go:Item", "parse/result/result.go:Item.Add"]}
{"id": "C92", "title": "Standard output alone tells what was read", "statement": "Two runs of the process that dump something, end with status 0 and have the same standard output have the same result, whatever their flags are, also if one is asked for JSON and the other for text or for another indentation: the form of the output can be read from it, and where two indentations give the same text nothing is indented. With --debug, two inputs with the same display consist, after removal of armor, of the same packets, whatever headers, partial lengths or armor they were written with.", "quantifier": "every two lists of arguments, inputs, environments and indentations", "why_tests_cant": "That no two results collide under any pair of flags is a statement about all pairs of inputs; user IDs, notes and format octets can imitate other lines.", "anchors": ["main.go:main", "facade/facade.go:marshalPacketInfo", "parse/result/result.go:Info.ToString", "parse/result/result.go:Info.JSON", "parse/result/result.go:Item.toString"]}
{"id": "C93", "title": "A standard output that does not take everything", "statement": "Whatever standard output takes and whatever error it reports (a full disk, a closed pipe): without --debug the process writes the first octets of what it writes to a standard output that takes everything; it ends with status 0 exactly if it would there and all of it has been written, and else with status 1 and a report on standard error. With --debug the status is the same as if everything had been written: a dump that is cut ends with status 0.", "quantifier": "every list of arguments, every world, every behaviour of standard output", "why_tests_cant": "Tests write to buffers that take everything; the claim compares two runs for every input and every point at which writing stops.", "anchors": ["main.go:main", "facade/debug.go:debugPrint", "facade/facade.go:newRootCmd", "facade/hkp.go:newHkpCmd", "facade/github.go:newGitHubCmd", "facade/fetch.go:newFetchCmd", "facade/completion.go:newCompletionCmd"]}
{"id": "C94", "title": "Nesting has a bound that does not depend on the input", "statement": "Packets inside packets (embedded signatures and key blocks) go at most 8192 deep, however long the packet is, and at most one deep for every eight octets of it. The parser's recursion is not deeper, also where it ends in an error: cut off there it does the same. Whatever is parsed is shown in at most 32774 levels, without compressed packets in at most 5 and one more for every two octets of the input; so an input of fewer than 9992 octets without compressed packets can always be written as indented JSON, for which 5000 levels are too many.", "quantifier": "every packet, input, context and environment (for the recursion: every context that is not nil)", "why_tests_cant": "A bound on the depth for inputs of any size follows from the sizes of the fields that frame what is inside, level by level; tests only try some depths.", "anchors": ["parse/parse.go:Parser.Parse", "parse/tags/tag02.go:parseV4", "parse/tags/subParser.go:Parse", "parse/tags/sub32.go:Parse", "parse/tags/sub38.go:parseKeyData", "parse/result/result.go:Info.JSON"]}
{"id": "C95", "title": "The functions of the values package for nil, zero and made values", "statement": "For every value a caller can have (nil, a pointer to a zero value, one made by a constructor from any reader) exactly these calls panic: the methods of a zero DateTime; the file time of a nil DateTime; showing an Expire that is zero or starts from a zero DateTime; String of a nil Version; String of a nil dump or of one that is to be shown from a nil reader; items of raw data, tags and subpackets from a nil reader; NewKeyID of fewer than eight octets. On nil the others give 0, true for IsZero and IsUnknown, the empty text, or no item (a nil Text gives an item with the note null). A DateTime made from a reader is the next four octets in big-endian order and is zero iff they all are; with fewer there is an error and nothing is consumed. An MPI has (bits+7)/8 octets. What is made from a reader shows as Parse shows it; an item of a tag or subpacket has the length of the whole reader and the dump of what was not yet read.", "quantifier": "every call of a method of DateTime, Expire, Version, MPI, Text, Dump, TagID and SuboacketID or of a function that makes such values, every value reached by the constructors from readers of fewer than 2^62 octets", "why_tests_cant": "Which of all combinations of receivers and arguments panic is a statement about every value; the unit tests make a few values from literals.", "anchors": ["parse/values/datetime.go:DateTime", "parse/values/expire.go:Expire", "parse/values/version.go:Version", "parse/values/mpi.go:MPI", "parse/values/literal.go:Text", "parse/values/dump.go:Dump", "parse/values/keyid.go:NewKeyID", "parse/values/tagid.go:TagID.ToItem", "parse/values/subpacketid.go:SuboacketID.ToItem"]}
{"id": "C96", "title": "Every history of calls on one Pubkey or S2K", "statement": "A caller makes a pubkey.Pubkey and calls ParseSig, ParsePub, ParseSes, ParseSecPlain and ParseSecEnc on it any number of times in any order, going on after errors. Every call that returns reads forward, adds its items behind those that are there and gives either no error or io.EOF or io.ErrUnexpectedEOF; no octet is read twice. For known algorithms the items are those of the fields read; for the others one item with the number of octets that were left when the object was made, not when the method is called, and a dump of what is left now. The only panic is that of ParseSecPlain for an unknown algorithm when exactly one octet was left at the beginning and no ParseSecEnc came before. Calls of Parse on one S2K: HasIV is false iff one of the calls met the octets 101 \"GNU\" and one more, also when that call ends with an error, and it never becomes true again; on a nil S2K Parse does nothing and HasIV panics.", "quantifier": "every algorithm, every list of method calls, every content and position of the reader, every context including nil, every parent item", "why_tests_cant": "The number of orders in which the methods can be called is infinite, and the panic needs an unknown algorithm with one octet left; the unit tests call one method on a new object.", "anchors": ["parse/pubkey/pubkey.go:New", "parse/pubkey/parse_sig.go:Pubkey.ParseSig", "parse/pubkey/parse_pub.go:Pubkey.ParsePub", "parse/pubkey/parse_ses.go:Pubkey.ParseSes", "parse/pubkey/parse_secplain.go:Pubkey.ParseSecPlain", "parse/pubkey/parse_secenc.go:Pubkey.ParseSecEnc", "parse/s2k/s2k.go:S2K.Parse", "parse/s2k/s2k.go:S2K.HasIV"]}
{"id": "C97", "title": "Every history of Parse calls on one subpacket", "statement": "tags.NewSubs gives a parser exactly for the tags 2 and 17. Its first Parse gives what the subpacket contributes inside its packet, and with an error also the item that the packet parser drops. When Parse is called again, any number of times and with the context changed in between, each call shows the octets that no earlier call has read as a subpacket of their own; only the size in the header line stays that of the whole contents, and an image attribute computes the size of the image data from it. Types that show the whole contents (text, preference lists, embedded signature, unknown types, user attributes other than images) give the same octets every time. For the others every success uses up at least one octet, so there are at most as many successes as octets, and when nothing is left Parse gives io.EOF. The item is never nil. With an error it is the header line, with the size of the whole contents, and the rows of exactly those fields that come before the missing one; the first Parse gives an error exactly if the contents end too early or the packets inside them are wrong, with that cause, and panics exactly on a signature or key block inside that panics or, without a context, on contents that need one.", "quantifier": "every type octet, every content, every list of contexts including nil, every collaborator behaviour (Ext); the history not for key blocks (tag 2 type 38)", "why_tests_cant": "The number of calls is unbounded and the result of each depends on all earlier ones; the unit tests call Parse once.", "anchors": ["parse/tags/subs.go:NewSubs", "parse/tags/sub02.go:sub02.Parse", "parse/tags/sub23.go:sub23.Parse", "parse/tags/sub27.go:sub27.Parse", "parse/tags/sub29.go:sub29.Parse", "parse/reader/reader.go:Reader.Read2EOF"]}
{"id": "C98", "title": "Every history of Parse calls on one packet made by NewTag", "statement": "The first Parse of a packet made by tags.NewTag gives what the packet gives inside a packet sequence, and with an error also the item that Packets.Parse drops. With a context it succeeds exactly on the packets of the grammar and then shows the item, and remembers in the context, what the table of packets read after the remembered times and mode lays down, gives an error exactly where the grammar of errors says and with that cause, and panics exactly where the grammar of panics says; without a context it panics for want of it exactly on the packets that need one. The item is never nil: name, note and dump are those of the header line, also with an error. The item with an error has exactly the rows of the fields before the one that is missing or not accepted, also inside the rows of a string-to-key specifier, a public key part and a secret key part. For every tag but 2 nothing of the context but its options counts for an error and the item that comes with it; the item of a signature with an error shows the times the context remembers as the table says. Without an error only tags 2, 9 and 18 depend on more than the options. What a packet of a tag other than 2 leaves in the context does not depend on the outcome: tags 1 and 3 set the mode even with no contents, tags 9 and 18 reset it, a key of version 3, 4 or 5 sets the key creation time as soon as four octets follow the version, and everything else leaves the context as it is. No tag and no outcome changes the options. When Parse is called again, any number of times and with the context changed in between, each call gives what the first call on a packet with the octets not yet read gives, but the note stays the size of the whole contents. Packets of tags 1 to 6, 8, 11 and 20 are read step by step: with a context each call reads at least one octet more, also when it gives an error, and the last row tells how much is left where there is such a row; all other packets are shown again and again.", "quantifier": "every tag number, every content, every list of contexts including nil, every collaborator behaviour (Ext; for the exact outcome and the rows with an error those whose decompressors give their own errors, OwnErrors)", "why_tests_cant": "The number of calls is unbounded, and the contents with an error at each field are infinitely many; the unit tests call Parse once and do not look at the item that comes with an error.", "anchors": ["parse/tags/tags.go:NewTag", "parse/tags/tag04.go:tag04.Parse", "parse/tags/Tag08.go:Tag08.Parse", "parse/tags/tag11.go:tag11.Parse", "parse/tags/tag20.go:tag20.Parse", "parse/tags/packets.go:Packets.Parse", "parse/tags/tag01.go:tag01.Parse", "parse/tags/tag03.go:tag03.Parse", "parse/tags/tag05.go:tag05.Parse", "parse/tags/seckey.go:seckeyInfo.Parse"]}
