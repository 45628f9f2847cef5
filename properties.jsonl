{"id": "C01", "title": "High/low bit extraction partitions an integer", "statement": "For an unsigned value x of width W (8, 16, 32), extract_high_bit<N>(x) is the integer formed by the N most significant bits and extract_low_bit<W-N>(x) the one formed by the remaining bits: high*2^(W-N)+low == x, low < 2^(W-N), high < 2^N. The call is well defined exactly when N < 32 for extract_low_bit (1u << N) and the shift W-N is below the promoted width for extract_high_bit.", "quantifier": "all widths, all N, all values", "why_tests_cant": "2^32 values times every N; the out-of-range N are undefined behaviour a test cannot observe", "anchors": ["mh2c/util/bit_operation.ipp: extract_low_bit, extract_high_bit", "mh2c/util/bit_operation.h"]}
{"id": "C02", "title": "Flag composition and test agree", "statement": "is_flag_set(flags, f) holds, for non-zero f, exactly when every bit of f is set in flags, and for f == 0 exactly when flags == 0. For flags = make_frame_header_flags(f1..fn), is_flag_set(flags, fi) holds for every non-zero fi, every bit of flags comes from some fi, and the result does not depend on the order of the arguments.", "quantifier": "all flag words, all finite non-empty argument lists", "why_tests_cant": "The flag list is variadic and may be any length and order; a test fixes a handful of argument lists.", "anchors": ["mh2c/util/bit_operation.ipp: is_flag_set", "mh2c/frame/frame_header.ipp: make_frame_header_flags"]}
{"id": "C03", "title": "Integers travel in network byte order on every host", "statement": "Writing a 16/32-bit integer through htonl/htons and copying its object representation produces the big-endian octets of the integer on little- and big-endian hosts alike, the same octets integral2bytes produces; bytes2integral reads them back to the same integer, reads exactly sizeof(T) octets, and is the inverse on every octet string. cvt_net2host and cvt_host2net are inverse to each other, and cvt_net2host gives octets taken from the network their network-order value.", "quantifier": "all 16/32-bit values, all octet strings, both endiannesses", "why_tests_cant": "A test runs on one host with one byte order and samples a few of the 2^16 and 2^32 values, so the other byte order is never executed.", "anchors": ["mh2c/util/byte_order.cpp: cvt_host2net, cvt_net2host", "mh2c/util/byte_order.ipp: bytes2integral, integral2bytes"]}
{"id": "C04", "title": "Frame header round trip", "statement": "For every frame header whose length < 2^24, reserved <= 1 and stream id < 2^31, build_frame_header(serialize(fh)) == fh and serialize(fh) is exactly nine octets in the RFC 7540 4.1 layout.", "quantifier": "all in-range frame headers", "why_tests_cant": "There are 2^72 frame headers; a test tries a few, and a wrong shift or mask only shows at particular field values.", "anchors": ["mh2c/frame/frame_header.cpp: serialize, build_frame_header"]}
{"id": "C05", "title": "Frame header parse is lossless", "statement": "For every string of at least nine octets, build_frame_header returns a header whose fields are in range and whose serialization is exactly the first nine octets; distinct nine-octet strings give distinct headers. With fewer than nine octets it reads out of bounds.", "quantifier": "all octet strings", "why_tests_cant": "There are 2^72 nine-octet inputs; losing one reserved or high bit is visible only for inputs that set it.", "anchors": ["mh2c/frame/frame_header.cpp: build_frame_header"]}
{"id": "C06", "title": "Out-of-range frame header fields have a fixed meaning on the wire", "statement": "For every frame header, in range or not, what a receiver parses from serialize(fh) is: length mod 2^24, type, flags, stream id mod 2^31, and reserved = low bit of reserved OR bit 31 of the stream id. In particular a payload of 2^24 octets or more is announced with a wrong length.", "quantifier": "all values of the five fields of their C++ types", "why_tests_cant": "The field types admit 2^88 combinations, most of them outside the wire format; tests cover in-range headers only.", "anchors": ["mh2c/frame/frame_header.cpp: serialize, build_frame_header"]}
{"id": "C07", "title": "HPACK integer round trip and its exact domain", "statement": "For each prefix size N in 1..8, each value v, each setting of the bits above the prefix and each continuation of the buffer, decode_integer_value<N>(encode_integer_value<N>(v) ++ rest) == v if v < 2^31 + 2^N - 1; for every larger v the decoder has undefined behaviour (int overflow or over-wide shift).", "quantifier": "all N, all v (no bound), all high bits, all continuations", "why_tests_cant": "The values have no bound, and beyond the domain the code shifts by too much: undefined behaviour that a passing test cannot exclude.", "anchors": ["mh2c/hpack/integer_representation.ipp: encode_integer_value, decode_integer_value"]}
{"id": "C08", "title": "HPACK integers are encoded in the minimal RFC 7541 5.1 form", "statement": "For each N and v, encode_integer_value<N>(v) is a non-empty octet string that the RFC 7541 5.1 decoding procedure maps to v consuming all of it, and no shorter octet string is mapped to v.", "quantifier": "all N in 1..8, all v, all competing octet strings", "why_tests_cant": "Minimality compares the output with every octet string that could encode the same value; no test enumerates them.", "anchors": ["mh2c/hpack/integer_representation.ipp: encode_integer_value"]}
{"id": "C09", "title": "HPACK integer decoding consumes exactly the octets of the integer", "statement": "For every buffer, decode_integer_value either returns the RFC 7541 5.1 value of the integer at its start, or the buffer is truncated / the value too large (undefined behaviour); and the octet count the header decoder advances by after reading an integer equals the number of octets the integer occupies. (False of the code for padded, non-minimal integers: the count is recomputed by re-encoding.)", "quantifier": "all octet buffers, all N", "why_tests_cant": "The same integer has encodings of every length, and the consumed length must be right for each, in every surrounding buffer.", "anchors": ["mh2c/hpack/integer_representation.ipp: decode_integer_value", "mh2c/hpack/header_decoder.cpp: decode_index, decode_max_size"]}
{"id": "C10", "title": "Huffman encoding is the concatenation of RFC 7541 codes padded with ones", "statement": "For every octet string s, the bits of huffman::encode(s) are the concatenation of the RFC 7541 Appendix B codes of the octets of s followed by fewer than eight 1 bits.", "quantifier": "all octet strings", "why_tests_cant": "Strings are unbounded and each symbol can start at any of the eight bit offsets with any carried-over bits; tests hit few combinations.", "anchors": ["mh2c/hpack/huffman_encoder.cpp: encode, fill_record"]}
{"id": "C11", "title": "Huffman round trip", "statement": "For every octet string s, huffman::decode(huffman::encode(s)) == s.", "quantifier": "all octet strings", "why_tests_cant": "Strings are unbounded and the decoder's state depends on all earlier symbols; a finite set of round trips says nothing about the rest.", "anchors": ["mh2c/hpack/huffman_encoder.cpp: encode", "mh2c/hpack/huffman_decoder.cpp: decode"]}
{"id": "C12", "title": "Huffman decoding is total and memory safe", "statement": "For every octet string, huffman::decode terminates and either returns a string or throws invalid_argument; it never reads outside its buffer and never reaches the 'decode failed' branch whose message indexes four octets that may not exist.", "quantifier": "all octet strings (hostile peer)", "why_tests_cant": "Input comes from an adversary and may have any length; a test cannot show that an out-of-bounds read or a loop is unreachable.", "anchors": ["mh2c/hpack/huffman_decoder.cpp: decode, construct_integer"]}
{"id": "C13", "title": "Huffman decoding accepts exactly the code sequences", "statement": "huffman::decode(b) returns out if and only if the bits of b are the codes of a sequence of symbols (EOS included, delivered as octet 0) followed by fewer than eight bits that do not begin with a complete code; in every other case it throws invalid_argument.", "quantifier": "all octet strings", "why_tests_cant": "The accepted set is an infinite language; tests show members and non-members, never that there are no others.", "anchors": ["mh2c/hpack/huffman_decoder.cpp: decode"]}
{"id": "C14", "title": "Huffman decoding agrees with RFC 7541 5.2", "statement": "Whenever RFC 7541 5.2 assigns a decoding to an octet string, huffman::decode returns it; whenever RFC 7541 5.2 requires a decoding error (EOS symbol, padding not of 1 bits, padding longer than seven bits), huffman::decode throws. (The second half is false of the code for EOS and for non-1 padding.)", "quantifier": "all octet strings", "why_tests_cant": "Agreement with the standard's decoder is about every octet string, including the malformed ones nobody thought of testing.", "anchors": ["mh2c/hpack/huffman_decoder.cpp: decode", "mh2c/hpack/huffman_decoder.cpp: decode_table"]}
{"id": "C15", "title": "The Huffman tables are one complete canonical prefix code", "statement": "encode_table and decode_table are inverse to each other on all 257 symbols, no code is a prefix of another, every infinite bit string starts with some code, and the codes are the canonical codes of the RFC 7541 Appendix B lengths.", "quantifier": "all symbol pairs, all bit strings", "why_tests_cant": "Prefix-freedom ranges over all 66049 pairs of symbols and completeness over all infinite bit strings.", "anchors": ["mh2c/hpack/huffman_code.cpp: encode_table, decode_table"]}
{"id": "C16", "title": "Static table and reverse static table are inverse", "statement": "A header h is found in the reverse table with index i if and only if the static table has h at index i; indices are exactly 1..61.", "quantifier": "all headers, all indices", "why_tests_cant": "The reverse lookup must also be right for every header that is not in the table, and those are all strings.", "anchors": ["mh2c/hpack/static_table_definition.cpp"]}
{"id": "C17", "title": "The static table is RFC 7541 Appendix A", "statement": "For every index 1..61 the static table entry equals that of RFC 7541 Appendix A. (False at index 20: the code says accept-control-allow-origin.)", "quantifier": "all indices", "why_tests_cant": "A test that copies the table from the source copies its misprints; only comparison of every row with the standard finds them.", "anchors": ["mh2c/hpack/static_table_definition.cpp: static_table_entries, reverse_static_table_entries"]}
{"id": "C18", "title": "Dynamic table size accounting", "statement": "After every history of push and update_table_size calls on a table, get_table_size() equals the sum over get_entries() of name length + value length + 32 and never exceeds get_max_table_size(), as long as every pushed header fits the maximum in force.", "quantifier": "all histories, all headers, all initial sizes (maxima below 2^63)", "why_tests_cant": "The accounting must survive every sequence of insertions and resizings of any length; drift shows only after particular histories.", "anchors": ["mh2c/hpack/dynamic_table.cpp: push, update_table_size, resize_table"]}
{"id": "C19", "title": "Dynamic table implements RFC 7541 eviction", "statement": "After every history, get_entries() is the table RFC 7541 section 4 prescribes: newest first, and each operation keeps the longest run of newest entries that fits (evicting oldest first and only as many as needed).", "quantifier": "all histories (maxima below 2^63)", "why_tests_cant": "Which entries survive depends on the whole history of insertions and resizings, and histories are unbounded.", "anchors": ["mh2c/hpack/dynamic_table.cpp: push, update_table_size, resize_table"]}
{"id": "C20", "title": "Inserting an oversized header empties the table", "statement": "RFC 7541 4.4: pushing a header larger than the maximum size empties the table and is not an error. (False of the code: it calls back() on an empty vector - undefined behaviour - for exactly these headers.)", "quantifier": "all tables, all headers", "why_tests_cant": "The failing case is undefined behaviour, which a test may pass by luck, and it depends on every table and header size.", "anchors": ["mh2c/hpack/dynamic_table.cpp: push, resize_table"]}
{"id": "C21", "title": "Positional access to the dynamic table", "statement": "at(i) returns the i-th most recently pushed surviving header and throws out_of_range for i >= number of entries; index 62+i on the wire denotes the same entry.", "quantifier": "all histories (maxima below 2^63), all positions", "why_tests_cant": "The right answer at a position depends on all earlier insertions and evictions, over histories of any length.", "anchors": ["mh2c/hpack/dynamic_table.cpp: at", "mh2c/hpack/header_decoder.cpp: make_indexed_header"]}
{"id": "C22", "title": "Changing the table maximum", "statement": "update_table_size(n) never fails on a reachable table, sets the maximum to n, keeps a prefix of the entries, keeps all of them iff they fit, and update_table_size(0) empties the table; growing never loses entries; setting the same size twice equals setting it once.", "quantifier": "all reachable tables (maxima below 2^63), all sizes", "why_tests_cant": "The effect of a new maximum depends on the table reached by any earlier history, and on any of the possible sizes.", "anchors": ["mh2c/hpack/dynamic_table.cpp: update_table_size"]}
{"id": "C23", "title": "Representation class is decided by the first octet", "statement": "For every octet, check_prefix returns the RFC 7541 section 6 representation class (1xxxxxxx indexed, 01 incremental, 001 size update, 0001 never, 0000 without) and never throws; the first octet written by encode_index for a prefix is classified back to that prefix for every index.", "quantifier": "all octets, all indices", "why_tests_cant": "The class must be right for every index, and indices are unbounded multi-octet integers behind the first octet.", "anchors": ["mh2c/hpack/header_decoder.cpp: check_prefix", "mh2c/hpack/header_encoder.cpp: encode_index, encode_max_size"]}
{"id": "C24", "title": "Literal header round trip", "statement": "For every header entry with an incremental / without-indexing / never-indexed prefix that is in neither table, both encode modes, every dynamic table and every following octets, decode_header(encode_header(e) ++ rest) returns the same entry and exactly the encoded length. (Restricted to strings whose encoded length is below 2^31+127; an empty string additionally requires operator[] one past the end to be tolerated.)", "quantifier": "all headers, tables, modes, continuations", "why_tests_cant": "Names and values are unbounded, the table and the octets that follow are arbitrary; tests sample short strings.", "anchors": ["mh2c/hpack/header_encoder.cpp: encode_header", "mh2c/hpack/header_decoder.cpp: decode_header"]}
{"id": "C25", "title": "A header present in a table is sent as a bare index that means that header", "statement": "If the header (with non-empty value) is in the static table, or the header is in the dynamic table, encode_header emits only an index and decode_header under the same table returns an indexed entry with that header, whatever prefix was asked for.", "quantifier": "all headers, all tables of up to 2^31 + 65 entries (the integers of C07)", "why_tests_cant": "Whether the index means the same header depends on the contents of tables of any size, reached by any history.", "anchors": ["mh2c/hpack/header_encoder.cpp: encode_header", "mh2c/hpack/header_decoder.cpp: make_indexed_header"]}
{"id": "C26", "title": "Dynamic table size update round trip", "statement": "For every size n < 2^31+31, a SIZE_UPDATE entry with n encodes to octets that decode to the same entry with the exact length; for larger n the decoder's behaviour is undefined.", "quantifier": "all sizes", "why_tests_cant": "Sizes are unbounded integers, each followed by arbitrary octets; tests sample a few sizes.", "anchors": ["mh2c/hpack/header_encoder.cpp: encode_max_size", "mh2c/hpack/header_decoder.cpp: decode_max_size"]}
{"id": "C27", "title": "Encoding a header entry never has undefined behaviour and fails only on mis-typed entries", "statement": "encode_header returns a non-empty octet string for every entry whose variant matches its prefix and throws runtime_error for every entry whose variant does not; the result depends on the dynamic table only through its entries.", "quantifier": "all entries, tables, modes", "why_tests_cant": "The absence of undefined behaviour over all entries, tables and modes is not observable by running some of them.", "anchors": ["mh2c/hpack/header_encoder.cpp: encode_header", "mh2c/hpack/header_type.cpp: get_header, get_max_size"]}
{"id": "C28", "title": "Header block decoding makes progress and terminates", "statement": "For every octet string and table, decoding a header block terminates: each decoded header reports a length of at least one octet; if decoding returns, the reported lengths add up to the length of the block.", "quantifier": "all octet strings, all tables", "why_tests_cant": "A hostile peer chooses the octets; termination and progress on every string cannot be observed by running some.", "anchors": ["mh2c/hpack/header_decoder.cpp: decode_header", "mh2c/frame/continuation_frame.cpp: decode_payload"]}
{"id": "C29", "title": "References to missing table entries are errors", "statement": "A representation whose index is 0 where an index is required, or beyond static + dynamic entries, is rejected with an exception. (True for indices beyond the tables: out_of_range. False for index 0, which is delivered as a header with empty name and value.)", "quantifier": "all indices, all tables", "why_tests_cant": "Indices are unbounded integers and the valid range moves with the table; a test checks a few indices of a few tables.", "anchors": ["mh2c/hpack/header_decoder.cpp: make_indexed_header, decode_header"]}
{"id": "C30", "title": "Header block round trip", "statement": "For every list of well-formed header entries and every dynamic table, decoding the concatenated encodings under the same table gives the same list of headers and size updates in the same order. Well-formed: a size update has its own prefix and a size below 2^31 + 31, INDEXED is asked for only where the header is in a table, encoded strings are shorter than 2^31 + 127 octets and the table has at most 2^31 + 65 entries.", "quantifier": "all header lists, tables, modes", "why_tests_cant": "Lists, strings and tables are unbounded, and each entry's encoding depends on the table the earlier ones leave.", "anchors": ["mh2c/hpack/header_encoder.cpp: encode_header", "mh2c/hpack/header_decoder.cpp: decode_header", "mh2c/frame/continuation_frame.cpp"]}
{"id": "C31", "title": "What the client sends is what an RFC 7541 peer decodes", "statement": "For every header block the client encodes against its request table, a conforming RFC 7541 decoder holding the same table decodes exactly the given headers in order. (False of the code when a dynamic-table reference follows an insertion or size update inside the same block, when the prefix INDEXED is asked for a header that is in no table, or for the mistyped static entry.)", "quantifier": "all header lists, tables, modes", "why_tests_cant": "The claim compares with an independent decoder on unbounded inputs; tests use the same library on both sides, so common mistakes cancel.", "anchors": ["mh2c/hpack/header_encoder.cpp: encode_header", "mh2c/frame/headers_frame.cpp: construct_encoded_payload"]}
{"id": "C32", "title": "What a conforming peer sends is what the client decodes", "statement": "For every header block that RFC 7541 assigns a decoding under the response table, the client's decoder returns exactly that header list. (False of the code for non-minimal integers, dynamic references after an insertion in the same block, static index 20, and indexed empty names. Proved exactly: the header list is the one meant if and only if every reference, looked up in the table as it was before the block, names the header the encoder meant.)", "quantifier": "all octet strings, all tables", "why_tests_cant": "A conforming peer may choose any valid encoding, including ones this library never produces; round-trip tests never see them.", "anchors": ["mh2c/hpack/header_decoder.cpp: decode_header", "mh2c/frame/headers_frame.cpp: decode_payload"]}
{"id": "C33", "title": "Request table stays synchronised with the peer over any history", "statement": "For every sequence of header blocks sent and reported through update_request_dynamic_table, the client's request table equals the table a conforming peer holds. (False when an INCREMENTAL_INDEXING entry hits a table: it is sent as an index but pushed again. Proved exactly what the two tables hold after each block.)", "quantifier": "all histories of header blocks", "why_tests_cant": "Synchronisation is an invariant of two stateful tables over histories of any length; one missed update shows only much later.", "anchors": ["mh2c/http2_client.cpp: update_dynamic_table, update_request_dynamic_table", "mh2c/hpack/header_encoder.cpp"]}
{"id": "C34", "title": "Never-indexed headers are sent as never-indexed literals and never enter a table", "statement": "A NEVER_INDEXED header that is in neither table is sent with the 0001 prefix, an RFC peer does not insert it, and update_request_dynamic_table does not insert it.", "quantifier": "all headers, tables, modes", "why_tests_cant": "A secret that leaks into a table for one particular header, table or mode is missed by every test of other ones.", "anchors": ["mh2c/hpack/header_encoder.cpp: encode_header", "mh2c/http2_client.cpp: update_dynamic_table"]}
{"id": "C35", "title": "make_header_block preserves headers", "statement": "make_header_block(prefix, headers) has the same headers in the same order; each keeps the requested prefix except that a header fully matching the static table with a non-empty value gets INDEXED.", "quantifier": "all header lists, all prefixes", "why_tests_cant": "Header lists have any length and content; a test checks a few lists.", "anchors": ["mh2c/hpack/header_type.cpp: make_header_block, correct_prefix"]}
{"id": "C36", "title": "DATA frame round trip", "statement": "For every DATA frame built through the public constructor with stream id < 2^31 and payload < 2^24 octets, parsing the header and payload octets of serialize() with build_frame returns an equal frame.", "quantifier": "all constructor arguments in the stated domain", "why_tests_cant": "Payloads and paddings are unbounded; a length miscalculation shows only at particular combinations of the two.", "anchors": ["mh2c/frame/data_frame.cpp", "mh2c/frame/frame_builder.cpp: build_data_frame"]}
{"id": "C37", "title": "HEADERS frame round trip", "statement": "For every HEADERS frame built through the public constructor with padding <= 255 octets (and sent only if PADDED), exclusive <= 1, dependency < 2^31 and total payload < 2^24 octets, parsing the header and payload octets of serialize() with build_frame returns an equal frame. The header list, padding and priority are recovered for every combination of the PADDED and PRIORITY flags. Equal where the headers found in a table carry the INDEXED prefix; otherwise only that prefix differs (C25). The priority is all zero unless PRIORITY is set.", "quantifier": "all constructor arguments in the stated domain", "why_tests_cant": "Header blocks are unbounded and combine with padding, priority, encoding mode and table contents; tests sample the product.", "anchors": ["mh2c/frame/headers_frame.cpp", "mh2c/frame/frame_builder.cpp: build_headers_frame"]}
{"id": "C38", "title": "PRIORITY frame round trip", "statement": "For every PRIORITY frame built through the public constructor with stream id < 2^31, parsing the header and payload octets of serialize() with build_frame returns an equal frame.", "quantifier": "all constructor arguments in the stated domain", "why_tests_cant": "There are 2^40 payloads for each header; a wrong mask shows only for identifiers and weights that set the bit.", "anchors": ["mh2c/frame/priority_frame.cpp", "mh2c/frame/frame_builder.cpp: build_priority_frame"]}
{"id": "C39", "title": "RST_STREAM frame round trip", "statement": "For every RST_STREAM frame built through the public constructor with stream id < 2^31, parsing the header and payload octets of serialize() with build_frame returns an equal frame. Unknown error codes are preserved.", "quantifier": "all constructor arguments in the stated domain", "why_tests_cant": "There are 2^32 codes for each header, unknown ones included; tests use the named ones.", "anchors": ["mh2c/frame/rst_stream_frame.cpp", "mh2c/frame/frame_builder.cpp: build_rst_stream_frame"]}
{"id": "C40", "title": "SETTINGS frame round trip", "statement": "For every SETTINGS frame built through the public constructor with stream id < 2^31 and any parameter map, parsing the header and payload octets of serialize() with build_frame returns an equal frame. Parameters appear on the wire in increasing identifier order.", "quantifier": "all constructor arguments in the stated domain", "why_tests_cant": "Parameter lists have any length, order and repetition, with 2^48 values for each parameter.", "anchors": ["mh2c/frame/settings_frame.cpp", "mh2c/frame/frame_builder.cpp: build_settings_frame"]}
{"id": "C41", "title": "PUSH_PROMISE frame round trip", "statement": "For every PUSH_PROMISE frame built through the public constructor with padding <= 255 octets, reserved <= 1, promised id < 2^31 and payload < 2^24 octets, parsing the header and payload octets of serialize() with build_frame returns an equal frame. Equal where the headers found in a table carry the INDEXED prefix; otherwise only that prefix differs (C25).", "quantifier": "all constructor arguments in the stated domain", "why_tests_cant": "Header blocks are unbounded and combine with the promised identifier, encoding mode and table contents.", "anchors": ["mh2c/frame/push_promise_frame.cpp", "mh2c/frame/frame_builder.cpp: build_push_promise_frame"]}
{"id": "C42", "title": "PING frame round trip", "statement": "For every PING frame built through the public constructor, parsing the header and payload octets of serialize() with build_frame returns an equal frame. Opaque data shorter than eight octets is zero padded to eight; longer data is rejected with invalid_argument.", "quantifier": "all constructor arguments in the stated domain", "why_tests_cant": "There are 2^64 opaque payloads for each header; a dropped octet shows only where it is not zero.", "anchors": ["mh2c/frame/ping_frame.cpp", "mh2c/frame/frame_builder.cpp: build_ping_frame"]}
{"id": "C43", "title": "GOAWAY frame round trip", "statement": "For every GOAWAY frame built through the public constructor with reserved <= 1, last stream id < 2^31 and debug data < 2^24-8 octets, parsing the header and payload octets of serialize() with build_frame returns an equal frame.", "quantifier": "all constructor arguments in the stated domain", "why_tests_cant": "Debug data is unbounded and follows 2^63 identifiers and codes; tests use short texts.", "anchors": ["mh2c/frame/goaway_frame.cpp", "mh2c/frame/frame_builder.cpp: build_goaway_frame"]}
{"id": "C44", "title": "WINDOW_UPDATE frame round trip", "statement": "For every WINDOW_UPDATE frame built through the public constructor with reserved <= 1 and stream id < 2^31, parsing the header and payload octets of serialize() with build_frame returns an equal frame. Increments above 2^31-1 are rejected with invalid_argument.", "quantifier": "all constructor arguments in the stated domain", "why_tests_cant": "There are 2^31 increments for each header; the reserved bit and byte order show only for large ones.", "anchors": ["mh2c/frame/window_update_frame.cpp", "mh2c/frame/frame_builder.cpp: build_window_update_frame"]}
{"id": "C45", "title": "CONTINUATION frame round trip", "statement": "For every CONTINUATION frame built through the public constructor with stream id < 2^31 and payload < 2^24 octets, parsing the header and payload octets of serialize() with build_frame returns an equal frame. Equal where the headers found in a table carry the INDEXED prefix; otherwise only that prefix differs (C25).", "quantifier": "all constructor arguments in the stated domain", "why_tests_cant": "Header blocks are unbounded and combine with encoding mode and table contents.", "anchors": ["mh2c/frame/continuation_frame.cpp", "mh2c/frame/frame_builder.cpp: build_continuation_frame"]}
{"id": "C46", "title": "Announced length equals payload length", "statement": "For every frame built through a public constructor whose payload is below 2^24 octets, the length field on the wire equals the number of octets serialize() writes after the nine-octet header.", "quantifier": "all frames of all ten types", "why_tests_cant": "The announced length must match for payloads of every size, including sizes at the limits of the length field.", "anchors": ["mh2c/frame/continuation_frame.cpp: construct_frame_header, serialize", "mh2c/frame/data_frame.cpp: construct_frame_header, serialize", "mh2c/frame/frame_header.cpp: serialize", "mh2c/frame/goaway_frame.cpp: construct_frame_header, serialize", "mh2c/frame/headers_frame.cpp: construct_frame_header, serialize", "mh2c/frame/ping_frame.cpp: construct_frame_header, serialize", "mh2c/frame/priority_frame.cpp: construct_frame_header, serialize", "mh2c/frame/push_promise_frame.cpp: construct_frame_header, serialize", "mh2c/frame/raw_frame.cpp: serialize", "mh2c/frame/rst_stream_frame.cpp: construct_frame_header, serialize", "mh2c/frame/settings_frame.cpp: construct_frame_header, serialize", "mh2c/frame/window_update_frame.cpp: construct_frame_header, serialize"]}
{"id": "C47", "title": "A stream of frames is parsed back frame by frame", "statement": "For every list of frames sent back to back with send_frame, a receiver doing receive_frame repeatedly obtains equal frames in the same order and ends exactly at the end of the stream (header-carrying frames as in C37, C41 and C45, relative to the receiver's table).", "quantifier": "all lists of frames, all transport chunkings", "why_tests_cant": "Lists of frames are unbounded and a transport may cut the stream anywhere; tests deliver whole buffers.", "anchors": ["mh2c/http2_client.cpp: receive_frame", "mh2c/http2_client.ipp: send_frame"]}
{"id": "C48", "title": "Unknown frame types are reported without losing framing", "statement": "For every frame whose type is above 9, receive_frame throws out_of_range after consuming exactly that frame, and leaves both tables unchanged.", "quantifier": "all types 10..255, all payloads", "why_tests_cant": "There are 246 unknown types with payloads of any length, and the frame after each must still be found.", "anchors": ["mh2c/frame/frame_builder.cpp: build_frame", "mh2c/http2_client.cpp: receive_frame"]}
{"id": "C49", "title": "Short fixed-size frames are rejected, never read out of bounds", "statement": "For every payload, building PRIORITY with fewer than 5 octets, RST_STREAM with fewer than 4, GOAWAY with fewer than 8, or WINDOW_UPDATE with other than 4 octets throws invalid_argument, and in every other case these builders return a frame; none has undefined behaviour.", "quantifier": "all payloads", "why_tests_cant": "Payloads are hostile and of every length; an out-of-bounds read is undefined behaviour that a test may not notice.", "anchors": ["mh2c/frame/priority_frame.cpp", "mh2c/frame/rst_stream_frame.cpp", "mh2c/frame/goaway_frame.cpp", "mh2c/frame/window_update_frame.cpp"]}
{"id": "C50", "title": "Malformed SETTINGS payloads are rejected", "statement": "A SETTINGS payload whose length is not a multiple of six is rejected. (False of the code: it reads past the end of the payload, for exactly these lengths.)", "quantifier": "all payloads", "why_tests_cant": "All lengths and contents are possible; reading past the end is undefined behaviour that a test may not notice.", "anchors": ["mh2c/frame/frame_builder.cpp: build_settings_frame"]}
{"id": "C51", "title": "Malformed padding is rejected", "statement": "A HEADERS or PUSH_PROMISE payload whose pad length does not leave room is rejected with an exception. (False of the code: it moves iterators outside the buffer, for exactly the payloads that are empty or whose pad length is >= the payload length.)", "quantifier": "all payloads", "why_tests_cant": "Every combination of pad length and payload length is possible; the underflow it can cause is undefined behaviour a test may not notice.", "anchors": ["mh2c/frame/headers_frame.cpp: decode_payload", "mh2c/frame/push_promise_frame.cpp: decode_payload"]}
{"id": "C52", "title": "Repeated settings take the last value", "statement": "RFC 7540 6.5.3: values of a SETTINGS frame are processed in order, so the last occurrence of an identifier wins. (False of the code: the first wins. Proved: the parsed map holds exactly the first value of each identifier.)", "quantifier": "all SETTINGS payloads", "why_tests_cant": "Payloads list any number of parameters in any order; tests repeat one or two.", "anchors": ["mh2c/frame/frame_builder.cpp: build_settings_frame", "mh2c/frame/settings_frame.cpp: make_sf_payload"]}
{"id": "C53", "title": "Constructors validate their arguments", "statement": "priority_frame throws invalid_argument iff exclusive > 1 or dependency > 2^31-1; window_update_frame throws iff increment > 2^31-1; ping_frame throws iff the data is longer than eight octets; the other constructors of fixed layout frames never throw.", "quantifier": "all arguments", "why_tests_cant": "The arguments have 2^72 combinations, and each must be either accepted or refused.", "anchors": ["mh2c/frame/priority_frame.cpp: validate_payload", "mh2c/frame/window_update_frame.cpp: validate_window_size", "mh2c/frame/ping_frame.cpp: construct_opaque_data"]}
{"id": "C54", "title": "One-bit fields never corrupt neighbouring fields", "statement": "Whatever value the caller puts in a one-bit field (reserved, exclusive), serialization only uses its low bit. (True for the frame header, PRIORITY, PUSH_PROMISE, WINDOW_UPDATE; false for GOAWAY reserved and HEADERS exclusive, where any value >= 2 is an undefined shift.)", "quantifier": "all 256 values of the field, all other arguments", "why_tests_cant": "A value other than 0 and 1 is undefined behaviour or corrupts neighbours only for some of the 256 values; tests pass 0 and 1.", "anchors": ["mh2c/frame/goaway_frame.cpp: serialize", "mh2c/frame/headers_frame.cpp: construct_encoded_payload", "mh2c/frame/window_update_frame.cpp: serialize"]}
{"id": "C55", "title": "Sending is all-or-exception and in order", "statement": "For every buffer, every length and every behaviour of the TLS layer (any split into partial writes, failure at any point), send_raw_data returns normally only if exactly the buffer was appended to the wire, and throws runtime_error otherwise with a strict prefix of the buffer on the wire.", "quantifier": "all buffers, all partial-write schedules and failure points", "why_tests_cant": "The transport may accept any part of the buffer at each call and fail at any of them; schedules are unbounded.", "anchors": ["mh2c/ssl/ssl_connection.cpp: write", "mh2c/http2_client.cpp: send_raw_data"]}
{"id": "C56", "title": "Receiving delivers exactly the requested octets", "statement": "For every requested length and every behaviour of the TLS layer, receive_raw_data returns normally only with the next length octets of the stream in order, and throws runtime_error otherwise.", "quantifier": "all lengths, all partial-read schedules and failure points", "why_tests_cant": "The transport may deliver any part at each call and fail at any of them; schedules are unbounded.", "anchors": ["mh2c/ssl/ssl_connection.cpp: read", "mh2c/http2_client.cpp: receive_raw_data"]}
{"id": "C57", "title": "Results do not depend on how the transport splits the stream", "statement": "Two runs of receive_frame on the same octet stream under any two transport schedules that both succeed return equal frames and equal table states, and any schedule that makes progress succeeds when the octets are available.", "quantifier": "all pairs of schedules, all streams", "why_tests_cant": "The claim compares every pair of schedules for every stream; tests run one schedule, usually the unsplit one.", "anchors": ["mh2c/http2_client.cpp: receive_frame", "mh2c/ssl/ssl_connection.cpp: read"]}
{"id": "C58", "title": "receive_frame consumes exactly one frame", "statement": "Whenever receive_frame returns a frame or throws while building it, exactly nine plus the announced length octets were consumed, so the next call starts at the next frame.", "quantifier": "all streams, all tables, all schedules", "why_tests_cant": "Streams, tables and schedules are unbounded, and one octet too many is noticed only when the next frame is read.", "anchors": ["mh2c/http2_client.cpp: receive_frame"]}
{"id": "C59", "title": "Send and receive sides do not interfere", "statement": "receive_frame never changes the request table; sending and the request-table operations never change the response table or consume input; sending changes no table.", "quantifier": "all client states and operations, hence all histories", "why_tests_cant": "Interference would show only after particular interleavings, and histories are unbounded.", "anchors": ["mh2c/http2_client.cpp"]}
{"id": "C60", "title": "A receive_frame that throws leaves both tables unchanged", "statement": "For every state and input, if receive_frame throws, request and response dynamic tables are as before the call.", "quantifier": "all states, inputs, failure points", "why_tests_cant": "The failure may come at any octet of any frame in any state; tests provoke a few.", "anchors": ["mh2c/http2_client.cpp: receive_frame, update_dynamic_table"]}
{"id": "C61", "title": "An undecodable HEADERS frame is delivered as a raw frame", "statement": "build_frame never throws for HEADERS: if the header block cannot be decoded with an exception it yields a raw frame with the same header and payload; receive_frame delivers that raw frame. (Second half false of the code: receive_frame dereferences the null result of a dynamic_cast in exactly these cases.)", "quantifier": "all HEADERS payloads, all tables", "why_tests_cant": "The payload is hostile; some payloads lead to undefined behaviour, which a test may pass by luck.", "anchors": ["mh2c/frame/frame_builder.cpp: build_headers_frame", "mh2c/http2_client.cpp: update_dynamic_table"]}
{"id": "C62", "title": "The peer's SETTINGS_HEADER_TABLE_SIZE governs the request table", "statement": "RFC 7540 6.5.2: the value announced by the peer limits the encoder, i.e. the request table, and does not alter the table used to decode responses. (False of the code: it resizes the response table and leaves the request table alone. Proved exactly: a SETTINGS frame leaves both tables as wanted if and only if the sizes announced are none, or the first is the size the response table has and the last one the request table is within.)", "quantifier": "all SETTINGS frames, all states", "why_tests_cant": "The effect depends on everything both sides did before, over unbounded histories.", "anchors": ["mh2c/http2_client.cpp: update_dynamic_table"]}
{"id": "C63", "title": "Response table invariant over any session", "statement": "After any sequence of client operations that does not hit undefined behaviour, both dynamic tables satisfy the size accounting invariant.", "quantifier": "all operation sequences, inputs and schedules", "why_tests_cant": "It is an invariant of a stateful table over operation sequences of any length with hostile input.", "anchors": ["mh2c/http2_client.cpp"]}
{"id": "C64", "title": "A client object exists only over a verified h2 connection", "statement": "For every outcome of the OpenSSL calls, the constructor returns only if connect and handshake succeeded, the peer selected ALPN protocol h2 exactly, and - when VERIFY_SERVER_CERT was asked - the certificate chain verified; in all other cases it throws runtime_error. (The host name is not part of the check.)", "quantifier": "all outcomes of every OpenSSL call, both modes", "why_tests_cant": "A test cannot make every OpenSSL call fail in every combination; a missing check shows only in the combination it guards.", "anchors": ["mh2c/ssl/ssl_connection.cpp: ssl_connection"]}
{"id": "C65", "title": "Connection preface", "statement": "send_connection_preface sends exactly the 24 octets of RFC 7540 3.5, whatever the transport splitting.", "quantifier": "all schedules", "why_tests_cant": "The transport may accept the preface in any pieces and fail after any of them.", "anchors": ["mh2c/http2_client.cpp: send_connection_preface"]}
{"id": "C66", "title": "Receive loop of the sample stops at the right frame", "statement": "The sample receive loop consumes frames up to and including the first GOAWAY or the first DATA with END_STREAM, and returns that frame's type.", "quantifier": "all frame sequences", "why_tests_cant": "The server may send any number of other frames, in any order, before the one that ends the loop.", "anchors": ["sample/h2_get/sample_h2_get.cpp: receive_frames, is_more_data"]}
{"id": "C67", "title": "Printing a frame does not depend on what was printed before", "statement": "operator<< of a frame writes the same text whatever was written to the stream before. (False of the code for SETTINGS: PING, DATA, padded and raw frames leave the stream in hexadecimal mode and SETTINGS values are then printed in hexadecimal.)", "quantifier": "all sequences of dumped frames", "why_tests_cant": "What was printed before may be any sequence of frames; format flags left set show only for particular successors.", "anchors": ["mh2c/frame/settings_frame.cpp: dump", "mh2c/frame/ping_frame.cpp: dump", "mh2c/frame/data_frame.cpp: dump", "mh2c/frame/raw_frame.cpp: dump"]}
{"id": "C68", "title": "Printing a received DATA frame is memory safe", "statement": "Dumping a DATA frame never reads outside its payload and prints data and padding separately. (False of the code for a PADDED frame whose pad length is >= the payload length; exact condition proved.)", "quantifier": "all DATA frames", "why_tests_cant": "Reading out of bounds is undefined behaviour and often prints plausible text; payloads and paddings are unbounded.", "anchors": ["mh2c/frame/data_frame.cpp: dump"]}
{"id": "C69", "title": "Printing a received GOAWAY frame is memory safe", "statement": "Dumping a GOAWAY frame never reads outside the debug data. (False of the code when the debug data is non-empty and has no NUL octet; exact condition proved.)", "quantifier": "all GOAWAY frames", "why_tests_cant": "Reading past the end is undefined behaviour and often prints plausible text; debug data is unbounded.", "anchors": ["mh2c/frame/goaway_frame.cpp: dump"]}
{"id": "C70", "title": "Printing any other frame succeeds", "statement": "Every HEADERS, PRIORITY, RST_STREAM, SETTINGS, PUSH_PROMISE, PING, WINDOW_UPDATE, CONTINUATION or raw frame obtained from build_frame can be dumped without exception or undefined behaviour. The same holds of every frame of these classes made with the public constructors. No received or constructed frame of any class makes printing throw.", "quantifier": "all received frames and all frames made with the constructors", "why_tests_cant": "Payloads and blocks are unbounded, and a frame that makes printing throw or read out of bounds need not be among those tried.", "anchors": ["mh2c/frame/continuation_frame.cpp: dump", "mh2c/frame/data_frame.cpp: dump", "mh2c/frame/goaway_frame.cpp: dump", "mh2c/frame/headers_frame.cpp: dump", "mh2c/frame/ping_frame.cpp: dump", "mh2c/frame/priority_frame.cpp: dump", "mh2c/frame/push_promise_frame.cpp: dump", "mh2c/frame/raw_frame.cpp: dump", "mh2c/frame/rst_stream_frame.cpp: dump", "mh2c/frame/settings_frame.cpp: dump", "mh2c/frame/window_update_frame.cpp: dump"]}
{"id": "C71", "title": "A header block split over HEADERS and CONTINUATION", "statement": "Splitting a header block at any octet and sending the parts as HEADERS and CONTINUATION is received as the same header list. (False of the code when the split is inside a header representation; proved exactly for splits between representations.)", "quantifier": "all header blocks, all split points", "why_tests_cant": "Every octet of every block is a possible split point; tests split at a few.", "anchors": ["mh2c/frame/continuation_frame.cpp: decode_payload", "mh2c/http2_client.cpp: receive_frame"]}
{"id": "C72", "title": "The sample program sends exactly its advertised conversation", "statement": "Whatever the server sends and however the transport behaves, at every point where the sample program can stop the octets it has sent are a prefix of: connection preface, SETTINGS, SETTINGS ACK, the GET request, GOAWAY. A run that ends normally sent all of it (without the GOAWAY if the server sent one first), and a standard HPACK decoder reads the request as the GET the program was given.", "quantifier": "all server behaviours, all schedules, all stop points", "why_tests_cant": "The server and the transport may stop the program at any point and in any way; schedules are unbounded.", "anchors": ["sample/h2_get/sample_h2_get.cpp: main", "mh2c/http2_client.ipp: send_frame"]}
{"id": "C73", "title": "Every call comes back", "statement": "No call of the API - building a frame from any payload, decoding or encoding any header block, sending, receiving, printing - runs forever, for any input and any behaviour of the transport: it returns, throws, or has already made a step that C++ leaves undefined.", "quantifier": "all inputs, all schedules", "why_tests_cant": "Termination is a statement about all inputs and schedules; a test only shows that some runs ended.", "anchors": ["mh2c/frame/frame_builder.cpp", "mh2c/hpack/header_decoder.cpp", "mh2c/http2_client.cpp", "mh2c/ssl/ssl_connection.cpp"]}
{"id": "C74", "title": "Printed text shows every field", "statement": "operator<< of a frame writes exactly its title, the five header fields in decimal, and its payload in a fixed layout that shows every payload member, numbers in conventional notation (the shortest numeral of the value); DATA shows its data as indented text and its padding as hexadecimal octets, GOAWAY its debug data up to the first NUL.", "quantifier": "all frames of every class, all stream states", "why_tests_cant": "Payloads are unbounded and every field value must be recoverable from the text; tests compare a few outputs.", "anchors": ["mh2c/frame/continuation_frame.cpp: dump", "mh2c/frame/data_frame.cpp: dump", "mh2c/frame/goaway_frame.cpp: dump", "mh2c/frame/headers_frame.cpp: dump", "mh2c/frame/ping_frame.cpp: dump", "mh2c/frame/priority_frame.cpp: dump", "mh2c/frame/push_promise_frame.cpp: dump", "mh2c/frame/raw_frame.cpp: dump", "mh2c/frame/rst_stream_frame.cpp: dump", "mh2c/frame/settings_frame.cpp: dump", "mh2c/frame/window_update_frame.cpp: dump", "mh2c/frame/frame_header.cpp: operator<<"]}
{"id": "C75", "title": "Names in printed text are those of RFC 7540", "statement": "RST_STREAM and GOAWAY print every error code RFC 7540 section 7 names by that name, SETTINGS prints every parameter of section 6.5.2 by that name, other values as numbers. (False of the code for INTERNAL_ERROR and SETTINGS_MAX_CONCURRENT_STREAMS, which are misspelt; proved for all others.)", "quantifier": "all error codes and setting identifiers, all frames printing them", "why_tests_cant": "There are 2^32 codes and 2^16 identifiers, printed by frames of unbounded size onto a stream in any state.", "anchors": ["mh2c/frame/error_codes.ipp", "mh2c/frame/settings_frame.cpp: dump"]}
{"id": "C76", "title": "Printed text identifies the frame", "statement": "Two frames printed on a fresh stream as the same text are the same frame, so a log can be trusted. (False of the code for header blocks whose strings contain a line break and for GOAWAY debug data after a NUL, where it is proved to be the only thing that can differ; proved for all frames whose text shows all their octets.)", "quantifier": "all pairs of frames", "why_tests_cant": "Injectivity compares all pairs of frames of unbounded size; tests compare a few pairs.", "anchors": ["mh2c/frame/continuation_frame.cpp: dump", "mh2c/frame/data_frame.cpp: dump", "mh2c/frame/goaway_frame.cpp: dump", "mh2c/frame/headers_frame.cpp: dump", "mh2c/frame/ping_frame.cpp: dump", "mh2c/frame/priority_frame.cpp: dump", "mh2c/frame/push_promise_frame.cpp: dump", "mh2c/frame/raw_frame.cpp: dump", "mh2c/frame/rst_stream_frame.cpp: dump", "mh2c/frame/settings_frame.cpp: dump", "mh2c/frame/window_update_frame.cpp: dump"]}
{"id": "C77", "title": "The dynamic table listing shows the usable indices", "statement": "operator<< of a dynamic table lists every entry once, newest first, numbered from 62, and a received indexed representation with the printed number decodes to the printed header.", "quantifier": "all tables, all entries, all integer encodings of the index", "why_tests_cant": "Tables have any number of entries, and the printed index must decode to its entry for each.", "anchors": ["mh2c/hpack/dynamic_table.cpp: operator<<", "mh2c/hpack/header_decoder.cpp: decode_header"]}
{"id": "C78", "title": "Frame equality", "statement": "operator== of the frame classes is an equivalence relation that compares every member but the encoded octets of a header block; equal frames print the same text and are sent as the same octets. (Last part false of the code: two HEADERS that differ only in encoding mode can compare equal and be sent as different octets; proved for frames without header block and for header-block frames encoded in the same mode against the same table.)", "quantifier": "all pairs and triples of frames", "why_tests_cant": "Equality laws range over pairs and triples of frames with unbounded payloads.", "anchors": ["mh2c/frame/continuation_frame.h: operator==", "mh2c/frame/data_frame.h: operator==", "mh2c/frame/frame_header.h: operator==", "mh2c/frame/goaway_frame.h: operator==", "mh2c/frame/headers_frame.h: operator==", "mh2c/frame/ping_frame.h: operator==", "mh2c/frame/priority_frame.h: operator==", "mh2c/frame/push_promise_frame.h: operator==", "mh2c/frame/rst_stream_frame.h: operator==", "mh2c/frame/settings_frame.h: operator==", "mh2c/frame/window_update_frame.h: operator==", "mh2c/hpack/header_type.h: operator=="]}
{"id": "C79", "title": "A truncated header block is rejected", "statement": "If a received header block ends in the middle of a representation, decoding throws; every block of complete representations is decoded or rejected by an exception. (First half false of the code: a block cut short is read past its end, never rejected; second half proved for shortest-form integers and tables without empty names, and shown false otherwise.)", "quantifier": "all blocks, all cut positions, all tables", "why_tests_cant": "Every cut of every block must be refused; tests cut a few blocks in a few places.", "anchors": ["mh2c/hpack/header_decoder.cpp: decode_header"]}
{"id": "C80", "title": "Which received frames are safe", "statement": "For every frame header, payload and table: build_frame has defined behaviour for every DATA, PRIORITY, RST_STREAM, PING, GOAWAY, WINDOW_UPDATE and unknown frame; for SETTINGS exactly when the length is a multiple of six; for HEADERS, PUSH_PROMISE and CONTINUATION exactly when padding and fixed fields fit and the header block is safe to decode. receive_frame is safe under the same conditions if the headers inserted fit the table and a HEADERS block decodes.", "quantifier": "all frame headers, payloads, tables, clients and transports", "why_tests_cant": "The peer may send any octets at all; undefined behaviour for one of them is not visible in tests of others.", "anchors": ["mh2c/frame/frame_builder.cpp: build_frame", "mh2c/http2_client.cpp: receive_frame"]}
{"id": "C81", "title": "A client connects to the endpoint it was given", "statement": "A client constructed with a host and a port asks OpenSSL for exactly one endpoint, the host name, a colon and the port in decimal, and different hosts or ports give different endpoints. (False of the code for host names with a NUL octet: the rest of the name and the port are dropped; proved for all others.)", "quantifier": "all host names, all ports, all outcomes of the OpenSSL calls", "why_tests_cant": "Host names are all strings and ports all numbers; a truncated or swapped one shows only for particular values.", "anchors": ["mh2c/ssl/ssl_connection.cpp: ssl_connection"]}
{"id": "C82", "title": "A verifying client talks only to the server it named", "statement": "A client constructed with VERIFY_SERVER_CERT exists only if the server presented a trusted certificate for the host name given. (False of the code: the host name is never compared with the certificate, so any trusted certificate is accepted, and no server name indication is sent; proved: the chain is trusted.)", "quantifier": "all hosts, all servers, all outcomes of the OpenSSL calls", "why_tests_cant": "It must hold against adversarial servers with any certificate, and for every outcome of every OpenSSL call.", "anchors": ["mh2c/ssl/ssl_connection.cpp: ssl_connection"]}
{"id": "C83", "title": "TLS objects are owned and released exactly once", "statement": "Whichever step of constructing a client fails, and however many clients a process makes one after the other, every OpenSSL call is made on live objects, every object created is freed exactly once, and the OpenSSL library is initialised at most once and before any connection is attempted. (Initialisation before the first context is created is false of the code.)", "quantifier": "all failure points, all sequences of clients, all uses", "why_tests_cant": "Leaks and double releases depend on the failure point and on the history of clients; tests run the success path.", "anchors": ["mh2c/ssl/ssl_connection.cpp", "mh2c/ssl/ssl_ctx.cpp", "mh2c/ssl/ssl_bio.cpp", "mh2c/http2_client.cpp: http2_client, ~http2_client"]}
{"id": "C84", "title": "Frame rules of RFC 7540 section 6", "statement": "A received frame is delivered exactly if it keeps the rules of RFC 7540 section 6 for its type: stream identifier zero or non-zero, payload length and padding. (Proved: every legal frame is delivered as a frame of its type. False of the code in the other direction: stream identifiers are never checked and wrong lengths of PRIORITY, RST_STREAM, PING and a zero WINDOW_UPDATE are accepted; what is checked instead is proved exactly.)", "quantifier": "all frame headers, payloads and tables", "why_tests_cant": "A peer may send any octets with any header and table; tests try a few violations of each rule.", "anchors": ["mh2c/frame/frame_builder.cpp: build_frame", "mh2c/frame/headers_frame.cpp: decode_payload", "mh2c/frame/push_promise_frame.cpp: decode_payload", "mh2c/frame/continuation_frame.cpp: decode_payload"]}
{"id": "C85", "title": "A whole connection's worth of frames is received as the server meant it", "statement": "Take everything a server sends from the first frame on: receive_frame returns frame after frame the type sent and, for HEADERS, PUSH_PROMISE and CONTINUATION, exactly the header list the server's HPACK encoder encoded, however the transport cuts the octets, and the dynamic tables of both ends stay equal. (Proved for servers that keep to the parts of HPACK the client implements, and, for servers that keep to its integer and table limits, exactly when every header list arrives as meant.)", "quantifier": "all server streams of any number of frames, all transports", "why_tests_cant": "A connection has any number of frames, each read in the state the earlier ones leave, over any transport.", "anchors": ["mh2c/http2_client.cpp: receive_frame", "mh2c/hpack/header_decoder.cpp: decode_header", "mh2c/hpack/dynamic_table.cpp"]}
{"id": "C86", "title": "Decompression is bounded", "statement": "A header block of n octets decodes to at most n headers, and to a header list (name + value + 32 per header) of at most n times the dynamic table size (at least 60) plus 8/5; on a connection the bound follows from the announced length and the table limit. The bound is attained by repeating an index: the client itself has no lower limit.", "quantifier": "all blocks, tables and histories", "why_tests_cant": "Amplification is a worst case over all inputs and histories; tests measure typical ones.", "anchors": ["mh2c/hpack/header_decoder.cpp: decode_header", "mh2c/hpack/huffman_decoder.cpp: decode", "mh2c/http2_client.cpp: receive_frame"]}
{"id": "C87", "title": "The octets identify the frames", "statement": "Two frames built for the same request table whose octets are equal, or one of which begins with the other's octets, compare equal with operator==; two clients that start with equal tables and put the same octets on the wire sent, frame by frame, equal frames.", "quantifier": "all pairs of frames of ten types, all pairs of conversations of any length", "why_tests_cant": "The claim compares pairs of conversations of any length; tests compare a few pairs.", "anchors": ["mh2c/frame/continuation_frame.cpp: serialize", "mh2c/frame/data_frame.cpp: serialize", "mh2c/frame/frame_header.cpp: serialize", "mh2c/frame/goaway_frame.cpp: serialize", "mh2c/frame/headers_frame.cpp: serialize", "mh2c/frame/ping_frame.cpp: serialize", "mh2c/frame/priority_frame.cpp: serialize", "mh2c/frame/push_promise_frame.cpp: serialize", "mh2c/frame/raw_frame.cpp: serialize", "mh2c/frame/rst_stream_frame.cpp: serialize", "mh2c/frame/settings_frame.cpp: serialize", "mh2c/frame/window_update_frame.cpp: serialize", "mh2c/frame/frame_header.cpp: serialize", "mh2c/hpack/header_encoder.cpp: encode_header", "mh2c/http2_client.ipp: send_frame"]}
{"id": "C88", "title": "Sending and receiving do not interfere", "statement": "In any sequence of calls on one client, the results of the receiving calls depend only on what the peer sent and on the other receiving calls, and the results and octets of the sending calls depend only on the other sending calls: interleaving one kind with the other changes nothing.", "quantifier": "all sequences of calls, all interleavings, all arguments, all transports", "why_tests_cant": "All interleavings of two unbounded sequences of calls must agree; tests run a few interleavings.", "anchors": ["mh2c/http2_client.ipp: send_frame", "mh2c/http2_client.cpp: receive_frame, send_raw_data, receive_raw_data, update_request_dynamic_table"]}
{"id": "C89", "title": "Octets sent and received account for the calls", "statement": "After any sequence of calls, whatever failed in it, the octets put on the wire are the concatenation, in call order, of what each call was asked to send (a prefix of it where the call threw), and the octets taken from the input are the concatenation of what each receiving call returned: one whole frame, or the octets asked for, or a part where it threw.", "quantifier": "all sequences of calls, all arguments, all failures of the transport", "why_tests_cant": "Failures may occur at every point of every sequence of calls; tests provoke a few.", "anchors": ["mh2c/http2_client.cpp", "mh2c/ssl/ssl_connection.cpp: read, write"]}
{"id": "C90", "title": "Reporting a header block is all or nothing", "statement": "update_request_dynamic_table(block) touches nothing but the request table; it either returns, with every entry applied in order as RFC 7541 section 4 says, or throws and leaves the table as it was. (False of the code: when it throws, the entries before the offending one have been applied. Proved: exactly those have; it throws only on an entry whose prefix and contents contradict each other; it is undefined exactly where an inserted header is larger than the table.)", "quantifier": "all tables, all blocks", "why_tests_cant": "The failure may come at every entry of every block with every table; tests provoke a few.", "anchors": ["mh2c/http2_client.cpp: update_request_dynamic_table, update_dynamic_table", "mh2c/hpack/dynamic_table.cpp"]}
{"id": "C91", "title": "A whole connection's worth of requests is read as the client meant it", "statement": "A client sends the preface and then any number of HEADERS frames, each continued as its END_HEADERS flag says and reported through update_request_dynamic_table, and any frames without a header block, while it receives in between whatever the server sends: a server conforming to RFC 7540 and RFC 7541 reads exactly those frames and header lists, in no other way, and its table ends up equal to the client's request table. (Proved for blocks with the restrictions of C31 and C33; without them it is false of the code. For header blocks, proved exactly which sequences are read as meant, whatever has become of the tables.)", "quantifier": "all request histories of any length, all header blocks, flags, paddings, priorities and encodings", "why_tests_cant": "Histories are unbounded and both ends keep state; a divergence shows only in a later request.", "anchors": ["mh2c/http2_client.cpp: send_connection_preface, update_request_dynamic_table", "mh2c/http2_client.ipp: send_frame", "mh2c/hpack/header_encoder.cpp: encode_header", "mh2c/frame/headers_frame.cpp", "mh2c/frame/continuation_frame.cpp"]}
{"id": "C92", "title": "Using a dynamic table directly keeps it consistent", "statement": "However a program uses a dynamic_table object - pushing, popping, resizing, reading it, in any order - the reported size stays the RFC 7541 size of the entries and within the maximum, and the entries are what RFC 7541 section 4 says. (False of the code: begin() and end() hand out iterators through which an entry can be overwritten without the size being told, and a later call can then be undefined. Proved for histories without such writes.)", "quantifier": "all histories of calls on a table, all contents", "why_tests_cant": "A stateful object is used through call histories of any length; tests run short ones.", "anchors": ["mh2c/hpack/dynamic_table.h", "mh2c/hpack/dynamic_table.cpp"]}
{"id": "C93", "title": "Changing the request table's size does not confuse the peer", "statement": "update_request_dynamic_table(n) may be called between requests with any n: the peer goes on decoding every later header block to the headers the client sent. (False of the code when n exceeds the size the peer keeps: nothing is signalled, and a later block may refer to an entry the peer has evicted. Proved when n never exceeds the peer's maximum: the client's entries are then always a prefix of the peer's.)", "quantifier": "all sessions of any length mixing requests and size changes", "why_tests_cant": "Sessions mix requests and size changes in any order and number, with state on both ends.", "anchors": ["mh2c/http2_client.cpp: update_request_dynamic_table", "mh2c/hpack/dynamic_table.cpp: update_table_size", "mh2c/hpack/header_encoder.cpp: encode_header"]}
{"id": "C94", "title": "Header entries keep what they are given", "statement": "The accessors of a header block entry return the prefix and the contents it was built with, the accessor for the other kind of contents throws, set_header replaces the contents only and the last call wins, an edited entry is encoded as if built afresh, and an entry built from a header alone is sent never indexed.", "quantifier": "all prefixes, headers, sizes and sequences of edits", "why_tests_cant": "Contents are unbounded and edits may follow each other in any order and number.", "anchors": ["mh2c/hpack/header_type.h", "mh2c/hpack/header_type.cpp: header_block_entry"]}
{"id": "C95", "title": "Encoded header blocks are bounded", "statement": "The octets of an encoded header block are at most the block's header list size (RFC 7540 section 6.5.2: name, value and 32 octets for each header) without Huffman coding, and at most four times the text plus 32 octets for each header with it; a HEADERS frame adds at most 15 octets and its padding, CONTINUATION at most 9, PUSH_PROMISE at most 14 and its padding. So a caller can keep below the peer's SETTINGS_MAX_FRAME_SIZE by counting.", "quantifier": "all header blocks, modes, tables, flags, paddings (lengths below 2^61)", "why_tests_cant": "Texts and tables are unbounded; a bound that fails only for particular lengths is missed by sampling.", "anchors": ["mh2c/hpack/header_encoder.cpp: encode_header", "mh2c/frame/headers_frame.cpp", "mh2c/frame/continuation_frame.cpp", "mh2c/frame/push_promise_frame.cpp"]}
{"id": "C96", "title": "A received frame can be sent on unchanged", "statement": "serialize() of a frame returned by receive_frame() gives the octets it was read from; so a program that passes every frame received from one connection on to another writes exactly what it read. (False of the code for SETTINGS frames with repeated identifiers - the relayed frame can mean something else - or identifiers out of order. Proved that it holds exactly for frames with identifiers in increasing order, clear reserved bit on DATA and SETTINGS, and exact lengths of PRIORITY and RST_STREAM, and exactly for connections of such frames.)", "quantifier": "all received frames of every type, all tables, relays of any number of frames, all transport schedules", "why_tests_cant": "Frames have any content and sessions any length; a field lost in relaying shows only where it is not zero.", "anchors": ["mh2c/frame/frame_builder.cpp", "mh2c/frame/continuation_frame.cpp: serialize", "mh2c/frame/data_frame.cpp: serialize", "mh2c/frame/goaway_frame.cpp: serialize", "mh2c/frame/headers_frame.cpp: serialize", "mh2c/frame/ping_frame.cpp: serialize", "mh2c/frame/priority_frame.cpp: serialize", "mh2c/frame/push_promise_frame.cpp: serialize", "mh2c/frame/raw_frame.cpp: serialize", "mh2c/frame/rst_stream_frame.cpp: serialize", "mh2c/frame/settings_frame.cpp: serialize", "mh2c/frame/window_update_frame.cpp: serialize", "mh2c/http2_client.cpp: receive_frame", "mh2c/http2_client.ipp: send_frame"]}
{"id": "C97", "title": "A rejected frame leaves the connection usable", "statement": "If receive_frame throws for a frame it has read, a program can catch the exception and go on: the client is as if the server had not sent the frame, and later frames are delivered as the server meant them. (False of the code when the rejected frame carries a header block that changes the server's HPACK table: a later block is then delivered with wrong headers and no sign of it. Proved: the next frame is next, tables and sending side are as before, and, of everything sent later, exactly what is understood.)", "quantifier": "all clients, frames, exceptions and transport schedules", "why_tests_cant": "Any frame may be rejected, in any way, and any history may follow; tests stop at the exception.", "anchors": ["mh2c/http2_client.cpp: receive_frame", "mh2c/frame/frame_builder.cpp: build_frame"]}
{"id": "C98", "title": "A failed send leaves the connection usable", "statement": "If send_frame throws, the frames sent before are on the wire complete and in order, and a program can catch the exception and send other frames. (The second half is false of the code: a part of the failed frame may already be on the wire, and the peer reads the next frame as the rest of it. Proved: the wire holds the complete frames before the failure and a proper part of the failed one; a program that goes on has sent frames and nothing else exactly if that part is empty.)", "quantifier": "all sequences of frames, all transport schedules", "why_tests_cant": "The transport may fail at any octet of any frame of a sequence of any length.", "anchors": ["mh2c/http2_client.ipp: send_frame", "mh2c/ssl/ssl_connection.cpp: write"]}
{"id": "C99", "title": "The sample stops when the response is complete", "statement": "The sample's receive loop returns when the response to its request is complete (DATA or HEADERS with END_STREAM on stream 1, RST_STREAM on stream 1, or GOAWAY), not before and not later. (False of the code for responses that end with HEADERS or RST_STREAM: the loop reads on. False for DATA with END_STREAM on another stream: the loop returns too early. Proved when the response ends with DATA and DATA comes on stream 1 only.)", "quantifier": "all sequences of frames the server sends, all transport schedules", "why_tests_cant": "The server may send any sequence of frames, of any length and in any pieces.", "anchors": ["sample/h2_get/sample_h2_get.cpp: receive_frames", "sample/h2_get/sample_h2_get.cpp: is_more_data"]}
{"id": "C100", "title": "Accessors of a received frame say what is on the wire", "statement": "For every frame receive_frame returns, get_header gives the type, flags and stream identifier on the wire (length and reserved bit too, except for DATA and SETTINGS), and get_payload gives what RFC 7540 section 6 says such a frame carries: the data of DATA without padding, the octets of PING, the header list of HEADERS and CONTINUATION with padding and priority removed, the priority, the error code, the first value of each setting, the promise, the GOAWAY fields, the window increment. (False of the code for DATA with padding: get_payload includes the pad length and the padding; and for WINDOW_UPDATE with the reserved bit set: the receiver must ignore it, but get_payload adds 2^31.)", "quantifier": "all octet streams, all transport schedules, all tables", "why_tests_cant": "Received frames have any size and content; a wrong accessor agrees with the wire for many of them.", "anchors": ["mh2c/frame/window_update_frame.cpp: get_payload", "mh2c/frame/headers_frame.cpp: get_payload", "mh2c/frame/push_promise_frame.cpp: get_payload", "mh2c/http2_client.cpp: receive_frame"]}
{"id": "C101", "title": "Meaningless flags and reserved bits are ignored", "statement": "Two frames whose headers differ only in flags that RFC 7540 gives no meaning for their type, and in the reserved bit before the stream identifier, are received alike: receive_frame returns frames of the same class whose payload, padding, priority and header list agree and whose headers have the same type and stream identifier, or fails in the same way, and leaves the same response table and the same octets to come.", "quantifier": "all frames of all types with any payload, any two settings of the bits without meaning, all response tables, all transport schedules that deliver the frame", "why_tests_cant": "all combinations of meaningless bits with all payloads and tables", "anchors": ["mh2c/http2_client.cpp: receive_frame", "mh2c/frame/frame_builder.cpp: build_frame", "mh2c/frame/frame_header.cpp: build_frame_header", "mh2c/frame/headers_frame.cpp: headers_frame", "mh2c/frame/push_promise_frame.cpp: push_promise_frame"]}
{"id": "C102", "title": "The peer cannot make the response table larger than agreed", "statement": "The response table takes at most 4096 octets, as RFC 7541 counts them, unless the client has announced more: a size update beyond that is an error (RFC 7541 section 6.3). (False of the code: every size the peer names, in a size update or in SETTINGS, becomes the maximum. Proved: the maximum is always the last size named by the peer, and the table stays within any limit the peer's sizes stay within.)", "quantifier": "all histories of calls, everything the peer may send, all transport schedules", "why_tests_cant": "The peer may send anything for as long as it likes; the table's size is an invariant over all such histories.", "anchors": ["mh2c/http2_client.cpp: update_dynamic_table", "mh2c/http2_client.cpp: receive_frame", "mh2c/hpack/dynamic_table.cpp: update_table_size"]}
{"id": "C103", "title": "Data cannot be read as frames", "statement": "Whatever octets a program sends as the data of a DATA frame, the peer reads them as the data of that one frame; there is no other way to split what was sent into frames. (False of the code for data of 2^24 octets and more: the announced length wraps and the rest of the data is read as frames, whatever frames the author of the data chose. Proved for shorter data, and proved exactly how data of any length are read.)", "quantifier": "all data, flags and stream identifiers, all transport schedules", "why_tests_cant": "Data has any content and length, including octets that look like frames; tests send ordinary text.", "anchors": ["mh2c/frame/data_frame.cpp: data_frame", "mh2c/frame/data_frame.cpp: serialize", "mh2c/frame/frame_header.cpp: serialize", "mh2c/http2_client.ipp: send_frame"]}
{"id": "C104", "title": "Frames are no larger than agreed", "statement": "Frames of more than 16384 octets are neither sent nor accepted unless a larger SETTINGS_MAX_FRAME_SIZE was announced (RFC 7540 section 4.2). (False of the code, both ways, for every such size. Proved: a call of receive_frame takes at most 2^24 + 8 octets from the connection, whatever the peer sends.)", "quantifier": "all frames, all octet streams, all transport schedules", "why_tests_cant": "Lengths and contents are unbounded; tests stay far from the limits.", "anchors": ["mh2c/http2_client.cpp: receive_frame", "mh2c/http2_client.ipp: send_frame", "mh2c/frame/frame_header.cpp: build_frame_header"]}
{"id": "C105", "title": "Nothing comes between HEADERS and its CONTINUATION", "statement": "After a HEADERS or PUSH_PROMISE frame without END_HEADERS, any frame other than a CONTINUATION on the same stream is rejected (RFC 7540 section 4.3). (False of the code: it is delivered. Proved: a frame in between that is neither SETTINGS nor carries a header block changes nothing of what is received after it.)", "quantifier": "all sequences of frames, all tables, all transport schedules", "why_tests_cant": "Any sequence of frames may arrive around a split block; tests send the well-behaved one.", "anchors": ["mh2c/http2_client.cpp: receive_frame", "mh2c/http2_client.cpp: update_dynamic_table", "mh2c/frame/continuation_frame.cpp: continuation_frame"]}
{"id": "C106", "title": "Inserting an entry the table already holds", "statement": "table.push(table.at(i)) - inserting an entry of the table again - has the same effect as inserting a copy of that entry. (False of the code whenever the entry does not survive the insertion: push keeps only a reference to its argument, evicts the entry and then reads it. Exact condition proved.)", "quantifier": "all tables reachable by calls that returned, all positions", "why_tests_cant": "depends on the relation of all entry sizes, the position and the maximum; the failure is a use of a destroyed object, which usually goes unnoticed in a test", "anchors": ["mh2c/hpack/dynamic_table.cpp: push", "mh2c/hpack/dynamic_table.cpp: resize_table", "mh2c/hpack/dynamic_table.cpp: at"]}
{"id": "C107", "title": "Huffman coding never costs octets", "statement": "Building a HEADERS, CONTINUATION or PUSH_PROMISE frame with Huffman coding never takes more octets than building it without. (False of the code, which applies the coding without comparing: any header whose value consists of characters with codes longer than 8 bits - such as < > { } or control characters - gets longer. Proved for every header block whose names and values consist of letters, digits, space and % - . / = _ : & * , ; together with the exact length of a coded string.)", "quantifier": "all header blocks of ordinary text, all tables; all values outside it", "why_tests_cant": "the sum of code lengths over arbitrary text and the growth of the length prefix cannot be sampled", "anchors": ["mh2c/hpack/header_encoder.cpp: encode_header_value", "mh2c/hpack/header_encoder.cpp: encode_header_name", "mh2c/hpack/huffman_encoder.cpp: encode"]}
{"id": "C108", "title": "The sample can fetch a response of any length", "statement": "The sample program keeps the flow-control window open, so that a server that honours it can deliver a response of any length. (False of the code: no run ever sends WINDOW_UPDATE; a run that ends normally with more than 65535 octets of DATA had a server that broke flow control. Proved: the window granted is 65535 octets at every point.)", "quantifier": "all server behaviours, all transport schedules, all stop points", "why_tests_cant": "the limit shows only with long responses and servers that enforce flow control; a test sees one server and one page", "anchors": ["sample/h2_get/sample_h2_get.cpp: main", "sample/h2_get/sample_h2_get.cpp: receive_frames"]}
{"id": "C109", "title": "The sample answers what the server asks", "statement": "The sample program acknowledges every SETTINGS frame and answers every PING the server sends. (False of the code: it sends exactly one acknowledgement and no PING. Proved: in a run that ends normally everything was answered if and only if the server sent SETTINGS exactly once and no PING.)", "quantifier": "all server behaviours, all transport schedules", "why_tests_cant": "depends on the whole sequence of frames the server chooses to send", "anchors": ["sample/h2_get/sample_h2_get.cpp: main", "sample/h2_get/sample_h2_get.cpp: receive_frames"]}
{"id": "C110", "title": "Malformed requests and responses are stopped", "statement": "A header list that RFC 7540 section 8.1.2 calls malformed (upper case names, connection-specific fields, unknown, misplaced, missing or repeated pseudo-header fields) is neither sent nor delivered. (False of the code in both directions, for every malformed list: the client does not look at what the headers mean.)", "quantifier": "all malformed header lists, all clients and tables", "why_tests_cant": "an example shows one malformed list; that none is stopped is a statement about all of them", "anchors": ["mh2c/frame/headers_frame.cpp: headers_frame", "mh2c/http2_client.cpp: http2_client::receive_frame", "mh2c/hpack/header_encoder.cpp: encode_header", "mh2c/hpack/header_decoder.cpp: decode_header"]}
{"id": "C111", "title": "Clients can be made and used in several threads", "statement": "However threads that make and use clients of their own interleave, the OpenSSL library is initialised at most once and never twice at the same time, no connection is attempted before the initialisation has returned, some thread can always go on, and each thread makes exactly the OpenSSL calls it would make alone, on its own live objects, freeing each once; and no OpenSSL object is created before the library is initialised. (False of the code in the last part: a thread creates its context before its own initialisation call, so also while another thread is still initialising. The rest is proved.)", "quantifier": "any number of threads, any sequence of clients in each, all interleavings, all outcomes of the OpenSSL calls", "why_tests_cant": "the number of interleavings is unbounded and a test sees the few the scheduler happens to produce", "anchors": ["mh2c/ssl/ssl_connection.cpp: load_once", "mh2c/ssl/ssl_connection.cpp: load_ssl_lib", "mh2c/ssl/ssl_connection.cpp: ssl_connection", "mh2c/ssl/ssl_ctx.cpp: ssl_ctx", "mh2c/ssl/ssl_bio.cpp: ssl_bio"]}
{"id": "C112", "title": "A response body can be put together from its DATA frames", "statement": "A caller who appends what get_payload gives for the DATA frames of a stream, in the order in which receive_frame returns them, gets the body the server sent on that stream, however it was cut into frames, whatever other frames came in between, and however the transport cut the octets. (False of the code as soon as one of the frames has padding: the result is longer than the body. Proved for all bodies sent without padding.)", "quantifier": "all sequences of frames on all streams, all bodies and ways to cut them, all transport schedules", "why_tests_cant": "all ways to cut a body into frames and to interleave frames; servers that pad are rare in tests", "anchors": ["mh2c/frame/data_frame.cpp: get_payload", "mh2c/frame/frame_builder.cpp: build_frame", "mh2c/http2_client.cpp: receive_frame"]}
{"id": "C113", "title": "Frames can be made ahead of sending them", "statement": "A HEADERS, CONTINUATION or PUSH_PROMISE frame that was made with get_request_dynamic_table() and is sent later, after other header blocks were sent and reported, still means the same headers to the peer. (False of the code, which fixes the positions in the dynamic table when the frame is made: after any insertion of another header in between, a header that was sent as a position means something else. Exact condition proved; in particular frames without such a header can be sent at any time.)", "quantifier": "all header blocks, all tables when the frame is made and when it arrives, all sessions", "why_tests_cant": "depends on everything that is sent between making and sending the frame", "anchors": ["mh2c/frame/headers_frame.cpp: headers_frame", "mh2c/hpack/header_encoder.cpp: encode_header", "mh2c/http2_client.cpp: get_request_dynamic_table", "mh2c/http2_client.ipp: send_frame"]}
{"id": "C114", "title": "Headers that have been indexed are cheap to send again", "statement": "A header that was reported for indexing stays in the request table until 4096 octets of headers (counting 32 more for each) were reported after it, and a request made of such headers and of headers of the static table takes at most two octets for each header and nine for the frame, in every encoding mode and whatever prefixes are asked for.", "quantifier": "all sequences of calls that leave the maximum of the table alone, all header lists, prefixes and encoding modes", "why_tests_cant": "depends on everything reported before; a test shows the size of one request in one history", "anchors": ["mh2c/hpack/header_encoder.cpp: encode_header", "mh2c/hpack/dynamic_table.cpp: push", "mh2c/http2_client.cpp: update_request_dynamic_table"]}
{"id": "C115", "title": "A program behaves the same on every host", "statement": "What a call of the API does - the octets it sends, the frame it returns, the text it prints, the state it leaves - does not depend on the byte order of the host; and it does not depend on whether the standard library tolerates forming v[v.size()], except that a host that does not may run into undefined behaviour where the others go on. Two runs of the same calls on two hosts without undefined behaviour end in the same state.", "quantifier": "all hosts (byte order and standard library), all clients, sequences of calls, inputs, transport schedules and frames", "why_tests_cant": "a test runs on the host at hand; big-endian hosts and checked standard libraries are rarely among them", "anchors": ["mh2c/util/byte_order.cpp: cvt_host2net", "mh2c/frame/frame_header.cpp: serialize", "mh2c/hpack/header_decoder.cpp: decode_header_name", "mh2c/http2_client.cpp: receive_frame"]}
{"id": "C116", "title": "The library keeps standard output to the program", "statement": "A program's standard output contains what the program printed: in no sequence of calls that return or throw does the library write to it. The one place that prints is the building of a HEADERS frame that cannot be decoded; it prints exactly one message exactly when the result is a raw frame, and inside receive_frame that is always followed by the null dereference of C61.", "quantifier": "All header octets and payloads given to build_frame, all clients, streams and sequences of calls.", "why_tests_cant": "That no input makes the library print is a claim about all streams; a test sees the output of the frames it feeds.", "anchors": ["mh2c/frame/frame_builder.cpp: build_headers_frame", "mh2c/frame/frame_builder.cpp: std::cout", "mh2c/http2_client.cpp: receive_frame"]}
{"id": "C117", "title": "Transport calls are few", "statement": "No call of the API polls the transport: every BIO_read and BIO_write it makes moves at least one octet, except the one that fails and makes the call throw runtime_error, so that a session makes at most one transport call per octet and one per call of the API. A frame is handed over in one piece: if the transport takes it at once, send_frame is a single BIO_write, and if it delivers what is asked for, receive_frame is one BIO_read for the frame header and one for the payload if there is one.", "quantifier": "all calls and sequences of calls, all clients, all streams and all behaviours of the transport", "why_tests_cant": "the number of transport calls depends on how the transport splits the stream", "anchors": ["mh2c/ssl/ssl_connection.cpp: BIO_read", "mh2c/ssl/ssl_connection.cpp: BIO_write", "mh2c/http2_client.cpp: receive_frame", "mh2c/http2_client.ipp: send_frame"]}
{"id": "C118", "title": "One client can be shared by several threads", "statement": "Threads that use one client at the same time get in each other's way only where they have to: a thread that sends and one that receives each have the results they would have alone, and neither waits for the other; the frames of several threads that send arrive whole, those of each thread in order; and threads that receive each get frames the server sent. Each transport call and each use of a table is taken to be atomic. (The first part is proved. The second is false of the code if the transport takes a part of a frame: another thread's frame comes in between although both calls return; proved for transports that take a frame whole or fail. The third is false of the code: one thread reads the header of a frame, the other one its payload as a header.)", "quantifier": "all programs of any number of threads, all interleavings of their steps, all transport schedules, all clients", "why_tests_cant": "interleavings are unbounded and not under a test's control; the harmful ones need a partial write at the wrong moment", "anchors": ["mh2c/ssl/ssl_connection.cpp: BIO_write", "mh2c/ssl/ssl_connection.cpp: BIO_read", "mh2c/http2_client.cpp: receive_frame", "mh2c/http2_client.ipp: send_frame"]}
{"id": "C119", "title": "Any frame can be made and sent", "statement": "The library is made for debugging servers, so a program can send every frame, legal or not. For every sequence of nine or more octets there is a raw_frame that is serialized as these octets, with type, flags and payload where they are, and sending it is sending the octets. What the other classes can make is exactly known: data_frame all DATA frames whose length field counts the payload; settings_frame all those whose settings are in increasing order without repetition; ping_frame all PING frames of eight octets on stream 0; priority_frame, rst_stream_frame and window_update_frame all frames of the fixed length with clear flags; goaway_frame all GOAWAY frames of eight or more octets with clear flags on stream 0.", "quantifier": "all sequences of octets, all constructor arguments, all clients", "why_tests_cant": "That every frame can be made, and nothing else by a class, ranges over all octet sequences in both directions.", "anchors": ["mh2c/frame/raw_frame.h: raw_frame", "mh2c/frame/data_frame.cpp: serialize", "mh2c/frame/settings_frame.cpp: make_sf_payload", "mh2c/frame/goaway_frame.cpp: serialize", "mh2c/http2_client.ipp: send_frame"]}
{"id": "C120", "title": "The type of an exception tells what happened", "statement": "A program can tell from the exception what went wrong. receive_frame throws runtime_error if and only if the transport failed inside a frame; invalid_argument only for a frame that was delivered whole and whose payload has the wrong length for its type (PRIORITY, RST_STREAM, GOAWAY, WINDOW_UPDATE), or for a PUSH_PROMISE or CONTINUATION frame with a string that is not the Huffman code of anything; out_of_range only for a frame that was delivered whole and has an unknown type, or for a PUSH_PROMISE or CONTINUATION frame with an index that is in none of the tables. In the last two cases the tables are as before and the stream is after the frame, so the program can go on. send_frame throws runtime_error if and only if the transport took less than the frame, and nothing else. Making a frame with a header block throws runtime_error if and only if an entry holds a size instead of a header or the other way round, and nothing else; it is undefined only for a HEADERS frame with PRIORITY and an exclusive field above 1.", "quantifier": "all streams, all transport schedules, all clients, all frames and all constructor arguments", "why_tests_cant": "That an exception has no other cause is a statement about all streams; a test shows causes one by one.", "anchors": ["mh2c/http2_client.cpp: receive_frame", "mh2c/frame/frame_builder.cpp: builder_func_map", "mh2c/hpack/header_decoder.cpp: make_indexed_header", "mh2c/hpack/header_encoder.cpp: encode_header", "mh2c/http2_client.ipp: send_frame"]}
{"id": "C121", "title": "What the client makes of any header block", "statement": "The header blocks the client understands are described completely: a block is read as a list of headers and size updates if and only if it is a sequence of RFC 7541 representations up to a fixed list of differences (integers of at most six octets and a limited value, what follows an integer is looked for after as many octets as its shortest form has, EOS and any padding of less than eight bits allowed in Huffman code, index 0 an empty field, index 20 the mistyped name, a reference to an empty name read as no reference, all references resolved in the table as it was before the block). It throws out_of_range if and only if, after such a sequence, a representation has an index that is in none of the tables, and invalid_argument if and only if, after such a sequence, a literal has a string marked as Huffman code that is none. In every other case the behaviour is undefined. A HEADERS, PUSH_PROMISE or CONTINUATION frame is delivered with a header list if and only if padding and fixed fields leave such a block with these headers.", "quantifier": "all octet sequences, all tables, all frame headers", "why_tests_cant": "An equivalence between a decoder and a grammar ranges over all octet sequences and tables; a test compares a few.", "anchors": ["mh2c/hpack/header_decoder.cpp: decode_header", "mh2c/hpack/integer_representation.h: decode_integer_value", "mh2c/hpack/huffman_decoder.cpp: decode", "mh2c/frame/headers_frame.cpp: decode_header", "mh2c/frame/continuation_frame.cpp: decode_header"]}
{"id": "C122", "title": "The calls of the client that have undefined behaviour, exactly", "statement": "After any history of calls, and whatever the server and the transport did, the next call of the client has defined behaviour (it returns or throws) if and only if it is one of these. Sending the preface, sending and receiving raw octets and changing the size of the request table are always defined. Sending a frame is defined unless it is a GOAWAY frame with a reserved field above 1. Updating the request table with a header block is defined if and only if every header that is inserted fits the table size in force at that point. Receiving is defined if and only if the transport delivers less than the frame, or the frame is none of SETTINGS, HEADERS, PUSH_PROMISE and CONTINUATION, or SETTINGS with a length that is a multiple of 6, or HEADERS with a header block that can be read and whose insertions fit, or PUSH_PROMISE or CONTINUATION with such a block or one that is rejected with an exception. A whole session is free of undefined behaviour if and only if every call in it is one of these. Which exception a receive ends with is known as exactly: runtime_error if the transport delivers less than the frame; otherwise invalid_argument for PRIORITY, RST_STREAM, GOAWAY and WINDOW_UPDATE of a wrong length, out_of_range for a type that is not in RFC 7540, and for PUSH_PROMISE and CONTINUATION the exception their header block is rejected with; no other.", "quantifier": "every history of calls with arguments that fit the machine, every stream, delivery schedule and next call", "why_tests_cant": "Undefined behaviour may show no symptom in a test, and 'exactly' is a claim about all streams and states on both sides.", "anchors": ["mh2c/http2_client.cpp: receive_frame", "mh2c/http2_client.cpp: send_frame", "mh2c/http2_client.cpp: update_dynamic_table", "mh2c/frame/goaway_frame.cpp: serialize"]}
{"id": "C123", "title": "Headers received on one connection can be sent on over another", "statement": "A proxy puts the header list of a received HEADERS frame, as get_payload gives it, into a HEADERS frame for another connection. A conforming server there reads the same header list, and a header that came as a never-indexed literal is sent as one, as RFC 7541 6.2.3 demands. (False of the code in two ways. A header that came as an index is read by the server only if it is in the tables of the other connection as well; the condition is proved to be exact, for header lists of any length. A never-indexed header that is in a table of the other connection is sent as an index. Otherwise, and within the limits of C31, it holds.)", "quantifier": "all received frames, all tables of the two connections, both encodings", "why_tests_cant": "It depends on the contents of the tables of two connections, each the result of a whole history.", "anchors": ["mh2c/hpack/header_encoder.cpp: encode_header", "mh2c/hpack/header_decoder.cpp: decode_header", "mh2c/frame/headers_frame.cpp: construct_encoded_payload", "mh2c/frame/headers_frame.h: get_payload"]}
{"id": "C124", "title": "The octets a header block is sent as, exactly", "statement": "For every header block, table and encoding, the octets of a HEADERS, PUSH_PROMISE or CONTINUATION frame are known exactly. Each entry is sent by itself, against the table given, in order. A size update is the pattern 001 and the size. A header that is in the static table with a value is the pattern 1 and its index there, whatever prefix was asked for; else, if it is in the dynamic table, the pattern 1 and 62 plus the position of its newest copy. Every other header is the pattern of the prefix asked for, then the index of its name if the static table has the name with an empty value, or 0 and the name, then the value. Numbers are written by the procedure of RFC 7541 5.1, strings as a length and their octets or their Huffman codes padded with ones. Around the block are the frame header, the pad length and the padding if PADDED is set, and the priority fields or the promised stream.", "quantifier": "all header blocks, tables and encodings; all arguments of the three constructors", "why_tests_cant": "An equivalence between an encoder and a grammar ranges over all blocks, tables and arguments; a test compares a few.", "anchors": ["mh2c/hpack/header_encoder.cpp: encode_header", "mh2c/hpack/integer_representation.ipp: encode_integer_value", "mh2c/hpack/huffman_encoder.cpp: encode", "mh2c/frame/headers_frame.cpp: construct_encoded_payload", "mh2c/frame/push_promise_frame.cpp: construct_encoded_payload", "mh2c/frame/continuation_frame.cpp: continuation_frame"]}
{"id": "C125", "title": "Header names that are in a table are sent as an index", "statement": "A header that is in no table, but whose name is, is sent with the index of the name, and the name itself is not on the wire. (Proved for the names the static table has with an empty value. False of the code for the other names: :method, :path, :scheme, :status and accept-encoding are in the static table with values only and are spelled out in every request that has another value, and the names in the dynamic table are not used at all. That these are all the exceptions is proved.)", "quantifier": "all headers, all literal prefixes, tables and encodings", "why_tests_cant": "It is a claim about every header and every content of the table; tests use a few headers.", "anchors": ["mh2c/hpack/header_encoder.cpp: encode_header", "mh2c/hpack/static_table_definition.cpp: reverse_static_table_entries"]}
{"id": "C126", "title": "Tables that have come apart can be brought together again", "statement": "Suppose the HPACK tables of the two ends differ, for whatever reason: a rejected frame, a lost block, a size that was changed on one side only. Of what a server sends then (with integers in their shortest form, headers that fit the client's table and have names, blocks split between representations only, and no SETTINGS_HEADER_TABLE_SIZE), each frame is received with exactly the headers the server meant if and only if every reference in it denotes the same in the client's table and in the server's. As soon as a header block begins with a change of the table size to 0 the ends agree again: after such a block from the server everything is understood as on a connection whose tables never differed, and after such a block from the client, sent and reported, the two request tables are in a state they reach together on a fresh connection.", "quantifier": "all pairs of tables, all streams of any number of frames, all header blocks, all transports", "why_tests_cant": "pairs of tables and streams are unbounded, and the reason why tables differ lies in an arbitrary history", "anchors": ["mh2c/http2_client.cpp: receive_frame", "mh2c/http2_client.cpp: update_dynamic_table", "mh2c/http2_client.h: update_request_dynamic_table", "mh2c/hpack/dynamic_table.cpp: update_table_size", "mh2c/hpack/header_decoder.cpp: decode_header_block", "mh2c/hpack/header_encoder.cpp: encode_header_block"]}
{"id": "C127", "title": "Padding does not change what a frame means", "statement": "The padding of a HEADERS or PUSH_PROMISE frame is never read as headers. Receiving: two frames of one of these types with the same content between pad length and padding, padded or not, with however many padding octets and whichever, are received alike in everything but the padding itself: class, stream, priority fields, promised stream, header list, response table, or the same failure. Sending: a peer finds in the frame exactly the octets of the header block. (Sending is false of the code for paddings of more than 255 octets: the pad length octet holds the size modulo 256, so the peer takes all but the last size % 256 padding octets for header block octets; for instance 256 octets 0x82 are 256 further headers. The exact octets read as header block are proved for every padding; with at most 255 octets, or without the PADDED flag, the claim holds.)", "quantifier": "all header blocks, tables, encodings, priorities, paddings of any size and content; all received frames of the two types, all response tables and transports", "why_tests_cant": "paddings and contents are unbounded, and tests use short paddings of zeros", "anchors": ["mh2c/frame/headers_frame.cpp: construct_encoded_payload", "mh2c/frame/headers_frame.cpp: decode_payload", "mh2c/frame/push_promise_frame.cpp: construct_encoded_payload", "mh2c/frame/push_promise_frame.cpp: decode_payload", "mh2c/http2_client.cpp: receive_frame"]}
{"id": "C128", "title": "Only what was marked for indexing is ever in a table", "statement": "After every history of calls, whatever the server sent and whichever calls threw, the request table holds only headers that the program reported with INCREMENTAL_INDEXING, the newest first, in the order in which they were reported; if every report returned, they are the last ones reported. The response table holds exactly the last of the headers that the frames returned so far brought as literals with incremental indexing. So a header that was never reported for indexing leaves no trace: a HEADERS, CONTINUATION or PUSH_PROMISE frame with none but such headers is the frame a new client would make, and such a header marked NEVER_INDEXED is a never-indexed literal on the wire, unless it is in the static table.", "quantifier": "all histories of calls, streams and transports; all header blocks, encodings, flags and paddings", "why_tests_cant": "a table is the result of a whole history, with evictions, size changes and reports that throw half way; a test follows a few histories", "anchors": ["mh2c/http2_client.cpp: update_dynamic_table", "mh2c/http2_client.cpp: receive_frame", "mh2c/http2_client.h: update_request_dynamic_table", "mh2c/hpack/dynamic_table.cpp: push", "mh2c/hpack/dynamic_table.cpp: update_table_size", "mh2c/hpack/header_encoder.cpp: encode_header"]}
{"id": "C129", "title": "Streams do not influence each other except through header compression", "statement": "A server multiplexes streams on one connection. Frames that have nothing to do with header compression (all but HEADERS, PUSH_PROMISE, CONTINUATION and SETTINGS with a table size; frames of unknown types and frames that are rejected included) can be put between the others or left out, and every other call of receive_frame gives the same frame or the same exception, with the same response table and the same position in the stream afterwards. So if two servers send the same frames on each stream, and those that concern compression in the same order, then on every stream the same is received, however the streams are interleaved otherwise.", "quantifier": "all streams of any number of frames on any number of HTTP/2 streams, all interleavings, all response tables and delivery schedules", "why_tests_cant": "the number of interleavings is unbounded, and an influence of one frame on another shows only in the pairs one thinks of", "anchors": ["mh2c/http2_client.cpp: receive_frame", "mh2c/http2_client.cpp: update_dynamic_table", "mh2c/frame/frame_builder.cpp: build_frame"]}
{"id": "C130", "title": "Printing a frame leaves the formatting of the stream as it was", "statement": "operator<< of a frame on an output stream changes none of the stream's formatting: number base, upper case, base prefix, adjustment and fill character are afterwards what they were before. (False of the code: PING frames with data, frames of unknown types with a payload and padded frames leave the stream in hexadecimal with the fill character 0, so that the numbers the program prints itself come out wrong. Exactly what each frame changes is proved; a width that was set is used up by the first line.)", "quantifier": "all frames, all formattings and histories of the stream", "why_tests_cant": "a test prints on a fresh stream and looks at the text, not at what the next insertion of the program will do", "anchors": ["mh2c/frame/ping_frame.cpp: dump", "mh2c/frame/raw_frame.cpp: dump", "mh2c/frame/data_frame.cpp: dump", "mh2c/frame/headers_frame.cpp: dump", "mh2c/frame/push_promise_frame.cpp: dump", "mh2c/frame/settings_frame.cpp: dump"]}
{"id": "C131", "title": "The text of a frame does not depend on the formatting the program has set", "statement": "operator<< of a frame writes the same text whatever manipulators the program has put into the stream before: std::hex, std::oct, std::uppercase, std::showbase, std::left, std::setfill, std::setw. (False of the code. The base, upper case and base prefix show in SETTINGS values; upper case, base prefix and adjustment show in the octets of PING, unknown and padded frames: the octet 1 is printed as 0x1 or as 10. A width pads the title line. Exactly what is printed for SETTINGS, PING and unknown frames with every formatting is proved, and that nothing shows in the others.)", "quantifier": "all frames, all formattings and histories of the stream", "why_tests_cant": "the combinations of formatting are many and a test uses the default", "anchors": ["mh2c/frame/ping_frame.cpp: dump", "mh2c/frame/raw_frame.cpp: dump", "mh2c/frame/settings_frame.cpp: dump", "mh2c/frame/frame_header.cpp: operator<<"]}
{"id": "C132", "title": "The octets of PING and unknown frames can be read off the text on every stream", "statement": "Two PING frames, or two frames of unknown types, that print the same text on the same stream are the same frame, whatever the formatting of the stream. (False of the code on left-adjusted streams: the octets 1 and 16 are both printed as 10. True on all others, whatever base, case, base prefix, fill character and width.)", "quantifier": "all pairs of frames, payloads of any length, all formattings", "why_tests_cant": "injectivity is about all pairs of payloads and all formattings", "anchors": ["mh2c/frame/ping_frame.cpp: dump", "mh2c/frame/raw_frame.cpp: dump"]}
{"id": "C133", "title": "A log of printed frames can be cut into the frames again", "statement": "A program prints the frames it receives one after the other, as the sample does. The lines of the log that start with '=== ' are exactly the title lines of the frames, so that the log tells how many frames there were and where the text of each begins and ends, and two lists of frames that give the same log agree one by one in everything that is shown. (False of the code: header names, header values and the debug data of GOAWAY are printed as they are. A server can put lines into them that look like a frame: there is a GOAWAY frame that prints the same log as another GOAWAY frame followed by SETTINGS. Proved if no line of a header or of debug data starts with an equals sign; the data of DATA frames is indented and cannot forge anything.)", "quantifier": "all lists of frames of any length, all formattings of the stream without a pending width; all runs of the sample, those that end normally and those that fail", "why_tests_cant": "lists of frames and their contents are unbounded, and a forged line shows only with contents that a test does not think of", "anchors": ["mh2c/frame/data_frame.cpp: dump", "mh2c/frame/headers_frame.cpp: dump", "mh2c/frame/goaway_frame.cpp: dump", "mh2c/frame/continuation_frame.cpp: dump", "mh2c/frame/push_promise_frame.cpp: dump", "mh2c/http2_client.cpp: operator<<", "sample/h2_get/sample_h2_get.cpp: receive_frames"]}
{"id": "C134", "title": "The text of an exception tells what went wrong", "statement": "e.what() of every exception of receive_frame, send_frame, send_raw_data, receive_raw_data, update_request_dynamic_table and the frame constructors is known exactly. If the transport failed it names BIO_read or BIO_write and the number of octets it was called for (9 inside the frame header, else the announced length). For a payload of the wrong length it gives this length; for an unknown type it is the standard library's text; for an index that is in no table it is the standard library's text for the position that index means and the number of entries; for a string that is not in Huffman code it gives the whole octets left when no code matched and the octets that the shortest longer code would have needed. The line the library prints for a HEADERS frame it cannot decode is one of the last two. PING, WINDOW_UPDATE and PRIORITY constructors name the field and its value, and update_request_dynamic_table what the entry does not hold. If the standard library's texts are single lines that do not start with an equals sign, so are all of them.", "quantifier": "all streams, transports, response tables, frames, arguments of the constructors and header blocks", "why_tests_cant": "the text carries numbers from the input, and which check fails first depends on the whole input; tests look at the exception type", "anchors": ["mh2c/ssl/ssl_connection.cpp: read", "mh2c/ssl/ssl_connection.cpp: write", "mh2c/hpack/huffman_decoder.cpp: construct_integer", "mh2c/frame/rst_stream_frame.cpp: invalid payload size", "mh2c/frame/priority_frame.cpp: validate_payload", "mh2c/frame/window_update_frame.cpp: validate_window_size", "mh2c/frame/ping_frame.cpp: construct_opaque_data", "mh2c/frame/frame_builder.cpp: build_headers_frame", "mh2c/hpack/header_type.cpp: get_header", "mh2c/http2_client.cpp: receive_frame"]}
{"id": "C135", "title": "The text of a failed connection tells the step that failed", "statement": "The constructor of the client throws exactly if one of its steps fails, and e.what() begins with the text of the first step that failed and goes on with the number that call returned (errno for connecting and for the handshake), or with the protocol the server chose. Two constructions that fail with the same text failed in the same step.", "quantifier": "all results of all OpenSSL calls, both verification modes, all values of errno", "why_tests_cant": "the combinations of results are unbounded, and a test cannot make OpenSSL fail in every step", "anchors": ["mh2c/ssl/ssl_connection.cpp: ssl_connection", "mh2c/ssl/ssl_ctx.cpp: ssl_ctx", "mh2c/ssl/ssl_bio.cpp: ssl_bio"]}
{"id": "C136", "title": "A sample run that fails prints the reason as its last line", "statement": "When the receive loop of the sample ends with an exception, standard output has the texts of the frames received until then, in order, followed by the text of this exception as one line, and nothing else, and the exception goes on to the caller; when it returns, no such line was printed.", "quantifier": "all streams, transports, tables and contents of standard output", "why_tests_cant": "the output is that of a loop of unbounded length that can fail in any round", "anchors": ["sample/h2_get/sample_h2_get.cpp: receive_frames", "mh2c/http2_client.cpp: receive_frame"]}
{"id": "C137", "title": "What a failed run of the sample leaves behind", "statement": "If the sample program ends with an exception, then exactly this happened. If the constructor of the client failed, nothing was printed and nothing of the conversation was sent, and the text names the call that failed. Otherwise the frames received until then were printed, completely and in order, and one of three things happened: a write failed inside one piece of the conversation (preface, SETTINGS, acknowledgement, request, GOAWAY), the server got all pieces before and a proper part of this one, and the text gives the length of the piece; or the first frame could not be received, and nothing was printed; or a frame after the request could not be received. Only in the last case the reason is in the output, as its last line. A run that returns is one in which every call of OpenSSL succeeded and prints only frames.", "quantifier": "all outcomes of the calls of OpenSSL, all streams from the server, all schedules of reads and writes", "why_tests_cant": "a test can cut the connection at some points; that nothing else is left behind holds for every point of failure and every server", "anchors": ["sample/h2_get/sample_h2_get.cpp: main", "sample/h2_get/sample_h2_get.cpp: receive_frames", "mh2c/ssl/ssl_connection.cpp: BIO_write failed"]}
{"id": "C138", "title": "A dynamic table that runs out of memory stays consistent", "statement": "If push throws std::bad_alloc, the table is as before the call, or as before but for evicted entries; its recorded size is that of its entries, and every later call does what RFC 7541 section 4 says. (False of the code: push records the size of the new entry before it inserts a copy. The size of every header that could not be inserted stays recorded for ever, the table behaves like one with a maximum that is smaller by that much, and later calls are undefined behaviour: update_table_size with anything below that size, 0 above all, and push of a header that fits the table but not together with the missing ones. Proved exactly for all histories.)", "quantifier": "all histories of push and update_table_size of any length in which any of the calls may run out of memory", "why_tests_cant": "tests do not run out of memory, and the effect shows only in later calls, which depend on the whole history", "anchors": ["mh2c/hpack/dynamic_table.cpp: push", "mh2c/hpack/dynamic_table.cpp: resize_table", "mh2c/hpack/dynamic_table.cpp: update_table_size"]}
{"id": "C139", "title": "A call that runs out of memory leaves the client usable", "statement": "If a call of the client throws std::bad_alloc, the program can free memory and go on: the call has had no effect, or that of the exception it would have thrown otherwise; receive_frame may have skipped the frame, but the next call finds the beginning of a frame, and the header tables are consistent. A call that does not throw std::bad_alloc does what it does where memory never runs out. (False of the code: memory that runs out while a HEADERS frame is decoded is undefined behaviour, because std::bad_alloc is caught there like any exception and the frame is then taken for one that could not be decoded. The nine octets of the frame header are read before the memory for the payload is asked for, so that the payload of a frame that is too large is read as frames by the next calls; the length is the server's choice. And a header that could not be inserted stays counted in the request or response table, so that the next SETTINGS frame with a header table size of 0 is undefined behaviour. Proved: all places where a call can stop and what it leaves behind, and that a table is never out by more than one header for each call that ran out of memory, and never holds more than its maximum.)", "quantifier": "all calls, all states of the client, all places where memory can run out, all sessions of any length", "why_tests_cant": "every allocation is a crash point of its own, and the damage shows only in later calls; tests do not run out of memory", "anchors": ["mh2c/http2_client.cpp: receive_frame", "mh2c/http2_client.cpp: update_dynamic_table", "mh2c/http2_client.cpp: send_connection_preface", "mh2c/http2_client.ipp: send_frame", "mh2c/frame/frame_builder.cpp: build_headers_frame", "mh2c/hpack/dynamic_table.cpp: push"]}
{"id": "C140", "title": "A client that runs out of memory while it is made is taken apart again", "statement": "If the constructor of http2_client throws std::bad_alloc, it has made the first of the OpenSSL calls it makes otherwise and then freed what it had created: every call is on live objects, each object is freed exactly once, the BIO before the context, and no octet was read or written. The initialisation of OpenSSL is done at most once in the process and before every attempt to connect, whichever constructions failed. A construction that does not throw std::bad_alloc does what it does where memory never runs out, so that the program may try again.", "quantifier": "all host names, ports and modes, all answers of OpenSSL, all places where memory can run out, all sequences of clients in a process", "why_tests_cant": "every allocation and every OpenSSL call in the constructor is a crash point, and objects that are leaked or freed twice do not show in the result", "anchors": ["mh2c/http2_client.cpp: http2_client", "mh2c/ssl/ssl_connection.cpp: ssl_connection", "mh2c/ssl/ssl_bio.cpp: ssl_bio", "mh2c/ssl/ssl_ctx.cpp: ssl_ctx"]}
{"id": "C141", "title": "A program that runs out of memory does not seem to have succeeded", "statement": "If the sample program runs out of memory, wherever that is, it ends with an exception: main returns only if it has sent, received and printed everything it does where memory never runs out. What it has sent before the exception is a beginning of what it sends there, and what it has printed is a beginning of what it prints there. (False of the code: if memory runs out while a HEADERS frame is decoded, the program does not end with an exception: it is undefined behaviour. Proved: that this is the only case.)", "quantifier": "all servers, all transports, all places where memory can run out, runs of any length", "why_tests_cant": "every allocation of a run is a crash point of its own, and there are as many runs as servers", "anchors": ["sample/h2_get/sample_h2_get.cpp: main", "sample/h2_get/sample_h2_get.cpp: receive_frames", "mh2c/http2_client.cpp: operator<<", "mh2c/frame/frame_builder.cpp: build_headers_frame"]}
{"id": "C142", "title": "Running out of memory only cuts a program short", "statement": "A program uses a client, one call after the other; what it does next may depend on everything it has received, and on the exceptions that calls have thrown, which it may catch, other than std::bad_alloc. If memory runs out, wherever that is, the program ends with std::bad_alloc and has sent a beginning of what it sends where memory never runs out, and nothing else, and has not received more than it receives there. It comes to its end, or ends with another exception, only as it does there. (False of the code: if memory runs out while receive_frame decodes HEADERS, it is undefined behaviour. Proved: that this is the only case.)", "quantifier": "all programs, all servers, all transports, all places where memory can run out, runs of any length", "why_tests_cant": "the claim is about every program and every allocation in it; a test has one program and does not run out of memory", "anchors": ["mh2c/http2_client.h: http2_client", "mh2c/http2_client.cpp: receive_frame", "mh2c/http2_client.ipp: send_frame", "mh2c/frame/frame_builder.cpp: build_headers_frame"]}
{"id": "C143", "title": "A call that receives waits only for octets that have not been sent", "statement": "receive_frame waits only as long as the server has not sent all of the next frame, and receive_raw_data only as long as the server has not sent as many octets as are asked for. If the transport works they wait exactly then; if it fails they end with runtime_error. So a program waits for ever only where the server, having been sent everything the program has sent, and having sent everything it sends in reply, has not sent all of what the program is to receive: the program and the server wait for each other.", "quantifier": "all programs, all servers that answer what they are sent, all transports, runs of any length", "why_tests_cant": "a test cannot wait for ever, and cannot show for every server and every way octets arrive that the client does not", "anchors": ["mh2c/ssl/ssl_connection.cpp: read", "mh2c/http2_client.cpp: receive_frame", "mh2c/http2_client.cpp: receive_raw_data"]}
{"id": "C144", "title": "A server that answers is no different from one that has sent everything before", "statement": "What a program does, which may catch exceptions, with a server whose octets depend on what it has been sent is what it does with a server that sends the same octets at once, whatever comes after them, over a transport that delivers them in suitable parts: it ends in the same way, has sent the same, and leaves the same tables and the same octets to be received. If the server closes the connection where the program would wait for ever, the call throws runtime_error; then everything the server has sent has been received.", "quantifier": "all programs, all servers that answer what they are sent, all transports, runs of any length", "why_tests_cant": "servers are functions of everything they are sent; a test has one server", "anchors": ["mh2c/ssl/ssl_connection.cpp: read", "mh2c/ssl/ssl_connection.cpp: write", "mh2c/http2_client.cpp: receive_frame", "mh2c/http2_client.ipp: send_frame"]}
{"id": "C145", "title": "The sample does not wait for more when the response has ended", "statement": "The receive loop of the sample waits for ever only if the server has not sent the end of the response to its request, nor GOAWAY. (False of the code: it waits for ever whenever the response ends with HEADERS, as it does without a body, or with RST_STREAM, and the server keeps the connection. Proved: exactly when it waits for ever, and that it does not once the response has ended with DATA.)", "quantifier": "all servers, all transports, runs of any length", "why_tests_cant": "waiting for ever is not observable by a test; the claim is about every server", "anchors": ["sample/h2_get/sample_h2_get.cpp: receive_frames", "sample/h2_get/sample_h2_get.cpp: is_more_data", "mh2c/http2_client.cpp: receive_frame"]}
{"id": "C146", "title": "Programs that look at what they receive reach no other states than sequences of calls", "statement": "Whatever a program does with a client, choosing each call by all it has received and by the exceptions it has caught, the client is then in the state (tables, octets sent, octets left to be received) that the calls it has made reach when they are made as a fixed sequence; and what sequences of calls reach, programs reach. With a server that answers what it is sent, too, if the same octets are sent at once. So what holds after every sequence of calls holds after every program that returns or throws.", "quantifier": "all programs that return or throw, all clients, all servers that answer what they are sent, all transports, runs of any length", "why_tests_cant": "a program is a function of everything received; tests run a few programs with a few servers", "anchors": ["mh2c/http2_client.cpp: receive_frame", "mh2c/http2_client.cpp: receive_raw_data", "mh2c/http2_client.ipp: send_frame", "mh2c/http2_client.cpp: update_request_dynamic_table"]}
