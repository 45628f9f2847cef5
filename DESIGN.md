# Formal model of manual_h2_client in Lean 4

## 1. Layout

| Path | Content |
|---|---|
| `lean/Verif/Basic.lean` | result type `Res` (value, exception, undefined behaviour, divergence), platform parameters, octet helpers |
| `lean/Verif/Model/*.lean` | the model: one Lean definition per C++ function, each citing file and lines |
| `lean/Verif/Spec/*.lean` | small specifications. `Bytes, Delimit, FrameLayout, FrameRules, Hpack, Huffman, Int, Message, ServerReads` transcribe RFC 7541 / RFC 7540 and import nothing from `Model`; `Accessors, Blocks, Body, ClientStream, Conversation, Duties, Format, FrameApi, History, Kept, Printing, Relay, Requests, ServerMeans, ServerStream, Session, Tables, Text, Threads, Tls, Update, Wire` say in terms of the API what a property is about and so mention its types. None imports a proof |
| `lean/Verif/Proofs/*.lean` | helper lemmas |
| `lean/Verif/Props/*.lean` | the property theorems, each followed by `example`s showing its hypotheses are met |
| `lean/Verif/Conformance.lean` | byte vectors of the repository's own unit tests, replayed on the model (tests, not proofs) |
| `properties.jsonl` | the properties C01.. |
| `MANIFEST.json` | property -> theorem names and status |
| `seeded/LOG.jsonl` | wrong-program experiments |

## 2. Modelling decisions

* **Octets** are `UInt8`; `std::vector<uint8_t>` and `std::string` are `List UInt8`. Struct fields
  keep their C++ width (`UInt8/16/32`). Intermediate arithmetic is in `Nat` with explicit
  wrap-around, or an explicit undefined-behaviour outcome where C++ says so.
  `size_t` is `Nat` (no object reaches 2^64 octets), except in `resize_table`, where the
  subtraction is guarded by the model's own loop condition.
* **Outcome.** Every function that can fail returns `Res a = ok a | throw e | ub k | diverge`.
  `ub` is produced at each point where the C++ reads outside a buffer, dereferences null, calls
  `back()` on an empty vector, erases past the end, overflows a signed `int` or shifts too far.
  `diverge` is produced where a loop makes no progress in one iteration. Theorems that say
  "never undefined" therefore have content.
* **Platform** is a type-class parameter (`[Platform]`): host endianness, and whether
  `&v[v.size()]` (formally undefined, works on unchecked implementations) is treated as undefined.
  All theorems quantify over it.
* **std::map** initialiser lists with repeated keys keep the first (C++ `map(initializer_list)`
  semantics); `encode_table` has a repeated key 31.
* **Transport.** `BIO_read`/`BIO_write` are driven by an arbitrary finite schedule, a list of
  numbers: each call takes the next number `k`, transfers at most `k` octets (at most what is
  asked and available); transferring 0, or an exhausted schedule, is an error return. Every finite
  behaviour of the TLS layer - any fragmentation, failure at any point - is one of these lists.
  Calls that wait for ever are in `Model/Live` only (C143 to C145); elsewhere the octets of the server are there from
  the beginning, which C144 justifies.
* **Printing.** `Model/Dump`: the output stream is its text plus the sticky `hex` flag, the other flags as
  a stream has them at first. `Model/Format`: the stream has all the formatting the insertions read; the
  two agree where both apply (`C131_models_agree`). A stream never fails.

## 3. Per property plan

Notation: *negation* = the code violates the property; a concrete witness is proved, and the
largest true part is proved as a `_partial` theorem.

| Property | Model | Proof |
|---|---|---|
| C01, C02, C03 | `Model/Bits` (bit_operation and byte_order) | arithmetic on `Nat.land`, shifts; both endiannesses |
| C04-C06 | `Model/FrameHeader` | round trip by byte arithmetic |
| C07-C09 | `Model/IntRep`; spec `Rfc.intDecode` | induction on the continuation octets; C09 negation for non-minimal integers |
| C10-C15 | `Model/HuffmanCode` (tables, generated from the C++ text), `Model/Huffman`; spec `Rfc.huffCode` from code lengths | loop invariant relating carry bits to the bit string; tables by kernel evaluation over the whole table; prefix-freeness and completeness lifted by interval cover; C14 negation |
| C16, C17 | `Model/StaticTable`; spec `Rfc.staticTable` | whole-table kernel evaluation lifted to all headers; C17 negation at 20 |
| C18-C22 | `Model/DynamicTable`; spec `Rfc.Table` | induction over operation histories; refinement to longest fitting prefix; C20 negation |
| C23-C30, C35 | `Model/HeaderType`, `HeaderEncoder`, `HeaderDecoder` | case analysis composed from integer/Huffman round trips; C29 negation |
| C31-C34 | spec `BlockDecodes` (RFC 7541 sections 3 to 6 as a relation) | refinement, side conditions explicit; negations by witnesses |
| C36-C46, C49-C54 | `Model/Frames`, `FrameBuilder` | round trips per frame type; exact outcome theorems for every payload |
| C47, C48, C55-C63, C65 | `Model/Ssl`, `Model/Client` | induction over schedules, frame lists and operation histories |
| C64 | `Model/Ssl` constructor as decision logic over OpenSSL outcomes | case analysis |
| C66 | `Model/Sample` | induction over frame list |
| C67-C70 | `Model/Dump` | case analysis, negations |
| C71 | `Model/Client`, `Spec/ServerMeans` | negation and partial theorem; exact for splits between representations, as an instance of C85's exact form |
| C72 | `Model/Sample` | composition over the statements of the sample, each with an emits-at-most lemma |
| C73 | all of it | no function of the model has `diverge` as its outcome |
| C74, C75, C77 | `Model/Dump` against the text layout of `Spec/Text` | case analysis, induction over the payload; negations for two misspelt names |
| C76 | `Model/Dump` | injectivity of the text layout, line by line; negations |
| C78 | `X.same` of `Model/FrameHeader`, `Model/HeaderType`, `Model/Frames` | every `operator==` reduced to equality of members; negation on the wire |
| C79 | `decodeHeader`, `decodeHeaderBlock` against `Spec/Delimit` (where representations end) | decoding a prefix equals decoding the whole or is UB; induction over complete representations; negations for truncated blocks and empty names |
| C80 | `buildFrame`, `receiveFrame` | case analysis over the frame types, exact condition for each |
| C81 | `hostPort`, `construct` (Model/Tls) | decimal numerals contain no colon; NUL truncation shown as a violation |
| C82 | `construct` as a list of OpenSSL calls; `Answers` says what a verification result means | case analysis of the constructor; violated for the host name |
| C83 | `clientCalls`, `processCalls` | ownership automaton `LegalCalls`, induction over the clients of a process |
| C84 | `buildFrame` against `LayoutRule`, `StreamRule` (Spec/FrameRules) | case analysis over the frame types; violated where the code does not check |
| C85 | `receiveFrame` iterated; `ServerSends` (Spec/ServerStream) describes a server with its own RFC 7541 table; `ServerMeans` (Spec/ServerMeans) is one that may use any reference | induction over the server's frames, tables related by `toRfc`; exact form: a frame arrives as meant iff each reference is `Kept` in the table before the frame |
| C86 | `decodeHeaderBlock`, `receiveFrame` | shortest Huffman code is 5 bits, largest static entry 60; induction over the block; attained by a replicated index |
| C87 | `Frame.serialize`, `Sent` | both octet strings are read back (C37–C47), frames compared by C78; induction over two conversations |
| C88 | `Op.call`, `runCalls` (Spec/History): every call with its result | each call reads and writes one half of the client; induction over the calls |
| C89 | `runCalls`, `SentBy`, `TakenBy` (Spec/History) | transport lemmas of C55, C56, C58 per call; induction over the calls |
| C90 | `updateDynamicTable`, `updateRequestDynamicTable`; `HeaderEntry.effect` (Spec/Update) says what an entry means | induction over the block; violated by a block with a mistyped entry in second place |
| C91 | `sendConnectionPreface`, `sendFrame`, `updateRequestDynamicTable` iterated; `ServerReads` (Spec/ClientStream) is a reader with its own RFC 7541 table | C33 per block, concatenation of fragments, induction over the history; the reader is shown to be deterministic; exact form (Spec/Requests): headers sent as positions are there when the server comes to them |
| C92 | `push`, `updateTableSize`, `writeThrough` as one history (`TableHistory`) | induction over the history; violated by an overwritten entry |
| C93 | `updateRequestDynamicTable(n)` between rounds (`ResizedSession`); the peer is an RFC 7541 table | the client's entries stay a prefix of the peer's; violated by growth past the peer's maximum |
| C94 | `HeaderEntry.ofHeader/ofSize/ofHeaderOnly/getHeader/getMaxSize/setHeader` | induction over the edits; C34 for the default prefix |
| C95 | `encodeHeaderBlock` and the sending constructors with `serialize` | room of one entry (`entryRoom`), integers take at most 11 octets and a Huffman code at most 30 bits, induction over the block |
| C96 | `receiveFrame`, the receiving constructors and every `serialize`; a loop passing frames from one client to another (`relay`) | cases over the frame types, induction over the loop; violated by repeated settings |
| C97 | `receiveFrame` that throws, followed by further calls | `receiveFrame_progress` and `processTable` on a throw; violated by an insertion in a rejected PUSH_PROMISE; exact through C126 |
| C98 | `sendFrame` over a failing transport, in sequences (`sendUntil`) | C55 and induction over the frames; violated by a partial write followed by another frame |
| C99 | `Sample.receiveFrames` against `EndsResponse`, RFC 7540's end of a response | C66 and the class of frame each type octet gives; violated by bodiless, reset and foreign-stream responses |
| C100 | `Frame.getPayload`, `Frame.header` of a received frame against `Carries`, RFC 7540 section 6 frame by frame | inversion of `extractPadding`, `extractPriority` and C48–C53; violated by WINDOW_UPDATE's reserved bit |
| C101 | `Client.receiveFrame` of two clients whose incoming octets differ in meaningless header bits, `definedFlags` | `buildFrame` depends on PADDED and PRIORITY only where they are defined; the table update does not look at flags |
| C102 | `Client` histories, `sizesNamed` of the frames received | the maximum is the last size named, by induction over block and history; C63; violated by a size update to 2^30 |
| C103 | `DataFrame.serialize`, `Client.sendFrame` against `frameOctets` | injectivity of `frameOctets`; violated by data of 2^24 octets and more |
| C104 | `Client.sendFrame`, `Client.receiveFrame` | C55, C57; violated by all payloads of more than 16384 octets |
| C105 | `Client.receiveFrame` after another frame | the table update looks at four types only; C57; violated by PING between HEADERS and CONTINUATION |
| C106 | `DynamicTable.pushOwn` (`push` with the reference `at` returns) | the entry must be among those left after eviction, otherwise the reference dangles; longest run of fitting entries (C19) |
| C107 | the header and Huffman encoders | coded length is the sum of the code lengths rounded up; the codes of at most 8 bits are exactly the ordinary characters (whole table); the length prefix is monotone; induction over the block |
| C108 | the sample's `main`; the window read from the octets sent (`Spec/Duties.lean`) | from C72: what was sent is a prefix of one fixed sequence; all prefixes checked |
| C109 | as above; answers counted in the octets sent | from C72: the octets of a normal run are known, the frames received are arbitrary |
| C110 | `Spec/Message.lean`: what section 8.1.2 calls malformed | received: literals are plain blocks (C32) and receive_front; sent: C31 and C95 |
| C111 | `Model/Threads.lean`: threads as lists of steps that share only the once flag; `std::call_once` is modelled by its specification | invariant over all interleavings; the calls of one thread from C83 |
| C112 | `Spec/Body.lean`: frames on the wire and the body RFC 7540 6.1 says they carry | each received frame by C58, induction over the frames; lengths for the failure |
| C113 | nothing new: blocks encoded in one table, decoded in another | the induction of C31 is over any peer table; sessions (C33) for the failure |
| C114 | nothing new: client histories, encoder | induction over histories (the table is the longest fitting prefix of everything reported); size of the integer representation |
| C115 | nothing new: every definition that takes the host as a parameter | a relation between outcomes on two hosts that sequencing preserves; induction over blocks, the sample's loop and histories |
| C116 | `Model/Stdout.lean`: the number of messages written; `Spec/Stdout.lean` adds them up over calls | cases of build_frame; the raw frame leads to the null dereference (C61); induction over histories |
| C117 | `Spec/Calls.lean`: transport calls and octets between two states | induction over the schedules, then over the operations and the history |
| C118 | `Model/Shared.lean`: the calls in single steps and any schedule of threads; `Spec/Shared.lean` | a thread alone refines the whole calls (induction over the schedules of the transport); independence of sending and receiving steps; invariant of the wire; counterexamples |
| C119 | the constructors and `serialize` of every class without header block, `sendFrame`; `Spec/Makeable.lean` | the image of each constructor computed in both directions from the layout of the header |
| C120 | `receiveFrame`, `sendFrame`, the three constructors with a header block; `Spec/Causes.lean` | every function of the decoder shown to throw only at its own check; the cause found in a part of the payload is carried to the whole |
| C121 | `decodeHeaderBlock`, `buildFrame`; `Spec/Loose.lean` is a grammar of its own, without model functions | each reader shown equivalent to its rule of the grammar, in both directions, then induction on the length of the block |
| C122 | `Op.run` with everything below it; `Spec/Defined.lean` on the rules of `Spec/Loose.lean` and `CarriesBlock` | per call: the exact conditions of C121 and of the constructors, joined with the exact condition of the table update (induction on the block); whole sessions by induction on the calls with the table invariant |
| C123 | `Client.receiveFrame`, `HeadersFrame.new`; received items by `Spec/Loose.lean`, sent items by `BlockDecodes` | what was received is known by C121 and C100; what is sent by C31, of which the conditions are carried over |
| C124 | `encodeHeader`, `encodeHeaderBlock`, the three constructors with a header block and `serialize`; `Spec/Octets.lean` is a grammar of its own that follows the encoding procedures of RFC 7541 | each writer shown equivalent to its rule, in both directions; induction on the block |
| C125 | `encodeHeader`; the static table as a whole | the literals of C124; which names are affected by evaluation of the whole static table in the kernel |
| C126 | `Client.receiveFrame` and `updateDynamicTable` with a peer whose table is any | induction over the server's frames with the client's table carried along (`Understood`); a size update to 0 makes the fold over the items independent of the table |
| C127 | the constructors of HEADERS and PUSH_PROMISE in both directions, `Client.receiveFrame` | sending: the payload is pad length modulo 256, content and padding, read back by `Content` (unique); receiving: relational, both calls run on the same content |
| C128 | `Client` with all calls, `DynamicTable`, the three frames with header blocks | induction over the history: every step leaves a prefix of what it adds and what was there (`resize` only drops from the back); a report that throws leaves a sublist; what is sent depends on the table only through membership of the headers of the block |
| C129 | `Client.receiveFrame` over a list of frames, `buildFrame`, `updateDynamicTable` | a frame that does not concern compression gives the same with every table and leaves the table; induction over the frames with the split of a delivery schedule; the per-stream claim by equality of lists with equal first and filtered second components |
| C130-C132 | `Model/Format`: streams with base, case, base prefix, adjustment, fill and width; each `dump` as the list of its insertions | `C131_models_agree`: on the streams of `Model/Dump` both models agree; induction over the list of insertions, with what each kind of insertion reads and changes; the whole text of every class but GOAWAY (C131_text, C131_data_text); octets, numbers and titles read back from it; negations on received PING frames |
| C133 | `Model/Format`, `Model/Dump` and `Model/Sample` as before; `Spec/Log`: a log with the text of each frame | a scanner that follows where lines start, run over the insertions of each `dump` for every formatting; induction over the list of frames; with C132 and C76 the frames themselves. `C133_forged_violated` is a log with a forged frame |
| C134 | `Model/What`: the functions that throw, once more, with the text of the exception (`Told` is `Res` with the text); texts of the standard library and numbers from OpenSSL stay parameters | `Proofs/What`: without the text they are the functions of the other files; then the decoder by induction as in C120, carrying the text; statements in `Rfc.ascii` and `Rfc.decimal` |
| C135 | `constructTold`: the constructor with the text | first failing step by cases; no step's text is a prefix of another's |
| C136 | `Sample.receiveFramesTold`: the loop with the output of `e.what()` | induction over the reads left, against the loop of C66 |
| C137 | `Sample.programTold`: constructor, then `main` with the texts | the statements with and without texts agree (`Agrees`); one case for each statement that can throw; receiving does not depend on the sending side (`receive_over_told`) |
| C138 | `DynamicTable.pushMem`: `push` whose insertion may fail; histories of such calls | the recorded size is that of the entries plus that of all failed headers (induction); `resize_spec` with that surplus gives the outcome of every later call; false as stated |
| C139 | `Model/Memory`: the calls of the client, each with an answer of the allocator for every part that allocates | case analysis over the places where memory can run out; agreement with the model without, except for HEADERS; the weakened table invariant over sessions; false as stated, counterexamples |
| C140 | `Model/MemoryTls`: the constructors with their OpenSSL calls, each allocation may fail; processes with any number of clients | case analysis over the places where memory can run out: the calls are a prefix of those of `construct`; legality of prefixes; induction over the clients |
| C141 | `Model/MemorySample`: the sample program, each statement with an answer of the allocator for every part that allocates | each statement follows the one without (same result, or a beginning of its effects); sequencing and the loop keep that; false for HEADERS, counterexample |
| C142 | programs as trees of calls (`Spec/AnyProgram`), run with `Client` and with `Model/Memory` | each call follows the one without; induction over the program; false for HEADERS, counterexample for every program that begins by receiving |
| C143, C144 | `Model/Live`: whether a receiving call waits; programs (`Spec/AnyProgram`) with servers that answer after each call (`Spec/Live`) | a read that does not wait gives the same over a transport that delivers the parts it got, with any octets after them; induction over the program |
| C145 | `Model/Live`: whether the sample's loop waits | induction over the reads left; C143; false for responses that end with HEADERS or RST_STREAM |
| C146 | programs (`Spec/AnyProgram`) and histories of calls (`Spec/Session`) | induction over the program, and over the history; with C144 for servers that answer |

## 4. Trusted base

* Lean 4.33.0's kernel. The axioms each theorem depends on are listed in section 6; they are among
  `propext`, `Classical.choice`, `Quot.sound`. No `sorry`, no added axioms, no
  `native_decide`/`bv_decide`; `decide +kernel` is evaluated by the kernel and adds no axiom.
* The faithfulness of `Verif/Model` to the C++ text, cited function by function and line by line.
  `Verif/Conformance.lean` replays the literal vectors of the repository's unit tests on the model
  (tests, not proofs).
* The transcription of RFC 7540 and RFC 7541 in `Verif/Spec`.
* The meaning given to the C++ standard library and to OpenSSL's return values in section 2. The
  language is C++17, as `CMakeLists.txt` sets it; from C++20 on the signed shifts modelled by `shlInt`
  (C54) would be defined. Types have the sizes of the 64-bit hosts: `int` 32 bits, `size_t` 64.

## 5. What is modelled and what is not

Modelled, every function that has an effect or a result:

| Code | Model |
|---|---|
| `mh2c/util/*` | `Bits` |
| `mh2c/hpack/integer_representation.*` | `IntRep` |
| `mh2c/hpack/huffman_code.cpp` (both tables), `huffman_encoder.cpp`, `huffman_decoder.cpp` | `HuffmanCode`, `Huffman` |
| `mh2c/hpack/static_table_definition.cpp` (both tables) | `StaticTable` |
| `mh2c/hpack/dynamic_table.*`, `operator<<` | `DynamicTable`, `Dump` |
| `mh2c/hpack/header_type.*`, `header_encoder.cpp`, `header_decoder.cpp` | `HeaderType`, `HeaderEncoder`, `HeaderDecoder` |
| `mh2c/frame/*` : constructors, `serialize`, `operator==`, `get_header`, `get_payload`, `build_frame`, `dump` | `FrameHeader`, `Frames`, `FrameBuilder`, `Accessors`, `Dump`, `Format`, `Stdout` |
| `mh2c/ssl/*` | `Ssl` (reading and writing), `Tls` (construction, verification, release), `MemoryTls` (construction with `std::bad_alloc`), `Threads` (initialisation under `std::call_once`), `Shared` (calls in single steps) |
| `mh2c/http2_client.*` | `Client`, `Memory` (the same with `std::bad_alloc`), `Live` (when a call waits) |
| `sample/h2_get/sample_h2_get.cpp` | `Sample`, `What` (the same with the texts of exceptions), `MemorySample` (with `std::bad_alloc`) |

Not modelled:

* OpenSSL, sockets, DNS, certificates: only the order of the calls and what their results mean.
* Waiting for the network, other than in the calls that receive (`Model/Live`: C143 to C145): a `BIO_write` that waits because the server does not read, and the handshake. The other theorems speak about calls that do not wait for ever; by C144 they hold of servers that answer what they are sent, too.
* Memory exhaustion (`std::bad_alloc`), other than in the calls of a client and of its tables (`Model/Memory`: C138, C139) in its construction (`Model/MemoryTls`: C140) and in the sample (`Model/MemorySample`: C141); the constructors of frames and headers, which change nothing, and printing elsewhere are without. An insertion that fails is taken to leave the vector as it was, as in libstdc++. Objects of 2^64 octets and more.
* Threads, beyond C111 and C118. The library creates none; its globals are constant tables and the once
  flag of the OpenSSL initialisation. `Threads` interleaves threads that each have their own client
  objects. `Shared` interleaves threads that use one client object, one transport call or table use at a
  time. What OpenSSL does when two threads are inside its functions with the same connection, and
  simultaneous accesses to one table inside the library (both undefined), are outside the model.
* Copying and moving: `http2_client` and the `ssl` classes cannot be copied or moved (declared
  destructor, deleted members), so there is no such operation to model; frames and tables are values.
* Of the texts of exceptions (`Model/What`) those of the standard library (`std::vector::at`, `std::unordered_map::at`) and the numbers that OpenSSL or `errno` give; they are parameters.
* CMake files, third-party code, lint configuration; the tests other than as vectors.

## 6. Axioms

Output of `#print axioms` for every theorem of MANIFEST.json, grouped.

* `none`: `C59_request_table`, `C94_built`.
* `propext`: `C15_eos`, `C59_send`, `C98_next_frame_violated`.
* `propext, Quot.sound`: `C02_make_flags_bits`, `C02_make_flags_order`, `C09_consumption_violated`, `C15_canonical`, `C18_size_accounting`, `C19_rfc_table`, `C19_longest_run`, `C20_oversized_push_violated`, `C20_defined_iff_fits_partial`, `C22_update_table_size`, `C22_idempotent`, `C23_classification`, `C23_exhaustive`, `C23_encoded`, `C54_goaway_reserved_violated`, `C55_failure`, `C64_constructor`, `C90_update_partial`, `C90_whole_block_partial`, `C92_write`, `C117_one_write`, `C139_report_partial`, `C139_report_violated`.
* `propext, Classical.choice, Quot.sound`: all the others (430).

## 7. Properties the code violates

Each is a theorem about the model with a concrete witness; the matching `_partial` theorem says what
does hold.

* `C09_consumption_violated`: C09 is false of the code: the integer 127 written in three octets is reported as two octets long, so the decoder resumes in the middle of it.
* `C14_rfc_rejection_violated`: C14 is false of the code: a string containing EOS, and one padded with zeros, have no RFC decoding but are accepted.
* `C17_appendix_a_violated`: C17 is false at index 20.
* `C20_oversized_push_violated`: C20 is false of the code: pushing any header larger than the maximum, onto any table reached by an admissible history, is undefined behaviour, where RFC 7541 4.4 asks for an empty table. (The bound says that the sizes added up fit `size_t`.)
* `C29_index_zero_violated`: C29 is false for index 0: RFC 7541 6.1 makes it a decoding error, the client delivers a header with empty name and value.
* `C31_indexed_without_entry_violated`: C31 is false of the code when INDEXED is asked for a header that is in no table: what is sent has no decoding.
* `C31_mistyped_name_violated`: C31 is false of the code for the mistyped static entry: a header sent under the name `accept-control-allow-origin` arrives as `access-control-allow-origin`.
* `C31_reference_after_insertion_violated`: C31 is false of the code when a dynamic reference follows an insertion in the same block: the index is computed in the old table. The peer decodes `b: 2` twice instead of `b: 2`, `a: 1`.
* `C32_empty_name_violated`: C32 is false of the code for a literal that takes an empty name from the table: the client takes the value for the name and reads on.
* `C32_long_integer_violated`: C32 is false of the code for an integer that is not in its shortest form: the client miscounts its octets.
* `C32_reference_after_insertion_violated`: C32 is false of the code for a reference to an entry inserted earlier in the same block: the client looks it up in the old table and delivers another header.
* `C32_static_20_violated`: C32 is false of the code for static index 20.
* `C33_every_hit_violated`: C33, how far it fails: in every state that the tables reach together, sending a header that is in a table with INCREMENTAL_INDEXING makes the two tables differ, unless the table holds nothing but copies of this header and has no room for another.
* `C33_incremental_hit_violated`: C33 is false of the code: an INCREMENTAL_INDEXING entry that is in a table is sent as an index, so the peer inserts nothing, but `update_request_dynamic_table` inserts it again.
* `C33_repeated_violated`: C33 is false of the code: whenever the client's table has room for all of it, a block in which some header to be indexed is already in a table leaves the two tables different, even in the number of their entries.
* `C50_malformed_settings_violated`: C50 is false of the code: a SETTINGS payload whose length is not a multiple of six is read past its end, whatever its contents.
* `C51_malformed_padding_violated`: C51 is false of the code: in a padded HEADERS or PUSH_PROMISE frame such a payload makes `build_frame` move iterators outside the buffer.
* `C52_last_value_violated`: C52 is false of the code: with INITIAL_WINDOW_SIZE first 1, then 2, the client records 1.
* `C54_goaway_reserved_violated`: C54 is false of GOAWAY: serializing a frame with a reserved field of 2 or more is an undefined shift.
* `C54_headers_exclusive_violated`: C54 is false of HEADERS: constructing a frame with PRIORITY and an exclusive field of 2 or more is an undefined shift.
* `C61_null_dereference_violated`: C61, negation of the second half. For a HEADERS frame that is delivered by the transport, receive_frame dereferences a null pointer exactly if decoding the frame throws.
* `C61_raw_never_delivered_violated`: C61, negation of the second half. receive_frame never delivers a raw frame.
* `C62_header_table_size_violated`: C62, negation. Every SETTINGS frame announcing a table size `v` resizes the response table to `v` (evicting entries) and leaves the request table alone.
* `C67_settings_violated`: C67 is false of the code: on a stream on which a PING frame was printed before, a SETTINGS frame with INITIAL_WINDOW_SIZE 65535 is printed as `ffff`. Both frames can be received.
* `C68_unprintable_violated`: C68 is false of the code: printing any other received DATA frame is undefined behaviour.
* `C69_unterminated_violated`: C69 is false of the code: debug data without a zero octet (any text a peer sends) is read past its end.
* `C71_insertion_violated`: C71, where it fails. The block inserts `k: v` and then refers to the newest entry. In one frame the reference is resolved in the table as it was before the block (`x: y`); split between the two representations it is resolved in the table with `k: v`, as RFC 7541 demands: the header lists differ.
* `C71_inside_violated`: C71, where it fails. If the part of the block in the HEADERS frame cannot be decoded by itself - the split is inside a representation - receiving the HEADERS frame is undefined behaviour, although the same block in one frame is delivered.
* `C75_error_2_violated`: C75 is false of the code: INTERNAL_ERROR (2) is printed as INTERNAL_ERRPR.
* `C75_setting_3_violated`: C75 is false of the code: SETTINGS_MAX_CONCURRENT_STREAMS (3) is printed without its last letter.
* `C76_goaway_violated`: C76 is false of the code for GOAWAY: debug data is cut at its first zero octet.
* `C76_headers_violated`: C76 is false of the code for HEADERS: a peer can send one header whose value contains a line break, so that the text is the same as for another frame of the same length with two headers.
* `C78_wire_violated`: C78 is false of the code on the wire: two HEADERS frames with the same arguments but for the encoding mode compare equal and are sent as different octets (`X` takes eight bits either way).
* `C79_cut_block_violated`: C79, the same for header blocks: whatever is left of a block that was decoded either decodes to the first headers of it or is undefined behaviour; there is no third outcome, in particular no exception.
* `C79_cut_violated`: C79 is false of the code: a header field representation cut short anywhere is not rejected, the decoder runs past the end of its input.
* `C79_empty_name_violated`: The condition on the table is needed: after a header with an empty name has been inserted, a complete literal that refers to it is read past its end.
* `C79_empty_string_violated`: The condition on the platform is needed: a complete literal with an empty value.
* `C79_longer_integer_violated`: The condition on the integers is needed: a complete literal whose index 15 takes three octets where two do, and whose value is `a`, is read past its end.
* `C81_endpoint_nul_violated`: C81 is false for host names with a NUL: everything from there on, the port included, is dropped, so the client connects to another endpoint than it was given.
* `C82_host_name_violated`: C82 is false of the code: a server with a trusted certificate for any other names is accepted. Whatever the names, construction succeeds as soon as the other steps do.
* `C82_server_name_violated`: C82. RFC 7540 9.2 asks for the server name indication; no run of the constructor sets one.
* `C83_init_first_violated`: C83. But the first context is created before that: OpenSSL before 1.1 requires the opposite.
* `C84_layout_violated`: C84 is false of the code: these frames break the rules and are delivered all the same. DATA with more padding than payload, PRIORITY and RST_STREAM with trailing octets, SETTINGS acknowledgements that carry settings, PING of any length, WINDOW_UPDATE by nothing.
* `C84_stream_violated`: C84 is false of the code: every frame that is delivered is also delivered on a stream the RFC forbids for its type (WINDOW_UPDATE is allowed on all).
* `C85_reference_violated`: C85, negation. A server sends one HEADERS frame that inserts `k: v` and then refers to it. A new client, whatever the transport does and whatever follows, does not receive these headers.
* `C90_all_or_nothing_violated`: C90 is false of the code: a call that throws has applied part of the block.
* `C91_wrong_header_violated`: C91, negation. A new client over a transport that takes everything makes three requests with the headers `a: 1` and `b: 2`, `a: 1`, and `a: 1`. There is just one way for a server to read them, and in it the third has the header `b: 2`.
* `C92_iterator_write_violated`: C92 is false of the code: entries can be written through the iterators of a table, and whenever the new header has another size, the recorded size is wrong from then on.
* `C92_later_call_violated`: And then an ordinary call can be undefined: the entry is written, then evicted with a size it never had.
* `C93_growth_violated`: C93 is false of the code for sizes beyond the peer's: nothing is signalled, the client goes on using entries the peer has evicted, and the peer cannot decode the block. (The first block sets both tables to 40 octets to keep the example short.)
* `C96_relay_violated`: C96 is false of SETTINGS frames: RFC 7540 6.5.3 has the receiver process a repeated identifier in order, so the window of the peer behind a relay should end up 2, but it is told 1 only.
* `C97_rejected_block_violated`: C97 is false where header blocks are concerned. Both ends hold `x: y`. The server sends, in accordance with RFC 7541, a promise that inserts `k: v` and then refers to `x: y`, and a response with a reference to `k: v`. The client rejects the first (the reference is looked up in the table of before the insertion) and delivers the second as `x: y`: wrong, and without a sign of it.
* `C98_next_frame_violated`: C98 is false of the code: a PING fails, the program goes on and its RST_STREAM is reported as sent. On the wire is the beginning of the PING and then the RST_STREAM: the peer finds a PING on stream 0x403, with data that were the RST_STREAM's, and no RST_STREAM.
* `C99_no_body_violated`: C99 is false of the code for a response without a body: HEADERS `:status 204` with END_STREAM on stream 1 ends the response, but the loop reads on, and throws when the server closes.
* `C99_other_stream_violated`: C99 is false of the code for DATA of another stream: END_STREAM on stream 3 ends the loop though nothing of the response has come.
* `C99_reset_violated`: C99 is false of the code for a response that is reset: RST_STREAM (REFUSED_STREAM) on stream 1.
* `C100_padded_data_violated`: C100 is false of the code for DATA: `get_payload` of a frame with padding gives the whole payload, pad length and padding included, never just the data.
* `C100_window_violated`: C100 is false of the code for WINDOW_UPDATE: RFC 7540 6.9 has the receiver ignore the reserved bit, but `get_payload` includes it, so the increment appears larger by 2^31.
* `C102_larger_violated`: C102 is false of the code: a new client has announced no size, so 4096 is the limit, but the frame is delivered and the table then holds 4130 octets of at most 2^30.
* `C103_data_read_as_frames_violated`: C103 is false of longer data. Given any octets, frames of an attacker's choice for instance, of length 2^24 after any beginning: sent as the data of one DATA frame they are read as a DATA frame with the beginning only, followed by the given octets as frames; the receiving end of this library reads them so, too.
* `C104_received_violated`: C104 is false of what is received: a client that has announced nothing has to reject frames of more than 16384 octets, but every DATA frame up to 2^24 - 1 octets is delivered.
* `C104_sent_violated`: C104 is false of what is sent: RFC 7540 4.2 has a peer that has announced nothing else reject frames of more than 16384 octets. Nothing keeps a program from sending them.
* `C105_interrupted_violated`: C105 is false of the code: HEADERS without END_HEADERS on stream 1, PING, and CONTINUATION on stream 3 are an error twice over; all three are delivered.
* `C106_evicted_violated`: C106 is false of the code for every other entry: the insertion removes the entry and then reads it. Inserting a copy of the same entry succeeds.
* `C107_longer_violated`: C107. Text outside the ordinary characters: a header with a name of the static table and a value that consists of one or more other octets takes more octets with Huffman coding than without, whenever it is sent as a literal.
* `C108_long_response_violated`: C108 is false of the code: a run of the sample that ends normally has received at most 65535 octets of DATA, if the server keeps to the window the sample has granted (RFC 7540 6.9). A longer response does not arrive.
* `C109_second_settings_violated`: C109 is false of the code: the server changes its SETTINGS before the response. It reads two SETTINGS frames, of which one is an acknowledgement.
* `C109_unanswered_violated`: C109 is false of the code: the server sends SETTINGS, PING and a response of one octet. The run ends normally, the PING was received and printed, and the server has read no PING frame.
* `C110_received_violated`: C110 is false of what is received: every malformed response (of non-empty names and values up to 126 octets), sent in one HEADERS frame as plain literals, is delivered as it is, in every state of the client. The literals do mean that header list.
* `C110_sent_violated`: C110 is false of what is sent: every malformed request (without the mistyped name of C31) can be put in a HEADERS frame, and a conforming server that holds the client's table reads exactly that header list.
* `C111_init_first_violated`: C111, where it fails: a thread can create its context while another one is still initialising the library; OpenSSL before 1.1 requires the initialisation to be complete.
* `C112_padded_violated`: C112, where it fails: as soon as one DATA frame on the stream has padding - a single octet is enough, and servers pad to hide lengths - what the caller puts together is not the body, but longer.
* `C113_insertion_violated`: C113, where it fails: in every state that the tables reach together, a frame made with a header that is only in the dynamic table no longer means that header once any other header has been inserted, sent and reported in order.
* `C118_misread_violated`: C118, what that means to the peer: two threads send a PING each, with data `da` and `db`. If the transport takes the first nine octets of the one, the peer reads a PING with data that neither has sent, and then octets that are no frame of either.
* `C118_mixed_violated`: C118 is false of the code for two threads that send: as soon as the transport takes only a part of a frame, all of the other thread's frame can come between, and both calls return.
* `C118_receivers_violated`: C118 is false of the code for two threads that receive, too: the server sends two PINGs; one thread reads the header of the first and then, as its data, octets of the header of the second: it is given a PING that the server has not sent (unless these happen to be the data).
* `C123_index_violated`: C123 is false of the code for headers that came as an index: if such a header, alone in its frame, is in none of the tables of the other connection, the server there does not read it.
* `C123_never_indexed_violated`: C123 is false of the code for never indexed headers: RFC 7541 6.2.3 demands that they are sent on as never indexed, but one that is in a table of the other connection is sent as an index.
* `C125_dynamic_violated`: C125 is false of the code for the dynamic table, which is searched for whole headers only: a header with the name of an entry, but another value, is spelled out unless the static table has the name.
* `C125_static_violated`: C125 is false of the code for these five names, and for no other name of the static table: they are there, but not with an empty value, so they are spelled out with every value that is not there.
* `C127_sent_violated`: C127 is false of the code: 256 octets 0x82 given as padding of a HEADERS frame reach the peer as 256 further headers `:method: GET`, whatever the header block, its octets and the tables are.
* `C130_formatting_violated`: C130 is false of the code: after a PING frame was printed on a stream with the formatting streams start with, the program's own `255` comes out as `ff` and its `7` in a field of three as `007`.
* `C131_left_violated`: C131 is false of the code: on a stream with `std::left` the octet 1 of a PING frame comes out as `10`.
* `C131_showbase_violated`: C131 is false of the code: on a stream with `std::showbase` the octets of a PING frame get a prefix, except those that are zero.
* `C132_left_violated`: C132 is false of the code: on a stream with `std::left` two received PING frames with different data print the same text.
* `C133_forged_violated`: C133 is false of the code: there are a GOAWAY frame whose debug data has lines that look like a SETTINGS frame, and another GOAWAY frame, both as they are received, such that printing the first alone and printing the second and then a SETTINGS frame give the same log.
* `C138_bad_alloc_violated`: C138 is false of the code: whenever the insertion of a header fails for lack of memory, the table records the size of a header that is not there, and from then on * setting any maximum below the size of the header, 0 above all, is undefined behaviour; * so is pushing any header that fits the table, but not together with the one that is not there.
* `C139_headers_violated`: C139 is false of the code: whenever memory runs out while a HEADERS frame is decoded, whatever is in it, `receive_frame` does not throw: it is undefined behaviour. `std::bad_alloc` is caught as if the frame could not be decoded, a raw frame is made, and a null pointer is dereferenced.
* `C139_payload_violated`: C139 is false of the code: when there is no memory for the payload of a frame, the payload is left in the stream, and from then on the client reads it as frames, whatever it is: it is in the state of a client to which the server has sent the payload itself. The length is the server's choice, and so is the payload, or that of whoever wrote what the server sends as DATA.
* `C139_report_violated`: C139 is false of the code: whenever there is no memory to insert a header into the request table, reporting the header once more does not help: the table then holds it, and it is small enough, but * setting the size 0, which every server may ask for, is undefined behaviour; * so is reporting a header that fits the table, but not together with the one that was not inserted.
* `C139_settings_violated`: C139 is false of the code: a server sends HEADERS with a header to be indexed and then SETTINGS with a header table size of 0. If there is no memory to insert the header, the second frame is undefined behaviour. With memory both are received.
* `C141_headers_violated`: C141 is false of the code: a server sends SETTINGS, HEADERS with the response, and its body. With memory the sample returns. If memory runs out while it decodes the HEADERS, it is undefined behaviour and not an exception.
* `C142_headers_violated`: C142 is false of the code: for every program that begins by receiving a frame, whatever it does with it, there is undefined behaviour if memory runs out while a HEADERS frame is decoded, whatever is in it.
* `C145_ended_violated`: C145 is false of the code: the loop waits for ever for more, whenever the server ends the response with HEADERS or RST_STREAM, and sends nothing after that.

## 8. Partial theorems

* `C09_consumption_partial`: C09, true part. The octet count the header decoder advances by never exceeds the octets the integer occupies, and equals their number exactly for integers in minimal form (no representation of the same value occupies fewer octets). Missing from the full statement: non-minimal integers, for which the claim is false (`C09_consumption_violated`).
* `C14_every_input_partial`: C14, exactly, for every input. If the input is a sequence of codes (EOS included) and fewer than eight bits that do not begin with a code, whatever these bits are, `decode` returns the octets of the codes, with a zero octet for EOS; every other input is rejected with `invalid_argument`. Missing: rejection of EOS and of padding that is not all 1, which is false of the code.
* `C14_rfc_agreement_partial`: C14, first half: whenever RFC 7541 5.2 assigns a decoding, `decode` returns it. Missing: the converse (an input RFC 7541 rejects is rejected), which is false, see below.
* `C14_rfc_rejection_partial`: C14, what is left of the second half: an accepted input that RFC 7541 rejects contains the EOS symbol or ends in padding (of fewer than eight bits) that is not all 1. In particular padding longer than seven bits is always rejected. Missing: rejection of these inputs, which is false of the code.
* `C17_appendix_a_partial`: C17 except for index 20. Missing: index 20, where the name is mistyped (false of the code).
* `C20_defined_iff_fits_partial`: C20, the part that holds: a push is defined exactly for the headers that fit. Missing: what RFC 7541 4.4 prescribes for the others (false, see above).
* `C29_exact_partial`: C29, exactly, for an index beyond both tables: `out_of_range` if the integer takes at most six octets and is below 2^31 plus what fits its prefix, undefined behaviour otherwise; nothing is ever delivered. Missing: the exception for longer and larger integers, and index 0 (false, see below).
* `C29_missing_reference_partial`: C29, the part that holds: an index beyond both tables is `out_of_range`, in an indexed representation and as the name of any literal. Missing: index 0 (false, see below). (`rest`: an integer of at most six octets and below 2^31, the decoder's limits.)
* `C31_exact_partial`: C31, exactly, for every block that is encoded, of any length. A conforming decoder that holds the same table decodes exactly the given headers if and only if every entry has a representation (`SentAs`: INDEXED only for headers in a table), no literal has the mistyped name, and for every entry that is sent as a position in the dynamic table, the decoder, having applied the items before it, has that header at that position. Missing (false of the code): the blocks in which one of these is not so. The hypothesis `hempty` leaves out INDEXED asked, without Huffman coding, for a header with an empty value that is in no table: the peer then takes the octets that follow for another header, which may by accident be the one meant (`hempty_needed`).
* `C31_one_entry_partial`: C31, exactly, for a single header or size update. Missing: blocks of several entries, for which `C31_peer_decodes_partial` gives a sufficient condition. A conforming decoder that holds the same table decodes what is sent for the entry as exactly the given header (or as no header, for a size update) if and only if the header is in a table, or the prefix is not INDEXED and the name is not the mistyped one.
* `C31_peer_decodes_partial`: C31, the part that holds. Missing (false, see below): blocks in which a dynamic reference follows an insertion or an evicting size update, INDEXED asked for a header that is in no table, and literals with the mistyped static name. For every other block of typed entries, a conforming decoder that holds the same table decodes exactly the given headers, in order, each in the representation asked for (or as an index if it is in a table), and there is no other way to decode it.
* `C32_client_decodes_partial`: C32, the part that holds. Missing (false, see below): integers not in their shortest form, references to entries inserted or moved within the block, static index 20, indexed empty names; and integers of 2^31 and more. Every block of a restrained peer is decoded by the client to exactly the header list that RFC 7541 assigns to it, with the representations. (`ItemTolerant` only matters on platforms where an empty string cannot be formed.)
* `C32_exact_partial`: C32, exactly. For every block that RFC 7541 gives a meaning and whose integers are in their shortest form (and below 2^31), the client returns the header list it means if and only if every reference in it denotes, in the client's table at the start of the block and with the misprint at index 20, what it denotes in the table the peer means. The peer's table need not be the client's. Missing (false of the code): the references that are not kept; integers in a longer form; and, as a hypothesis, tables with an entry whose name is empty. (`ItemTolerant` only matters on platforms where an empty string cannot be formed.)
* `C33_any_block_partial`: C33, exactly, for every block that is sent, decoded as the given headers and reported, size updates among its entries or not, and from any two tables. In the client's table every entry has had its effect, in order; in the peer's table every representation has that was sent, in order: `SentAs` makes them differ in the headers to be indexed that were in a table. Missing: that the two tables are the same, which is false of the code (`C33_repeated_violated`).
* `C33_exact_partial`: C33, exactly, for a block without size updates that is sent, decoded as the given headers and reported. The client's table then holds the last headers that were to be indexed, as many as fit, and the peer's table those of them that were sent to be indexed, that is, were in no table. The tables need not have been in step before. Missing: that these are the same, which is false of the code (`C33_repeated_violated`); size updates, see `C33_any_block_partial`.
* `C33_in_step_partial`: C33. Two tables that are in step stay in step over every history of blocks that the peer reads as they were meant and that ask to index nothing that is in a table already. Nothing is asked about size updates, room or the order of references and insertions. Missing: the blocks that are read otherwise (C31), and those that ask to index a header that is in a table, for which it is false (`C33_every_hit_violated`).
* `C33_session_continues_partial`: C33. Every good block can be sent next: it is encoded, the peer decodes exactly its headers and the client's update succeeds. Missing: other blocks, as in `C33_tables_in_sync_partial`.
* `C33_tables_in_sync_partial`: C33, the part that holds: after every history of good blocks the client's request table and the peer's table have the same entries and the same maximum. Missing: blocks with an INCREMENTAL_INDEXING entry that is already in a table (false, see below), and the exceptions of C20 and C31.
* `C50_well_formed_partial`: C50, the part that holds: every payload of the right length is parsed (and holds some list of settings). Missing: rejection of the other lengths, see `C50_malformed_settings_violated`.
* `C51_headers_partial`: C51, the part that holds: with a fitting pad length the padding is transparent. HEADERS: the result is that of the unpadded content, with the padding octets recorded. Missing: rejection of bad pad lengths, see `C51_malformed_padding_violated`.
* `C51_push_promise_partial`: C51, the part that holds, PUSH_PROMISE. Missing: rejection of bad pad lengths, see `C51_malformed_padding_violated`.
* `C52_first_value_partial`: C52, what the code does: the parsed frame holds exactly the first value of each identifier. Missing: the last one, as RFC 7540 6.5.3 asks (see `C52_last_value_violated`). They agree if no identifier is repeated.
* `C54_low_bit_only_partial`: C54, the part that holds. Frame header, PRIORITY, PUSH_PROMISE and WINDOW_UPDATE use the low bit of the one-bit field only: the octets are those for `field mod 2` (PRIORITY rejects other values). Missing: GOAWAY and HEADERS, see below.
* `C62_exact_partial`: C62, exactly. A SETTINGS frame is received whole. The client returns; afterwards its request table is within the size the peer announced last and its response table is as before if and only if the request table was within that size already and the first size announced is the one the response table has (or no size is announced). Missing: all other sizes, for which the property is false (`C62_header_table_size_violated`).
* `C67_independent_partial`: C67, the part that holds: for every frame but SETTINGS, whatever the history of the stream, the outcome and the text added are the same. Missing: SETTINGS, see `C67_settings_violated`.
* `C67_settings_base_partial`: C67, SETTINGS: the text depends on the base the stream is in, on nothing else. Missing: independence of the base, see `C67_settings_violated`.
* `C67_settings_small_partial`: C67, SETTINGS: values below ten are printed alike in both bases. Missing: values of ten and more, see `C67_settings_violated`.
* `C68_data_partial`: C68, the part that holds: a printable DATA frame is printed, data and padding apart, as the RFC splits the payload. Missing: safety for the other frames, see `C68_unprintable_violated`.
* `C69_goaway_partial`: C69, the part that holds: printing a GOAWAY frame whose debug data is empty or has a zero octet succeeds; what is shown of the debug data is what precedes the zero octet. Missing: the other frames, see `C69_unterminated_violated`.
* `C71_between_partial`: C71, the part that holds. A header block `a ++ b` arrives in one HEADERS frame (client `u`) and is delivered. The same block arrives as HEADERS with `a` and CONTINUATION with `b` (client `d`, same table). If `a` can be decoded by itself - the split is between two representations - and `a` holds neither an insertion into the dynamic table nor a size update, or `b` refers to no entry of the dynamic table (it can be decoded with an empty one), then the two frames are delivered, their header lists put together are the header list of the unsplit frame, and the dynamic table is the same afterwards. Missing: every other split, see `C71_inside_violated` and `C71_insertion_violated`.
* `C71_exact_partial`: C71, exactly, for blocks split between representations. A client whose response table is the server's receives HEADERS with the first part `a` of a header block and CONTINUATION with the second part `b`. It delivers the headers the server means by the two parts if and only if every reference in `a` denotes what it should in the table before the block, and every reference in `b` in the table after `a`. Missing: splits inside a representation, see `C71_inside_violated`, and other references, for which it is false.
* `C75_error_names_partial`: C75, the part that holds: every error code with an RFC 7540 name but INTERNAL_ERROR is printed with that name, by RST_STREAM and GOAWAY. Missing: INTERNAL_ERROR, see `C75_error_2_violated`.
* `C75_setting_names_partial`: C75, the part that holds: every setting with an RFC 7540 name but MAX_CONCURRENT_STREAMS is printed with that name. Missing: setting 3, see `C75_setting_3_violated`.
* `C76_continuation_partial`: C76, CONTINUATION with a clean header block. Missing: other blocks, as for HEADERS.
* `C76_goaway_exact_partial`: C76, GOAWAY, exactly: the texts of two GOAWAY frames are the same if and only if the frames agree in everything but what comes after the first zero octet of the debug data. Missing (false of the code): the octets after it, see `C76_goaway_violated`.
* `C76_headers_partial`: C76, HEADERS with a clean header block: header, priority fields (if flagged), the header list and the padding (if flagged) can be read off the text. Missing: other blocks, see `C76_headers_violated`; how each header was represented on the wire is not shown.
* `C76_identifies_partial`: C76, the part that holds: two frames shown in full for which the same text is printed on the same stream are the same frame. Missing: frames with a header block, see `C76_headers_violated` and `C76_headers_partial`; GOAWAY, see `C76_goaway_exact_partial`.
* `C76_push_promise_partial`: C76, PUSH_PROMISE with a clean header block, as for HEADERS. Missing: other blocks, as for HEADERS.
* `C78_sent_continuation_partial`: C78, CONTINUATION, likewise. Missing: as for HEADERS.
* `C78_sent_headers_partial`: C78, HEADERS made by the sending constructor with the same mode against the same table: equal frames are sent as the same octets. Missing: other modes and tables, see `C78_wire_violated`.
* `C78_sent_push_promise_partial`: C78, PUSH_PROMISE, likewise. Missing: as for HEADERS.
* `C78_wire_partial`: C78, the part that holds on the wire: equal frames without header block are sent as the same octets. Missing: frames with a header block, see `C78_wire_violated`.
* `C79_complete_partial`: C79, the part that holds: a block of complete representations, with integers in their shortest form, is decoded or rejected by an exception, whatever the strings contain and whatever the indices refer to. Missing: incomplete blocks (false, see above), and tables with an empty name, longer integers and platforms that object to `v[v.size()]`, for each of which it is false (see below).
* `C81_endpoint_partial`: C81. A client that attempts a connection, whether it then succeeds or not, has asked for exactly one endpoint before and does not ask for another one: for a host name without NUL it is the host name, a colon and the port in decimal. Missing: host names with NUL, see the violation below.
* `C81_endpoint_unique_partial`: C81. Clients for different hosts or ports connect to different endpoints. Missing: host names with NUL.
* `C82_trusted_partial`: C82, the part that holds: if a client asked to verify the server is connected, the certificate chain is trusted. Missing: the host name, see below.
* `C84_accepted_partial`: The octets of an accepted frame, by type: what is checked in place of `LayoutRule`. Missing: the rules that are not checked, see the violations below.
* `C84_any_stream_partial`: C84: the stream identifier is never checked. Whatever is delivered with one identifier is delivered with any other. Missing: the rules on stream identifiers, none of which is checked.
* `C84_blocks_partial`: C84, HEADERS, PUSH_PROMISE and CONTINUATION: such a frame is delivered as a frame of its type exactly if padding and fixed fields leave a header block and the client can decode it. Missing: the stream identifiers, which are not checked (`C84_stream_violated`).
* `C85_any_transport_partial`: C85. Whatever the transport does: the frames returned by the first calls that return are the first frames the server sent, with its headers. Missing: as in `C85_server_stream_partial`.
* `C85_exact_partial`: C85, exactly. Of everything a server sends over a connection, from the first frame on, each frame is received as a frame of its type with exactly the headers the server meant if and only if every reference in every frame denotes, in the table at the start of that frame (with the misprint at index 20), what the server means by it. Missing (false of the code): frames with other references, and the servers that `ServerMeans` leaves out.
* `C85_server_stream_partial`: C85, the part that holds. Everything a restrained server sends over a connection, from the first frame on, is received frame by frame: for each frame a frame of its type with exactly the headers the server meant, however the transport cuts the stream; after the last one the two HPACK tables are the same. Missing: the servers excluded in `ServerSends`, for which it is false (C20, C31, C32, C62, C71).
* `C90_update_partial`: C90. Reporting a block applies its entries in order, up to the first that cannot be applied, and touches nothing but the request table: it returns if all were applied, throws if it met an entry whose prefix and contents contradict each other, and is undefined if it met an INCREMENTAL_INDEXING header larger than the table. Missing: all or nothing, false of the code (see below); a larger header must empty the table.
* `C90_whole_block_partial`: C90. In particular, a block of entries whose contents match their prefixes never throws, and any block that returns was applied as a whole. Missing: blocks with a mistyped entry, for which it is false.
* `C91_exact_partial`: C91, exactly, as far as header blocks go. Blocks are sent and reported one after the other, from any state of the two tables, in step or not, with the table resized in between. The server reads every block as the headers the client was given if and only if every entry has a representation (INDEXED only for headers in a table), no literal has the mistyped name, and each header that was encoded as a position in the dynamic table is, when the server comes to it, at that position of the server's table. Missing (false of the code): the histories in which this is not so; and, as a hypothesis, what becomes of the entries that `Clear` leaves out.
* `C91_server_reads_partial`: C91. A new client sends the preface and then requests and other frames, any number of them, and receives in between whatever there is, or fails to. After the preface a server conforming to RFC 7540 and RFC 7541 reads exactly the frames and header lists the client meant, there is no other way to read the octets, and the server's table ends up as the client's request table. Restricted to `GoodBlock`s, for what C31 and C33 found wrong with others. Missing: other blocks, for which it is false (C31, C33).
* `C92_accounting_partial`: C92, the part that holds: with pushes, size changes and writes that keep the size of the entry, in any order, the recorded size is right and within the maximum. Missing: other writes, see below.
* `C93_client_partial`: C93, over the calls of a client. After any history of requests, size changes within the peer's size and other calls: the newest entries of the peer's table are those of the request table; every good block encoded against the request table is decoded as meant, and it can be reported; every size within the peer's can be set, and it is in force then. The two calls change the request table only. Missing: larger sizes, as above.
* `C93_session_partial`: C93. After any such history every good block is sent and decoded as meant, and the history can go on, with another size too. Missing: larger sizes, as above.
* `C93_tables_partial`: C93. Whatever sizes within the peer's the client has set in between: the newest entries of the peer's table are those of the client's. Missing: larger sizes, see below.
* `C96_received_frame_partial`: C96, one frame: a received frame can be written, and it is written as the octets it came from exactly if they are `Plain`. Missing: frames whose sender departed from the RFC in the ways of `Plain`, and SETTINGS frames with identifiers out of order or repeated, for which it is false.
* `C96_relay_partial`: C96, a whole connection: what is read from one connection and sent over another without a failure is written as it was read - no octet lost, added or changed - exactly if all of it is plain. Missing: as in `C96_received_frame_partial`.
* `C97_exact_partial`: C97, exactly. A frame was rejected; the server, which does not know, has the table `t` after it. The program goes on: of everything the server sends from there on, each frame is received with its type and exactly the headers the server meant if and only if every reference in it denotes, in the table the client had before the rejected frame (and has since changed with what it received), what the server means by it. Missing (false of the code): other references.
* `C97_skipped_partial`: C97, the part that holds: a frame that was delivered by the transport and rejected by receive_frame is skipped. The client is then the client of a server that never sent it: the next frame is next, tables and everything sent are as before. Missing: the changes the frame's header block makes to the server's table (see `C97_rejected_block_violated`).
* `C98_before_failure_partial`: C98, the part that holds: up to a failure every frame is on the wire complete and in order; of the frame that failed there is a part that is not all of it. Missing: sending on after the failure (see `C98_next_frame_violated`).
* `C98_exact_partial`: C98, exactly. A program goes on after a failure and all it sends then, `more`, is sent. On the wire are the frames before the failure, a part of the frame that failed, and `more`. So the peer is sent frames and nothing else if and only if nothing of the frame that failed had been sent, which the program is not told. Missing (false of the code): the other failures.
* `C99_complete_partial`: C99. The other way round: under the same conditions a loop that has returned has received the whole response and nothing after it. Missing: as above.
* `C99_returns_partial`: C99. If the response ends with a DATA frame, and DATA comes on stream 1 only, the loop returns at the frame that ends the response, having received and printed everything up to it. Missing: responses that end with HEADERS or RST_STREAM, and DATA frames of other streams; see below.
* `C100_payload_partial`: C100. `get_payload` of a received frame is what RFC 7540 says the frame carries; header blocks are those the response table gives. Missing: DATA frames with padding and WINDOW_UPDATE frames with the reserved bit set, see below.
* `C102_limit_partial`: C102, the part that holds: if no frame received names a size above `limit`, the response table never takes more than `limit` octets (as RFC 7541 4.1 counts them), whatever is called and whatever the peer sends. Missing: peers that name larger sizes, which RFC 7541 6.3 tells the client to treat as an error; see below.
* `C103_exact_partial`: C103, exactly, for data of any length: whatever the data, the peer reads - there is only one way to read it - a DATA frame with as many octets of it as remain when its length is divided by 2^24, and the others as what follows the frame. So it reads the data as one frame if and only if they are fewer than 2^24 octets. Missing (false of the code): longer data.
* `C103_one_frame_partial`: C103, the part that holds: data of fewer than 2^24 octets, sent in a DATA frame, is read as the data of one DATA frame, whatever it contains: there is no other way to split the octets into frames. Missing: longer data, see below.
* `C104_bounded_partial`: C104, the part that holds: a call of receive_frame takes at most 9 + 2^24 - 1 octets from the connection, whatever the peer sends. Missing: the limit of 16384, see above.
* `C105_between_partial`: C105, the part that holds: a frame that is neither SETTINGS nor carries a header block leaves no trace. What is received after it, a CONTINUATION for instance, is what would have been received without it: `c` receives `f` first, the peer of `d` did not send it. Missing: such a frame between HEADERS and CONTINUATION is an error (RFC 7540 4.3), see below.
* `C106_survives_partial`: C106, the part that holds: `table.push(table.at(i))` does the same as inserting a copy of the entry if the entry survives the insertion: it, the newer entries and the new copy fit the maximum together. Missing: the other entries, see below.
* `C107_ordinary_partial`: C107. A header block of ordinary text is encoded with Huffman coding whenever it is encoded without, and then takes no more octets. Missing: header text with other characters, see `C107_longer_violated`.
* `C108_window_partial`: C108. However far the sample has come, and whatever the server and the transport do, the window it has granted for the connection is the initial one. So the server may send 65535 octets of DATA. Missing: more octets, see `C108_long_response_violated`.
* `C109_answered_partial`: C109. A run of the sample that ends normally has answered everything the server asked for, if and only if the server has sent SETTINGS exactly once and no PING (acknowledgements not counted). Missing: answers to every other sequence of frames, see `C109_unanswered_violated`.
* `C112_body_partial`: C112, the part that holds. If none of the DATA frames on a stream has padding, then what the caller puts together from `get_payload` is the body that was sent, however it was cut into frames, whatever other frames came in between and however the transport cut the octets. Missing: frames with padding, for which it is false, see below.
* `C113_no_reference_partial`: C113. A block none of whose headers is only in the dynamic table can be sent at any time: every conforming decoder decodes it as the given headers, whatever its table holds by then. Missing: as in `C113_prepared_partial`.
* `C113_prepared_partial`: C113, exactly, for every block that is encoded. `table` is the request table when the frame was made, `peer` the table of a conforming decoder when it arrives, whatever was sent in between. The decoder decodes exactly the given headers if and only if every entry has a representation (`SentAs`: INDEXED only for headers in a table), no literal has the mistyped name, and the decoder has each header that was encoded as a position in the dynamic table at that position. Missing (false of the code): the blocks where this is not so; `hempty` is explained at `C31_exact_partial`.
* `C118_whole_partial`: C118, the part that holds for several threads that send (or do anything else): over a transport that takes each buffer whole or fails, the wire holds whole buffers, in an order in which those of each thread are those of its calls that returned, in the order of the calls. Missing: transports that take a part of a buffer, see `C118_mixed_violated`.
* `C123_exact_partial`: C123, exactly, for blocks of any length: the server behind the other connection reads the header list that was received if and only if every entry has a representation there (`SentAs`: those that came as an index are in the tables), no literal has the mistyped name, and every header that is sent as a position in the dynamic table is at that position when the server comes to it. Missing (false of the code): the blocks where this is not so. (`hempty`: see `C31_exact_partial`.)
* `C123_forward_partial`: C123, the part that holds. A client receives a HEADERS frame and its header list is put, as `get_payload` gives it, into a HEADERS frame for another connection with request table `t`. Then a conforming server that holds this table reads the same header list, and the headers that came as never indexed are sent as never indexed, except those that are in a table. Missing (false, see below): headers that came as an index and are not in the tables of the other connection, never indexed headers that are; and the limits of C31 (the mistyped name, references after an insertion in the same block).
* `C123_one_header_partial`: C123, exactly, for a block of one header: the server behind the other connection reads the header if and only if it is in the tables there, or did not come as an index and does not have the mistyped name. Missing: as in `C123_forward_partial`.
* `C125_exact_partial`: C125, exactly. A header that is in no table is sent with the index of its name, and without the name, if and only if the static table has the name with an empty value. The index is that of the name. Missing: the other names of the static table and those of the dynamic table, see below.
* `C127_promise_exact_partial`: C127, sending, PUSH_PROMISE, exactly; see `C127_sent_exact_partial`. Missing: the same.
* `C127_sent_exact_partial`: C127, sending, HEADERS, exactly: for every header block, padding and priority a peer that receives the frame finds in it the octets of the header block, followed by all but the last `padding.size() % 256` octets of the padding. Missing: a padding is never read as headers; see `C127_sent_violated`.
* `C127_sent_partial`: C127, sending, the part that holds: the peer finds exactly the octets of the header block if and only if the frame is not padded or the padding has at most 255 octets. Missing: longer paddings, see `C127_sent_violated`.
* `C130_formatting_partial`: C130, exactly what printing a frame does to the formatting of a stream, whatever it was: the width is used up; if octets are printed, the stream is left in hexadecimal and with the fill character `0`; nothing else changes. Missing: frames that print octets, see `C130_formatting_violated`.
* `C131_independent_partial`: C131, the part that holds: on two streams without a width, the outcome and the text are the same whatever was written before and whatever their formatting, provided that they agree on upper case, base prefix and adjustment if the frame prints octets, and on upper case, base prefix and base if it is a SETTINGS frame with parameters. Missing: those frames on streams that differ in this, see `C131_showbase_violated`, `C131_left_violated` and `C67_settings_violated`; streams with a width, see `C131_width_partial`.
* `C131_width_partial`: C131, streams with a width: the title line alone is padded. On a right-adjusted stream the padding comes before the text, on a left-adjusted one after the first line. Missing: independence of the width.
* `C132_headers_partial`: C132, HEADERS with a clean header block, on every stream, whatever its formatting: header, priority fields (if flagged) and the header list can be read off the text, and on streams that are not left-adjusted the padding (if flagged) too. Missing: padding on left-adjusted streams, see `C132_left_violated`; other blocks, see `C76_headers_violated`.
* `C132_identifies_partial`: C132, the part that holds: on every stream that is not left-adjusted, whatever else its formatting, two frames shown in full that print the same text are the same frame; on left-adjusted streams so are two that print no octets. Missing: frames that print octets on left-adjusted streams, see `C132_left_violated`; frames with a header block and GOAWAY, which do not identify the frame on any stream, see `C76_headers_violated`.
* `C132_octets_partial`: C132, the part that holds: on every stream that is not left-adjusted, whatever else its formatting, two PING frames, or two frames of unknown types, that print the same text are the same frame. Missing: left-adjusted streams, see `C132_left_violated`.
* `C132_push_promise_partial`: C132, PUSH_PROMISE with a clean header block, as for HEADERS. Missing: padding on left-adjusted streams, see `C132_left_violated`; other blocks, as for HEADERS.
* `C133_failed_partial`: C133 with C136: in the output of a receive loop that ended with an exception, on a stream on which nothing was printed before, the lines that start with `=== ` still count the frames and stand before the text of each; the line with the text of the exception is not one of them. The conditions are that no header or debug data has a line that starts with an equals sign, and no text of the standard library either. Missing: frames with such a line, as in `C133_titles_partial`.
* `C133_failed_run_partial`: C133 with C137, for the whole program: a run that ends with an exception received some frames, none if the constructor failed, and its output is their texts one after the other, and then at most one line more, the text of the exception. The lines that start with `=== ` count the frames and stand before the text of each. The conditions are those of `C133_failed_partial`. Missing: frames with a line in a header or in debug data that starts with an equals sign, as in `C133_titles_partial`.
* `C133_frames_partial`: C133, the part that holds, for the frames themselves: on a stream that is not left-adjusted and has no width pending, two lists of frames shown in full that give the same log are the same list. Missing: frames with a header block and GOAWAY, the text of which does not say everything (`C76_headers_violated`, `C76_goaway_violated`), and left-adjusted streams (`C132_left_violated`).
* `C133_sample_partial`: C133 for the sample program: a run that ends normally received some frames, two at least, and printed their texts one after the other; if no header or debug data among them has a line that starts with an equals sign, then the lines of its output that start with `=== ` count those frames and stand before the text of each. Missing: as in `C133_titles_partial`.
* `C133_shown_partial`: C133, the part that holds, for frames of every class: on a stream that is not left-adjusted and has no width pending, two lists of readable frames that give the same log have the same length, and one by one their frames agree in everything that is shown. Missing: header blocks with newlines, and debug data with a line that looks like a title, see `C133_forged_violated`; left-adjusted streams, see `C132_left_violated`; what is not shown, see `C76_goaway_violated`.
* `C133_texts_partial`: C133, the part that holds, for two logs: if the same text was printed, on whatever streams, then the same number of frames was printed, and one by one they have the same text. Missing: as in `C133_titles_partial`.
* `C133_titles_partial`: C133, the part that holds: print any frames one after the other, on a stream with any formatting and no width pending. If no header name, header value or debug data of theirs has a line that starts with an equals sign, then the lines of the log that start with `=== ` are exactly the first lines of the frames: there is one for each frame, it is the title of that frame, and what comes before it is the texts of the frames before. Missing: frames with such a line in a header or in debug data, see `C133_forged_violated`.
* `C138_defined_partial`: C138, exactly: which calls are defined after such a history. There has to be room for the headers that are not there. Missing: the other calls, which are undefined behaviour.
* `C138_entries_partial`: C138, exactly: what the table holds after the next call. It is what RFC 7541 4.4 says of a table whose maximum is smaller by the size of all headers that could not be inserted. Missing: that it is so with the maximum that was set (false of the code).
* `C138_recorded_partial`: C138, exactly: after any history of calls in which memory may have run out, the size a table records is that of its entries and of all the headers that could not be inserted, for ever; it is within the maximum. Missing: that it is the size of the entries (false of the code).
* `C139_receive_partial`: C139, exactly, for `receive_frame`: what it has done when it runs out of memory. It has done nothing; or the transport failed, and it has done what it does then; or it has read the nine octets of the frame header and not the payload; or it has read the frame, and then the table is as before, or a part of its header block has had its effect. The request table and what was sent are as before in any case. Missing: that the next call finds the beginning of a frame, and the table as before or as after the frame.
* `C139_report_partial`: C139, exactly, for `update_request_dynamic_table`: when it runs out of memory, a part of the header block has had its effect on the request table; nothing else has changed. Missing: that none of it or all of it has. The variant with a size does not run out of memory.
* `C139_same_partial`: C139, the part that holds of calls that do not end with `std::bad_alloc`: such a call ends as it does where memory never runs out, whatever the memory, unless it is `receive_frame` and the frame is HEADERS. With enough memory no call ends with `std::bad_alloc`. Missing: HEADERS, see `C139_headers_violated`.
* `C139_send_partial`: C139, the part that holds of sending, and of `receive_raw_data`: a call that ran out of memory has done nothing, or it is one that would have thrown another exception, and has done what it does then. Missing: `receive_frame` and `update_request_dynamic_table`, see below.
* `C139_tables_partial`: C139, exactly, what is left of C63: after every session in which memory may have run out at any time, a table records the size of its entries and of certain headers that are not there, at most one for each call that threw `std::bad_alloc`; and that is within the maximum, so it never holds more than was agreed. Setting a size is defined if and only if the headers that are not there fit it. If no call ran out of memory there are none. Missing: that there are none in any case (false of the code).
* `C141_ends_partial`: C141, the part that holds of runs that do not end with `std::bad_alloc`: such a run ends as it does where memory never runs out, and has sent, received and printed the same, unless the server has sent HEADERS. In particular `main` returns only if it has done everything. With enough memory no run ends with `std::bad_alloc`. Missing: HEADERS, see `C141_headers_violated`.
* `C141_stops_partial`: C141, the part that holds of the other runs. A run that ends with `std::bad_alloc` has sent a beginning of what it sends where memory never runs out, and printed a beginning of what it prints there (and then the text of the exception, if it was in `receive_frames`); what it has sent is a beginning of the sequence of C72 in any case. Missing: that every run that runs out of memory ends so, see `C141_headers_violated`.
* `C142_ends_partial`: C142, the part that holds of runs that do not end with `std::bad_alloc`: such a run ends as it does where memory never runs out, and leaves the client the same, unless the program receives HEADERS. In particular it comes to its end only if it has done everything. With enough memory no run ends with `std::bad_alloc`. Missing: HEADERS, see `C142_headers_violated`.
* `C142_stops_partial`: C142, the part that holds of the other runs: a run that ends with `std::bad_alloc` has sent a beginning of what it sends where memory never runs out, and nothing else, and has not received more than it receives there. Missing: that every run that runs out of memory ends so, see `C142_headers_violated`.
* `C145_data_partial`: C145, the part that holds: if responses end with DATA, and DATA comes on stream 1 only, then the loop waits for ever only if the server has not sent the end of the response, nor GOAWAY, and has not sent all of its next frame. Missing: responses that end with HEADERS or RST_STREAM, see `C145_ended_violated`.
* `C145_exact_partial`: C145, exactly: the loop waits for ever if and only if the frames that the server has sent completely can be received and printed, there is no GOAWAY and no DATA with END_STREAM among them, and the call that is to receive the next frame waits. Missing: that the response has not ended then, see `C145_ended_violated`.
