import Verif.Props.Frames

/-! The unit tests of the repository, replayed on the model. These are tests of the model's
faithfulness, not proofs: each is one literal case, evaluated by the kernel. The expected octets are
those written in the C++ tests. Tests that only compare an encoder with the decoder are left out:
they are instances of the round trip theorems. -/

namespace Mh2c.Conformance

attribute [local instance] x86

/-- test/util/bit_operation_test.cpp:10-16 `extract_low_bit_1`. -/
example : extractLowBit 1 0b11111110 = .ok 0b0 := by
  decide +kernel

/-- test/util/bit_operation_test.cpp:18-24 `extract_low_bit_7`. -/
example : extractLowBit 7 0b10101010 = .ok 0b0101010 := by
  decide +kernel

/-- test/util/bit_operation_test.cpp:26-32 `extract_high_bit_1`. -/
example : extractHighBit 8 1 0b10000000 = .ok 0b1 := by
  decide +kernel

/-- test/util/bit_operation_test.cpp:34-40 `extract_high_bit_7`. -/
example : extractHighBit 8 7 0b10101010 = .ok 0b1010101 := by
  decide +kernel

/-- test/util/bit_operation_test.cpp:42-47 `is_flag_set_same_type_true`. -/
example : isFlagSet 0b10001111 0b10000000 = true := by
  decide +kernel

/-- test/util/bit_operation_test.cpp:49-54 `is_flag_set_same_type_false`. -/
example : isFlagSet 0b00001111 0b10000000 = false := by
  decide +kernel

/-- test/util/bit_operation_test.cpp:70-76 `is_flag_set_enum_type_true`. -/
example : isFlagSet 0b10001111 0b10000000 = true := by
  decide +kernel

/-- test/util/bit_operation_test.cpp:78-84 `is_flag_set_enum_type_false`. -/
example : isFlagSet 0b10001111 0b01000000 = false := by
  decide +kernel

/-- test/util/byte_order_test.cpp:13-17 `cvt_net2host_uint16_t`. -/
example : hostToNet 2 (netToHost 2 0x1234) = 0x1234 := by
  decide +kernel

/-- test/util/byte_order_test.cpp:19-23 `cvt_net2host_uint32_t`. -/
example : hostToNet 4 (netToHost 4 0x12345678) = 0x12345678 := by
  decide +kernel

/-- test/util/byte_order_test.cpp:25-29 `cvt_host2net_uint16_t`. -/
example : netToHost 2 (hostToNet 2 0x1234) = 0x1234 := by
  decide +kernel

/-- test/util/byte_order_test.cpp:31-35 `cvt_host2net_uint32_t`. -/
example : netToHost 4 (hostToNet 4 0x12345678) = 0x12345678 := by
  decide +kernel

/-- test/util/byte_order_test.cpp:37-44 `bytes2integral_uint8_t`. -/
example : bytes2integral 1 [0x12] = .ok 0x12 := by
  decide +kernel

/-- test/util/byte_order_test.cpp:46-53 `bytes2integral_uint16_t`. -/
example : bytes2integral 2 [0x12, 0x34] = .ok 0x1234 := by
  decide +kernel

/-- test/util/byte_order_test.cpp:55-62 `bytes2integral_uint32_t`. -/
example : bytes2integral 4 [0x12, 0x34, 0x56, 0x78] = .ok 0x12345678 := by
  decide +kernel

/-- test/util/byte_order_test.cpp:64-70 `integral2bytes_uint8_t`. -/
example : integral2bytes 1 0x12 = [0x12] := by
  decide +kernel

/-- test/util/byte_order_test.cpp:72-78 `integral2bytes_uint16_t`. -/
example : integral2bytes 2 0x1234 = [0x12, 0x34] := by
  decide +kernel

/-- test/util/byte_order_test.cpp:80-86 `integral2bytes_uint32_t`. -/
example : integral2bytes 4 0x12345678 = [0x12, 0x34, 0x56, 0x78] := by
  decide +kernel

/-- test/hpack/integer_representation_test.cpp:11-16 `7bit_1byte_low_limit`. -/
example : encodeIntegerValue 7 0 = [0] := by
  decide +kernel

/-- test/hpack/integer_representation_test.cpp:18-23 `7bit_1byte_high_limit`. -/
example : encodeIntegerValue 7 126 = [126] := by
  decide +kernel

/-- test/hpack/integer_representation_test.cpp:25-30 `7bit_2byte`. -/
example : encodeIntegerValue 7 127 = [127, 0] := by
  decide +kernel

/-- test/hpack/integer_representation_test.cpp:32-37 `7bit_3byte`. -/
example : encodeIntegerValue 7 255 = [127, 128, 1] := by
  decide +kernel

/-- test/hpack/integer_representation_test.cpp:39-44 `6bit_1byte_low_limit`. -/
example : encodeIntegerValue 6 0 = [0] := by
  decide +kernel

/-- test/hpack/integer_representation_test.cpp:46-51 `6bit_1byte_high_limit`. -/
example : encodeIntegerValue 6 62 = [62] := by
  decide +kernel

/-- test/hpack/integer_representation_test.cpp:53-58 `6bit_2byte`. -/
example : encodeIntegerValue 6 63 = [63, 0] := by
  decide +kernel

/-- test/hpack/integer_representation_test.cpp:60-65 `6bit_3byte`. -/
example : encodeIntegerValue 6 191 = [63, 128, 1] := by
  decide +kernel

/-- test/hpack/integer_representation_test.cpp:67-72 `4bit_1byte_low_limit`. -/
example : encodeIntegerValue 4 0 = [0] := by
  decide +kernel

/-- test/hpack/integer_representation_test.cpp:74-79 `4bit_1byte_high_limit`. -/
example : encodeIntegerValue 4 14 = [14] := by
  decide +kernel

/-- test/hpack/integer_representation_test.cpp:81-86 `4bit_2byte`. -/
example : encodeIntegerValue 4 15 = [15, 0] := by
  decide +kernel

/-- test/hpack/integer_representation_test.cpp:88-93 `4bit_3byte`. -/
example : encodeIntegerValue 4 143 = [15, 128, 1] := by
  decide +kernel

/-- test/hpack/integer_representation_test.cpp:96-101 `7bit_1byte_low_limit`. -/
example : decodeIntegerValue 7 (encodeIntegerValue 7 0) = .ok 0 := by
  decide +kernel

/-- test/hpack/integer_representation_test.cpp:103-108 `7bit_1byte_high_limit`. -/
example : decodeIntegerValue 7 (encodeIntegerValue 7 126) = .ok 126 := by
  decide +kernel

/-- test/hpack/integer_representation_test.cpp:110-115 `7bit_2byte`. -/
example : decodeIntegerValue 7 (encodeIntegerValue 7 127) = .ok 127 := by
  decide +kernel

/-- test/hpack/integer_representation_test.cpp:117-122 `7bit_3byte`. -/
example : decodeIntegerValue 7 (encodeIntegerValue 7 255) = .ok 255 := by
  decide +kernel

/-- test/hpack/integer_representation_test.cpp:124-129 `6bit_1byte_low_limit`. -/
example : decodeIntegerValue 6 (encodeIntegerValue 6 0) = .ok 0 := by
  decide +kernel

/-- test/hpack/integer_representation_test.cpp:131-136 `6bit_1byte_high_limit`. -/
example : decodeIntegerValue 6 (encodeIntegerValue 6 62) = .ok 62 := by
  decide +kernel

/-- test/hpack/integer_representation_test.cpp:138-143 `6bit_2byte`. -/
example : decodeIntegerValue 6 (encodeIntegerValue 6 63) = .ok 63 := by
  decide +kernel

/-- test/hpack/integer_representation_test.cpp:145-150 `6bit_3byte`. -/
example : decodeIntegerValue 6 (encodeIntegerValue 6 191) = .ok 191 := by
  decide +kernel

/-- test/hpack/integer_representation_test.cpp:152-157 `4bit_1byte_low_limit`. -/
example : decodeIntegerValue 4 (encodeIntegerValue 4 0) = .ok 0 := by
  decide +kernel

/-- test/hpack/integer_representation_test.cpp:159-164 `4bit_1byte_high_limit`. -/
example : decodeIntegerValue 4 (encodeIntegerValue 4 14) = .ok 14 := by
  decide +kernel

/-- test/hpack/integer_representation_test.cpp:166-171 `4bit_2byte`. -/
example : decodeIntegerValue 4 (encodeIntegerValue 4 15) = .ok 15 := by
  decide +kernel

/-- test/hpack/integer_representation_test.cpp:173-178 `4bit_3byte`. -/
example : decodeIntegerValue 4 (encodeIntegerValue 4 143) = .ok 143 := by
  decide +kernel

/-- test/hpack/huffman_encoder_test.cpp:12-18 `simple_data_302`. -/
example : Huffman.encode [0x33, 0x30, 0x32] =
    .ok [0x64, 0x02] := by
  decide +kernel

/-- test/hpack/huffman_encoder_test.cpp:20-26 `simple_data_private`. -/
example : Huffman.encode [0x70, 0x72, 0x69, 0x76, 0x61, 0x74, 0x65] =
    .ok [0xae, 0xc3, 0x77, 0x1a, 0x4b] := by
  decide +kernel

/-- test/hpack/huffman_encoder_test.cpp:28-39 `simple_data_date`. -/
example : Huffman.encode [0x4d, 0x6f, 0x6e, 0x2c, 0x20, 0x32, 0x31, 0x20, 0x4f, 0x63, 0x74, 0x20,
      0x32, 0x30, 0x31, 0x33, 0x20, 0x32, 0x30, 0x3a, 0x31, 0x33, 0x3a, 0x32, 0x31, 0x20, 0x47,
      0x4d, 0x54] =
    .ok [0xd0, 0x7a, 0xbe, 0x94, 0x10, 0x54, 0xd4, 0x44, 0xa8, 0x20, 0x05, 0x95, 0x04, 0x0b,
      0x81, 0x66, 0xe0, 0x82, 0xa6, 0x2d, 0x1b, 0xff] := by
  decide +kernel

/-- test/hpack/huffman_encoder_test.cpp:41-51 `simple_data_url`. -/
example : Huffman.encode [0x68, 0x74, 0x74, 0x70, 0x73, 0x3a, 0x2f, 0x2f, 0x77, 0x77, 0x77, 0x2e,
      0x65, 0x78, 0x61, 0x6d, 0x70, 0x6c, 0x65, 0x2e, 0x63, 0x6f, 0x6d] =
    .ok [0x9d, 0x29, 0xad, 0x17, 0x18, 0x63, 0xc7, 0x8f, 0x0b, 0x97, 0xc8, 0xe9, 0xae, 0x82,
      0xae, 0x43, 0xd3] := by
  decide +kernel

/-- test/hpack/header_encoder_test.cpp:14-26 `indexed_header`. -/
example : encodeHeader ⟨.indexed, .header (bstr ":method", bstr "GET")⟩ .none .default =
    .ok [0x82] := by
  decide +kernel

/-- test/hpack/header_encoder_test.cpp:30-47 `indexed_name_INCREMENTAL_INDEXING`. -/
example : encodeHeader ⟨.incrementalIndexing, .header (bstr ":authority",
      bstr "example.com")⟩ .none .default =
    .ok [0x41, 0x0b, 0x65, 0x78, 0x61, 0x6d, 0x70, 0x6c, 0x65, 0x2e, 0x63, 0x6f, 0x6d] := by
  decide +kernel

/-- test/hpack/header_encoder_test.cpp:49-65 `new_name_INCREMENTAL_INDEXING`. -/
example : encodeHeader ⟨.incrementalIndexing, .header (bstr "hoge", bstr "fuga")⟩ .none .default =
    .ok [0x40, 0x04, 0x68, 0x6f, 0x67, 0x65, 0x04, 0x66, 0x75, 0x67, 0x61] := by
  decide +kernel

/-- test/hpack/header_encoder_test.cpp:69-86 `indexed_name_WITHOUT_INDEXING`. -/
example : encodeHeader ⟨.withoutIndexing, .header (bstr ":authority",
      bstr "example.com")⟩ .none .default =
    .ok [0x01, 0x0b, 0x65, 0x78, 0x61, 0x6d, 0x70, 0x6c, 0x65, 0x2e, 0x63, 0x6f, 0x6d] := by
  decide +kernel

/-- test/hpack/header_encoder_test.cpp:88-104 `new_name_WITHOUT_INDEXING`. -/
example : encodeHeader ⟨.withoutIndexing, .header (bstr "hoge", bstr "fuga")⟩ .none .default =
    .ok [0x00, 0x04, 0x68, 0x6f, 0x67, 0x65, 0x04, 0x66, 0x75, 0x67, 0x61] := by
  decide +kernel

/-- test/hpack/header_encoder_test.cpp:108-125 `indexed_name_NEVER_INDEXED`. -/
example : encodeHeader ⟨.neverIndexed, .header (bstr ":authority",
      bstr "example.com")⟩ .none .default =
    .ok [0x11, 0x0b, 0x65, 0x78, 0x61, 0x6d, 0x70, 0x6c, 0x65, 0x2e, 0x63, 0x6f, 0x6d] := by
  decide +kernel

/-- test/hpack/header_encoder_test.cpp:127-143 `new_name_NEVER_INDEXED`. -/
example : encodeHeader ⟨.neverIndexed, .header (bstr "hoge", bstr "fuga")⟩ .none .default =
    .ok [0x10, 0x04, 0x68, 0x6f, 0x67, 0x65, 0x04, 0x66, 0x75, 0x67, 0x61] := by
  decide +kernel

/-- test/hpack/header_encoder_test.cpp:147-161 `SIZE_UPDATE`. -/
example : encodeHeader ⟨.sizeUpdate, .maxSize 8192⟩ .none .default =
    .ok [0x3f, 0xe1, 0x3f] := by
  decide +kernel

/-- test/hpack/header_encoder_test.cpp:164-180 `encode_with_huffman_encode`. -/
example : encodeHeader ⟨.neverIndexed, .header (bstr "hoge", bstr "fuga")⟩ .huffman .default =
    .ok [0x10, 0x83, 0x9c, 0xf3, 0x17, 0x83, 0x96, 0xd9, 0x87] := by
  decide +kernel

/-- test/frame/frame_header_test.cpp:10-27 `serialize`. -/
example : FrameHeader.serialize ⟨0x40, 0x04, 0x02, 0x00, 0x80⟩ = [0x00, 0x00, 0x40, 0x04, 0x02,
      0x00, 0x00, 0x00, 0x80] := by
  decide +kernel

/-- test/frame/frame_header_test.cpp:29-46 `serialize_set_reserved`. -/
example : FrameHeader.serialize ⟨0x1234, 0x05, 0x08, 0x01, 0xffff⟩ = [0x00, 0x12, 0x34, 0x05,
      0x08, 0x80, 0x00, 0xff, 0xff] := by
  decide +kernel

/-- test/frame/frame_header_test.cpp:48-65 `serialize_max`. -/
example : FrameHeader.serialize ⟨0xffffff, 0xff, 0xff, 0x01, 0x7fffffff⟩ = [0xff, 0xff, 0xff,
      0xff, 0xff, 0xff, 0xff, 0xff, 0xff] := by
  decide +kernel

/-- test/frame/frame_header_test.cpp:67-85 `build_frame_header`. -/
example : buildFrameHeader [0x00, 0x00, 0x40, 0x04, 0x02, 0x00, 0x00, 0x00, 0x80] = .ok ⟨0x40,
      0x04, 0x02, 0x00, 0x80⟩ := by
  decide +kernel

/-- test/frame/frame_header_test.cpp:87-105 `build_frame_header_set_reserved`. -/
example : buildFrameHeader [0x00, 0x12, 0x34, 0x05, 0x08, 0x80, 0x00, 0xff, 0xff] = .ok ⟨0x1234,
      0x05, 0x08, 0x01, 0xffff⟩ := by
  decide +kernel

/-- test/frame/frame_header_test.cpp:107-125 `build_frame_header_max`. -/
example : buildFrameHeader [0xff, 0xff, 0xff, 0xff, 0xff, 0xff, 0xff, 0xff,
      0xff] = .ok ⟨0xffffff, 0xff, 0xff, 0x01, 0x7fffffff⟩ := by
  decide +kernel

/-- test/frame/headers_frame_test.cpp:13-33 `serialize_indexed_header`. -/
example : (do
    let block ← (makeHeaderBlock .indexed [(bstr ":method", bstr "GET")])
    let table ← Res.ok DynamicTable.default
    let f ← HeadersFrame.new 0 1 block .none table []
    f.serialize) = .ok [0x00, 0x00, 0x01, 0x01, 0x00, 0x00, 0x00, 0x00, 0x01, 0x82] := by
  decide +kernel

/-- test/frame/headers_frame_test.cpp:35-60 `serialize_indexed_header_name`. -/
example : (do
    let block ← (makeHeaderBlock .neverIndexed [(bstr ":authority", bstr "example.com")])
    let table ← Res.ok DynamicTable.default
    let f ← HeadersFrame.new 0 1 block .none table []
    f.serialize) = .ok [0x00, 0x00, 0x0d, 0x01, 0x00, 0x00, 0x00, 0x00, 0x01, 0x11, 0x0b, 0x65,
      0x78, 0x61, 0x6d, 0x70, 0x6c, 0x65, 0x2e, 0x63, 0x6f, 0x6d] := by
  decide +kernel

/-- test/frame/headers_frame_test.cpp:62-83 `serialize_indexed_header_name_empty_value`. -/
example : (do
    let block ← (makeHeaderBlock .neverIndexed [(bstr "age", bstr "")])
    let table ← Res.ok DynamicTable.default
    let f ← HeadersFrame.new 0 1 block .none table []
    f.serialize) = .ok [0x00, 0x00, 0x03, 0x01, 0x00, 0x00, 0x00, 0x00, 0x01, 0x1f, 0x06,
      0x00] := by
  decide +kernel

/-- test/frame/headers_frame_test.cpp:85-110 `serialize_literal_header`. -/
example : (do
    let block ← (makeHeaderBlock .neverIndexed [(bstr "hoge", bstr "fuga")])
    let table ← Res.ok DynamicTable.default
    let f ← HeadersFrame.new 0 1 block .none table []
    f.serialize) = .ok [0x00, 0x00, 0x0b, 0x01, 0x00, 0x00, 0x00, 0x00, 0x01, 0x10, 0x04, 0x68,
      0x6f, 0x67, 0x65, 0x04, 0x66, 0x75, 0x67, 0x61] := by
  decide +kernel

/-- test/frame/headers_frame_test.cpp:112-140 `serialize_literal_header_same_value`. -/
example : (do
    let block ← (makeHeaderBlock .neverIndexed [(bstr ":status-dummy", bstr "200")])
    let table ← Res.ok DynamicTable.default
    let f ← HeadersFrame.new 0 1 block .none table []
    f.serialize) = .ok [0x00, 0x00, 0x13, 0x01, 0x00, 0x00, 0x00, 0x00, 0x01, 0x10, 0x0d, 0x3a,
      0x73, 0x74, 0x61, 0x74, 0x75, 0x73, 0x2d, 0x64, 0x75, 0x6d, 0x6d, 0x79, 0x03, 0x32, 0x30,
      0x30] := by
  decide +kernel

/-- test/frame/headers_frame_test.cpp:142-167 `serialize_literal_header_incremental_indexing`. -/
example : (do
    let block ← (makeHeaderBlock .incrementalIndexing [(bstr "hoge", bstr "fuga")])
    let table ← Res.ok DynamicTable.default
    let f ← HeadersFrame.new 0 1 block .none table []
    f.serialize) = .ok [0x00, 0x00, 0x0b, 0x01, 0x00, 0x00, 0x00, 0x00, 0x01, 0x40, 0x04, 0x68,
      0x6f, 0x67, 0x65, 0x04, 0x66, 0x75, 0x67, 0x61] := by
  decide +kernel

/-- test/frame/headers_frame_test.cpp:169-194 `serialize_literal_header_without_indexing`. -/
example : (do
    let block ← (makeHeaderBlock .withoutIndexing [(bstr "hoge", bstr "fuga")])
    let table ← Res.ok DynamicTable.default
    let f ← HeadersFrame.new 0 1 block .none table []
    f.serialize) = .ok [0x00, 0x00, 0x0b, 0x01, 0x00, 0x00, 0x00, 0x00, 0x01, 0x00, 0x04, 0x68,
      0x6f, 0x67, 0x65, 0x04, 0x66, 0x75, 0x67, 0x61] := by
  decide +kernel

/-- test/frame/headers_frame_test.cpp:196-218 `serialize_size_update`. -/
example : (do
    let block ← (Res.ok ([⟨.sizeUpdate, .maxSize 1024⟩] : HeaderBlock))
    let table ← Res.ok DynamicTable.default
    let f ← HeadersFrame.new 0 1 block .none table []
    f.serialize) = .ok [0x00, 0x00, 0x03, 0x01, 0x00, 0x00, 0x00, 0x00, 0x01, 0x3f, 0xe1,
      0x07] := by
  decide +kernel

/-- test/frame/headers_frame_test.cpp:220-249 `serialize_literal_header_with_padding`. -/
example : (do
    let block ← (makeHeaderBlock .withoutIndexing [(bstr "hoge", bstr "fuga")])
    let table ← Res.ok DynamicTable.default
    let f ← HeadersFrame.new (makeFrameHeaderFlags 8 []) 1 block .none table [0xbe, 0xef]
    f.serialize) = .ok [0x00, 0x00, 0x0e, 0x01, 0x08, 0x00, 0x00, 0x00, 0x01, 0x02, 0x00, 0x04,
      0x68, 0x6f, 0x67, 0x65, 0x04, 0x66, 0x75, 0x67, 0x61, 0xbe, 0xef] := by
  decide +kernel

/-- test/frame/headers_frame_test.cpp:251-281 `serialize_literal_header_with_priority`. -/
example : (do
    let block ← (makeHeaderBlock .withoutIndexing [(bstr "hoge", bstr "fuga")])
    let table ← Res.ok DynamicTable.default
    let f ← HeadersFrame.new (makeFrameHeaderFlags 32 []) 3 block .none table [] ⟨1, 1, 32⟩
    f.serialize) = .ok [0x00, 0x00, 0x10, 0x01, 0x20, 0x00, 0x00, 0x00, 0x03, 0x80, 0x00, 0x00,
      0x01, 0x20, 0x00, 0x04, 0x68, 0x6f, 0x67, 0x65, 0x04, 0x66, 0x75, 0x67, 0x61] := by
  decide +kernel

/-- test/frame/headers_frame_test.cpp:283-308 `serialize_literal_header_with_huffman_code`. -/
example : (do
    let block ← (makeHeaderBlock .incrementalIndexing [(bstr "hoge", bstr "fuga")])
    let table ← Res.ok DynamicTable.default
    let f ← HeadersFrame.new 0 1 block .huffman table []
    f.serialize) = .ok [0x00, 0x00, 0x09, 0x01, 0x00, 0x00, 0x00, 0x00, 0x01, 0x40, 0x83, 0x9c,
      0xf3, 0x17, 0x83, 0x96, 0xd9, 0x87] := by
  decide +kernel

/-- test/frame/headers_frame_test.cpp:310-352 `multi_headers`. -/
example : (do
    let block ← (makeHeaderBlock .neverIndexed [(bstr ":method", bstr "GET"), (bstr ":path",
      bstr "/httpbin/headers"), (bstr ":scheme", bstr "https"), (bstr ":authority",
      bstr "nghttp2.org")])
    let table ← Res.ok DynamicTable.default
    let f ← HeadersFrame.new (makeFrameHeaderFlags 1 [4]) 1 block .none table []
    f.serialize) = .ok [0x00, 0x00, 0x27, 0x01, 0x05, 0x00, 0x00, 0x00, 0x01, 0x82, 0x10, 0x05,
      0x3a, 0x70, 0x61, 0x74, 0x68, 0x10, 0x2f, 0x68, 0x74, 0x74, 0x70, 0x62, 0x69, 0x6e, 0x2f,
      0x68, 0x65, 0x61, 0x64, 0x65, 0x72, 0x73, 0x87, 0x11, 0x0b, 0x6e, 0x67, 0x68, 0x74, 0x74,
      0x70, 0x32, 0x2e, 0x6f, 0x72, 0x67] := by
  decide +kernel

/-- test/frame/headers_frame_test.cpp:354-376 `serialize_indexed_header_in_dynamic_table`. -/
example : (do
    let block ← (makeHeaderBlock .withoutIndexing [(bstr "hoge", bstr "fuga")])
    let table ← DynamicTable.default.push (bstr "hoge", bstr "fuga")
    let f ← HeadersFrame.new 0 1 block .none table []
    f.serialize) = .ok [0x00, 0x00, 0x01, 0x01, 0x00, 0x00, 0x00, 0x00, 0x01, 0xbe] := by
  decide +kernel

/-- test/frame/continuation_frame_test.cpp:13-34 `serialize_indexed_header`. -/
example : (do
    let block ← (makeHeaderBlock .indexed [(bstr "accept-encoding", bstr "gzip, deflate")])
    let table ← Res.ok DynamicTable.default
    let f ← ContinuationFrame.new 0 1 block .none table
    f.serialize) = .ok [0x00, 0x00, 0x01, 0x09, 0x00, 0x00, 0x00, 0x00, 0x01, 0x90] := by
  decide +kernel

/-- test/frame/continuation_frame_test.cpp:36-58 `serialize_indexed_header_with_end_headers`. -/
example : (do
    let block ← (makeHeaderBlock .neverIndexed [(bstr "accept-encoding", bstr "gzip, deflate")])
    let table ← Res.ok DynamicTable.default
    let f ← ContinuationFrame.new (makeFrameHeaderFlags 4 []) 1 block .none table
    f.serialize) = .ok [0x00, 0x00, 0x01, 0x09, 0x04, 0x00, 0x00, 0x00, 0x01, 0x90] := by
  decide +kernel

/-- test/frame/continuation_frame_test.cpp:60-90 `serialize_indexed_header_name`. -/
example : (do
    let block ← (makeHeaderBlock .neverIndexed [(bstr "if-modified-since",
      bstr "Fri, 28 Aug 2020 10:00:00 GMT")])
    let table ← Res.ok DynamicTable.default
    let f ← ContinuationFrame.new 0 1 block .none table
    f.serialize) = .ok [0x00, 0x00, 0x20, 0x09, 0x00, 0x00, 0x00, 0x00, 0x01, 0x1f, 0x19, 0x1d,
      0x46, 0x72, 0x69, 0x2c, 0x20, 0x32, 0x38, 0x20, 0x41, 0x75, 0x67, 0x20, 0x32, 0x30, 0x32,
      0x30, 0x20, 0x31, 0x30, 0x3a, 0x30, 0x30, 0x3a, 0x30, 0x30, 0x20, 0x47, 0x4d, 0x54] := by
  decide +kernel

/-- test/frame/continuation_frame_test.cpp:92-113 `serialize_indexed_header_name_empty_value`. -/
example : (do
    let block ← (makeHeaderBlock .neverIndexed [(bstr "age", bstr "")])
    let table ← Res.ok DynamicTable.default
    let f ← ContinuationFrame.new 0 1 block .none table
    f.serialize) = .ok [0x00, 0x00, 0x03, 0x09, 0x00, 0x00, 0x00, 0x00, 0x01, 0x1f, 0x06,
      0x00] := by
  decide +kernel

/-- test/frame/continuation_frame_test.cpp:115-140 `serialize_literal_header`. -/
example : (do
    let block ← (makeHeaderBlock .neverIndexed [(bstr "hoge", bstr "fuga")])
    let table ← Res.ok DynamicTable.default
    let f ← ContinuationFrame.new 0 1 block .none table
    f.serialize) = .ok [0x00, 0x00, 0x0b, 0x09, 0x00, 0x00, 0x00, 0x00, 0x01, 0x10, 0x04, 0x68,
      0x6f, 0x67, 0x65, 0x04, 0x66, 0x75, 0x67, 0x61] := by
  decide +kernel

/-- test/frame/continuation_frame_test.cpp:142-170 `serialize_literal_header_same_value`. -/
example : (do
    let block ← (makeHeaderBlock .neverIndexed [(bstr ":status-dummy", bstr "200")])
    let table ← Res.ok DynamicTable.default
    let f ← ContinuationFrame.new 0 1 block .none table
    f.serialize) = .ok [0x00, 0x00, 0x13, 0x09, 0x00, 0x00, 0x00, 0x00, 0x01, 0x10, 0x0d, 0x3a,
      0x73, 0x74, 0x61, 0x74, 0x75, 0x73, 0x2d, 0x64, 0x75, 0x6d, 0x6d, 0x79, 0x03, 0x32, 0x30,
      0x30] := by
  decide +kernel

/-- test/frame/continuation_frame_test.cpp:172-197 `serialize_literal_header_incremental_indexing`. -/
example : (do
    let block ← (makeHeaderBlock .incrementalIndexing [(bstr "hoge", bstr "fuga")])
    let table ← Res.ok DynamicTable.default
    let f ← ContinuationFrame.new 0 1 block .none table
    f.serialize) = .ok [0x00, 0x00, 0x0b, 0x09, 0x00, 0x00, 0x00, 0x00, 0x01, 0x40, 0x04, 0x68,
      0x6f, 0x67, 0x65, 0x04, 0x66, 0x75, 0x67, 0x61] := by
  decide +kernel

/-- test/frame/continuation_frame_test.cpp:199-224 `serialize_literal_header_without_indexing`. -/
example : (do
    let block ← (makeHeaderBlock .withoutIndexing [(bstr "hoge", bstr "fuga")])
    let table ← Res.ok DynamicTable.default
    let f ← ContinuationFrame.new 0 1 block .none table
    f.serialize) = .ok [0x00, 0x00, 0x0b, 0x09, 0x00, 0x00, 0x00, 0x00, 0x01, 0x00, 0x04, 0x68,
      0x6f, 0x67, 0x65, 0x04, 0x66, 0x75, 0x67, 0x61] := by
  decide +kernel

/-- test/frame/continuation_frame_test.cpp:226-248 `serialize_size_update`. -/
example : (do
    let block ← (Res.ok ([⟨.sizeUpdate, .maxSize 1024⟩] : HeaderBlock))
    let table ← Res.ok DynamicTable.default
    let f ← ContinuationFrame.new 0 1 block .none table
    f.serialize) = .ok [0x00, 0x00, 0x03, 0x09, 0x00, 0x00, 0x00, 0x00, 0x01, 0x3f, 0xe1,
      0x07] := by
  decide +kernel

/-- test/frame/continuation_frame_test.cpp:250-275 `serialize_literal_header_with_huffman_code`. -/
example : (do
    let block ← (makeHeaderBlock .incrementalIndexing [(bstr "hoge", bstr "fuga")])
    let table ← Res.ok DynamicTable.default
    let f ← ContinuationFrame.new 0 1 block .huffman table
    f.serialize) = .ok [0x00, 0x00, 0x09, 0x09, 0x00, 0x00, 0x00, 0x00, 0x01, 0x40, 0x83, 0x9c,
      0xf3, 0x17, 0x83, 0x96, 0xd9, 0x87] := by
  decide +kernel

/-- test/frame/continuation_frame_test.cpp:277-312 `multi_headers`. -/
example : (do
    let block ← (makeHeaderBlock .neverIndexed [(bstr "accept-encoding", bstr "gzip, deflate"),
      (bstr "if-modified-since", bstr "Fri, 28 Aug 2020 10:00:00 GMT")])
    let table ← Res.ok DynamicTable.default
    let f ← ContinuationFrame.new (makeFrameHeaderFlags 4 []) 1 block .none table
    f.serialize) = .ok [0x00, 0x00, 0x21, 0x09, 0x04, 0x00, 0x00, 0x00, 0x01, 0x90, 0x1f, 0x19,
      0x1d, 0x46, 0x72, 0x69, 0x2c, 0x20, 0x32, 0x38, 0x20, 0x41, 0x75, 0x67, 0x20, 0x32, 0x30,
      0x32, 0x30, 0x20, 0x31, 0x30, 0x3a, 0x30, 0x30, 0x3a, 0x30, 0x30, 0x20, 0x47, 0x4d,
      0x54] := by
  decide +kernel

/-- test/frame/continuation_frame_test.cpp:314-336 `serialize_indexed_header_in_dynamic_table`. -/
example : (do
    let block ← (makeHeaderBlock .withoutIndexing [(bstr "hoge", bstr "fuga")])
    let table ← DynamicTable.default.push (bstr "hoge", bstr "fuga")
    let f ← ContinuationFrame.new 0 1 block .none table
    f.serialize) = .ok [0x00, 0x00, 0x01, 0x09, 0x00, 0x00, 0x00, 0x00, 0x01, 0xbe] := by
  decide +kernel

/-- test/frame/push_promise_frame_test.cpp:13-35 `serialize_indexed_header`. -/
example : (do
    let block ← (makeHeaderBlock .indexed [(bstr ":status", bstr "200")])
    let table ← Res.ok DynamicTable.default
    let f ← PushPromiseFrame.new 0 1 ⟨0, 3, block, []⟩ .none table
    f.serialize) = .ok [0x00, 0x00, 0x05, 0x05, 0x00, 0x00, 0x00, 0x00, 0x01, 0x00, 0x00, 0x00,
      0x03, 0x88] := by
  decide +kernel

/-- test/frame/push_promise_frame_test.cpp:37-62 `serialize_indexed_header_name`. -/
example : (do
    let block ← (makeHeaderBlock .neverIndexed [(bstr "content-length", bstr "28")])
    let table ← Res.ok DynamicTable.default
    let f ← PushPromiseFrame.new 0 1 ⟨0, 3, block, []⟩ .none table
    f.serialize) = .ok [0x00, 0x00, 0x09, 0x05, 0x00, 0x00, 0x00, 0x00, 0x01, 0x00, 0x00, 0x00,
      0x03, 0x1f, 0x0d, 0x02, 0x32, 0x38] := by
  decide +kernel

/-- test/frame/push_promise_frame_test.cpp:64-87 `serialize_indexed_header_name_empty_value`. -/
example : (do
    let block ← (makeHeaderBlock .neverIndexed [(bstr "age", bstr "")])
    let table ← Res.ok DynamicTable.default
    let f ← PushPromiseFrame.new 0 1 ⟨0, 3, block, []⟩ .none table
    f.serialize) = .ok [0x00, 0x00, 0x07, 0x05, 0x00, 0x00, 0x00, 0x00, 0x01, 0x00, 0x00, 0x00,
      0x03, 0x1f, 0x06, 0x00] := by
  decide +kernel

/-- test/frame/push_promise_frame_test.cpp:89-116 `serialize_literal_header`. -/
example : (do
    let block ← (makeHeaderBlock .neverIndexed [(bstr "hoge", bstr "fuga")])
    let table ← Res.ok DynamicTable.default
    let f ← PushPromiseFrame.new 0 1 ⟨0, 3, block, []⟩ .none table
    f.serialize) = .ok [0x00, 0x00, 0x0f, 0x05, 0x00, 0x00, 0x00, 0x00, 0x01, 0x00, 0x00, 0x00,
      0x03, 0x10, 0x04, 0x68, 0x6f, 0x67, 0x65, 0x04, 0x66, 0x75, 0x67, 0x61] := by
  decide +kernel

/-- test/frame/push_promise_frame_test.cpp:118-148 `serialize_literal_header_same_value`. -/
example : (do
    let block ← (makeHeaderBlock .neverIndexed [(bstr ":status-dummy", bstr "200")])
    let table ← Res.ok DynamicTable.default
    let f ← PushPromiseFrame.new 0 1 ⟨0, 3, block, []⟩ .none table
    f.serialize) = .ok [0x00, 0x00, 0x17, 0x05, 0x00, 0x00, 0x00, 0x00, 0x01, 0x00, 0x00, 0x00,
      0x03, 0x10, 0x0d, 0x3a, 0x73, 0x74, 0x61, 0x74, 0x75, 0x73, 0x2d, 0x64, 0x75, 0x6d, 0x6d,
      0x79, 0x03, 0x32, 0x30, 0x30] := by
  decide +kernel

/-- test/frame/push_promise_frame_test.cpp:150-177 `serialize_literal_header_incremental_indexing`. -/
example : (do
    let block ← (makeHeaderBlock .incrementalIndexing [(bstr "hoge", bstr "fuga")])
    let table ← Res.ok DynamicTable.default
    let f ← PushPromiseFrame.new 0 1 ⟨0, 3, block, []⟩ .none table
    f.serialize) = .ok [0x00, 0x00, 0x0f, 0x05, 0x00, 0x00, 0x00, 0x00, 0x01, 0x00, 0x00, 0x00,
      0x03, 0x40, 0x04, 0x68, 0x6f, 0x67, 0x65, 0x04, 0x66, 0x75, 0x67, 0x61] := by
  decide +kernel

/-- test/frame/push_promise_frame_test.cpp:179-206 `serialize_literal_header_without_indexing`. -/
example : (do
    let block ← (makeHeaderBlock .withoutIndexing [(bstr "hoge", bstr "fuga")])
    let table ← Res.ok DynamicTable.default
    let f ← PushPromiseFrame.new 0 1 ⟨0, 3, block, []⟩ .none table
    f.serialize) = .ok [0x00, 0x00, 0x0f, 0x05, 0x00, 0x00, 0x00, 0x00, 0x01, 0x00, 0x00, 0x00,
      0x03, 0x00, 0x04, 0x68, 0x6f, 0x67, 0x65, 0x04, 0x66, 0x75, 0x67, 0x61] := by
  decide +kernel

/-- test/frame/push_promise_frame_test.cpp:208-232 `serialize_size_update`. -/
example : (do
    let block ← (Res.ok ([⟨.sizeUpdate, .maxSize 1024⟩] : HeaderBlock))
    let table ← Res.ok DynamicTable.default
    let f ← PushPromiseFrame.new 0 1 ⟨0, 3, block, []⟩ .none table
    f.serialize) = .ok [0x00, 0x00, 0x07, 0x05, 0x00, 0x00, 0x00, 0x00, 0x01, 0x00, 0x00, 0x00,
      0x03, 0x3f, 0xe1, 0x07] := by
  decide +kernel

/-- test/frame/push_promise_frame_test.cpp:234-264 `serialize_literal_header_with_padding`. -/
example : (do
    let block ← (makeHeaderBlock .withoutIndexing [(bstr "hoge", bstr "fuga")])
    let table ← Res.ok DynamicTable.default
    let f ← PushPromiseFrame.new (makeFrameHeaderFlags 8 []) 1 ⟨0, 3, block, [0xbe,
      0xef]⟩ .none table
    f.serialize) = .ok [0x00, 0x00, 0x12, 0x05, 0x08, 0x00, 0x00, 0x00, 0x01, 0x02, 0x00, 0x00,
      0x00, 0x03, 0x00, 0x04, 0x68, 0x6f, 0x67, 0x65, 0x04, 0x66, 0x75, 0x67, 0x61, 0xbe,
      0xef] := by
  decide +kernel

/-- test/frame/push_promise_frame_test.cpp:266-293 `serialize_literal_header_with_huffman_code`. -/
example : (do
    let block ← (makeHeaderBlock .incrementalIndexing [(bstr "hoge", bstr "fuga")])
    let table ← Res.ok DynamicTable.default
    let f ← PushPromiseFrame.new 0 1 ⟨0, 3, block, []⟩ .huffman table
    f.serialize) = .ok [0x00, 0x00, 0x0d, 0x05, 0x00, 0x00, 0x00, 0x00, 0x01, 0x00, 0x00, 0x00,
      0x03, 0x40, 0x83, 0x9c, 0xf3, 0x17, 0x83, 0x96, 0xd9, 0x87] := by
  decide +kernel

/-- test/frame/push_promise_frame_test.cpp:295-324 `serialize_multi_headers`. -/
example : (do
    let block ← (makeHeaderBlock .neverIndexed [(bstr ":status", bstr "200"),
      (bstr "content-length", bstr "28")])
    let table ← Res.ok DynamicTable.default
    let f ← PushPromiseFrame.new (makeFrameHeaderFlags 4 []) 1 ⟨0, 3, block, []⟩ .none table
    f.serialize) = .ok [0x00, 0x00, 0x0a, 0x05, 0x04, 0x00, 0x00, 0x00, 0x01, 0x00, 0x00, 0x00,
      0x03, 0x88, 0x1f, 0x0d, 0x02, 0x32, 0x38] := by
  decide +kernel

/-- test/frame/push_promise_frame_test.cpp:326-350 `serialize_indexed_header_in_dynamic_table`. -/
example : (do
    let block ← (makeHeaderBlock .withoutIndexing [(bstr "hoge", bstr "fuga")])
    let table ← DynamicTable.default.push (bstr "hoge", bstr "fuga")
    let f ← PushPromiseFrame.new 0 1 ⟨0, 3, block, []⟩ .none table
    f.serialize) = .ok [0x00, 0x00, 0x05, 0x05, 0x00, 0x00, 0x00, 0x00, 0x01, 0x00, 0x00, 0x00,
      0x03, 0xbe] := by
  decide +kernel

/-- test/frame/goaway_frame_test.cpp:11-31 `serialize`. -/
example : (GoawayFrame.new ⟨0, 0, 0, []⟩).serialize =
    .ok [0x00, 0x00, 0x08, 0x07, 0x00, 0x00, 0x00, 0x00, 0x00, 0x00, 0x00, 0x00, 0x00, 0x00,
      0x00, 0x00, 0x00] := by
  decide +kernel

/-- test/frame/goaway_frame_test.cpp:33-54 `serialize_with_additional_debug_data`. -/
example : (GoawayFrame.new ⟨0, 128, 8, [116, 101, 115, 116]⟩).serialize =
    .ok [0x00, 0x00, 0x0c, 0x07, 0x00, 0x00, 0x00, 0x00, 0x00, 0x00, 0x00, 0x00, 0x80, 0x00,
      0x00, 0x00, 0x08, 0x74, 0x65, 0x73, 0x74] := by
  decide +kernel

/-- test/frame/rst_stream_frame_test.cpp:11-25 `serialize`. -/
example : (RstStreamFrame.new 1 0).serialize = .ok [0x00, 0x00, 0x04, 0x03, 0x00, 0x00, 0x00,
      0x00, 0x01, 0x00, 0x00, 0x00, 0x00] := by
  decide +kernel

/-- test/frame/rst_stream_frame_test.cpp:27-41 `serialize_unknown_error_code`. -/
example : (RstStreamFrame.new 1 14).serialize = .ok [0x00, 0x00, 0x04, 0x03, 0x00, 0x00, 0x00,
      0x00, 0x01, 0x00, 0x00, 0x00, 0x0e] := by
  decide +kernel

/-- test/frame/ping_frame_test.cpp:11-26 `serialize`. -/
example : (do
    let f ← PingFrame.new 0 [112, 105, 110, 103]
    f.serialize) = .ok [0x00, 0x00, 0x08, 0x06, 0x00, 0x00, 0x00, 0x00, 0x00, 0x70, 0x69, 0x6e,
      0x67, 0x00, 0x00, 0x00, 0x00] := by
  decide +kernel

/-- test/frame/ping_frame_test.cpp:28-44 `serialize_with_ack`. -/
example : (do
    let f ← PingFrame.new (makeFrameHeaderFlags 1 []) [112, 105, 110, 103]
    f.serialize) = .ok [0x00, 0x00, 0x08, 0x06, 0x01, 0x00, 0x00, 0x00, 0x00, 0x70, 0x69, 0x6e,
      0x67, 0x00, 0x00, 0x00, 0x00] := by
  decide +kernel

/-- test/frame/ping_frame_test.cpp:46-50 `throw_if_opaque_data_size_is_over`. -/
example : PingFrame.new 0 [116, 104, 105, 115, 32, 105, 115, 32, 116, 111, 111, 32, 108, 111, 110, 103] =
    .throw .invalidArgument := by
  decide +kernel

/-- test/frame/settings_frame_test.cpp:10-43 `serialize`. -/
example : (SettingsFrame.new 0 0 (makeSfPayload [(1, 512), (2, 0), (3, 16), (4, 65535),
      (5, 65535), (6, 256)])).serialize =
    .ok [0x00, 0x00, 0x24, 0x04, 0x00, 0x00, 0x00, 0x00, 0x00, 0x00, 0x01, 0x00, 0x00, 0x02,
      0x00, 0x00, 0x02, 0x00, 0x00, 0x00, 0x00, 0x00, 0x03, 0x00, 0x00, 0x00, 0x10, 0x00, 0x04,
      0x00, 0x00, 0xff, 0xff, 0x00, 0x05, 0x00, 0x00, 0xff, 0xff, 0x00, 0x06, 0x00, 0x00, 0x01,
      0x00] := by
  decide +kernel

/-- test/frame/settings_frame_test.cpp:45-60 `serialize_ack`. -/
example : (SettingsFrame.new 1 0 (makeSfPayload [])).serialize =
    .ok [0x00, 0x00, 0x00, 0x04, 0x01, 0x00, 0x00, 0x00, 0x00] := by
  decide +kernel

/-- test/frame/data_frame_test.cpp:11-24 `serialize`. -/
example : (DataFrame.new 0 1 (bstr "test")).serialize =
    .ok [0x00, 0x00, 0x04, 0x00, 0x00, 0x00, 0x00, 0x00, 0x01, 0x74, 0x65, 0x73, 0x74] := by
  decide +kernel

/-- test/frame/data_frame_test.cpp:26-43 `serialize_with_padding`. -/
example : (DataFrame.new (makeFrameHeaderFlags 8 []) 1 [0x02, 0x74, 0x65, 0x73, 0x74, 0xff,
      0xff]).serialize =
    .ok [0x00, 0x00, 0x07, 0x00, 0x08, 0x00, 0x00, 0x00, 0x01, 0x02, 0x74, 0x65, 0x73, 0x74,
      0xff, 0xff] := by
  decide +kernel

/-- test/frame/priority_frame_test.cpp:10-25 `serialize`. -/
example : (do
    let f ← PriorityFrame.new 3 ⟨0, 1, 0⟩
    f.serialize) = .ok [0x00, 0x00, 0x05, 0x02, 0x00, 0x00, 0x00, 0x00, 0x03, 0x00, 0x00, 0x00,
      0x01, 0x00] := by
  decide +kernel

/-- test/frame/priority_frame_test.cpp:27-42 `serialize_with_exclusive`. -/
example : (do
    let f ← PriorityFrame.new 3 ⟨1, 1, 0⟩
    f.serialize) = .ok [0x00, 0x00, 0x05, 0x02, 0x00, 0x00, 0x00, 0x00, 0x03, 0x80, 0x00, 0x00,
      0x01, 0x00] := by
  decide +kernel

/-- test/frame/priority_frame_test.cpp:44-59 `serialize_with_weight`. -/
example : (do
    let f ← PriorityFrame.new 3 ⟨0, 1, 255⟩
    f.serialize) = .ok [0x00, 0x00, 0x05, 0x02, 0x00, 0x00, 0x00, 0x00, 0x03, 0x00, 0x00, 0x00,
      0x01, 0xff] := by
  decide +kernel

/-- test/frame/priority_frame_test.cpp:61-64 `throw_if_exclusive_is_invalid`. -/
example : PriorityFrame.new 3 ⟨2, 1, 0⟩ = .throw .invalidArgument := by
  decide +kernel

/-- test/frame/priority_frame_test.cpp:66-69 `throw_if_stream_dependency_is_invalid`. -/
example : PriorityFrame.new 3 ⟨0, 0x80000000, 0⟩ = .throw .invalidArgument := by
  decide +kernel

/-- test/frame/window_update_frame_test.cpp:10-23 `serialize`. -/
example : (do
    let f ← WindowUpdateFrame.new 0 0 0x01234567
    f.serialize) = .ok [0x00, 0x00, 0x04, 0x08, 0x00, 0x00, 0x00, 0x00, 0x00, 0x01, 0x23, 0x45,
      0x67] := by
  decide +kernel

/-- test/frame/window_update_frame_test.cpp:25-38 `serialize_with_specific_stream`. -/
example : (do
    let f ← WindowUpdateFrame.new 1 0 0x01234567
    f.serialize) = .ok [0x00, 0x00, 0x04, 0x08, 0x00, 0x00, 0x00, 0x00, 0x01, 0x01, 0x23, 0x45,
      0x67] := by
  decide +kernel

/-- test/frame/window_update_frame_test.cpp:40-53 `serialize_with_reserved`. -/
example : (do
    let f ← WindowUpdateFrame.new 0 1 0x01234567
    f.serialize) = .ok [0x00, 0x00, 0x04, 0x08, 0x00, 0x00, 0x00, 0x00, 0x00, 0x81, 0x23, 0x45,
      0x67] := by
  decide +kernel

/-- test/frame/window_update_frame_test.cpp:55-57 `throw_if_window_size_is_over`. -/
example : WindowUpdateFrame.new 0 0 0x80000000 = .throw .invalidArgument := by
  decide +kernel

/-- test/hpack/dynamic_table_test.cpp:22-35 `push_single_header`. -/
example : DynamicTable.default.push (bstr ":authority",
      bstr "example.com") = .ok ⟨[(bstr ":authority", bstr "example.com")], 53, 4096⟩ := by
  decide +kernel

/-- test/hpack/dynamic_table_test.cpp:37-55 `push_multiple_header`. -/
example : (do
    let t ← DynamicTable.default.push (bstr ":authority", bstr "example.com")
    t.push (bstr "content-type", bstr "application/json")) =
    .ok ⟨[(bstr "content-type", bstr "application/json"), (bstr ":authority",
      bstr "example.com")], 53 + 60, 4096⟩ := by
  decide +kernel

/-- test/hpack/dynamic_table_test.cpp:57-69 `resize_table`. -/
example : (do
    let t ← (DynamicTable.new 60).push (bstr ":authority", bstr "example.com")
    t.push (bstr "content-type", bstr "application/json")) = .ok ⟨[(bstr "content-type",
      bstr "application/json")], 60, 60⟩ := by
  decide +kernel

/-- test/hpack/dynamic_table_test.cpp:71-95 `update_table_size`. -/
example : (do
    let t ← DynamicTable.default.push (bstr ":authority", bstr "example.com")
    let t ← t.push (bstr "content-type", bstr "application/json")
    t.updateTableSize 60) = .ok ⟨[(bstr "content-type", bstr "application/json")], 60, 60⟩ := by
  decide +kernel

end Mh2c.Conformance
