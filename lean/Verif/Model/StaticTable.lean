/-
Model of mh2c/hpack/static_table_definition.{h,cpp}. Both tables are transcribed mechanically from
the C++ initialiser lists.
-/
import Verif.Basic

namespace Mh2c

/-- `header_t` (mh2c/hpack/header_type.h:41): name and value. -/
abbrev Header := Bytes × Bytes

/-- mh2c/hpack/static_table_definition.cpp:11-73 `static_table_entries`. -/
def staticTableEntries : List (Nat × Header) := [
  (1, (bstr ":authority", bstr "")),
  (2, (bstr ":method", bstr "GET")),
  (3, (bstr ":method", bstr "POST")),
  (4, (bstr ":path", bstr "/")),
  (5, (bstr ":path", bstr "/index.html")),
  (6, (bstr ":scheme", bstr "http")),
  (7, (bstr ":scheme", bstr "https")),
  (8, (bstr ":status", bstr "200")),
  (9, (bstr ":status", bstr "204")),
  (10, (bstr ":status", bstr "206")),
  (11, (bstr ":status", bstr "304")),
  (12, (bstr ":status", bstr "400")),
  (13, (bstr ":status", bstr "404")),
  (14, (bstr ":status", bstr "500")),
  (15, (bstr "accept-charset", bstr "")),
  (16, (bstr "accept-encoding", bstr "gzip, deflate")),
  (17, (bstr "accept-language", bstr "")),
  (18, (bstr "accept-ranges", bstr "")),
  (19, (bstr "accept", bstr "")),
  (20, (bstr "accept-control-allow-origin", bstr "")),
  (21, (bstr "age", bstr "")),
  (22, (bstr "allow", bstr "")),
  (23, (bstr "authorization", bstr "")),
  (24, (bstr "cache-control", bstr "")),
  (25, (bstr "content-disposition", bstr "")),
  (26, (bstr "content-encoding", bstr "")),
  (27, (bstr "content-language", bstr "")),
  (28, (bstr "content-length", bstr "")),
  (29, (bstr "content-location", bstr "")),
  (30, (bstr "content-range", bstr "")),
  (31, (bstr "content-type", bstr "")),
  (32, (bstr "cookie", bstr "")),
  (33, (bstr "date", bstr "")),
  (34, (bstr "etag", bstr "")),
  (35, (bstr "expect", bstr "")),
  (36, (bstr "expires", bstr "")),
  (37, (bstr "from", bstr "")),
  (38, (bstr "host", bstr "")),
  (39, (bstr "if-match", bstr "")),
  (40, (bstr "if-modified-since", bstr "")),
  (41, (bstr "if-none-match", bstr "")),
  (42, (bstr "if-range", bstr "")),
  (43, (bstr "if-unmodified-since", bstr "")),
  (44, (bstr "last-modified", bstr "")),
  (45, (bstr "link", bstr "")),
  (46, (bstr "location", bstr "")),
  (47, (bstr "max-forwards", bstr "")),
  (48, (bstr "proxy-authenticate", bstr "")),
  (49, (bstr "proxy-authorization", bstr "")),
  (50, (bstr "range", bstr "")),
  (51, (bstr "referer", bstr "")),
  (52, (bstr "refresh", bstr "")),
  (53, (bstr "retry-after", bstr "")),
  (54, (bstr "server", bstr "")),
  (55, (bstr "set-cookie", bstr "")),
  (56, (bstr "strict-transport-security", bstr "")),
  (57, (bstr "transfer-encoding", bstr "")),
  (58, (bstr "user-agent", bstr "")),
  (59, (bstr "vary", bstr "")),
  (60, (bstr "via", bstr "")),
  (61, (bstr "www-authenticate", bstr ""))]

/-- mh2c/hpack/static_table_definition.cpp:76-138 `reverse_static_table_entries`. -/
def reverseStaticTableEntries : List (Header × Nat) := [
  ((bstr ":authority", bstr ""), 1),
  ((bstr ":method", bstr "GET"), 2),
  ((bstr ":method", bstr "POST"), 3),
  ((bstr ":path", bstr "/"), 4),
  ((bstr ":path", bstr "/index.html"), 5),
  ((bstr ":scheme", bstr "http"), 6),
  ((bstr ":scheme", bstr "https"), 7),
  ((bstr ":status", bstr "200"), 8),
  ((bstr ":status", bstr "204"), 9),
  ((bstr ":status", bstr "206"), 10),
  ((bstr ":status", bstr "304"), 11),
  ((bstr ":status", bstr "400"), 12),
  ((bstr ":status", bstr "404"), 13),
  ((bstr ":status", bstr "500"), 14),
  ((bstr "accept-charset", bstr ""), 15),
  ((bstr "accept-encoding", bstr "gzip, deflate"), 16),
  ((bstr "accept-language", bstr ""), 17),
  ((bstr "accept-ranges", bstr ""), 18),
  ((bstr "accept", bstr ""), 19),
  ((bstr "accept-control-allow-origin", bstr ""), 20),
  ((bstr "age", bstr ""), 21),
  ((bstr "allow", bstr ""), 22),
  ((bstr "authorization", bstr ""), 23),
  ((bstr "cache-control", bstr ""), 24),
  ((bstr "content-disposition", bstr ""), 25),
  ((bstr "content-encoding", bstr ""), 26),
  ((bstr "content-language", bstr ""), 27),
  ((bstr "content-length", bstr ""), 28),
  ((bstr "content-location", bstr ""), 29),
  ((bstr "content-range", bstr ""), 30),
  ((bstr "content-type", bstr ""), 31),
  ((bstr "cookie", bstr ""), 32),
  ((bstr "date", bstr ""), 33),
  ((bstr "etag", bstr ""), 34),
  ((bstr "expect", bstr ""), 35),
  ((bstr "expires", bstr ""), 36),
  ((bstr "from", bstr ""), 37),
  ((bstr "host", bstr ""), 38),
  ((bstr "if-match", bstr ""), 39),
  ((bstr "if-modified-since", bstr ""), 40),
  ((bstr "if-none-match", bstr ""), 41),
  ((bstr "if-range", bstr ""), 42),
  ((bstr "if-unmodified-since", bstr ""), 43),
  ((bstr "last-modified", bstr ""), 44),
  ((bstr "link", bstr ""), 45),
  ((bstr "location", bstr ""), 46),
  ((bstr "max-forwards", bstr ""), 47),
  ((bstr "proxy-authenticate", bstr ""), 48),
  ((bstr "proxy-authorization", bstr ""), 49),
  ((bstr "range", bstr ""), 50),
  ((bstr "referer", bstr ""), 51),
  ((bstr "refresh", bstr ""), 52),
  ((bstr "retry-after", bstr ""), 53),
  ((bstr "server", bstr ""), 54),
  ((bstr "set-cookie", bstr ""), 55),
  ((bstr "strict-transport-security", bstr ""), 56),
  ((bstr "transfer-encoding", bstr ""), 57),
  ((bstr "user-agent", bstr ""), 58),
  ((bstr "vary", bstr ""), 59),
  ((bstr "via", bstr ""), 60),
  ((bstr "www-authenticate", bstr ""), 61)]

end Mh2c
