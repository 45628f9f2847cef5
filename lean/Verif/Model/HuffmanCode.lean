/-
Model of mh2c/hpack/huffman_code.{h,cpp}. The two tables are transcribed mechanically from the
C++ initialiser lists, in the order of the source, including the repeated entry for symbol 31.
-/
import Verif.Basic

namespace Mh2c.Huffman

/-- mh2c/hpack/huffman_code.cpp:10-140 `encode_table`: symbol, (code, bit length).
A `std::map` initialised from a list keeps the first of two entries with equal keys. -/
def encodeTable : List (Nat × (Nat × Nat)) := [
  (0, (0x1ff8, 13)), (1, (0x7fffd8, 23)), (2, (0xfffffe2, 28)), (3, (0xfffffe3, 28)), (4, (0xfffffe4, 28)),
  (5, (0xfffffe5, 28)), (6, (0xfffffe6, 28)), (7, (0xfffffe7, 28)), (8, (0xfffffe8, 28)), (9, (0xffffea, 24)),
  (10, (0x3ffffffc, 30)), (11, (0xfffffe9, 28)), (12, (0xfffffea, 28)), (13, (0x3ffffffd, 30)), (14, (0xfffffeb, 28)),
  (15, (0xfffffec, 28)), (16, (0xfffffed, 28)), (17, (0xfffffee, 28)), (18, (0xfffffef, 28)), (19, (0xffffff0, 28)),
  (20, (0xffffff1, 28)), (21, (0xffffff2, 28)), (22, (0x3ffffffe, 30)), (23, (0xffffff3, 28)), (24, (0xffffff4, 28)),
  (25, (0xffffff5, 28)), (26, (0xffffff6, 28)), (27, (0xffffff7, 28)), (28, (0xffffff8, 28)), (29, (0xffffff9, 28)),
  (30, (0xffffffa, 28)), (31, (0xffffffb, 28)), (31, (0xffffffb, 28)), (32, (0x14, 6)), (33, (0x3f8, 10)),
  (34, (0x3f9, 10)), (35, (0xffa, 12)), (36, (0x1ff9, 13)), (37, (0x15, 6)), (38, (0xf8, 8)),
  (39, (0x7fa, 11)), (40, (0x3fa, 10)), (41, (0x3fb, 10)), (42, (0xf9, 8)), (43, (0x7fb, 11)),
  (44, (0xfa, 8)), (45, (0x16, 6)), (46, (0x17, 6)), (47, (0x18, 6)), (48, (0x0, 5)),
  (49, (0x1, 5)), (50, (0x2, 5)), (51, (0x19, 6)), (52, (0x1a, 6)), (53, (0x1b, 6)),
  (54, (0x1c, 6)), (55, (0x1d, 6)), (56, (0x1e, 6)), (57, (0x1f, 6)), (58, (0x5c, 7)),
  (59, (0xfb, 8)), (60, (0x7ffc, 15)), (61, (0x20, 6)), (62, (0xffb, 12)), (63, (0x3fc, 10)),
  (64, (0x1ffa, 13)), (65, (0x21, 6)), (66, (0x5d, 7)), (67, (0x5e, 7)), (68, (0x5f, 7)),
  (69, (0x60, 7)), (70, (0x61, 7)), (71, (0x62, 7)), (72, (0x63, 7)), (73, (0x64, 7)),
  (74, (0x65, 7)), (75, (0x66, 7)), (76, (0x67, 7)), (77, (0x68, 7)), (78, (0x69, 7)),
  (79, (0x6a, 7)), (80, (0x6b, 7)), (81, (0x6c, 7)), (82, (0x6d, 7)), (83, (0x6e, 7)),
  (84, (0x6f, 7)), (85, (0x70, 7)), (86, (0x71, 7)), (87, (0x72, 7)), (88, (0xfc, 8)),
  (89, (0x73, 7)), (90, (0xfd, 8)), (91, (0x1ffb, 13)), (92, (0x7fff0, 19)), (93, (0x1ffc, 13)),
  (94, (0x3ffc, 14)), (95, (0x22, 6)), (96, (0x7ffd, 15)), (97, (0x3, 5)), (98, (0x23, 6)),
  (99, (0x4, 5)), (100, (0x24, 6)), (101, (0x5, 5)), (102, (0x25, 6)), (103, (0x26, 6)),
  (104, (0x27, 6)), (105, (0x6, 5)), (106, (0x74, 7)), (107, (0x75, 7)), (108, (0x28, 6)),
  (109, (0x29, 6)), (110, (0x2a, 6)), (111, (0x7, 5)), (112, (0x2b, 6)), (113, (0x76, 7)),
  (114, (0x2c, 6)), (115, (0x8, 5)), (116, (0x9, 5)), (117, (0x2d, 6)), (118, (0x77, 7)),
  (119, (0x78, 7)), (120, (0x79, 7)), (121, (0x7a, 7)), (122, (0x7b, 7)), (123, (0x7ffe, 15)),
  (124, (0x7fc, 11)), (125, (0x3ffd, 14)), (126, (0x1ffd, 13)), (127, (0xffffffc, 28)), (128, (0xfffe6, 20)),
  (129, (0x3fffd2, 22)), (130, (0xfffe7, 20)), (131, (0xfffe8, 20)), (132, (0x3fffd3, 22)), (133, (0x3fffd4, 22)),
  (134, (0x3fffd5, 22)), (135, (0x7fffd9, 23)), (136, (0x3fffd6, 22)), (137, (0x7fffda, 23)), (138, (0x7fffdb, 23)),
  (139, (0x7fffdc, 23)), (140, (0x7fffdd, 23)), (141, (0x7fffde, 23)), (142, (0xffffeb, 24)), (143, (0x7fffdf, 23)),
  (144, (0xffffec, 24)), (145, (0xffffed, 24)), (146, (0x3fffd7, 22)), (147, (0x7fffe0, 23)), (148, (0xffffee, 24)),
  (149, (0x7fffe1, 23)), (150, (0x7fffe2, 23)), (151, (0x7fffe3, 23)), (152, (0x7fffe4, 23)), (153, (0x1fffdc, 21)),
  (154, (0x3fffd8, 22)), (155, (0x7fffe5, 23)), (156, (0x3fffd9, 22)), (157, (0x7fffe6, 23)), (158, (0x7fffe7, 23)),
  (159, (0xffffef, 24)), (160, (0x3fffda, 22)), (161, (0x1fffdd, 21)), (162, (0xfffe9, 20)), (163, (0x3fffdb, 22)),
  (164, (0x3fffdc, 22)), (165, (0x7fffe8, 23)), (166, (0x7fffe9, 23)), (167, (0x1fffde, 21)), (168, (0x7fffea, 23)),
  (169, (0x3fffdd, 22)), (170, (0x3fffde, 22)), (171, (0xfffff0, 24)), (172, (0x1fffdf, 21)), (173, (0x3fffdf, 22)),
  (174, (0x7fffeb, 23)), (175, (0x7fffec, 23)), (176, (0x1fffe0, 21)), (177, (0x1fffe1, 21)), (178, (0x3fffe0, 22)),
  (179, (0x1fffe2, 21)), (180, (0x7fffed, 23)), (181, (0x3fffe1, 22)), (182, (0x7fffee, 23)), (183, (0x7fffef, 23)),
  (184, (0xfffea, 20)), (185, (0x3fffe2, 22)), (186, (0x3fffe3, 22)), (187, (0x3fffe4, 22)), (188, (0x7ffff0, 23)),
  (189, (0x3fffe5, 22)), (190, (0x3fffe6, 22)), (191, (0x7ffff1, 23)), (192, (0x3ffffe0, 26)), (193, (0x3ffffe1, 26)),
  (194, (0xfffeb, 20)), (195, (0x7fff1, 19)), (196, (0x3fffe7, 22)), (197, (0x7ffff2, 23)), (198, (0x3fffe8, 22)),
  (199, (0x1ffffec, 25)), (200, (0x3ffffe2, 26)), (201, (0x3ffffe3, 26)), (202, (0x3ffffe4, 26)), (203, (0x7ffffde, 27)),
  (204, (0x7ffffdf, 27)), (205, (0x3ffffe5, 26)), (206, (0xfffff1, 24)), (207, (0x1ffffed, 25)), (208, (0x7fff2, 19)),
  (209, (0x1fffe3, 21)), (210, (0x3ffffe6, 26)), (211, (0x7ffffe0, 27)), (212, (0x7ffffe1, 27)), (213, (0x3ffffe7, 26)),
  (214, (0x7ffffe2, 27)), (215, (0xfffff2, 24)), (216, (0x1fffe4, 21)), (217, (0x1fffe5, 21)), (218, (0x3ffffe8, 26)),
  (219, (0x3ffffe9, 26)), (220, (0xffffffd, 28)), (221, (0x7ffffe3, 27)), (222, (0x7ffffe4, 27)), (223, (0x7ffffe5, 27)),
  (224, (0xfffec, 20)), (225, (0xfffff3, 24)), (226, (0xfffed, 20)), (227, (0x1fffe6, 21)), (228, (0x3fffe9, 22)),
  (229, (0x1fffe7, 21)), (230, (0x1fffe8, 21)), (231, (0x7ffff3, 23)), (232, (0x3fffea, 22)), (233, (0x3fffeb, 22)),
  (234, (0x1ffffee, 25)), (235, (0x1ffffef, 25)), (236, (0xfffff4, 24)), (237, (0xfffff5, 24)), (238, (0x3ffffea, 26)),
  (239, (0x7ffff4, 23)), (240, (0x3ffffeb, 26)), (241, (0x7ffffe6, 27)), (242, (0x3ffffec, 26)), (243, (0x3ffffed, 26)),
  (244, (0x7ffffe7, 27)), (245, (0x7ffffe8, 27)), (246, (0x7ffffe9, 27)), (247, (0x7ffffea, 27)), (248, (0x7ffffeb, 27)),
  (249, (0xffffffe, 28)), (250, (0x7ffffec, 27)), (251, (0x7ffffed, 27)), (252, (0x7ffffee, 27)), (253, (0x7ffffef, 27)),
  (254, (0x7fffff0, 27)), (255, (0x3ffffee, 26)), (256, (0x3fffffff, 30))]

/-- mh2c/hpack/huffman_code.cpp:142-296 `decode_table`: bit length, map from code to symbol, in the
order of the vector. -/
def decodeTable : List (Nat × List (Nat × Nat)) := [
  (5, [
    (0x0, 48), (0x1, 49), (0x2, 50), (0x3, 97), (0x4, 99), (0x5, 101),
    (0x6, 105), (0x7, 111), (0x8, 115), (0x9, 116)]),
  (6, [
    (0x14, 32), (0x15, 37), (0x16, 45), (0x17, 46), (0x18, 47), (0x19, 51),
    (0x1a, 52), (0x1b, 53), (0x1c, 54), (0x1d, 55), (0x1e, 56), (0x1f, 57),
    (0x20, 61), (0x21, 65), (0x22, 95), (0x23, 98), (0x24, 100), (0x25, 102),
    (0x26, 103), (0x27, 104), (0x28, 108), (0x29, 109), (0x2a, 110), (0x2b, 112),
    (0x2c, 114), (0x2d, 117)]),
  (7, [
    (0x5c, 58), (0x5d, 66), (0x5e, 67), (0x5f, 68), (0x60, 69), (0x61, 70),
    (0x62, 71), (0x63, 72), (0x64, 73), (0x65, 74), (0x66, 75), (0x67, 76),
    (0x68, 77), (0x69, 78), (0x6a, 79), (0x6b, 80), (0x6c, 81), (0x6d, 82),
    (0x6e, 83), (0x6f, 84), (0x70, 85), (0x71, 86), (0x72, 87), (0x73, 89),
    (0x74, 106), (0x75, 107), (0x76, 113), (0x77, 118), (0x78, 119), (0x79, 120),
    (0x7a, 121), (0x7b, 122)]),
  (8, [
    (0xf8, 38), (0xf9, 42), (0xfa, 44), (0xfb, 59), (0xfc, 88), (0xfd, 90)]),
  (10, [
    (0x3f8, 33), (0x3f9, 34), (0x3fa, 40), (0x3fb, 41), (0x3fc, 63)]),
  (11, [
    (0x7fa, 39), (0x7fb, 43), (0x7fc, 124)]),
  (12, [
    (0xffa, 35), (0xffb, 62)]),
  (13, [
    (0x1ff8, 0), (0x1ff9, 36), (0x1ffa, 64), (0x1ffb, 91), (0x1ffc, 93), (0x1ffd, 126)]),
  (14, [
    (0x3ffc, 94), (0x3ffd, 125)]),
  (15, [
    (0x7ffc, 60), (0x7ffd, 96), (0x7ffe, 123)]),
  (19, [
    (0x7fff0, 92), (0x7fff1, 195), (0x7fff2, 208)]),
  (20, [
    (0xfffe6, 128), (0xfffe7, 130), (0xfffe8, 131), (0xfffe9, 162), (0xfffea, 184), (0xfffeb, 194),
    (0xfffec, 224), (0xfffed, 226)]),
  (21, [
    (0x1fffdc, 153), (0x1fffdd, 161), (0x1fffde, 167), (0x1fffdf, 172), (0x1fffe0, 176), (0x1fffe1, 177),
    (0x1fffe2, 179), (0x1fffe3, 209), (0x1fffe4, 216), (0x1fffe5, 217), (0x1fffe6, 227), (0x1fffe7, 229),
    (0x1fffe8, 230)]),
  (22, [
    (0x3fffd2, 129), (0x3fffd3, 132), (0x3fffd4, 133), (0x3fffd5, 134), (0x3fffd6, 136), (0x3fffd7, 146),
    (0x3fffd8, 154), (0x3fffd9, 156), (0x3fffda, 160), (0x3fffdb, 163), (0x3fffdc, 164), (0x3fffdd, 169),
    (0x3fffde, 170), (0x3fffdf, 173), (0x3fffe0, 178), (0x3fffe1, 181), (0x3fffe2, 185), (0x3fffe3, 186),
    (0x3fffe4, 187), (0x3fffe5, 189), (0x3fffe6, 190), (0x3fffe7, 196), (0x3fffe8, 198), (0x3fffe9, 228),
    (0x3fffea, 232), (0x3fffeb, 233)]),
  (23, [
    (0x7fffd8, 1), (0x7fffd9, 135), (0x7fffda, 137), (0x7fffdb, 138), (0x7fffdc, 139), (0x7fffdd, 140),
    (0x7fffde, 141), (0x7fffdf, 143), (0x7fffe0, 147), (0x7fffe1, 149), (0x7fffe2, 150), (0x7fffe3, 151),
    (0x7fffe4, 152), (0x7fffe5, 155), (0x7fffe6, 157), (0x7fffe7, 158), (0x7fffe8, 165), (0x7fffe9, 166),
    (0x7fffea, 168), (0x7fffeb, 174), (0x7fffec, 175), (0x7fffed, 180), (0x7fffee, 182), (0x7fffef, 183),
    (0x7ffff0, 188), (0x7ffff1, 191), (0x7ffff2, 197), (0x7ffff3, 231), (0x7ffff4, 239)]),
  (24, [
    (0xffffea, 9), (0xffffeb, 142), (0xffffec, 144), (0xffffed, 145), (0xffffee, 148), (0xffffef, 159),
    (0xfffff0, 171), (0xfffff1, 206), (0xfffff2, 215), (0xfffff3, 225), (0xfffff4, 236), (0xfffff5, 237)]),
  (25, [
    (0x1ffffec, 199), (0x1ffffed, 207), (0x1ffffee, 234), (0x1ffffef, 235)]),
  (26, [
    (0x3ffffe0, 192), (0x3ffffe1, 193), (0x3ffffe2, 200), (0x3ffffe3, 201), (0x3ffffe4, 202), (0x3ffffe5, 205),
    (0x3ffffe6, 210), (0x3ffffe7, 213), (0x3ffffe8, 218), (0x3ffffe9, 219), (0x3ffffea, 238), (0x3ffffeb, 240),
    (0x3ffffec, 242), (0x3ffffed, 243), (0x3ffffee, 255)]),
  (27, [
    (0x7ffffde, 203), (0x7ffffdf, 204), (0x7ffffe0, 211), (0x7ffffe1, 212), (0x7ffffe2, 214), (0x7ffffe3, 221),
    (0x7ffffe4, 222), (0x7ffffe5, 223), (0x7ffffe6, 241), (0x7ffffe7, 244), (0x7ffffe8, 245), (0x7ffffe9, 246),
    (0x7ffffea, 247), (0x7ffffeb, 248), (0x7ffffec, 250), (0x7ffffed, 251), (0x7ffffee, 252), (0x7ffffef, 253),
    (0x7fffff0, 254)]),
  (28, [
    (0xfffffe2, 2), (0xfffffe3, 3), (0xfffffe4, 4), (0xfffffe5, 5), (0xfffffe6, 6), (0xfffffe7, 7),
    (0xfffffe8, 8), (0xfffffe9, 11), (0xfffffea, 12), (0xfffffeb, 14), (0xfffffec, 15), (0xfffffed, 16),
    (0xfffffee, 17), (0xfffffef, 18), (0xffffff0, 19), (0xffffff1, 20), (0xffffff2, 21), (0xffffff3, 23),
    (0xffffff4, 24), (0xffffff5, 25), (0xffffff6, 26), (0xffffff7, 27), (0xffffff8, 28), (0xffffff9, 29),
    (0xffffffa, 30), (0xffffffb, 31), (0xffffffb, 31), (0xffffffc, 127), (0xffffffd, 220), (0xffffffe, 249)]),
  (30, [
    (0x3ffffffc, 10), (0x3ffffffd, 13), (0x3ffffffe, 22), (0x3fffffff, 256)])]

end Mh2c.Huffman
