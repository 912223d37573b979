/-! Generated by tools/gen_tables.py from /repo/src/generated/single_byte/*_tables.rs.inc. -/

namespace Verif.Tables

/-- Code points of `DECODE_TABLE` (0xFFFD is the literal `'�'`, "undefined").
src/generated/single_byte/ibm-cp866_tables.rs.inc:20-37 -/
def ibm_866_decode : List Nat := [
  0x410, 0x411, 0x412, 0x413, 0x414, 0x415, 0x416, 0x417, 0x418, 0x419, 0x41a, 0x41b, 0x41c,
  0x41d, 0x41e, 0x41f, 0x420, 0x421, 0x422, 0x423, 0x424, 0x425, 0x426, 0x427, 0x428, 0x429,
  0x42a, 0x42b, 0x42c, 0x42d, 0x42e, 0x42f, 0x430, 0x431, 0x432, 0x433, 0x434, 0x435, 0x436,
  0x437, 0x438, 0x439, 0x43a, 0x43b, 0x43c, 0x43d, 0x43e, 0x43f, 0x2591, 0x2592, 0x2593,
  0x2502, 0x2524, 0x2561, 0x2562, 0x2556, 0x2555, 0x2563, 0x2551, 0x2557, 0x255d, 0x255c,
  0x255b, 0x2510, 0x2514, 0x2534, 0x252c, 0x251c, 0x2500, 0x253c, 0x255e, 0x255f, 0x255a,
  0x2554, 0x2569, 0x2566, 0x2560, 0x2550, 0x256c, 0x2567, 0x2568, 0x2564, 0x2565, 0x2559,
  0x2558, 0x2552, 0x2553, 0x256b, 0x256a, 0x2518, 0x250c, 0x2588, 0x2584, 0x258c, 0x2590,
  0x2580, 0x440, 0x441, 0x442, 0x443, 0x444, 0x445, 0x446, 0x447, 0x448, 0x449, 0x44a, 0x44b,
  0x44c, 0x44d, 0x44e, 0x44f, 0x401, 0x451, 0x404, 0x454, 0x407, 0x457, 0x40e, 0x45e, 0xb0,
  0x2219, 0xb7, 0x221a, 0x2116, 0xa4, 0x25a0, 0xa0]

/-- `ENCODE_TABLE` as (code point, byte).
src/generated/single_byte/ibm-cp866_tables.rs.inc:39-72 -/
def ibm_866_encode : List (Nat × Nat) := [
  (0xa0, 0xff), (0xa4, 0xfd), (0xb0, 0xf8), (0xb7, 0xfa), (0x401, 0xf0), (0x404, 0xf2),
  (0x407, 0xf4), (0x40e, 0xf6), (0x410, 0x80), (0x411, 0x81), (0x412, 0x82), (0x413, 0x83),
  (0x414, 0x84), (0x415, 0x85), (0x416, 0x86), (0x417, 0x87), (0x418, 0x88), (0x419, 0x89),
  (0x41a, 0x8a), (0x41b, 0x8b), (0x41c, 0x8c), (0x41d, 0x8d), (0x41e, 0x8e), (0x41f, 0x8f),
  (0x420, 0x90), (0x421, 0x91), (0x422, 0x92), (0x423, 0x93), (0x424, 0x94), (0x425, 0x95),
  (0x426, 0x96), (0x427, 0x97), (0x428, 0x98), (0x429, 0x99), (0x42a, 0x9a), (0x42b, 0x9b),
  (0x42c, 0x9c), (0x42d, 0x9d), (0x42e, 0x9e), (0x42f, 0x9f), (0x430, 0xa0), (0x431, 0xa1),
  (0x432, 0xa2), (0x433, 0xa3), (0x434, 0xa4), (0x435, 0xa5), (0x436, 0xa6), (0x437, 0xa7),
  (0x438, 0xa8), (0x439, 0xa9), (0x43a, 0xaa), (0x43b, 0xab), (0x43c, 0xac), (0x43d, 0xad),
  (0x43e, 0xae), (0x43f, 0xaf), (0x440, 0xe0), (0x441, 0xe1), (0x442, 0xe2), (0x443, 0xe3),
  (0x444, 0xe4), (0x445, 0xe5), (0x446, 0xe6), (0x447, 0xe7), (0x448, 0xe8), (0x449, 0xe9),
  (0x44a, 0xea), (0x44b, 0xeb), (0x44c, 0xec), (0x44d, 0xed), (0x44e, 0xee), (0x44f, 0xef),
  (0x451, 0xf1), (0x454, 0xf3), (0x457, 0xf5), (0x45e, 0xf7), (0x2116, 0xfc), (0x2219, 0xf9),
  (0x221a, 0xfb), (0x2500, 0xc4), (0x2502, 0xb3), (0x250c, 0xda), (0x2510, 0xbf),
  (0x2514, 0xc0), (0x2518, 0xd9), (0x251c, 0xc3), (0x2524, 0xb4), (0x252c, 0xc2),
  (0x2534, 0xc1), (0x253c, 0xc5), (0x2550, 0xcd), (0x2551, 0xba), (0x2552, 0xd5),
  (0x2553, 0xd6), (0x2554, 0xc9), (0x2555, 0xb8), (0x2556, 0xb7), (0x2557, 0xbb),
  (0x2558, 0xd4), (0x2559, 0xd3), (0x255a, 0xc8), (0x255b, 0xbe), (0x255c, 0xbd),
  (0x255d, 0xbc), (0x255e, 0xc6), (0x255f, 0xc7), (0x2560, 0xcc), (0x2561, 0xb5),
  (0x2562, 0xb6), (0x2563, 0xb9), (0x2564, 0xd1), (0x2565, 0xd2), (0x2566, 0xcb),
  (0x2567, 0xcf), (0x2568, 0xd0), (0x2569, 0xca), (0x256a, 0xd8), (0x256b, 0xd7),
  (0x256c, 0xce), (0x2580, 0xdf), (0x2584, 0xdc), (0x2588, 0xdb), (0x258c, 0xdd),
  (0x2590, 0xde), (0x2591, 0xb0), (0x2592, 0xb1), (0x2593, 0xb2), (0x25a0, 0xfe)]

/-- Code points of `DECODE_TABLE` (0xFFFD is the literal `'�'`, "undefined").
src/generated/single_byte/iso-8859-1_tables.rs.inc:20-37 -/
def iso_8859_1_decode : List Nat := [
  0x80, 0x81, 0x82, 0x83, 0x84, 0x85, 0x86, 0x87, 0x88, 0x89, 0x8a, 0x8b, 0x8c, 0x8d, 0x8e,
  0x8f, 0x90, 0x91, 0x92, 0x93, 0x94, 0x95, 0x96, 0x97, 0x98, 0x99, 0x9a, 0x9b, 0x9c, 0x9d,
  0x9e, 0x9f, 0xa0, 0xa1, 0xa2, 0xa3, 0xa4, 0xa5, 0xa6, 0xa7, 0xa8, 0xa9, 0xaa, 0xab, 0xac,
  0xad, 0xae, 0xaf, 0xb0, 0xb1, 0xb2, 0xb3, 0xb4, 0xb5, 0xb6, 0xb7, 0xb8, 0xb9, 0xba, 0xbb,
  0xbc, 0xbd, 0xbe, 0xbf, 0xc0, 0xc1, 0xc2, 0xc3, 0xc4, 0xc5, 0xc6, 0xc7, 0xc8, 0xc9, 0xca,
  0xcb, 0xcc, 0xcd, 0xce, 0xcf, 0xd0, 0xd1, 0xd2, 0xd3, 0xd4, 0xd5, 0xd6, 0xd7, 0xd8, 0xd9,
  0xda, 0xdb, 0xdc, 0xdd, 0xde, 0xdf, 0xe0, 0xe1, 0xe2, 0xe3, 0xe4, 0xe5, 0xe6, 0xe7, 0xe8,
  0xe9, 0xea, 0xeb, 0xec, 0xed, 0xee, 0xef, 0xf0, 0xf1, 0xf2, 0xf3, 0xf4, 0xf5, 0xf6, 0xf7,
  0xf8, 0xf9, 0xfa, 0xfb, 0xfc, 0xfd, 0xfe, 0xff]

/-- `ENCODE_TABLE` as (code point, byte).
src/generated/single_byte/iso-8859-1_tables.rs.inc:39-72 -/
def iso_8859_1_encode : List (Nat × Nat) := [
  (0x80, 0x80), (0x81, 0x81), (0x82, 0x82), (0x83, 0x83), (0x84, 0x84), (0x85, 0x85),
  (0x86, 0x86), (0x87, 0x87), (0x88, 0x88), (0x89, 0x89), (0x8a, 0x8a), (0x8b, 0x8b),
  (0x8c, 0x8c), (0x8d, 0x8d), (0x8e, 0x8e), (0x8f, 0x8f), (0x90, 0x90), (0x91, 0x91),
  (0x92, 0x92), (0x93, 0x93), (0x94, 0x94), (0x95, 0x95), (0x96, 0x96), (0x97, 0x97),
  (0x98, 0x98), (0x99, 0x99), (0x9a, 0x9a), (0x9b, 0x9b), (0x9c, 0x9c), (0x9d, 0x9d),
  (0x9e, 0x9e), (0x9f, 0x9f), (0xa0, 0xa0), (0xa1, 0xa1), (0xa2, 0xa2), (0xa3, 0xa3),
  (0xa4, 0xa4), (0xa5, 0xa5), (0xa6, 0xa6), (0xa7, 0xa7), (0xa8, 0xa8), (0xa9, 0xa9),
  (0xaa, 0xaa), (0xab, 0xab), (0xac, 0xac), (0xad, 0xad), (0xae, 0xae), (0xaf, 0xaf),
  (0xb0, 0xb0), (0xb1, 0xb1), (0xb2, 0xb2), (0xb3, 0xb3), (0xb4, 0xb4), (0xb5, 0xb5),
  (0xb6, 0xb6), (0xb7, 0xb7), (0xb8, 0xb8), (0xb9, 0xb9), (0xba, 0xba), (0xbb, 0xbb),
  (0xbc, 0xbc), (0xbd, 0xbd), (0xbe, 0xbe), (0xbf, 0xbf), (0xc0, 0xc0), (0xc1, 0xc1),
  (0xc2, 0xc2), (0xc3, 0xc3), (0xc4, 0xc4), (0xc5, 0xc5), (0xc6, 0xc6), (0xc7, 0xc7),
  (0xc8, 0xc8), (0xc9, 0xc9), (0xca, 0xca), (0xcb, 0xcb), (0xcc, 0xcc), (0xcd, 0xcd),
  (0xce, 0xce), (0xcf, 0xcf), (0xd0, 0xd0), (0xd1, 0xd1), (0xd2, 0xd2), (0xd3, 0xd3),
  (0xd4, 0xd4), (0xd5, 0xd5), (0xd6, 0xd6), (0xd7, 0xd7), (0xd8, 0xd8), (0xd9, 0xd9),
  (0xda, 0xda), (0xdb, 0xdb), (0xdc, 0xdc), (0xdd, 0xdd), (0xde, 0xde), (0xdf, 0xdf),
  (0xe0, 0xe0), (0xe1, 0xe1), (0xe2, 0xe2), (0xe3, 0xe3), (0xe4, 0xe4), (0xe5, 0xe5),
  (0xe6, 0xe6), (0xe7, 0xe7), (0xe8, 0xe8), (0xe9, 0xe9), (0xea, 0xea), (0xeb, 0xeb),
  (0xec, 0xec), (0xed, 0xed), (0xee, 0xee), (0xef, 0xef), (0xf0, 0xf0), (0xf1, 0xf1),
  (0xf2, 0xf2), (0xf3, 0xf3), (0xf4, 0xf4), (0xf5, 0xf5), (0xf6, 0xf6), (0xf7, 0xf7),
  (0xf8, 0xf8), (0xf9, 0xf9), (0xfa, 0xfa), (0xfb, 0xfb), (0xfc, 0xfc), (0xfd, 0xfd),
  (0xfe, 0xfe), (0xff, 0xff)]

/-- Code points of `DECODE_TABLE` (0xFFFD is the literal `'�'`, "undefined").
src/generated/single_byte/iso-8859-2_tables.rs.inc:20-37 -/
def iso_8859_2_decode : List Nat := [
  0x80, 0x81, 0x82, 0x83, 0x84, 0x85, 0x86, 0x87, 0x88, 0x89, 0x8a, 0x8b, 0x8c, 0x8d, 0x8e,
  0x8f, 0x90, 0x91, 0x92, 0x93, 0x94, 0x95, 0x96, 0x97, 0x98, 0x99, 0x9a, 0x9b, 0x9c, 0x9d,
  0x9e, 0x9f, 0xa0, 0x104, 0x2d8, 0x141, 0xa4, 0x13d, 0x15a, 0xa7, 0xa8, 0x160, 0x15e, 0x164,
  0x179, 0xad, 0x17d, 0x17b, 0xb0, 0x105, 0x2db, 0x142, 0xb4, 0x13e, 0x15b, 0x2c7, 0xb8, 0x161,
  0x15f, 0x165, 0x17a, 0x2dd, 0x17e, 0x17c, 0x154, 0xc1, 0xc2, 0x102, 0xc4, 0x139, 0x106, 0xc7,
  0x10c, 0xc9, 0x118, 0xcb, 0x11a, 0xcd, 0xce, 0x10e, 0x110, 0x143, 0x147, 0xd3, 0xd4, 0x150,
  0xd6, 0xd7, 0x158, 0x16e, 0xda, 0x170, 0xdc, 0xdd, 0x162, 0xdf, 0x155, 0xe1, 0xe2, 0x103,
  0xe4, 0x13a, 0x107, 0xe7, 0x10d, 0xe9, 0x119, 0xeb, 0x11b, 0xed, 0xee, 0x10f, 0x111, 0x144,
  0x148, 0xf3, 0xf4, 0x151, 0xf6, 0xf7, 0x159, 0x16f, 0xfa, 0x171, 0xfc, 0xfd, 0x163, 0x2d9]

/-- `ENCODE_TABLE` as (code point, byte).
src/generated/single_byte/iso-8859-2_tables.rs.inc:39-72 -/
def iso_8859_2_encode : List (Nat × Nat) := [
  (0x80, 0x80), (0x81, 0x81), (0x82, 0x82), (0x83, 0x83), (0x84, 0x84), (0x85, 0x85),
  (0x86, 0x86), (0x87, 0x87), (0x88, 0x88), (0x89, 0x89), (0x8a, 0x8a), (0x8b, 0x8b),
  (0x8c, 0x8c), (0x8d, 0x8d), (0x8e, 0x8e), (0x8f, 0x8f), (0x90, 0x90), (0x91, 0x91),
  (0x92, 0x92), (0x93, 0x93), (0x94, 0x94), (0x95, 0x95), (0x96, 0x96), (0x97, 0x97),
  (0x98, 0x98), (0x99, 0x99), (0x9a, 0x9a), (0x9b, 0x9b), (0x9c, 0x9c), (0x9d, 0x9d),
  (0x9e, 0x9e), (0x9f, 0x9f), (0xa0, 0xa0), (0xa4, 0xa4), (0xa7, 0xa7), (0xa8, 0xa8),
  (0xad, 0xad), (0xb0, 0xb0), (0xb4, 0xb4), (0xb8, 0xb8), (0xc1, 0xc1), (0xc2, 0xc2),
  (0xc4, 0xc4), (0xc7, 0xc7), (0xc9, 0xc9), (0xcb, 0xcb), (0xcd, 0xcd), (0xce, 0xce),
  (0xd3, 0xd3), (0xd4, 0xd4), (0xd6, 0xd6), (0xd7, 0xd7), (0xda, 0xda), (0xdc, 0xdc),
  (0xdd, 0xdd), (0xdf, 0xdf), (0xe1, 0xe1), (0xe2, 0xe2), (0xe4, 0xe4), (0xe7, 0xe7),
  (0xe9, 0xe9), (0xeb, 0xeb), (0xed, 0xed), (0xee, 0xee), (0xf3, 0xf3), (0xf4, 0xf4),
  (0xf6, 0xf6), (0xf7, 0xf7), (0xfa, 0xfa), (0xfc, 0xfc), (0xfd, 0xfd), (0x102, 0xc3),
  (0x103, 0xe3), (0x104, 0xa1), (0x105, 0xb1), (0x106, 0xc6), (0x107, 0xe6), (0x10c, 0xc8),
  (0x10d, 0xe8), (0x10e, 0xcf), (0x10f, 0xef), (0x110, 0xd0), (0x111, 0xf0), (0x118, 0xca),
  (0x119, 0xea), (0x11a, 0xcc), (0x11b, 0xec), (0x139, 0xc5), (0x13a, 0xe5), (0x13d, 0xa5),
  (0x13e, 0xb5), (0x141, 0xa3), (0x142, 0xb3), (0x143, 0xd1), (0x144, 0xf1), (0x147, 0xd2),
  (0x148, 0xf2), (0x150, 0xd5), (0x151, 0xf5), (0x154, 0xc0), (0x155, 0xe0), (0x158, 0xd8),
  (0x159, 0xf8), (0x15a, 0xa6), (0x15b, 0xb6), (0x15e, 0xaa), (0x15f, 0xba), (0x160, 0xa9),
  (0x161, 0xb9), (0x162, 0xde), (0x163, 0xfe), (0x164, 0xab), (0x165, 0xbb), (0x16e, 0xd9),
  (0x16f, 0xf9), (0x170, 0xdb), (0x171, 0xfb), (0x179, 0xac), (0x17a, 0xbc), (0x17b, 0xaf),
  (0x17c, 0xbf), (0x17d, 0xae), (0x17e, 0xbe), (0x2c7, 0xb7), (0x2d8, 0xa2), (0x2d9, 0xff),
  (0x2db, 0xb2), (0x2dd, 0xbd)]

/-- Code points of `DECODE_TABLE` (0xFFFD is the literal `'�'`, "undefined").
src/generated/single_byte/iso-8859-3_tables.rs.inc:20-37 -/
def iso_8859_3_decode : List Nat := [
  0x80, 0x81, 0x82, 0x83, 0x84, 0x85, 0x86, 0x87, 0x88, 0x89, 0x8a, 0x8b, 0x8c, 0x8d, 0x8e,
  0x8f, 0x90, 0x91, 0x92, 0x93, 0x94, 0x95, 0x96, 0x97, 0x98, 0x99, 0x9a, 0x9b, 0x9c, 0x9d,
  0x9e, 0x9f, 0xa0, 0x126, 0x2d8, 0xa3, 0xa4, 0xfffd, 0x124, 0xa7, 0xa8, 0x130, 0x15e, 0x11e,
  0x134, 0xad, 0xfffd, 0x17b, 0xb0, 0x127, 0xb2, 0xb3, 0xb4, 0xb5, 0x125, 0xb7, 0xb8, 0x131,
  0x15f, 0x11f, 0x135, 0xbd, 0xfffd, 0x17c, 0xc0, 0xc1, 0xc2, 0xfffd, 0xc4, 0x10a, 0x108, 0xc7,
  0xc8, 0xc9, 0xca, 0xcb, 0xcc, 0xcd, 0xce, 0xcf, 0xfffd, 0xd1, 0xd2, 0xd3, 0xd4, 0x120, 0xd6,
  0xd7, 0x11c, 0xd9, 0xda, 0xdb, 0xdc, 0x16c, 0x15c, 0xdf, 0xe0, 0xe1, 0xe2, 0xfffd, 0xe4,
  0x10b, 0x109, 0xe7, 0xe8, 0xe9, 0xea, 0xeb, 0xec, 0xed, 0xee, 0xef, 0xfffd, 0xf1, 0xf2, 0xf3,
  0xf4, 0x121, 0xf6, 0xf7, 0x11d, 0xf9, 0xfa, 0xfb, 0xfc, 0x16d, 0x15d, 0x2d9]

/-- `ENCODE_TABLE` as (code point, byte).
src/generated/single_byte/iso-8859-3_tables.rs.inc:39-71 -/
def iso_8859_3_encode : List (Nat × Nat) := [
  (0x80, 0x80), (0x81, 0x81), (0x82, 0x82), (0x83, 0x83), (0x84, 0x84), (0x85, 0x85),
  (0x86, 0x86), (0x87, 0x87), (0x88, 0x88), (0x89, 0x89), (0x8a, 0x8a), (0x8b, 0x8b),
  (0x8c, 0x8c), (0x8d, 0x8d), (0x8e, 0x8e), (0x8f, 0x8f), (0x90, 0x90), (0x91, 0x91),
  (0x92, 0x92), (0x93, 0x93), (0x94, 0x94), (0x95, 0x95), (0x96, 0x96), (0x97, 0x97),
  (0x98, 0x98), (0x99, 0x99), (0x9a, 0x9a), (0x9b, 0x9b), (0x9c, 0x9c), (0x9d, 0x9d),
  (0x9e, 0x9e), (0x9f, 0x9f), (0xa0, 0xa0), (0xa3, 0xa3), (0xa4, 0xa4), (0xa7, 0xa7),
  (0xa8, 0xa8), (0xad, 0xad), (0xb0, 0xb0), (0xb2, 0xb2), (0xb3, 0xb3), (0xb4, 0xb4),
  (0xb5, 0xb5), (0xb7, 0xb7), (0xb8, 0xb8), (0xbd, 0xbd), (0xc0, 0xc0), (0xc1, 0xc1),
  (0xc2, 0xc2), (0xc4, 0xc4), (0xc7, 0xc7), (0xc8, 0xc8), (0xc9, 0xc9), (0xca, 0xca),
  (0xcb, 0xcb), (0xcc, 0xcc), (0xcd, 0xcd), (0xce, 0xce), (0xcf, 0xcf), (0xd1, 0xd1),
  (0xd2, 0xd2), (0xd3, 0xd3), (0xd4, 0xd4), (0xd6, 0xd6), (0xd7, 0xd7), (0xd9, 0xd9),
  (0xda, 0xda), (0xdb, 0xdb), (0xdc, 0xdc), (0xdf, 0xdf), (0xe0, 0xe0), (0xe1, 0xe1),
  (0xe2, 0xe2), (0xe4, 0xe4), (0xe7, 0xe7), (0xe8, 0xe8), (0xe9, 0xe9), (0xea, 0xea),
  (0xeb, 0xeb), (0xec, 0xec), (0xed, 0xed), (0xee, 0xee), (0xef, 0xef), (0xf1, 0xf1),
  (0xf2, 0xf2), (0xf3, 0xf3), (0xf4, 0xf4), (0xf6, 0xf6), (0xf7, 0xf7), (0xf9, 0xf9),
  (0xfa, 0xfa), (0xfb, 0xfb), (0xfc, 0xfc), (0x108, 0xc6), (0x109, 0xe6), (0x10a, 0xc5),
  (0x10b, 0xe5), (0x11c, 0xd8), (0x11d, 0xf8), (0x11e, 0xab), (0x11f, 0xbb), (0x120, 0xd5),
  (0x121, 0xf5), (0x124, 0xa6), (0x125, 0xb6), (0x126, 0xa1), (0x127, 0xb1), (0x130, 0xa9),
  (0x131, 0xb9), (0x134, 0xac), (0x135, 0xbc), (0x15c, 0xde), (0x15d, 0xfe), (0x15e, 0xaa),
  (0x15f, 0xba), (0x16c, 0xdd), (0x16d, 0xfd), (0x17b, 0xaf), (0x17c, 0xbf), (0x2d8, 0xa2),
  (0x2d9, 0xff)]

/-- Code points of `DECODE_TABLE` (0xFFFD is the literal `'�'`, "undefined").
src/generated/single_byte/iso-8859-4_tables.rs.inc:20-37 -/
def iso_8859_4_decode : List Nat := [
  0x80, 0x81, 0x82, 0x83, 0x84, 0x85, 0x86, 0x87, 0x88, 0x89, 0x8a, 0x8b, 0x8c, 0x8d, 0x8e,
  0x8f, 0x90, 0x91, 0x92, 0x93, 0x94, 0x95, 0x96, 0x97, 0x98, 0x99, 0x9a, 0x9b, 0x9c, 0x9d,
  0x9e, 0x9f, 0xa0, 0x104, 0x138, 0x156, 0xa4, 0x128, 0x13b, 0xa7, 0xa8, 0x160, 0x112, 0x122,
  0x166, 0xad, 0x17d, 0xaf, 0xb0, 0x105, 0x2db, 0x157, 0xb4, 0x129, 0x13c, 0x2c7, 0xb8, 0x161,
  0x113, 0x123, 0x167, 0x14a, 0x17e, 0x14b, 0x100, 0xc1, 0xc2, 0xc3, 0xc4, 0xc5, 0xc6, 0x12e,
  0x10c, 0xc9, 0x118, 0xcb, 0x116, 0xcd, 0xce, 0x12a, 0x110, 0x145, 0x14c, 0x136, 0xd4, 0xd5,
  0xd6, 0xd7, 0xd8, 0x172, 0xda, 0xdb, 0xdc, 0x168, 0x16a, 0xdf, 0x101, 0xe1, 0xe2, 0xe3, 0xe4,
  0xe5, 0xe6, 0x12f, 0x10d, 0xe9, 0x119, 0xeb, 0x117, 0xed, 0xee, 0x12b, 0x111, 0x146, 0x14d,
  0x137, 0xf4, 0xf5, 0xf6, 0xf7, 0xf8, 0x173, 0xfa, 0xfb, 0xfc, 0x169, 0x16b, 0x2d9]

/-- `ENCODE_TABLE` as (code point, byte).
src/generated/single_byte/iso-8859-4_tables.rs.inc:39-72 -/
def iso_8859_4_encode : List (Nat × Nat) := [
  (0x80, 0x80), (0x81, 0x81), (0x82, 0x82), (0x83, 0x83), (0x84, 0x84), (0x85, 0x85),
  (0x86, 0x86), (0x87, 0x87), (0x88, 0x88), (0x89, 0x89), (0x8a, 0x8a), (0x8b, 0x8b),
  (0x8c, 0x8c), (0x8d, 0x8d), (0x8e, 0x8e), (0x8f, 0x8f), (0x90, 0x90), (0x91, 0x91),
  (0x92, 0x92), (0x93, 0x93), (0x94, 0x94), (0x95, 0x95), (0x96, 0x96), (0x97, 0x97),
  (0x98, 0x98), (0x99, 0x99), (0x9a, 0x9a), (0x9b, 0x9b), (0x9c, 0x9c), (0x9d, 0x9d),
  (0x9e, 0x9e), (0x9f, 0x9f), (0xa0, 0xa0), (0xa4, 0xa4), (0xa7, 0xa7), (0xa8, 0xa8),
  (0xad, 0xad), (0xaf, 0xaf), (0xb0, 0xb0), (0xb4, 0xb4), (0xb8, 0xb8), (0xc1, 0xc1),
  (0xc2, 0xc2), (0xc3, 0xc3), (0xc4, 0xc4), (0xc5, 0xc5), (0xc6, 0xc6), (0xc9, 0xc9),
  (0xcb, 0xcb), (0xcd, 0xcd), (0xce, 0xce), (0xd4, 0xd4), (0xd5, 0xd5), (0xd6, 0xd6),
  (0xd7, 0xd7), (0xd8, 0xd8), (0xda, 0xda), (0xdb, 0xdb), (0xdc, 0xdc), (0xdf, 0xdf),
  (0xe1, 0xe1), (0xe2, 0xe2), (0xe3, 0xe3), (0xe4, 0xe4), (0xe5, 0xe5), (0xe6, 0xe6),
  (0xe9, 0xe9), (0xeb, 0xeb), (0xed, 0xed), (0xee, 0xee), (0xf4, 0xf4), (0xf5, 0xf5),
  (0xf6, 0xf6), (0xf7, 0xf7), (0xf8, 0xf8), (0xfa, 0xfa), (0xfb, 0xfb), (0xfc, 0xfc),
  (0x100, 0xc0), (0x101, 0xe0), (0x104, 0xa1), (0x105, 0xb1), (0x10c, 0xc8), (0x10d, 0xe8),
  (0x110, 0xd0), (0x111, 0xf0), (0x112, 0xaa), (0x113, 0xba), (0x116, 0xcc), (0x117, 0xec),
  (0x118, 0xca), (0x119, 0xea), (0x122, 0xab), (0x123, 0xbb), (0x128, 0xa5), (0x129, 0xb5),
  (0x12a, 0xcf), (0x12b, 0xef), (0x12e, 0xc7), (0x12f, 0xe7), (0x136, 0xd3), (0x137, 0xf3),
  (0x138, 0xa2), (0x13b, 0xa6), (0x13c, 0xb6), (0x145, 0xd1), (0x146, 0xf1), (0x14a, 0xbd),
  (0x14b, 0xbf), (0x14c, 0xd2), (0x14d, 0xf2), (0x156, 0xa3), (0x157, 0xb3), (0x160, 0xa9),
  (0x161, 0xb9), (0x166, 0xac), (0x167, 0xbc), (0x168, 0xdd), (0x169, 0xfd), (0x16a, 0xde),
  (0x16b, 0xfe), (0x172, 0xd9), (0x173, 0xf9), (0x17d, 0xae), (0x17e, 0xbe), (0x2c7, 0xb7),
  (0x2d9, 0xff), (0x2db, 0xb2)]

/-- Code points of `DECODE_TABLE` (0xFFFD is the literal `'�'`, "undefined").
src/generated/single_byte/iso-8859-5_tables.rs.inc:20-37 -/
def iso_8859_5_decode : List Nat := [
  0x80, 0x81, 0x82, 0x83, 0x84, 0x85, 0x86, 0x87, 0x88, 0x89, 0x8a, 0x8b, 0x8c, 0x8d, 0x8e,
  0x8f, 0x90, 0x91, 0x92, 0x93, 0x94, 0x95, 0x96, 0x97, 0x98, 0x99, 0x9a, 0x9b, 0x9c, 0x9d,
  0x9e, 0x9f, 0xa0, 0x401, 0x402, 0x403, 0x404, 0x405, 0x406, 0x407, 0x408, 0x409, 0x40a,
  0x40b, 0x40c, 0xad, 0x40e, 0x40f, 0x410, 0x411, 0x412, 0x413, 0x414, 0x415, 0x416, 0x417,
  0x418, 0x419, 0x41a, 0x41b, 0x41c, 0x41d, 0x41e, 0x41f, 0x420, 0x421, 0x422, 0x423, 0x424,
  0x425, 0x426, 0x427, 0x428, 0x429, 0x42a, 0x42b, 0x42c, 0x42d, 0x42e, 0x42f, 0x430, 0x431,
  0x432, 0x433, 0x434, 0x435, 0x436, 0x437, 0x438, 0x439, 0x43a, 0x43b, 0x43c, 0x43d, 0x43e,
  0x43f, 0x440, 0x441, 0x442, 0x443, 0x444, 0x445, 0x446, 0x447, 0x448, 0x449, 0x44a, 0x44b,
  0x44c, 0x44d, 0x44e, 0x44f, 0x2116, 0x451, 0x452, 0x453, 0x454, 0x455, 0x456, 0x457, 0x458,
  0x459, 0x45a, 0x45b, 0x45c, 0xa7, 0x45e, 0x45f]

/-- `ENCODE_TABLE` as (code point, byte).
src/generated/single_byte/iso-8859-5_tables.rs.inc:39-72 -/
def iso_8859_5_encode : List (Nat × Nat) := [
  (0x80, 0x80), (0x81, 0x81), (0x82, 0x82), (0x83, 0x83), (0x84, 0x84), (0x85, 0x85),
  (0x86, 0x86), (0x87, 0x87), (0x88, 0x88), (0x89, 0x89), (0x8a, 0x8a), (0x8b, 0x8b),
  (0x8c, 0x8c), (0x8d, 0x8d), (0x8e, 0x8e), (0x8f, 0x8f), (0x90, 0x90), (0x91, 0x91),
  (0x92, 0x92), (0x93, 0x93), (0x94, 0x94), (0x95, 0x95), (0x96, 0x96), (0x97, 0x97),
  (0x98, 0x98), (0x99, 0x99), (0x9a, 0x9a), (0x9b, 0x9b), (0x9c, 0x9c), (0x9d, 0x9d),
  (0x9e, 0x9e), (0x9f, 0x9f), (0xa0, 0xa0), (0xa7, 0xfd), (0xad, 0xad), (0x401, 0xa1),
  (0x402, 0xa2), (0x403, 0xa3), (0x404, 0xa4), (0x405, 0xa5), (0x406, 0xa6), (0x407, 0xa7),
  (0x408, 0xa8), (0x409, 0xa9), (0x40a, 0xaa), (0x40b, 0xab), (0x40c, 0xac), (0x40e, 0xae),
  (0x40f, 0xaf), (0x410, 0xb0), (0x411, 0xb1), (0x412, 0xb2), (0x413, 0xb3), (0x414, 0xb4),
  (0x415, 0xb5), (0x416, 0xb6), (0x417, 0xb7), (0x418, 0xb8), (0x419, 0xb9), (0x41a, 0xba),
  (0x41b, 0xbb), (0x41c, 0xbc), (0x41d, 0xbd), (0x41e, 0xbe), (0x41f, 0xbf), (0x420, 0xc0),
  (0x421, 0xc1), (0x422, 0xc2), (0x423, 0xc3), (0x424, 0xc4), (0x425, 0xc5), (0x426, 0xc6),
  (0x427, 0xc7), (0x428, 0xc8), (0x429, 0xc9), (0x42a, 0xca), (0x42b, 0xcb), (0x42c, 0xcc),
  (0x42d, 0xcd), (0x42e, 0xce), (0x42f, 0xcf), (0x430, 0xd0), (0x431, 0xd1), (0x432, 0xd2),
  (0x433, 0xd3), (0x434, 0xd4), (0x435, 0xd5), (0x436, 0xd6), (0x437, 0xd7), (0x438, 0xd8),
  (0x439, 0xd9), (0x43a, 0xda), (0x43b, 0xdb), (0x43c, 0xdc), (0x43d, 0xdd), (0x43e, 0xde),
  (0x43f, 0xdf), (0x440, 0xe0), (0x441, 0xe1), (0x442, 0xe2), (0x443, 0xe3), (0x444, 0xe4),
  (0x445, 0xe5), (0x446, 0xe6), (0x447, 0xe7), (0x448, 0xe8), (0x449, 0xe9), (0x44a, 0xea),
  (0x44b, 0xeb), (0x44c, 0xec), (0x44d, 0xed), (0x44e, 0xee), (0x44f, 0xef), (0x451, 0xf1),
  (0x452, 0xf2), (0x453, 0xf3), (0x454, 0xf4), (0x455, 0xf5), (0x456, 0xf6), (0x457, 0xf7),
  (0x458, 0xf8), (0x459, 0xf9), (0x45a, 0xfa), (0x45b, 0xfb), (0x45c, 0xfc), (0x45e, 0xfe),
  (0x45f, 0xff), (0x2116, 0xf0)]

/-- Code points of `DECODE_TABLE` (0xFFFD is the literal `'�'`, "undefined").
src/generated/single_byte/iso-8859-6_tables.rs.inc:20-37 -/
def iso_8859_6_decode : List Nat := [
  0x80, 0x81, 0x82, 0x83, 0x84, 0x85, 0x86, 0x87, 0x88, 0x89, 0x8a, 0x8b, 0x8c, 0x8d, 0x8e,
  0x8f, 0x90, 0x91, 0x92, 0x93, 0x94, 0x95, 0x96, 0x97, 0x98, 0x99, 0x9a, 0x9b, 0x9c, 0x9d,
  0x9e, 0x9f, 0xa0, 0xfffd, 0xfffd, 0xfffd, 0xa4, 0xfffd, 0xfffd, 0xfffd, 0xfffd, 0xfffd,
  0xfffd, 0xfffd, 0x60c, 0xad, 0xfffd, 0xfffd, 0xfffd, 0xfffd, 0xfffd, 0xfffd, 0xfffd, 0xfffd,
  0xfffd, 0xfffd, 0xfffd, 0xfffd, 0xfffd, 0x61b, 0xfffd, 0xfffd, 0xfffd, 0x61f, 0xfffd, 0x621,
  0x622, 0x623, 0x624, 0x625, 0x626, 0x627, 0x628, 0x629, 0x62a, 0x62b, 0x62c, 0x62d, 0x62e,
  0x62f, 0x630, 0x631, 0x632, 0x633, 0x634, 0x635, 0x636, 0x637, 0x638, 0x639, 0x63a, 0xfffd,
  0xfffd, 0xfffd, 0xfffd, 0xfffd, 0x640, 0x641, 0x642, 0x643, 0x644, 0x645, 0x646, 0x647,
  0x648, 0x649, 0x64a, 0x64b, 0x64c, 0x64d, 0x64e, 0x64f, 0x650, 0x651, 0x652, 0xfffd, 0xfffd,
  0xfffd, 0xfffd, 0xfffd, 0xfffd, 0xfffd, 0xfffd, 0xfffd, 0xfffd, 0xfffd, 0xfffd, 0xfffd]

/-- `ENCODE_TABLE` as (code point, byte).
src/generated/single_byte/iso-8859-6_tables.rs.inc:39-61 -/
def iso_8859_6_encode : List (Nat × Nat) := [
  (0x80, 0x80), (0x81, 0x81), (0x82, 0x82), (0x83, 0x83), (0x84, 0x84), (0x85, 0x85),
  (0x86, 0x86), (0x87, 0x87), (0x88, 0x88), (0x89, 0x89), (0x8a, 0x8a), (0x8b, 0x8b),
  (0x8c, 0x8c), (0x8d, 0x8d), (0x8e, 0x8e), (0x8f, 0x8f), (0x90, 0x90), (0x91, 0x91),
  (0x92, 0x92), (0x93, 0x93), (0x94, 0x94), (0x95, 0x95), (0x96, 0x96), (0x97, 0x97),
  (0x98, 0x98), (0x99, 0x99), (0x9a, 0x9a), (0x9b, 0x9b), (0x9c, 0x9c), (0x9d, 0x9d),
  (0x9e, 0x9e), (0x9f, 0x9f), (0xa0, 0xa0), (0xa4, 0xa4), (0xad, 0xad), (0x60c, 0xac),
  (0x61b, 0xbb), (0x61f, 0xbf), (0x621, 0xc1), (0x622, 0xc2), (0x623, 0xc3), (0x624, 0xc4),
  (0x625, 0xc5), (0x626, 0xc6), (0x627, 0xc7), (0x628, 0xc8), (0x629, 0xc9), (0x62a, 0xca),
  (0x62b, 0xcb), (0x62c, 0xcc), (0x62d, 0xcd), (0x62e, 0xce), (0x62f, 0xcf), (0x630, 0xd0),
  (0x631, 0xd1), (0x632, 0xd2), (0x633, 0xd3), (0x634, 0xd4), (0x635, 0xd5), (0x636, 0xd6),
  (0x637, 0xd7), (0x638, 0xd8), (0x639, 0xd9), (0x63a, 0xda), (0x640, 0xe0), (0x641, 0xe1),
  (0x642, 0xe2), (0x643, 0xe3), (0x644, 0xe4), (0x645, 0xe5), (0x646, 0xe6), (0x647, 0xe7),
  (0x648, 0xe8), (0x649, 0xe9), (0x64a, 0xea), (0x64b, 0xeb), (0x64c, 0xec), (0x64d, 0xed),
  (0x64e, 0xee), (0x64f, 0xef), (0x650, 0xf0), (0x651, 0xf1), (0x652, 0xf2)]

/-- Code points of `DECODE_TABLE` (0xFFFD is the literal `'�'`, "undefined").
src/generated/single_byte/iso-8859-7_tables.rs.inc:20-37 -/
def iso_8859_7_decode : List Nat := [
  0x80, 0x81, 0x82, 0x83, 0x84, 0x85, 0x86, 0x87, 0x88, 0x89, 0x8a, 0x8b, 0x8c, 0x8d, 0x8e,
  0x8f, 0x90, 0x91, 0x92, 0x93, 0x94, 0x95, 0x96, 0x97, 0x98, 0x99, 0x9a, 0x9b, 0x9c, 0x9d,
  0x9e, 0x9f, 0xa0, 0x2018, 0x2019, 0xa3, 0x20ac, 0x20af, 0xa6, 0xa7, 0xa8, 0xa9, 0x37a, 0xab,
  0xac, 0xad, 0xfffd, 0x2015, 0xb0, 0xb1, 0xb2, 0xb3, 0x384, 0x385, 0x386, 0xb7, 0x388, 0x389,
  0x38a, 0xbb, 0x38c, 0xbd, 0x38e, 0x38f, 0x390, 0x391, 0x392, 0x393, 0x394, 0x395, 0x396,
  0x397, 0x398, 0x399, 0x39a, 0x39b, 0x39c, 0x39d, 0x39e, 0x39f, 0x3a0, 0x3a1, 0xfffd, 0x3a3,
  0x3a4, 0x3a5, 0x3a6, 0x3a7, 0x3a8, 0x3a9, 0x3aa, 0x3ab, 0x3ac, 0x3ad, 0x3ae, 0x3af, 0x3b0,
  0x3b1, 0x3b2, 0x3b3, 0x3b4, 0x3b5, 0x3b6, 0x3b7, 0x3b8, 0x3b9, 0x3ba, 0x3bb, 0x3bc, 0x3bd,
  0x3be, 0x3bf, 0x3c0, 0x3c1, 0x3c2, 0x3c3, 0x3c4, 0x3c5, 0x3c6, 0x3c7, 0x3c8, 0x3c9, 0x3ca,
  0x3cb, 0x3cc, 0x3cd, 0x3ce, 0xfffd]

/-- `ENCODE_TABLE` as (code point, byte).
src/generated/single_byte/iso-8859-7_tables.rs.inc:39-72 -/
def iso_8859_7_encode : List (Nat × Nat) := [
  (0x80, 0x80), (0x81, 0x81), (0x82, 0x82), (0x83, 0x83), (0x84, 0x84), (0x85, 0x85),
  (0x86, 0x86), (0x87, 0x87), (0x88, 0x88), (0x89, 0x89), (0x8a, 0x8a), (0x8b, 0x8b),
  (0x8c, 0x8c), (0x8d, 0x8d), (0x8e, 0x8e), (0x8f, 0x8f), (0x90, 0x90), (0x91, 0x91),
  (0x92, 0x92), (0x93, 0x93), (0x94, 0x94), (0x95, 0x95), (0x96, 0x96), (0x97, 0x97),
  (0x98, 0x98), (0x99, 0x99), (0x9a, 0x9a), (0x9b, 0x9b), (0x9c, 0x9c), (0x9d, 0x9d),
  (0x9e, 0x9e), (0x9f, 0x9f), (0xa0, 0xa0), (0xa3, 0xa3), (0xa6, 0xa6), (0xa7, 0xa7),
  (0xa8, 0xa8), (0xa9, 0xa9), (0xab, 0xab), (0xac, 0xac), (0xad, 0xad), (0xb0, 0xb0),
  (0xb1, 0xb1), (0xb2, 0xb2), (0xb3, 0xb3), (0xb7, 0xb7), (0xbb, 0xbb), (0xbd, 0xbd),
  (0x37a, 0xaa), (0x384, 0xb4), (0x385, 0xb5), (0x386, 0xb6), (0x388, 0xb8), (0x389, 0xb9),
  (0x38a, 0xba), (0x38c, 0xbc), (0x38e, 0xbe), (0x38f, 0xbf), (0x390, 0xc0), (0x391, 0xc1),
  (0x392, 0xc2), (0x393, 0xc3), (0x394, 0xc4), (0x395, 0xc5), (0x396, 0xc6), (0x397, 0xc7),
  (0x398, 0xc8), (0x399, 0xc9), (0x39a, 0xca), (0x39b, 0xcb), (0x39c, 0xcc), (0x39d, 0xcd),
  (0x39e, 0xce), (0x39f, 0xcf), (0x3a0, 0xd0), (0x3a1, 0xd1), (0x3a3, 0xd3), (0x3a4, 0xd4),
  (0x3a5, 0xd5), (0x3a6, 0xd6), (0x3a7, 0xd7), (0x3a8, 0xd8), (0x3a9, 0xd9), (0x3aa, 0xda),
  (0x3ab, 0xdb), (0x3ac, 0xdc), (0x3ad, 0xdd), (0x3ae, 0xde), (0x3af, 0xdf), (0x3b0, 0xe0),
  (0x3b1, 0xe1), (0x3b2, 0xe2), (0x3b3, 0xe3), (0x3b4, 0xe4), (0x3b5, 0xe5), (0x3b6, 0xe6),
  (0x3b7, 0xe7), (0x3b8, 0xe8), (0x3b9, 0xe9), (0x3ba, 0xea), (0x3bb, 0xeb), (0x3bc, 0xec),
  (0x3bd, 0xed), (0x3be, 0xee), (0x3bf, 0xef), (0x3c0, 0xf0), (0x3c1, 0xf1), (0x3c2, 0xf2),
  (0x3c3, 0xf3), (0x3c4, 0xf4), (0x3c5, 0xf5), (0x3c6, 0xf6), (0x3c7, 0xf7), (0x3c8, 0xf8),
  (0x3c9, 0xf9), (0x3ca, 0xfa), (0x3cb, 0xfb), (0x3cc, 0xfc), (0x3cd, 0xfd), (0x3ce, 0xfe),
  (0x2015, 0xaf), (0x2018, 0xa1), (0x2019, 0xa2), (0x20ac, 0xa4), (0x20af, 0xa5)]

/-- Code points of `DECODE_TABLE` (0xFFFD is the literal `'�'`, "undefined").
src/generated/single_byte/iso-8859-8_tables.rs.inc:20-37 -/
def iso_8859_8_decode : List Nat := [
  0x80, 0x81, 0x82, 0x83, 0x84, 0x85, 0x86, 0x87, 0x88, 0x89, 0x8a, 0x8b, 0x8c, 0x8d, 0x8e,
  0x8f, 0x90, 0x91, 0x92, 0x93, 0x94, 0x95, 0x96, 0x97, 0x98, 0x99, 0x9a, 0x9b, 0x9c, 0x9d,
  0x9e, 0x9f, 0xa0, 0xfffd, 0xa2, 0xa3, 0xa4, 0xa5, 0xa6, 0xa7, 0xa8, 0xa9, 0xd7, 0xab, 0xac,
  0xad, 0xae, 0xaf, 0xb0, 0xb1, 0xb2, 0xb3, 0xb4, 0xb5, 0xb6, 0xb7, 0xb8, 0xb9, 0xf7, 0xbb,
  0xbc, 0xbd, 0xbe, 0xfffd, 0xfffd, 0xfffd, 0xfffd, 0xfffd, 0xfffd, 0xfffd, 0xfffd, 0xfffd,
  0xfffd, 0xfffd, 0xfffd, 0xfffd, 0xfffd, 0xfffd, 0xfffd, 0xfffd, 0xfffd, 0xfffd, 0xfffd,
  0xfffd, 0xfffd, 0xfffd, 0xfffd, 0xfffd, 0xfffd, 0xfffd, 0xfffd, 0xfffd, 0xfffd, 0xfffd,
  0xfffd, 0x2017, 0x5d0, 0x5d1, 0x5d2, 0x5d3, 0x5d4, 0x5d5, 0x5d6, 0x5d7, 0x5d8, 0x5d9, 0x5da,
  0x5db, 0x5dc, 0x5dd, 0x5de, 0x5df, 0x5e0, 0x5e1, 0x5e2, 0x5e3, 0x5e4, 0x5e5, 0x5e6, 0x5e7,
  0x5e8, 0x5e9, 0x5ea, 0xfffd, 0xfffd, 0x200e, 0x200f, 0xfffd]

/-- `ENCODE_TABLE` as (code point, byte).
src/generated/single_byte/iso-8859-8_tables.rs.inc:39-63 -/
def iso_8859_8_encode : List (Nat × Nat) := [
  (0x80, 0x80), (0x81, 0x81), (0x82, 0x82), (0x83, 0x83), (0x84, 0x84), (0x85, 0x85),
  (0x86, 0x86), (0x87, 0x87), (0x88, 0x88), (0x89, 0x89), (0x8a, 0x8a), (0x8b, 0x8b),
  (0x8c, 0x8c), (0x8d, 0x8d), (0x8e, 0x8e), (0x8f, 0x8f), (0x90, 0x90), (0x91, 0x91),
  (0x92, 0x92), (0x93, 0x93), (0x94, 0x94), (0x95, 0x95), (0x96, 0x96), (0x97, 0x97),
  (0x98, 0x98), (0x99, 0x99), (0x9a, 0x9a), (0x9b, 0x9b), (0x9c, 0x9c), (0x9d, 0x9d),
  (0x9e, 0x9e), (0x9f, 0x9f), (0xa0, 0xa0), (0xa2, 0xa2), (0xa3, 0xa3), (0xa4, 0xa4),
  (0xa5, 0xa5), (0xa6, 0xa6), (0xa7, 0xa7), (0xa8, 0xa8), (0xa9, 0xa9), (0xab, 0xab),
  (0xac, 0xac), (0xad, 0xad), (0xae, 0xae), (0xaf, 0xaf), (0xb0, 0xb0), (0xb1, 0xb1),
  (0xb2, 0xb2), (0xb3, 0xb3), (0xb4, 0xb4), (0xb5, 0xb5), (0xb6, 0xb6), (0xb7, 0xb7),
  (0xb8, 0xb8), (0xb9, 0xb9), (0xbb, 0xbb), (0xbc, 0xbc), (0xbd, 0xbd), (0xbe, 0xbe),
  (0xd7, 0xaa), (0xf7, 0xba), (0x5d0, 0xe0), (0x5d1, 0xe1), (0x5d2, 0xe2), (0x5d3, 0xe3),
  (0x5d4, 0xe4), (0x5d5, 0xe5), (0x5d6, 0xe6), (0x5d7, 0xe7), (0x5d8, 0xe8), (0x5d9, 0xe9),
  (0x5da, 0xea), (0x5db, 0xeb), (0x5dc, 0xec), (0x5dd, 0xed), (0x5de, 0xee), (0x5df, 0xef),
  (0x5e0, 0xf0), (0x5e1, 0xf1), (0x5e2, 0xf2), (0x5e3, 0xf3), (0x5e4, 0xf4), (0x5e5, 0xf5),
  (0x5e6, 0xf6), (0x5e7, 0xf7), (0x5e8, 0xf8), (0x5e9, 0xf9), (0x5ea, 0xfa), (0x200e, 0xfd),
  (0x200f, 0xfe), (0x2017, 0xdf)]

/-- Code points of `DECODE_TABLE` (0xFFFD is the literal `'�'`, "undefined").
src/generated/single_byte/iso-8859-9_tables.rs.inc:20-37 -/
def iso_8859_9_decode : List Nat := [
  0x80, 0x81, 0x82, 0x83, 0x84, 0x85, 0x86, 0x87, 0x88, 0x89, 0x8a, 0x8b, 0x8c, 0x8d, 0x8e,
  0x8f, 0x90, 0x91, 0x92, 0x93, 0x94, 0x95, 0x96, 0x97, 0x98, 0x99, 0x9a, 0x9b, 0x9c, 0x9d,
  0x9e, 0x9f, 0xa0, 0xa1, 0xa2, 0xa3, 0xa4, 0xa5, 0xa6, 0xa7, 0xa8, 0xa9, 0xaa, 0xab, 0xac,
  0xad, 0xae, 0xaf, 0xb0, 0xb1, 0xb2, 0xb3, 0xb4, 0xb5, 0xb6, 0xb7, 0xb8, 0xb9, 0xba, 0xbb,
  0xbc, 0xbd, 0xbe, 0xbf, 0xc0, 0xc1, 0xc2, 0xc3, 0xc4, 0xc5, 0xc6, 0xc7, 0xc8, 0xc9, 0xca,
  0xcb, 0xcc, 0xcd, 0xce, 0xcf, 0x11e, 0xd1, 0xd2, 0xd3, 0xd4, 0xd5, 0xd6, 0xd7, 0xd8, 0xd9,
  0xda, 0xdb, 0xdc, 0x130, 0x15e, 0xdf, 0xe0, 0xe1, 0xe2, 0xe3, 0xe4, 0xe5, 0xe6, 0xe7, 0xe8,
  0xe9, 0xea, 0xeb, 0xec, 0xed, 0xee, 0xef, 0x11f, 0xf1, 0xf2, 0xf3, 0xf4, 0xf5, 0xf6, 0xf7,
  0xf8, 0xf9, 0xfa, 0xfb, 0xfc, 0x131, 0x15f, 0xff]

/-- `ENCODE_TABLE` as (code point, byte).
src/generated/single_byte/iso-8859-9_tables.rs.inc:39-72 -/
def iso_8859_9_encode : List (Nat × Nat) := [
  (0x80, 0x80), (0x81, 0x81), (0x82, 0x82), (0x83, 0x83), (0x84, 0x84), (0x85, 0x85),
  (0x86, 0x86), (0x87, 0x87), (0x88, 0x88), (0x89, 0x89), (0x8a, 0x8a), (0x8b, 0x8b),
  (0x8c, 0x8c), (0x8d, 0x8d), (0x8e, 0x8e), (0x8f, 0x8f), (0x90, 0x90), (0x91, 0x91),
  (0x92, 0x92), (0x93, 0x93), (0x94, 0x94), (0x95, 0x95), (0x96, 0x96), (0x97, 0x97),
  (0x98, 0x98), (0x99, 0x99), (0x9a, 0x9a), (0x9b, 0x9b), (0x9c, 0x9c), (0x9d, 0x9d),
  (0x9e, 0x9e), (0x9f, 0x9f), (0xa0, 0xa0), (0xa1, 0xa1), (0xa2, 0xa2), (0xa3, 0xa3),
  (0xa4, 0xa4), (0xa5, 0xa5), (0xa6, 0xa6), (0xa7, 0xa7), (0xa8, 0xa8), (0xa9, 0xa9),
  (0xaa, 0xaa), (0xab, 0xab), (0xac, 0xac), (0xad, 0xad), (0xae, 0xae), (0xaf, 0xaf),
  (0xb0, 0xb0), (0xb1, 0xb1), (0xb2, 0xb2), (0xb3, 0xb3), (0xb4, 0xb4), (0xb5, 0xb5),
  (0xb6, 0xb6), (0xb7, 0xb7), (0xb8, 0xb8), (0xb9, 0xb9), (0xba, 0xba), (0xbb, 0xbb),
  (0xbc, 0xbc), (0xbd, 0xbd), (0xbe, 0xbe), (0xbf, 0xbf), (0xc0, 0xc0), (0xc1, 0xc1),
  (0xc2, 0xc2), (0xc3, 0xc3), (0xc4, 0xc4), (0xc5, 0xc5), (0xc6, 0xc6), (0xc7, 0xc7),
  (0xc8, 0xc8), (0xc9, 0xc9), (0xca, 0xca), (0xcb, 0xcb), (0xcc, 0xcc), (0xcd, 0xcd),
  (0xce, 0xce), (0xcf, 0xcf), (0xd1, 0xd1), (0xd2, 0xd2), (0xd3, 0xd3), (0xd4, 0xd4),
  (0xd5, 0xd5), (0xd6, 0xd6), (0xd7, 0xd7), (0xd8, 0xd8), (0xd9, 0xd9), (0xda, 0xda),
  (0xdb, 0xdb), (0xdc, 0xdc), (0xdf, 0xdf), (0xe0, 0xe0), (0xe1, 0xe1), (0xe2, 0xe2),
  (0xe3, 0xe3), (0xe4, 0xe4), (0xe5, 0xe5), (0xe6, 0xe6), (0xe7, 0xe7), (0xe8, 0xe8),
  (0xe9, 0xe9), (0xea, 0xea), (0xeb, 0xeb), (0xec, 0xec), (0xed, 0xed), (0xee, 0xee),
  (0xef, 0xef), (0xf1, 0xf1), (0xf2, 0xf2), (0xf3, 0xf3), (0xf4, 0xf4), (0xf5, 0xf5),
  (0xf6, 0xf6), (0xf7, 0xf7), (0xf8, 0xf8), (0xf9, 0xf9), (0xfa, 0xfa), (0xfb, 0xfb),
  (0xfc, 0xfc), (0xff, 0xff), (0x11e, 0xd0), (0x11f, 0xf0), (0x130, 0xdd), (0x131, 0xfd),
  (0x15e, 0xde), (0x15f, 0xfe)]

/-- Code points of `DECODE_TABLE` (0xFFFD is the literal `'�'`, "undefined").
src/generated/single_byte/iso-8859-10_tables.rs.inc:20-37 -/
def iso_8859_10_decode : List Nat := [
  0x80, 0x81, 0x82, 0x83, 0x84, 0x85, 0x86, 0x87, 0x88, 0x89, 0x8a, 0x8b, 0x8c, 0x8d, 0x8e,
  0x8f, 0x90, 0x91, 0x92, 0x93, 0x94, 0x95, 0x96, 0x97, 0x98, 0x99, 0x9a, 0x9b, 0x9c, 0x9d,
  0x9e, 0x9f, 0xa0, 0x104, 0x112, 0x122, 0x12a, 0x128, 0x136, 0xa7, 0x13b, 0x110, 0x160, 0x166,
  0x17d, 0xad, 0x16a, 0x14a, 0xb0, 0x105, 0x113, 0x123, 0x12b, 0x129, 0x137, 0xb7, 0x13c,
  0x111, 0x161, 0x167, 0x17e, 0x2015, 0x16b, 0x14b, 0x100, 0xc1, 0xc2, 0xc3, 0xc4, 0xc5, 0xc6,
  0x12e, 0x10c, 0xc9, 0x118, 0xcb, 0x116, 0xcd, 0xce, 0xcf, 0xd0, 0x145, 0x14c, 0xd3, 0xd4,
  0xd5, 0xd6, 0x168, 0xd8, 0x172, 0xda, 0xdb, 0xdc, 0xdd, 0xde, 0xdf, 0x101, 0xe1, 0xe2, 0xe3,
  0xe4, 0xe5, 0xe6, 0x12f, 0x10d, 0xe9, 0x119, 0xeb, 0x117, 0xed, 0xee, 0xef, 0xf0, 0x146,
  0x14d, 0xf3, 0xf4, 0xf5, 0xf6, 0x169, 0xf8, 0x173, 0xfa, 0xfb, 0xfc, 0xfd, 0xfe, 0x138]

/-- `ENCODE_TABLE` as (code point, byte).
src/generated/single_byte/iso-8859-10_tables.rs.inc:39-72 -/
def iso_8859_10_encode : List (Nat × Nat) := [
  (0x80, 0x80), (0x81, 0x81), (0x82, 0x82), (0x83, 0x83), (0x84, 0x84), (0x85, 0x85),
  (0x86, 0x86), (0x87, 0x87), (0x88, 0x88), (0x89, 0x89), (0x8a, 0x8a), (0x8b, 0x8b),
  (0x8c, 0x8c), (0x8d, 0x8d), (0x8e, 0x8e), (0x8f, 0x8f), (0x90, 0x90), (0x91, 0x91),
  (0x92, 0x92), (0x93, 0x93), (0x94, 0x94), (0x95, 0x95), (0x96, 0x96), (0x97, 0x97),
  (0x98, 0x98), (0x99, 0x99), (0x9a, 0x9a), (0x9b, 0x9b), (0x9c, 0x9c), (0x9d, 0x9d),
  (0x9e, 0x9e), (0x9f, 0x9f), (0xa0, 0xa0), (0xa7, 0xa7), (0xad, 0xad), (0xb0, 0xb0),
  (0xb7, 0xb7), (0xc1, 0xc1), (0xc2, 0xc2), (0xc3, 0xc3), (0xc4, 0xc4), (0xc5, 0xc5),
  (0xc6, 0xc6), (0xc9, 0xc9), (0xcb, 0xcb), (0xcd, 0xcd), (0xce, 0xce), (0xcf, 0xcf),
  (0xd0, 0xd0), (0xd3, 0xd3), (0xd4, 0xd4), (0xd5, 0xd5), (0xd6, 0xd6), (0xd8, 0xd8),
  (0xda, 0xda), (0xdb, 0xdb), (0xdc, 0xdc), (0xdd, 0xdd), (0xde, 0xde), (0xdf, 0xdf),
  (0xe1, 0xe1), (0xe2, 0xe2), (0xe3, 0xe3), (0xe4, 0xe4), (0xe5, 0xe5), (0xe6, 0xe6),
  (0xe9, 0xe9), (0xeb, 0xeb), (0xed, 0xed), (0xee, 0xee), (0xef, 0xef), (0xf0, 0xf0),
  (0xf3, 0xf3), (0xf4, 0xf4), (0xf5, 0xf5), (0xf6, 0xf6), (0xf8, 0xf8), (0xfa, 0xfa),
  (0xfb, 0xfb), (0xfc, 0xfc), (0xfd, 0xfd), (0xfe, 0xfe), (0x100, 0xc0), (0x101, 0xe0),
  (0x104, 0xa1), (0x105, 0xb1), (0x10c, 0xc8), (0x10d, 0xe8), (0x110, 0xa9), (0x111, 0xb9),
  (0x112, 0xa2), (0x113, 0xb2), (0x116, 0xcc), (0x117, 0xec), (0x118, 0xca), (0x119, 0xea),
  (0x122, 0xa3), (0x123, 0xb3), (0x128, 0xa5), (0x129, 0xb5), (0x12a, 0xa4), (0x12b, 0xb4),
  (0x12e, 0xc7), (0x12f, 0xe7), (0x136, 0xa6), (0x137, 0xb6), (0x138, 0xff), (0x13b, 0xa8),
  (0x13c, 0xb8), (0x145, 0xd1), (0x146, 0xf1), (0x14a, 0xaf), (0x14b, 0xbf), (0x14c, 0xd2),
  (0x14d, 0xf2), (0x160, 0xaa), (0x161, 0xba), (0x166, 0xab), (0x167, 0xbb), (0x168, 0xd7),
  (0x169, 0xf7), (0x16a, 0xae), (0x16b, 0xbe), (0x172, 0xd9), (0x173, 0xf9), (0x17d, 0xac),
  (0x17e, 0xbc), (0x2015, 0xbd)]

/-- Code points of `DECODE_TABLE` (0xFFFD is the literal `'�'`, "undefined").
src/generated/single_byte/iso-8859-11_tables.rs.inc:20-37 -/
def iso_8859_11_decode : List Nat := [
  0x80, 0x81, 0x82, 0x83, 0x84, 0x85, 0x86, 0x87, 0x88, 0x89, 0x8a, 0x8b, 0x8c, 0x8d, 0x8e,
  0x8f, 0x90, 0x91, 0x92, 0x93, 0x94, 0x95, 0x96, 0x97, 0x98, 0x99, 0x9a, 0x9b, 0x9c, 0x9d,
  0x9e, 0x9f, 0xa0, 0xe01, 0xe02, 0xe03, 0xe04, 0xe05, 0xe06, 0xe07, 0xe08, 0xe09, 0xe0a,
  0xe0b, 0xe0c, 0xe0d, 0xe0e, 0xe0f, 0xe10, 0xe11, 0xe12, 0xe13, 0xe14, 0xe15, 0xe16, 0xe17,
  0xe18, 0xe19, 0xe1a, 0xe1b, 0xe1c, 0xe1d, 0xe1e, 0xe1f, 0xe20, 0xe21, 0xe22, 0xe23, 0xe24,
  0xe25, 0xe26, 0xe27, 0xe28, 0xe29, 0xe2a, 0xe2b, 0xe2c, 0xe2d, 0xe2e, 0xe2f, 0xe30, 0xe31,
  0xe32, 0xe33, 0xe34, 0xe35, 0xe36, 0xe37, 0xe38, 0xe39, 0xe3a, 0xfffd, 0xfffd, 0xfffd,
  0xfffd, 0xe3f, 0xe40, 0xe41, 0xe42, 0xe43, 0xe44, 0xe45, 0xe46, 0xe47, 0xe48, 0xe49, 0xe4a,
  0xe4b, 0xe4c, 0xe4d, 0xe4e, 0xe4f, 0xe50, 0xe51, 0xe52, 0xe53, 0xe54, 0xe55, 0xe56, 0xe57,
  0xe58, 0xe59, 0xe5a, 0xe5b, 0xfffd, 0xfffd, 0xfffd, 0xfffd]

/-- `ENCODE_TABLE` as (code point, byte).
src/generated/single_byte/iso-8859-11_tables.rs.inc:39-70 -/
def iso_8859_11_encode : List (Nat × Nat) := [
  (0x80, 0x80), (0x81, 0x81), (0x82, 0x82), (0x83, 0x83), (0x84, 0x84), (0x85, 0x85),
  (0x86, 0x86), (0x87, 0x87), (0x88, 0x88), (0x89, 0x89), (0x8a, 0x8a), (0x8b, 0x8b),
  (0x8c, 0x8c), (0x8d, 0x8d), (0x8e, 0x8e), (0x8f, 0x8f), (0x90, 0x90), (0x91, 0x91),
  (0x92, 0x92), (0x93, 0x93), (0x94, 0x94), (0x95, 0x95), (0x96, 0x96), (0x97, 0x97),
  (0x98, 0x98), (0x99, 0x99), (0x9a, 0x9a), (0x9b, 0x9b), (0x9c, 0x9c), (0x9d, 0x9d),
  (0x9e, 0x9e), (0x9f, 0x9f), (0xa0, 0xa0), (0xe01, 0xa1), (0xe02, 0xa2), (0xe03, 0xa3),
  (0xe04, 0xa4), (0xe05, 0xa5), (0xe06, 0xa6), (0xe07, 0xa7), (0xe08, 0xa8), (0xe09, 0xa9),
  (0xe0a, 0xaa), (0xe0b, 0xab), (0xe0c, 0xac), (0xe0d, 0xad), (0xe0e, 0xae), (0xe0f, 0xaf),
  (0xe10, 0xb0), (0xe11, 0xb1), (0xe12, 0xb2), (0xe13, 0xb3), (0xe14, 0xb4), (0xe15, 0xb5),
  (0xe16, 0xb6), (0xe17, 0xb7), (0xe18, 0xb8), (0xe19, 0xb9), (0xe1a, 0xba), (0xe1b, 0xbb),
  (0xe1c, 0xbc), (0xe1d, 0xbd), (0xe1e, 0xbe), (0xe1f, 0xbf), (0xe20, 0xc0), (0xe21, 0xc1),
  (0xe22, 0xc2), (0xe23, 0xc3), (0xe24, 0xc4), (0xe25, 0xc5), (0xe26, 0xc6), (0xe27, 0xc7),
  (0xe28, 0xc8), (0xe29, 0xc9), (0xe2a, 0xca), (0xe2b, 0xcb), (0xe2c, 0xcc), (0xe2d, 0xcd),
  (0xe2e, 0xce), (0xe2f, 0xcf), (0xe30, 0xd0), (0xe31, 0xd1), (0xe32, 0xd2), (0xe33, 0xd3),
  (0xe34, 0xd4), (0xe35, 0xd5), (0xe36, 0xd6), (0xe37, 0xd7), (0xe38, 0xd8), (0xe39, 0xd9),
  (0xe3a, 0xda), (0xe3f, 0xdf), (0xe40, 0xe0), (0xe41, 0xe1), (0xe42, 0xe2), (0xe43, 0xe3),
  (0xe44, 0xe4), (0xe45, 0xe5), (0xe46, 0xe6), (0xe47, 0xe7), (0xe48, 0xe8), (0xe49, 0xe9),
  (0xe4a, 0xea), (0xe4b, 0xeb), (0xe4c, 0xec), (0xe4d, 0xed), (0xe4e, 0xee), (0xe4f, 0xef),
  (0xe50, 0xf0), (0xe51, 0xf1), (0xe52, 0xf2), (0xe53, 0xf3), (0xe54, 0xf4), (0xe55, 0xf5),
  (0xe56, 0xf6), (0xe57, 0xf7), (0xe58, 0xf8), (0xe59, 0xf9), (0xe5a, 0xfa), (0xe5b, 0xfb)]

/-- Code points of `DECODE_TABLE` (0xFFFD is the literal `'�'`, "undefined").
src/generated/single_byte/iso-8859-13_tables.rs.inc:20-37 -/
def iso_8859_13_decode : List Nat := [
  0x80, 0x81, 0x82, 0x83, 0x84, 0x85, 0x86, 0x87, 0x88, 0x89, 0x8a, 0x8b, 0x8c, 0x8d, 0x8e,
  0x8f, 0x90, 0x91, 0x92, 0x93, 0x94, 0x95, 0x96, 0x97, 0x98, 0x99, 0x9a, 0x9b, 0x9c, 0x9d,
  0x9e, 0x9f, 0xa0, 0x201d, 0xa2, 0xa3, 0xa4, 0x201e, 0xa6, 0xa7, 0xd8, 0xa9, 0x156, 0xab,
  0xac, 0xad, 0xae, 0xc6, 0xb0, 0xb1, 0xb2, 0xb3, 0x201c, 0xb5, 0xb6, 0xb7, 0xf8, 0xb9, 0x157,
  0xbb, 0xbc, 0xbd, 0xbe, 0xe6, 0x104, 0x12e, 0x100, 0x106, 0xc4, 0xc5, 0x118, 0x112, 0x10c,
  0xc9, 0x179, 0x116, 0x122, 0x136, 0x12a, 0x13b, 0x160, 0x143, 0x145, 0xd3, 0x14c, 0xd5, 0xd6,
  0xd7, 0x172, 0x141, 0x15a, 0x16a, 0xdc, 0x17b, 0x17d, 0xdf, 0x105, 0x12f, 0x101, 0x107, 0xe4,
  0xe5, 0x119, 0x113, 0x10d, 0xe9, 0x17a, 0x117, 0x123, 0x137, 0x12b, 0x13c, 0x161, 0x144,
  0x146, 0xf3, 0x14d, 0xf5, 0xf6, 0xf7, 0x173, 0x142, 0x15b, 0x16b, 0xfc, 0x17c, 0x17e, 0x2019]

/-- `ENCODE_TABLE` as (code point, byte).
src/generated/single_byte/iso-8859-13_tables.rs.inc:39-72 -/
def iso_8859_13_encode : List (Nat × Nat) := [
  (0x80, 0x80), (0x81, 0x81), (0x82, 0x82), (0x83, 0x83), (0x84, 0x84), (0x85, 0x85),
  (0x86, 0x86), (0x87, 0x87), (0x88, 0x88), (0x89, 0x89), (0x8a, 0x8a), (0x8b, 0x8b),
  (0x8c, 0x8c), (0x8d, 0x8d), (0x8e, 0x8e), (0x8f, 0x8f), (0x90, 0x90), (0x91, 0x91),
  (0x92, 0x92), (0x93, 0x93), (0x94, 0x94), (0x95, 0x95), (0x96, 0x96), (0x97, 0x97),
  (0x98, 0x98), (0x99, 0x99), (0x9a, 0x9a), (0x9b, 0x9b), (0x9c, 0x9c), (0x9d, 0x9d),
  (0x9e, 0x9e), (0x9f, 0x9f), (0xa0, 0xa0), (0xa2, 0xa2), (0xa3, 0xa3), (0xa4, 0xa4),
  (0xa6, 0xa6), (0xa7, 0xa7), (0xa9, 0xa9), (0xab, 0xab), (0xac, 0xac), (0xad, 0xad),
  (0xae, 0xae), (0xb0, 0xb0), (0xb1, 0xb1), (0xb2, 0xb2), (0xb3, 0xb3), (0xb5, 0xb5),
  (0xb6, 0xb6), (0xb7, 0xb7), (0xb9, 0xb9), (0xbb, 0xbb), (0xbc, 0xbc), (0xbd, 0xbd),
  (0xbe, 0xbe), (0xc4, 0xc4), (0xc5, 0xc5), (0xc6, 0xaf), (0xc9, 0xc9), (0xd3, 0xd3),
  (0xd5, 0xd5), (0xd6, 0xd6), (0xd7, 0xd7), (0xd8, 0xa8), (0xdc, 0xdc), (0xdf, 0xdf),
  (0xe4, 0xe4), (0xe5, 0xe5), (0xe6, 0xbf), (0xe9, 0xe9), (0xf3, 0xf3), (0xf5, 0xf5),
  (0xf6, 0xf6), (0xf7, 0xf7), (0xf8, 0xb8), (0xfc, 0xfc), (0x100, 0xc2), (0x101, 0xe2),
  (0x104, 0xc0), (0x105, 0xe0), (0x106, 0xc3), (0x107, 0xe3), (0x10c, 0xc8), (0x10d, 0xe8),
  (0x112, 0xc7), (0x113, 0xe7), (0x116, 0xcb), (0x117, 0xeb), (0x118, 0xc6), (0x119, 0xe6),
  (0x122, 0xcc), (0x123, 0xec), (0x12a, 0xce), (0x12b, 0xee), (0x12e, 0xc1), (0x12f, 0xe1),
  (0x136, 0xcd), (0x137, 0xed), (0x13b, 0xcf), (0x13c, 0xef), (0x141, 0xd9), (0x142, 0xf9),
  (0x143, 0xd1), (0x144, 0xf1), (0x145, 0xd2), (0x146, 0xf2), (0x14c, 0xd4), (0x14d, 0xf4),
  (0x156, 0xaa), (0x157, 0xba), (0x15a, 0xda), (0x15b, 0xfa), (0x160, 0xd0), (0x161, 0xf0),
  (0x16a, 0xdb), (0x16b, 0xfb), (0x172, 0xd8), (0x173, 0xf8), (0x179, 0xca), (0x17a, 0xea),
  (0x17b, 0xdd), (0x17c, 0xfd), (0x17d, 0xde), (0x17e, 0xfe), (0x2019, 0xff), (0x201c, 0xb4),
  (0x201d, 0xa1), (0x201e, 0xa5)]

/-- Code points of `DECODE_TABLE` (0xFFFD is the literal `'�'`, "undefined").
src/generated/single_byte/iso-8859-14_tables.rs.inc:20-37 -/
def iso_8859_14_decode : List Nat := [
  0x80, 0x81, 0x82, 0x83, 0x84, 0x85, 0x86, 0x87, 0x88, 0x89, 0x8a, 0x8b, 0x8c, 0x8d, 0x8e,
  0x8f, 0x90, 0x91, 0x92, 0x93, 0x94, 0x95, 0x96, 0x97, 0x98, 0x99, 0x9a, 0x9b, 0x9c, 0x9d,
  0x9e, 0x9f, 0xa0, 0x1e02, 0x1e03, 0xa3, 0x10a, 0x10b, 0x1e0a, 0xa7, 0x1e80, 0xa9, 0x1e82,
  0x1e0b, 0x1ef2, 0xad, 0xae, 0x178, 0x1e1e, 0x1e1f, 0x120, 0x121, 0x1e40, 0x1e41, 0xb6,
  0x1e56, 0x1e81, 0x1e57, 0x1e83, 0x1e60, 0x1ef3, 0x1e84, 0x1e85, 0x1e61, 0xc0, 0xc1, 0xc2,
  0xc3, 0xc4, 0xc5, 0xc6, 0xc7, 0xc8, 0xc9, 0xca, 0xcb, 0xcc, 0xcd, 0xce, 0xcf, 0x174, 0xd1,
  0xd2, 0xd3, 0xd4, 0xd5, 0xd6, 0x1e6a, 0xd8, 0xd9, 0xda, 0xdb, 0xdc, 0xdd, 0x176, 0xdf, 0xe0,
  0xe1, 0xe2, 0xe3, 0xe4, 0xe5, 0xe6, 0xe7, 0xe8, 0xe9, 0xea, 0xeb, 0xec, 0xed, 0xee, 0xef,
  0x175, 0xf1, 0xf2, 0xf3, 0xf4, 0xf5, 0xf6, 0x1e6b, 0xf8, 0xf9, 0xfa, 0xfb, 0xfc, 0xfd, 0x177,
  0xff]

/-- `ENCODE_TABLE` as (code point, byte).
src/generated/single_byte/iso-8859-14_tables.rs.inc:39-72 -/
def iso_8859_14_encode : List (Nat × Nat) := [
  (0x80, 0x80), (0x81, 0x81), (0x82, 0x82), (0x83, 0x83), (0x84, 0x84), (0x85, 0x85),
  (0x86, 0x86), (0x87, 0x87), (0x88, 0x88), (0x89, 0x89), (0x8a, 0x8a), (0x8b, 0x8b),
  (0x8c, 0x8c), (0x8d, 0x8d), (0x8e, 0x8e), (0x8f, 0x8f), (0x90, 0x90), (0x91, 0x91),
  (0x92, 0x92), (0x93, 0x93), (0x94, 0x94), (0x95, 0x95), (0x96, 0x96), (0x97, 0x97),
  (0x98, 0x98), (0x99, 0x99), (0x9a, 0x9a), (0x9b, 0x9b), (0x9c, 0x9c), (0x9d, 0x9d),
  (0x9e, 0x9e), (0x9f, 0x9f), (0xa0, 0xa0), (0xa3, 0xa3), (0xa7, 0xa7), (0xa9, 0xa9),
  (0xad, 0xad), (0xae, 0xae), (0xb6, 0xb6), (0xc0, 0xc0), (0xc1, 0xc1), (0xc2, 0xc2),
  (0xc3, 0xc3), (0xc4, 0xc4), (0xc5, 0xc5), (0xc6, 0xc6), (0xc7, 0xc7), (0xc8, 0xc8),
  (0xc9, 0xc9), (0xca, 0xca), (0xcb, 0xcb), (0xcc, 0xcc), (0xcd, 0xcd), (0xce, 0xce),
  (0xcf, 0xcf), (0xd1, 0xd1), (0xd2, 0xd2), (0xd3, 0xd3), (0xd4, 0xd4), (0xd5, 0xd5),
  (0xd6, 0xd6), (0xd8, 0xd8), (0xd9, 0xd9), (0xda, 0xda), (0xdb, 0xdb), (0xdc, 0xdc),
  (0xdd, 0xdd), (0xdf, 0xdf), (0xe0, 0xe0), (0xe1, 0xe1), (0xe2, 0xe2), (0xe3, 0xe3),
  (0xe4, 0xe4), (0xe5, 0xe5), (0xe6, 0xe6), (0xe7, 0xe7), (0xe8, 0xe8), (0xe9, 0xe9),
  (0xea, 0xea), (0xeb, 0xeb), (0xec, 0xec), (0xed, 0xed), (0xee, 0xee), (0xef, 0xef),
  (0xf1, 0xf1), (0xf2, 0xf2), (0xf3, 0xf3), (0xf4, 0xf4), (0xf5, 0xf5), (0xf6, 0xf6),
  (0xf8, 0xf8), (0xf9, 0xf9), (0xfa, 0xfa), (0xfb, 0xfb), (0xfc, 0xfc), (0xfd, 0xfd),
  (0xff, 0xff), (0x10a, 0xa4), (0x10b, 0xa5), (0x120, 0xb2), (0x121, 0xb3), (0x174, 0xd0),
  (0x175, 0xf0), (0x176, 0xde), (0x177, 0xfe), (0x178, 0xaf), (0x1e02, 0xa1), (0x1e03, 0xa2),
  (0x1e0a, 0xa6), (0x1e0b, 0xab), (0x1e1e, 0xb0), (0x1e1f, 0xb1), (0x1e40, 0xb4),
  (0x1e41, 0xb5), (0x1e56, 0xb7), (0x1e57, 0xb9), (0x1e60, 0xbb), (0x1e61, 0xbf),
  (0x1e6a, 0xd7), (0x1e6b, 0xf7), (0x1e80, 0xa8), (0x1e81, 0xb8), (0x1e82, 0xaa),
  (0x1e83, 0xba), (0x1e84, 0xbd), (0x1e85, 0xbe), (0x1ef2, 0xac), (0x1ef3, 0xbc)]

/-- Code points of `DECODE_TABLE` (0xFFFD is the literal `'�'`, "undefined").
src/generated/single_byte/iso-8859-15_tables.rs.inc:20-37 -/
def iso_8859_15_decode : List Nat := [
  0x80, 0x81, 0x82, 0x83, 0x84, 0x85, 0x86, 0x87, 0x88, 0x89, 0x8a, 0x8b, 0x8c, 0x8d, 0x8e,
  0x8f, 0x90, 0x91, 0x92, 0x93, 0x94, 0x95, 0x96, 0x97, 0x98, 0x99, 0x9a, 0x9b, 0x9c, 0x9d,
  0x9e, 0x9f, 0xa0, 0xa1, 0xa2, 0xa3, 0x20ac, 0xa5, 0x160, 0xa7, 0x161, 0xa9, 0xaa, 0xab, 0xac,
  0xad, 0xae, 0xaf, 0xb0, 0xb1, 0xb2, 0xb3, 0x17d, 0xb5, 0xb6, 0xb7, 0x17e, 0xb9, 0xba, 0xbb,
  0x152, 0x153, 0x178, 0xbf, 0xc0, 0xc1, 0xc2, 0xc3, 0xc4, 0xc5, 0xc6, 0xc7, 0xc8, 0xc9, 0xca,
  0xcb, 0xcc, 0xcd, 0xce, 0xcf, 0xd0, 0xd1, 0xd2, 0xd3, 0xd4, 0xd5, 0xd6, 0xd7, 0xd8, 0xd9,
  0xda, 0xdb, 0xdc, 0xdd, 0xde, 0xdf, 0xe0, 0xe1, 0xe2, 0xe3, 0xe4, 0xe5, 0xe6, 0xe7, 0xe8,
  0xe9, 0xea, 0xeb, 0xec, 0xed, 0xee, 0xef, 0xf0, 0xf1, 0xf2, 0xf3, 0xf4, 0xf5, 0xf6, 0xf7,
  0xf8, 0xf9, 0xfa, 0xfb, 0xfc, 0xfd, 0xfe, 0xff]

/-- `ENCODE_TABLE` as (code point, byte).
src/generated/single_byte/iso-8859-15_tables.rs.inc:39-72 -/
def iso_8859_15_encode : List (Nat × Nat) := [
  (0x80, 0x80), (0x81, 0x81), (0x82, 0x82), (0x83, 0x83), (0x84, 0x84), (0x85, 0x85),
  (0x86, 0x86), (0x87, 0x87), (0x88, 0x88), (0x89, 0x89), (0x8a, 0x8a), (0x8b, 0x8b),
  (0x8c, 0x8c), (0x8d, 0x8d), (0x8e, 0x8e), (0x8f, 0x8f), (0x90, 0x90), (0x91, 0x91),
  (0x92, 0x92), (0x93, 0x93), (0x94, 0x94), (0x95, 0x95), (0x96, 0x96), (0x97, 0x97),
  (0x98, 0x98), (0x99, 0x99), (0x9a, 0x9a), (0x9b, 0x9b), (0x9c, 0x9c), (0x9d, 0x9d),
  (0x9e, 0x9e), (0x9f, 0x9f), (0xa0, 0xa0), (0xa1, 0xa1), (0xa2, 0xa2), (0xa3, 0xa3),
  (0xa5, 0xa5), (0xa7, 0xa7), (0xa9, 0xa9), (0xaa, 0xaa), (0xab, 0xab), (0xac, 0xac),
  (0xad, 0xad), (0xae, 0xae), (0xaf, 0xaf), (0xb0, 0xb0), (0xb1, 0xb1), (0xb2, 0xb2),
  (0xb3, 0xb3), (0xb5, 0xb5), (0xb6, 0xb6), (0xb7, 0xb7), (0xb9, 0xb9), (0xba, 0xba),
  (0xbb, 0xbb), (0xbf, 0xbf), (0xc0, 0xc0), (0xc1, 0xc1), (0xc2, 0xc2), (0xc3, 0xc3),
  (0xc4, 0xc4), (0xc5, 0xc5), (0xc6, 0xc6), (0xc7, 0xc7), (0xc8, 0xc8), (0xc9, 0xc9),
  (0xca, 0xca), (0xcb, 0xcb), (0xcc, 0xcc), (0xcd, 0xcd), (0xce, 0xce), (0xcf, 0xcf),
  (0xd0, 0xd0), (0xd1, 0xd1), (0xd2, 0xd2), (0xd3, 0xd3), (0xd4, 0xd4), (0xd5, 0xd5),
  (0xd6, 0xd6), (0xd7, 0xd7), (0xd8, 0xd8), (0xd9, 0xd9), (0xda, 0xda), (0xdb, 0xdb),
  (0xdc, 0xdc), (0xdd, 0xdd), (0xde, 0xde), (0xdf, 0xdf), (0xe0, 0xe0), (0xe1, 0xe1),
  (0xe2, 0xe2), (0xe3, 0xe3), (0xe4, 0xe4), (0xe5, 0xe5), (0xe6, 0xe6), (0xe7, 0xe7),
  (0xe8, 0xe8), (0xe9, 0xe9), (0xea, 0xea), (0xeb, 0xeb), (0xec, 0xec), (0xed, 0xed),
  (0xee, 0xee), (0xef, 0xef), (0xf0, 0xf0), (0xf1, 0xf1), (0xf2, 0xf2), (0xf3, 0xf3),
  (0xf4, 0xf4), (0xf5, 0xf5), (0xf6, 0xf6), (0xf7, 0xf7), (0xf8, 0xf8), (0xf9, 0xf9),
  (0xfa, 0xfa), (0xfb, 0xfb), (0xfc, 0xfc), (0xfd, 0xfd), (0xfe, 0xfe), (0xff, 0xff),
  (0x152, 0xbc), (0x153, 0xbd), (0x160, 0xa6), (0x161, 0xa8), (0x178, 0xbe), (0x17d, 0xb4),
  (0x17e, 0xb8), (0x20ac, 0xa4)]

/-- Code points of `DECODE_TABLE` (0xFFFD is the literal `'�'`, "undefined").
src/generated/single_byte/iso-8859-16_tables.rs.inc:20-37 -/
def iso_8859_16_decode : List Nat := [
  0x80, 0x81, 0x82, 0x83, 0x84, 0x85, 0x86, 0x87, 0x88, 0x89, 0x8a, 0x8b, 0x8c, 0x8d, 0x8e,
  0x8f, 0x90, 0x91, 0x92, 0x93, 0x94, 0x95, 0x96, 0x97, 0x98, 0x99, 0x9a, 0x9b, 0x9c, 0x9d,
  0x9e, 0x9f, 0xa0, 0x104, 0x105, 0x141, 0x20ac, 0x201e, 0x160, 0xa7, 0x161, 0xa9, 0x218, 0xab,
  0x179, 0xad, 0x17a, 0x17b, 0xb0, 0xb1, 0x10c, 0x142, 0x17d, 0x201d, 0xb6, 0xb7, 0x17e, 0x10d,
  0x219, 0xbb, 0x152, 0x153, 0x178, 0x17c, 0xc0, 0xc1, 0xc2, 0x102, 0xc4, 0x106, 0xc6, 0xc7,
  0xc8, 0xc9, 0xca, 0xcb, 0xcc, 0xcd, 0xce, 0xcf, 0x110, 0x143, 0xd2, 0xd3, 0xd4, 0x150, 0xd6,
  0x15a, 0x170, 0xd9, 0xda, 0xdb, 0xdc, 0x118, 0x21a, 0xdf, 0xe0, 0xe1, 0xe2, 0x103, 0xe4,
  0x107, 0xe6, 0xe7, 0xe8, 0xe9, 0xea, 0xeb, 0xec, 0xed, 0xee, 0xef, 0x111, 0x144, 0xf2, 0xf3,
  0xf4, 0x151, 0xf6, 0x15b, 0x171, 0xf9, 0xfa, 0xfb, 0xfc, 0x119, 0x21b, 0xff]

/-- `ENCODE_TABLE` as (code point, byte).
src/generated/single_byte/iso-8859-16_tables.rs.inc:39-72 -/
def iso_8859_16_encode : List (Nat × Nat) := [
  (0x80, 0x80), (0x81, 0x81), (0x82, 0x82), (0x83, 0x83), (0x84, 0x84), (0x85, 0x85),
  (0x86, 0x86), (0x87, 0x87), (0x88, 0x88), (0x89, 0x89), (0x8a, 0x8a), (0x8b, 0x8b),
  (0x8c, 0x8c), (0x8d, 0x8d), (0x8e, 0x8e), (0x8f, 0x8f), (0x90, 0x90), (0x91, 0x91),
  (0x92, 0x92), (0x93, 0x93), (0x94, 0x94), (0x95, 0x95), (0x96, 0x96), (0x97, 0x97),
  (0x98, 0x98), (0x99, 0x99), (0x9a, 0x9a), (0x9b, 0x9b), (0x9c, 0x9c), (0x9d, 0x9d),
  (0x9e, 0x9e), (0x9f, 0x9f), (0xa0, 0xa0), (0xa7, 0xa7), (0xa9, 0xa9), (0xab, 0xab),
  (0xad, 0xad), (0xb0, 0xb0), (0xb1, 0xb1), (0xb6, 0xb6), (0xb7, 0xb7), (0xbb, 0xbb),
  (0xc0, 0xc0), (0xc1, 0xc1), (0xc2, 0xc2), (0xc4, 0xc4), (0xc6, 0xc6), (0xc7, 0xc7),
  (0xc8, 0xc8), (0xc9, 0xc9), (0xca, 0xca), (0xcb, 0xcb), (0xcc, 0xcc), (0xcd, 0xcd),
  (0xce, 0xce), (0xcf, 0xcf), (0xd2, 0xd2), (0xd3, 0xd3), (0xd4, 0xd4), (0xd6, 0xd6),
  (0xd9, 0xd9), (0xda, 0xda), (0xdb, 0xdb), (0xdc, 0xdc), (0xdf, 0xdf), (0xe0, 0xe0),
  (0xe1, 0xe1), (0xe2, 0xe2), (0xe4, 0xe4), (0xe6, 0xe6), (0xe7, 0xe7), (0xe8, 0xe8),
  (0xe9, 0xe9), (0xea, 0xea), (0xeb, 0xeb), (0xec, 0xec), (0xed, 0xed), (0xee, 0xee),
  (0xef, 0xef), (0xf2, 0xf2), (0xf3, 0xf3), (0xf4, 0xf4), (0xf6, 0xf6), (0xf9, 0xf9),
  (0xfa, 0xfa), (0xfb, 0xfb), (0xfc, 0xfc), (0xff, 0xff), (0x102, 0xc3), (0x103, 0xe3),
  (0x104, 0xa1), (0x105, 0xa2), (0x106, 0xc5), (0x107, 0xe5), (0x10c, 0xb2), (0x10d, 0xb9),
  (0x110, 0xd0), (0x111, 0xf0), (0x118, 0xdd), (0x119, 0xfd), (0x141, 0xa3), (0x142, 0xb3),
  (0x143, 0xd1), (0x144, 0xf1), (0x150, 0xd5), (0x151, 0xf5), (0x152, 0xbc), (0x153, 0xbd),
  (0x15a, 0xd7), (0x15b, 0xf7), (0x160, 0xa6), (0x161, 0xa8), (0x170, 0xd8), (0x171, 0xf8),
  (0x178, 0xbe), (0x179, 0xac), (0x17a, 0xae), (0x17b, 0xaf), (0x17c, 0xbf), (0x17d, 0xb4),
  (0x17e, 0xb8), (0x218, 0xaa), (0x219, 0xba), (0x21a, 0xde), (0x21b, 0xfe), (0x201d, 0xb5),
  (0x201e, 0xa5), (0x20ac, 0xa4)]

/-- Code points of `DECODE_TABLE` (0xFFFD is the literal `'�'`, "undefined").
src/generated/single_byte/koi8-r_tables.rs.inc:20-37 -/
def koi8_r_decode : List Nat := [
  0x2500, 0x2502, 0x250c, 0x2510, 0x2514, 0x2518, 0x251c, 0x2524, 0x252c, 0x2534, 0x253c,
  0x2580, 0x2584, 0x2588, 0x258c, 0x2590, 0x2591, 0x2592, 0x2593, 0x2320, 0x25a0, 0x2219,
  0x221a, 0x2248, 0x2264, 0x2265, 0xa0, 0x2321, 0xb0, 0xb2, 0xb7, 0xf7, 0x2550, 0x2551, 0x2552,
  0x451, 0x2553, 0x2554, 0x2555, 0x2556, 0x2557, 0x2558, 0x2559, 0x255a, 0x255b, 0x255c,
  0x255d, 0x255e, 0x255f, 0x2560, 0x2561, 0x401, 0x2562, 0x2563, 0x2564, 0x2565, 0x2566,
  0x2567, 0x2568, 0x2569, 0x256a, 0x256b, 0x256c, 0xa9, 0x44e, 0x430, 0x431, 0x446, 0x434,
  0x435, 0x444, 0x433, 0x445, 0x438, 0x439, 0x43a, 0x43b, 0x43c, 0x43d, 0x43e, 0x43f, 0x44f,
  0x440, 0x441, 0x442, 0x443, 0x436, 0x432, 0x44c, 0x44b, 0x437, 0x448, 0x44d, 0x449, 0x447,
  0x44a, 0x42e, 0x410, 0x411, 0x426, 0x414, 0x415, 0x424, 0x413, 0x425, 0x418, 0x419, 0x41a,
  0x41b, 0x41c, 0x41d, 0x41e, 0x41f, 0x42f, 0x420, 0x421, 0x422, 0x423, 0x416, 0x412, 0x42c,
  0x42b, 0x417, 0x428, 0x42d, 0x429, 0x427, 0x42a]

/-- `ENCODE_TABLE` as (code point, byte).
src/generated/single_byte/koi8-r_tables.rs.inc:39-72 -/
def koi8_r_encode : List (Nat × Nat) := [
  (0xa0, 0x9a), (0xa9, 0xbf), (0xb0, 0x9c), (0xb2, 0x9d), (0xb7, 0x9e), (0xf7, 0x9f),
  (0x401, 0xb3), (0x410, 0xe1), (0x411, 0xe2), (0x412, 0xf7), (0x413, 0xe7), (0x414, 0xe4),
  (0x415, 0xe5), (0x416, 0xf6), (0x417, 0xfa), (0x418, 0xe9), (0x419, 0xea), (0x41a, 0xeb),
  (0x41b, 0xec), (0x41c, 0xed), (0x41d, 0xee), (0x41e, 0xef), (0x41f, 0xf0), (0x420, 0xf2),
  (0x421, 0xf3), (0x422, 0xf4), (0x423, 0xf5), (0x424, 0xe6), (0x425, 0xe8), (0x426, 0xe3),
  (0x427, 0xfe), (0x428, 0xfb), (0x429, 0xfd), (0x42a, 0xff), (0x42b, 0xf9), (0x42c, 0xf8),
  (0x42d, 0xfc), (0x42e, 0xe0), (0x42f, 0xf1), (0x430, 0xc1), (0x431, 0xc2), (0x432, 0xd7),
  (0x433, 0xc7), (0x434, 0xc4), (0x435, 0xc5), (0x436, 0xd6), (0x437, 0xda), (0x438, 0xc9),
  (0x439, 0xca), (0x43a, 0xcb), (0x43b, 0xcc), (0x43c, 0xcd), (0x43d, 0xce), (0x43e, 0xcf),
  (0x43f, 0xd0), (0x440, 0xd2), (0x441, 0xd3), (0x442, 0xd4), (0x443, 0xd5), (0x444, 0xc6),
  (0x445, 0xc8), (0x446, 0xc3), (0x447, 0xde), (0x448, 0xdb), (0x449, 0xdd), (0x44a, 0xdf),
  (0x44b, 0xd9), (0x44c, 0xd8), (0x44d, 0xdc), (0x44e, 0xc0), (0x44f, 0xd1), (0x451, 0xa3),
  (0x2219, 0x95), (0x221a, 0x96), (0x2248, 0x97), (0x2264, 0x98), (0x2265, 0x99),
  (0x2320, 0x93), (0x2321, 0x9b), (0x2500, 0x80), (0x2502, 0x81), (0x250c, 0x82),
  (0x2510, 0x83), (0x2514, 0x84), (0x2518, 0x85), (0x251c, 0x86), (0x2524, 0x87),
  (0x252c, 0x88), (0x2534, 0x89), (0x253c, 0x8a), (0x2550, 0xa0), (0x2551, 0xa1),
  (0x2552, 0xa2), (0x2553, 0xa4), (0x2554, 0xa5), (0x2555, 0xa6), (0x2556, 0xa7),
  (0x2557, 0xa8), (0x2558, 0xa9), (0x2559, 0xaa), (0x255a, 0xab), (0x255b, 0xac),
  (0x255c, 0xad), (0x255d, 0xae), (0x255e, 0xaf), (0x255f, 0xb0), (0x2560, 0xb1),
  (0x2561, 0xb2), (0x2562, 0xb4), (0x2563, 0xb5), (0x2564, 0xb6), (0x2565, 0xb7),
  (0x2566, 0xb8), (0x2567, 0xb9), (0x2568, 0xba), (0x2569, 0xbb), (0x256a, 0xbc),
  (0x256b, 0xbd), (0x256c, 0xbe), (0x2580, 0x8b), (0x2584, 0x8c), (0x2588, 0x8d),
  (0x258c, 0x8e), (0x2590, 0x8f), (0x2591, 0x90), (0x2592, 0x91), (0x2593, 0x92), (0x25a0, 0x94)]

/-- Code points of `DECODE_TABLE` (0xFFFD is the literal `'�'`, "undefined").
src/generated/single_byte/koi8-u_tables.rs.inc:20-37 -/
def koi8_u_decode : List Nat := [
  0x2500, 0x2502, 0x250c, 0x2510, 0x2514, 0x2518, 0x251c, 0x2524, 0x252c, 0x2534, 0x253c,
  0x2580, 0x2584, 0x2588, 0x258c, 0x2590, 0x2591, 0x2592, 0x2593, 0x2320, 0x25a0, 0x2219,
  0x221a, 0x2248, 0x2264, 0x2265, 0xa0, 0x2321, 0xb0, 0xb2, 0xb7, 0xf7, 0x2550, 0x2551, 0x2552,
  0x451, 0x454, 0x2554, 0x456, 0x457, 0x2557, 0x2558, 0x2559, 0x255a, 0x255b, 0x491, 0x255d,
  0x255e, 0x255f, 0x2560, 0x2561, 0x401, 0x404, 0x2563, 0x406, 0x407, 0x2566, 0x2567, 0x2568,
  0x2569, 0x256a, 0x490, 0x256c, 0xa9, 0x44e, 0x430, 0x431, 0x446, 0x434, 0x435, 0x444, 0x433,
  0x445, 0x438, 0x439, 0x43a, 0x43b, 0x43c, 0x43d, 0x43e, 0x43f, 0x44f, 0x440, 0x441, 0x442,
  0x443, 0x436, 0x432, 0x44c, 0x44b, 0x437, 0x448, 0x44d, 0x449, 0x447, 0x44a, 0x42e, 0x410,
  0x411, 0x426, 0x414, 0x415, 0x424, 0x413, 0x425, 0x418, 0x419, 0x41a, 0x41b, 0x41c, 0x41d,
  0x41e, 0x41f, 0x42f, 0x420, 0x421, 0x422, 0x423, 0x416, 0x412, 0x42c, 0x42b, 0x417, 0x428,
  0x42d, 0x429, 0x427, 0x42a]

/-- `ENCODE_TABLE` as (code point, byte).
src/generated/single_byte/koi8-u_tables.rs.inc:39-72 -/
def koi8_u_encode : List (Nat × Nat) := [
  (0xa0, 0x9a), (0xa9, 0xbf), (0xb0, 0x9c), (0xb2, 0x9d), (0xb7, 0x9e), (0xf7, 0x9f),
  (0x401, 0xb3), (0x404, 0xb4), (0x406, 0xb6), (0x407, 0xb7), (0x410, 0xe1), (0x411, 0xe2),
  (0x412, 0xf7), (0x413, 0xe7), (0x414, 0xe4), (0x415, 0xe5), (0x416, 0xf6), (0x417, 0xfa),
  (0x418, 0xe9), (0x419, 0xea), (0x41a, 0xeb), (0x41b, 0xec), (0x41c, 0xed), (0x41d, 0xee),
  (0x41e, 0xef), (0x41f, 0xf0), (0x420, 0xf2), (0x421, 0xf3), (0x422, 0xf4), (0x423, 0xf5),
  (0x424, 0xe6), (0x425, 0xe8), (0x426, 0xe3), (0x427, 0xfe), (0x428, 0xfb), (0x429, 0xfd),
  (0x42a, 0xff), (0x42b, 0xf9), (0x42c, 0xf8), (0x42d, 0xfc), (0x42e, 0xe0), (0x42f, 0xf1),
  (0x430, 0xc1), (0x431, 0xc2), (0x432, 0xd7), (0x433, 0xc7), (0x434, 0xc4), (0x435, 0xc5),
  (0x436, 0xd6), (0x437, 0xda), (0x438, 0xc9), (0x439, 0xca), (0x43a, 0xcb), (0x43b, 0xcc),
  (0x43c, 0xcd), (0x43d, 0xce), (0x43e, 0xcf), (0x43f, 0xd0), (0x440, 0xd2), (0x441, 0xd3),
  (0x442, 0xd4), (0x443, 0xd5), (0x444, 0xc6), (0x445, 0xc8), (0x446, 0xc3), (0x447, 0xde),
  (0x448, 0xdb), (0x449, 0xdd), (0x44a, 0xdf), (0x44b, 0xd9), (0x44c, 0xd8), (0x44d, 0xdc),
  (0x44e, 0xc0), (0x44f, 0xd1), (0x451, 0xa3), (0x454, 0xa4), (0x456, 0xa6), (0x457, 0xa7),
  (0x490, 0xbd), (0x491, 0xad), (0x2219, 0x95), (0x221a, 0x96), (0x2248, 0x97), (0x2264, 0x98),
  (0x2265, 0x99), (0x2320, 0x93), (0x2321, 0x9b), (0x2500, 0x80), (0x2502, 0x81),
  (0x250c, 0x82), (0x2510, 0x83), (0x2514, 0x84), (0x2518, 0x85), (0x251c, 0x86),
  (0x2524, 0x87), (0x252c, 0x88), (0x2534, 0x89), (0x253c, 0x8a), (0x2550, 0xa0),
  (0x2551, 0xa1), (0x2552, 0xa2), (0x2554, 0xa5), (0x2557, 0xa8), (0x2558, 0xa9),
  (0x2559, 0xaa), (0x255a, 0xab), (0x255b, 0xac), (0x255d, 0xae), (0x255e, 0xaf),
  (0x255f, 0xb0), (0x2560, 0xb1), (0x2561, 0xb2), (0x2563, 0xb5), (0x2566, 0xb8),
  (0x2567, 0xb9), (0x2568, 0xba), (0x2569, 0xbb), (0x256a, 0xbc), (0x256c, 0xbe),
  (0x2580, 0x8b), (0x2584, 0x8c), (0x2588, 0x8d), (0x258c, 0x8e), (0x2590, 0x8f),
  (0x2591, 0x90), (0x2592, 0x91), (0x2593, 0x92), (0x25a0, 0x94)]

/-- Code points of `DECODE_TABLE` (0xFFFD is the literal `'�'`, "undefined").
src/generated/single_byte/mac-roman_tables.rs.inc:20-37 -/
def mac_roman_decode : List Nat := [
  0xc4, 0xc5, 0xc7, 0xc9, 0xd1, 0xd6, 0xdc, 0xe1, 0xe0, 0xe2, 0xe4, 0xe3, 0xe5, 0xe7, 0xe9,
  0xe8, 0xea, 0xeb, 0xed, 0xec, 0xee, 0xef, 0xf1, 0xf3, 0xf2, 0xf4, 0xf6, 0xf5, 0xfa, 0xf9,
  0xfb, 0xfc, 0x2020, 0xb0, 0xa2, 0xa3, 0xa7, 0x2022, 0xb6, 0xdf, 0xae, 0xa9, 0x2122, 0xb4,
  0xa8, 0x2260, 0xc6, 0xd8, 0x221e, 0xb1, 0x2264, 0x2265, 0xa5, 0xb5, 0x2202, 0x2211, 0x220f,
  0x3c0, 0x222b, 0xaa, 0xba, 0x3a9, 0xe6, 0xf8, 0xbf, 0xa1, 0xac, 0x221a, 0x192, 0x2248,
  0x2206, 0xab, 0xbb, 0x2026, 0xa0, 0xc0, 0xc3, 0xd5, 0x152, 0x153, 0x2013, 0x2014, 0x201c,
  0x201d, 0x2018, 0x2019, 0xf7, 0x25ca, 0xff, 0x178, 0x2044, 0x20ac, 0x2039, 0x203a, 0xfb01,
  0xfb02, 0x2021, 0xb7, 0x201a, 0x201e, 0x2030, 0xc2, 0xca, 0xc1, 0xcb, 0xc8, 0xcd, 0xce, 0xcf,
  0xcc, 0xd3, 0xd4, 0xf8ff, 0xd2, 0xda, 0xdb, 0xd9, 0x131, 0x2c6, 0x2dc, 0xaf, 0x2d8, 0x2d9,
  0x2da, 0xb8, 0x2dd, 0x2db, 0x2c7]

/-- `ENCODE_TABLE` as (code point, byte).
src/generated/single_byte/mac-roman_tables.rs.inc:39-72 -/
def mac_roman_encode : List (Nat × Nat) := [
  (0xa0, 0xca), (0xa1, 0xc1), (0xa2, 0xa2), (0xa3, 0xa3), (0xa5, 0xb4), (0xa7, 0xa4),
  (0xa8, 0xac), (0xa9, 0xa9), (0xaa, 0xbb), (0xab, 0xc7), (0xac, 0xc2), (0xae, 0xa8),
  (0xaf, 0xf8), (0xb0, 0xa1), (0xb1, 0xb1), (0xb4, 0xab), (0xb5, 0xb5), (0xb6, 0xa6),
  (0xb7, 0xe1), (0xb8, 0xfc), (0xba, 0xbc), (0xbb, 0xc8), (0xbf, 0xc0), (0xc0, 0xcb),
  (0xc1, 0xe7), (0xc2, 0xe5), (0xc3, 0xcc), (0xc4, 0x80), (0xc5, 0x81), (0xc6, 0xae),
  (0xc7, 0x82), (0xc8, 0xe9), (0xc9, 0x83), (0xca, 0xe6), (0xcb, 0xe8), (0xcc, 0xed),
  (0xcd, 0xea), (0xce, 0xeb), (0xcf, 0xec), (0xd1, 0x84), (0xd2, 0xf1), (0xd3, 0xee),
  (0xd4, 0xef), (0xd5, 0xcd), (0xd6, 0x85), (0xd8, 0xaf), (0xd9, 0xf4), (0xda, 0xf2),
  (0xdb, 0xf3), (0xdc, 0x86), (0xdf, 0xa7), (0xe0, 0x88), (0xe1, 0x87), (0xe2, 0x89),
  (0xe3, 0x8b), (0xe4, 0x8a), (0xe5, 0x8c), (0xe6, 0xbe), (0xe7, 0x8d), (0xe8, 0x8f),
  (0xe9, 0x8e), (0xea, 0x90), (0xeb, 0x91), (0xec, 0x93), (0xed, 0x92), (0xee, 0x94),
  (0xef, 0x95), (0xf1, 0x96), (0xf2, 0x98), (0xf3, 0x97), (0xf4, 0x99), (0xf5, 0x9b),
  (0xf6, 0x9a), (0xf7, 0xd6), (0xf8, 0xbf), (0xf9, 0x9d), (0xfa, 0x9c), (0xfb, 0x9e),
  (0xfc, 0x9f), (0xff, 0xd8), (0x131, 0xf5), (0x152, 0xce), (0x153, 0xcf), (0x178, 0xd9),
  (0x192, 0xc4), (0x2c6, 0xf6), (0x2c7, 0xff), (0x2d8, 0xf9), (0x2d9, 0xfa), (0x2da, 0xfb),
  (0x2db, 0xfe), (0x2dc, 0xf7), (0x2dd, 0xfd), (0x3a9, 0xbd), (0x3c0, 0xb9), (0x2013, 0xd0),
  (0x2014, 0xd1), (0x2018, 0xd4), (0x2019, 0xd5), (0x201a, 0xe2), (0x201c, 0xd2),
  (0x201d, 0xd3), (0x201e, 0xe3), (0x2020, 0xa0), (0x2021, 0xe0), (0x2022, 0xa5),
  (0x2026, 0xc9), (0x2030, 0xe4), (0x2039, 0xdc), (0x203a, 0xdd), (0x2044, 0xda),
  (0x20ac, 0xdb), (0x2122, 0xaa), (0x2202, 0xb6), (0x2206, 0xc6), (0x220f, 0xb8),
  (0x2211, 0xb7), (0x221a, 0xc3), (0x221e, 0xb0), (0x222b, 0xba), (0x2248, 0xc5),
  (0x2260, 0xad), (0x2264, 0xb2), (0x2265, 0xb3), (0x25ca, 0xd7), (0xf8ff, 0xf0),
  (0xfb01, 0xde), (0xfb02, 0xdf)]

/-- Code points of `DECODE_TABLE` (0xFFFD is the literal `'�'`, "undefined").
src/generated/single_byte/mac-cyrillic_tables.rs.inc:20-37 -/
def mac_cyrillic_decode : List Nat := [
  0x410, 0x411, 0x412, 0x413, 0x414, 0x415, 0x416, 0x417, 0x418, 0x419, 0x41a, 0x41b, 0x41c,
  0x41d, 0x41e, 0x41f, 0x420, 0x421, 0x422, 0x423, 0x424, 0x425, 0x426, 0x427, 0x428, 0x429,
  0x42a, 0x42b, 0x42c, 0x42d, 0x42e, 0x42f, 0x2020, 0xb0, 0x490, 0xa3, 0xa7, 0x2022, 0xb6,
  0x406, 0xae, 0xa9, 0x2122, 0x402, 0x452, 0x2260, 0x403, 0x453, 0x221e, 0xb1, 0x2264, 0x2265,
  0x456, 0xb5, 0x491, 0x408, 0x404, 0x454, 0x407, 0x457, 0x409, 0x459, 0x40a, 0x45a, 0x458,
  0x405, 0xac, 0x221a, 0x192, 0x2248, 0x2206, 0xab, 0xbb, 0x2026, 0xa0, 0x40b, 0x45b, 0x40c,
  0x45c, 0x455, 0x2013, 0x2014, 0x201c, 0x201d, 0x2018, 0x2019, 0xf7, 0x201e, 0x40e, 0x45e,
  0x40f, 0x45f, 0x2116, 0x401, 0x451, 0x44f, 0x430, 0x431, 0x432, 0x433, 0x434, 0x435, 0x436,
  0x437, 0x438, 0x439, 0x43a, 0x43b, 0x43c, 0x43d, 0x43e, 0x43f, 0x440, 0x441, 0x442, 0x443,
  0x444, 0x445, 0x446, 0x447, 0x448, 0x449, 0x44a, 0x44b, 0x44c, 0x44d, 0x44e, 0x20ac]

/-- `ENCODE_TABLE` as (code point, byte).
src/generated/single_byte/mac-cyrillic_tables.rs.inc:39-72 -/
def mac_cyrillic_encode : List (Nat × Nat) := [
  (0xa0, 0xca), (0xa3, 0xa3), (0xa7, 0xa4), (0xa9, 0xa9), (0xab, 0xc7), (0xac, 0xc2),
  (0xae, 0xa8), (0xb0, 0xa1), (0xb1, 0xb1), (0xb5, 0xb5), (0xb6, 0xa6), (0xbb, 0xc8),
  (0xf7, 0xd6), (0x192, 0xc4), (0x401, 0xdd), (0x402, 0xab), (0x403, 0xae), (0x404, 0xb8),
  (0x405, 0xc1), (0x406, 0xa7), (0x407, 0xba), (0x408, 0xb7), (0x409, 0xbc), (0x40a, 0xbe),
  (0x40b, 0xcb), (0x40c, 0xcd), (0x40e, 0xd8), (0x40f, 0xda), (0x410, 0x80), (0x411, 0x81),
  (0x412, 0x82), (0x413, 0x83), (0x414, 0x84), (0x415, 0x85), (0x416, 0x86), (0x417, 0x87),
  (0x418, 0x88), (0x419, 0x89), (0x41a, 0x8a), (0x41b, 0x8b), (0x41c, 0x8c), (0x41d, 0x8d),
  (0x41e, 0x8e), (0x41f, 0x8f), (0x420, 0x90), (0x421, 0x91), (0x422, 0x92), (0x423, 0x93),
  (0x424, 0x94), (0x425, 0x95), (0x426, 0x96), (0x427, 0x97), (0x428, 0x98), (0x429, 0x99),
  (0x42a, 0x9a), (0x42b, 0x9b), (0x42c, 0x9c), (0x42d, 0x9d), (0x42e, 0x9e), (0x42f, 0x9f),
  (0x430, 0xe0), (0x431, 0xe1), (0x432, 0xe2), (0x433, 0xe3), (0x434, 0xe4), (0x435, 0xe5),
  (0x436, 0xe6), (0x437, 0xe7), (0x438, 0xe8), (0x439, 0xe9), (0x43a, 0xea), (0x43b, 0xeb),
  (0x43c, 0xec), (0x43d, 0xed), (0x43e, 0xee), (0x43f, 0xef), (0x440, 0xf0), (0x441, 0xf1),
  (0x442, 0xf2), (0x443, 0xf3), (0x444, 0xf4), (0x445, 0xf5), (0x446, 0xf6), (0x447, 0xf7),
  (0x448, 0xf8), (0x449, 0xf9), (0x44a, 0xfa), (0x44b, 0xfb), (0x44c, 0xfc), (0x44d, 0xfd),
  (0x44e, 0xfe), (0x44f, 0xdf), (0x451, 0xde), (0x452, 0xac), (0x453, 0xaf), (0x454, 0xb9),
  (0x455, 0xcf), (0x456, 0xb4), (0x457, 0xbb), (0x458, 0xc0), (0x459, 0xbd), (0x45a, 0xbf),
  (0x45b, 0xcc), (0x45c, 0xce), (0x45e, 0xd9), (0x45f, 0xdb), (0x490, 0xa2), (0x491, 0xb6),
  (0x2013, 0xd0), (0x2014, 0xd1), (0x2018, 0xd4), (0x2019, 0xd5), (0x201c, 0xd2),
  (0x201d, 0xd3), (0x201e, 0xd7), (0x2020, 0xa0), (0x2022, 0xa5), (0x2026, 0xc9),
  (0x20ac, 0xff), (0x2116, 0xdc), (0x2122, 0xaa), (0x2206, 0xc6), (0x221a, 0xc3),
  (0x221e, 0xb0), (0x2248, 0xc5), (0x2260, 0xad), (0x2264, 0xb2), (0x2265, 0xb3)]

/-- Code points of `DECODE_TABLE` (0xFFFD is the literal `'�'`, "undefined").
src/generated/single_byte/windows-cp874_tables.rs.inc:20-37 -/
def windows_874_decode : List Nat := [
  0x20ac, 0xfffd, 0xfffd, 0xfffd, 0xfffd, 0x2026, 0xfffd, 0xfffd, 0xfffd, 0xfffd, 0xfffd,
  0xfffd, 0xfffd, 0xfffd, 0xfffd, 0xfffd, 0xfffd, 0x2018, 0x2019, 0x201c, 0x201d, 0x2022,
  0x2013, 0x2014, 0xfffd, 0xfffd, 0xfffd, 0xfffd, 0xfffd, 0xfffd, 0xfffd, 0xfffd, 0xa0, 0xe01,
  0xe02, 0xe03, 0xe04, 0xe05, 0xe06, 0xe07, 0xe08, 0xe09, 0xe0a, 0xe0b, 0xe0c, 0xe0d, 0xe0e,
  0xe0f, 0xe10, 0xe11, 0xe12, 0xe13, 0xe14, 0xe15, 0xe16, 0xe17, 0xe18, 0xe19, 0xe1a, 0xe1b,
  0xe1c, 0xe1d, 0xe1e, 0xe1f, 0xe20, 0xe21, 0xe22, 0xe23, 0xe24, 0xe25, 0xe26, 0xe27, 0xe28,
  0xe29, 0xe2a, 0xe2b, 0xe2c, 0xe2d, 0xe2e, 0xe2f, 0xe30, 0xe31, 0xe32, 0xe33, 0xe34, 0xe35,
  0xe36, 0xe37, 0xe38, 0xe39, 0xe3a, 0xfffd, 0xfffd, 0xfffd, 0xfffd, 0xe3f, 0xe40, 0xe41,
  0xe42, 0xe43, 0xe44, 0xe45, 0xe46, 0xe47, 0xe48, 0xe49, 0xe4a, 0xe4b, 0xe4c, 0xe4d, 0xe4e,
  0xe4f, 0xe50, 0xe51, 0xe52, 0xe53, 0xe54, 0xe55, 0xe56, 0xe57, 0xe58, 0xe59, 0xe5a, 0xe5b,
  0xfffd, 0xfffd, 0xfffd, 0xfffd]

/-- `ENCODE_TABLE` as (code point, byte).
src/generated/single_byte/windows-cp874_tables.rs.inc:39-65 -/
def windows_874_encode : List (Nat × Nat) := [
  (0xa0, 0xa0), (0xe01, 0xa1), (0xe02, 0xa2), (0xe03, 0xa3), (0xe04, 0xa4), (0xe05, 0xa5),
  (0xe06, 0xa6), (0xe07, 0xa7), (0xe08, 0xa8), (0xe09, 0xa9), (0xe0a, 0xaa), (0xe0b, 0xab),
  (0xe0c, 0xac), (0xe0d, 0xad), (0xe0e, 0xae), (0xe0f, 0xaf), (0xe10, 0xb0), (0xe11, 0xb1),
  (0xe12, 0xb2), (0xe13, 0xb3), (0xe14, 0xb4), (0xe15, 0xb5), (0xe16, 0xb6), (0xe17, 0xb7),
  (0xe18, 0xb8), (0xe19, 0xb9), (0xe1a, 0xba), (0xe1b, 0xbb), (0xe1c, 0xbc), (0xe1d, 0xbd),
  (0xe1e, 0xbe), (0xe1f, 0xbf), (0xe20, 0xc0), (0xe21, 0xc1), (0xe22, 0xc2), (0xe23, 0xc3),
  (0xe24, 0xc4), (0xe25, 0xc5), (0xe26, 0xc6), (0xe27, 0xc7), (0xe28, 0xc8), (0xe29, 0xc9),
  (0xe2a, 0xca), (0xe2b, 0xcb), (0xe2c, 0xcc), (0xe2d, 0xcd), (0xe2e, 0xce), (0xe2f, 0xcf),
  (0xe30, 0xd0), (0xe31, 0xd1), (0xe32, 0xd2), (0xe33, 0xd3), (0xe34, 0xd4), (0xe35, 0xd5),
  (0xe36, 0xd6), (0xe37, 0xd7), (0xe38, 0xd8), (0xe39, 0xd9), (0xe3a, 0xda), (0xe3f, 0xdf),
  (0xe40, 0xe0), (0xe41, 0xe1), (0xe42, 0xe2), (0xe43, 0xe3), (0xe44, 0xe4), (0xe45, 0xe5),
  (0xe46, 0xe6), (0xe47, 0xe7), (0xe48, 0xe8), (0xe49, 0xe9), (0xe4a, 0xea), (0xe4b, 0xeb),
  (0xe4c, 0xec), (0xe4d, 0xed), (0xe4e, 0xee), (0xe4f, 0xef), (0xe50, 0xf0), (0xe51, 0xf1),
  (0xe52, 0xf2), (0xe53, 0xf3), (0xe54, 0xf4), (0xe55, 0xf5), (0xe56, 0xf6), (0xe57, 0xf7),
  (0xe58, 0xf8), (0xe59, 0xf9), (0xe5a, 0xfa), (0xe5b, 0xfb), (0x2013, 0x96), (0x2014, 0x97),
  (0x2018, 0x91), (0x2019, 0x92), (0x201c, 0x93), (0x201d, 0x94), (0x2022, 0x95),
  (0x2026, 0x85), (0x20ac, 0x80)]

/-- Code points of `DECODE_TABLE` (0xFFFD is the literal `'�'`, "undefined").
src/generated/single_byte/windows-cp1250_tables.rs.inc:20-37 -/
def windows_1250_decode : List Nat := [
  0x20ac, 0xfffd, 0x201a, 0xfffd, 0x201e, 0x2026, 0x2020, 0x2021, 0xfffd, 0x2030, 0x160,
  0x2039, 0x15a, 0x164, 0x17d, 0x179, 0xfffd, 0x2018, 0x2019, 0x201c, 0x201d, 0x2022, 0x2013,
  0x2014, 0xfffd, 0x2122, 0x161, 0x203a, 0x15b, 0x165, 0x17e, 0x17a, 0xa0, 0x2c7, 0x2d8, 0x141,
  0xa4, 0x104, 0xa6, 0xa7, 0xa8, 0xa9, 0x15e, 0xab, 0xac, 0xad, 0xae, 0x17b, 0xb0, 0xb1, 0x2db,
  0x142, 0xb4, 0xb5, 0xb6, 0xb7, 0xb8, 0x105, 0x15f, 0xbb, 0x13d, 0x2dd, 0x13e, 0x17c, 0x154,
  0xc1, 0xc2, 0x102, 0xc4, 0x139, 0x106, 0xc7, 0x10c, 0xc9, 0x118, 0xcb, 0x11a, 0xcd, 0xce,
  0x10e, 0x110, 0x143, 0x147, 0xd3, 0xd4, 0x150, 0xd6, 0xd7, 0x158, 0x16e, 0xda, 0x170, 0xdc,
  0xdd, 0x162, 0xdf, 0x155, 0xe1, 0xe2, 0x103, 0xe4, 0x13a, 0x107, 0xe7, 0x10d, 0xe9, 0x119,
  0xeb, 0x11b, 0xed, 0xee, 0x10f, 0x111, 0x144, 0x148, 0xf3, 0xf4, 0x151, 0xf6, 0xf7, 0x159,
  0x16f, 0xfa, 0x171, 0xfc, 0xfd, 0x163, 0x2d9]

/-- `ENCODE_TABLE` as (code point, byte).
src/generated/single_byte/windows-cp1250_tables.rs.inc:39-71 -/
def windows_1250_encode : List (Nat × Nat) := [
  (0xa0, 0xa0), (0xa4, 0xa4), (0xa6, 0xa6), (0xa7, 0xa7), (0xa8, 0xa8), (0xa9, 0xa9),
  (0xab, 0xab), (0xac, 0xac), (0xad, 0xad), (0xae, 0xae), (0xb0, 0xb0), (0xb1, 0xb1),
  (0xb4, 0xb4), (0xb5, 0xb5), (0xb6, 0xb6), (0xb7, 0xb7), (0xb8, 0xb8), (0xbb, 0xbb),
  (0xc1, 0xc1), (0xc2, 0xc2), (0xc4, 0xc4), (0xc7, 0xc7), (0xc9, 0xc9), (0xcb, 0xcb),
  (0xcd, 0xcd), (0xce, 0xce), (0xd3, 0xd3), (0xd4, 0xd4), (0xd6, 0xd6), (0xd7, 0xd7),
  (0xda, 0xda), (0xdc, 0xdc), (0xdd, 0xdd), (0xdf, 0xdf), (0xe1, 0xe1), (0xe2, 0xe2),
  (0xe4, 0xe4), (0xe7, 0xe7), (0xe9, 0xe9), (0xeb, 0xeb), (0xed, 0xed), (0xee, 0xee),
  (0xf3, 0xf3), (0xf4, 0xf4), (0xf6, 0xf6), (0xf7, 0xf7), (0xfa, 0xfa), (0xfc, 0xfc),
  (0xfd, 0xfd), (0x102, 0xc3), (0x103, 0xe3), (0x104, 0xa5), (0x105, 0xb9), (0x106, 0xc6),
  (0x107, 0xe6), (0x10c, 0xc8), (0x10d, 0xe8), (0x10e, 0xcf), (0x10f, 0xef), (0x110, 0xd0),
  (0x111, 0xf0), (0x118, 0xca), (0x119, 0xea), (0x11a, 0xcc), (0x11b, 0xec), (0x139, 0xc5),
  (0x13a, 0xe5), (0x13d, 0xbc), (0x13e, 0xbe), (0x141, 0xa3), (0x142, 0xb3), (0x143, 0xd1),
  (0x144, 0xf1), (0x147, 0xd2), (0x148, 0xf2), (0x150, 0xd5), (0x151, 0xf5), (0x154, 0xc0),
  (0x155, 0xe0), (0x158, 0xd8), (0x159, 0xf8), (0x15a, 0x8c), (0x15b, 0x9c), (0x15e, 0xaa),
  (0x15f, 0xba), (0x160, 0x8a), (0x161, 0x9a), (0x162, 0xde), (0x163, 0xfe), (0x164, 0x8d),
  (0x165, 0x9d), (0x16e, 0xd9), (0x16f, 0xf9), (0x170, 0xdb), (0x171, 0xfb), (0x179, 0x8f),
  (0x17a, 0x9f), (0x17b, 0xaf), (0x17c, 0xbf), (0x17d, 0x8e), (0x17e, 0x9e), (0x2c7, 0xa1),
  (0x2d8, 0xa2), (0x2d9, 0xff), (0x2db, 0xb2), (0x2dd, 0xbd), (0x2013, 0x96), (0x2014, 0x97),
  (0x2018, 0x91), (0x2019, 0x92), (0x201a, 0x82), (0x201c, 0x93), (0x201d, 0x94),
  (0x201e, 0x84), (0x2020, 0x86), (0x2021, 0x87), (0x2022, 0x95), (0x2026, 0x85),
  (0x2030, 0x89), (0x2039, 0x8b), (0x203a, 0x9b), (0x20ac, 0x80), (0x2122, 0x99)]

/-- Code points of `DECODE_TABLE` (0xFFFD is the literal `'�'`, "undefined").
src/generated/single_byte/windows-cp1251_tables.rs.inc:20-37 -/
def windows_1251_decode : List Nat := [
  0x402, 0x403, 0x201a, 0x453, 0x201e, 0x2026, 0x2020, 0x2021, 0x20ac, 0x2030, 0x409, 0x2039,
  0x40a, 0x40c, 0x40b, 0x40f, 0x452, 0x2018, 0x2019, 0x201c, 0x201d, 0x2022, 0x2013, 0x2014,
  0xfffd, 0x2122, 0x459, 0x203a, 0x45a, 0x45c, 0x45b, 0x45f, 0xa0, 0x40e, 0x45e, 0x408, 0xa4,
  0x490, 0xa6, 0xa7, 0x401, 0xa9, 0x404, 0xab, 0xac, 0xad, 0xae, 0x407, 0xb0, 0xb1, 0x406,
  0x456, 0x491, 0xb5, 0xb6, 0xb7, 0x451, 0x2116, 0x454, 0xbb, 0x458, 0x405, 0x455, 0x457,
  0x410, 0x411, 0x412, 0x413, 0x414, 0x415, 0x416, 0x417, 0x418, 0x419, 0x41a, 0x41b, 0x41c,
  0x41d, 0x41e, 0x41f, 0x420, 0x421, 0x422, 0x423, 0x424, 0x425, 0x426, 0x427, 0x428, 0x429,
  0x42a, 0x42b, 0x42c, 0x42d, 0x42e, 0x42f, 0x430, 0x431, 0x432, 0x433, 0x434, 0x435, 0x436,
  0x437, 0x438, 0x439, 0x43a, 0x43b, 0x43c, 0x43d, 0x43e, 0x43f, 0x440, 0x441, 0x442, 0x443,
  0x444, 0x445, 0x446, 0x447, 0x448, 0x449, 0x44a, 0x44b, 0x44c, 0x44d, 0x44e, 0x44f]

/-- `ENCODE_TABLE` as (code point, byte).
src/generated/single_byte/windows-cp1251_tables.rs.inc:39-72 -/
def windows_1251_encode : List (Nat × Nat) := [
  (0xa0, 0xa0), (0xa4, 0xa4), (0xa6, 0xa6), (0xa7, 0xa7), (0xa9, 0xa9), (0xab, 0xab),
  (0xac, 0xac), (0xad, 0xad), (0xae, 0xae), (0xb0, 0xb0), (0xb1, 0xb1), (0xb5, 0xb5),
  (0xb6, 0xb6), (0xb7, 0xb7), (0xbb, 0xbb), (0x401, 0xa8), (0x402, 0x80), (0x403, 0x81),
  (0x404, 0xaa), (0x405, 0xbd), (0x406, 0xb2), (0x407, 0xaf), (0x408, 0xa3), (0x409, 0x8a),
  (0x40a, 0x8c), (0x40b, 0x8e), (0x40c, 0x8d), (0x40e, 0xa1), (0x40f, 0x8f), (0x410, 0xc0),
  (0x411, 0xc1), (0x412, 0xc2), (0x413, 0xc3), (0x414, 0xc4), (0x415, 0xc5), (0x416, 0xc6),
  (0x417, 0xc7), (0x418, 0xc8), (0x419, 0xc9), (0x41a, 0xca), (0x41b, 0xcb), (0x41c, 0xcc),
  (0x41d, 0xcd), (0x41e, 0xce), (0x41f, 0xcf), (0x420, 0xd0), (0x421, 0xd1), (0x422, 0xd2),
  (0x423, 0xd3), (0x424, 0xd4), (0x425, 0xd5), (0x426, 0xd6), (0x427, 0xd7), (0x428, 0xd8),
  (0x429, 0xd9), (0x42a, 0xda), (0x42b, 0xdb), (0x42c, 0xdc), (0x42d, 0xdd), (0x42e, 0xde),
  (0x42f, 0xdf), (0x430, 0xe0), (0x431, 0xe1), (0x432, 0xe2), (0x433, 0xe3), (0x434, 0xe4),
  (0x435, 0xe5), (0x436, 0xe6), (0x437, 0xe7), (0x438, 0xe8), (0x439, 0xe9), (0x43a, 0xea),
  (0x43b, 0xeb), (0x43c, 0xec), (0x43d, 0xed), (0x43e, 0xee), (0x43f, 0xef), (0x440, 0xf0),
  (0x441, 0xf1), (0x442, 0xf2), (0x443, 0xf3), (0x444, 0xf4), (0x445, 0xf5), (0x446, 0xf6),
  (0x447, 0xf7), (0x448, 0xf8), (0x449, 0xf9), (0x44a, 0xfa), (0x44b, 0xfb), (0x44c, 0xfc),
  (0x44d, 0xfd), (0x44e, 0xfe), (0x44f, 0xff), (0x451, 0xb8), (0x452, 0x90), (0x453, 0x83),
  (0x454, 0xba), (0x455, 0xbe), (0x456, 0xb3), (0x457, 0xbf), (0x458, 0xbc), (0x459, 0x9a),
  (0x45a, 0x9c), (0x45b, 0x9e), (0x45c, 0x9d), (0x45e, 0xa2), (0x45f, 0x9f), (0x490, 0xa5),
  (0x491, 0xb4), (0x2013, 0x96), (0x2014, 0x97), (0x2018, 0x91), (0x2019, 0x92),
  (0x201a, 0x82), (0x201c, 0x93), (0x201d, 0x94), (0x201e, 0x84), (0x2020, 0x86),
  (0x2021, 0x87), (0x2022, 0x95), (0x2026, 0x85), (0x2030, 0x89), (0x2039, 0x8b),
  (0x203a, 0x9b), (0x20ac, 0x88), (0x2116, 0xb9), (0x2122, 0x99)]

/-- Code points of `DECODE_TABLE` (0xFFFD is the literal `'�'`, "undefined").
src/generated/single_byte/windows-cp1252_tables.rs.inc:20-37 -/
def windows_1252_decode : List Nat := [
  0x20ac, 0xfffd, 0x201a, 0x192, 0x201e, 0x2026, 0x2020, 0x2021, 0x2c6, 0x2030, 0x160, 0x2039,
  0x152, 0xfffd, 0x17d, 0xfffd, 0xfffd, 0x2018, 0x2019, 0x201c, 0x201d, 0x2022, 0x2013, 0x2014,
  0x2dc, 0x2122, 0x161, 0x203a, 0x153, 0xfffd, 0x17e, 0x178, 0xa0, 0xa1, 0xa2, 0xa3, 0xa4,
  0xa5, 0xa6, 0xa7, 0xa8, 0xa9, 0xaa, 0xab, 0xac, 0xad, 0xae, 0xaf, 0xb0, 0xb1, 0xb2, 0xb3,
  0xb4, 0xb5, 0xb6, 0xb7, 0xb8, 0xb9, 0xba, 0xbb, 0xbc, 0xbd, 0xbe, 0xbf, 0xc0, 0xc1, 0xc2,
  0xc3, 0xc4, 0xc5, 0xc6, 0xc7, 0xc8, 0xc9, 0xca, 0xcb, 0xcc, 0xcd, 0xce, 0xcf, 0xd0, 0xd1,
  0xd2, 0xd3, 0xd4, 0xd5, 0xd6, 0xd7, 0xd8, 0xd9, 0xda, 0xdb, 0xdc, 0xdd, 0xde, 0xdf, 0xe0,
  0xe1, 0xe2, 0xe3, 0xe4, 0xe5, 0xe6, 0xe7, 0xe8, 0xe9, 0xea, 0xeb, 0xec, 0xed, 0xee, 0xef,
  0xf0, 0xf1, 0xf2, 0xf3, 0xf4, 0xf5, 0xf6, 0xf7, 0xf8, 0xf9, 0xfa, 0xfb, 0xfc, 0xfd, 0xfe, 0xff]

/-- `ENCODE_TABLE` as (code point, byte).
src/generated/single_byte/windows-cp1252_tables.rs.inc:39-71 -/
def windows_1252_encode : List (Nat × Nat) := [
  (0xa0, 0xa0), (0xa1, 0xa1), (0xa2, 0xa2), (0xa3, 0xa3), (0xa4, 0xa4), (0xa5, 0xa5),
  (0xa6, 0xa6), (0xa7, 0xa7), (0xa8, 0xa8), (0xa9, 0xa9), (0xaa, 0xaa), (0xab, 0xab),
  (0xac, 0xac), (0xad, 0xad), (0xae, 0xae), (0xaf, 0xaf), (0xb0, 0xb0), (0xb1, 0xb1),
  (0xb2, 0xb2), (0xb3, 0xb3), (0xb4, 0xb4), (0xb5, 0xb5), (0xb6, 0xb6), (0xb7, 0xb7),
  (0xb8, 0xb8), (0xb9, 0xb9), (0xba, 0xba), (0xbb, 0xbb), (0xbc, 0xbc), (0xbd, 0xbd),
  (0xbe, 0xbe), (0xbf, 0xbf), (0xc0, 0xc0), (0xc1, 0xc1), (0xc2, 0xc2), (0xc3, 0xc3),
  (0xc4, 0xc4), (0xc5, 0xc5), (0xc6, 0xc6), (0xc7, 0xc7), (0xc8, 0xc8), (0xc9, 0xc9),
  (0xca, 0xca), (0xcb, 0xcb), (0xcc, 0xcc), (0xcd, 0xcd), (0xce, 0xce), (0xcf, 0xcf),
  (0xd0, 0xd0), (0xd1, 0xd1), (0xd2, 0xd2), (0xd3, 0xd3), (0xd4, 0xd4), (0xd5, 0xd5),
  (0xd6, 0xd6), (0xd7, 0xd7), (0xd8, 0xd8), (0xd9, 0xd9), (0xda, 0xda), (0xdb, 0xdb),
  (0xdc, 0xdc), (0xdd, 0xdd), (0xde, 0xde), (0xdf, 0xdf), (0xe0, 0xe0), (0xe1, 0xe1),
  (0xe2, 0xe2), (0xe3, 0xe3), (0xe4, 0xe4), (0xe5, 0xe5), (0xe6, 0xe6), (0xe7, 0xe7),
  (0xe8, 0xe8), (0xe9, 0xe9), (0xea, 0xea), (0xeb, 0xeb), (0xec, 0xec), (0xed, 0xed),
  (0xee, 0xee), (0xef, 0xef), (0xf0, 0xf0), (0xf1, 0xf1), (0xf2, 0xf2), (0xf3, 0xf3),
  (0xf4, 0xf4), (0xf5, 0xf5), (0xf6, 0xf6), (0xf7, 0xf7), (0xf8, 0xf8), (0xf9, 0xf9),
  (0xfa, 0xfa), (0xfb, 0xfb), (0xfc, 0xfc), (0xfd, 0xfd), (0xfe, 0xfe), (0xff, 0xff),
  (0x152, 0x8c), (0x153, 0x9c), (0x160, 0x8a), (0x161, 0x9a), (0x178, 0x9f), (0x17d, 0x8e),
  (0x17e, 0x9e), (0x192, 0x83), (0x2c6, 0x88), (0x2dc, 0x98), (0x2013, 0x96), (0x2014, 0x97),
  (0x2018, 0x91), (0x2019, 0x92), (0x201a, 0x82), (0x201c, 0x93), (0x201d, 0x94),
  (0x201e, 0x84), (0x2020, 0x86), (0x2021, 0x87), (0x2022, 0x95), (0x2026, 0x85),
  (0x2030, 0x89), (0x2039, 0x8b), (0x203a, 0x9b), (0x20ac, 0x80), (0x2122, 0x99)]

/-- Code points of `DECODE_TABLE` (0xFFFD is the literal `'�'`, "undefined").
src/generated/single_byte/windows-cp1253_tables.rs.inc:20-37 -/
def windows_1253_decode : List Nat := [
  0x20ac, 0xfffd, 0x201a, 0x192, 0x201e, 0x2026, 0x2020, 0x2021, 0xfffd, 0x2030, 0xfffd,
  0x2039, 0xfffd, 0xfffd, 0xfffd, 0xfffd, 0xfffd, 0x2018, 0x2019, 0x201c, 0x201d, 0x2022,
  0x2013, 0x2014, 0xfffd, 0x2122, 0xfffd, 0x203a, 0xfffd, 0xfffd, 0xfffd, 0xfffd, 0xa0, 0x385,
  0x386, 0xa3, 0xa4, 0xa5, 0xa6, 0xa7, 0xa8, 0xa9, 0xfffd, 0xab, 0xac, 0xad, 0xae, 0x2015,
  0xb0, 0xb1, 0xb2, 0xb3, 0x384, 0xb5, 0xb6, 0xb7, 0x388, 0x389, 0x38a, 0xbb, 0x38c, 0xbd,
  0x38e, 0x38f, 0x390, 0x391, 0x392, 0x393, 0x394, 0x395, 0x396, 0x397, 0x398, 0x399, 0x39a,
  0x39b, 0x39c, 0x39d, 0x39e, 0x39f, 0x3a0, 0x3a1, 0xfffd, 0x3a3, 0x3a4, 0x3a5, 0x3a6, 0x3a7,
  0x3a8, 0x3a9, 0x3aa, 0x3ab, 0x3ac, 0x3ad, 0x3ae, 0x3af, 0x3b0, 0x3b1, 0x3b2, 0x3b3, 0x3b4,
  0x3b5, 0x3b6, 0x3b7, 0x3b8, 0x3b9, 0x3ba, 0x3bb, 0x3bc, 0x3bd, 0x3be, 0x3bf, 0x3c0, 0x3c1,
  0x3c2, 0x3c3, 0x3c4, 0x3c5, 0x3c6, 0x3c7, 0x3c8, 0x3c9, 0x3ca, 0x3cb, 0x3cc, 0x3cd, 0x3ce,
  0xfffd]

/-- `ENCODE_TABLE` as (code point, byte).
src/generated/single_byte/windows-cp1253_tables.rs.inc:39-68 -/
def windows_1253_encode : List (Nat × Nat) := [
  (0xa0, 0xa0), (0xa3, 0xa3), (0xa4, 0xa4), (0xa5, 0xa5), (0xa6, 0xa6), (0xa7, 0xa7),
  (0xa8, 0xa8), (0xa9, 0xa9), (0xab, 0xab), (0xac, 0xac), (0xad, 0xad), (0xae, 0xae),
  (0xb0, 0xb0), (0xb1, 0xb1), (0xb2, 0xb2), (0xb3, 0xb3), (0xb5, 0xb5), (0xb6, 0xb6),
  (0xb7, 0xb7), (0xbb, 0xbb), (0xbd, 0xbd), (0x192, 0x83), (0x384, 0xb4), (0x385, 0xa1),
  (0x386, 0xa2), (0x388, 0xb8), (0x389, 0xb9), (0x38a, 0xba), (0x38c, 0xbc), (0x38e, 0xbe),
  (0x38f, 0xbf), (0x390, 0xc0), (0x391, 0xc1), (0x392, 0xc2), (0x393, 0xc3), (0x394, 0xc4),
  (0x395, 0xc5), (0x396, 0xc6), (0x397, 0xc7), (0x398, 0xc8), (0x399, 0xc9), (0x39a, 0xca),
  (0x39b, 0xcb), (0x39c, 0xcc), (0x39d, 0xcd), (0x39e, 0xce), (0x39f, 0xcf), (0x3a0, 0xd0),
  (0x3a1, 0xd1), (0x3a3, 0xd3), (0x3a4, 0xd4), (0x3a5, 0xd5), (0x3a6, 0xd6), (0x3a7, 0xd7),
  (0x3a8, 0xd8), (0x3a9, 0xd9), (0x3aa, 0xda), (0x3ab, 0xdb), (0x3ac, 0xdc), (0x3ad, 0xdd),
  (0x3ae, 0xde), (0x3af, 0xdf), (0x3b0, 0xe0), (0x3b1, 0xe1), (0x3b2, 0xe2), (0x3b3, 0xe3),
  (0x3b4, 0xe4), (0x3b5, 0xe5), (0x3b6, 0xe6), (0x3b7, 0xe7), (0x3b8, 0xe8), (0x3b9, 0xe9),
  (0x3ba, 0xea), (0x3bb, 0xeb), (0x3bc, 0xec), (0x3bd, 0xed), (0x3be, 0xee), (0x3bf, 0xef),
  (0x3c0, 0xf0), (0x3c1, 0xf1), (0x3c2, 0xf2), (0x3c3, 0xf3), (0x3c4, 0xf4), (0x3c5, 0xf5),
  (0x3c6, 0xf6), (0x3c7, 0xf7), (0x3c8, 0xf8), (0x3c9, 0xf9), (0x3ca, 0xfa), (0x3cb, 0xfb),
  (0x3cc, 0xfc), (0x3cd, 0xfd), (0x3ce, 0xfe), (0x2013, 0x96), (0x2014, 0x97), (0x2015, 0xaf),
  (0x2018, 0x91), (0x2019, 0x92), (0x201a, 0x82), (0x201c, 0x93), (0x201d, 0x94),
  (0x201e, 0x84), (0x2020, 0x86), (0x2021, 0x87), (0x2022, 0x95), (0x2026, 0x85),
  (0x2030, 0x89), (0x2039, 0x8b), (0x203a, 0x9b), (0x20ac, 0x80), (0x2122, 0x99)]

/-- Code points of `DECODE_TABLE` (0xFFFD is the literal `'�'`, "undefined").
src/generated/single_byte/windows-cp1254_tables.rs.inc:20-37 -/
def windows_1254_decode : List Nat := [
  0x20ac, 0xfffd, 0x201a, 0x192, 0x201e, 0x2026, 0x2020, 0x2021, 0x2c6, 0x2030, 0x160, 0x2039,
  0x152, 0xfffd, 0xfffd, 0xfffd, 0xfffd, 0x2018, 0x2019, 0x201c, 0x201d, 0x2022, 0x2013,
  0x2014, 0x2dc, 0x2122, 0x161, 0x203a, 0x153, 0xfffd, 0xfffd, 0x178, 0xa0, 0xa1, 0xa2, 0xa3,
  0xa4, 0xa5, 0xa6, 0xa7, 0xa8, 0xa9, 0xaa, 0xab, 0xac, 0xad, 0xae, 0xaf, 0xb0, 0xb1, 0xb2,
  0xb3, 0xb4, 0xb5, 0xb6, 0xb7, 0xb8, 0xb9, 0xba, 0xbb, 0xbc, 0xbd, 0xbe, 0xbf, 0xc0, 0xc1,
  0xc2, 0xc3, 0xc4, 0xc5, 0xc6, 0xc7, 0xc8, 0xc9, 0xca, 0xcb, 0xcc, 0xcd, 0xce, 0xcf, 0x11e,
  0xd1, 0xd2, 0xd3, 0xd4, 0xd5, 0xd6, 0xd7, 0xd8, 0xd9, 0xda, 0xdb, 0xdc, 0x130, 0x15e, 0xdf,
  0xe0, 0xe1, 0xe2, 0xe3, 0xe4, 0xe5, 0xe6, 0xe7, 0xe8, 0xe9, 0xea, 0xeb, 0xec, 0xed, 0xee,
  0xef, 0x11f, 0xf1, 0xf2, 0xf3, 0xf4, 0xf5, 0xf6, 0xf7, 0xf8, 0xf9, 0xfa, 0xfb, 0xfc, 0x131,
  0x15f, 0xff]

/-- `ENCODE_TABLE` as (code point, byte).
src/generated/single_byte/windows-cp1254_tables.rs.inc:39-71 -/
def windows_1254_encode : List (Nat × Nat) := [
  (0xa0, 0xa0), (0xa1, 0xa1), (0xa2, 0xa2), (0xa3, 0xa3), (0xa4, 0xa4), (0xa5, 0xa5),
  (0xa6, 0xa6), (0xa7, 0xa7), (0xa8, 0xa8), (0xa9, 0xa9), (0xaa, 0xaa), (0xab, 0xab),
  (0xac, 0xac), (0xad, 0xad), (0xae, 0xae), (0xaf, 0xaf), (0xb0, 0xb0), (0xb1, 0xb1),
  (0xb2, 0xb2), (0xb3, 0xb3), (0xb4, 0xb4), (0xb5, 0xb5), (0xb6, 0xb6), (0xb7, 0xb7),
  (0xb8, 0xb8), (0xb9, 0xb9), (0xba, 0xba), (0xbb, 0xbb), (0xbc, 0xbc), (0xbd, 0xbd),
  (0xbe, 0xbe), (0xbf, 0xbf), (0xc0, 0xc0), (0xc1, 0xc1), (0xc2, 0xc2), (0xc3, 0xc3),
  (0xc4, 0xc4), (0xc5, 0xc5), (0xc6, 0xc6), (0xc7, 0xc7), (0xc8, 0xc8), (0xc9, 0xc9),
  (0xca, 0xca), (0xcb, 0xcb), (0xcc, 0xcc), (0xcd, 0xcd), (0xce, 0xce), (0xcf, 0xcf),
  (0xd1, 0xd1), (0xd2, 0xd2), (0xd3, 0xd3), (0xd4, 0xd4), (0xd5, 0xd5), (0xd6, 0xd6),
  (0xd7, 0xd7), (0xd8, 0xd8), (0xd9, 0xd9), (0xda, 0xda), (0xdb, 0xdb), (0xdc, 0xdc),
  (0xdf, 0xdf), (0xe0, 0xe0), (0xe1, 0xe1), (0xe2, 0xe2), (0xe3, 0xe3), (0xe4, 0xe4),
  (0xe5, 0xe5), (0xe6, 0xe6), (0xe7, 0xe7), (0xe8, 0xe8), (0xe9, 0xe9), (0xea, 0xea),
  (0xeb, 0xeb), (0xec, 0xec), (0xed, 0xed), (0xee, 0xee), (0xef, 0xef), (0xf1, 0xf1),
  (0xf2, 0xf2), (0xf3, 0xf3), (0xf4, 0xf4), (0xf5, 0xf5), (0xf6, 0xf6), (0xf7, 0xf7),
  (0xf8, 0xf8), (0xf9, 0xf9), (0xfa, 0xfa), (0xfb, 0xfb), (0xfc, 0xfc), (0xff, 0xff),
  (0x11e, 0xd0), (0x11f, 0xf0), (0x130, 0xdd), (0x131, 0xfd), (0x152, 0x8c), (0x153, 0x9c),
  (0x15e, 0xde), (0x15f, 0xfe), (0x160, 0x8a), (0x161, 0x9a), (0x178, 0x9f), (0x192, 0x83),
  (0x2c6, 0x88), (0x2dc, 0x98), (0x2013, 0x96), (0x2014, 0x97), (0x2018, 0x91), (0x2019, 0x92),
  (0x201a, 0x82), (0x201c, 0x93), (0x201d, 0x94), (0x201e, 0x84), (0x2020, 0x86),
  (0x2021, 0x87), (0x2022, 0x95), (0x2026, 0x85), (0x2030, 0x89), (0x2039, 0x8b),
  (0x203a, 0x9b), (0x20ac, 0x80), (0x2122, 0x99)]

/-- Code points of `DECODE_TABLE` (0xFFFD is the literal `'�'`, "undefined").
src/generated/single_byte/windows-cp1255_tables.rs.inc:20-37 -/
def windows_1255_decode : List Nat := [
  0x20ac, 0xfffd, 0x201a, 0x192, 0x201e, 0x2026, 0x2020, 0x2021, 0x2c6, 0x2030, 0xfffd, 0x2039,
  0xfffd, 0xfffd, 0xfffd, 0xfffd, 0xfffd, 0x2018, 0x2019, 0x201c, 0x201d, 0x2022, 0x2013,
  0x2014, 0x2dc, 0x2122, 0xfffd, 0x203a, 0xfffd, 0xfffd, 0xfffd, 0xfffd, 0xa0, 0xa1, 0xa2,
  0xa3, 0x20aa, 0xa5, 0xa6, 0xa7, 0xa8, 0xa9, 0xd7, 0xab, 0xac, 0xad, 0xae, 0xaf, 0xb0, 0xb1,
  0xb2, 0xb3, 0xb4, 0xb5, 0xb6, 0xb7, 0xb8, 0xb9, 0xf7, 0xbb, 0xbc, 0xbd, 0xbe, 0xbf, 0x5b0,
  0x5b1, 0x5b2, 0x5b3, 0x5b4, 0x5b5, 0x5b6, 0x5b7, 0x5b8, 0x5b9, 0xfffd, 0x5bb, 0x5bc, 0x5bd,
  0x5be, 0x5bf, 0x5c0, 0x5c1, 0x5c2, 0x5c3, 0x5f0, 0x5f1, 0x5f2, 0x5f3, 0x5f4, 0xfffd, 0xfffd,
  0xfffd, 0xfffd, 0xfffd, 0xfffd, 0xfffd, 0x5d0, 0x5d1, 0x5d2, 0x5d3, 0x5d4, 0x5d5, 0x5d6,
  0x5d7, 0x5d8, 0x5d9, 0x5da, 0x5db, 0x5dc, 0x5dd, 0x5de, 0x5df, 0x5e0, 0x5e1, 0x5e2, 0x5e3,
  0x5e4, 0x5e5, 0x5e6, 0x5e7, 0x5e8, 0x5e9, 0x5ea, 0xfffd, 0xfffd, 0x200e, 0x200f, 0xfffd]

/-- `ENCODE_TABLE` as (code point, byte).
src/generated/single_byte/windows-cp1255_tables.rs.inc:39-67 -/
def windows_1255_encode : List (Nat × Nat) := [
  (0xa0, 0xa0), (0xa1, 0xa1), (0xa2, 0xa2), (0xa3, 0xa3), (0xa5, 0xa5), (0xa6, 0xa6),
  (0xa7, 0xa7), (0xa8, 0xa8), (0xa9, 0xa9), (0xab, 0xab), (0xac, 0xac), (0xad, 0xad),
  (0xae, 0xae), (0xaf, 0xaf), (0xb0, 0xb0), (0xb1, 0xb1), (0xb2, 0xb2), (0xb3, 0xb3),
  (0xb4, 0xb4), (0xb5, 0xb5), (0xb6, 0xb6), (0xb7, 0xb7), (0xb8, 0xb8), (0xb9, 0xb9),
  (0xbb, 0xbb), (0xbc, 0xbc), (0xbd, 0xbd), (0xbe, 0xbe), (0xbf, 0xbf), (0xd7, 0xaa),
  (0xf7, 0xba), (0x192, 0x83), (0x2c6, 0x88), (0x2dc, 0x98), (0x5b0, 0xc0), (0x5b1, 0xc1),
  (0x5b2, 0xc2), (0x5b3, 0xc3), (0x5b4, 0xc4), (0x5b5, 0xc5), (0x5b6, 0xc6), (0x5b7, 0xc7),
  (0x5b8, 0xc8), (0x5b9, 0xc9), (0x5bb, 0xcb), (0x5bc, 0xcc), (0x5bd, 0xcd), (0x5be, 0xce),
  (0x5bf, 0xcf), (0x5c0, 0xd0), (0x5c1, 0xd1), (0x5c2, 0xd2), (0x5c3, 0xd3), (0x5d0, 0xe0),
  (0x5d1, 0xe1), (0x5d2, 0xe2), (0x5d3, 0xe3), (0x5d4, 0xe4), (0x5d5, 0xe5), (0x5d6, 0xe6),
  (0x5d7, 0xe7), (0x5d8, 0xe8), (0x5d9, 0xe9), (0x5da, 0xea), (0x5db, 0xeb), (0x5dc, 0xec),
  (0x5dd, 0xed), (0x5de, 0xee), (0x5df, 0xef), (0x5e0, 0xf0), (0x5e1, 0xf1), (0x5e2, 0xf2),
  (0x5e3, 0xf3), (0x5e4, 0xf4), (0x5e5, 0xf5), (0x5e6, 0xf6), (0x5e7, 0xf7), (0x5e8, 0xf8),
  (0x5e9, 0xf9), (0x5ea, 0xfa), (0x5f0, 0xd4), (0x5f1, 0xd5), (0x5f2, 0xd6), (0x5f3, 0xd7),
  (0x5f4, 0xd8), (0x200e, 0xfd), (0x200f, 0xfe), (0x2013, 0x96), (0x2014, 0x97),
  (0x2018, 0x91), (0x2019, 0x92), (0x201a, 0x82), (0x201c, 0x93), (0x201d, 0x94),
  (0x201e, 0x84), (0x2020, 0x86), (0x2021, 0x87), (0x2022, 0x95), (0x2026, 0x85),
  (0x2030, 0x89), (0x2039, 0x8b), (0x203a, 0x9b), (0x20aa, 0xa4), (0x20ac, 0x80), (0x2122, 0x99)]

/-- Code points of `DECODE_TABLE` (0xFFFD is the literal `'�'`, "undefined").
src/generated/single_byte/windows-cp1256_tables.rs.inc:20-37 -/
def windows_1256_decode : List Nat := [
  0x20ac, 0x67e, 0x201a, 0x192, 0x201e, 0x2026, 0x2020, 0x2021, 0x2c6, 0x2030, 0x679, 0x2039,
  0x152, 0x686, 0x698, 0x688, 0x6af, 0x2018, 0x2019, 0x201c, 0x201d, 0x2022, 0x2013, 0x2014,
  0x6a9, 0x2122, 0x691, 0x203a, 0x153, 0x200c, 0x200d, 0x6ba, 0xa0, 0x60c, 0xa2, 0xa3, 0xa4,
  0xa5, 0xa6, 0xa7, 0xa8, 0xa9, 0x6be, 0xab, 0xac, 0xad, 0xae, 0xaf, 0xb0, 0xb1, 0xb2, 0xb3,
  0xb4, 0xb5, 0xb6, 0xb7, 0xb8, 0xb9, 0x61b, 0xbb, 0xbc, 0xbd, 0xbe, 0x61f, 0x6c1, 0x621,
  0x622, 0x623, 0x624, 0x625, 0x626, 0x627, 0x628, 0x629, 0x62a, 0x62b, 0x62c, 0x62d, 0x62e,
  0x62f, 0x630, 0x631, 0x632, 0x633, 0x634, 0x635, 0x636, 0xd7, 0x637, 0x638, 0x639, 0x63a,
  0x640, 0x641, 0x642, 0x643, 0xe0, 0x644, 0xe2, 0x645, 0x646, 0x647, 0x648, 0xe7, 0xe8, 0xe9,
  0xea, 0xeb, 0x649, 0x64a, 0xee, 0xef, 0x64b, 0x64c, 0x64d, 0x64e, 0xf4, 0x64f, 0x650, 0xf7,
  0x651, 0xf9, 0x652, 0xfb, 0xfc, 0x200e, 0x200f, 0x6d2]

/-- `ENCODE_TABLE` as (code point, byte).
src/generated/single_byte/windows-cp1256_tables.rs.inc:39-72 -/
def windows_1256_encode : List (Nat × Nat) := [
  (0xa0, 0xa0), (0xa2, 0xa2), (0xa3, 0xa3), (0xa4, 0xa4), (0xa5, 0xa5), (0xa6, 0xa6),
  (0xa7, 0xa7), (0xa8, 0xa8), (0xa9, 0xa9), (0xab, 0xab), (0xac, 0xac), (0xad, 0xad),
  (0xae, 0xae), (0xaf, 0xaf), (0xb0, 0xb0), (0xb1, 0xb1), (0xb2, 0xb2), (0xb3, 0xb3),
  (0xb4, 0xb4), (0xb5, 0xb5), (0xb6, 0xb6), (0xb7, 0xb7), (0xb8, 0xb8), (0xb9, 0xb9),
  (0xbb, 0xbb), (0xbc, 0xbc), (0xbd, 0xbd), (0xbe, 0xbe), (0xd7, 0xd7), (0xe0, 0xe0),
  (0xe2, 0xe2), (0xe7, 0xe7), (0xe8, 0xe8), (0xe9, 0xe9), (0xea, 0xea), (0xeb, 0xeb),
  (0xee, 0xee), (0xef, 0xef), (0xf4, 0xf4), (0xf7, 0xf7), (0xf9, 0xf9), (0xfb, 0xfb),
  (0xfc, 0xfc), (0x152, 0x8c), (0x153, 0x9c), (0x192, 0x83), (0x2c6, 0x88), (0x60c, 0xa1),
  (0x61b, 0xba), (0x61f, 0xbf), (0x621, 0xc1), (0x622, 0xc2), (0x623, 0xc3), (0x624, 0xc4),
  (0x625, 0xc5), (0x626, 0xc6), (0x627, 0xc7), (0x628, 0xc8), (0x629, 0xc9), (0x62a, 0xca),
  (0x62b, 0xcb), (0x62c, 0xcc), (0x62d, 0xcd), (0x62e, 0xce), (0x62f, 0xcf), (0x630, 0xd0),
  (0x631, 0xd1), (0x632, 0xd2), (0x633, 0xd3), (0x634, 0xd4), (0x635, 0xd5), (0x636, 0xd6),
  (0x637, 0xd8), (0x638, 0xd9), (0x639, 0xda), (0x63a, 0xdb), (0x640, 0xdc), (0x641, 0xdd),
  (0x642, 0xde), (0x643, 0xdf), (0x644, 0xe1), (0x645, 0xe3), (0x646, 0xe4), (0x647, 0xe5),
  (0x648, 0xe6), (0x649, 0xec), (0x64a, 0xed), (0x64b, 0xf0), (0x64c, 0xf1), (0x64d, 0xf2),
  (0x64e, 0xf3), (0x64f, 0xf5), (0x650, 0xf6), (0x651, 0xf8), (0x652, 0xfa), (0x679, 0x8a),
  (0x67e, 0x81), (0x686, 0x8d), (0x688, 0x8f), (0x691, 0x9a), (0x698, 0x8e), (0x6a9, 0x98),
  (0x6af, 0x90), (0x6ba, 0x9f), (0x6be, 0xaa), (0x6c1, 0xc0), (0x6d2, 0xff), (0x200c, 0x9d),
  (0x200d, 0x9e), (0x200e, 0xfd), (0x200f, 0xfe), (0x2013, 0x96), (0x2014, 0x97),
  (0x2018, 0x91), (0x2019, 0x92), (0x201a, 0x82), (0x201c, 0x93), (0x201d, 0x94),
  (0x201e, 0x84), (0x2020, 0x86), (0x2021, 0x87), (0x2022, 0x95), (0x2026, 0x85),
  (0x2030, 0x89), (0x2039, 0x8b), (0x203a, 0x9b), (0x20ac, 0x80), (0x2122, 0x99)]

/-- Code points of `DECODE_TABLE` (0xFFFD is the literal `'�'`, "undefined").
src/generated/single_byte/windows-cp1257_tables.rs.inc:20-37 -/
def windows_1257_decode : List Nat := [
  0x20ac, 0xfffd, 0x201a, 0xfffd, 0x201e, 0x2026, 0x2020, 0x2021, 0xfffd, 0x2030, 0xfffd,
  0x2039, 0xfffd, 0xa8, 0x2c7, 0xb8, 0xfffd, 0x2018, 0x2019, 0x201c, 0x201d, 0x2022, 0x2013,
  0x2014, 0xfffd, 0x2122, 0xfffd, 0x203a, 0xfffd, 0xaf, 0x2db, 0xfffd, 0xa0, 0xfffd, 0xa2,
  0xa3, 0xa4, 0xfffd, 0xa6, 0xa7, 0xd8, 0xa9, 0x156, 0xab, 0xac, 0xad, 0xae, 0xc6, 0xb0, 0xb1,
  0xb2, 0xb3, 0xb4, 0xb5, 0xb6, 0xb7, 0xf8, 0xb9, 0x157, 0xbb, 0xbc, 0xbd, 0xbe, 0xe6, 0x104,
  0x12e, 0x100, 0x106, 0xc4, 0xc5, 0x118, 0x112, 0x10c, 0xc9, 0x179, 0x116, 0x122, 0x136,
  0x12a, 0x13b, 0x160, 0x143, 0x145, 0xd3, 0x14c, 0xd5, 0xd6, 0xd7, 0x172, 0x141, 0x15a, 0x16a,
  0xdc, 0x17b, 0x17d, 0xdf, 0x105, 0x12f, 0x101, 0x107, 0xe4, 0xe5, 0x119, 0x113, 0x10d, 0xe9,
  0x17a, 0x117, 0x123, 0x137, 0x12b, 0x13c, 0x161, 0x144, 0x146, 0xf3, 0x14d, 0xf5, 0xf6, 0xf7,
  0x173, 0x142, 0x15b, 0x16b, 0xfc, 0x17c, 0x17e, 0x2d9]

/-- `ENCODE_TABLE` as (code point, byte).
src/generated/single_byte/windows-cp1257_tables.rs.inc:39-69 -/
def windows_1257_encode : List (Nat × Nat) := [
  (0xa0, 0xa0), (0xa2, 0xa2), (0xa3, 0xa3), (0xa4, 0xa4), (0xa6, 0xa6), (0xa7, 0xa7),
  (0xa8, 0x8d), (0xa9, 0xa9), (0xab, 0xab), (0xac, 0xac), (0xad, 0xad), (0xae, 0xae),
  (0xaf, 0x9d), (0xb0, 0xb0), (0xb1, 0xb1), (0xb2, 0xb2), (0xb3, 0xb3), (0xb4, 0xb4),
  (0xb5, 0xb5), (0xb6, 0xb6), (0xb7, 0xb7), (0xb8, 0x8f), (0xb9, 0xb9), (0xbb, 0xbb),
  (0xbc, 0xbc), (0xbd, 0xbd), (0xbe, 0xbe), (0xc4, 0xc4), (0xc5, 0xc5), (0xc6, 0xaf),
  (0xc9, 0xc9), (0xd3, 0xd3), (0xd5, 0xd5), (0xd6, 0xd6), (0xd7, 0xd7), (0xd8, 0xa8),
  (0xdc, 0xdc), (0xdf, 0xdf), (0xe4, 0xe4), (0xe5, 0xe5), (0xe6, 0xbf), (0xe9, 0xe9),
  (0xf3, 0xf3), (0xf5, 0xf5), (0xf6, 0xf6), (0xf7, 0xf7), (0xf8, 0xb8), (0xfc, 0xfc),
  (0x100, 0xc2), (0x101, 0xe2), (0x104, 0xc0), (0x105, 0xe0), (0x106, 0xc3), (0x107, 0xe3),
  (0x10c, 0xc8), (0x10d, 0xe8), (0x112, 0xc7), (0x113, 0xe7), (0x116, 0xcb), (0x117, 0xeb),
  (0x118, 0xc6), (0x119, 0xe6), (0x122, 0xcc), (0x123, 0xec), (0x12a, 0xce), (0x12b, 0xee),
  (0x12e, 0xc1), (0x12f, 0xe1), (0x136, 0xcd), (0x137, 0xed), (0x13b, 0xcf), (0x13c, 0xef),
  (0x141, 0xd9), (0x142, 0xf9), (0x143, 0xd1), (0x144, 0xf1), (0x145, 0xd2), (0x146, 0xf2),
  (0x14c, 0xd4), (0x14d, 0xf4), (0x156, 0xaa), (0x157, 0xba), (0x15a, 0xda), (0x15b, 0xfa),
  (0x160, 0xd0), (0x161, 0xf0), (0x16a, 0xdb), (0x16b, 0xfb), (0x172, 0xd8), (0x173, 0xf8),
  (0x179, 0xca), (0x17a, 0xea), (0x17b, 0xdd), (0x17c, 0xfd), (0x17d, 0xde), (0x17e, 0xfe),
  (0x2c7, 0x8e), (0x2d9, 0xff), (0x2db, 0x9e), (0x2013, 0x96), (0x2014, 0x97), (0x2018, 0x91),
  (0x2019, 0x92), (0x201a, 0x82), (0x201c, 0x93), (0x201d, 0x94), (0x201e, 0x84),
  (0x2020, 0x86), (0x2021, 0x87), (0x2022, 0x95), (0x2026, 0x85), (0x2030, 0x89),
  (0x2039, 0x8b), (0x203a, 0x9b), (0x20ac, 0x80), (0x2122, 0x99)]

/-- Code points of `DECODE_TABLE` (0xFFFD is the literal `'�'`, "undefined").
src/generated/single_byte/windows-cp1258_tables.rs.inc:20-37 -/
def windows_1258_decode : List Nat := [
  0x20ac, 0xfffd, 0x201a, 0x192, 0x201e, 0x2026, 0x2020, 0x2021, 0x2c6, 0x2030, 0xfffd, 0x2039,
  0x152, 0xfffd, 0xfffd, 0xfffd, 0xfffd, 0x2018, 0x2019, 0x201c, 0x201d, 0x2022, 0x2013,
  0x2014, 0x2dc, 0x2122, 0xfffd, 0x203a, 0x153, 0xfffd, 0xfffd, 0x178, 0xa0, 0xa1, 0xa2, 0xa3,
  0xa4, 0xa5, 0xa6, 0xa7, 0xa8, 0xa9, 0xaa, 0xab, 0xac, 0xad, 0xae, 0xaf, 0xb0, 0xb1, 0xb2,
  0xb3, 0xb4, 0xb5, 0xb6, 0xb7, 0xb8, 0xb9, 0xba, 0xbb, 0xbc, 0xbd, 0xbe, 0xbf, 0xc0, 0xc1,
  0xc2, 0x102, 0xc4, 0xc5, 0xc6, 0xc7, 0xc8, 0xc9, 0xca, 0xcb, 0x300, 0xcd, 0xce, 0xcf, 0x110,
  0xd1, 0x309, 0xd3, 0xd4, 0x1a0, 0xd6, 0xd7, 0xd8, 0xd9, 0xda, 0xdb, 0xdc, 0x1af, 0x303, 0xdf,
  0xe0, 0xe1, 0xe2, 0x103, 0xe4, 0xe5, 0xe6, 0xe7, 0xe8, 0xe9, 0xea, 0xeb, 0x301, 0xed, 0xee,
  0xef, 0x111, 0xf1, 0x323, 0xf3, 0xf4, 0x1a1, 0xf6, 0xf7, 0xf8, 0xf9, 0xfa, 0xfb, 0xfc, 0x1b0,
  0x20ab, 0xff]

/-- `ENCODE_TABLE` as (code point, byte).
src/generated/single_byte/windows-cp1258_tables.rs.inc:39-70 -/
def windows_1258_encode : List (Nat × Nat) := [
  (0xa0, 0xa0), (0xa1, 0xa1), (0xa2, 0xa2), (0xa3, 0xa3), (0xa4, 0xa4), (0xa5, 0xa5),
  (0xa6, 0xa6), (0xa7, 0xa7), (0xa8, 0xa8), (0xa9, 0xa9), (0xaa, 0xaa), (0xab, 0xab),
  (0xac, 0xac), (0xad, 0xad), (0xae, 0xae), (0xaf, 0xaf), (0xb0, 0xb0), (0xb1, 0xb1),
  (0xb2, 0xb2), (0xb3, 0xb3), (0xb4, 0xb4), (0xb5, 0xb5), (0xb6, 0xb6), (0xb7, 0xb7),
  (0xb8, 0xb8), (0xb9, 0xb9), (0xba, 0xba), (0xbb, 0xbb), (0xbc, 0xbc), (0xbd, 0xbd),
  (0xbe, 0xbe), (0xbf, 0xbf), (0xc0, 0xc0), (0xc1, 0xc1), (0xc2, 0xc2), (0xc4, 0xc4),
  (0xc5, 0xc5), (0xc6, 0xc6), (0xc7, 0xc7), (0xc8, 0xc8), (0xc9, 0xc9), (0xca, 0xca),
  (0xcb, 0xcb), (0xcd, 0xcd), (0xce, 0xce), (0xcf, 0xcf), (0xd1, 0xd1), (0xd3, 0xd3),
  (0xd4, 0xd4), (0xd6, 0xd6), (0xd7, 0xd7), (0xd8, 0xd8), (0xd9, 0xd9), (0xda, 0xda),
  (0xdb, 0xdb), (0xdc, 0xdc), (0xdf, 0xdf), (0xe0, 0xe0), (0xe1, 0xe1), (0xe2, 0xe2),
  (0xe4, 0xe4), (0xe5, 0xe5), (0xe6, 0xe6), (0xe7, 0xe7), (0xe8, 0xe8), (0xe9, 0xe9),
  (0xea, 0xea), (0xeb, 0xeb), (0xed, 0xed), (0xee, 0xee), (0xef, 0xef), (0xf1, 0xf1),
  (0xf3, 0xf3), (0xf4, 0xf4), (0xf6, 0xf6), (0xf7, 0xf7), (0xf8, 0xf8), (0xf9, 0xf9),
  (0xfa, 0xfa), (0xfb, 0xfb), (0xfc, 0xfc), (0xff, 0xff), (0x102, 0xc3), (0x103, 0xe3),
  (0x110, 0xd0), (0x111, 0xf0), (0x152, 0x8c), (0x153, 0x9c), (0x178, 0x9f), (0x192, 0x83),
  (0x1a0, 0xd5), (0x1a1, 0xf5), (0x1af, 0xdd), (0x1b0, 0xfd), (0x2c6, 0x88), (0x2dc, 0x98),
  (0x300, 0xcc), (0x301, 0xec), (0x303, 0xde), (0x309, 0xd2), (0x323, 0xf2), (0x2013, 0x96),
  (0x2014, 0x97), (0x2018, 0x91), (0x2019, 0x92), (0x201a, 0x82), (0x201c, 0x93),
  (0x201d, 0x94), (0x201e, 0x84), (0x2020, 0x86), (0x2021, 0x87), (0x2022, 0x95),
  (0x2026, 0x85), (0x2030, 0x89), (0x2039, 0x8b), (0x203a, 0x9b), (0x20ab, 0xfe),
  (0x20ac, 0x80), (0x2122, 0x99)]

end Verif.Tables
