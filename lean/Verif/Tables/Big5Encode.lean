/-! Generated by tools/gen_tables.py from /repo/src/generated/whatwg/big5_whatwg_tables.rs.inc. -/

namespace Verif.Tables.Big5

/-- `ENCODE_TABLE[0..128]`, (code point, byte 0, byte 1).  src/generated/whatwg/big5_whatwg_tables.rs.inc:2481-2523 -/
def encRow0 : List (Nat × Nat × Nat) := [
  (0xa7, 0xa1, 0xb1), (0xa8, 0xc6, 0xd8), (0xaf, 0xa1, 0xc2), (0xb0, 0xa2, 0x58),
  (0xb1, 0xa1, 0xd3), (0xb7, 0xa1, 0x50), (0xc0, 0x88, 0x59), (0xc1, 0x88, 0x57),
  (0xc8, 0x88, 0x5d), (0xc9, 0x88, 0x5b), (0xca, 0x88, 0x66), (0xd2, 0x88, 0x61),
  (0xd3, 0x88, 0x5f), (0xd7, 0xa1, 0xd1), (0xe0, 0x88, 0x6a), (0xe1, 0x88, 0x68),
  (0xe8, 0x88, 0x6f), (0xe9, 0x88, 0x6d), (0xea, 0x88, 0xa7), (0xec, 0x88, 0x73),
  (0xed, 0x88, 0x71), (0xf2, 0x88, 0x77), (0xf3, 0x88, 0x75), (0xf7, 0xa1, 0xd2),
  (0xf8, 0xc8, 0xfb), (0xf9, 0x88, 0x7b), (0xfa, 0x88, 0x79), (0xfc, 0x88, 0xa2),
  (0x100, 0x88, 0x56), (0x101, 0x88, 0x67), (0x112, 0x88, 0x5a), (0x113, 0x88, 0x6c),
  (0x11a, 0x88, 0x5c), (0x11b, 0x88, 0x6e), (0x12b, 0x88, 0x70), (0x14b, 0xc8, 0xfc),
  (0x14c, 0x88, 0x5e), (0x14d, 0x88, 0x74), (0x153, 0xc8, 0xfa), (0x16b, 0x88, 0x78),
  (0x1cd, 0x88, 0x58), (0x1ce, 0x88, 0x69), (0x1d0, 0x88, 0x72), (0x1d1, 0x88, 0x60),
  (0x1d2, 0x88, 0x76), (0x1d4, 0x88, 0x7a), (0x1d6, 0x88, 0x7c), (0x1d8, 0x88, 0x7d),
  (0x1da, 0x88, 0x7e), (0x1dc, 0x88, 0xa1), (0x250, 0xc8, 0xf6), (0x251, 0x88, 0x6b),
  (0x254, 0xc8, 0xf8), (0x25b, 0xc8, 0xf7), (0x261, 0x88, 0xa8), (0x26a, 0xc8, 0xfe),
  (0x275, 0xc8, 0xf9), (0x283, 0xc8, 0xf5), (0x28a, 0xc8, 0xfd), (0x2c6, 0xc6, 0xd9),
  (0x2c7, 0xa3, 0xbe), (0x2c9, 0xa3, 0xbc), (0x2ca, 0xa3, 0xbd), (0x2cb, 0xa3, 0xbf),
  (0x2cd, 0xa1, 0xc5), (0x2d9, 0xa3, 0xbb), (0x391, 0xa3, 0x44), (0x392, 0xa3, 0x45),
  (0x393, 0xa3, 0x46), (0x394, 0xa3, 0x47), (0x395, 0xa3, 0x48), (0x396, 0xa3, 0x49),
  (0x397, 0xa3, 0x4a), (0x398, 0xa3, 0x4b), (0x399, 0xa3, 0x4c), (0x39a, 0xa3, 0x4d),
  (0x39b, 0xa3, 0x4e), (0x39c, 0xa3, 0x4f), (0x39d, 0xa3, 0x50), (0x39e, 0xa3, 0x51),
  (0x39f, 0xa3, 0x52), (0x3a0, 0xa3, 0x53), (0x3a1, 0xa3, 0x54), (0x3a3, 0xa3, 0x55),
  (0x3a4, 0xa3, 0x56), (0x3a5, 0xa3, 0x57), (0x3a6, 0xa3, 0x58), (0x3a7, 0xa3, 0x59),
  (0x3a8, 0xa3, 0x5a), (0x3a9, 0xa3, 0x5b), (0x3b1, 0xa3, 0x5c), (0x3b2, 0xa3, 0x5d),
  (0x3b3, 0xa3, 0x5e), (0x3b4, 0xa3, 0x5f), (0x3b5, 0xa3, 0x60), (0x3b6, 0xa3, 0x61),
  (0x3b7, 0xa3, 0x62), (0x3b8, 0xa3, 0x63), (0x3b9, 0xa3, 0x64), (0x3ba, 0xa3, 0x65),
  (0x3bb, 0xa3, 0x66), (0x3bc, 0xa3, 0x67), (0x3bd, 0xa3, 0x68), (0x3be, 0xa3, 0x69),
  (0x3bf, 0xa3, 0x6a), (0x3c0, 0xa3, 0x6b), (0x3c1, 0xa3, 0x6c), (0x3c3, 0xa3, 0x6d),
  (0x3c4, 0xa3, 0x6e), (0x3c5, 0xa3, 0x6f), (0x3c6, 0xa3, 0x70), (0x3c7, 0xa3, 0x71),
  (0x3c8, 0xa3, 0x72), (0x3c9, 0xa3, 0x73), (0x401, 0xc7, 0xf9), (0x410, 0xc7, 0xf3),
  (0x411, 0xc7, 0xf4), (0x412, 0xc7, 0xf5), (0x413, 0xc7, 0xf6), (0x414, 0xc7, 0xf7),
  (0x415, 0xc7, 0xf8), (0x416, 0xc7, 0xfa), (0x417, 0xc7, 0xfb), (0x418, 0xc7, 0xfc),
  (0x419, 0xc7, 0xfd), (0x41a, 0xc7, 0xfe), (0x41b, 0xc8, 0x40), (0x41c, 0xc8, 0x41)]

/-- `ENCODE_TABLE[128..256]`, (code point, byte 0, byte 1).  src/generated/whatwg/big5_whatwg_tables.rs.inc:2523-2566 -/
def encRow1 : List (Nat × Nat × Nat) := [
  (0x41d, 0xc8, 0x42), (0x41e, 0xc8, 0x43), (0x41f, 0xc8, 0x44), (0x420, 0xc8, 0x45),
  (0x421, 0xc8, 0x46), (0x422, 0xc8, 0x47), (0x423, 0xc8, 0x48), (0x424, 0xc8, 0x49),
  (0x425, 0xc8, 0x4a), (0x426, 0xc8, 0x4b), (0x427, 0xc8, 0x4c), (0x428, 0xc8, 0x4d),
  (0x429, 0xc8, 0x4e), (0x42a, 0xc8, 0x4f), (0x42b, 0xc8, 0x50), (0x42c, 0xc8, 0x51),
  (0x42d, 0xc8, 0x52), (0x42e, 0xc8, 0x53), (0x42f, 0xc8, 0x54), (0x430, 0xc8, 0x55),
  (0x431, 0xc8, 0x56), (0x432, 0xc8, 0x57), (0x433, 0xc8, 0x58), (0x434, 0xc8, 0x59),
  (0x435, 0xc8, 0x5a), (0x436, 0xc8, 0x5c), (0x437, 0xc8, 0x5d), (0x438, 0xc8, 0x5e),
  (0x439, 0xc8, 0x5f), (0x43a, 0xc8, 0x60), (0x43b, 0xc8, 0x61), (0x43c, 0xc8, 0x62),
  (0x43d, 0xc8, 0x63), (0x43e, 0xc8, 0x64), (0x43f, 0xc8, 0x65), (0x440, 0xc8, 0x66),
  (0x441, 0xc8, 0x67), (0x442, 0xc8, 0x68), (0x443, 0xc8, 0x69), (0x444, 0xc8, 0x6a),
  (0x445, 0xc8, 0x6b), (0x446, 0xc8, 0x6c), (0x447, 0xc8, 0x6d), (0x448, 0xc8, 0x6e),
  (0x449, 0xc8, 0x6f), (0x44a, 0xc8, 0x70), (0x44b, 0xc8, 0x71), (0x44c, 0xc8, 0x72),
  (0x44d, 0xc8, 0x73), (0x44e, 0xc8, 0x74), (0x44f, 0xc8, 0x75), (0x451, 0xc8, 0x5b),
  (0x1ebe, 0x88, 0x63), (0x1ebf, 0x88, 0xa4), (0x1ec0, 0x88, 0x65), (0x1ec1, 0x88, 0xa6),
  (0x2013, 0xa1, 0x56), (0x2014, 0xa1, 0x58), (0x2018, 0xa1, 0xa5), (0x2019, 0xa1, 0xa6),
  (0x201c, 0xa1, 0xa7), (0x201d, 0xa1, 0xa8), (0x2025, 0xa1, 0x4c), (0x2026, 0xa1, 0x4b),
  (0x2027, 0xa1, 0x45), (0x2032, 0xa1, 0xac), (0x2035, 0xa1, 0xab), (0x203b, 0xa1, 0xb0),
  (0x20ac, 0xa3, 0xe1), (0x2103, 0xa2, 0x4a), (0x2105, 0xa1, 0xc1), (0x2109, 0xa2, 0x4b),
  (0x2116, 0xc8, 0xd2), (0x2121, 0xc8, 0xd3), (0x2160, 0xa2, 0xb9), (0x2161, 0xa2, 0xba),
  (0x2162, 0xa2, 0xbb), (0x2163, 0xa2, 0xbc), (0x2164, 0xa2, 0xbd), (0x2165, 0xa2, 0xbe),
  (0x2166, 0xa2, 0xbf), (0x2167, 0xa2, 0xc0), (0x2168, 0xa2, 0xc1), (0x2169, 0xa2, 0xc2),
  (0x2170, 0xc6, 0xb5), (0x2171, 0xc6, 0xb6), (0x2172, 0xc6, 0xb7), (0x2173, 0xc6, 0xb8),
  (0x2174, 0xc6, 0xb9), (0x2175, 0xc6, 0xba), (0x2176, 0xc6, 0xbb), (0x2177, 0xc6, 0xbc),
  (0x2178, 0xc6, 0xbd), (0x2179, 0xc6, 0xbe), (0x2190, 0xa1, 0xf6), (0x2191, 0xa1, 0xf4),
  (0x2192, 0xa1, 0xf7), (0x2193, 0xa1, 0xf5), (0x2196, 0xa1, 0xf8), (0x2197, 0xa1, 0xf9),
  (0x2198, 0xa1, 0xfb), (0x2199, 0xa1, 0xfa), (0x21b8, 0xc8, 0x77), (0x21b9, 0xc8, 0x78),
  (0x21e7, 0xc8, 0x76), (0x2215, 0xa2, 0x41), (0x221a, 0xa1, 0xd4), (0x221e, 0xa1, 0xdb),
  (0x221f, 0xa1, 0xe8), (0x2220, 0xa1, 0xe7), (0x2223, 0xa1, 0xfd), (0x2225, 0xa1, 0xfc),
  (0x2229, 0xa1, 0xe4), (0x222a, 0xa1, 0xe5), (0x222b, 0xa1, 0xec), (0x222e, 0xa1, 0xed),
  (0x2234, 0xa1, 0xef), (0x2235, 0xa1, 0xee), (0x2252, 0xa1, 0xdc), (0x2260, 0xa1, 0xda),
  (0x2261, 0xa1, 0xdd), (0x2266, 0xa1, 0xd8), (0x2267, 0xa1, 0xd9), (0x2295, 0xa1, 0xf2),
  (0x2299, 0xa1, 0xf3), (0x22a5, 0xa1, 0xe6), (0x22bf, 0xa1, 0xe9), (0x23da, 0x88, 0xa9)]

/-- `ENCODE_TABLE[256..384]`, (code point, byte 0, byte 1).  src/generated/whatwg/big5_whatwg_tables.rs.inc:2566-2608 -/
def encRow2 : List (Nat × Nat × Nat) := [
  (0x23db, 0x88, 0xaa), (0x2400, 0xa3, 0xc0), (0x2401, 0xa3, 0xc1), (0x2402, 0xa3, 0xc2),
  (0x2403, 0xa3, 0xc3), (0x2404, 0xa3, 0xc4), (0x2405, 0xa3, 0xc5), (0x2406, 0xa3, 0xc6),
  (0x2407, 0xa3, 0xc7), (0x2408, 0xa3, 0xc8), (0x2409, 0xa3, 0xc9), (0x240a, 0xa3, 0xca),
  (0x240b, 0xa3, 0xcb), (0x240c, 0xa3, 0xcc), (0x240d, 0xa3, 0xcd), (0x240e, 0xa3, 0xce),
  (0x240f, 0xa3, 0xcf), (0x2410, 0xa3, 0xd0), (0x2411, 0xa3, 0xd1), (0x2412, 0xa3, 0xd2),
  (0x2413, 0xa3, 0xd3), (0x2414, 0xa3, 0xd4), (0x2415, 0xa3, 0xd5), (0x2416, 0xa3, 0xd6),
  (0x2417, 0xa3, 0xd7), (0x2418, 0xa3, 0xd8), (0x2419, 0xa3, 0xd9), (0x241a, 0xa3, 0xda),
  (0x241b, 0xa3, 0xdb), (0x241c, 0xa3, 0xdc), (0x241d, 0xa3, 0xdd), (0x241e, 0xa3, 0xde),
  (0x241f, 0xa3, 0xdf), (0x2421, 0xa3, 0xe0), (0x2460, 0xc6, 0xa1), (0x2461, 0xc6, 0xa2),
  (0x2462, 0xc6, 0xa3), (0x2463, 0xc6, 0xa4), (0x2464, 0xc6, 0xa5), (0x2465, 0xc6, 0xa6),
  (0x2466, 0xc6, 0xa7), (0x2467, 0xc6, 0xa8), (0x2468, 0xc6, 0xa9), (0x2469, 0xc6, 0xaa),
  (0x2474, 0xc6, 0xab), (0x2475, 0xc6, 0xac), (0x2476, 0xc6, 0xad), (0x2477, 0xc6, 0xae),
  (0x2478, 0xc6, 0xaf), (0x2479, 0xc6, 0xb0), (0x247a, 0xc6, 0xb1), (0x247b, 0xc6, 0xb2),
  (0x247c, 0xc6, 0xb3), (0x247d, 0xc6, 0xb4), (0x2500, 0xa2, 0x77), (0x2502, 0xa2, 0x78),
  (0x250c, 0xa2, 0x7a), (0x2510, 0xa2, 0x7b), (0x2514, 0xa2, 0x7c), (0x2518, 0xa2, 0x7d),
  (0x251c, 0xa2, 0x75), (0x2524, 0xa2, 0x74), (0x252c, 0xa2, 0x73), (0x2534, 0xa2, 0x72),
  (0x253c, 0xa2, 0x71), (0x2550, 0xf9, 0xf9), (0x2551, 0xf9, 0xf8), (0x2552, 0xf9, 0xe6),
  (0x2553, 0xf9, 0xef), (0x2554, 0xf9, 0xdd), (0x2555, 0xf9, 0xe8), (0x2556, 0xf9, 0xf1),
  (0x2557, 0xf9, 0xdf), (0x2558, 0xf9, 0xec), (0x2559, 0xf9, 0xf5), (0x255a, 0xf9, 0xe3),
  (0x255b, 0xf9, 0xee), (0x255c, 0xf9, 0xf7), (0x255d, 0xf9, 0xe5), (0x255e, 0xf9, 0xe9),
  (0x255f, 0xf9, 0xf2), (0x2560, 0xf9, 0xe0), (0x2561, 0xf9, 0xeb), (0x2562, 0xf9, 0xf4),
  (0x2563, 0xf9, 0xe2), (0x2564, 0xf9, 0xe7), (0x2565, 0xf9, 0xf0), (0x2566, 0xf9, 0xde),
  (0x2567, 0xf9, 0xed), (0x2568, 0xf9, 0xf6), (0x2569, 0xf9, 0xe4), (0x256a, 0xf9, 0xea),
  (0x256b, 0xf9, 0xf3), (0x256c, 0xf9, 0xe1), (0x256d, 0xa2, 0x7e), (0x256e, 0xa2, 0xa1),
  (0x256f, 0xa2, 0xa3), (0x2570, 0xa2, 0xa2), (0x2571, 0xa2, 0xac), (0x2572, 0xa2, 0xad),
  (0x2573, 0xa2, 0xae), (0x2574, 0xa1, 0x5a), (0x2581, 0xa2, 0x62), (0x2582, 0xa2, 0x63),
  (0x2583, 0xa2, 0x64), (0x2584, 0xa2, 0x65), (0x2585, 0xa2, 0x66), (0x2586, 0xa2, 0x67),
  (0x2587, 0xa2, 0x68), (0x2588, 0xa2, 0x69), (0x2589, 0xa2, 0x70), (0x258a, 0xa2, 0x6f),
  (0x258b, 0xa2, 0x6e), (0x258c, 0xa2, 0x6d), (0x258d, 0xa2, 0x6c), (0x258e, 0xa2, 0x6b),
  (0x258f, 0xa2, 0x6a), (0x2594, 0xa2, 0x76), (0x2595, 0xa2, 0x79), (0x25a0, 0xa1, 0xbd),
  (0x25a1, 0xa1, 0xbc), (0x25b2, 0xa1, 0xb6), (0x25b3, 0xa1, 0xb5), (0x25bc, 0xa1, 0xbf),
  (0x25bd, 0xa1, 0xbe), (0x25c6, 0xa1, 0xbb), (0x25c7, 0xa1, 0xba), (0x25cb, 0xa1, 0xb3)]

/-- `ENCODE_TABLE[384..512]`, (code point, byte 0, byte 1).  src/generated/whatwg/big5_whatwg_tables.rs.inc:2609-2651 -/
def encRow3 : List (Nat × Nat × Nat) := [
  (0x25ce, 0xa1, 0xb7), (0x25cf, 0xa1, 0xb4), (0x25e2, 0xa2, 0xa8), (0x25e3, 0xa2, 0xa9),
  (0x25e4, 0xa2, 0xab), (0x25e5, 0xa2, 0xaa), (0x2605, 0xa1, 0xb9), (0x2606, 0xa1, 0xb8),
  (0x2640, 0xa1, 0xf0), (0x2642, 0xa1, 0xf1), (0x273d, 0xc6, 0xe6), (0x2e80, 0xc8, 0xd6),
  (0x2e84, 0xc8, 0xd7), (0x2e86, 0xc8, 0xd8), (0x2e87, 0xc8, 0xd9), (0x2e88, 0xc8, 0xda),
  (0x2e8a, 0xc8, 0xdb), (0x2e8c, 0xc8, 0xdc), (0x2e8d, 0xc8, 0xdd), (0x2e95, 0xc8, 0xde),
  (0x2e9c, 0xc8, 0xdf), (0x2e9d, 0xc8, 0xe0), (0x2ea5, 0xc8, 0xe1), (0x2ea7, 0xc8, 0xe2),
  (0x2eaa, 0xc8, 0xe3), (0x2eac, 0xc8, 0xe4), (0x2eae, 0xc8, 0xe5), (0x2eb6, 0xc8, 0xe6),
  (0x2ebc, 0xc8, 0xe7), (0x2ebe, 0xc8, 0xe8), (0x2ec6, 0xc8, 0xe9), (0x2eca, 0xc8, 0xea),
  (0x2ecc, 0xc8, 0xeb), (0x2ecd, 0xc8, 0xec), (0x2ecf, 0xc8, 0xed), (0x2ed6, 0xc8, 0xee),
  (0x2ed7, 0xc8, 0xef), (0x2ede, 0xc8, 0xf0), (0x2ee3, 0xc8, 0xf1), (0x2f33, 0xc6, 0xcd),
  (0x3000, 0xa1, 0x40), (0x3001, 0xa1, 0x42), (0x3002, 0xa1, 0x43), (0x3003, 0xa1, 0xb2),
  (0x3005, 0xc6, 0xe0), (0x3006, 0xc6, 0xe1), (0x3007, 0xc6, 0xe2), (0x3008, 0xa1, 0x71),
  (0x3009, 0xa1, 0x72), (0x300a, 0xa1, 0x6d), (0x300b, 0xa1, 0x6e), (0x300c, 0xa1, 0x75),
  (0x300d, 0xa1, 0x76), (0x300e, 0xa1, 0x79), (0x300f, 0xa1, 0x7a), (0x3010, 0xa1, 0x69),
  (0x3011, 0xa1, 0x6a), (0x3012, 0xa2, 0x45), (0x3014, 0xa1, 0x65), (0x3015, 0xa1, 0x66),
  (0x301d, 0xa1, 0xa9), (0x301e, 0xa1, 0xaa), (0x3021, 0xa2, 0xc3), (0x3022, 0xa2, 0xc4),
  (0x3023, 0xa2, 0xc5), (0x3024, 0xa2, 0xc6), (0x3025, 0xa2, 0xc7), (0x3026, 0xa2, 0xc8),
  (0x3027, 0xa2, 0xc9), (0x3028, 0xa2, 0xca), (0x3029, 0xa2, 0xcb), (0x3041, 0xc6, 0xe7),
  (0x3042, 0xc6, 0xe8), (0x3043, 0xc6, 0xe9), (0x3044, 0xc6, 0xea), (0x3045, 0xc6, 0xeb),
  (0x3046, 0xc6, 0xec), (0x3047, 0xc6, 0xed), (0x3048, 0xc6, 0xee), (0x3049, 0xc6, 0xef),
  (0x304a, 0xc6, 0xf0), (0x304b, 0xc6, 0xf1), (0x304c, 0xc6, 0xf2), (0x304d, 0xc6, 0xf3),
  (0x304e, 0xc6, 0xf4), (0x304f, 0xc6, 0xf5), (0x3050, 0xc6, 0xf6), (0x3051, 0xc6, 0xf7),
  (0x3052, 0xc6, 0xf8), (0x3053, 0xc6, 0xf9), (0x3054, 0xc6, 0xfa), (0x3055, 0xc6, 0xfb),
  (0x3056, 0xc6, 0xfc), (0x3057, 0xc6, 0xfd), (0x3058, 0xc6, 0xfe), (0x3059, 0xc7, 0x40),
  (0x305a, 0xc7, 0x41), (0x305b, 0xc7, 0x42), (0x305c, 0xc7, 0x43), (0x305d, 0xc7, 0x44),
  (0x305e, 0xc7, 0x45), (0x305f, 0xc7, 0x46), (0x3060, 0xc7, 0x47), (0x3061, 0xc7, 0x48),
  (0x3062, 0xc7, 0x49), (0x3063, 0xc7, 0x4a), (0x3064, 0xc7, 0x4b), (0x3065, 0xc7, 0x4c),
  (0x3066, 0xc7, 0x4d), (0x3067, 0xc7, 0x4e), (0x3068, 0xc7, 0x4f), (0x3069, 0xc7, 0x50),
  (0x306a, 0xc7, 0x51), (0x306b, 0xc7, 0x52), (0x306c, 0xc7, 0x53), (0x306d, 0xc7, 0x54),
  (0x306e, 0xc7, 0x55), (0x306f, 0xc7, 0x56), (0x3070, 0xc7, 0x57), (0x3071, 0xc7, 0x58),
  (0x3072, 0xc7, 0x59), (0x3073, 0xc7, 0x5a), (0x3074, 0xc7, 0x5b), (0x3075, 0xc7, 0x5c),
  (0x3076, 0xc7, 0x5d), (0x3077, 0xc7, 0x5e), (0x3078, 0xc7, 0x5f), (0x3079, 0xc7, 0x60)]

/-- `ENCODE_TABLE[512..640]`, (code point, byte 0, byte 1).  src/generated/whatwg/big5_whatwg_tables.rs.inc:2651-2694 -/
def encRow4 : List (Nat × Nat × Nat) := [
  (0x307a, 0xc7, 0x61), (0x307b, 0xc7, 0x62), (0x307c, 0xc7, 0x63), (0x307d, 0xc7, 0x64),
  (0x307e, 0xc7, 0x65), (0x307f, 0xc7, 0x66), (0x3080, 0xc7, 0x67), (0x3081, 0xc7, 0x68),
  (0x3082, 0xc7, 0x69), (0x3083, 0xc7, 0x6a), (0x3084, 0xc7, 0x6b), (0x3085, 0xc7, 0x6c),
  (0x3086, 0xc7, 0x6d), (0x3087, 0xc7, 0x6e), (0x3088, 0xc7, 0x6f), (0x3089, 0xc7, 0x70),
  (0x308a, 0xc7, 0x71), (0x308b, 0xc7, 0x72), (0x308c, 0xc7, 0x73), (0x308d, 0xc7, 0x74),
  (0x308e, 0xc7, 0x75), (0x308f, 0xc7, 0x76), (0x3090, 0xc7, 0x77), (0x3091, 0xc7, 0x78),
  (0x3092, 0xc7, 0x79), (0x3093, 0xc7, 0x7a), (0x309b, 0xc8, 0xd4), (0x309c, 0xc8, 0xd5),
  (0x309d, 0xc6, 0xdc), (0x309e, 0xc6, 0xdd), (0x30a1, 0xc7, 0x7b), (0x30a2, 0xc7, 0x7c),
  (0x30a3, 0xc7, 0x7d), (0x30a4, 0xc7, 0x7e), (0x30a5, 0xc7, 0xa1), (0x30a6, 0xc7, 0xa2),
  (0x30a7, 0xc7, 0xa3), (0x30a8, 0xc7, 0xa4), (0x30a9, 0xc7, 0xa5), (0x30aa, 0xc7, 0xa6),
  (0x30ab, 0xc7, 0xa7), (0x30ac, 0xc7, 0xa8), (0x30ad, 0xc7, 0xa9), (0x30ae, 0xc7, 0xaa),
  (0x30af, 0xc7, 0xab), (0x30b0, 0xc7, 0xac), (0x30b1, 0xc7, 0xad), (0x30b2, 0xc7, 0xae),
  (0x30b3, 0xc7, 0xaf), (0x30b4, 0xc7, 0xb0), (0x30b5, 0xc7, 0xb1), (0x30b6, 0xc7, 0xb2),
  (0x30b7, 0xc7, 0xb3), (0x30b8, 0xc7, 0xb4), (0x30b9, 0xc7, 0xb5), (0x30ba, 0xc7, 0xb6),
  (0x30bb, 0xc7, 0xb7), (0x30bc, 0xc7, 0xb8), (0x30bd, 0xc7, 0xb9), (0x30be, 0xc7, 0xba),
  (0x30bf, 0xc7, 0xbb), (0x30c0, 0xc7, 0xbc), (0x30c1, 0xc7, 0xbd), (0x30c2, 0xc7, 0xbe),
  (0x30c3, 0xc7, 0xbf), (0x30c4, 0xc7, 0xc0), (0x30c5, 0xc7, 0xc1), (0x30c6, 0xc7, 0xc2),
  (0x30c7, 0xc7, 0xc3), (0x30c8, 0xc7, 0xc4), (0x30c9, 0xc7, 0xc5), (0x30ca, 0xc7, 0xc6),
  (0x30cb, 0xc7, 0xc7), (0x30cc, 0xc7, 0xc8), (0x30cd, 0xc7, 0xc9), (0x30ce, 0xc7, 0xca),
  (0x30cf, 0xc7, 0xcb), (0x30d0, 0xc7, 0xcc), (0x30d1, 0xc7, 0xcd), (0x30d2, 0xc7, 0xce),
  (0x30d3, 0xc7, 0xcf), (0x30d4, 0xc7, 0xd0), (0x30d5, 0xc7, 0xd1), (0x30d6, 0xc7, 0xd2),
  (0x30d7, 0xc7, 0xd3), (0x30d8, 0xc7, 0xd4), (0x30d9, 0xc7, 0xd5), (0x30da, 0xc7, 0xd6),
  (0x30db, 0xc7, 0xd7), (0x30dc, 0xc7, 0xd8), (0x30dd, 0xc7, 0xd9), (0x30de, 0xc7, 0xda),
  (0x30df, 0xc7, 0xdb), (0x30e0, 0xc7, 0xdc), (0x30e1, 0xc7, 0xdd), (0x30e2, 0xc7, 0xde),
  (0x30e3, 0xc7, 0xdf), (0x30e4, 0xc7, 0xe0), (0x30e5, 0xc7, 0xe1), (0x30e6, 0xc7, 0xe2),
  (0x30e7, 0xc7, 0xe3), (0x30e8, 0xc7, 0xe4), (0x30e9, 0xc7, 0xe5), (0x30ea, 0xc7, 0xe6),
  (0x30eb, 0xc7, 0xe7), (0x30ec, 0xc7, 0xe8), (0x30ed, 0xc7, 0xe9), (0x30ee, 0xc7, 0xea),
  (0x30ef, 0xc7, 0xeb), (0x30f0, 0xc7, 0xec), (0x30f1, 0xc7, 0xed), (0x30f2, 0xc7, 0xee),
  (0x30f3, 0xc7, 0xef), (0x30f4, 0xc7, 0xf0), (0x30f5, 0xc7, 0xf1), (0x30f6, 0xc7, 0xf2),
  (0x30fc, 0xc6, 0xe3), (0x30fd, 0xc6, 0xda), (0x30fe, 0xc6, 0xdb), (0x3105, 0xa3, 0x74),
  (0x3106, 0xa3, 0x75), (0x3107, 0xa3, 0x76), (0x3108, 0xa3, 0x77), (0x3109, 0xa3, 0x78),
  (0x310a, 0xa3, 0x79), (0x310b, 0xa3, 0x7a), (0x310c, 0xa3, 0x7b), (0x310d, 0xa3, 0x7c)]

/-- `ENCODE_TABLE[640..768]`, (code point, byte 0, byte 1).  src/generated/whatwg/big5_whatwg_tables.rs.inc:2694-2736 -/
def encRow5 : List (Nat × Nat × Nat) := [
  (0x310e, 0xa3, 0x7d), (0x310f, 0xa3, 0x7e), (0x3110, 0xa3, 0xa1), (0x3111, 0xa3, 0xa2),
  (0x3112, 0xa3, 0xa3), (0x3113, 0xa3, 0xa4), (0x3114, 0xa3, 0xa5), (0x3115, 0xa3, 0xa6),
  (0x3116, 0xa3, 0xa7), (0x3117, 0xa3, 0xa8), (0x3118, 0xa3, 0xa9), (0x3119, 0xa3, 0xaa),
  (0x311a, 0xa3, 0xab), (0x311b, 0xa3, 0xac), (0x311c, 0xa3, 0xad), (0x311d, 0xa3, 0xae),
  (0x311e, 0xa3, 0xaf), (0x311f, 0xa3, 0xb0), (0x3120, 0xa3, 0xb1), (0x3121, 0xa3, 0xb2),
  (0x3122, 0xa3, 0xb3), (0x3123, 0xa3, 0xb4), (0x3124, 0xa3, 0xb5), (0x3125, 0xa3, 0xb6),
  (0x3126, 0xa3, 0xb7), (0x3127, 0xa3, 0xb8), (0x3128, 0xa3, 0xb9), (0x3129, 0xa3, 0xba),
  (0x31c0, 0x88, 0x40), (0x31c1, 0x88, 0x41), (0x31c2, 0x88, 0x42), (0x31c3, 0x88, 0x43),
  (0x31c4, 0x88, 0x44), (0x31c5, 0x88, 0x46), (0x31c6, 0x88, 0x49), (0x31c7, 0x88, 0x4a),
  (0x31c8, 0x88, 0x4d), (0x31c9, 0x88, 0x4f), (0x31ca, 0x88, 0x50), (0x31cb, 0x88, 0x51),
  (0x31cc, 0x88, 0x52), (0x31cd, 0x88, 0x54), (0x31ce, 0x88, 0x55), (0x31cf, 0xc8, 0x79),
  (0x3231, 0xc8, 0xd1), (0x32a3, 0xa1, 0xc0), (0x338e, 0xa2, 0x55), (0x338f, 0xa2, 0x56),
  (0x339c, 0xa2, 0x50), (0x339d, 0xa2, 0x51), (0x339e, 0xa2, 0x52), (0x33a1, 0xa2, 0x54),
  (0x33c4, 0xa2, 0x57), (0x33ce, 0xa2, 0x53), (0x33d1, 0xa1, 0xeb), (0x33d2, 0xa1, 0xea),
  (0x33d5, 0xa2, 0x4f), (0x3435, 0x92, 0x77), (0x3440, 0x96, 0xdf), (0x344a, 0x8c, 0xf4),
  (0x344c, 0x89, 0xd5), (0x3464, 0x93, 0xcd), (0x3473, 0x9b, 0xdf), (0x347a, 0xfa, 0x68),
  (0x347d, 0x89, 0xda), (0x347e, 0x8f, 0x59), (0x3493, 0x89, 0xdb), (0x3496, 0x8f, 0x5d),
  (0x34a5, 0x89, 0xdc), (0x34af, 0x96, 0xf7), (0x34bc, 0x8a, 0xda), (0x34c1, 0x8b, 0xdc),
  (0x34c8, 0x97, 0xdb), (0x34df, 0x9e, 0x53), (0x34e4, 0x9d, 0xaa), (0x34e6, 0x87, 0xbe),
  (0x34fb, 0x9b, 0xea), (0x3506, 0x8a, 0x6e), (0x353e, 0x8b, 0xc8), (0x3551, 0x89, 0xe8),
  (0x3553, 0x89, 0xea), (0x3559, 0x8c, 0x4b), (0x3561, 0xfb, 0x70), (0x356d, 0x89, 0xed),
  (0x3570, 0x94, 0xdd), (0x3572, 0x89, 0xee), (0x3577, 0x9e, 0xb4), (0x3578, 0x8a, 0xd3),
  (0x3584, 0x92, 0xdb), (0x3597, 0x94, 0xdb), (0x3598, 0x89, 0xf9), (0x35a1, 0xfb, 0x7a),
  (0x35a5, 0x89, 0xfb), (0x35ad, 0x9e, 0xfc), (0x35bf, 0x89, 0xfc), (0x35c1, 0x89, 0xbf),
  (0x35c5, 0x89, 0xfe), (0x35c7, 0x89, 0xe6), (0x35ca, 0x9d, 0x46), (0x35ce, 0x9d, 0xee),
  (0x35d2, 0xa0, 0x7e), (0x35d6, 0xa0, 0x68), (0x35db, 0x98, 0xe9), (0x35dd, 0x8b, 0x68),
  (0x35f1, 0x8d, 0xfd), (0x35f2, 0x8b, 0xbe), (0x35f3, 0x9f, 0xd9), (0x35fb, 0x8a, 0xeb),
  (0x35fe, 0x9f, 0xd7), (0x3609, 0x8b, 0x6a), (0x3618, 0x9c, 0x5c), (0x361a, 0x8b, 0xb1),
  (0x3623, 0xfb, 0x5e), (0x3625, 0x87, 0x70), (0x362d, 0x9d, 0xf3), (0x3635, 0xa0, 0xd0),
  (0x3639, 0xfc, 0x66), (0x363e, 0x92, 0xe9), (0x3647, 0x9a, 0xec), (0x3648, 0x8f, 0xab),
  (0x3649, 0xfa, 0x48), (0x364e, 0x8e, 0x45), (0x365f, 0x9c, 0x6f), (0x3661, 0x8d, 0x5c),
  (0x367a, 0x9e, 0xde), (0x3681, 0x89, 0xef), (0x369a, 0x96, 0xe9), (0x36a5, 0x9e, 0xbb)]

/-- `ENCODE_TABLE[768..896]`, (code point, byte 0, byte 1).  src/generated/whatwg/big5_whatwg_tables.rs.inc:2737-2779 -/
def encRow6 : List (Nat × Nat × Nat) := [
  (0x36aa, 0x94, 0xde), (0x36ac, 0x9e, 0xb8), (0x36b0, 0x97, 0xba), (0x36b1, 0xfb, 0x65),
  (0x36b5, 0x95, 0xd6), (0x36b9, 0x9c, 0xbb), (0x36bc, 0x97, 0xda), (0x36c1, 0x8f, 0x45),
  (0x36c3, 0xfb, 0x7d), (0x36c4, 0x91, 0x58), (0x36c5, 0xfe, 0x64), (0x36c7, 0x98, 0x56),
  (0x36c8, 0x9b, 0x4d), (0x36d3, 0x93, 0x5b), (0x36d4, 0x95, 0xc7), (0x36d6, 0x97, 0xe7),
  (0x36dd, 0x93, 0x59), (0x36e1, 0x91, 0xf5), (0x36e2, 0x97, 0xb8), (0x36e5, 0xfd, 0xa2),
  (0x36e6, 0xfb, 0xb6), (0x36f5, 0x92, 0xfa), (0x3701, 0x93, 0x57), (0x3703, 0x8b, 0xa6),
  (0x3708, 0xfb, 0xb9), (0x370a, 0x97, 0xb0), (0x370d, 0xfd, 0xc4), (0x371c, 0x9c, 0xa1),
  (0x3722, 0x91, 0xf2), (0x3723, 0x91, 0xf9), (0x3725, 0x8f, 0xf1), (0x372c, 0x97, 0x45),
  (0x372d, 0x98, 0x53), (0x3730, 0xfe, 0x78), (0x3732, 0xfb, 0xc1), (0x3733, 0x92, 0x51),
  (0x373a, 0x9d, 0xad), (0x3740, 0xfd, 0x6c), (0x3743, 0xfa, 0x6b), (0x3762, 0x9b, 0xc2),
  (0x376f, 0x9a, 0x7b), (0x3797, 0x8b, 0x60), (0x37a0, 0x93, 0x4b), (0x37b9, 0x9a, 0xbd),
  (0x37be, 0x91, 0xb7), (0x37d6, 0x8d, 0x4b), (0x37f2, 0x95, 0xb4), (0x37f8, 0xfe, 0xc5),
  (0x37fb, 0x9e, 0xf0), (0x380f, 0x8d, 0x64), (0x3819, 0x92, 0x69), (0x3820, 0x8d, 0x67),
  (0x382d, 0xfb, 0xea), (0x3836, 0xfb, 0xef), (0x3838, 0x8d, 0x68), (0x3863, 0x93, 0xeb),
  (0x3875, 0x87, 0x7a), (0x38a0, 0xfc, 0x42), (0x38c3, 0x91, 0x66), (0x38cc, 0xfa, 0xcd),
  (0x38d1, 0x93, 0xdd), (0x38d4, 0x8d, 0x52), (0x38fa, 0x8b, 0xcc), (0x3908, 0x8d, 0x6d),
  (0x3914, 0x8d, 0x6e), (0x3927, 0x96, 0xa8), (0x3932, 0xfc, 0xa6), (0x393f, 0x8d, 0x6f),
  (0x394d, 0x8d, 0x70), (0x3963, 0xfc, 0x64), (0x3978, 0x8c, 0xf3), (0x3980, 0x90, 0x60),
  (0x3989, 0x8d, 0x74), (0x398a, 0x97, 0xc3), (0x3992, 0x8a, 0xd0), (0x3999, 0x92, 0x74),
  (0x399b, 0x9b, 0xbe), (0x39a1, 0x9c, 0xc8), (0x39a4, 0x9c, 0xba), (0x39b8, 0x8d, 0x78),
  (0x39dc, 0x9e, 0xb9), (0x39e2, 0x95, 0x5a), (0x39e5, 0x91, 0xb4), (0x39ec, 0x8a, 0x48),
  (0x39f8, 0x8d, 0x7d), (0x39fb, 0x8a, 0x7d), (0x39fe, 0x8a, 0xc2), (0x3a01, 0xfd, 0x4a),
  (0x3a03, 0x8d, 0xa1), (0x3a06, 0x8a, 0xd1), (0x3a17, 0xfc, 0xb4), (0x3a18, 0x8b, 0x47),
  (0x3a29, 0x93, 0xa4), (0x3a2a, 0x9e, 0xda), (0x3a34, 0x8a, 0x51), (0x3a4b, 0x8d, 0xa6),
  (0x3a52, 0x9e, 0xc5), (0x3a57, 0xfc, 0xc4), (0x3a5c, 0xa0, 0x78), (0x3a5e, 0x94, 0xb5),
  (0x3a66, 0xfc, 0xc2), (0x3a67, 0x8a, 0x6b), (0x3a97, 0x8d, 0xab), (0x3aab, 0xfa, 0xe8),
  (0x3abd, 0x8d, 0xad), (0x3ade, 0xfc, 0x49), (0x3ae0, 0x93, 0xc1), (0x3af0, 0x90, 0x6f),
  (0x3af2, 0x8d, 0xb0), (0x3af5, 0x87, 0xa2), (0x3afb, 0x94, 0x7e), (0x3b0e, 0x90, 0xfa),
  (0x3b19, 0x94, 0x79), (0x3b22, 0x8d, 0xb2), (0x3b2b, 0xfc, 0xee), (0x3b39, 0x99, 0x7b),
  (0x3b42, 0x8d, 0xb4), (0x3b58, 0x8d, 0xb7), (0x3b60, 0x91, 0xb3), (0x3b71, 0x8d, 0xbb),
  (0x3b72, 0x8d, 0xba), (0x3b7b, 0x8d, 0xbc), (0x3b7c, 0x90, 0x44), (0x3b80, 0xfd, 0x4c),
  (0x3b95, 0x87, 0x4b), (0x3b96, 0x93, 0xe4), (0x3b99, 0x93, 0xe0), (0x3ba1, 0xfd, 0x53)]

/-- `ENCODE_TABLE[896..1024]`, (code point, byte 0, byte 1).  src/generated/whatwg/big5_whatwg_tables.rs.inc:2779-2822 -/
def encRow7 : List (Nat × Nat × Nat) := [
  (0x3bbc, 0x8d, 0xc3), (0x3bbe, 0x9b, 0xb8), (0x3bc2, 0xfb, 0xf0), (0x3bc4, 0x93, 0xe9),
  (0x3bd7, 0x93, 0xf6), (0x3bdd, 0x8d, 0xc5), (0x3bec, 0x8d, 0xca), (0x3bf2, 0x8d, 0xcc),
  (0x3bf3, 0xfd, 0x5d), (0x3bf4, 0x93, 0xb5), (0x3c0d, 0xfd, 0x61), (0x3c11, 0x9c, 0xf8),
  (0x3c15, 0x92, 0x52), (0x3c18, 0xa0, 0xe8), (0x3c54, 0x9c, 0xa5), (0x3c8b, 0x8c, 0x56),
  (0x3ccb, 0x8d, 0xd6), (0x3ccd, 0x97, 0xc0), (0x3cd1, 0xa0, 0xde), (0x3cd6, 0x97, 0xd2),
  (0x3cdc, 0xfa, 0xa5), (0x3ceb, 0xfd, 0xa3), (0x3cef, 0x8d, 0xdb), (0x3d12, 0x8c, 0xea),
  (0x3d13, 0x8e, 0xaf), (0x3d1d, 0x91, 0xb5), (0x3d32, 0xfd, 0x49), (0x3d3b, 0xfd, 0xd1),
  (0x3d46, 0x8d, 0xeb), (0x3d4c, 0x97, 0xc6), (0x3d4e, 0xfd, 0xce), (0x3d51, 0x90, 0xfc),
  (0x3d5f, 0xfc, 0x59), (0x3d62, 0x96, 0xd6), (0x3d69, 0x97, 0xc5), (0x3d6a, 0x8d, 0xef),
  (0x3d6f, 0x97, 0xd7), (0x3d75, 0x8d, 0xf0), (0x3d7d, 0x96, 0xa6), (0x3d85, 0xfb, 0xbf),
  (0x3d88, 0x8c, 0xdf), (0x3d8a, 0x8d, 0xf3), (0x3d8f, 0x94, 0x49), (0x3d91, 0x8d, 0xf5),
  (0x3da5, 0x98, 0x72), (0x3dad, 0x8e, 0x6b), (0x3db4, 0xfa, 0xfd), (0x3dbf, 0x8f, 0x50),
  (0x3dc6, 0x9d, 0xcc), (0x3dc7, 0xfc, 0x65), (0x3dc9, 0x8c, 0x44), (0x3dcc, 0x99, 0x6e),
  (0x3dcd, 0x94, 0xa1), (0x3dd3, 0x8f, 0x63), (0x3ddb, 0xa0, 0xda), (0x3de7, 0x92, 0x53),
  (0x3de8, 0xfd, 0xe9), (0x3deb, 0x9d, 0xb5), (0x3df3, 0x98, 0x79), (0x3df4, 0x87, 0x6a),
  (0x3df7, 0x9d, 0x5d), (0x3dfc, 0x8d, 0x63), (0x3dfd, 0x96, 0x69), (0x3e06, 0x9f, 0x70),
  (0x3e40, 0xfc, 0x6a), (0x3e43, 0x8a, 0xc7), (0x3e48, 0x89, 0xd7), (0x3e55, 0xfe, 0x4d),
  (0x3e74, 0x9e, 0xdd), (0x3ea8, 0xfe, 0xfb), (0x3ea9, 0x98, 0xbc), (0x3eaa, 0xfa, 0xcc),
  (0x3ead, 0x95, 0xb0), (0x3eb1, 0x94, 0x64), (0x3eb8, 0x93, 0x6f), (0x3ebf, 0x94, 0xb9),
  (0x3ec2, 0x95, 0xec), (0x3ec7, 0x91, 0xee), (0x3eca, 0x98, 0xc3), (0x3ecc, 0x95, 0xf6),
  (0x3ed0, 0x8f, 0xfd), (0x3ed1, 0x98, 0xc5), (0x3ed6, 0x97, 0x66), (0x3ed7, 0xfe, 0x6e),
  (0x3eda, 0x97, 0xdd), (0x3edb, 0x8c, 0xaa), (0x3ede, 0x92, 0xd2), (0x3ee1, 0x97, 0x61),
  (0x3ee2, 0x98, 0xcb), (0x3ee7, 0x95, 0xf0), (0x3ee9, 0x97, 0x5d), (0x3eeb, 0x91, 0xe3),
  (0x3eec, 0x87, 0x7e), (0x3ef0, 0x98, 0xcc), (0x3ef3, 0x94, 0x69), (0x3ef4, 0x98, 0xcd),
  (0x3efa, 0x98, 0xce), (0x3efc, 0x95, 0xfc), (0x3eff, 0x94, 0xa3), (0x3f00, 0x96, 0x62),
  (0x3f04, 0xfe, 0xb6), (0x3f06, 0x94, 0x63), (0x3f07, 0x8d, 0x47), (0x3f0e, 0x98, 0xd0),
  (0x3f53, 0x98, 0xd1), (0x3f58, 0x94, 0x75), (0x3f59, 0xfa, 0xe0), (0x3f63, 0x94, 0x72),
  (0x3f7c, 0x98, 0xd6), (0x3f93, 0x8a, 0xf0), (0x3fc0, 0x98, 0xd9), (0x3fc8, 0x8d, 0x5a),
  (0x3fd7, 0x98, 0xdb), (0x3fdc, 0x98, 0xdd), (0x3fe5, 0x98, 0xa8), (0x3fed, 0x8a, 0x6d),
  (0x3ff9, 0x8a, 0xfb), (0x3ffa, 0x8a, 0xae), (0x4004, 0xfb, 0xc9), (0x4009, 0x8c, 0x5d),
  (0x401d, 0x98, 0xe4), (0x4039, 0x98, 0xe6), (0x4045, 0x98, 0xe8), (0x4053, 0x8a, 0x4d),
  (0x4057, 0x92, 0x57), (0x4062, 0x95, 0xdf), (0x4065, 0xa0, 0xac), (0x406a, 0x98, 0xeb)]

/-- `ENCODE_TABLE[1024..1152]`, (code point, byte 0, byte 1).  src/generated/whatwg/big5_whatwg_tables.rs.inc:2822-2864 -/
def encRow8 : List (Nat × Nat × Nat) := [
  (0x406f, 0x98, 0xec), (0x4071, 0x8c, 0xc3), (0x40a8, 0x98, 0xf4), (0x40b4, 0x87, 0xd9),
  (0x40bb, 0x8a, 0xb8), (0x40bf, 0x9e, 0xe7), (0x40c8, 0x94, 0xbc), (0x40d8, 0xfc, 0xd1),
  (0x40df, 0x9c, 0xc6), (0x40f8, 0x8d, 0x4a), (0x40fa, 0x9e, 0x7e), (0x4102, 0x8d, 0x44),
  (0x4103, 0x98, 0xfe), (0x4104, 0xfd, 0xe8), (0x4109, 0x99, 0x40), (0x410e, 0x94, 0xc9),
  (0x4131, 0x87, 0xc6), (0x4132, 0x94, 0xd3), (0x4167, 0x99, 0x46), (0x416c, 0x90, 0xc0),
  (0x416e, 0x94, 0xd1), (0x417c, 0x8d, 0x4e), (0x417f, 0x95, 0x73), (0x4181, 0x87, 0xce),
  (0x4190, 0x93, 0xc2), (0x41b2, 0x99, 0x48), (0x41c4, 0x99, 0x4b), (0x41ca, 0x8e, 0x55),
  (0x41cf, 0x99, 0x4e), (0x41db, 0x8e, 0xfe), (0x41ed, 0x8d, 0x5f), (0x41ef, 0x8e, 0x59),
  (0x41f9, 0x94, 0xec), (0x4211, 0x94, 0xef), (0x4223, 0x8c, 0x60), (0x4240, 0x8f, 0x74),
  (0x4260, 0x99, 0x55), (0x426a, 0x95, 0x44), (0x4276, 0x8c, 0xcb), (0x427a, 0x99, 0x56),
  (0x428c, 0x99, 0x59), (0x4294, 0x99, 0x5b), (0x42a2, 0x8c, 0xc4), (0x42b5, 0xfa, 0x45),
  (0x42b9, 0x90, 0xb7), (0x42bc, 0x97, 0x43), (0x42f4, 0x95, 0xcd), (0x42fb, 0x97, 0xc9),
  (0x42fc, 0xfd, 0x50), (0x430a, 0x87, 0xaa), (0x432b, 0x8e, 0xb9), (0x436e, 0x95, 0xc6),
  (0x4397, 0x99, 0x67), (0x439a, 0x8c, 0xe3), (0x43ba, 0x8a, 0xb9), (0x43c1, 0x8d, 0xfc),
  (0x43d9, 0x8a, 0x76), (0x43df, 0x9d, 0x51), (0x43ed, 0x99, 0x73), (0x43f0, 0x87, 0x40),
  (0x43f2, 0x9d, 0x4f), (0x4401, 0x99, 0x7a), (0x4402, 0x95, 0x64), (0x4413, 0x99, 0xa1),
  (0x4425, 0x99, 0xa5), (0x442d, 0x99, 0xa7), (0x447a, 0x8e, 0xed), (0x448f, 0x99, 0xad),
  (0x4491, 0xc8, 0x7e), (0x449f, 0x94, 0x6e), (0x44a0, 0x8f, 0x70), (0x44a2, 0xfa, 0xd0),
  (0x44b0, 0x99, 0xb3), (0x44b7, 0xa0, 0x53), (0x44bd, 0x8d, 0x5e), (0x44c0, 0x96, 0x5c),
  (0x44c3, 0x8c, 0xe0), (0x44c5, 0xfd, 0x7a), (0x44ce, 0x97, 0xfe), (0x44dd, 0x92, 0xbd),
  (0x44de, 0x8d, 0x5d), (0x44df, 0x97, 0xfd), (0x44e1, 0x87, 0xdb), (0x44e4, 0x8f, 0x64),
  (0x44e9, 0xfc, 0xf7), (0x44ea, 0x95, 0x62), (0x44eb, 0x97, 0xcd), (0x44ec, 0x9e, 0x64),
  (0x44f4, 0x92, 0x4c), (0x4503, 0x8e, 0xc9), (0x4504, 0x99, 0xbc), (0x4509, 0x9d, 0xa5),
  (0x450b, 0x8f, 0x54), (0x4516, 0x8f, 0x7c), (0x451b, 0x8d, 0x55), (0x451d, 0x8e, 0xa2),
  (0x4527, 0x8f, 0x7a), (0x452e, 0x97, 0xae), (0x4533, 0x96, 0xc8), (0x4536, 0x8c, 0xe4),
  (0x453b, 0x99, 0xc3), (0x453d, 0x90, 0xd6), (0x453f, 0x9c, 0xbe), (0x4543, 0x8f, 0x76),
  (0x4551, 0x94, 0x70), (0x4552, 0xfb, 0x4b), (0x4555, 0xfd, 0xca), (0x4558, 0x8c, 0xef),
  (0x455c, 0x8e, 0xc7), (0x4561, 0x8d, 0x54), (0x4562, 0xa0, 0xf9), (0x456a, 0x8f, 0xa9),
  (0x456d, 0x8d, 0x51), (0x4577, 0x99, 0xc7), (0x4578, 0x87, 0x44), (0x4585, 0x90, 0xd7),
  (0x45a6, 0x87, 0x43), (0x45b3, 0x87, 0x47), (0x45da, 0x87, 0x58), (0x45e9, 0x9e, 0xdf),
  (0x45ea, 0x8d, 0x59), (0x4603, 0x87, 0x42), (0x4606, 0x99, 0xce), (0x460f, 0x8f, 0xba),
  (0x4615, 0x8f, 0xeb), (0x4617, 0x99, 0xcf), (0x465b, 0x8f, 0xc2), (0x467a, 0x92, 0xc9)]

/-- `ENCODE_TABLE[1152..1280]`, (code point, byte 0, byte 1).  src/generated/whatwg/big5_whatwg_tables.rs.inc:2865-2907 -/
def encRow9 : List (Nat × Nat × Nat) := [
  (0x4680, 0x97, 0xdc), (0x46a1, 0x87, 0x5d), (0x46ae, 0x87, 0xcc), (0x46bb, 0x8d, 0x45),
  (0x46cf, 0x95, 0xb3), (0x46d0, 0x9c, 0x79), (0x46f5, 0x95, 0xb2), (0x46f7, 0x8d, 0x4c),
  (0x4713, 0x8f, 0xdb), (0x4718, 0x9b, 0xe3), (0x4736, 0x87, 0x4c), (0x4744, 0x87, 0x4d),
  (0x474e, 0x9e, 0x7a), (0x474f, 0x87, 0x57), (0x477c, 0x9b, 0xee), (0x4798, 0x99, 0xde),
  (0x47a6, 0xfa, 0xfa), (0x47d5, 0x8a, 0x52), (0x47ed, 0x99, 0xe1), (0x47f4, 0x8a, 0x67),
  (0x4800, 0x8b, 0xb5), (0x480b, 0x8a, 0xac), (0x4837, 0x99, 0xe9), (0x485d, 0xfb, 0xca),
  (0x4871, 0x97, 0xde), (0x489b, 0x95, 0xd1), (0x48ad, 0x99, 0xf5), (0x48ae, 0xfc, 0x4a),
  (0x48d0, 0x9b, 0xa9), (0x48dd, 0xfb, 0xdc), (0x48ed, 0xfe, 0x56), (0x48f3, 0x9e, 0xa4),
  (0x48fa, 0x9d, 0x49), (0x4906, 0x95, 0xdb), (0x4911, 0x89, 0xc5), (0x491e, 0x99, 0xf8),
  (0x4925, 0x96, 0x64), (0x492a, 0x90, 0x55), (0x492d, 0x96, 0xd4), (0x492f, 0x87, 0xc4),
  (0x4930, 0x87, 0xae), (0x4935, 0x97, 0x7c), (0x493c, 0x96, 0x4d), (0x493e, 0x97, 0xe1),
  (0x4945, 0x9a, 0x48), (0x4951, 0x9a, 0x49), (0x4953, 0xfe, 0x7d), (0x4965, 0x90, 0xaa),
  (0x496a, 0x9a, 0x50), (0x4972, 0x93, 0x47), (0x4989, 0x8e, 0xd8), (0x49a1, 0x90, 0xc9),
  (0x49a7, 0x9a, 0x55), (0x49df, 0x90, 0xbc), (0x49e5, 0x9a, 0x58), (0x49e7, 0x8b, 0xb8),
  (0x4a0f, 0x90, 0xd5), (0x4a1d, 0x96, 0x41), (0x4a24, 0x9a, 0x5a), (0x4a35, 0x9a, 0x5c),
  (0x4a96, 0x97, 0xc2), (0x4aa4, 0x87, 0x5c), (0x4ab4, 0x8a, 0xbb), (0x4ab8, 0x9b, 0xaa),
  (0x4ad1, 0x90, 0xf5), (0x4ae4, 0x9a, 0x60), (0x4aff, 0x91, 0x45), (0x4b10, 0x8c, 0x58),
  (0x4b19, 0x9a, 0x63), (0x4b20, 0x8c, 0x49), (0x4b2c, 0x8b, 0xb6), (0x4b37, 0xfc, 0xcf),
  (0x4b6f, 0x96, 0x6b), (0x4b70, 0x9a, 0x6e), (0x4b72, 0x91, 0x4f), (0x4b7b, 0x97, 0x46),
  (0x4b7e, 0xa0, 0xe6), (0x4b8e, 0x92, 0xd7), (0x4b90, 0x96, 0x75), (0x4b93, 0x93, 0xd4),
  (0x4b96, 0x91, 0xbb), (0x4b97, 0x96, 0x79), (0x4b9d, 0x9a, 0x70), (0x4bbd, 0x96, 0x78),
  (0x4bbe, 0x91, 0xcd), (0x4bc0, 0x9c, 0x4a), (0x4c04, 0xa0, 0x6f), (0x4c07, 0xa0, 0x6a),
  (0x4c0e, 0x91, 0x5f), (0x4c32, 0x87, 0x41), (0x4c3b, 0x9f, 0xa5), (0x4c3e, 0x89, 0xba),
  (0x4c40, 0x87, 0x4f), (0x4c47, 0x87, 0x4e), (0x4c57, 0x87, 0x55), (0x4c5b, 0x9e, 0xcd),
  (0x4c6d, 0x9a, 0x79), (0x4c77, 0x8c, 0xf2), (0x4c7b, 0x8d, 0x57), (0x4c7d, 0x9d, 0xce),
  (0x4c81, 0x8c, 0xd2), (0x4c85, 0x87, 0x59), (0x4ca4, 0x9d, 0x73), (0x4cae, 0x96, 0xb9),
  (0x4cb0, 0x96, 0xbc), (0x4cb7, 0x9c, 0xd1), (0x4ccd, 0x89, 0xb7), (0x4ce1, 0x9e, 0xee),
  (0x4ce2, 0x87, 0x49), (0x4ced, 0xfb, 0x43), (0x4d07, 0x87, 0x5b), (0x4d09, 0x9e, 0xc9),
  (0x4d10, 0xfb, 0xd3), (0x4d34, 0x91, 0xae), (0x4d76, 0x8d, 0x58), (0x4d77, 0x87, 0x46),
  (0x4d89, 0x8d, 0x56), (0x4d91, 0x9d, 0x78), (0x4d9c, 0x9d, 0x7b), (0x4e00, 0xa4, 0x40),
  (0x4e01, 0xa4, 0x42), (0x4e03, 0xa4, 0x43), (0x4e04, 0x9e, 0xb3), (0x4e07, 0xc9, 0x45),
  (0x4e08, 0xa4, 0x56), (0x4e09, 0xa4, 0x54), (0x4e0a, 0xa4, 0x57), (0x4e0b, 0xa4, 0x55)]

/-- `ENCODE_TABLE[1280..1408]`, (code point, byte 0, byte 1).  src/generated/whatwg/big5_whatwg_tables.rs.inc:2907-2950 -/
def encRow10 : List (Nat × Nat × Nat) := [
  (0x4e0c, 0xc9, 0x46), (0x4e0d, 0xa4, 0xa3), (0x4e0e, 0xc9, 0x4f), (0x4e0f, 0xc9, 0x4d),
  (0x4e10, 0xa4, 0xa2), (0x4e11, 0xa4, 0xa1), (0x4e14, 0xa5, 0x42), (0x4e15, 0xa5, 0x41),
  (0x4e16, 0xa5, 0x40), (0x4e18, 0xa5, 0x43), (0x4e19, 0xa4, 0xfe), (0x4e1a, 0x9e, 0xb2),
  (0x4e1c, 0x9d, 0xd6), (0x4e1e, 0xa5, 0xe0), (0x4e1f, 0xa5, 0xe1), (0x4e21, 0x99, 0x4f),
  (0x4e24, 0x89, 0xce), (0x4e26, 0xa8, 0xc3), (0x4e28, 0x8b, 0xc0), (0x4e2a, 0x9f, 0xc4),
  (0x4e2b, 0xa4, 0x58), (0x4e2c, 0x8b, 0xd4), (0x4e2d, 0xa4, 0xa4), (0x4e2e, 0xc9, 0x50),
  (0x4e2f, 0x8c, 0x72), (0x4e30, 0xa4, 0xa5), (0x4e31, 0xc9, 0x63), (0x4e32, 0xa6, 0xea),
  (0x4e33, 0xcb, 0xb1), (0x4e36, 0xc6, 0xbf), (0x4e37, 0x8b, 0xf9), (0x4e38, 0xa4, 0x59),
  (0x4e39, 0xa4, 0xa6), (0x4e3b, 0xa5, 0x44), (0x4e3c, 0xc9, 0x64), (0x4e3d, 0x89, 0x46),
  (0x4e3f, 0xc6, 0xc0), (0x4e42, 0xc9, 0x40), (0x4e43, 0xa4, 0x44), (0x4e45, 0xa4, 0x5b),
  (0x4e47, 0xc9, 0x47), (0x4e48, 0xa4, 0x5c), (0x4e49, 0xfa, 0xe5), (0x4e4b, 0xa4, 0xa7),
  (0x4e4d, 0xa5, 0x45), (0x4e4e, 0xa5, 0x47), (0x4e4f, 0xa5, 0x46), (0x4e52, 0xa5, 0xe2),
  (0x4e53, 0xa5, 0xe3), (0x4e56, 0xa8, 0xc4), (0x4e58, 0xad, 0xbc), (0x4e59, 0xa4, 0x41),
  (0x4e5a, 0xc8, 0x7b), (0x4e5b, 0x8b, 0xc6), (0x4e5c, 0xc9, 0x41), (0x4e5d, 0xa4, 0x45),
  (0x4e5e, 0xa4, 0x5e), (0x4e5f, 0xa4, 0x5d), (0x4e69, 0xa5, 0xe4), (0x4e6a, 0x9c, 0x57),
  (0x4e73, 0xa8, 0xc5), (0x4e78, 0x9a, 0xfb), (0x4e7e, 0xb0, 0xae), (0x4e7f, 0xd4, 0x4b),
  (0x4e80, 0x89, 0xd0), (0x4e81, 0x89, 0xcf), (0x4e82, 0xb6, 0xc3), (0x4e83, 0xdc, 0xb1),
  (0x4e84, 0xdc, 0xb2), (0x4e85, 0xc6, 0xc1), (0x4e86, 0xa4, 0x46), (0x4e87, 0x89, 0xd1),
  (0x4e88, 0xa4, 0xa9), (0x4e89, 0x89, 0xe2), (0x4e8b, 0xa8, 0xc6), (0x4e8c, 0xa4, 0x47),
  (0x4e8d, 0xc9, 0x48), (0x4e8e, 0xa4, 0x5f), (0x4e91, 0xa4, 0xaa), (0x4e92, 0xa4, 0xac),
  (0x4e93, 0xc9, 0x51), (0x4e94, 0xa4, 0xad), (0x4e95, 0xa4, 0xab), (0x4e98, 0x92, 0x7e),
  (0x4e99, 0xa5, 0xe5), (0x4e9a, 0x9d, 0xba), (0x4e9b, 0xa8, 0xc7), (0x4e9e, 0xa8, 0xc8),
  (0x4e9f, 0xab, 0x45), (0x4ea0, 0xc6, 0xc2), (0x4ea1, 0xa4, 0x60), (0x4ea2, 0xa4, 0xae),
  (0x4ea3, 0x8c, 0x6f), (0x4ea4, 0xa5, 0xe6), (0x4ea5, 0xa5, 0xe8), (0x4ea6, 0xa5, 0xe7),
  (0x4ea8, 0xa6, 0xeb), (0x4eab, 0xa8, 0xc9), (0x4eac, 0xa8, 0xca), (0x4ead, 0xab, 0x46),
  (0x4eae, 0xab, 0x47), (0x4eb3, 0xad, 0xbd), (0x4eb6, 0xdc, 0xb3), (0x4eb7, 0xfb, 0xf8),
  (0x4eb9, 0xf6, 0xd6), (0x4eba, 0xa4, 0x48), (0x4ebb, 0x8b, 0xc7), (0x4ebc, 0x92, 0x6b),
  (0x4ebf, 0x89, 0xd2), (0x4ec0, 0xa4, 0xb0), (0x4ec1, 0xa4, 0xaf), (0x4ec2, 0xc9, 0x52),
  (0x4ec3, 0xa4, 0xb1), (0x4ec4, 0xa4, 0xb7), (0x4ec6, 0xa4, 0xb2), (0x4ec7, 0xa4, 0xb3),
  (0x4ec8, 0xc9, 0x54), (0x4ec9, 0xc9, 0x53), (0x4eca, 0xa4, 0xb5), (0x4ecb, 0xa4, 0xb6),
  (0x4ecd, 0xa4, 0xb4), (0x4ece, 0x9f, 0xcf), (0x4ed4, 0xa5, 0x4a), (0x4ed5, 0xa5, 0x4b),
  (0x4ed6, 0xa5, 0x4c), (0x4ed7, 0xa5, 0x4d), (0x4ed8, 0xa5, 0x49), (0x4ed9, 0xa5, 0x50)]

/-- `ENCODE_TABLE[1408..1536]`, (code point, byte 0, byte 1).  src/generated/whatwg/big5_whatwg_tables.rs.inc:2950-2992 -/
def encRow11 : List (Nat × Nat × Nat) := [
  (0x4eda, 0xc9, 0x6a), (0x4edc, 0xc9, 0x66), (0x4edd, 0xc6, 0xdf), (0x4ede, 0xa5, 0x51),
  (0x4edf, 0xa5, 0x61), (0x4ee1, 0xc9, 0x68), (0x4ee3, 0xa5, 0x4e), (0x4ee4, 0xa5, 0x4f),
  (0x4ee5, 0xa5, 0x48), (0x4ee8, 0xc9, 0x65), (0x4ee9, 0xc9, 0x67), (0x4eea, 0x9d, 0xa9),
  (0x4eeb, 0x89, 0xd3), (0x4eee, 0x99, 0xe2), (0x4ef0, 0xa5, 0xf5), (0x4ef1, 0xc9, 0xb0),
  (0x4ef2, 0xa5, 0xf2), (0x4ef3, 0xa5, 0xf6), (0x4ef4, 0xc9, 0xba), (0x4ef5, 0xc9, 0xae),
  (0x4ef6, 0xa5, 0xf3), (0x4ef7, 0xc9, 0xb2), (0x4ef8, 0x92, 0x67), (0x4efb, 0xa5, 0xf4),
  (0x4efd, 0xa5, 0xf7), (0x4eff, 0xa5, 0xe9), (0x4f00, 0xc9, 0xb1), (0x4f01, 0xa5, 0xf8),
  (0x4f02, 0xc9, 0xb5), (0x4f03, 0x92, 0xa4), (0x4f04, 0xc9, 0xb9), (0x4f05, 0xc9, 0xb6),
  (0x4f08, 0xc9, 0xb3), (0x4f09, 0xa5, 0xea), (0x4f0a, 0xa5, 0xec), (0x4f0b, 0xa5, 0xf9),
  (0x4f0d, 0xa5, 0xee), (0x4f0e, 0xc9, 0xab), (0x4f0f, 0xa5, 0xf1), (0x4f10, 0xa5, 0xef),
  (0x4f11, 0xa5, 0xf0), (0x4f12, 0xc9, 0xbb), (0x4f13, 0xc9, 0xb8), (0x4f14, 0xc9, 0xaf),
  (0x4f15, 0xa5, 0xed), (0x4f17, 0x8c, 0x73), (0x4f18, 0xc9, 0xac), (0x4f19, 0xa5, 0xeb),
  (0x4f1a, 0x89, 0x4e), (0x4f1d, 0xc9, 0xb4), (0x4f22, 0xc9, 0xb7), (0x4f28, 0x89, 0x4f),
  (0x4f29, 0x92, 0x78), (0x4f2c, 0xc9, 0xad), (0x4f2d, 0xca, 0x66), (0x4f2f, 0xa7, 0x42),
  (0x4f30, 0xa6, 0xf4), (0x4f32, 0x91, 0xb6), (0x4f33, 0xca, 0x67), (0x4f34, 0xa6, 0xf1),
  (0x4f36, 0xa7, 0x44), (0x4f37, 0x89, 0xd4), (0x4f38, 0xa6, 0xf9), (0x4f39, 0x9f, 0xd2),
  (0x4f3a, 0xa6, 0xf8), (0x4f3b, 0xca, 0x5b), (0x4f3c, 0xa6, 0xfc), (0x4f3d, 0xa6, 0xf7),
  (0x4f3e, 0xca, 0x60), (0x4f3f, 0xca, 0x68), (0x4f41, 0xca, 0x64), (0x4f42, 0x92, 0xa7),
  (0x4f43, 0xa6, 0xfa), (0x4f45, 0x95, 0xa2), (0x4f46, 0xa6, 0xfd), (0x4f47, 0xa6, 0xee),
  (0x4f48, 0xa7, 0x47), (0x4f49, 0xca, 0x5d), (0x4f4b, 0x92, 0x6e), (0x4f4c, 0xcb, 0xbd),
  (0x4f4d, 0xa6, 0xec), (0x4f4e, 0xa7, 0x43), (0x4f4f, 0xa6, 0xed), (0x4f50, 0xa6, 0xf5),
  (0x4f51, 0xa6, 0xf6), (0x4f52, 0xca, 0x62), (0x4f53, 0xca, 0x5e), (0x4f54, 0xa6, 0xfb),
  (0x4f55, 0xa6, 0xf3), (0x4f56, 0xca, 0x5a), (0x4f57, 0xa6, 0xef), (0x4f58, 0xca, 0x65),
  (0x4f59, 0xa7, 0x45), (0x4f5a, 0xa7, 0x48), (0x4f5b, 0xa6, 0xf2), (0x4f5c, 0xa7, 0x40),
  (0x4f5d, 0xa7, 0x46), (0x4f5e, 0xa6, 0xf0), (0x4f5f, 0xca, 0x63), (0x4f60, 0xa7, 0x41),
  (0x4f61, 0xca, 0x69), (0x4f62, 0xca, 0x5c), (0x4f63, 0xa6, 0xfe), (0x4f64, 0xca, 0x5f),
  (0x4f67, 0xca, 0x61), (0x4f69, 0xa8, 0xd8), (0x4f6a, 0xcb, 0xbf), (0x4f6b, 0xcb, 0xcb),
  (0x4f6c, 0xa8, 0xd0), (0x4f6e, 0xcb, 0xcc), (0x4f6f, 0xa8, 0xcb), (0x4f70, 0xa8, 0xd5),
  (0x4f72, 0x96, 0xea), (0x4f73, 0xa8, 0xce), (0x4f74, 0xcb, 0xb9), (0x4f75, 0xa8, 0xd6),
  (0x4f76, 0xcb, 0xb8), (0x4f77, 0xcb, 0xbc), (0x4f78, 0xcb, 0xc3), (0x4f79, 0xcb, 0xc1),
  (0x4f7a, 0xa8, 0xde), (0x4f7b, 0xa8, 0xd9), (0x4f7c, 0xcb, 0xb3), (0x4f7d, 0xcb, 0xb5),
  (0x4f7e, 0xa8, 0xdb), (0x4f7f, 0xa8, 0xcf), (0x4f80, 0xcb, 0xb6), (0x4f81, 0xcb, 0xc2)]

/-- `ENCODE_TABLE[1536..1664]`, (code point, byte 0, byte 1).  src/generated/whatwg/big5_whatwg_tables.rs.inc:2993-3035 -/
def encRow12 : List (Nat × Nat × Nat) := [
  (0x4f82, 0xcb, 0xc9), (0x4f83, 0xa8, 0xd4), (0x4f84, 0xcb, 0xbb), (0x4f85, 0xcb, 0xb4),
  (0x4f86, 0xa8, 0xd3), (0x4f87, 0xcb, 0xb7), (0x4f88, 0xa8, 0xd7), (0x4f89, 0xcb, 0xba),
  (0x4f8a, 0x92, 0x6f), (0x4f8b, 0xa8, 0xd2), (0x4f8d, 0xa8, 0xcd), (0x4f8f, 0xa8, 0xdc),
  (0x4f90, 0xcb, 0xc4), (0x4f91, 0xa8, 0xdd), (0x4f92, 0xcb, 0xc8), (0x4f94, 0xcb, 0xc6),
  (0x4f95, 0xcb, 0xca), (0x4f96, 0xa8, 0xda), (0x4f97, 0xcb, 0xbe), (0x4f98, 0xcb, 0xb2),
  (0x4f9a, 0xcb, 0xc0), (0x4f9b, 0xa8, 0xd1), (0x4f9c, 0xcb, 0xc5), (0x4f9d, 0xa8, 0xcc),
  (0x4f9e, 0xcb, 0xc7), (0x4fa2, 0x92, 0xa3), (0x4fa8, 0x89, 0x50), (0x4fab, 0xfa, 0x57),
  (0x4fae, 0xab, 0x56), (0x4faf, 0xab, 0x4a), (0x4fb0, 0x98, 0x66), (0x4fb2, 0xcd, 0xe0),
  (0x4fb3, 0xcd, 0xe8), (0x4fb4, 0x8c, 0xf8), (0x4fb5, 0xab, 0x49), (0x4fb6, 0xab, 0x51),
  (0x4fb7, 0xab, 0x5d), (0x4fb9, 0xcd, 0xee), (0x4fba, 0xcd, 0xec), (0x4fbb, 0x9c, 0x53),
  (0x4fbd, 0x89, 0xd6), (0x4fbf, 0xab, 0x4b), (0x4fc0, 0xcd, 0xed), (0x4fc1, 0xcd, 0xe3),
  (0x4fc2, 0xab, 0x59), (0x4fc3, 0xab, 0x50), (0x4fc4, 0xab, 0x58), (0x4fc5, 0xcd, 0xde),
  (0x4fc7, 0xcd, 0xea), (0x4fc8, 0x98, 0xb2), (0x4fc9, 0xcd, 0xe1), (0x4fca, 0xab, 0x54),
  (0x4fcb, 0xcd, 0xe2), (0x4fcc, 0x92, 0xab), (0x4fcd, 0xcd, 0xdd), (0x4fce, 0xab, 0x5b),
  (0x4fcf, 0xab, 0x4e), (0x4fd0, 0xab, 0x57), (0x4fd1, 0xab, 0x4d), (0x4fd3, 0xcd, 0xdf),
  (0x4fd4, 0xcd, 0xe4), (0x4fd6, 0xcd, 0xeb), (0x4fd7, 0xab, 0x55), (0x4fd8, 0xab, 0x52),
  (0x4fd9, 0xcd, 0xe6), (0x4fda, 0xab, 0x5a), (0x4fdb, 0xcd, 0xe9), (0x4fdc, 0xcd, 0xe5),
  (0x4fdd, 0xab, 0x4f), (0x4fde, 0xab, 0x5c), (0x4fdf, 0xab, 0x53), (0x4fe0, 0xab, 0x4c),
  (0x4fe1, 0xab, 0x48), (0x4fe4, 0x96, 0xde), (0x4fe5, 0x92, 0xac), (0x4fec, 0xcd, 0xef),
  (0x4fee, 0xad, 0xd7), (0x4fef, 0xad, 0xc1), (0x4ff0, 0x8c, 0x70), (0x4ff1, 0xad, 0xd1),
  (0x4ff2, 0x9f, 0x6e), (0x4ff3, 0xad, 0xd6), (0x4ff4, 0xd0, 0xd0), (0x4ff5, 0xd0, 0xcf),
  (0x4ff6, 0xd0, 0xd4), (0x4ff7, 0xd0, 0xd5), (0x4ff8, 0xad, 0xc4), (0x4ff9, 0x8e, 0xf2),
  (0x4ffa, 0xad, 0xcd), (0x4ffd, 0x9f, 0x6c), (0x4ffe, 0xad, 0xda), (0x5000, 0xad, 0xce),
  (0x5003, 0x89, 0xd8), (0x5005, 0xd0, 0xc9), (0x5006, 0xad, 0xc7), (0x5007, 0xd0, 0xca),
  (0x5008, 0xfa, 0x59), (0x5009, 0xad, 0xdc), (0x500b, 0xad, 0xd3), (0x500c, 0xad, 0xbe),
  (0x500d, 0xad, 0xbf), (0x500e, 0xd0, 0xdd), (0x500f, 0xb0, 0xbf), (0x5011, 0xad, 0xcc),
  (0x5012, 0xad, 0xcb), (0x5013, 0xd0, 0xcb), (0x5014, 0xad, 0xcf), (0x5015, 0xd4, 0x5b),
  (0x5016, 0xad, 0xc6), (0x5017, 0xd0, 0xd6), (0x5018, 0xad, 0xd5), (0x5019, 0xad, 0xd4),
  (0x501a, 0xad, 0xca), (0x501b, 0xd0, 0xce), (0x501c, 0xd0, 0xd7), (0x501e, 0xd0, 0xc8),
  (0x501f, 0xad, 0xc9), (0x5020, 0xd0, 0xd8), (0x5021, 0xad, 0xd2), (0x5022, 0xd0, 0xcc),
  (0x5023, 0xad, 0xc0), (0x5025, 0xad, 0xc3), (0x5026, 0xad, 0xc2), (0x5027, 0xd0, 0xd9),
  (0x5028, 0xad, 0xd0), (0x5029, 0xad, 0xc5), (0x502a, 0xad, 0xd9), (0x502b, 0xad, 0xdb)]

/-- `ENCODE_TABLE[1664..1792]`, (code point, byte 0, byte 1).  src/generated/whatwg/big5_whatwg_tables.rs.inc:3035-3078 -/
def encRow13 : List (Nat × Nat × Nat) := [
  (0x502c, 0xd0, 0xd3), (0x502d, 0xad, 0xd8), (0x502e, 0x92, 0xa8), (0x502f, 0xd0, 0xdb),
  (0x5030, 0xd0, 0xcd), (0x5031, 0xd0, 0xdc), (0x5033, 0xd0, 0xd1), (0x5034, 0x91, 0x63),
  (0x5035, 0xd0, 0xda), (0x5037, 0xd0, 0xd2), (0x503b, 0x8c, 0x40), (0x503c, 0xad, 0xc8),
  (0x5040, 0xd4, 0x63), (0x5041, 0xd4, 0x57), (0x5043, 0xb0, 0xb3), (0x5045, 0xd4, 0x5c),
  (0x5046, 0xd4, 0x62), (0x5047, 0xb0, 0xb2), (0x5048, 0xd4, 0x55), (0x5049, 0xb0, 0xb6),
  (0x504a, 0xd4, 0x59), (0x504b, 0xd4, 0x52), (0x504c, 0xb0, 0xb4), (0x504d, 0xd4, 0x56),
  (0x504e, 0xb0, 0xb9), (0x504f, 0xb0, 0xbe), (0x5051, 0xd4, 0x67), (0x5053, 0xd4, 0x51),
  (0x5055, 0xb0, 0xba), (0x5056, 0x9f, 0x73), (0x5057, 0xd4, 0x66), (0x5058, 0x92, 0xad),
  (0x505a, 0xb0, 0xb5), (0x505b, 0xd4, 0x58), (0x505c, 0xb0, 0xb1), (0x505d, 0xd4, 0x53),
  (0x505e, 0xd4, 0x4f), (0x505f, 0xd4, 0x5d), (0x5060, 0xd4, 0x50), (0x5061, 0xd4, 0x4e),
  (0x5062, 0xd4, 0x5a), (0x5063, 0xd4, 0x60), (0x5064, 0xd4, 0x61), (0x5065, 0xb0, 0xb7),
  (0x5066, 0x9b, 0xe9), (0x5068, 0xd8, 0x5b), (0x5069, 0xd4, 0x5e), (0x506a, 0xd4, 0x4d),
  (0x506b, 0xd4, 0x5f), (0x506c, 0x92, 0xa9), (0x506d, 0xb0, 0xc1), (0x506e, 0xd4, 0x64),
  (0x506f, 0xb0, 0xc0), (0x5070, 0xd4, 0x4c), (0x5072, 0xd4, 0x54), (0x5073, 0xd4, 0x65),
  (0x5074, 0xb0, 0xbc), (0x5075, 0xb0, 0xbb), (0x5076, 0xb0, 0xb8), (0x5077, 0xb0, 0xbd),
  (0x507a, 0xb0, 0xaf), (0x507d, 0xb0, 0xb0), (0x5080, 0xb3, 0xc8), (0x5081, 0x92, 0xaa),
  (0x5082, 0xd8, 0x5e), (0x5083, 0xd8, 0x57), (0x5085, 0xb3, 0xc5), (0x5087, 0xd8, 0x5f),
  (0x5088, 0x89, 0xd9), (0x508b, 0xd8, 0x55), (0x508c, 0xd8, 0x58), (0x508d, 0xb3, 0xc4),
  (0x508e, 0xd8, 0x59), (0x5090, 0xfd, 0x56), (0x5091, 0xb3, 0xc7), (0x5092, 0xd8, 0x5d),
  (0x5094, 0xd8, 0x53), (0x5095, 0xd8, 0x52), (0x5096, 0xb3, 0xc9), (0x5098, 0xb3, 0xca),
  (0x5099, 0xb3, 0xc6), (0x509a, 0xb3, 0xcb), (0x509b, 0xd8, 0x51), (0x509c, 0xd8, 0x5c),
  (0x509d, 0xd8, 0x5a), (0x509e, 0xd8, 0x54), (0x50a2, 0xb3, 0xc3), (0x50a3, 0xd8, 0x56),
  (0x50a6, 0x9f, 0xa8), (0x50ac, 0xb6, 0xca), (0x50ad, 0xb6, 0xc4), (0x50ae, 0xdc, 0xb7),
  (0x50af, 0xb6, 0xcd), (0x50b0, 0xdc, 0xbd), (0x50b1, 0xdc, 0xc0), (0x50b2, 0xb6, 0xc6),
  (0x50b3, 0xb6, 0xc7), (0x50b4, 0xdc, 0xba), (0x50b5, 0xb6, 0xc5), (0x50b6, 0xdc, 0xc3),
  (0x50b7, 0xb6, 0xcb), (0x50b8, 0xdc, 0xc4), (0x50ba, 0xdc, 0xbf), (0x50bb, 0xb6, 0xcc),
  (0x50bc, 0x8c, 0x71), (0x50bd, 0xdc, 0xb4), (0x50be, 0xb6, 0xc9), (0x50bf, 0xdc, 0xb5),
  (0x50c1, 0xdc, 0xbe), (0x50c2, 0xdc, 0xbc), (0x50c4, 0xdc, 0xb8), (0x50c5, 0xb6, 0xc8),
  (0x50c6, 0xdc, 0xb6), (0x50c7, 0xb6, 0xce), (0x50c8, 0xdc, 0xbb), (0x50c9, 0xdc, 0xc2),
  (0x50ca, 0xdc, 0xb9), (0x50cb, 0xdc, 0xc1), (0x50cd, 0x92, 0xa1), (0x50ce, 0xb9, 0xb6),
  (0x50cf, 0xb9, 0xb3), (0x50d0, 0x90, 0xe3), (0x50d1, 0xb9, 0xb4), (0x50d3, 0xe0, 0xf9),
  (0x50d4, 0xe0, 0xf1), (0x50d5, 0xb9, 0xb2), (0x50d6, 0xb9, 0xaf), (0x50d7, 0xe0, 0xf2)]

/-- `ENCODE_TABLE[1792..1920]`, (code point, byte 0, byte 1).  src/generated/whatwg/big5_whatwg_tables.rs.inc:3078-3120 -/
def encRow14 : List (Nat × Nat × Nat) := [
  (0x50d9, 0xa0, 0xa6), (0x50da, 0xb9, 0xb1), (0x50db, 0xe0, 0xf5), (0x50dd, 0xe0, 0xf7),
  (0x50df, 0x94, 0xab), (0x50e0, 0xe0, 0xfe), (0x50e1, 0xfc, 0x72), (0x50e3, 0xe0, 0xfd),
  (0x50e4, 0xe0, 0xf8), (0x50e5, 0xb9, 0xae), (0x50e6, 0xe0, 0xf0), (0x50e7, 0xb9, 0xac),
  (0x50e8, 0xe0, 0xf3), (0x50e9, 0xb9, 0xb7), (0x50ea, 0xe0, 0xf6), (0x50ec, 0xe0, 0xfa),
  (0x50ed, 0x9f, 0xcb), (0x50ee, 0xb9, 0xad), (0x50ef, 0xe0, 0xfc), (0x50f0, 0xe0, 0xfb),
  (0x50f1, 0xb9, 0xb5), (0x50f3, 0xe0, 0xf4), (0x50f4, 0x97, 0xc4), (0x50f5, 0xbb, 0xf8),
  (0x50f6, 0xe4, 0xec), (0x50f8, 0xe4, 0xe9), (0x50f9, 0xbb, 0xf9), (0x50fb, 0xbb, 0xf7),
  (0x50fc, 0x92, 0xae), (0x50fd, 0xe4, 0xf0), (0x50fe, 0xe4, 0xed), (0x50ff, 0xe4, 0xe6),
  (0x5100, 0xbb, 0xf6), (0x5101, 0xfa, 0x67), (0x5102, 0xbb, 0xfa), (0x5103, 0xe4, 0xe7),
  (0x5104, 0xbb, 0xf5), (0x5105, 0xbb, 0xfd), (0x5106, 0xe4, 0xea), (0x5107, 0xe4, 0xeb),
  (0x5108, 0xbb, 0xfb), (0x5109, 0xbb, 0xfc), (0x510a, 0xe4, 0xf1), (0x510b, 0xe4, 0xee),
  (0x510c, 0xe4, 0xef), (0x510d, 0x92, 0xa2), (0x510e, 0xfa, 0x69), (0x5110, 0xbe, 0xaa),
  (0x5111, 0xe8, 0xf8), (0x5112, 0xbe, 0xa7), (0x5113, 0xe8, 0xf5), (0x5114, 0xbe, 0xa9),
  (0x5115, 0xbe, 0xab), (0x5117, 0xe8, 0xf6), (0x5118, 0xbe, 0xa8), (0x511a, 0xe8, 0xf7),
  (0x511c, 0xe8, 0xf4), (0x511f, 0xc0, 0x76), (0x5120, 0xec, 0xbd), (0x5121, 0xc0, 0x77),
  (0x5122, 0xec, 0xbb), (0x5124, 0xec, 0xbc), (0x5125, 0xec, 0xba), (0x5126, 0xec, 0xb9),
  (0x5129, 0xec, 0xbe), (0x512a, 0xc0, 0x75), (0x512b, 0x92, 0x68), (0x512d, 0xef, 0xb8),
  (0x512e, 0xef, 0xb9), (0x5130, 0xe4, 0xe8), (0x5131, 0xef, 0xb7), (0x5132, 0xc0, 0x78),
  (0x5133, 0xc3, 0x5f), (0x5134, 0xf1, 0xeb), (0x5135, 0xf1, 0xec), (0x5137, 0xc4, 0xd7),
  (0x5138, 0xc4, 0xd8), (0x5139, 0xf5, 0xc1), (0x513a, 0xf5, 0xc0), (0x513b, 0xc5, 0x6c),
  (0x513c, 0xc5, 0x6b), (0x513d, 0xf7, 0xd0), (0x513f, 0xa4, 0x49), (0x5140, 0xa4, 0x61),
  (0x5141, 0xa4, 0xb9), (0x5143, 0xa4, 0xb8), (0x5144, 0xa5, 0x53), (0x5145, 0xa5, 0x52),
  (0x5146, 0xa5, 0xfc), (0x5147, 0xa5, 0xfb), (0x5148, 0xa5, 0xfd), (0x5149, 0xa5, 0xfa),
  (0x514b, 0xa7, 0x4a), (0x514c, 0xa7, 0x49), (0x514d, 0xa7, 0x4b), (0x5152, 0xa8, 0xe0),
  (0x5154, 0xa8, 0xdf), (0x5155, 0xa8, 0xe1), (0x5156, 0x89, 0x51), (0x5157, 0xab, 0x5e),
  (0x5159, 0x92, 0xaf), (0x515a, 0xd0, 0xde), (0x515b, 0x92, 0xb0), (0x515c, 0xb0, 0xc2),
  (0x515d, 0x92, 0xb1), (0x515e, 0x92, 0xb2), (0x515f, 0xd8, 0x60), (0x5160, 0xfa, 0x6f),
  (0x5161, 0xa2, 0x5d), (0x5162, 0xb9, 0xb8), (0x5163, 0xa2, 0x5e), (0x5165, 0xa4, 0x4a),
  (0x5167, 0xa4, 0xba), (0x5168, 0xa5, 0xfe), (0x5169, 0xa8, 0xe2), (0x516a, 0xfa, 0x71),
  (0x516b, 0xa4, 0x4b), (0x516c, 0xa4, 0xbd), (0x516d, 0xa4, 0xbb), (0x516e, 0xa4, 0xbc),
  (0x5171, 0xa6, 0x40), (0x5174, 0x89, 0x52), (0x5175, 0xa7, 0x4c), (0x5176, 0xa8, 0xe4),
  (0x5177, 0xa8, 0xe3), (0x5178, 0xa8, 0xe5), (0x5179, 0x94, 0x5a), (0x517c, 0xad, 0xdd)]

/-- `ENCODE_TABLE[1920..2048]`, (code point, byte 0, byte 1).  src/generated/whatwg/big5_whatwg_tables.rs.inc:3121-3163 -/
def encRow15 : List (Nat × Nat × Nat) := [
  (0x5180, 0xbe, 0xac), (0x5182, 0xc6, 0xc3), (0x5186, 0x89, 0xdd), (0x5187, 0xc9, 0x4e),
  (0x5188, 0xc8, 0xa2), (0x5189, 0xa5, 0x54), (0x518a, 0xa5, 0x55), (0x518d, 0xa6, 0x41),
  (0x518f, 0xca, 0x6a), (0x5191, 0xab, 0x60), (0x5192, 0xab, 0x5f), (0x5193, 0xd0, 0xe0),
  (0x5194, 0xd0, 0xdf), (0x5195, 0xb0, 0xc3), (0x5196, 0xc6, 0xc4), (0x5197, 0xa4, 0xbe),
  (0x5198, 0xc9, 0x55), (0x519a, 0x9e, 0x52), (0x519c, 0x89, 0x53), (0x519e, 0xcb, 0xcd),
  (0x51a0, 0xab, 0x61), (0x51a2, 0xad, 0xe0), (0x51a4, 0xad, 0xde), (0x51a5, 0xad, 0xdf),
  (0x51a7, 0x9e, 0x55), (0x51a8, 0x92, 0xba), (0x51aa, 0xbe, 0xad), (0x51ab, 0xc6, 0xc5),
  (0x51ac, 0xa5, 0x56), (0x51ae, 0x8c, 0x5b), (0x51b0, 0xa6, 0x42), (0x51b1, 0xc9, 0xbc),
  (0x51b2, 0xfa, 0x7d), (0x51b3, 0xfa, 0xa8), (0x51b4, 0x9a, 0x68), (0x51b5, 0xfa, 0x47),
  (0x51b6, 0xa7, 0x4d), (0x51b7, 0xa7, 0x4e), (0x51b8, 0xfa, 0x7e), (0x51b9, 0xca, 0x6b),
  (0x51bc, 0xcb, 0xce), (0x51bd, 0xa8, 0xe6), (0x51be, 0xcb, 0xcf), (0x51c3, 0x92, 0xbb),
  (0x51c4, 0xd0, 0xe2), (0x51c5, 0xd0, 0xe3), (0x51c6, 0xad, 0xe3), (0x51c7, 0xfd, 0xb6),
  (0x51c8, 0xd0, 0xe4), (0x51c9, 0xfa, 0xa2), (0x51ca, 0xd0, 0xe1), (0x51cb, 0xad, 0xe4),
  (0x51cc, 0xad, 0xe2), (0x51cd, 0xad, 0xe1), (0x51ce, 0xd0, 0xe5), (0x51cf, 0xfa, 0xa3),
  (0x51d0, 0xd4, 0x68), (0x51d1, 0xfa, 0xa4), (0x51d2, 0x9b, 0xb4), (0x51d3, 0xfa, 0xa6),
  (0x51d4, 0xd8, 0x61), (0x51d7, 0xdc, 0xc5), (0x51d8, 0xe1, 0x40), (0x51db, 0x89, 0xdf),
  (0x51dc, 0xbb, 0xfe), (0x51dd, 0xbe, 0xae), (0x51de, 0xe8, 0xf9), (0x51df, 0xfd, 0xdb),
  (0x51e0, 0xa4, 0x4c), (0x51e1, 0xa4, 0x5a), (0x51e2, 0xfa, 0xa9), (0x51e4, 0x89, 0x54),
  (0x51ed, 0xfa, 0xab), (0x51f0, 0xb0, 0xc4), (0x51f1, 0xb3, 0xcd), (0x51f3, 0xb9, 0xb9),
  (0x51f4, 0xfc, 0x7a), (0x51f5, 0xc9, 0x42), (0x51f6, 0xa4, 0xbf), (0x51f8, 0xa5, 0x59),
  (0x51f9, 0xa5, 0x57), (0x51fa, 0xa5, 0x58), (0x51fc, 0x89, 0xe0), (0x51fd, 0xa8, 0xe7),
  (0x51fe, 0x9f, 0x4f), (0x5200, 0xa4, 0x4d), (0x5201, 0xa4, 0x4e), (0x5202, 0xc8, 0x7d),
  (0x5203, 0xa4, 0x62), (0x5205, 0x89, 0xe1), (0x5206, 0xa4, 0xc0), (0x5207, 0xa4, 0xc1),
  (0x5208, 0xa4, 0xc2), (0x5209, 0xc9, 0xbe), (0x520a, 0xa5, 0x5a), (0x520b, 0xfa, 0xb0),
  (0x520c, 0xc9, 0x6b), (0x520e, 0xa6, 0x46), (0x5210, 0xc9, 0xbf), (0x5211, 0xa6, 0x44),
  (0x5212, 0xa6, 0x45), (0x5213, 0xc9, 0xbd), (0x5216, 0xa6, 0x47), (0x5217, 0xa6, 0x43),
  (0x521c, 0xca, 0x6c), (0x521d, 0xaa, 0xec), (0x521e, 0xca, 0x6d), (0x521f, 0x9f, 0xcd),
  (0x5220, 0xa0, 0xe7), (0x5221, 0xca, 0x6e), (0x5224, 0xa7, 0x50), (0x5225, 0xa7, 0x4f),
  (0x5226, 0xfa, 0xb1), (0x5227, 0x89, 0xa6), (0x5228, 0xa7, 0x53), (0x5229, 0xa7, 0x51),
  (0x522a, 0xa7, 0x52), (0x522e, 0xa8, 0xed), (0x5230, 0xa8, 0xec), (0x5231, 0xcb, 0xd4),
  (0x5232, 0xcb, 0xd1), (0x5233, 0xcb, 0xd2), (0x5234, 0x9e, 0xfa), (0x5235, 0xcb, 0xd0),
  (0x5236, 0xa8, 0xee), (0x5237, 0xa8, 0xea), (0x5238, 0xa8, 0xe9), (0x523a, 0xa8, 0xeb)]

/-- `ENCODE_TABLE[2048..2176]`, (code point, byte 0, byte 1).  src/generated/whatwg/big5_whatwg_tables.rs.inc:3163-3206 -/
def encRow16 : List (Nat × Nat × Nat) := [
  (0x523b, 0xa8, 0xe8), (0x523c, 0xfa, 0xb2), (0x5241, 0xa8, 0xef), (0x5243, 0xab, 0x63),
  (0x5244, 0xcd, 0xf0), (0x5246, 0xcb, 0xd3), (0x5247, 0xab, 0x68), (0x5249, 0xcd, 0xf1),
  (0x524a, 0xab, 0x64), (0x524b, 0xab, 0x67), (0x524c, 0xab, 0x66), (0x524d, 0xab, 0x65),
  (0x524e, 0xab, 0x62), (0x524f, 0x87, 0xbc), (0x5252, 0xd0, 0xe8), (0x5254, 0xad, 0xe7),
  (0x5255, 0xd0, 0xeb), (0x5256, 0xad, 0xe5), (0x5257, 0xfa, 0xb4), (0x5259, 0x92, 0xc4),
  (0x525a, 0xd0, 0xe7), (0x525b, 0xad, 0xe8), (0x525c, 0xad, 0xe6), (0x525d, 0xad, 0xe9),
  (0x525e, 0xd0, 0xe9), (0x525f, 0xd0, 0xea), (0x5260, 0x9f, 0x6f), (0x5261, 0xd0, 0xe6),
  (0x5262, 0xd0, 0xec), (0x5268, 0x8b, 0xb0), (0x5269, 0xb3, 0xd1), (0x526a, 0xb0, 0xc5),
  (0x526b, 0xd4, 0x69), (0x526c, 0xd4, 0x6b), (0x526d, 0xd4, 0x6a), (0x526e, 0xd4, 0x6c),
  (0x526f, 0xb0, 0xc6), (0x5272, 0xb3, 0xce), (0x5273, 0x9f, 0xac), (0x5274, 0xb3, 0xcf),
  (0x5275, 0xb3, 0xd0), (0x5277, 0xb6, 0xd0), (0x5278, 0xdc, 0xc7), (0x5279, 0x89, 0xe3),
  (0x527a, 0xdc, 0xc6), (0x527b, 0xdc, 0xc8), (0x527c, 0xdc, 0xc9), (0x527d, 0xb6, 0xd1),
  (0x527f, 0xb6, 0xcf), (0x5280, 0xe1, 0x41), (0x5281, 0xe1, 0x42), (0x5282, 0xb9, 0xbb),
  (0x5283, 0xb9, 0xba), (0x5284, 0xe3, 0x5a), (0x5287, 0xbc, 0x40), (0x5288, 0xbc, 0x41),
  (0x5289, 0xbc, 0x42), (0x528a, 0xbc, 0x44), (0x528b, 0xe4, 0xf2), (0x528c, 0xe4, 0xf3),
  (0x528d, 0xbc, 0x43), (0x528f, 0x9b, 0xd3), (0x5290, 0x89, 0xe4), (0x5291, 0xbe, 0xaf),
  (0x5293, 0xbe, 0xb0), (0x5294, 0xfa, 0xb5), (0x5296, 0xf1, 0xed), (0x5297, 0xf5, 0xc3),
  (0x5298, 0xf5, 0xc2), (0x5299, 0xf7, 0xd1), (0x529a, 0x9f, 0xd5), (0x529b, 0xa4, 0x4f),
  (0x529f, 0xa5, 0x5c), (0x52a0, 0xa5, 0x5b), (0x52a1, 0x89, 0x55), (0x52a3, 0xa6, 0x48),
  (0x52a4, 0x92, 0xc5), (0x52a6, 0xc9, 0xc0), (0x52a8, 0x89, 0x56), (0x52a9, 0xa7, 0x55),
  (0x52aa, 0xa7, 0x56), (0x52ab, 0xa7, 0x54), (0x52ac, 0xa7, 0x57), (0x52ad, 0xca, 0x6f),
  (0x52ae, 0xca, 0x70), (0x52b5, 0xfa, 0xb3), (0x52b9, 0xfa, 0xb6), (0x52bb, 0xa8, 0xf1),
  (0x52bc, 0xcb, 0xd5), (0x52be, 0xa8, 0xf0), (0x52c0, 0xcd, 0xf2), (0x52c1, 0xab, 0x6c),
  (0x52c2, 0xcd, 0xf3), (0x52c3, 0xab, 0x6b), (0x52c5, 0xfa, 0xb7), (0x52c7, 0xab, 0x69),
  (0x52c9, 0xab, 0x6a), (0x52cc, 0x9e, 0xdc), (0x52cd, 0xd0, 0xed), (0x52d0, 0xfb, 0xc4),
  (0x52d1, 0x9f, 0x71), (0x52d2, 0xb0, 0xc7), (0x52d3, 0xd4, 0x6e), (0x52d5, 0xb0, 0xca),
  (0x52d6, 0xd4, 0x6d), (0x52d7, 0xb1, 0xe5), (0x52d8, 0xb0, 0xc9), (0x52d9, 0xb0, 0xc8),
  (0x52db, 0xb3, 0xd4), (0x52dd, 0xb3, 0xd3), (0x52de, 0xb3, 0xd2), (0x52df, 0xb6, 0xd2),
  (0x52e0, 0xfa, 0xba), (0x52e1, 0x92, 0xc7), (0x52e2, 0xb6, 0xd5), (0x52e3, 0xb6, 0xd6),
  (0x52e4, 0xb6, 0xd4), (0x52e6, 0xb6, 0xd3), (0x52e9, 0xe1, 0x43), (0x52eb, 0xe1, 0x44),
  (0x52ef, 0xe4, 0xf5), (0x52f0, 0xbc, 0x45), (0x52f1, 0xe4, 0xf4), (0x52f3, 0xbe, 0xb1),
  (0x52f4, 0xec, 0xbf), (0x52f5, 0xc0, 0x79), (0x52f7, 0xf1, 0xee), (0x52f8, 0xc4, 0x55)]

/-- `ENCODE_TABLE[2176..2304]`, (code point, byte 0, byte 1).  src/generated/whatwg/big5_whatwg_tables.rs.inc:3206-3248 -/
def encRow17 : List (Nat × Nat × Nat) := [
  (0x52f9, 0xc6, 0xc6), (0x52fa, 0xa4, 0x63), (0x52fb, 0xa4, 0xc3), (0x52fc, 0xc9, 0x56),
  (0x52fe, 0xa4, 0xc4), (0x52ff, 0xa4, 0xc5), (0x5301, 0x9a, 0x4c), (0x5305, 0xa5, 0x5d),
  (0x5306, 0xa5, 0x5e), (0x5308, 0xa6, 0x49), (0x5309, 0xca, 0x71), (0x530a, 0xcb, 0xd6),
  (0x530b, 0xcb, 0xd7), (0x530d, 0xab, 0x6d), (0x530e, 0xd0, 0xee), (0x530f, 0xb0, 0xcc),
  (0x5310, 0xb0, 0xcb), (0x5311, 0xd8, 0x63), (0x5312, 0xd8, 0x62), (0x5315, 0xa4, 0x50),
  (0x5316, 0xa4, 0xc6), (0x5317, 0xa5, 0x5f), (0x5319, 0xb0, 0xcd), (0x531a, 0xc9, 0x43),
  (0x531c, 0xc9, 0x6c), (0x531d, 0xa5, 0x60), (0x531f, 0xc9, 0xc2), (0x5320, 0xa6, 0x4b),
  (0x5321, 0xa6, 0x4a), (0x5322, 0xc9, 0xc1), (0x5323, 0xa7, 0x58), (0x5324, 0x8c, 0x68),
  (0x5327, 0x89, 0xe5), (0x532a, 0xad, 0xea), (0x532c, 0x9f, 0x7d), (0x532d, 0xd4, 0x6f),
  (0x532f, 0xb6, 0xd7), (0x5330, 0xe1, 0x45), (0x5331, 0xb9, 0xbc), (0x5332, 0xa0, 0xa9),
  (0x5333, 0xfa, 0xc4), (0x5334, 0xe8, 0xfa), (0x5337, 0xf3, 0xfd), (0x5338, 0xc6, 0xc7),
  (0x5339, 0xa4, 0xc7), (0x533b, 0x89, 0x57), (0x533c, 0xcb, 0xd8), (0x533d, 0xcd, 0xf4),
  (0x533e, 0xb0, 0xd0), (0x533f, 0xb0, 0xce), (0x5340, 0xb0, 0xcf), (0x5341, 0xa4, 0x51),
  (0x5342, 0xfa, 0xaa), (0x5343, 0xa4, 0x64), (0x5344, 0xa2, 0xcd), (0x5345, 0xa4, 0xca),
  (0x5347, 0xa4, 0xc9), (0x5348, 0xa4, 0xc8), (0x5349, 0xa5, 0x63), (0x534a, 0xa5, 0x62),
  (0x534c, 0xc9, 0x6d), (0x534d, 0xc9, 0xc3), (0x534e, 0x89, 0x58), (0x5351, 0xa8, 0xf5),
  (0x5352, 0xa8, 0xf2), (0x5353, 0xa8, 0xf4), (0x5354, 0xa8, 0xf3), (0x5357, 0xab, 0x6e),
  (0x535a, 0xb3, 0xd5), (0x535c, 0xa4, 0x52), (0x535d, 0x8b, 0xe3), (0x535e, 0xa4, 0xcb),
  (0x535f, 0x8b, 0x61), (0x5360, 0xa5, 0x65), (0x5361, 0xa5, 0x64), (0x5363, 0xca, 0x72),
  (0x5364, 0x9a, 0xf1), (0x5366, 0xa8, 0xf6), (0x5367, 0x9e, 0xb7), (0x5369, 0xc6, 0xc8),
  (0x536c, 0xc9, 0x57), (0x536d, 0xfa, 0xd1), (0x536e, 0xa5, 0x67), (0x536f, 0xa5, 0x66),
  (0x5370, 0xa6, 0x4c), (0x5371, 0xa6, 0x4d), (0x5372, 0xca, 0x73), (0x5373, 0xa7, 0x59),
  (0x5374, 0xfa, 0xd2), (0x5375, 0xa7, 0x5a), (0x5377, 0xa8, 0xf7), (0x5378, 0xa8, 0xf8),
  (0x5379, 0xa8, 0xf9), (0x537b, 0xab, 0x6f), (0x537c, 0xcd, 0xf5), (0x537d, 0x9e, 0xba),
  (0x537e, 0xfa, 0xd4), (0x537f, 0xad, 0xeb), (0x5382, 0xc9, 0x44), (0x5384, 0xa4, 0xcc),
  (0x538a, 0xc9, 0xc4), (0x538e, 0xca, 0x74), (0x538f, 0xca, 0x75), (0x5392, 0xcb, 0xd9),
  (0x5393, 0xfa, 0xd9), (0x5394, 0xcb, 0xda), (0x5396, 0xcd, 0xf7), (0x5397, 0xcd, 0xf6),
  (0x5398, 0xcd, 0xf9), (0x5399, 0xcd, 0xf8), (0x539a, 0xab, 0x70), (0x539c, 0xd4, 0x70),
  (0x539d, 0xad, 0xed), (0x539e, 0xd0, 0xef), (0x539f, 0xad, 0xec), (0x53a0, 0xfa, 0xdb),
  (0x53a2, 0x9c, 0xe0), (0x53a4, 0xd8, 0x64), (0x53a5, 0xb3, 0xd6), (0x53a6, 0xfb, 0xf7),
  (0x53a7, 0xd8, 0x65), (0x53a8, 0xfb, 0xfa), (0x53a9, 0x89, 0xe7), (0x53aa, 0xa0, 0x7a),
  (0x53ab, 0xfa, 0xdc), (0x53ac, 0xe1, 0x46), (0x53ad, 0xb9, 0xbd), (0x53ae, 0xfa, 0xdd)]

/-- `ENCODE_TABLE[2304..2432]`, (code point, byte 0, byte 1).  src/generated/whatwg/big5_whatwg_tables.rs.inc:3249-3291 -/
def encRow18 : List (Nat × Nat × Nat) := [
  (0x53b0, 0x89, 0xe9), (0x53b2, 0xbc, 0x46), (0x53b4, 0xf1, 0xef), (0x53b6, 0xc6, 0xc9),
  (0x53b9, 0xc9, 0x58), (0x53bb, 0xa5, 0x68), (0x53c1, 0xfa, 0xe2), (0x53c2, 0x89, 0xeb),
  (0x53c3, 0xb0, 0xd1), (0x53c5, 0xfa, 0xe3), (0x53c8, 0xa4, 0x53), (0x53c9, 0xa4, 0x65),
  (0x53ca, 0xa4, 0xce), (0x53cb, 0xa4, 0xcd), (0x53cc, 0x90, 0xc8), (0x53cd, 0xa4, 0xcf),
  (0x53d0, 0x92, 0xda), (0x53d1, 0x89, 0x59), (0x53d2, 0x9c, 0xf5), (0x53d4, 0xa8, 0xfb),
  (0x53d6, 0xa8, 0xfa), (0x53d7, 0xa8, 0xfc), (0x53d8, 0x89, 0x5a), (0x53d9, 0xfa, 0xe7),
  (0x53da, 0x9f, 0xa2), (0x53db, 0xab, 0x71), (0x53df, 0xad, 0xee), (0x53e0, 0xfa, 0xea),
  (0x53e1, 0xe8, 0xfb), (0x53e2, 0xc2, 0x4f), (0x53e3, 0xa4, 0x66), (0x53e4, 0xa5, 0x6a),
  (0x53e5, 0xa5, 0x79), (0x53e6, 0xa5, 0x74), (0x53e8, 0xa5, 0x6f), (0x53e9, 0xa5, 0x6e),
  (0x53ea, 0xa5, 0x75), (0x53eb, 0xa5, 0x73), (0x53ec, 0xa5, 0x6c), (0x53ed, 0xa5, 0x7a),
  (0x53ee, 0xa5, 0x6d), (0x53ef, 0xa5, 0x69), (0x53f0, 0xa5, 0x78), (0x53f1, 0xa5, 0x77),
  (0x53f2, 0xa5, 0x76), (0x53f3, 0xa5, 0x6b), (0x53f5, 0xa5, 0x72), (0x53f6, 0xfa, 0xed),
  (0x53f7, 0x8f, 0xad), (0x53f8, 0xa5, 0x71), (0x53fb, 0xa5, 0x7b), (0x53fc, 0xa5, 0x70),
  (0x53fe, 0xfb, 0x59), (0x5401, 0xa6, 0x53), (0x5403, 0xa6, 0x59), (0x5404, 0xa6, 0x55),
  (0x5406, 0xa6, 0x5b), (0x5407, 0xc9, 0xc5), (0x5408, 0xa6, 0x58), (0x5409, 0xa6, 0x4e),
  (0x540a, 0xa6, 0x51), (0x540b, 0xa6, 0x54), (0x540c, 0xa6, 0x50), (0x540d, 0xa6, 0x57),
  (0x540e, 0xa6, 0x5a), (0x540f, 0xa6, 0x4f), (0x5410, 0xa6, 0x52), (0x5411, 0xa6, 0x56),
  (0x5412, 0xa6, 0x5c), (0x5413, 0xfa, 0xef), (0x5414, 0x96, 0xef), (0x5416, 0x9d, 0xec),
  (0x5418, 0xca, 0x7e), (0x5419, 0xca, 0x7b), (0x541a, 0x9d, 0xca), (0x541b, 0xa7, 0x67),
  (0x541c, 0xca, 0x7c), (0x541d, 0xa7, 0x5b), (0x541e, 0xa7, 0x5d), (0x541f, 0xa7, 0x75),
  (0x5420, 0xa7, 0x70), (0x5421, 0xfd, 0x6d), (0x5423, 0x89, 0xec), (0x5424, 0xca, 0xa5),
  (0x5425, 0xca, 0x7d), (0x5426, 0xa7, 0x5f), (0x5427, 0xa7, 0x61), (0x5428, 0xca, 0xa4),
  (0x5429, 0xa7, 0x68), (0x542a, 0xca, 0x78), (0x542b, 0xa7, 0x74), (0x542c, 0xa7, 0x76),
  (0x542d, 0xa7, 0x5c), (0x542e, 0xa7, 0x6d), (0x542f, 0xfb, 0x44), (0x5430, 0xca, 0x76),
  (0x5431, 0xa7, 0x73), (0x5432, 0x9d, 0xe2), (0x5433, 0xa7, 0x64), (0x5434, 0x8c, 0x75),
  (0x5435, 0xa7, 0x6e), (0x5436, 0xa7, 0x6f), (0x5437, 0xca, 0x77), (0x5438, 0xa7, 0x6c),
  (0x5439, 0xa7, 0x6a), (0x543b, 0xa7, 0x6b), (0x543c, 0xa7, 0x71), (0x543d, 0xca, 0xa1),
  (0x543e, 0xa7, 0x5e), (0x5440, 0xa7, 0x72), (0x5441, 0xca, 0xa3), (0x5442, 0xa7, 0x66),
  (0x5443, 0xa7, 0x63), (0x5445, 0xca, 0x7a), (0x5446, 0xa7, 0x62), (0x5447, 0xca, 0xa6),
  (0x5448, 0xa7, 0x65), (0x544a, 0xa7, 0x69), (0x544b, 0x9e, 0xc0), (0x544c, 0x87, 0xc5),
  (0x544d, 0x9e, 0x56), (0x544e, 0xa7, 0x60), (0x544f, 0xca, 0xa2), (0x5454, 0xca, 0x79),
  (0x5460, 0xcb, 0xeb), (0x5461, 0xcb, 0xea), (0x5462, 0xa9, 0x4f), (0x5463, 0xcb, 0xed)]

/-- `ENCODE_TABLE[2432..2560]`, (code point, byte 0, byte 1).  src/generated/whatwg/big5_whatwg_tables.rs.inc:3291-3334 -/
def encRow19 : List (Nat × Nat × Nat) := [
  (0x5464, 0xcb, 0xef), (0x5465, 0xcb, 0xe4), (0x5466, 0xcb, 0xe7), (0x5467, 0xcb, 0xee),
  (0x5468, 0xa9, 0x50), (0x5469, 0x9f, 0x79), (0x546a, 0x9a, 0xc7), (0x546b, 0xcb, 0xe1),
  (0x546c, 0xcb, 0xe5), (0x546d, 0xfa, 0xf4), (0x546f, 0xcb, 0xe9), (0x5470, 0xce, 0x49),
  (0x5471, 0xa9, 0x4b), (0x5472, 0xce, 0x4d), (0x5473, 0xa8, 0xfd), (0x5474, 0xcb, 0xe6),
  (0x5475, 0xa8, 0xfe), (0x5476, 0xa9, 0x4c), (0x5477, 0xa9, 0x45), (0x5478, 0xa9, 0x41),
  (0x547a, 0xcb, 0xe2), (0x547b, 0xa9, 0x44), (0x547c, 0xa9, 0x49), (0x547d, 0xa9, 0x52),
  (0x547e, 0xcb, 0xe3), (0x547f, 0xcb, 0xdc), (0x5480, 0xa9, 0x43), (0x5481, 0xcb, 0xdd),
  (0x5482, 0xcb, 0xdf), (0x5484, 0xa9, 0x46), (0x5485, 0x98, 0xa1), (0x5486, 0xa9, 0x48),
  (0x5487, 0xcb, 0xdb), (0x5488, 0xcb, 0xe0), (0x548b, 0xa9, 0x51), (0x548c, 0xa9, 0x4d),
  (0x548d, 0xcb, 0xe8), (0x548e, 0xa9, 0x53), (0x548f, 0xfa, 0xf8), (0x5490, 0xa9, 0x4a),
  (0x5491, 0xcb, 0xde), (0x5492, 0xa9, 0x47), (0x5493, 0x89, 0xf0), (0x5494, 0x9e, 0x47),
  (0x5495, 0xa9, 0x42), (0x5496, 0xa9, 0x40), (0x5497, 0x9d, 0xf7), (0x5498, 0xcb, 0xec),
  (0x549a, 0xa9, 0x4e), (0x549c, 0x9f, 0xd3), (0x549e, 0x9a, 0xca), (0x54a0, 0xce, 0x48),
  (0x54a1, 0xcd, 0xfb), (0x54a2, 0xce, 0x4b), (0x54a3, 0x89, 0xf1), (0x54a4, 0xfa, 0xf9),
  (0x54a5, 0xcd, 0xfd), (0x54a6, 0xab, 0x78), (0x54a7, 0xab, 0xa8), (0x54a8, 0xab, 0x74),
  (0x54a9, 0xab, 0xa7), (0x54aa, 0xab, 0x7d), (0x54ab, 0xab, 0xa4), (0x54ac, 0xab, 0x72),
  (0x54ad, 0xcd, 0xfc), (0x54ae, 0xce, 0x43), (0x54af, 0xab, 0xa3), (0x54b0, 0xce, 0x4f),
  (0x54b1, 0xab, 0xa5), (0x54b2, 0x8e, 0x5a), (0x54b3, 0xab, 0x79), (0x54b4, 0x89, 0xf2),
  (0x54b6, 0xce, 0x45), (0x54b7, 0xce, 0x42), (0x54b8, 0xab, 0x77), (0x54b9, 0x89, 0xf3),
  (0x54ba, 0xcd, 0xfa), (0x54bb, 0xab, 0xa6), (0x54bc, 0xce, 0x4a), (0x54bd, 0xab, 0x7c),
  (0x54be, 0xce, 0x4c), (0x54bf, 0xab, 0xa9), (0x54c0, 0xab, 0x73), (0x54c1, 0xab, 0x7e),
  (0x54c2, 0xab, 0x7b), (0x54c3, 0xce, 0x40), (0x54c4, 0xab, 0xa1), (0x54c5, 0xce, 0x46),
  (0x54c6, 0xce, 0x47), (0x54c7, 0xab, 0x7a), (0x54c8, 0xab, 0xa2), (0x54c9, 0xab, 0x76),
  (0x54cb, 0x92, 0x5d), (0x54cc, 0x8b, 0x51), (0x54cd, 0x92, 0xe0), (0x54ce, 0xab, 0x75),
  (0x54cf, 0xcd, 0xfe), (0x54d0, 0x89, 0xf4), (0x54d6, 0xce, 0x44), (0x54da, 0x9f, 0xd4),
  (0x54de, 0xce, 0x4e), (0x54e0, 0xd1, 0x44), (0x54e1, 0xad, 0xfb), (0x54e2, 0xd0, 0xf1),
  (0x54e3, 0x8a, 0x79), (0x54e4, 0xd0, 0xf6), (0x54e5, 0xad, 0xf4), (0x54e6, 0xae, 0x40),
  (0x54e7, 0xd0, 0xf4), (0x54e8, 0xad, 0xef), (0x54e9, 0xad, 0xf9), (0x54ea, 0xad, 0xfe),
  (0x54eb, 0xd0, 0xfb), (0x54ed, 0xad, 0xfa), (0x54ee, 0xad, 0xfd), (0x54ef, 0x89, 0xf5),
  (0x54f1, 0xd0, 0xfe), (0x54f2, 0xad, 0xf5), (0x54f3, 0xd0, 0xf5), (0x54f7, 0xd1, 0x42),
  (0x54f8, 0xd1, 0x43), (0x54fa, 0xad, 0xf7), (0x54fb, 0xd1, 0x41), (0x54fc, 0xad, 0xf3),
  (0x54fd, 0xae, 0x43), (0x54ff, 0xd0, 0xf8), (0x5501, 0xad, 0xf1), (0x5502, 0x97, 0xa7)]

/-- `ENCODE_TABLE[2560..2688]`, (code point, byte 0, byte 1).  src/generated/whatwg/big5_whatwg_tables.rs.inc:3334-3376 -/
def encRow20 : List (Nat × Nat × Nat) := [
  (0x5503, 0xd1, 0x46), (0x5504, 0xd0, 0xf9), (0x5505, 0xd0, 0xfd), (0x5506, 0xad, 0xf6),
  (0x5507, 0xae, 0x42), (0x5508, 0xd0, 0xfa), (0x5509, 0xad, 0xfc), (0x550a, 0xd1, 0x40),
  (0x550b, 0xd1, 0x47), (0x550c, 0xd4, 0xa1), (0x550d, 0x93, 0xba), (0x550e, 0xd1, 0x45),
  (0x550f, 0xae, 0x44), (0x5510, 0xad, 0xf0), (0x5511, 0xd0, 0xfc), (0x5512, 0xd0, 0xf3),
  (0x5513, 0x9e, 0x58), (0x5514, 0xad, 0xf8), (0x5517, 0xd0, 0xf2), (0x5518, 0x89, 0xf6),
  (0x551a, 0xd0, 0xf7), (0x551e, 0x9e, 0x57), (0x5523, 0x89, 0xf7), (0x5525, 0x8a, 0x41),
  (0x5526, 0xd0, 0xf0), (0x5527, 0xae, 0x41), (0x5528, 0x89, 0xf8), (0x552a, 0xd4, 0x77),
  (0x552b, 0xfa, 0xf1), (0x552c, 0xb0, 0xe4), (0x552d, 0xd4, 0xa7), (0x552e, 0xb0, 0xe2),
  (0x552f, 0xb0, 0xdf), (0x5530, 0xd4, 0x7c), (0x5531, 0xb0, 0xdb), (0x5532, 0xd4, 0xa2),
  (0x5533, 0xb0, 0xe6), (0x5534, 0xd4, 0x76), (0x5535, 0xd4, 0x7b), (0x5536, 0xd4, 0x7a),
  (0x5537, 0xad, 0xf2), (0x5538, 0xb0, 0xe1), (0x5539, 0xd4, 0xa5), (0x553b, 0xd4, 0xa8),
  (0x553c, 0xd4, 0x73), (0x553e, 0xb3, 0xe8), (0x553f, 0x89, 0xfa), (0x5540, 0xd4, 0xa9),
  (0x5541, 0xb0, 0xe7), (0x5543, 0xb0, 0xd9), (0x5544, 0xb0, 0xd6), (0x5545, 0xd4, 0x7e),
  (0x5546, 0xb0, 0xd3), (0x5547, 0xfb, 0x42), (0x5548, 0xd4, 0xa6), (0x5549, 0xfa, 0xbf),
  (0x554a, 0xb0, 0xda), (0x554b, 0xd4, 0xaa), (0x554d, 0xd4, 0x74), (0x554e, 0xd4, 0xa4),
  (0x554f, 0xb0, 0xdd), (0x5550, 0xd4, 0x75), (0x5551, 0xd4, 0x78), (0x5552, 0xd4, 0x7d),
  (0x5553, 0xfb, 0xa3), (0x5555, 0xb0, 0xde), (0x5556, 0xb0, 0xdc), (0x5557, 0xb0, 0xe8),
  (0x555c, 0xb0, 0xe3), (0x555d, 0xfa, 0xf7), (0x555e, 0xb0, 0xd7), (0x555f, 0xb1, 0xd2),
  (0x5561, 0xb0, 0xd8), (0x5562, 0xd4, 0x79), (0x5563, 0xb0, 0xe5), (0x5564, 0xb0, 0xe0),
  (0x5565, 0xd4, 0xa3), (0x5566, 0xb0, 0xd5), (0x5569, 0x9e, 0x4e), (0x556a, 0xb0, 0xd4),
  (0x556b, 0x94, 0xdc), (0x5571, 0x95, 0xda), (0x5572, 0x9d, 0xf8), (0x5573, 0x9f, 0x6a),
  (0x5575, 0xd4, 0x71), (0x5576, 0xd4, 0x72), (0x5577, 0xd8, 0x6a), (0x5579, 0x8a, 0xb7),
  (0x557b, 0xb3, 0xd7), (0x557c, 0xb3, 0xda), (0x557d, 0xd8, 0x75), (0x557e, 0xb3, 0xee),
  (0x557f, 0xd8, 0x78), (0x5580, 0xb3, 0xd8), (0x5581, 0xd8, 0x71), (0x5582, 0xb3, 0xde),
  (0x5583, 0xb3, 0xe4), (0x5584, 0xb5, 0xbd), (0x5586, 0xfb, 0x46), (0x5587, 0xb3, 0xe2),
  (0x5588, 0xd8, 0x6e), (0x5589, 0xb3, 0xef), (0x558a, 0xb3, 0xdb), (0x558b, 0xb3, 0xe3),
  (0x558c, 0xd8, 0x76), (0x558d, 0xdc, 0xd7), (0x558e, 0xd8, 0x7b), (0x558f, 0xd8, 0x6f),
  (0x5590, 0x8a, 0x46), (0x5591, 0xd8, 0x66), (0x5592, 0xd8, 0x73), (0x5593, 0xd8, 0x6d),
  (0x5594, 0xb3, 0xe1), (0x5595, 0xd8, 0x79), (0x5598, 0xb3, 0xdd), (0x5599, 0xb3, 0xf1),
  (0x559a, 0xb3, 0xea), (0x559c, 0xb3, 0xdf), (0x559d, 0xb3, 0xdc), (0x559f, 0xb3, 0xe7),
  (0x55a1, 0xd8, 0x7a), (0x55a2, 0xd8, 0x6c), (0x55a3, 0xd8, 0x72), (0x55a4, 0xd8, 0x74),
  (0x55a5, 0xd8, 0x68), (0x55a6, 0xd8, 0x77), (0x55a7, 0xb3, 0xd9), (0x55a8, 0xd8, 0x67)]

/-- `ENCODE_TABLE[2688..2816]`, (code point, byte 0, byte 1).  src/generated/whatwg/big5_whatwg_tables.rs.inc:3377-3419 -/
def encRow21 : List (Nat × Nat × Nat) := [
  (0x55a9, 0xfb, 0x47), (0x55aa, 0xb3, 0xe0), (0x55ab, 0xb3, 0xf0), (0x55ac, 0xb3, 0xec),
  (0x55ad, 0xd8, 0x69), (0x55ae, 0xb3, 0xe6), (0x55b0, 0x91, 0x48), (0x55b1, 0xb3, 0xed),
  (0x55b2, 0xb3, 0xe9), (0x55b3, 0xb3, 0xe5), (0x55b4, 0x92, 0xde), (0x55b5, 0xd8, 0x70),
  (0x55b9, 0x8b, 0x53), (0x55ba, 0x9d, 0xf6), (0x55bb, 0xb3, 0xeb), (0x55bc, 0x9b, 0xda),
  (0x55bf, 0xdc, 0xd5), (0x55c0, 0xdc, 0xd1), (0x55c1, 0x9d, 0x7e), (0x55c2, 0xdc, 0xe0),
  (0x55c3, 0xdc, 0xca), (0x55c4, 0xdc, 0xd3), (0x55c5, 0xb6, 0xe5), (0x55c6, 0xb6, 0xe6),
  (0x55c7, 0xb6, 0xde), (0x55c8, 0xdc, 0xdc), (0x55c9, 0xb6, 0xe8), (0x55ca, 0xdc, 0xcf),
  (0x55cb, 0xdc, 0xce), (0x55cc, 0xdc, 0xcc), (0x55cd, 0xdc, 0xde), (0x55ce, 0xb6, 0xdc),
  (0x55cf, 0xdc, 0xd8), (0x55d0, 0xdc, 0xcd), (0x55d1, 0xb6, 0xdf), (0x55d2, 0xdc, 0xd6),
  (0x55d3, 0xb6, 0xda), (0x55d4, 0xdc, 0xd2), (0x55d5, 0xdc, 0xd9), (0x55d6, 0xdc, 0xdb),
  (0x55d7, 0x89, 0xfd), (0x55d8, 0x99, 0xe4), (0x55d9, 0xdc, 0xdf), (0x55da, 0xb6, 0xe3),
  (0x55db, 0xdc, 0xcb), (0x55dc, 0xb6, 0xdd), (0x55dd, 0xdc, 0xd0), (0x55de, 0x9e, 0x43),
  (0x55df, 0xb6, 0xd8), (0x55e1, 0xb6, 0xe4), (0x55e2, 0xdc, 0xda), (0x55e3, 0xb6, 0xe0),
  (0x55e4, 0xb6, 0xe1), (0x55e5, 0xb6, 0xe7), (0x55e6, 0xb6, 0xdb), (0x55e7, 0xa2, 0x5f),
  (0x55e8, 0xb6, 0xd9), (0x55e9, 0xdc, 0xd4), (0x55ea, 0x9d, 0xe9), (0x55ec, 0x8f, 0x52),
  (0x55ef, 0xb6, 0xe2), (0x55f0, 0x9d, 0xf5), (0x55f1, 0x9d, 0xf0), (0x55f2, 0xdc, 0xdd),
  (0x55f5, 0x99, 0xe7), (0x55f6, 0xb9, 0xcd), (0x55f7, 0xb9, 0xc8), (0x55f9, 0xe1, 0x55),
  (0x55fa, 0xe1, 0x51), (0x55fb, 0x8b, 0xbd), (0x55fc, 0xe1, 0x4b), (0x55fd, 0xb9, 0xc2),
  (0x55fe, 0xb9, 0xbe), (0x55ff, 0xe1, 0x54), (0x5600, 0xb9, 0xbf), (0x5601, 0xe1, 0x4e),
  (0x5602, 0xe1, 0x50), (0x5604, 0xe1, 0x53), (0x5605, 0x9d, 0xef), (0x5606, 0xb9, 0xc4),
  (0x5608, 0xb9, 0xcb), (0x5609, 0xb9, 0xc5), (0x560c, 0xe1, 0x49), (0x560d, 0xb9, 0xc6),
  (0x560e, 0xb9, 0xc7), (0x560f, 0xe1, 0x4c), (0x5610, 0xb9, 0xcc), (0x5611, 0x9f, 0xb7),
  (0x5612, 0xe1, 0x4a), (0x5613, 0xe1, 0x4f), (0x5614, 0xb9, 0xc3), (0x5615, 0xe1, 0x48),
  (0x5616, 0xb9, 0xc9), (0x5617, 0xb9, 0xc1), (0x561b, 0xb9, 0xc0), (0x561c, 0xe1, 0x4d),
  (0x561d, 0xe1, 0x52), (0x561e, 0x9d, 0xd0), (0x561f, 0xb9, 0xca), (0x5620, 0x9f, 0xeb),
  (0x5621, 0x8d, 0xa9), (0x5622, 0x9d, 0xcf), (0x5623, 0x98, 0xe1), (0x5625, 0x9d, 0xe5),
  (0x5627, 0xe1, 0x47), (0x5629, 0xbc, 0x4d), (0x562a, 0xe5, 0x47), (0x562c, 0xe5, 0x44),
  (0x562d, 0x9d, 0xc8), (0x562e, 0xbc, 0x47), (0x562f, 0xbc, 0x53), (0x5630, 0xbc, 0x54),
  (0x5632, 0xbc, 0x4a), (0x5633, 0xe5, 0x42), (0x5634, 0xbc, 0x4c), (0x5635, 0xe4, 0xf9),
  (0x5636, 0xbc, 0x52), (0x5637, 0xfb, 0x4f), (0x5638, 0xe5, 0x46), (0x5639, 0xbc, 0x49),
  (0x563a, 0xe5, 0x48), (0x563b, 0xbc, 0x48), (0x563d, 0xe5, 0x43), (0x563e, 0xe5, 0x45),
  (0x563f, 0xbc, 0x4b), (0x5640, 0xe5, 0x41), (0x5641, 0xe4, 0xfa), (0x5642, 0xe4, 0xf7)]

/-- `ENCODE_TABLE[2816..2944]`, (code point, byte 0, byte 1).  src/generated/whatwg/big5_whatwg_tables.rs.inc:3419-3462 -/
def encRow22 : List (Nat × Nat × Nat) := [
  (0x5643, 0x9d, 0xeb), (0x5645, 0xd8, 0x6b), (0x5646, 0xe4, 0xfd), (0x5648, 0xe4, 0xf6),
  (0x5649, 0xe4, 0xfc), (0x564a, 0xe4, 0xfb), (0x564c, 0xe4, 0xf8), (0x564d, 0xfb, 0x54),
  (0x564e, 0xbc, 0x4f), (0x564f, 0xfb, 0x55), (0x5650, 0x9a, 0xa2), (0x5652, 0x8a, 0xd6),
  (0x5653, 0xbc, 0x4e), (0x5654, 0x9a, 0x5f), (0x5657, 0xbc, 0x50), (0x5658, 0xe4, 0xfe),
  (0x5659, 0xbe, 0xb2), (0x565a, 0xe5, 0x40), (0x565d, 0x9e, 0xf5), (0x565e, 0xe9, 0x45),
  (0x5660, 0xe8, 0xfd), (0x5661, 0x8f, 0xb7), (0x5662, 0xbe, 0xbe), (0x5663, 0xe9, 0x42),
  (0x5664, 0xbe, 0xb6), (0x5665, 0xbe, 0xba), (0x5666, 0xe9, 0x41), (0x5668, 0xbe, 0xb9),
  (0x5669, 0xbe, 0xb5), (0x566a, 0xbe, 0xb8), (0x566b, 0xbe, 0xb3), (0x566c, 0xbe, 0xbd),
  (0x566d, 0xe9, 0x43), (0x566e, 0xe8, 0xfe), (0x566f, 0xbe, 0xbc), (0x5670, 0xe8, 0xfc),
  (0x5671, 0xbe, 0xbb), (0x5672, 0xe9, 0x44), (0x5673, 0xe9, 0x40), (0x5674, 0xbc, 0x51),
  (0x5676, 0xbe, 0xbf), (0x5677, 0xe9, 0x46), (0x5678, 0xbe, 0xb7), (0x5679, 0xbe, 0xb4),
  (0x567a, 0x9a, 0xd2), (0x567b, 0x9e, 0x6a), (0x567c, 0x9e, 0xe8), (0x567e, 0xec, 0xc6),
  (0x567f, 0xec, 0xc8), (0x5680, 0xc0, 0x7b), (0x5681, 0xec, 0xc9), (0x5682, 0xec, 0xc7),
  (0x5683, 0xec, 0xc5), (0x5684, 0xec, 0xc4), (0x5685, 0xc0, 0x7d), (0x5686, 0xec, 0xc3),
  (0x5687, 0xc0, 0x7e), (0x5689, 0x8b, 0xbf), (0x568a, 0x91, 0xc2), (0x568b, 0x9d, 0x62),
  (0x568c, 0xec, 0xc1), (0x568d, 0xec, 0xc2), (0x568e, 0xc0, 0x7a), (0x568f, 0xc0, 0xa1),
  (0x5690, 0xc0, 0x7c), (0x5692, 0x92, 0x60), (0x5693, 0xec, 0xc0), (0x5695, 0xc2, 0x50),
  (0x5697, 0xef, 0xbc), (0x5698, 0xef, 0xba), (0x5699, 0xef, 0xbf), (0x569a, 0xef, 0xbd),
  (0x569c, 0xef, 0xbb), (0x569d, 0xef, 0xbe), (0x569e, 0x92, 0x5e), (0x569f, 0x91, 0xc1),
  (0x56a1, 0x8a, 0xc5), (0x56a4, 0x97, 0xa3), (0x56a5, 0xc3, 0x60), (0x56a6, 0xf1, 0xf2),
  (0x56a7, 0xf1, 0xf3), (0x56a8, 0xc4, 0x56), (0x56aa, 0xf1, 0xf4), (0x56ab, 0xf1, 0xf0),
  (0x56ac, 0xf1, 0xf5), (0x56ad, 0xf1, 0xf1), (0x56ae, 0xc2, 0x51), (0x56af, 0x8b, 0x6c),
  (0x56b1, 0x8d, 0x7e), (0x56b2, 0xf3, 0xfe), (0x56b3, 0xf4, 0x41), (0x56b4, 0xc4, 0x59),
  (0x56b5, 0xf4, 0x40), (0x56b6, 0xc4, 0x58), (0x56b7, 0xc4, 0x57), (0x56b9, 0x9c, 0x54),
  (0x56bc, 0xc4, 0x5a), (0x56bd, 0xf5, 0xc5), (0x56be, 0xf5, 0xc6), (0x56bf, 0x9d, 0xbd),
  (0x56c0, 0xc4, 0xda), (0x56c1, 0xc4, 0xd9), (0x56c2, 0xc4, 0xdb), (0x56c3, 0xf5, 0xc4),
  (0x56c5, 0xf6, 0xd8), (0x56c6, 0xf6, 0xd7), (0x56c8, 0xc5, 0x6d), (0x56c9, 0xc5, 0x6f),
  (0x56ca, 0xc5, 0x6e), (0x56cb, 0xf6, 0xd9), (0x56cc, 0xc5, 0xc8), (0x56cd, 0xf8, 0xa6),
  (0x56d1, 0xc5, 0xf1), (0x56d3, 0xf8, 0xa5), (0x56d4, 0xf8, 0xee), (0x56d6, 0x9c, 0xc5),
  (0x56d7, 0xc9, 0x49), (0x56da, 0xa5, 0x7d), (0x56db, 0xa5, 0x7c), (0x56dd, 0xa6, 0x5f),
  (0x56de, 0xa6, 0x5e), (0x56df, 0xc9, 0xc7), (0x56e0, 0xa6, 0x5d), (0x56e1, 0xc9, 0xc6),
  (0x56e2, 0x89, 0x5b), (0x56e4, 0xa7, 0x79), (0x56e5, 0xca, 0xa9), (0x56e7, 0xca, 0xa8)]

/-- `ENCODE_TABLE[2944..3072]`, (code point, byte 0, byte 1).  src/generated/whatwg/big5_whatwg_tables.rs.inc:3462-3504 -/
def encRow23 : List (Nat × Nat × Nat) := [
  (0x56ea, 0xa7, 0x77), (0x56eb, 0xa7, 0x7a), (0x56ed, 0xfb, 0x5c), (0x56ee, 0xca, 0xa7),
  (0x56ef, 0xfb, 0x5b), (0x56f0, 0xa7, 0x78), (0x56f1, 0xfb, 0x57), (0x56f7, 0xcb, 0xf0),
  (0x56f9, 0xcb, 0xf1), (0x56fa, 0xa9, 0x54), (0x56fb, 0x87, 0x65), (0x56fd, 0x98, 0xc7),
  (0x56ff, 0xab, 0xaa), (0x5700, 0xfb, 0x5a), (0x5701, 0xd1, 0x48), (0x5702, 0xd1, 0x49),
  (0x5703, 0xae, 0x45), (0x5704, 0xae, 0x46), (0x5707, 0xd4, 0xac), (0x5708, 0xb0, 0xe9),
  (0x5709, 0xb0, 0xeb), (0x570a, 0xd4, 0xab), (0x570b, 0xb0, 0xea), (0x570c, 0xd8, 0x7c),
  (0x570d, 0xb3, 0xf2), (0x5712, 0xb6, 0xe9), (0x5713, 0xb6, 0xea), (0x5714, 0xdc, 0xe1),
  (0x5715, 0x9c, 0xee), (0x5716, 0xb9, 0xcf), (0x5718, 0xb9, 0xce), (0x571a, 0xe5, 0x49),
  (0x571b, 0xe9, 0x48), (0x571c, 0xe9, 0x47), (0x571d, 0x92, 0xe2), (0x571e, 0xf9, 0x6b),
  (0x571f, 0xa4, 0x67), (0x5720, 0xc9, 0x59), (0x5722, 0xc9, 0x6e), (0x5723, 0xc9, 0x6f),
  (0x5728, 0xa6, 0x62), (0x5729, 0xa6, 0x66), (0x572a, 0xc9, 0xc9), (0x572c, 0xa6, 0x64),
  (0x572d, 0xa6, 0x63), (0x572e, 0xc9, 0xc8), (0x572f, 0xa6, 0x65), (0x5730, 0xa6, 0x61),
  (0x5732, 0x94, 0xa7), (0x5733, 0xa6, 0x60), (0x5734, 0xc9, 0xca), (0x573b, 0xa7, 0xa6),
  (0x573d, 0x8c, 0xcc), (0x573e, 0xa7, 0xa3), (0x573f, 0x9b, 0xd4), (0x5740, 0xa7, 0x7d),
  (0x5741, 0xca, 0xaa), (0x5742, 0xfb, 0x64), (0x5743, 0xfb, 0x76), (0x5745, 0xca, 0xab),
  (0x5746, 0xfb, 0x60), (0x5747, 0xa7, 0xa1), (0x5749, 0xca, 0xad), (0x574a, 0xa7, 0x7b),
  (0x574b, 0xca, 0xae), (0x574c, 0xca, 0xac), (0x574d, 0xa7, 0x7e), (0x574e, 0xa7, 0xa2),
  (0x574f, 0xa7, 0xa5), (0x5750, 0xa7, 0xa4), (0x5751, 0xa7, 0x7c), (0x5752, 0xca, 0xaf),
  (0x5754, 0x99, 0xe5), (0x5757, 0x9a, 0xc2), (0x575b, 0x91, 0xfb), (0x575f, 0xa0, 0x73),
  (0x5761, 0xa9, 0x59), (0x5762, 0xcb, 0xfe), (0x5764, 0xa9, 0x5b), (0x5766, 0xa9, 0x5a),
  (0x5767, 0x9f, 0x72), (0x5768, 0xcc, 0x40), (0x5769, 0xa9, 0x58), (0x576a, 0xa9, 0x57),
  (0x576b, 0xcb, 0xf5), (0x576d, 0xcb, 0xf4), (0x576f, 0xcb, 0xf2), (0x5770, 0xcb, 0xf7),
  (0x5771, 0xcb, 0xf6), (0x5772, 0xcb, 0xf3), (0x5773, 0xcb, 0xfc), (0x5774, 0xcb, 0xfd),
  (0x5775, 0xcb, 0xfa), (0x5776, 0xcb, 0xf8), (0x5777, 0xa9, 0x56), (0x577a, 0x9f, 0xcc),
  (0x577b, 0xcb, 0xfb), (0x577c, 0xa9, 0x5c), (0x577d, 0xcc, 0x41), (0x577e, 0x98, 0xa5),
  (0x577f, 0x92, 0xe8), (0x5780, 0xcb, 0xf9), (0x5782, 0xab, 0xab), (0x5783, 0xa9, 0x55),
  (0x5788, 0x9b, 0xbc), (0x578a, 0x96, 0xf3), (0x578b, 0xab, 0xac), (0x578c, 0xce, 0x54),
  (0x578d, 0x92, 0xe7), (0x578f, 0xce, 0x5a), (0x5790, 0xfc, 0x67), (0x5793, 0xab, 0xb2),
  (0x5794, 0xce, 0x58), (0x5795, 0xce, 0x5e), (0x5797, 0xce, 0x55), (0x5798, 0xce, 0x59),
  (0x5799, 0xce, 0x5b), (0x579a, 0xce, 0x5d), (0x579b, 0xce, 0x57), (0x579c, 0x8b, 0x7d),
  (0x579d, 0xce, 0x56), (0x579e, 0xce, 0x51), (0x579f, 0xce, 0x52), (0x57a0, 0xab, 0xad),
  (0x57a1, 0x9b, 0xf4), (0x57a2, 0xab, 0xaf), (0x57a3, 0xab, 0xae), (0x57a4, 0xce, 0x53)]

/-- `ENCODE_TABLE[3072..3200]`, (code point, byte 0, byte 1).  src/generated/whatwg/big5_whatwg_tables.rs.inc:3505-3547 -/
def encRow24 : List (Nat × Nat × Nat) := [
  (0x57a5, 0xce, 0x5c), (0x57a7, 0x9e, 0xf7), (0x57aa, 0x9e, 0xc1), (0x57ae, 0xab, 0xb1),
  (0x57b3, 0x87, 0xc3), (0x57b4, 0x99, 0x6f), (0x57b5, 0xce, 0x50), (0x57b6, 0xd1, 0x53),
  (0x57b8, 0xd1, 0x52), (0x57b9, 0xd1, 0x57), (0x57ba, 0xd1, 0x4e), (0x57bb, 0x96, 0xf1),
  (0x57bc, 0xd1, 0x51), (0x57bd, 0xd1, 0x50), (0x57be, 0x8e, 0x41), (0x57bf, 0xd1, 0x54),
  (0x57c1, 0xd1, 0x58), (0x57c2, 0xae, 0x47), (0x57c3, 0xae, 0x4a), (0x57c4, 0x95, 0x4a),
  (0x57c6, 0xd1, 0x4f), (0x57c7, 0xd1, 0x55), (0x57c8, 0x97, 0xe6), (0x57cb, 0xae, 0x49),
  (0x57cc, 0xd1, 0x4a), (0x57ce, 0xab, 0xb0), (0x57cf, 0xd4, 0xba), (0x57d0, 0xd1, 0x56),
  (0x57d2, 0xd1, 0x4d), (0x57d4, 0xae, 0x48), (0x57d5, 0xd1, 0x4c), (0x57d7, 0x96, 0xf5),
  (0x57dc, 0xd4, 0xb1), (0x57dd, 0x92, 0xe6), (0x57de, 0x9f, 0x42), (0x57df, 0xb0, 0xec),
  (0x57e0, 0xb0, 0xf0), (0x57e1, 0xd4, 0xc1), (0x57e2, 0xd4, 0xaf), (0x57e3, 0xd4, 0xbd),
  (0x57e4, 0xb0, 0xf1), (0x57e5, 0xd4, 0xbf), (0x57e6, 0xfb, 0x67), (0x57e7, 0xd4, 0xc5),
  (0x57e9, 0xd4, 0xc9), (0x57ec, 0xd4, 0xc0), (0x57ed, 0xd4, 0xb4), (0x57ee, 0xd4, 0xbc),
  (0x57ef, 0x99, 0xa9), (0x57f0, 0xd4, 0xca), (0x57f1, 0xd4, 0xc8), (0x57f2, 0xd4, 0xbe),
  (0x57f3, 0xd4, 0xb9), (0x57f4, 0xd4, 0xb2), (0x57f5, 0xd8, 0xa6), (0x57f6, 0xd4, 0xb0),
  (0x57f7, 0xb0, 0xf5), (0x57f8, 0xd4, 0xb7), (0x57f9, 0xb0, 0xf6), (0x57fa, 0xb0, 0xf2),
  (0x57fb, 0xd4, 0xad), (0x57fc, 0xd4, 0xc3), (0x57fd, 0xd4, 0xb5), (0x57fe, 0xfa, 0xe6),
  (0x5800, 0xd4, 0xb3), (0x5801, 0xd4, 0xc6), (0x5802, 0xb0, 0xf3), (0x5803, 0xfb, 0x69),
  (0x5804, 0xd4, 0xcc), (0x5805, 0xb0, 0xed), (0x5806, 0xb0, 0xef), (0x5807, 0xd4, 0xbb),
  (0x5808, 0xd4, 0xb6), (0x5809, 0xae, 0x4b), (0x580a, 0xb0, 0xee), (0x580b, 0xd4, 0xb8),
  (0x580c, 0xd4, 0xc7), (0x580d, 0xd4, 0xcb), (0x580e, 0xd4, 0xc2), (0x5810, 0xd4, 0xc4),
  (0x5812, 0x97, 0xe5), (0x5814, 0xd4, 0xae), (0x5818, 0x87, 0xc8), (0x5819, 0xd8, 0xa1),
  (0x581b, 0xd8, 0xaa), (0x581c, 0xd8, 0xa9), (0x581d, 0xb3, 0xfa), (0x581e, 0xd8, 0xa2),
  (0x5820, 0xb3, 0xfb), (0x5821, 0xb3, 0xf9), (0x5822, 0x96, 0x7d), (0x5823, 0xd8, 0xa4),
  (0x5824, 0xb3, 0xf6), (0x5825, 0xd8, 0xa8), (0x5826, 0xfb, 0x6c), (0x5827, 0xd8, 0xa3),
  (0x5828, 0xd8, 0xa5), (0x5829, 0xd8, 0x7d), (0x582a, 0xb3, 0xf4), (0x582c, 0xd8, 0xb2),
  (0x582d, 0xd8, 0xb1), (0x582e, 0xd8, 0xae), (0x582f, 0xb3, 0xf3), (0x5830, 0xb3, 0xf7),
  (0x5831, 0xb3, 0xf8), (0x5832, 0xd1, 0x4b), (0x5833, 0xd8, 0xab), (0x5834, 0xb3, 0xf5),
  (0x5835, 0xb0, 0xf4), (0x5836, 0xd8, 0xad), (0x5837, 0xd8, 0x7e), (0x5838, 0xd8, 0xb0),
  (0x5839, 0xd8, 0xaf), (0x583a, 0x99, 0xa2), (0x583b, 0xd8, 0xb3), (0x583d, 0xdc, 0xef),
  (0x583f, 0xd8, 0xac), (0x5840, 0x9a, 0xbb), (0x5844, 0x9a, 0x65), (0x5847, 0x94, 0x4e),
  (0x5848, 0xd8, 0xa7), (0x5849, 0xdc, 0xe7), (0x584a, 0xb6, 0xf4), (0x584b, 0xb6, 0xf7),
  (0x584c, 0xb6, 0xf2), (0x584d, 0xdc, 0xe6), (0x584e, 0xdc, 0xea), (0x584f, 0xdc, 0xe5)]

/-- `ENCODE_TABLE[3200..3328]`, (code point, byte 0, byte 1).  src/generated/whatwg/big5_whatwg_tables.rs.inc:3547-3590 -/
def encRow25 : List (Nat × Nat × Nat) := [
  (0x5851, 0xb6, 0xec), (0x5852, 0xb6, 0xf6), (0x5853, 0xdc, 0xe2), (0x5854, 0xb6, 0xf0),
  (0x5855, 0xdc, 0xe9), (0x5857, 0xb6, 0xee), (0x5858, 0xb6, 0xed), (0x5859, 0xdc, 0xec),
  (0x585a, 0xb6, 0xef), (0x585b, 0xdc, 0xee), (0x585c, 0xfb, 0x6e), (0x585d, 0xdc, 0xeb),
  (0x585e, 0xb6, 0xeb), (0x585f, 0x99, 0xdf), (0x5862, 0xb6, 0xf5), (0x5863, 0xdc, 0xf0),
  (0x5864, 0xdc, 0xe4), (0x5865, 0xdc, 0xed), (0x5868, 0xdc, 0xe3), (0x5869, 0x98, 0xe3),
  (0x586b, 0xb6, 0xf1), (0x586c, 0x92, 0x54), (0x586d, 0xb6, 0xf3), (0x586f, 0xdc, 0xe8),
  (0x5871, 0xdc, 0xf1), (0x5872, 0x96, 0x7b), (0x5873, 0x8a, 0xaf), (0x5874, 0xe1, 0x5d),
  (0x5875, 0xb9, 0xd0), (0x5876, 0xe1, 0x63), (0x5879, 0xb9, 0xd5), (0x587a, 0xe1, 0x5f),
  (0x587b, 0xe1, 0x66), (0x587c, 0xe1, 0x57), (0x587d, 0xb9, 0xd7), (0x587e, 0xb9, 0xd1),
  (0x587f, 0xe1, 0x5c), (0x5880, 0xbc, 0x55), (0x5881, 0xe1, 0x5b), (0x5882, 0xe1, 0x64),
  (0x5883, 0xb9, 0xd2), (0x5885, 0xb9, 0xd6), (0x5886, 0xe1, 0x5a), (0x5887, 0xe1, 0x60),
  (0x5888, 0xe1, 0x65), (0x5889, 0xe1, 0x56), (0x588a, 0xb9, 0xd4), (0x588b, 0xe1, 0x5e),
  (0x588e, 0xe1, 0x62), (0x588f, 0xe1, 0x68), (0x5890, 0xe1, 0x58), (0x5891, 0xe1, 0x61),
  (0x5892, 0x8c, 0x77), (0x5893, 0xb9, 0xd3), (0x5894, 0xe1, 0x67), (0x5896, 0x87, 0xb0),
  (0x5898, 0xe1, 0x59), (0x5899, 0x8b, 0xaf), (0x589a, 0x9e, 0xbd), (0x589c, 0xbc, 0x59),
  (0x589d, 0xe5, 0x4b), (0x589e, 0xbc, 0x57), (0x589f, 0xbc, 0x56), (0x58a0, 0xe5, 0x4d),
  (0x58a1, 0xe5, 0x52), (0x58a3, 0xe5, 0x4e), (0x58a5, 0xe5, 0x51), (0x58a6, 0xbc, 0x5c),
  (0x58a7, 0x9e, 0xe6), (0x58a8, 0xbe, 0xa5), (0x58a9, 0xbc, 0x5b), (0x58aa, 0xfb, 0x6f),
  (0x58ab, 0xe5, 0x4a), (0x58ac, 0xe5, 0x50), (0x58ae, 0xbc, 0x5a), (0x58af, 0xe5, 0x4f),
  (0x58b0, 0x8e, 0xe1), (0x58b1, 0xe5, 0x4c), (0x58b3, 0xbc, 0x58), (0x58b5, 0x9b, 0x7d),
  (0x58b6, 0x9c, 0x7e), (0x58ba, 0xe9, 0x4d), (0x58bb, 0xf9, 0xd9), (0x58bc, 0xe9, 0x4f),
  (0x58bd, 0xe9, 0x4a), (0x58be, 0xbe, 0xc1), (0x58bf, 0xe9, 0x4c), (0x58c1, 0xbe, 0xc0),
  (0x58c2, 0xe9, 0x4e), (0x58c5, 0xbe, 0xc3), (0x58c6, 0xe9, 0x50), (0x58c7, 0xbe, 0xc2),
  (0x58c8, 0xe9, 0x49), (0x58c9, 0xe9, 0x4b), (0x58cb, 0x92, 0xea), (0x58ce, 0xc0, 0xa5),
  (0x58cf, 0xec, 0xcc), (0x58d0, 0x8c, 0x78), (0x58d1, 0xc0, 0xa4), (0x58d2, 0xec, 0xcd),
  (0x58d3, 0xc0, 0xa3), (0x58d4, 0xec, 0xcb), (0x58d5, 0xc0, 0xa2), (0x58d6, 0xec, 0xca),
  (0x58d8, 0xc2, 0x53), (0x58d9, 0xc2, 0x52), (0x58da, 0xf1, 0xf6), (0x58db, 0xf1, 0xf8),
  (0x58dc, 0xfb, 0x72), (0x58dd, 0xf1, 0xf7), (0x58de, 0xc3, 0x61), (0x58df, 0xc3, 0x62),
  (0x58e0, 0xfb, 0x71), (0x58e2, 0xc3, 0x63), (0x58e3, 0xf4, 0x42), (0x58e4, 0xc4, 0x5b),
  (0x58e7, 0xf7, 0xd3), (0x58e8, 0xf7, 0xd2), (0x58e9, 0xc5, 0xf2), (0x58eb, 0xa4, 0x68),
  (0x58ec, 0xa4, 0xd0), (0x58ef, 0xa7, 0xa7), (0x58f0, 0x89, 0x5c), (0x58f2, 0x98, 0xf0),
  (0x58f3, 0x96, 0xf2), (0x58f4, 0xce, 0x5f), (0x58f9, 0xb3, 0xfc), (0x58fa, 0xb3, 0xfd)]

/-- `ENCODE_TABLE[3328..3456]`, (code point, byte 0, byte 1).  src/generated/whatwg/big5_whatwg_tables.rs.inc:3590-3632 -/
def encRow26 : List (Nat × Nat × Nat) := [
  (0x58fb, 0xfb, 0x74), (0x58fc, 0xdc, 0xf2), (0x58fd, 0xb9, 0xd8), (0x58fe, 0xe1, 0x69),
  (0x58ff, 0xe5, 0x53), (0x5902, 0x8b, 0xc1), (0x5903, 0xc9, 0x5a), (0x5904, 0x89, 0x5d),
  (0x5905, 0x89, 0xde), (0x5906, 0xca, 0xb0), (0x5907, 0x89, 0x5e), (0x590a, 0xc6, 0xca),
  (0x590c, 0xcc, 0x42), (0x590d, 0xce, 0x60), (0x590e, 0xd1, 0x59), (0x590f, 0xae, 0x4c),
  (0x5911, 0xfe, 0x42), (0x5912, 0xf1, 0xf9), (0x5914, 0xc4, 0xdc), (0x5915, 0xa4, 0x69),
  (0x5916, 0xa5, 0x7e), (0x5917, 0xc9, 0x70), (0x5919, 0xa6, 0x67), (0x591a, 0xa6, 0x68),
  (0x591c, 0xa9, 0x5d), (0x591d, 0x87, 0x68), (0x591f, 0xfb, 0x7b), (0x5920, 0xb0, 0xf7),
  (0x5922, 0xb9, 0xda), (0x5924, 0xb9, 0xdb), (0x5925, 0xb9, 0xd9), (0x5927, 0xa4, 0x6a),
  (0x5929, 0xa4, 0xd1), (0x592a, 0xa4, 0xd3), (0x592b, 0xa4, 0xd2), (0x592c, 0xc9, 0x5b),
  (0x592d, 0xa4, 0xd4), (0x592e, 0xa5, 0xa1), (0x592f, 0xc9, 0x71), (0x5931, 0xa5, 0xa2),
  (0x5932, 0x89, 0x5f), (0x5934, 0x89, 0x60), (0x5937, 0xa6, 0x69), (0x5938, 0xa6, 0x6a),
  (0x593c, 0xc9, 0xcb), (0x593e, 0xa7, 0xa8), (0x5940, 0xca, 0xb1), (0x5944, 0xa9, 0x61),
  (0x5945, 0xcc, 0x43), (0x5947, 0xa9, 0x5f), (0x5948, 0xa9, 0x60), (0x5949, 0xa9, 0x5e),
  (0x594a, 0xd1, 0x5a), (0x594e, 0xab, 0xb6), (0x594f, 0xab, 0xb5), (0x5950, 0xab, 0xb7),
  (0x5951, 0xab, 0xb4), (0x5953, 0xce, 0x61), (0x5954, 0xa9, 0x62), (0x5955, 0xab, 0xb3),
  (0x5957, 0xae, 0x4d), (0x5958, 0xae, 0x4e), (0x595a, 0xae, 0x4f), (0x595c, 0xd4, 0xcd),
  (0x5960, 0xb3, 0xfe), (0x5961, 0xd8, 0xb4), (0x5962, 0xb0, 0xf8), (0x5965, 0x9b, 0xcd),
  (0x5967, 0xb6, 0xf8), (0x5969, 0xb9, 0xdd), (0x596a, 0xb9, 0xdc), (0x596b, 0xe1, 0x6a),
  (0x596d, 0xbc, 0x5d), (0x596e, 0xbe, 0xc4), (0x5970, 0xef, 0xc0), (0x5971, 0xf6, 0xda),
  (0x5972, 0xf7, 0xd4), (0x5973, 0xa4, 0x6b), (0x5974, 0xa5, 0xa3), (0x5975, 0x9d, 0xd3),
  (0x5976, 0xa5, 0xa4), (0x5977, 0xc9, 0xd1), (0x5978, 0xa6, 0x6c), (0x5979, 0xa6, 0x6f),
  (0x597b, 0xc9, 0xcf), (0x597c, 0xc9, 0xcd), (0x597d, 0xa6, 0x6e), (0x597e, 0xc9, 0xd0),
  (0x597f, 0xc9, 0xd2), (0x5980, 0xc9, 0xcc), (0x5981, 0xa6, 0x71), (0x5982, 0xa6, 0x70),
  (0x5983, 0xa6, 0x6d), (0x5984, 0xa6, 0x6b), (0x5985, 0xc9, 0xce), (0x5989, 0x98, 0x4c),
  (0x598a, 0xa7, 0xb3), (0x598d, 0xa7, 0xb0), (0x598e, 0xca, 0xb6), (0x598f, 0xca, 0xb9),
  (0x5990, 0xca, 0xb8), (0x5992, 0xa7, 0xaa), (0x5993, 0xa7, 0xb2), (0x5994, 0x97, 0x52),
  (0x5996, 0xa7, 0xaf), (0x5997, 0xca, 0xb5), (0x5998, 0xca, 0xb3), (0x5999, 0xa7, 0xae),
  (0x599a, 0x95, 0xc3), (0x599d, 0xa7, 0xa9), (0x599e, 0xa7, 0xac), (0x599f, 0x9b, 0xb6),
  (0x59a0, 0xca, 0xb4), (0x59a1, 0xca, 0xbb), (0x59a2, 0xca, 0xb7), (0x59a3, 0xa7, 0xad),
  (0x59a4, 0xa7, 0xb1), (0x59a5, 0xa7, 0xb4), (0x59a6, 0xca, 0xb2), (0x59a7, 0xca, 0xba),
  (0x59a8, 0xa7, 0xab), (0x59ac, 0x9a, 0xb9), (0x59ae, 0xa9, 0x67), (0x59af, 0xa9, 0x6f),
  (0x59b0, 0x97, 0xb3), (0x59b1, 0xcc, 0x4f), (0x59b2, 0xcc, 0x48), (0x59b3, 0xa9, 0x70)]

/-- `ENCODE_TABLE[3456..3584]`, (code point, byte 0, byte 1).  src/generated/whatwg/big5_whatwg_tables.rs.inc:3633-3675 -/
def encRow27 : List (Nat × Nat × Nat) := [
  (0x59b4, 0xcc, 0x53), (0x59b5, 0xcc, 0x44), (0x59b6, 0xcc, 0x4b), (0x59b7, 0x9f, 0x74),
  (0x59b8, 0x92, 0xf1), (0x59b9, 0xa9, 0x66), (0x59ba, 0xcc, 0x45), (0x59bb, 0xa9, 0x64),
  (0x59bc, 0xcc, 0x4c), (0x59bd, 0xcc, 0x50), (0x59be, 0xa9, 0x63), (0x59bf, 0x8c, 0xfa),
  (0x59c0, 0xcc, 0x51), (0x59c1, 0xcc, 0x4a), (0x59c3, 0xcc, 0x4d), (0x59c4, 0x97, 0xdf),
  (0x59c5, 0xa9, 0x72), (0x59c6, 0xa9, 0x69), (0x59c7, 0xcc, 0x54), (0x59c8, 0xcc, 0x52),
  (0x59c9, 0xfb, 0xa6), (0x59ca, 0xa9, 0x6e), (0x59cb, 0xa9, 0x6c), (0x59cc, 0xcc, 0x49),
  (0x59cd, 0xa9, 0x6b), (0x59ce, 0xcc, 0x47), (0x59cf, 0xcc, 0x46), (0x59d0, 0xa9, 0x6a),
  (0x59d1, 0xa9, 0x68), (0x59d2, 0xa9, 0x71), (0x59d3, 0xa9, 0x6d), (0x59d4, 0xa9, 0x65),
  (0x59d6, 0xcc, 0x4e), (0x59d8, 0xab, 0xb9), (0x59d9, 0xfb, 0xab), (0x59da, 0xab, 0xc0),
  (0x59db, 0xce, 0x6f), (0x59dc, 0xab, 0xb8), (0x59dd, 0xce, 0x67), (0x59de, 0xce, 0x63),
  (0x59e0, 0xce, 0x73), (0x59e1, 0xce, 0x62), (0x59e3, 0xab, 0xbb), (0x59e4, 0xce, 0x6c),
  (0x59e5, 0xab, 0xbe), (0x59e6, 0xab, 0xc1), (0x59e8, 0xab, 0xbc), (0x59e9, 0xce, 0x70),
  (0x59ea, 0xab, 0xbf), (0x59eb, 0x98, 0x77), (0x59ec, 0xae, 0x56), (0x59ed, 0xce, 0x76),
  (0x59ee, 0xce, 0x64), (0x59ef, 0x98, 0x54), (0x59f0, 0x95, 0xc5), (0x59f1, 0xce, 0x66),
  (0x59f2, 0xce, 0x6d), (0x59f3, 0xce, 0x71), (0x59f4, 0xce, 0x75), (0x59f5, 0xce, 0x72),
  (0x59f6, 0xce, 0x6b), (0x59f7, 0xce, 0x6e), (0x59f8, 0x9d, 0x55), (0x59f9, 0xfb, 0xb2),
  (0x59fa, 0xce, 0x68), (0x59fb, 0xab, 0xc3), (0x59fc, 0xce, 0x6a), (0x59fd, 0xce, 0x69),
  (0x59fe, 0xce, 0x74), (0x59ff, 0xab, 0xba), (0x5a00, 0xce, 0x65), (0x5a01, 0xab, 0xc2),
  (0x5a02, 0x95, 0x7e), (0x5a03, 0xab, 0xbd), (0x5a09, 0xae, 0x5c), (0x5a0a, 0xd1, 0x62),
  (0x5a0b, 0x97, 0x42), (0x5a0c, 0xae, 0x5b), (0x5a0d, 0x94, 0xe6), (0x5a0f, 0xd1, 0x60),
  (0x5a11, 0xae, 0x50), (0x5a12, 0x92, 0xf5), (0x5a13, 0xae, 0x55), (0x5a15, 0xd1, 0x5f),
  (0x5a16, 0xd1, 0x5c), (0x5a17, 0xd1, 0x61), (0x5a18, 0xae, 0x51), (0x5a19, 0xd1, 0x5b),
  (0x5a1a, 0x8c, 0xc5), (0x5a1b, 0xae, 0x54), (0x5a1c, 0xae, 0x52), (0x5a1e, 0xd1, 0x63),
  (0x5a1f, 0xae, 0x53), (0x5a20, 0xae, 0x57), (0x5a21, 0x92, 0xfd), (0x5a23, 0xae, 0x58),
  (0x5a24, 0xfb, 0xa2), (0x5a25, 0xae, 0x5a), (0x5a27, 0x9c, 0x51), (0x5a29, 0xae, 0x59),
  (0x5a2a, 0x94, 0xe9), (0x5a2b, 0x98, 0x5c), (0x5a2c, 0x92, 0xf0), (0x5a2d, 0xd1, 0x5d),
  (0x5a2e, 0xd1, 0x5e), (0x5a33, 0xd1, 0x64), (0x5a35, 0xd4, 0xd4), (0x5a36, 0xb0, 0xf9),
  (0x5a37, 0xd8, 0xc2), (0x5a38, 0xd4, 0xd3), (0x5a39, 0xd4, 0xe6), (0x5a3c, 0xb1, 0x40),
  (0x5a3d, 0x94, 0x4c), (0x5a3e, 0xd4, 0xe4), (0x5a40, 0xb0, 0xfe), (0x5a41, 0xb0, 0xfa),
  (0x5a42, 0xd4, 0xed), (0x5a43, 0xd4, 0xdd), (0x5a44, 0xd4, 0xe0), (0x5a45, 0x91, 0x6b),
  (0x5a46, 0xb1, 0x43), (0x5a47, 0xd4, 0xea), (0x5a48, 0xd4, 0xe2), (0x5a49, 0xb0, 0xfb),
  (0x5a4a, 0xb1, 0x44), (0x5a4c, 0xd4, 0xe7), (0x5a4d, 0xd4, 0xe5), (0x5a50, 0xd4, 0xd6)]

/-- `ENCODE_TABLE[3584..3712]`, (code point, byte 0, byte 1).  src/generated/whatwg/big5_whatwg_tables.rs.inc:3675-3718 -/
def encRow28 : List (Nat × Nat × Nat) := [
  (0x5a51, 0xd4, 0xeb), (0x5a52, 0xd4, 0xdf), (0x5a53, 0xd4, 0xda), (0x5a54, 0x8b, 0x78),
  (0x5a55, 0xd4, 0xd0), (0x5a56, 0xd4, 0xec), (0x5a57, 0xd4, 0xdc), (0x5a58, 0xd4, 0xcf),
  (0x5a59, 0x94, 0xe2), (0x5a5a, 0xb1, 0x42), (0x5a5b, 0xd4, 0xe1), (0x5a5c, 0xd4, 0xee),
  (0x5a5d, 0xd4, 0xde), (0x5a5e, 0xd4, 0xd2), (0x5a5f, 0xd4, 0xd7), (0x5a60, 0xd4, 0xce),
  (0x5a61, 0x98, 0x4f), (0x5a62, 0xb1, 0x41), (0x5a63, 0xfb, 0xb5), (0x5a64, 0xd4, 0xdb),
  (0x5a65, 0xd4, 0xd8), (0x5a66, 0xb0, 0xfc), (0x5a67, 0x9c, 0xd0), (0x5a68, 0x92, 0x71),
  (0x5a69, 0xd4, 0xe9), (0x5a6a, 0xb0, 0xfd), (0x5a6b, 0x93, 0x65), (0x5a6c, 0xd4, 0xd9),
  (0x5a6d, 0xd4, 0xd5), (0x5a6e, 0x98, 0x5b), (0x5a70, 0xd4, 0xe8), (0x5a71, 0x98, 0x50),
  (0x5a77, 0xb4, 0x40), (0x5a78, 0xd8, 0xbb), (0x5a79, 0x97, 0xbc), (0x5a7a, 0xd8, 0xb8),
  (0x5a7b, 0xd8, 0xc9), (0x5a7c, 0xd8, 0xbd), (0x5a7d, 0xd8, 0xca), (0x5a7e, 0x92, 0xf3),
  (0x5a7f, 0xb4, 0x42), (0x5a81, 0x93, 0x40), (0x5a82, 0x98, 0x4d), (0x5a83, 0xd8, 0xc6),
  (0x5a84, 0xd8, 0xc3), (0x5a86, 0x95, 0x72), (0x5a88, 0xfd, 0xef), (0x5a8a, 0xd8, 0xc4),
  (0x5a8b, 0xd8, 0xc7), (0x5a8c, 0xd8, 0xcb), (0x5a8e, 0xd4, 0xe3), (0x5a8f, 0xd8, 0xcd),
  (0x5a90, 0xdd, 0x47), (0x5a91, 0xfd, 0xc1), (0x5a92, 0xb4, 0x43), (0x5a93, 0xd8, 0xce),
  (0x5a94, 0xd8, 0xb6), (0x5a95, 0xd8, 0xc0), (0x5a96, 0xfb, 0xba), (0x5a97, 0xd8, 0xc5),
  (0x5a99, 0x92, 0xeb), (0x5a9a, 0xb4, 0x41), (0x5a9b, 0xb4, 0x44), (0x5a9c, 0xd8, 0xcc),
  (0x5a9d, 0xd8, 0xcf), (0x5a9e, 0xd8, 0xba), (0x5a9f, 0xd8, 0xb7), (0x5aa0, 0xfc, 0x73),
  (0x5aa1, 0x97, 0xb7), (0x5aa2, 0xd8, 0xb9), (0x5aa4, 0x87, 0x6f), (0x5aa5, 0xd8, 0xbe),
  (0x5aa6, 0xd8, 0xbc), (0x5aa7, 0xb4, 0x45), (0x5aa9, 0xd8, 0xc8), (0x5aab, 0xfb, 0xb4),
  (0x5aac, 0xd8, 0xbf), (0x5aae, 0xd8, 0xc1), (0x5aaf, 0xd8, 0xb5), (0x5ab0, 0xdc, 0xfa),
  (0x5ab1, 0xdc, 0xf8), (0x5ab2, 0xb7, 0x42), (0x5ab3, 0xb7, 0x40), (0x5ab4, 0xdd, 0x43),
  (0x5ab5, 0xdc, 0xf9), (0x5ab6, 0xdd, 0x44), (0x5ab7, 0xdd, 0x40), (0x5ab8, 0xdc, 0xf7),
  (0x5ab9, 0xdd, 0x46), (0x5aba, 0xdc, 0xf6), (0x5abb, 0xdc, 0xfd), (0x5abc, 0xb6, 0xfe),
  (0x5abd, 0xb6, 0xfd), (0x5abe, 0xb6, 0xfc), (0x5abf, 0xdc, 0xfb), (0x5ac0, 0xdd, 0x41),
  (0x5ac1, 0xb6, 0xf9), (0x5ac2, 0xb7, 0x41), (0x5ac3, 0x90, 0xa7), (0x5ac4, 0xdc, 0xf4),
  (0x5ac6, 0xdc, 0xfe), (0x5ac7, 0xdc, 0xf3), (0x5ac8, 0xdc, 0xfc), (0x5ac9, 0xb6, 0xfa),
  (0x5aca, 0xdd, 0x42), (0x5acb, 0xdc, 0xf5), (0x5acc, 0xb6, 0xfb), (0x5acd, 0xdd, 0x45),
  (0x5ace, 0x97, 0x41), (0x5acf, 0x92, 0xf4), (0x5ad1, 0x87, 0x72), (0x5ad3, 0xfb, 0xbc),
  (0x5ad5, 0xe1, 0x6e), (0x5ad6, 0xb9, 0xe2), (0x5ad7, 0xb9, 0xe1), (0x5ad8, 0xb9, 0xe3),
  (0x5ad9, 0xe1, 0x7a), (0x5ada, 0xe1, 0x70), (0x5adb, 0xe1, 0x76), (0x5adc, 0xe1, 0x6b),
  (0x5add, 0xe1, 0x79), (0x5ade, 0xe1, 0x78), (0x5adf, 0xe1, 0x7c), (0x5ae0, 0xe1, 0x75),
  (0x5ae1, 0xb9, 0xde), (0x5ae2, 0xe1, 0x74), (0x5ae3, 0xb9, 0xe4), (0x5ae4, 0x95, 0x77)]

/-- `ENCODE_TABLE[3712..3840]`, (code point, byte 0, byte 1).  src/generated/whatwg/big5_whatwg_tables.rs.inc:3718-3760 -/
def encRow29 : List (Nat × Nat × Nat) := [
  (0x5ae5, 0xe1, 0x6d), (0x5ae6, 0xb9, 0xdf), (0x5ae8, 0xe1, 0x7b), (0x5ae9, 0xb9, 0xe0),
  (0x5aea, 0xe1, 0x6f), (0x5aeb, 0xe1, 0x72), (0x5aec, 0xe1, 0x77), (0x5aed, 0xe1, 0x71),
  (0x5aee, 0xe1, 0x6c), (0x5af0, 0x9e, 0xe2), (0x5af2, 0x8f, 0x78), (0x5af3, 0xe1, 0x73),
  (0x5af4, 0xe5, 0x55), (0x5af5, 0xbc, 0x61), (0x5af6, 0xe5, 0x58), (0x5af7, 0xe5, 0x57),
  (0x5af8, 0xe5, 0x5a), (0x5af9, 0xe5, 0x5c), (0x5afa, 0xf9, 0xdc), (0x5afb, 0xbc, 0x5f),
  (0x5afd, 0xe5, 0x56), (0x5afe, 0x96, 0x72), (0x5aff, 0xe5, 0x54), (0x5b01, 0xe5, 0x5d),
  (0x5b02, 0xe5, 0x5b), (0x5b03, 0xe5, 0x59), (0x5b05, 0xe5, 0x5f), (0x5b07, 0xe5, 0x5e),
  (0x5b08, 0xbc, 0x63), (0x5b09, 0xbc, 0x5e), (0x5b0b, 0xbc, 0x60), (0x5b0c, 0xbc, 0x62),
  (0x5b0d, 0x9e, 0xb5), (0x5b0f, 0xe5, 0x60), (0x5b10, 0xe9, 0x57), (0x5b11, 0x96, 0x4b),
  (0x5b13, 0xe9, 0x56), (0x5b14, 0xe9, 0x55), (0x5b15, 0x8c, 0xac), (0x5b16, 0xe9, 0x58),
  (0x5b17, 0xe9, 0x51), (0x5b19, 0xe9, 0x52), (0x5b1a, 0xe9, 0x5a), (0x5b1b, 0xe9, 0x53),
  (0x5b1d, 0xbe, 0xc5), (0x5b1e, 0xe9, 0x5c), (0x5b1f, 0xa0, 0xfa), (0x5b20, 0xe9, 0x5b),
  (0x5b21, 0xe9, 0x54), (0x5b23, 0xec, 0xd1), (0x5b24, 0xc0, 0xa8), (0x5b25, 0xec, 0xcf),
  (0x5b26, 0xec, 0xd4), (0x5b27, 0xec, 0xd3), (0x5b28, 0x96, 0xfc), (0x5b2a, 0xc0, 0xa7),
  (0x5b2b, 0x95, 0x75), (0x5b2c, 0xec, 0xd2), (0x5b2d, 0xec, 0xce), (0x5b2e, 0xec, 0xd6),
  (0x5b2f, 0xec, 0xd5), (0x5b30, 0xc0, 0xa6), (0x5b32, 0xec, 0xd0), (0x5b34, 0xbe, 0xc6),
  (0x5b38, 0xc2, 0x54), (0x5b3c, 0xef, 0xc1), (0x5b3d, 0xf1, 0xfa), (0x5b3e, 0xf1, 0xfb),
  (0x5b3f, 0xf1, 0xfc), (0x5b40, 0xc4, 0x5c), (0x5b41, 0x90, 0xda), (0x5b43, 0xc4, 0x5d),
  (0x5b44, 0x93, 0x67), (0x5b45, 0xf4, 0x43), (0x5b46, 0xfe, 0xa4), (0x5b47, 0xf5, 0xc8),
  (0x5b48, 0xf5, 0xc7), (0x5b4a, 0x90, 0xdf), (0x5b4b, 0xf6, 0xdb), (0x5b4c, 0xf6, 0xdc),
  (0x5b4d, 0xf7, 0xd5), (0x5b4e, 0xf8, 0xa7), (0x5b4f, 0x93, 0x54), (0x5b50, 0xa4, 0x6c),
  (0x5b51, 0xa4, 0x6d), (0x5b53, 0xa4, 0x6e), (0x5b54, 0xa4, 0xd5), (0x5b55, 0xa5, 0xa5),
  (0x5b56, 0xc9, 0xd3), (0x5b57, 0xa6, 0x72), (0x5b58, 0xa6, 0x73), (0x5b5a, 0xa7, 0xb7),
  (0x5b5b, 0xa7, 0xb8), (0x5b5c, 0xa7, 0xb6), (0x5b5d, 0xa7, 0xb5), (0x5b5f, 0xa9, 0x73),
  (0x5b62, 0xcc, 0x55), (0x5b63, 0xa9, 0x75), (0x5b64, 0xa9, 0x74), (0x5b65, 0xcc, 0x56),
  (0x5b66, 0x89, 0x61), (0x5b68, 0x8b, 0xb4), (0x5b69, 0xab, 0xc4), (0x5b6b, 0xae, 0x5d),
  (0x5b6c, 0xd1, 0x65), (0x5b6d, 0x9d, 0xc0), (0x5b6e, 0xd4, 0xf0), (0x5b70, 0xb1, 0x45),
  (0x5b71, 0xb4, 0x47), (0x5b72, 0xd4, 0xef), (0x5b73, 0xb4, 0x46), (0x5b74, 0x8e, 0x48),
  (0x5b75, 0xb9, 0xe5), (0x5b76, 0xfb, 0xc5), (0x5b77, 0xe1, 0x7d), (0x5b78, 0xbe, 0xc7),
  (0x5b7a, 0xc0, 0xa9), (0x5b7b, 0xec, 0xd7), (0x5b7c, 0xfb, 0xc7), (0x5b7d, 0xc4, 0x5e),
  (0x5b7f, 0xc5, 0x70), (0x5b80, 0xc6, 0xcb), (0x5b81, 0xc9, 0x72), (0x5b82, 0xfa, 0x79),
  (0x5b83, 0xa5, 0xa6), (0x5b84, 0xc9, 0x73), (0x5b85, 0xa6, 0x76), (0x5b87, 0xa6, 0x74)]

/-- `ENCODE_TABLE[3840..3968]`, (code point, byte 0, byte 1).  src/generated/whatwg/big5_whatwg_tables.rs.inc:3761-3803 -/
def encRow30 : List (Nat × Nat × Nat) := [
  (0x5b88, 0xa6, 0x75), (0x5b89, 0xa6, 0x77), (0x5b8b, 0xa7, 0xba), (0x5b8c, 0xa7, 0xb9),
  (0x5b8e, 0xca, 0xbc), (0x5b8f, 0xa7, 0xbb), (0x5b90, 0x9e, 0x67), (0x5b92, 0xca, 0xbd),
  (0x5b93, 0xcc, 0x57), (0x5b95, 0xcc, 0x58), (0x5b96, 0x8c, 0xd9), (0x5b97, 0xa9, 0x76),
  (0x5b98, 0xa9, 0x78), (0x5b99, 0xa9, 0x7a), (0x5b9a, 0xa9, 0x77), (0x5b9b, 0xa9, 0x7b),
  (0x5b9c, 0xa9, 0x79), (0x5b9d, 0xfb, 0xd2), (0x5b9e, 0x89, 0x62), (0x5b9f, 0x89, 0x63),
  (0x5ba2, 0xab, 0xc8), (0x5ba3, 0xab, 0xc5), (0x5ba4, 0xab, 0xc7), (0x5ba5, 0xab, 0xc9),
  (0x5ba6, 0xab, 0xc6), (0x5ba7, 0xd1, 0x66), (0x5ba8, 0xce, 0x77), (0x5baa, 0xfc, 0x7d),
  (0x5bac, 0xd1, 0x68), (0x5bad, 0xd1, 0x67), (0x5bae, 0xae, 0x63), (0x5bb0, 0xae, 0x5f),
  (0x5bb3, 0xae, 0x60), (0x5bb4, 0xae, 0x62), (0x5bb5, 0xae, 0x64), (0x5bb6, 0xae, 0x61),
  (0x5bb7, 0x87, 0x73), (0x5bb8, 0xae, 0x66), (0x5bb9, 0xae, 0x65), (0x5bbf, 0xb1, 0x4a),
  (0x5bc0, 0xd4, 0xf2), (0x5bc1, 0xd4, 0xf1), (0x5bc2, 0xb1, 0x49), (0x5bc3, 0x9f, 0x6b),
  (0x5bc4, 0xb1, 0x48), (0x5bc5, 0xb1, 0x47), (0x5bc6, 0xb1, 0x4b), (0x5bc7, 0xb1, 0x46),
  (0x5bca, 0xd8, 0xd5), (0x5bcb, 0xd8, 0xd2), (0x5bcc, 0xb4, 0x49), (0x5bcd, 0xd8, 0xd1),
  (0x5bce, 0xd8, 0xd6), (0x5bd0, 0xb4, 0x4b), (0x5bd1, 0xd8, 0xd4), (0x5bd2, 0xb4, 0x48),
  (0x5bd3, 0xb4, 0x4a), (0x5bd4, 0xd8, 0xd3), (0x5bd5, 0xfb, 0xcc), (0x5bd6, 0xdd, 0x48),
  (0x5bd7, 0xfe, 0xae), (0x5bd8, 0xdd, 0x49), (0x5bd9, 0xdd, 0x4a), (0x5bdb, 0x87, 0x6d),
  (0x5bde, 0xb9, 0xe6), (0x5bdf, 0xb9, 0xee), (0x5be0, 0xe1, 0x7e), (0x5be1, 0xb9, 0xe8),
  (0x5be2, 0xb9, 0xec), (0x5be3, 0xe1, 0xa1), (0x5be4, 0xb9, 0xed), (0x5be5, 0xb9, 0xe9),
  (0x5be6, 0xb9, 0xea), (0x5be7, 0xb9, 0xe7), (0x5be8, 0xb9, 0xeb), (0x5be9, 0xbc, 0x66),
  (0x5bea, 0xd8, 0xd0), (0x5beb, 0xbc, 0x67), (0x5bec, 0xbc, 0x65), (0x5bee, 0xbc, 0x64),
  (0x5bef, 0xe9, 0x5d), (0x5bf0, 0xbe, 0xc8), (0x5bf1, 0xec, 0xd8), (0x5bf2, 0xec, 0xd9),
  (0x5bf3, 0xfb, 0xd1), (0x5bf5, 0xc3, 0x64), (0x5bf6, 0xc4, 0x5f), (0x5bf8, 0xa4, 0x6f),
  (0x5bfa, 0xa6, 0x78), (0x5bff, 0xfb, 0x75), (0x5c01, 0xab, 0xca), (0x5c03, 0xd1, 0x69),
  (0x5c04, 0xae, 0x67), (0x5c05, 0xfb, 0xd4), (0x5c07, 0xb1, 0x4e), (0x5c08, 0xb1, 0x4d),
  (0x5c09, 0xb1, 0x4c), (0x5c0a, 0xb4, 0x4c), (0x5c0b, 0xb4, 0x4d), (0x5c0c, 0xd8, 0xd7),
  (0x5c0d, 0xb9, 0xef), (0x5c0e, 0xbe, 0xc9), (0x5c0f, 0xa4, 0x70), (0x5c10, 0x9c, 0xbc),
  (0x5c11, 0xa4, 0xd6), (0x5c12, 0xc9, 0x74), (0x5c13, 0xfb, 0xd6), (0x5c14, 0xfb, 0xd8),
  (0x5c15, 0xc9, 0xd4), (0x5c16, 0xa6, 0x79), (0x5c1a, 0xa9, 0x7c), (0x5c1c, 0x8b, 0x5d),
  (0x5c1e, 0x93, 0x4c), (0x5c1f, 0xdd, 0x4b), (0x5c20, 0x9a, 0xe2), (0x5c22, 0xa4, 0x71),
  (0x5c23, 0x8b, 0xc9), (0x5c24, 0xa4, 0xd7), (0x5c25, 0xc9, 0xd5), (0x5c28, 0xca, 0xbe),
  (0x5c2a, 0xca, 0xbf), (0x5c2c, 0xa7, 0xbc), (0x5c30, 0xd8, 0xd8), (0x5c31, 0xb4, 0x4e),
  (0x5c33, 0xdd, 0x4c), (0x5c37, 0xc0, 0xaa), (0x5c38, 0xa4, 0x72), (0x5c39, 0xa4, 0xa8)]

/-- `ENCODE_TABLE[3968..4096]`, (code point, byte 0, byte 1).  src/generated/whatwg/big5_whatwg_tables.rs.inc:3803-3846 -/
def encRow31 : List (Nat × Nat × Nat) := [
  (0x5c3a, 0xa4, 0xd8), (0x5c3b, 0xc9, 0x75), (0x5c3c, 0xa5, 0xa7), (0x5c3e, 0xa7, 0xc0),
  (0x5c3f, 0xa7, 0xbf), (0x5c40, 0xa7, 0xbd), (0x5c41, 0xa7, 0xbe), (0x5c44, 0xcc, 0x59),
  (0x5c45, 0xa9, 0x7e), (0x5c46, 0xa9, 0xa1), (0x5c47, 0xcc, 0x5a), (0x5c48, 0xa9, 0x7d),
  (0x5c49, 0xfb, 0xdb), (0x5c4a, 0x9f, 0xc9), (0x5c4b, 0xab, 0xce), (0x5c4c, 0xce, 0x78),
  (0x5c4d, 0xab, 0xcd), (0x5c4e, 0xab, 0xcb), (0x5c4f, 0xab, 0xcc), (0x5c50, 0xae, 0x6a),
  (0x5c51, 0xae, 0x68), (0x5c53, 0x9f, 0x44), (0x5c54, 0xd1, 0x6b), (0x5c55, 0xae, 0x69),
  (0x5c56, 0xd1, 0x6a), (0x5c58, 0xae, 0x5e), (0x5c59, 0xd4, 0xf3), (0x5c5c, 0xb1, 0x50),
  (0x5c5d, 0xb1, 0x51), (0x5c5e, 0x98, 0xed), (0x5c60, 0xb1, 0x4f), (0x5c62, 0xb9, 0xf0),
  (0x5c63, 0xe1, 0xa2), (0x5c64, 0xbc, 0x68), (0x5c65, 0xbc, 0x69), (0x5c67, 0xe5, 0x61),
  (0x5c68, 0xc0, 0xab), (0x5c69, 0xef, 0xc2), (0x5c6a, 0xef, 0xc3), (0x5c6c, 0xc4, 0xdd),
  (0x5c6d, 0xf8, 0xa8), (0x5c6e, 0xc9, 0x4b), (0x5c6f, 0xa4, 0xd9), (0x5c71, 0xa4, 0x73),
  (0x5c73, 0xc9, 0x77), (0x5c74, 0xc9, 0x76), (0x5c78, 0x8c, 0xe9), (0x5c79, 0xa6, 0x7a),
  (0x5c7a, 0xc9, 0xd7), (0x5c7b, 0xc9, 0xd8), (0x5c7c, 0xc9, 0xd6), (0x5c7e, 0xc9, 0xd9),
  (0x5c85, 0xfb, 0xdd), (0x5c86, 0xca, 0xc7), (0x5c88, 0xca, 0xc2), (0x5c89, 0xca, 0xc4),
  (0x5c8a, 0xca, 0xc6), (0x5c8b, 0xca, 0xc3), (0x5c8c, 0xa7, 0xc4), (0x5c8d, 0xca, 0xc0),
  (0x5c8f, 0xca, 0xc1), (0x5c90, 0xa7, 0xc1), (0x5c91, 0xa7, 0xc2), (0x5c92, 0xca, 0xc5),
  (0x5c93, 0xca, 0xc8), (0x5c94, 0xa7, 0xc3), (0x5c95, 0xca, 0xc9), (0x5c99, 0x8d, 0xf2),
  (0x5c9a, 0x89, 0x64), (0x5c9c, 0xfd, 0xf2), (0x5c9d, 0xcc, 0x68), (0x5c9e, 0x93, 0x4d),
  (0x5c9f, 0xcc, 0x62), (0x5ca0, 0xcc, 0x5d), (0x5ca1, 0xa9, 0xa3), (0x5ca2, 0xcc, 0x65),
  (0x5ca3, 0xcc, 0x63), (0x5ca4, 0xcc, 0x5c), (0x5ca5, 0xcc, 0x69), (0x5ca6, 0xcc, 0x6c),
  (0x5ca7, 0xcc, 0x67), (0x5ca8, 0xcc, 0x60), (0x5ca9, 0xa9, 0xa5), (0x5caa, 0xcc, 0x66),
  (0x5cab, 0xa9, 0xa6), (0x5cac, 0xcc, 0x61), (0x5cad, 0xcc, 0x64), (0x5cae, 0xcc, 0x5b),
  (0x5caf, 0xcc, 0x5f), (0x5cb0, 0xcc, 0x6b), (0x5cb1, 0xa9, 0xa7), (0x5cb3, 0xa9, 0xa8),
  (0x5cb5, 0xcc, 0x5e), (0x5cb6, 0xcc, 0x6a), (0x5cb7, 0xa9, 0xa2), (0x5cb8, 0xa9, 0xa4),
  (0x5cba, 0xfb, 0xe7), (0x5cc1, 0xa0, 0xf2), (0x5cc2, 0x98, 0x68), (0x5cc6, 0xce, 0xab),
  (0x5cc7, 0xce, 0xa4), (0x5cc8, 0xce, 0xaa), (0x5cc9, 0xce, 0xa3), (0x5cca, 0xce, 0xa5),
  (0x5ccb, 0xce, 0x7d), (0x5ccc, 0xce, 0x7b), (0x5cce, 0xce, 0xac), (0x5ccf, 0xce, 0xa9),
  (0x5cd0, 0xce, 0x79), (0x5cd1, 0x9f, 0x58), (0x5cd2, 0xab, 0xd0), (0x5cd3, 0xce, 0xa7),
  (0x5cd4, 0xce, 0xa8), (0x5cd5, 0x8c, 0xe6), (0x5cd6, 0xce, 0xa6), (0x5cd7, 0xce, 0x7c),
  (0x5cd8, 0xce, 0x7a), (0x5cd9, 0xab, 0xcf), (0x5cda, 0xce, 0xa2), (0x5cdb, 0xce, 0x7e),
  (0x5cde, 0xce, 0xa1), (0x5cdf, 0xce, 0xad), (0x5ce5, 0x8d, 0x73), (0x5ce8, 0xae, 0x6f),
  (0x5ce9, 0xfb, 0xde), (0x5cea, 0xae, 0x6e), (0x5cec, 0xd1, 0x6c), (0x5ced, 0xae, 0x6b)]

/-- `ENCODE_TABLE[4096..4224]`, (code point, byte 0, byte 1).  src/generated/whatwg/big5_whatwg_tables.rs.inc:3846-3888 -/
def encRow32 : List (Nat × Nat × Nat) := [
  (0x5cee, 0xd1, 0x6e), (0x5cef, 0xfb, 0xdf), (0x5cf0, 0xae, 0x70), (0x5cf1, 0xd1, 0x6f),
  (0x5cf4, 0xae, 0x73), (0x5cf5, 0x8c, 0x48), (0x5cf6, 0xae, 0x71), (0x5cf7, 0xd1, 0x70),
  (0x5cf8, 0xce, 0xae), (0x5cf9, 0xd1, 0x72), (0x5cfb, 0xae, 0x6d), (0x5cfc, 0x87, 0x74),
  (0x5cfd, 0xae, 0x6c), (0x5cff, 0xd1, 0x6d), (0x5d00, 0xd1, 0x71), (0x5d01, 0xae, 0x72),
  (0x5d06, 0xb1, 0x53), (0x5d07, 0xb1, 0x52), (0x5d0b, 0xd4, 0xf5), (0x5d0c, 0xd4, 0xf9),
  (0x5d0d, 0xd4, 0xfb), (0x5d0e, 0xb1, 0x54), (0x5d0f, 0xd4, 0xfe), (0x5d10, 0xfb, 0xe3),
  (0x5d11, 0xb1, 0x58), (0x5d12, 0xd5, 0x41), (0x5d14, 0xb1, 0x5a), (0x5d15, 0x8d, 0xa8),
  (0x5d16, 0xb1, 0x56), (0x5d17, 0xb1, 0x5e), (0x5d18, 0xfb, 0xe4), (0x5d19, 0xb1, 0x5b),
  (0x5d1a, 0xd4, 0xf7), (0x5d1b, 0xb1, 0x55), (0x5d1d, 0xd4, 0xf6), (0x5d1e, 0xd4, 0xf4),
  (0x5d1f, 0xd5, 0x43), (0x5d20, 0xd4, 0xf8), (0x5d22, 0xb1, 0x57), (0x5d23, 0xd5, 0x42),
  (0x5d24, 0xb1, 0x5c), (0x5d25, 0xd4, 0xfd), (0x5d26, 0xd4, 0xfc), (0x5d27, 0xb1, 0x5d),
  (0x5d28, 0xd4, 0xfa), (0x5d29, 0xb1, 0x59), (0x5d2c, 0x9c, 0x75), (0x5d2e, 0xd5, 0x44),
  (0x5d2f, 0x98, 0x78), (0x5d30, 0xd5, 0x40), (0x5d31, 0xd8, 0xe7), (0x5d32, 0xd8, 0xee),
  (0x5d33, 0xd8, 0xe3), (0x5d34, 0xb4, 0x51), (0x5d35, 0xd8, 0xdf), (0x5d36, 0xd8, 0xef),
  (0x5d37, 0xd8, 0xd9), (0x5d38, 0xd8, 0xec), (0x5d39, 0xd8, 0xea), (0x5d3a, 0xd8, 0xe4),
  (0x5d3c, 0xd8, 0xed), (0x5d3d, 0xd8, 0xe6), (0x5d3e, 0x8d, 0x60), (0x5d3f, 0xd8, 0xde),
  (0x5d40, 0xd8, 0xf0), (0x5d41, 0xd8, 0xdc), (0x5d42, 0xd8, 0xe9), (0x5d43, 0xd8, 0xda),
  (0x5d45, 0xd8, 0xf1), (0x5d46, 0xfb, 0xe5), (0x5d47, 0xb4, 0x52), (0x5d48, 0x8d, 0x61),
  (0x5d49, 0xd8, 0xeb), (0x5d4a, 0xdd, 0x4f), (0x5d4b, 0xd8, 0xdd), (0x5d4c, 0xb4, 0x4f),
  (0x5d4e, 0xd8, 0xe1), (0x5d50, 0xb4, 0x50), (0x5d51, 0xd8, 0xe0), (0x5d52, 0xd8, 0xe5),
  (0x5d55, 0xd8, 0xe2), (0x5d56, 0x8d, 0x62), (0x5d57, 0xa0, 0xa1), (0x5d59, 0xd8, 0xe8),
  (0x5d5b, 0x9c, 0x40), (0x5d5e, 0xdd, 0x53), (0x5d62, 0xdd, 0x56), (0x5d63, 0xdd, 0x4e),
  (0x5d65, 0xdd, 0x50), (0x5d67, 0xdd, 0x55), (0x5d68, 0xdd, 0x54), (0x5d69, 0xb7, 0x43),
  (0x5d6b, 0xd8, 0xdb), (0x5d6c, 0xdd, 0x52), (0x5d6f, 0xb7, 0x44), (0x5d70, 0x98, 0xad),
  (0x5d71, 0xdd, 0x4d), (0x5d72, 0xdd, 0x51), (0x5d74, 0x9e, 0xea), (0x5d77, 0xe1, 0xa9),
  (0x5d78, 0x8c, 0xec), (0x5d79, 0xe1, 0xb0), (0x5d7a, 0xe1, 0xa7), (0x5d7b, 0x8c, 0xd4),
  (0x5d7c, 0xe1, 0xae), (0x5d7d, 0xe1, 0xa5), (0x5d7e, 0xe1, 0xad), (0x5d7f, 0xe1, 0xb1),
  (0x5d80, 0xe1, 0xa4), (0x5d81, 0xe1, 0xa8), (0x5d82, 0xe1, 0xa3), (0x5d84, 0xb9, 0xf1),
  (0x5d85, 0x9c, 0xeb), (0x5d86, 0xe1, 0xa6), (0x5d87, 0xb9, 0xf2), (0x5d88, 0xe1, 0xac),
  (0x5d89, 0xe1, 0xab), (0x5d8a, 0xe1, 0xaa), (0x5d8b, 0xfb, 0xe0), (0x5d8d, 0xe1, 0xaf),
  (0x5d8e, 0x9f, 0x51), (0x5d92, 0xe5, 0x65), (0x5d93, 0xe5, 0x67), (0x5d94, 0xbc, 0x6b),
  (0x5d95, 0xe5, 0x68), (0x5d97, 0xe5, 0x63), (0x5d99, 0xe5, 0x62), (0x5d9a, 0xe5, 0x6c)]

/-- `ENCODE_TABLE[4224..4352]`, (code point, byte 0, byte 1).  src/generated/whatwg/big5_whatwg_tables.rs.inc:3889-3931 -/
def encRow33 : List (Nat × Nat × Nat) := [
  (0x5d9c, 0xe5, 0x6a), (0x5d9d, 0xbc, 0x6a), (0x5d9e, 0xe5, 0x6d), (0x5d9f, 0xe5, 0x64),
  (0x5da0, 0xe5, 0x69), (0x5da1, 0xe5, 0x6b), (0x5da2, 0xe5, 0x66), (0x5da4, 0x8d, 0x65),
  (0x5da7, 0xe9, 0x61), (0x5da8, 0xe9, 0x66), (0x5da9, 0xe9, 0x60), (0x5daa, 0xe9, 0x65),
  (0x5dab, 0x9c, 0xf1), (0x5dac, 0xe9, 0x5e), (0x5dad, 0xe9, 0x68), (0x5dae, 0xe9, 0x64),
  (0x5daf, 0xe9, 0x69), (0x5db0, 0xe9, 0x63), (0x5db1, 0xe9, 0x5f), (0x5db2, 0xe9, 0x67),
  (0x5db4, 0xe9, 0x6a), (0x5db5, 0xe9, 0x62), (0x5db6, 0xfc, 0x58), (0x5db7, 0xec, 0xda),
  (0x5db8, 0xc0, 0xaf), (0x5db9, 0x8d, 0x66), (0x5dba, 0xc0, 0xad), (0x5dbc, 0xc0, 0xac),
  (0x5dbd, 0xc0, 0xae), (0x5dc0, 0xef, 0xc4), (0x5dc1, 0x96, 0x54), (0x5dc2, 0xf1, 0x72),
  (0x5dc3, 0xf1, 0xfd), (0x5dc6, 0xf4, 0x44), (0x5dc7, 0xf4, 0x45), (0x5dc9, 0xc4, 0x60),
  (0x5dcb, 0xf5, 0xc9), (0x5dcd, 0xc4, 0xde), (0x5dcf, 0xf5, 0xca), (0x5dd1, 0xf6, 0xde),
  (0x5dd2, 0xc5, 0x72), (0x5dd4, 0xc5, 0x71), (0x5dd5, 0xf6, 0xdd), (0x5dd6, 0xc5, 0xc9),
  (0x5dd7, 0xfb, 0xe8), (0x5dd8, 0xf7, 0xd6), (0x5ddb, 0xc6, 0xcc), (0x5ddd, 0xa4, 0x74),
  (0x5dde, 0xa6, 0x7b), (0x5ddf, 0xc9, 0xda), (0x5de0, 0xca, 0xca), (0x5de1, 0xa8, 0xb5),
  (0x5de2, 0xb1, 0x5f), (0x5de5, 0xa4, 0x75), (0x5de6, 0xa5, 0xaa), (0x5de7, 0xa5, 0xa9),
  (0x5de8, 0xa5, 0xa8), (0x5deb, 0xa7, 0xc5), (0x5dee, 0xae, 0x74), (0x5df0, 0xdd, 0x57),
  (0x5df1, 0xa4, 0x76), (0x5df2, 0xa4, 0x77), (0x5df3, 0xa4, 0x78), (0x5df4, 0xa4, 0xda),
  (0x5df5, 0x9f, 0xce), (0x5df7, 0xab, 0xd1), (0x5df9, 0xce, 0xaf), (0x5dfd, 0xb4, 0x53),
  (0x5dfe, 0xa4, 0x79), (0x5dff, 0xc9, 0x5d), (0x5e02, 0xa5, 0xab), (0x5e03, 0xa5, 0xac),
  (0x5e04, 0xc9, 0x78), (0x5e06, 0xa6, 0x7c), (0x5e09, 0xfb, 0xfc), (0x5e0a, 0xca, 0xcb),
  (0x5e0b, 0x9a, 0xe4), (0x5e0c, 0xa7, 0xc6), (0x5e0e, 0xca, 0xcc), (0x5e11, 0xa9, 0xae),
  (0x5e12, 0x9f, 0x75), (0x5e14, 0xcc, 0x6e), (0x5e15, 0xa9, 0xac), (0x5e16, 0xa9, 0xab),
  (0x5e17, 0xcc, 0x6d), (0x5e18, 0xa9, 0xa9), (0x5e19, 0xcc, 0x6f), (0x5e1a, 0xa9, 0xaa),
  (0x5e1b, 0xa9, 0xad), (0x5e1d, 0xab, 0xd2), (0x5e1f, 0xab, 0xd4), (0x5e20, 0xce, 0xb3),
  (0x5e21, 0xce, 0xb0), (0x5e22, 0xce, 0xb1), (0x5e23, 0xce, 0xb2), (0x5e24, 0xce, 0xb4),
  (0x5e25, 0xab, 0xd3), (0x5e28, 0xd1, 0x74), (0x5e29, 0xd1, 0x73), (0x5e2b, 0xae, 0x76),
  (0x5e2d, 0xae, 0x75), (0x5e2e, 0xfb, 0xf1), (0x5e33, 0xb1, 0x62), (0x5e34, 0xd5, 0x46),
  (0x5e36, 0xb1, 0x61), (0x5e37, 0xb1, 0x63), (0x5e38, 0xb1, 0x60), (0x5e3d, 0xb4, 0x55),
  (0x5e3e, 0xd5, 0x45), (0x5e40, 0xb4, 0x56), (0x5e41, 0xd8, 0xf3), (0x5e42, 0x8d, 0x69),
  (0x5e43, 0xb4, 0x57), (0x5e44, 0xd8, 0xf2), (0x5e45, 0xb4, 0x54), (0x5e48, 0x93, 0x4f),
  (0x5e4a, 0xdd, 0x5a), (0x5e4b, 0xdd, 0x5c), (0x5e4c, 0xb7, 0x45), (0x5e4d, 0xdd, 0x5b),
  (0x5e4e, 0xdd, 0x59), (0x5e4f, 0xdd, 0x58), (0x5e53, 0xe1, 0xb4), (0x5e54, 0xb9, 0xf7),
  (0x5e55, 0xb9, 0xf5), (0x5e57, 0xb9, 0xf6), (0x5e58, 0xe1, 0xb2), (0x5e59, 0xe1, 0xb3)]

/-- `ENCODE_TABLE[4352..4480]`, (code point, byte 0, byte 1).  src/generated/whatwg/big5_whatwg_tables.rs.inc:3931-3974 -/
def encRow34 : List (Nat × Nat × Nat) := [
  (0x5e5b, 0xb9, 0xf3), (0x5e5c, 0xe5, 0x71), (0x5e5d, 0xe5, 0x6f), (0x5e5e, 0x93, 0x4e),
  (0x5e5f, 0xbc, 0x6d), (0x5e60, 0xe5, 0x70), (0x5e61, 0xbc, 0x6e), (0x5e62, 0xbc, 0x6c),
  (0x5e63, 0xb9, 0xf4), (0x5e66, 0xe9, 0x6d), (0x5e67, 0xe9, 0x6b), (0x5e68, 0xe9, 0x6c),
  (0x5e69, 0xe5, 0x6e), (0x5e6a, 0xec, 0xdc), (0x5e6b, 0xc0, 0xb0), (0x5e6c, 0xec, 0xdb),
  (0x5e6d, 0xef, 0xc5), (0x5e6e, 0xef, 0xc6), (0x5e6f, 0xe9, 0x6e), (0x5e70, 0xf1, 0xfe),
  (0x5e72, 0xa4, 0x7a), (0x5e73, 0xa5, 0xad), (0x5e74, 0xa6, 0x7e), (0x5e75, 0xc9, 0xdb),
  (0x5e76, 0xa6, 0x7d), (0x5e78, 0xa9, 0xaf), (0x5e79, 0xb7, 0x46), (0x5e7a, 0xfb, 0xf4),
  (0x5e7b, 0xa4, 0xdb), (0x5e7c, 0xa5, 0xae), (0x5e7d, 0xab, 0xd5), (0x5e7e, 0xb4, 0x58),
  (0x5e7f, 0xc6, 0xce), (0x5e80, 0xc9, 0x79), (0x5e82, 0xc9, 0x7a), (0x5e83, 0xfb, 0xc3),
  (0x5e84, 0xc9, 0xdc), (0x5e86, 0x89, 0x65), (0x5e87, 0xa7, 0xc8), (0x5e88, 0xca, 0xd0),
  (0x5e89, 0xca, 0xce), (0x5e8a, 0xa7, 0xc9), (0x5e8b, 0xca, 0xcd), (0x5e8c, 0xca, 0xcf),
  (0x5e8d, 0xca, 0xd1), (0x5e8f, 0xa7, 0xc7), (0x5e92, 0x8c, 0x7a), (0x5e95, 0xa9, 0xb3),
  (0x5e96, 0xa9, 0xb4), (0x5e97, 0xa9, 0xb1), (0x5e99, 0x8c, 0x7b), (0x5e9a, 0xa9, 0xb0),
  (0x5e9b, 0xce, 0xb8), (0x5e9c, 0xa9, 0xb2), (0x5ea0, 0xab, 0xd6), (0x5ea2, 0xce, 0xb7),
  (0x5ea3, 0xce, 0xb9), (0x5ea4, 0xce, 0xb6), (0x5ea5, 0xce, 0xba), (0x5ea6, 0xab, 0xd7),
  (0x5ea7, 0xae, 0x79), (0x5ea8, 0xd1, 0x75), (0x5eaa, 0xd1, 0x77), (0x5eab, 0xae, 0x77),
  (0x5eac, 0xd1, 0x78), (0x5ead, 0xae, 0x78), (0x5eae, 0xd1, 0x76), (0x5eb0, 0xce, 0xb5),
  (0x5eb1, 0xd5, 0x47), (0x5eb2, 0xd5, 0x4a), (0x5eb3, 0xd5, 0x4b), (0x5eb4, 0xd5, 0x48),
  (0x5eb5, 0xb1, 0x67), (0x5eb6, 0xb1, 0x66), (0x5eb7, 0xb1, 0x64), (0x5eb8, 0xb1, 0x65),
  (0x5eb9, 0xd5, 0x49), (0x5ebd, 0x8d, 0x6a), (0x5ebe, 0xb1, 0x68), (0x5ec1, 0xb4, 0x5a),
  (0x5ec2, 0xb4, 0x5b), (0x5ec4, 0xb4, 0x5c), (0x5ec5, 0xdd, 0x5d), (0x5ec6, 0xdd, 0x5f),
  (0x5ec7, 0xdd, 0x61), (0x5ec8, 0xb7, 0x48), (0x5ec9, 0xb7, 0x47), (0x5eca, 0xb4, 0x59),
  (0x5ecb, 0xdd, 0x60), (0x5ecc, 0xdd, 0x5e), (0x5ecd, 0x93, 0x53), (0x5ece, 0xe1, 0xb8),
  (0x5ed0, 0x9d, 0xfb), (0x5ed1, 0xe1, 0xb6), (0x5ed2, 0xe1, 0xbc), (0x5ed3, 0xb9, 0xf8),
  (0x5ed4, 0xe1, 0xbd), (0x5ed5, 0xe1, 0xba), (0x5ed6, 0xb9, 0xf9), (0x5ed7, 0xe1, 0xb7),
  (0x5ed8, 0xe1, 0xb5), (0x5ed9, 0xe1, 0xbb), (0x5eda, 0xbc, 0x70), (0x5edb, 0xe5, 0x73),
  (0x5edc, 0xe1, 0xb9), (0x5edd, 0xbc, 0x72), (0x5ede, 0xe5, 0x74), (0x5edf, 0xbc, 0x71),
  (0x5ee0, 0xbc, 0x74), (0x5ee1, 0xe5, 0x75), (0x5ee2, 0xbc, 0x6f), (0x5ee3, 0xbc, 0x73),
  (0x5ee5, 0xe9, 0x73), (0x5ee6, 0xe9, 0x71), (0x5ee7, 0xe9, 0x70), (0x5ee8, 0xe9, 0x72),
  (0x5ee9, 0xe9, 0x6f), (0x5eec, 0xc3, 0x66), (0x5eee, 0xf4, 0x46), (0x5eef, 0xf4, 0x47),
  (0x5ef1, 0xf5, 0xcb), (0x5ef2, 0xf6, 0xdf), (0x5ef3, 0xc6, 0x55), (0x5ef4, 0xc6, 0xcf),
  (0x5ef6, 0xa9, 0xb5), (0x5ef7, 0xa7, 0xca), (0x5ef8, 0x90, 0x59), (0x5ef9, 0xfc, 0x40)]

/-- `ENCODE_TABLE[4480..4608]`, (code point, byte 0, byte 1).  src/generated/whatwg/big5_whatwg_tables.rs.inc:3974-4016 -/
def encRow35 : List (Nat × Nat × Nat) := [
  (0x5efa, 0xab, 0xd8), (0x5efb, 0xfc, 0x41), (0x5efc, 0xfc, 0x43), (0x5efe, 0xa4, 0x7b),
  (0x5eff, 0xa4, 0xdc), (0x5f01, 0xa5, 0xaf), (0x5f02, 0xc9, 0xdd), (0x5f04, 0xa7, 0xcb),
  (0x5f05, 0xca, 0xd2), (0x5f07, 0xce, 0xbb), (0x5f08, 0xab, 0xd9), (0x5f0a, 0xb9, 0xfa),
  (0x5f0b, 0xa4, 0x7c), (0x5f0c, 0x93, 0x61), (0x5f0d, 0xfc, 0x46), (0x5f0e, 0x93, 0x62),
  (0x5f0f, 0xa6, 0xa1), (0x5f12, 0xb7, 0x49), (0x5f13, 0xa4, 0x7d), (0x5f14, 0xa4, 0xdd),
  (0x5f15, 0xa4, 0xde), (0x5f17, 0xa5, 0xb1), (0x5f18, 0xa5, 0xb0), (0x5f1a, 0xc9, 0xde),
  (0x5f1b, 0xa6, 0xa2), (0x5f1d, 0xca, 0xd3), (0x5f1f, 0xa7, 0xcc), (0x5f22, 0xcc, 0x71),
  (0x5f23, 0xcc, 0x72), (0x5f24, 0xcc, 0x73), (0x5f25, 0x8d, 0x6b), (0x5f26, 0xa9, 0xb6),
  (0x5f27, 0xa9, 0xb7), (0x5f28, 0xcc, 0x70), (0x5f29, 0xa9, 0xb8), (0x5f2d, 0xab, 0xda),
  (0x5f2e, 0xce, 0xbc), (0x5f30, 0xd1, 0x7a), (0x5f31, 0xae, 0x7a), (0x5f33, 0xd1, 0x79),
  (0x5f35, 0xb1, 0x69), (0x5f36, 0xd5, 0x4c), (0x5f37, 0xb1, 0x6a), (0x5f38, 0xd5, 0x4d),
  (0x5f3a, 0xfc, 0x4c), (0x5f3b, 0x8c, 0xfe), (0x5f3c, 0xb4, 0x5d), (0x5f40, 0xdd, 0x62),
  (0x5f43, 0xe1, 0xbf), (0x5f44, 0xe1, 0xbe), (0x5f46, 0xb9, 0xfb), (0x5f48, 0xbc, 0x75),
  (0x5f49, 0xe5, 0x76), (0x5f4a, 0xbe, 0xca), (0x5f4b, 0xe9, 0x74), (0x5f4c, 0xc0, 0xb1),
  (0x5f4d, 0x95, 0xb8), (0x5f4e, 0xc5, 0x73), (0x5f4f, 0xf7, 0xd8), (0x5f50, 0xc6, 0xd0),
  (0x5f51, 0x8b, 0xca), (0x5f54, 0xcc, 0x74), (0x5f56, 0xce, 0xbd), (0x5f57, 0xb1, 0x6b),
  (0x5f58, 0xd8, 0xf4), (0x5f59, 0xb7, 0x4a), (0x5f5c, 0x98, 0x7a), (0x5f5d, 0xc2, 0x55),
  (0x5f61, 0xc6, 0xd1), (0x5f62, 0xa7, 0xce), (0x5f63, 0xfc, 0x51), (0x5f64, 0xa7, 0xcd),
  (0x5f65, 0xab, 0xdb), (0x5f67, 0xd1, 0x7b), (0x5f69, 0xb1, 0x6d), (0x5f6a, 0xb3, 0x43),
  (0x5f6b, 0xb1, 0x6e), (0x5f6c, 0xb1, 0x6c), (0x5f6d, 0xb4, 0x5e), (0x5f6f, 0xe1, 0xc0),
  (0x5f70, 0xb9, 0xfc), (0x5f71, 0xbc, 0x76), (0x5f72, 0xfc, 0x54), (0x5f73, 0xc9, 0x4c),
  (0x5f74, 0xc9, 0xdf), (0x5f76, 0xca, 0xd5), (0x5f77, 0xa7, 0xcf), (0x5f78, 0xca, 0xd4),
  (0x5f79, 0xa7, 0xd0), (0x5f7b, 0xfa, 0xaf), (0x5f7c, 0xa9, 0xbc), (0x5f7d, 0xcc, 0x77),
  (0x5f7e, 0xcc, 0x76), (0x5f7f, 0xa9, 0xbb), (0x5f80, 0xa9, 0xb9), (0x5f81, 0xa9, 0xba),
  (0x5f82, 0xcc, 0x75), (0x5f83, 0x8d, 0x6c), (0x5f85, 0xab, 0xdd), (0x5f86, 0xce, 0xbe),
  (0x5f87, 0xab, 0xe0), (0x5f88, 0xab, 0xdc), (0x5f89, 0xab, 0xe2), (0x5f8a, 0xab, 0xde),
  (0x5f8b, 0xab, 0xdf), (0x5f8c, 0xab, 0xe1), (0x5f90, 0xae, 0x7d), (0x5f91, 0xae, 0x7c),
  (0x5f92, 0xae, 0x7b), (0x5f96, 0xd5, 0x4f), (0x5f97, 0xb1, 0x6f), (0x5f98, 0xb1, 0x72),
  (0x5f99, 0xb1, 0x70), (0x5f9b, 0xd5, 0x4e), (0x5f9c, 0xb1, 0x75), (0x5f9e, 0xb1, 0x71),
  (0x5f9f, 0xd5, 0x50), (0x5fa0, 0xb1, 0x74), (0x5fa1, 0xb1, 0x73), (0x5fa4, 0xfa, 0x61),
  (0x5fa5, 0xd8, 0xf6), (0x5fa6, 0xd8, 0xf5), (0x5fa7, 0xfc, 0x57), (0x5fa8, 0xb4, 0x61),
  (0x5fa9, 0xb4, 0x5f), (0x5faa, 0xb4, 0x60), (0x5fab, 0xd8, 0xf7), (0x5fac, 0xb7, 0x4b)]

/-- `ENCODE_TABLE[4608..4736]`, (code point, byte 0, byte 1).  src/generated/whatwg/big5_whatwg_tables.rs.inc:4017-4059 -/
def encRow36 : List (Nat × Nat × Nat) := [
  (0x5fad, 0xdd, 0x64), (0x5fae, 0xb7, 0x4c), (0x5faf, 0xdd, 0x63), (0x5fb1, 0x9b, 0x70),
  (0x5fb2, 0xe5, 0x77), (0x5fb5, 0xbc, 0x78), (0x5fb6, 0xe1, 0xc1), (0x5fb7, 0xbc, 0x77),
  (0x5fb9, 0xb9, 0xfd), (0x5fba, 0xa0, 0x51), (0x5fbb, 0xec, 0xde), (0x5fbc, 0xe9, 0x75),
  (0x5fbd, 0xc0, 0xb2), (0x5fbe, 0xec, 0xdd), (0x5fbf, 0xf2, 0x40), (0x5fc0, 0xf4, 0x48),
  (0x5fc1, 0xf4, 0x49), (0x5fc2, 0x8c, 0x7c), (0x5fc3, 0xa4, 0xdf), (0x5fc4, 0x8b, 0xcb),
  (0x5fc5, 0xa5, 0xb2), (0x5fc9, 0xc9, 0x7b), (0x5fcc, 0xa7, 0xd2), (0x5fcd, 0xa7, 0xd4),
  (0x5fcf, 0xc9, 0xe2), (0x5fd0, 0xca, 0xd8), (0x5fd1, 0xca, 0xd7), (0x5fd2, 0xca, 0xd6),
  (0x5fd4, 0xc9, 0xe1), (0x5fd5, 0xc9, 0xe0), (0x5fd6, 0xa6, 0xa4), (0x5fd7, 0xa7, 0xd3),
  (0x5fd8, 0xa7, 0xd1), (0x5fd9, 0xa6, 0xa3), (0x5fdb, 0x93, 0x6e), (0x5fdd, 0xa9, 0xbd),
  (0x5fde, 0xcc, 0x78), (0x5fdf, 0xfc, 0xd5), (0x5fe0, 0xa9, 0xbe), (0x5fe1, 0xca, 0xdd),
  (0x5fe3, 0xca, 0xdf), (0x5fe4, 0xca, 0xde), (0x5fe5, 0xcc, 0x79), (0x5fe8, 0xca, 0xda),
  (0x5fea, 0xa7, 0xd8), (0x5feb, 0xa7, 0xd6), (0x5fed, 0xca, 0xd9), (0x5fee, 0xca, 0xdb),
  (0x5fef, 0xca, 0xe1), (0x5ff1, 0xa7, 0xd5), (0x5ff3, 0xca, 0xdc), (0x5ff4, 0xca, 0xe5),
  (0x5ff5, 0xa9, 0xc0), (0x5ff7, 0xca, 0xe2), (0x5ff8, 0xa7, 0xd7), (0x5ffa, 0xca, 0xe0),
  (0x5ffb, 0xca, 0xe3), (0x5ffd, 0xa9, 0xbf), (0x5fff, 0xa9, 0xc1), (0x6000, 0xca, 0xe4),
  (0x6009, 0xcc, 0xaf), (0x600a, 0xcc, 0xa2), (0x600b, 0xcc, 0x7e), (0x600c, 0xcc, 0xae),
  (0x600d, 0xcc, 0xa9), (0x600e, 0xab, 0xe7), (0x600f, 0xa9, 0xc2), (0x6010, 0xcc, 0xaa),
  (0x6011, 0xcc, 0xad), (0x6012, 0xab, 0xe3), (0x6013, 0xcc, 0xac), (0x6014, 0xa9, 0xc3),
  (0x6015, 0xa9, 0xc8), (0x6016, 0xa9, 0xc6), (0x6017, 0xcc, 0xa3), (0x6019, 0xcc, 0x7c),
  (0x601a, 0xcc, 0xa5), (0x601b, 0xa9, 0xcd), (0x601c, 0xcc, 0xb0), (0x601d, 0xab, 0xe4),
  (0x601e, 0xcc, 0xa6), (0x6020, 0xab, 0xe5), (0x6021, 0xa9, 0xc9), (0x6022, 0xcc, 0xa8),
  (0x6023, 0xfc, 0xa9), (0x6024, 0xce, 0xcd), (0x6025, 0xab, 0xe6), (0x6026, 0xcc, 0x7b),
  (0x6027, 0xa9, 0xca), (0x6028, 0xab, 0xe8), (0x6029, 0xa9, 0xcb), (0x602a, 0xa9, 0xc7),
  (0x602b, 0xa9, 0xcc), (0x602c, 0xcc, 0xa7), (0x602d, 0xcc, 0x7a), (0x602e, 0xcc, 0xab),
  (0x602f, 0xa9, 0xc4), (0x6031, 0xfc, 0x61), (0x6032, 0xcc, 0x7d), (0x6033, 0xcc, 0xa4),
  (0x6034, 0xcc, 0xa1), (0x6035, 0xa9, 0xc5), (0x6037, 0xce, 0xbf), (0x6039, 0xce, 0xc0),
  (0x603b, 0x89, 0x66), (0x6040, 0xce, 0xca), (0x6041, 0xd1, 0xa1), (0x6042, 0xce, 0xcb),
  (0x6043, 0xab, 0xee), (0x6044, 0xce, 0xce), (0x6045, 0xce, 0xc4), (0x6046, 0xab, 0xed),
  (0x6047, 0xce, 0xc6), (0x6049, 0xce, 0xc7), (0x604a, 0xfa, 0xcb), (0x604c, 0xce, 0xc9),
  (0x604d, 0xab, 0xe9), (0x6050, 0xae, 0xa3), (0x6052, 0xf9, 0xda), (0x6053, 0xce, 0xc5),
  (0x6054, 0xce, 0xc1), (0x6055, 0xae, 0xa4), (0x6058, 0xce, 0xcf), (0x6059, 0xae, 0x7e),
  (0x605a, 0xd1, 0x7d), (0x605b, 0xce, 0xc8), (0x605d, 0xd1, 0x7c), (0x605e, 0xce, 0xc3)]

/-- `ENCODE_TABLE[4736..4864]`, (code point, byte 0, byte 1).  src/generated/whatwg/big5_whatwg_tables.rs.inc:4059-4102 -/
def encRow37 : List (Nat × Nat × Nat) := [
  (0x605f, 0xce, 0xcc), (0x6062, 0x9e, 0xa9), (0x6063, 0xae, 0xa1), (0x6064, 0xab, 0xf2),
  (0x6065, 0xae, 0xa2), (0x6066, 0xce, 0xd0), (0x6067, 0xd1, 0x7e), (0x6068, 0xab, 0xeb),
  (0x6069, 0xae, 0xa6), (0x606a, 0xab, 0xf1), (0x606b, 0xab, 0xf0), (0x606c, 0xab, 0xef),
  (0x606d, 0xae, 0xa5), (0x606e, 0xce, 0xd1), (0x606f, 0xae, 0xa7), (0x6070, 0xab, 0xea),
  (0x6072, 0xce, 0xc2), (0x6075, 0x93, 0x7a), (0x6077, 0xa0, 0xe0), (0x607e, 0x93, 0x6b),
  (0x607f, 0xb1, 0x76), (0x6080, 0xd1, 0xa4), (0x6081, 0xd1, 0xa6), (0x6083, 0xd1, 0xa8),
  (0x6084, 0xae, 0xa8), (0x6085, 0xae, 0xae), (0x6086, 0xd5, 0x53), (0x6087, 0xd1, 0xac),
  (0x6088, 0xd1, 0xa3), (0x6089, 0xb1, 0x78), (0x608a, 0xd5, 0x51), (0x608c, 0xae, 0xad),
  (0x608d, 0xae, 0xab), (0x608e, 0xd1, 0xae), (0x6090, 0xd5, 0x52), (0x6092, 0xd1, 0xa5),
  (0x6094, 0xae, 0xac), (0x6095, 0xd1, 0xa9), (0x6096, 0xae, 0xaf), (0x6097, 0xd1, 0xab),
  (0x609a, 0xae, 0xaa), (0x609b, 0xd1, 0xaa), (0x609c, 0xd1, 0xad), (0x609d, 0xd1, 0xa7),
  (0x609e, 0xfc, 0x6b), (0x609f, 0xae, 0xa9), (0x60a0, 0xb1, 0x79), (0x60a2, 0xd1, 0xa2),
  (0x60a3, 0xb1, 0x77), (0x60a4, 0xa0, 0xdc), (0x60a7, 0x94, 0x68), (0x60a8, 0xb1, 0x7a),
  (0x60b0, 0xd5, 0x55), (0x60b1, 0xd5, 0x5e), (0x60b2, 0xb4, 0x64), (0x60b3, 0xfc, 0x6d),
  (0x60b4, 0xb1, 0x7c), (0x60b5, 0xb1, 0xa3), (0x60b6, 0xb4, 0x65), (0x60b7, 0xd5, 0x60),
  (0x60b8, 0xb1, 0xaa), (0x60b9, 0xd8, 0xf9), (0x60ba, 0xd5, 0x56), (0x60bb, 0xb1, 0xa2),
  (0x60bc, 0xb1, 0xa5), (0x60bd, 0xb1, 0x7e), (0x60be, 0xd5, 0x54), (0x60bf, 0xd5, 0x62),
  (0x60c0, 0xd5, 0x65), (0x60c1, 0xd9, 0x49), (0x60c3, 0xd5, 0x63), (0x60c4, 0xd8, 0xfd),
  (0x60c5, 0xb1, 0xa1), (0x60c6, 0xb1, 0xa8), (0x60c7, 0xb1, 0xac), (0x60c8, 0xd5, 0x5d),
  (0x60c9, 0xd8, 0xf8), (0x60ca, 0xd5, 0x61), (0x60cb, 0xb1, 0x7b), (0x60cc, 0xd8, 0xfa),
  (0x60cd, 0xd5, 0x64), (0x60ce, 0xd8, 0xfc), (0x60cf, 0xd5, 0x59), (0x60d1, 0xb4, 0x62),
  (0x60d3, 0xd5, 0x57), (0x60d4, 0xd5, 0x58), (0x60d5, 0xb1, 0xa7), (0x60d7, 0x8d, 0x71),
  (0x60d8, 0xb1, 0xa6), (0x60d9, 0xd5, 0x5b), (0x60da, 0xb1, 0xab), (0x60db, 0xd5, 0x5f),
  (0x60dc, 0xb1, 0xa4), (0x60dd, 0xd5, 0x5c), (0x60de, 0x9b, 0xec), (0x60df, 0xb1, 0xa9),
  (0x60e0, 0xb4, 0x66), (0x60e1, 0xb4, 0x63), (0x60e2, 0xd8, 0xfb), (0x60e3, 0x99, 0xba),
  (0x60e4, 0xd5, 0x5a), (0x60e6, 0xb1, 0x7d), (0x60e7, 0x9a, 0xd0), (0x60e8, 0x9a, 0x61),
  (0x60e9, 0xa0, 0xe5), (0x60f0, 0xb4, 0x6b), (0x60f1, 0xb4, 0x6f), (0x60f2, 0xd9, 0x40),
  (0x60f3, 0xb7, 0x51), (0x60f4, 0xb4, 0x6d), (0x60f5, 0xd9, 0x44), (0x60f6, 0xb4, 0x71),
  (0x60f7, 0xdd, 0x65), (0x60f8, 0xd9, 0x46), (0x60f9, 0xb7, 0x53), (0x60fa, 0xb4, 0x69),
  (0x60fb, 0xb4, 0x6c), (0x60fc, 0xd9, 0x47), (0x60fd, 0xa0, 0x5b), (0x60fe, 0xd9, 0x48),
  (0x60ff, 0xd9, 0x4e), (0x6100, 0xb4, 0x73), (0x6101, 0xb7, 0x54), (0x6103, 0xd9, 0x4a),
  (0x6104, 0xd9, 0x4f), (0x6105, 0xd9, 0x43), (0x6106, 0xb7, 0x5e), (0x6107, 0x96, 0xac)]

/-- `ENCODE_TABLE[4864..4992]`, (code point, byte 0, byte 1).  src/generated/whatwg/big5_whatwg_tables.rs.inc:4102-4144 -/
def encRow38 : List (Nat × Nat × Nat) := [
  (0x6108, 0xb7, 0x55), (0x6109, 0xb4, 0x72), (0x610a, 0xd9, 0x41), (0x610b, 0xd9, 0x50),
  (0x610c, 0x97, 0x40), (0x610d, 0xb7, 0x5d), (0x610e, 0xb4, 0x70), (0x610f, 0xb7, 0x4e),
  (0x6110, 0xd9, 0x4d), (0x6112, 0xb4, 0x74), (0x6113, 0xd9, 0x45), (0x6114, 0xd8, 0xfe),
  (0x6115, 0xb4, 0x6a), (0x6116, 0xd9, 0x42), (0x6118, 0xd9, 0x4b), (0x6119, 0x9e, 0xf1),
  (0x611a, 0xb7, 0x4d), (0x611b, 0xb7, 0x52), (0x611c, 0xb4, 0x67), (0x611d, 0xd9, 0x4c),
  (0x611f, 0xb7, 0x50), (0x6122, 0x8c, 0x4d), (0x6123, 0xb4, 0x68), (0x6127, 0xb7, 0x5c),
  (0x6128, 0xe1, 0xc3), (0x6129, 0xdd, 0x70), (0x612b, 0xdd, 0x68), (0x612c, 0xe1, 0xc2),
  (0x612e, 0xdd, 0x6c), (0x612f, 0xdd, 0x6e), (0x6130, 0x9f, 0x7e), (0x6132, 0xdd, 0x6b),
  (0x6134, 0xb7, 0x5b), (0x6136, 0xdd, 0x6a), (0x6137, 0xb7, 0x5f), (0x613b, 0xe1, 0xd2),
  (0x613d, 0x8d, 0x72), (0x613e, 0xb7, 0x5a), (0x613f, 0xba, 0x40), (0x6140, 0xdd, 0x71),
  (0x6141, 0xe1, 0xc4), (0x6142, 0xfc, 0x76), (0x6144, 0xb7, 0x58), (0x6145, 0xdd, 0x69),
  (0x6146, 0xdd, 0x6d), (0x6147, 0xb9, 0xfe), (0x6148, 0xb7, 0x4f), (0x6149, 0xdd, 0x66),
  (0x614a, 0xdd, 0x67), (0x614b, 0xba, 0x41), (0x614c, 0xb7, 0x57), (0x614d, 0xb7, 0x59),
  (0x614e, 0xb7, 0x56), (0x614f, 0xdd, 0x6f), (0x6150, 0x96, 0xa9), (0x6152, 0xe1, 0xc8),
  (0x6153, 0xe1, 0xc9), (0x6154, 0xe1, 0xce), (0x6155, 0xbc, 0x7d), (0x6156, 0xe1, 0xd5),
  (0x6158, 0xba, 0x47), (0x6159, 0xa0, 0x6e), (0x615a, 0xba, 0x46), (0x615b, 0xe1, 0xd0),
  (0x615c, 0xfc, 0xaa), (0x615d, 0xbc, 0x7c), (0x615e, 0xe1, 0xc5), (0x615f, 0xba, 0x45),
  (0x6160, 0xfb, 0xcd), (0x6161, 0xe1, 0xd4), (0x6162, 0xba, 0x43), (0x6163, 0xba, 0x44),
  (0x6164, 0xfc, 0x74), (0x6165, 0xe1, 0xd1), (0x6166, 0xe5, 0xaa), (0x6167, 0xbc, 0x7a),
  (0x6168, 0xb4, 0x6e), (0x616a, 0xe1, 0xd3), (0x616b, 0xbc, 0xa3), (0x616c, 0xe1, 0xcb),
  (0x616e, 0xbc, 0x7b), (0x616f, 0xa0, 0x74), (0x6170, 0xbc, 0xa2), (0x6171, 0xe1, 0xc6),
  (0x6172, 0xe1, 0xca), (0x6173, 0xe1, 0xc7), (0x6174, 0xe1, 0xcd), (0x6175, 0xba, 0x48),
  (0x6176, 0xbc, 0x79), (0x6177, 0xba, 0x42), (0x6179, 0xe5, 0x7a), (0x617a, 0xe1, 0xcf),
  (0x617c, 0xbc, 0xa1), (0x617d, 0xa0, 0x71), (0x617e, 0xbc, 0xa4), (0x6180, 0xe1, 0xcc),
  (0x6181, 0xfc, 0x79), (0x6182, 0xbc, 0x7e), (0x6183, 0xe5, 0x79), (0x6187, 0xfc, 0x7c),
  (0x6189, 0xe5, 0x7e), (0x618a, 0xbe, 0xce), (0x618b, 0xe5, 0x78), (0x618c, 0xe9, 0xa3),
  (0x618d, 0xe5, 0xa9), (0x618e, 0xbc, 0xa8), (0x6190, 0xbc, 0xa6), (0x6191, 0xbe, 0xcc),
  (0x6192, 0xe5, 0xa6), (0x6193, 0xe5, 0xa2), (0x6194, 0xbc, 0xac), (0x6195, 0x9c, 0x50),
  (0x6196, 0xe9, 0x78), (0x6198, 0x93, 0x79), (0x6199, 0x93, 0x78), (0x619a, 0xbc, 0xaa),
  (0x619b, 0xe5, 0xa1), (0x619c, 0xa0, 0xdd), (0x619d, 0xe9, 0x76), (0x619f, 0xe5, 0xa5),
  (0x61a1, 0xe5, 0xa8), (0x61a2, 0xe5, 0x7d), (0x61a4, 0xbc, 0xab), (0x61a7, 0xbc, 0xa5),
  (0x61a8, 0xe9, 0x77), (0x61a9, 0xbe, 0xcd), (0x61aa, 0xe5, 0xa7), (0x61ab, 0xbc, 0xa7)]

/-- `ENCODE_TABLE[4992..5120]`, (code point, byte 0, byte 1).  src/generated/whatwg/big5_whatwg_tables.rs.inc:4145-4187 -/
def encRow39 : List (Nat × Nat × Nat) := [
  (0x61ac, 0xbc, 0xa9), (0x61ad, 0xe5, 0xa4), (0x61ae, 0xbc, 0xad), (0x61af, 0xe5, 0xa3),
  (0x61b0, 0xe5, 0x7c), (0x61b1, 0xe5, 0x7b), (0x61b2, 0xbe, 0xcb), (0x61b3, 0xe5, 0xab),
  (0x61b4, 0xe9, 0x7a), (0x61b5, 0xec, 0xe0), (0x61b6, 0xbe, 0xd0), (0x61b7, 0x8d, 0x75),
  (0x61b8, 0xe9, 0xa2), (0x61b9, 0x8d, 0x76), (0x61ba, 0xe9, 0x7e), (0x61bc, 0xec, 0xe1),
  (0x61be, 0xbe, 0xd1), (0x61bf, 0xe9, 0xa1), (0x61c0, 0x93, 0x74), (0x61c1, 0xe9, 0x7c),
  (0x61c2, 0xc0, 0xb4), (0x61c3, 0xec, 0xdf), (0x61c5, 0xe9, 0x79), (0x61c6, 0xe9, 0x7b),
  (0x61c7, 0xc0, 0xb5), (0x61c8, 0xbe, 0xd3), (0x61c9, 0xc0, 0xb3), (0x61ca, 0xbe, 0xd2),
  (0x61cb, 0xc0, 0xb7), (0x61cc, 0xe9, 0x7d), (0x61cd, 0xbe, 0xcf), (0x61cf, 0x8d, 0x77),
  (0x61d0, 0xfc, 0xa5), (0x61d3, 0xfc, 0xa2), (0x61d6, 0xef, 0xcf), (0x61d8, 0xef, 0xc7),
  (0x61da, 0x90, 0xc3), (0x61de, 0xec, 0xe7), (0x61df, 0xef, 0xc8), (0x61e0, 0xec, 0xe3),
  (0x61e2, 0xa0, 0x79), (0x61e3, 0xc2, 0x56), (0x61e4, 0xec, 0xe5), (0x61e5, 0xec, 0xe4),
  (0x61e6, 0xc0, 0xb6), (0x61e7, 0xec, 0xe2), (0x61e8, 0xec, 0xe6), (0x61e9, 0xef, 0xd0),
  (0x61ea, 0xef, 0xcc), (0x61eb, 0xef, 0xce), (0x61ed, 0xef, 0xc9), (0x61ee, 0xef, 0xca),
  (0x61f0, 0xef, 0xcd), (0x61f1, 0xef, 0xcb), (0x61f2, 0xc3, 0x67), (0x61f5, 0xc3, 0x6a),
  (0x61f6, 0xc3, 0x69), (0x61f7, 0xc3, 0x68), (0x61f8, 0xc4, 0x61), (0x61f9, 0xf4, 0x4a),
  (0x61fa, 0xc4, 0x62), (0x61fb, 0xf2, 0x41), (0x61fc, 0xc4, 0xdf), (0x61fd, 0xf5, 0xcc),
  (0x61fe, 0xc4, 0xe0), (0x61ff, 0xc5, 0x74), (0x6200, 0xc5, 0xca), (0x6201, 0xf7, 0xd9),
  (0x6203, 0xf7, 0xda), (0x6204, 0xf7, 0xdb), (0x6207, 0xf9, 0xba), (0x6208, 0xa4, 0xe0),
  (0x6209, 0xc9, 0x7c), (0x620a, 0xa5, 0xb3), (0x620c, 0xa6, 0xa6), (0x620d, 0xa6, 0xa7),
  (0x620e, 0xa6, 0xa5), (0x6210, 0xa6, 0xa8), (0x6211, 0xa7, 0xda), (0x6212, 0xa7, 0xd9),
  (0x6214, 0xcc, 0xb1), (0x6215, 0xa9, 0xcf), (0x6216, 0xa9, 0xce), (0x6219, 0xd1, 0xaf),
  (0x621a, 0xb1, 0xad), (0x621b, 0xb1, 0xae), (0x621f, 0xb4, 0x75), (0x6220, 0xdd, 0x72),
  (0x6221, 0xb7, 0x60), (0x6222, 0xb7, 0x61), (0x6223, 0xdd, 0x74), (0x6224, 0xdd, 0x76),
  (0x6225, 0xdd, 0x75), (0x6227, 0xe1, 0xd7), (0x6229, 0xe1, 0xd6), (0x622a, 0xba, 0x49),
  (0x622b, 0xe1, 0xd8), (0x622c, 0x8d, 0x79), (0x622d, 0xe5, 0xac), (0x622e, 0xbc, 0xae),
  (0x6230, 0xbe, 0xd4), (0x6232, 0xc0, 0xb8), (0x6233, 0xc2, 0x57), (0x6234, 0xc0, 0xb9),
  (0x6236, 0xa4, 0xe1), (0x6237, 0x8b, 0xfc), (0x6239, 0xa0, 0x76), (0x623a, 0xca, 0xe6),
  (0x623d, 0xcc, 0xb2), (0x623e, 0xa9, 0xd1), (0x623f, 0xa9, 0xd0), (0x6240, 0xa9, 0xd2),
  (0x6241, 0xab, 0xf3), (0x6242, 0xce, 0xd2), (0x6243, 0xce, 0xd3), (0x6246, 0xd1, 0xb0),
  (0x6247, 0xae, 0xb0), (0x6248, 0xb1, 0xaf), (0x6249, 0xb4, 0x76), (0x624a, 0xd9, 0x51),
  (0x624b, 0xa4, 0xe2), (0x624c, 0x8b, 0xcd), (0x624d, 0xa4, 0x7e), (0x624e, 0xa4, 0xe3),
  (0x6250, 0xc9, 0x7d), (0x6251, 0xa5, 0xb7), (0x6252, 0xa5, 0xb6), (0x6253, 0xa5, 0xb4)]

/-- `ENCODE_TABLE[5120..5248]`, (code point, byte 0, byte 1).  src/generated/whatwg/big5_whatwg_tables.rs.inc:4187-4230 -/
def encRow40 : List (Nat × Nat × Nat) := [
  (0x6254, 0xa5, 0xb5), (0x6258, 0xa6, 0xab), (0x6259, 0xc9, 0xe9), (0x625a, 0xc9, 0xeb),
  (0x625b, 0xa6, 0xaa), (0x625c, 0xc9, 0xe3), (0x625e, 0xc9, 0xe4), (0x6260, 0xc9, 0xea),
  (0x6261, 0xc9, 0xe6), (0x6262, 0xc9, 0xe8), (0x6263, 0xa6, 0xa9), (0x6264, 0xc9, 0xe5),
  (0x6265, 0xc9, 0xec), (0x6266, 0xc9, 0xe7), (0x6268, 0x9f, 0x5a), (0x626d, 0xa7, 0xe1),
  (0x626e, 0xa7, 0xea), (0x626f, 0xa7, 0xe8), (0x6270, 0xca, 0xf0), (0x6271, 0xca, 0xed),
  (0x6272, 0xca, 0xf5), (0x6273, 0xa7, 0xe6), (0x6274, 0xca, 0xf6), (0x6276, 0xa7, 0xdf),
  (0x6277, 0xca, 0xf3), (0x6279, 0xa7, 0xe5), (0x627a, 0xca, 0xef), (0x627b, 0xca, 0xee),
  (0x627c, 0xa7, 0xe3), (0x627d, 0xca, 0xf4), (0x627e, 0xa7, 0xe4), (0x627f, 0xa9, 0xd3),
  (0x6280, 0xa7, 0xde), (0x6281, 0xca, 0xf1), (0x6282, 0x9f, 0xf4), (0x6283, 0xca, 0xe7),
  (0x6284, 0xa7, 0xdb), (0x6285, 0x9f, 0xba), (0x6286, 0xa7, 0xee), (0x6287, 0xca, 0xec),
  (0x6288, 0xca, 0xf2), (0x6289, 0xa7, 0xe0), (0x628a, 0xa7, 0xe2), (0x628c, 0xca, 0xe8),
  (0x628e, 0xca, 0xe9), (0x628f, 0xca, 0xea), (0x6290, 0x8d, 0x7a), (0x6291, 0xa7, 0xed),
  (0x6292, 0xa7, 0xe7), (0x6293, 0xa7, 0xec), (0x6294, 0xca, 0xeb), (0x6295, 0xa7, 0xeb),
  (0x6296, 0xa7, 0xdd), (0x6297, 0xa7, 0xdc), (0x6298, 0xa7, 0xe9), (0x629d, 0x9e, 0x45),
  (0x62a4, 0x93, 0xb0), (0x62a6, 0xa0, 0x75), (0x62a8, 0xa9, 0xe1), (0x62a9, 0xcc, 0xbe),
  (0x62aa, 0xcc, 0xb7), (0x62ab, 0xa9, 0xdc), (0x62ac, 0xa9, 0xef), (0x62ad, 0xcc, 0xb3),
  (0x62ae, 0xcc, 0xba), (0x62af, 0xcc, 0xbc), (0x62b0, 0xcc, 0xbf), (0x62b1, 0xa9, 0xea),
  (0x62b3, 0xcc, 0xbb), (0x62b4, 0xcc, 0xb4), (0x62b5, 0xa9, 0xe8), (0x62b6, 0xcc, 0xb8),
  (0x62b8, 0xcc, 0xc0), (0x62b9, 0xa9, 0xd9), (0x62bb, 0xcc, 0xbd), (0x62bc, 0xa9, 0xe3),
  (0x62bd, 0xa9, 0xe2), (0x62be, 0xcc, 0xb6), (0x62bf, 0xa9, 0xd7), (0x62c1, 0x87, 0xdd),
  (0x62c2, 0xa9, 0xd8), (0x62c3, 0x9b, 0x46), (0x62c4, 0xa9, 0xd6), (0x62c5, 0xfc, 0xae),
  (0x62c6, 0xa9, 0xee), (0x62c7, 0xa9, 0xe6), (0x62c8, 0xa9, 0xe0), (0x62c9, 0xa9, 0xd4),
  (0x62ca, 0xcc, 0xb9), (0x62cb, 0xa9, 0xdf), (0x62cc, 0xa9, 0xd5), (0x62cd, 0xa9, 0xe7),
  (0x62ce, 0xa0, 0x77), (0x62cf, 0xce, 0xd4), (0x62d0, 0x9d, 0xc4), (0x62d1, 0xcc, 0xb5),
  (0x62d2, 0xa9, 0xda), (0x62d3, 0xa9, 0xdd), (0x62d4, 0xa9, 0xde), (0x62d5, 0xfc, 0xb0),
  (0x62d6, 0xa9, 0xec), (0x62d7, 0xa9, 0xed), (0x62d8, 0xa9, 0xeb), (0x62d9, 0xa9, 0xe5),
  (0x62da, 0xa9, 0xe9), (0x62db, 0xa9, 0xdb), (0x62dc, 0xab, 0xf4), (0x62df, 0xfa, 0x51),
  (0x62e5, 0x8d, 0x7b), (0x62eb, 0xce, 0xda), (0x62ec, 0xac, 0x41), (0x62ed, 0xab, 0xf8),
  (0x62ee, 0xab, 0xfa), (0x62ef, 0xac, 0x40), (0x62f0, 0xce, 0xe6), (0x62f1, 0xab, 0xfd),
  (0x62f2, 0xd1, 0xb1), (0x62f3, 0xae, 0xb1), (0x62f4, 0xac, 0x43), (0x62f5, 0xce, 0xd7),
  (0x62f6, 0xce, 0xdf), (0x62f7, 0xab, 0xfe), (0x62f8, 0xce, 0xde), (0x62f9, 0xce, 0xdb),
  (0x62fa, 0xce, 0xe3), (0x62fb, 0xce, 0xe5), (0x62fc, 0xab, 0xf7), (0x62fd, 0xab, 0xfb)]

/-- `ENCODE_TABLE[5248..5376]`, (code point, byte 0, byte 1).  src/generated/whatwg/big5_whatwg_tables.rs.inc:4230-4272 -/
def encRow41 : List (Nat × Nat × Nat) := [
  (0x62fe, 0xac, 0x42), (0x62ff, 0xae, 0xb3), (0x6300, 0xce, 0xe0), (0x6301, 0xab, 0xf9),
  (0x6302, 0xac, 0x45), (0x6303, 0xce, 0xd9), (0x6307, 0xab, 0xfc), (0x6308, 0xae, 0xb2),
  (0x6309, 0xab, 0xf6), (0x630b, 0xce, 0xd6), (0x630c, 0xce, 0xdd), (0x630d, 0xce, 0xd5),
  (0x630e, 0xce, 0xd8), (0x630f, 0xce, 0xdc), (0x6310, 0xd1, 0xb2), (0x6311, 0xac, 0x44),
  (0x6313, 0xce, 0xe1), (0x6314, 0xce, 0xe2), (0x6315, 0xce, 0xe4), (0x6316, 0xab, 0xf5),
  (0x6318, 0x8d, 0x7c), (0x6328, 0xae, 0xc1), (0x6329, 0xd1, 0xbe), (0x632a, 0xae, 0xbf),
  (0x632b, 0xae, 0xc0), (0x632c, 0xd1, 0xb4), (0x632d, 0xd1, 0xc4), (0x632e, 0x9e, 0xd6),
  (0x632f, 0xae, 0xb6), (0x6331, 0x93, 0xac), (0x6332, 0xd5, 0x66), (0x6333, 0xd1, 0xc6),
  (0x6334, 0xd1, 0xc0), (0x6335, 0x9f, 0x5b), (0x6336, 0xd1, 0xb7), (0x6337, 0x93, 0xa9),
  (0x6338, 0xd1, 0xc9), (0x6339, 0xd1, 0xba), (0x633a, 0xae, 0xbc), (0x633b, 0xd5, 0x7d),
  (0x633c, 0xd1, 0xbd), (0x633d, 0xae, 0xbe), (0x633e, 0xae, 0xb5), (0x6340, 0xd1, 0xcb),
  (0x6341, 0xd1, 0xbf), (0x6342, 0xae, 0xb8), (0x6343, 0xd1, 0xb8), (0x6344, 0xd1, 0xb5),
  (0x6345, 0xd1, 0xb6), (0x6346, 0xae, 0xb9), (0x6347, 0xd1, 0xc5), (0x6348, 0xd1, 0xcc),
  (0x6349, 0xae, 0xbb), (0x634a, 0xd1, 0xbc), (0x634b, 0xd1, 0xbb), (0x634c, 0xae, 0xc3),
  (0x634d, 0xae, 0xc2), (0x634e, 0xae, 0xb4), (0x634f, 0xae, 0xba), (0x6350, 0xae, 0xbd),
  (0x6351, 0xd1, 0xc8), (0x6354, 0xd1, 0xc2), (0x6355, 0xae, 0xb7), (0x6356, 0xd1, 0xb3),
  (0x6357, 0xd1, 0xca), (0x6358, 0xd1, 0xc1), (0x6359, 0xd1, 0xc3), (0x635a, 0xd1, 0xc7),
  (0x6364, 0xa0, 0x7c), (0x6365, 0xd5, 0x67), (0x6367, 0xb1, 0xb7), (0x6368, 0xb1, 0xcb),
  (0x6369, 0xb1, 0xca), (0x636b, 0xb1, 0xbf), (0x636c, 0xfc, 0xb2), (0x636d, 0xd5, 0x79),
  (0x636e, 0xd5, 0x75), (0x636f, 0xd5, 0x72), (0x6370, 0xd5, 0xa6), (0x6371, 0xb1, 0xba),
  (0x6372, 0xb1, 0xb2), (0x6375, 0xd5, 0x77), (0x6376, 0xb4, 0xa8), (0x6377, 0xb1, 0xb6),
  (0x6378, 0xd5, 0xa1), (0x6379, 0x8a, 0xc1), (0x637a, 0xb1, 0xcc), (0x637b, 0xb1, 0xc9),
  (0x637c, 0xd5, 0x7b), (0x637d, 0xd5, 0x6a), (0x637f, 0x9f, 0xb4), (0x6380, 0xb1, 0xc8),
  (0x6381, 0xd5, 0xa3), (0x6382, 0xd5, 0x69), (0x6383, 0xb1, 0xbd), (0x6384, 0xb1, 0xc1),
  (0x6385, 0xd5, 0xa2), (0x6387, 0xd5, 0x73), (0x6388, 0xb1, 0xc2), (0x6389, 0xb1, 0xbc),
  (0x638a, 0xd5, 0x68), (0x638b, 0xfc, 0xac), (0x638c, 0xb4, 0x78), (0x638d, 0xd5, 0xa5),
  (0x638e, 0xd5, 0x71), (0x638f, 0xb1, 0xc7), (0x6390, 0xd5, 0x74), (0x6391, 0xd5, 0xa4),
  (0x6392, 0xb1, 0xc6), (0x6394, 0xd9, 0x52), (0x6396, 0xb1, 0xb3), (0x6397, 0xd5, 0x6f),
  (0x6398, 0xb1, 0xb8), (0x6399, 0xb1, 0xc3), (0x639b, 0xb1, 0xbe), (0x639c, 0xd5, 0x78),
  (0x639d, 0xd5, 0x6e), (0x639e, 0xd5, 0x6c), (0x639f, 0xd5, 0x7e), (0x63a0, 0xb1, 0xb0),
  (0x63a1, 0xb1, 0xc4), (0x63a2, 0xb1, 0xb4), (0x63a3, 0xb4, 0x77), (0x63a4, 0xd5, 0x7c),
  (0x63a5, 0xb1, 0xb5), (0x63a7, 0xb1, 0xb1), (0x63a8, 0xb1, 0xc0), (0x63a9, 0xb1, 0xbb)]

/-- `ENCODE_TABLE[5376..5504]`, (code point, byte 0, byte 1).  src/generated/whatwg/big5_whatwg_tables.rs.inc:4273-4315 -/
def encRow42 : List (Nat × Nat × Nat) := [
  (0x63aa, 0xb1, 0xb9), (0x63ab, 0xd5, 0x70), (0x63ac, 0xb1, 0xc5), (0x63ad, 0xd5, 0x6d),
  (0x63ae, 0xd5, 0x7a), (0x63af, 0xd5, 0x76), (0x63b0, 0xd9, 0x54), (0x63b1, 0xd9, 0x53),
  (0x63b9, 0x9e, 0x4c), (0x63bd, 0xd5, 0x6b), (0x63be, 0xd9, 0x64), (0x63c0, 0xb4, 0x7a),
  (0x63c1, 0x8f, 0xc5), (0x63c2, 0xd9, 0x6a), (0x63c3, 0xd9, 0x59), (0x63c4, 0xd9, 0x67),
  (0x63c5, 0xdd, 0x77), (0x63c6, 0xb4, 0x7d), (0x63c7, 0xd9, 0x6b), (0x63c8, 0xd9, 0x6e),
  (0x63c9, 0xb4, 0x7c), (0x63ca, 0xd9, 0x5c), (0x63cb, 0xd9, 0x6d), (0x63cc, 0xd9, 0x6c),
  (0x63cd, 0xb4, 0x7e), (0x63ce, 0xd9, 0x55), (0x63cf, 0xb4, 0x79), (0x63d0, 0xb4, 0xa3),
  (0x63d1, 0x93, 0xad), (0x63d2, 0xb4, 0xa1), (0x63d3, 0xd9, 0x69), (0x63d5, 0xd9, 0x5f),
  (0x63d6, 0xb4, 0xa5), (0x63d7, 0xd9, 0x70), (0x63d8, 0xd9, 0x68), (0x63d9, 0xd9, 0x71),
  (0x63da, 0xb4, 0xad), (0x63db, 0xb4, 0xab), (0x63dc, 0xd9, 0x66), (0x63dd, 0xd9, 0x65),
  (0x63de, 0x9d, 0xc3), (0x63df, 0xd9, 0x63), (0x63e0, 0xd9, 0x5d), (0x63e1, 0xb4, 0xa4),
  (0x63e2, 0x8d, 0xa2), (0x63e3, 0xb4, 0xa2), (0x63e4, 0xd1, 0xb9), (0x63e5, 0xd9, 0x56),
  (0x63e6, 0x9d, 0x4a), (0x63e7, 0xdd, 0xb7), (0x63e8, 0xd9, 0x57), (0x63e9, 0xb4, 0x7b),
  (0x63ea, 0xb4, 0xaa), (0x63eb, 0xdd, 0x79), (0x63ed, 0xb4, 0xa6), (0x63ee, 0xb4, 0xa7),
  (0x63ef, 0xd9, 0x58), (0x63f0, 0xd9, 0x6f), (0x63f1, 0xdd, 0x78), (0x63f2, 0xd9, 0x60),
  (0x63f3, 0xd9, 0x5b), (0x63f4, 0xb4, 0xa9), (0x63f5, 0xd9, 0x61), (0x63f6, 0xd9, 0x5e),
  (0x63f8, 0xfc, 0xb6), (0x63f9, 0xb4, 0xae), (0x63fb, 0x8d, 0xa3), (0x63fc, 0x9e, 0x4b),
  (0x63fe, 0x9e, 0x4d), (0x6406, 0xb7, 0x70), (0x6407, 0x8d, 0xa4), (0x6409, 0xdd, 0x7c),
  (0x640a, 0xdd, 0xb1), (0x640b, 0xdd, 0xb6), (0x640c, 0xdd, 0xaa), (0x640d, 0xb7, 0x6c),
  (0x640e, 0xdd, 0xbb), (0x640f, 0xb7, 0x69), (0x6410, 0xdd, 0x7a), (0x6412, 0xdd, 0x7b),
  (0x6413, 0xb7, 0x62), (0x6414, 0xb7, 0x6b), (0x6415, 0xdd, 0xa4), (0x6416, 0xb7, 0x6e),
  (0x6417, 0xb7, 0x6f), (0x6418, 0xdd, 0xa5), (0x641a, 0xdd, 0xb2), (0x641b, 0xdd, 0xb8),
  (0x641c, 0xb7, 0x6a), (0x641e, 0xb7, 0x64), (0x641f, 0xdd, 0xa3), (0x6420, 0xdd, 0x7d),
  (0x6421, 0xdd, 0xba), (0x6422, 0xdd, 0xa8), (0x6423, 0xdd, 0xa9), (0x6424, 0xdd, 0x7e),
  (0x6425, 0xdd, 0xb4), (0x6426, 0xdd, 0xab), (0x6427, 0xdd, 0xb5), (0x6428, 0xdd, 0xad),
  (0x642a, 0xb7, 0x65), (0x642b, 0xe1, 0xd9), (0x642c, 0xb7, 0x68), (0x642d, 0xb7, 0x66),
  (0x642e, 0xdd, 0xb9), (0x642f, 0xdd, 0xb0), (0x6430, 0xdd, 0xac), (0x6432, 0x8a, 0xfd),
  (0x6433, 0xdd, 0xa1), (0x6434, 0xba, 0x53), (0x6435, 0xdd, 0xaf), (0x6436, 0xb7, 0x6d),
  (0x6437, 0xdd, 0xa7), (0x6438, 0xfc, 0xb5), (0x6439, 0xdd, 0xa6), (0x643a, 0xfc, 0xc3),
  (0x643b, 0x93, 0xb2), (0x643d, 0xb7, 0x67), (0x643e, 0xb7, 0x63), (0x643f, 0xe1, 0xee),
  (0x6440, 0xdd, 0xb3), (0x6441, 0xdd, 0xae), (0x6443, 0xdd, 0xa2), (0x644b, 0xe1, 0xe9),
  (0x644d, 0xe1, 0xda), (0x644e, 0xe1, 0xe5), (0x6450, 0xe1, 0xec), (0x6451, 0xba, 0x51)]

/-- `ENCODE_TABLE[5504..5632]`, (code point, byte 0, byte 1).  src/generated/whatwg/big5_whatwg_tables.rs.inc:4315-4358 -/
def encRow43 : List (Nat × Nat × Nat) := [
  (0x6452, 0xb4, 0xac), (0x6453, 0xe1, 0xea), (0x6454, 0xba, 0x4c), (0x6458, 0xba, 0x4b),
  (0x6459, 0xe1, 0xf1), (0x645a, 0x8d, 0xa5), (0x645b, 0xe1, 0xdb), (0x645c, 0xe1, 0xe8),
  (0x645d, 0xe1, 0xdc), (0x645e, 0xe1, 0xe7), (0x645f, 0xba, 0x4f), (0x6460, 0xe1, 0xeb),
  (0x6461, 0xd9, 0x62), (0x6465, 0xe1, 0xf2), (0x6466, 0xe1, 0xe3), (0x6467, 0xba, 0x52),
  (0x6468, 0xe5, 0xba), (0x6469, 0xbc, 0xaf), (0x646b, 0xe1, 0xf0), (0x646c, 0xe1, 0xef),
  (0x646d, 0xba, 0x54), (0x646e, 0xe5, 0xad), (0x646f, 0xbc, 0xb0), (0x6470, 0xe5, 0xae),
  (0x6471, 0x93, 0xa1), (0x6472, 0xe1, 0xdf), (0x6473, 0xe1, 0xe0), (0x6474, 0xe1, 0xdd),
  (0x6475, 0xe1, 0xe2), (0x6476, 0xe1, 0xde), (0x6477, 0xe1, 0xf3), (0x6478, 0xba, 0x4e),
  (0x6479, 0xbc, 0xb1), (0x647a, 0xba, 0x50), (0x647b, 0xba, 0x55), (0x647c, 0x8a, 0xc6),
  (0x647d, 0xe1, 0xe1), (0x647f, 0xe1, 0xed), (0x6482, 0xe1, 0xe6), (0x6485, 0xe5, 0xb1),
  (0x6487, 0xba, 0x4a), (0x6488, 0xbc, 0xb4), (0x6489, 0xe9, 0xaa), (0x648a, 0xe5, 0xb6),
  (0x648b, 0xe5, 0xb5), (0x648c, 0xe5, 0xb7), (0x648d, 0x8a, 0x5b), (0x648f, 0xe5, 0xb4),
  (0x6490, 0xbc, 0xb5), (0x6491, 0x89, 0x4d), (0x6492, 0xbc, 0xbb), (0x6493, 0xbc, 0xb8),
  (0x6495, 0xbc, 0xb9), (0x6496, 0xe5, 0xaf), (0x6497, 0xe5, 0xb2), (0x6498, 0xe5, 0xbc),
  (0x6499, 0xbc, 0xc1), (0x649a, 0xbc, 0xbf), (0x649c, 0xe5, 0xb3), (0x649d, 0xd9, 0x5a),
  (0x649e, 0xbc, 0xb2), (0x649f, 0xe5, 0xb9), (0x64a0, 0xe5, 0xb0), (0x64a2, 0xbc, 0xc2),
  (0x64a3, 0xe5, 0xb8), (0x64a4, 0xba, 0x4d), (0x64a5, 0xbc, 0xb7), (0x64a6, 0xe1, 0xe4),
  (0x64a9, 0xbc, 0xba), (0x64ab, 0xbc, 0xbe), (0x64ac, 0xbc, 0xc0), (0x64ad, 0xbc, 0xbd),
  (0x64ae, 0xbc, 0xbc), (0x64af, 0xfe, 0xd4), (0x64b0, 0xbc, 0xb6), (0x64b1, 0xe5, 0xbb),
  (0x64b2, 0xbc, 0xb3), (0x64b3, 0xbc, 0xc3), (0x64b4, 0x8a, 0x78), (0x64b6, 0x93, 0xab),
  (0x64bb, 0xbe, 0xd8), (0x64bc, 0xbe, 0xd9), (0x64bd, 0xe9, 0xa9), (0x64be, 0xbe, 0xe2),
  (0x64bf, 0xbe, 0xdf), (0x64c0, 0x8d, 0xa7), (0x64c1, 0xbe, 0xd6), (0x64c2, 0xbe, 0xdd),
  (0x64c3, 0xe9, 0xab), (0x64c4, 0xbe, 0xdb), (0x64c5, 0xbe, 0xd5), (0x64c7, 0xbe, 0xdc),
  (0x64c9, 0xe9, 0xa8), (0x64ca, 0xc0, 0xbb), (0x64cb, 0xbe, 0xd7), (0x64cd, 0xbe, 0xde),
  (0x64ce, 0xc0, 0xba), (0x64cf, 0xe9, 0xa7), (0x64d0, 0xe9, 0xa6), (0x64d2, 0xbe, 0xe0),
  (0x64d3, 0x9f, 0x45), (0x64d4, 0xbe, 0xe1), (0x64d6, 0xe9, 0xa5), (0x64d7, 0xe9, 0xa4),
  (0x64d8, 0xc0, 0xbc), (0x64d9, 0xe9, 0xae), (0x64da, 0xbe, 0xda), (0x64db, 0xe9, 0xac),
  (0x64dd, 0x8a, 0x56), (0x64e0, 0xc0, 0xbd), (0x64e1, 0xfc, 0xbf), (0x64e2, 0xc0, 0xc2),
  (0x64e3, 0xec, 0xea), (0x64e4, 0xec, 0xec), (0x64e5, 0xfc, 0xc0), (0x64e6, 0xc0, 0xbf),
  (0x64e7, 0x8e, 0xe6), (0x64e8, 0xec, 0xed), (0x64e9, 0xec, 0xe9), (0x64ea, 0x8a, 0xa4),
  (0x64eb, 0xec, 0xeb), (0x64ec, 0xc0, 0xc0), (0x64ed, 0xc0, 0xc3), (0x64ef, 0xec, 0xe8),
  (0x64f0, 0xc0, 0xbe), (0x64f1, 0xc0, 0xc1), (0x64f2, 0xc2, 0x59), (0x64f3, 0xe9, 0xad)]

/-- `ENCODE_TABLE[5632..5760]`, (code point, byte 0, byte 1).  src/generated/whatwg/big5_whatwg_tables.rs.inc:4358-4400 -/
def encRow44 : List (Nat × Nat × Nat) := [
  (0x64f4, 0xc2, 0x58), (0x64f7, 0xc2, 0x5e), (0x64f8, 0xef, 0xd4), (0x64fa, 0xc2, 0x5c),
  (0x64fb, 0xc2, 0x5d), (0x64fc, 0xef, 0xd7), (0x64fd, 0xef, 0xd3), (0x64fe, 0xc2, 0x5a),
  (0x64ff, 0xef, 0xd1), (0x6500, 0xc3, 0x6b), (0x6501, 0xef, 0xd5), (0x6503, 0xef, 0xd6),
  (0x6504, 0xef, 0xd2), (0x6506, 0xc2, 0x5b), (0x6507, 0xf2, 0x42), (0x6509, 0xf2, 0x45),
  (0x650a, 0x89, 0x43), (0x650c, 0xf2, 0x46), (0x650d, 0xf2, 0x44), (0x650e, 0xf2, 0x47),
  (0x650f, 0xc3, 0x6c), (0x6510, 0xf2, 0x43), (0x6511, 0x93, 0xf3), (0x6513, 0xf4, 0x4e),
  (0x6514, 0xc4, 0x64), (0x6515, 0xf4, 0x4d), (0x6516, 0xf4, 0x4c), (0x6517, 0xf4, 0x4b),
  (0x6518, 0xc4, 0x63), (0x6519, 0xc4, 0x65), (0x651b, 0xf5, 0xcd), (0x651c, 0xc4, 0xe2),
  (0x651d, 0xc4, 0xe1), (0x651e, 0xfc, 0xab), (0x651f, 0x9e, 0xa2), (0x6520, 0xf6, 0xe1),
  (0x6521, 0xf6, 0xe0), (0x6522, 0xf6, 0xe3), (0x6523, 0xc5, 0xcb), (0x6524, 0xc5, 0x75),
  (0x6525, 0xf7, 0xdd), (0x6526, 0xf6, 0xe2), (0x6529, 0xf7, 0xdc), (0x652a, 0xc5, 0xcd),
  (0x652b, 0xc5, 0xcc), (0x652c, 0xc5, 0xf3), (0x652d, 0xf8, 0xa9), (0x652e, 0xf8, 0xef),
  (0x652f, 0xa4, 0xe4), (0x6530, 0x9d, 0xc7), (0x6532, 0xd9, 0x72), (0x6533, 0xe9, 0xaf),
  (0x6534, 0xc6, 0xd2), (0x6535, 0x8b, 0xce), (0x6536, 0xa6, 0xac), (0x6537, 0xca, 0xf7),
  (0x6538, 0xa7, 0xf1), (0x6539, 0xa7, 0xef), (0x653b, 0xa7, 0xf0), (0x653d, 0xcc, 0xc1),
  (0x653e, 0xa9, 0xf1), (0x653f, 0xac, 0x46), (0x6541, 0xce, 0xe7), (0x6543, 0xce, 0xe8),
  (0x6545, 0xac, 0x47), (0x6546, 0xd1, 0xce), (0x6548, 0xae, 0xc4), (0x6549, 0xae, 0xc5),
  (0x654a, 0xd1, 0xcd), (0x654d, 0xfc, 0xc5), (0x654f, 0xb1, 0xd3), (0x6551, 0xb1, 0xcf),
  (0x6553, 0xd5, 0xa7), (0x6554, 0xb1, 0xd6), (0x6555, 0xb1, 0xd5), (0x6556, 0xb1, 0xce),
  (0x6557, 0xb1, 0xd1), (0x6558, 0xb1, 0xd4), (0x6559, 0xb1, 0xd0), (0x655c, 0xd9, 0x76),
  (0x655d, 0xb1, 0xcd), (0x655e, 0xb4, 0xaf), (0x655f, 0xfc, 0xcb), (0x6562, 0xb4, 0xb1),
  (0x6563, 0xb4, 0xb2), (0x6564, 0xd9, 0x75), (0x6565, 0xd9, 0x78), (0x6566, 0xb4, 0xb0),
  (0x6567, 0xd9, 0x73), (0x6568, 0xd9, 0x77), (0x656a, 0xd9, 0x74), (0x656b, 0x93, 0xb3),
  (0x656c, 0xb7, 0x71), (0x656d, 0xfc, 0xca), (0x656f, 0xdd, 0xbc), (0x6572, 0xba, 0x56),
  (0x6573, 0xe1, 0xf4), (0x6574, 0xbe, 0xe3), (0x6575, 0xbc, 0xc4), (0x6576, 0xe5, 0xbd),
  (0x6577, 0xbc, 0xc5), (0x6578, 0xbc, 0xc6), (0x6579, 0xe5, 0xbf), (0x657a, 0xe5, 0xbe),
  (0x657b, 0xe5, 0xc0), (0x657c, 0xe9, 0xb1), (0x657f, 0xe9, 0xb0), (0x6580, 0xec, 0xef),
  (0x6581, 0xec, 0xee), (0x6582, 0xc0, 0xc4), (0x6583, 0xc0, 0xc5), (0x6584, 0xf2, 0x48),
  (0x6585, 0xfc, 0xc9), (0x6586, 0x8d, 0xac), (0x6587, 0xa4, 0xe5), (0x6588, 0xfb, 0xc6),
  (0x6589, 0x89, 0x67), (0x658b, 0x8c, 0x7e), (0x658c, 0xd9, 0x79), (0x6590, 0xb4, 0xb4),
  (0x6591, 0xb4, 0xb3), (0x6592, 0xdd, 0xbd), (0x6594, 0xef, 0xd8), (0x6595, 0xc4, 0xe3),
  (0x6596, 0xf7, 0xde), (0x6597, 0xa4, 0xe6), (0x6599, 0xae, 0xc6), (0x659b, 0xb1, 0xd8)]

/-- `ENCODE_TABLE[5760..5888]`, (code point, byte 0, byte 1).  src/generated/whatwg/big5_whatwg_tables.rs.inc:4401-4443 -/
def encRow45 : List (Nat × Nat × Nat) := [
  (0x659c, 0xb1, 0xd7), (0x659d, 0xd9, 0x7a), (0x659e, 0xd9, 0x7b), (0x659f, 0xb7, 0x72),
  (0x65a0, 0xe1, 0xf5), (0x65a1, 0xba, 0x57), (0x65a2, 0xe9, 0xb2), (0x65a4, 0xa4, 0xe7),
  (0x65a5, 0xa5, 0xb8), (0x65a7, 0xa9, 0xf2), (0x65a8, 0xcc, 0xc2), (0x65aa, 0xce, 0xe9),
  (0x65ab, 0xac, 0x48), (0x65ac, 0xb1, 0xd9), (0x65ae, 0xd9, 0x7c), (0x65af, 0xb4, 0xb5),
  (0x65b0, 0xb7, 0x73), (0x65b2, 0xe5, 0xc1), (0x65b3, 0xe5, 0xc2), (0x65b5, 0xfc, 0xcd),
  (0x65b6, 0xec, 0xf0), (0x65b7, 0xc2, 0x5f), (0x65b8, 0xf8, 0xf0), (0x65b9, 0xa4, 0xe8),
  (0x65bb, 0xcc, 0xc3), (0x65bc, 0xa9, 0xf3), (0x65bd, 0xac, 0x49), (0x65be, 0x9c, 0xf3),
  (0x65bf, 0xce, 0xea), (0x65c1, 0xae, 0xc7), (0x65c2, 0xd1, 0xd2), (0x65c3, 0xd1, 0xd0),
  (0x65c4, 0xd1, 0xd1), (0x65c5, 0xae, 0xc8), (0x65c6, 0xd1, 0xcf), (0x65cb, 0xb1, 0xdb),
  (0x65cc, 0xb1, 0xdc), (0x65cd, 0xd5, 0xa8), (0x65ce, 0xb1, 0xdd), (0x65cf, 0xb1, 0xda),
  (0x65d0, 0xd9, 0x7d), (0x65d1, 0xfc, 0xd0), (0x65d2, 0xd9, 0x7e), (0x65d3, 0xdd, 0xbe),
  (0x65d4, 0x95, 0xbb), (0x65d6, 0xba, 0x59), (0x65d7, 0xba, 0x58), (0x65da, 0xec, 0xf1),
  (0x65db, 0xef, 0xd9), (0x65dd, 0xf2, 0x4a), (0x65de, 0xf2, 0x49), (0x65df, 0xf4, 0x4f),
  (0x65e0, 0xc6, 0xd3), (0x65e1, 0xc9, 0x5e), (0x65e2, 0xac, 0x4a), (0x65e3, 0xfc, 0xd4),
  (0x65e5, 0xa4, 0xe9), (0x65e6, 0xa5, 0xb9), (0x65e8, 0xa6, 0xae), (0x65e9, 0xa6, 0xad),
  (0x65ec, 0xa6, 0xaf), (0x65ed, 0xa6, 0xb0), (0x65ee, 0xc9, 0xee), (0x65ef, 0xc9, 0xed),
  (0x65f0, 0xca, 0xf8), (0x65f1, 0xa7, 0xf2), (0x65f2, 0xca, 0xfb), (0x65f3, 0xca, 0xfa),
  (0x65f4, 0xca, 0xf9), (0x65f5, 0xca, 0xfc), (0x65fa, 0xa9, 0xf4), (0x65fb, 0xcc, 0xc9),
  (0x65fc, 0xcc, 0xc5), (0x65fd, 0xcc, 0xce), (0x65ff, 0x8d, 0xae), (0x6600, 0xa9, 0xfb),
  (0x6602, 0xa9, 0xf9), (0x6603, 0xcc, 0xca), (0x6604, 0xcc, 0xc6), (0x6605, 0xcc, 0xcd),
  (0x6606, 0xa9, 0xf8), (0x6607, 0xaa, 0x40), (0x6608, 0xcc, 0xc8), (0x6609, 0xcc, 0xc4),
  (0x660a, 0xa9, 0xfe), (0x660b, 0xcc, 0xcb), (0x660c, 0xa9, 0xf7), (0x660d, 0xcc, 0xcc),
  (0x660e, 0xa9, 0xfa), (0x660f, 0xa9, 0xfc), (0x6610, 0xcc, 0xd0), (0x6611, 0xcc, 0xcf),
  (0x6612, 0xcc, 0xc7), (0x6613, 0xa9, 0xf6), (0x6614, 0xa9, 0xf5), (0x6615, 0xa9, 0xfd),
  (0x6618, 0xfc, 0xd7), (0x661c, 0xce, 0xef), (0x661d, 0xce, 0xf5), (0x661e, 0x93, 0xdb),
  (0x661f, 0xac, 0x50), (0x6620, 0xac, 0x4d), (0x6621, 0xce, 0xec), (0x6622, 0xce, 0xf1),
  (0x6623, 0xfe, 0x63), (0x6624, 0xac, 0x53), (0x6625, 0xac, 0x4b), (0x6626, 0xce, 0xf0),
  (0x6627, 0xac, 0x4e), (0x6628, 0xac, 0x51), (0x662b, 0xce, 0xf3), (0x662d, 0xac, 0x4c),
  (0x662e, 0xce, 0xf8), (0x662f, 0xac, 0x4f), (0x6630, 0x93, 0xd5), (0x6631, 0xac, 0x52),
  (0x6632, 0xce, 0xed), (0x6633, 0xce, 0xf2), (0x6634, 0xce, 0xf6), (0x6635, 0xce, 0xee),
  (0x6636, 0xce, 0xeb), (0x6639, 0xce, 0xf7), (0x663a, 0xce, 0xf4), (0x6641, 0xae, 0xd0),
  (0x6642, 0xae, 0xc9), (0x6643, 0xae, 0xcc), (0x6644, 0xfc, 0xda), (0x6645, 0xae, 0xcf)]

/-- `ENCODE_TABLE[5888..6016]`, (code point, byte 0, byte 1).  src/generated/whatwg/big5_whatwg_tables.rs.inc:4443-4486 -/
def encRow46 : List (Nat × Nat × Nat) := [
  (0x6647, 0xd1, 0xd5), (0x6648, 0x9b, 0x71), (0x6649, 0xae, 0xca), (0x664a, 0xd1, 0xd3),
  (0x664b, 0xfc, 0xdd), (0x664c, 0xae, 0xce), (0x664d, 0x87, 0x64), (0x664f, 0xae, 0xcb),
  (0x6651, 0xd1, 0xd6), (0x6652, 0xae, 0xcd), (0x6653, 0x8d, 0xaf), (0x6657, 0xfa, 0xf2),
  (0x6659, 0xd5, 0xac), (0x665a, 0xb1, 0xdf), (0x665b, 0xd5, 0xab), (0x665c, 0xd5, 0xad),
  (0x665d, 0xb1, 0xde), (0x665e, 0xb1, 0xe3), (0x665f, 0xd1, 0xd4), (0x6660, 0x87, 0xb5),
  (0x6661, 0xd5, 0xaa), (0x6662, 0xd5, 0xae), (0x6663, 0x93, 0xd8), (0x6664, 0xb1, 0xe0),
  (0x6665, 0xd5, 0xa9), (0x6666, 0xb1, 0xe2), (0x6667, 0xfc, 0xdf), (0x6668, 0xb1, 0xe1),
  (0x666a, 0xd9, 0xa7), (0x666b, 0x93, 0xd3), (0x666c, 0xd9, 0xa2), (0x666e, 0xb4, 0xb6),
  (0x666f, 0xb4, 0xba), (0x6670, 0xb4, 0xb7), (0x6671, 0xd9, 0xa5), (0x6672, 0xd9, 0xa8),
  (0x6673, 0xfc, 0xe1), (0x6674, 0xb4, 0xb8), (0x6676, 0xb4, 0xb9), (0x6677, 0xb4, 0xbe),
  (0x6678, 0xdd, 0xc7), (0x6679, 0xd9, 0xa6), (0x667a, 0xb4, 0xbc), (0x667b, 0xd9, 0xa3),
  (0x667c, 0xd9, 0xa1), (0x667d, 0x8e, 0x76), (0x667e, 0xb4, 0xbd), (0x6680, 0xd9, 0xa4),
  (0x6684, 0xb7, 0x79), (0x6685, 0xfc, 0x62), (0x6686, 0xdd, 0xbf), (0x6687, 0xb7, 0x76),
  (0x6688, 0xb7, 0x77), (0x6689, 0xb7, 0x75), (0x668a, 0xdd, 0xc4), (0x668b, 0xdd, 0xc3),
  (0x668c, 0xdd, 0xc0), (0x668d, 0xb7, 0x7b), (0x668e, 0x93, 0xd1), (0x6690, 0xdd, 0xc2),
  (0x6691, 0xb4, 0xbb), (0x6692, 0x8d, 0xb1), (0x6694, 0xdd, 0xc6), (0x6695, 0xdd, 0xc1),
  (0x6696, 0xb7, 0x78), (0x6697, 0xb7, 0x74), (0x6698, 0xb7, 0x7a), (0x6699, 0xdd, 0xc5),
  (0x669a, 0x98, 0x59), (0x669d, 0xba, 0x5c), (0x669f, 0xe1, 0xf8), (0x66a0, 0xe1, 0xf7),
  (0x66a1, 0xe1, 0xf6), (0x66a2, 0xba, 0x5a), (0x66a4, 0xfb, 0x52), (0x66a8, 0xba, 0x5b),
  (0x66a9, 0xe5, 0xc5), (0x66aa, 0xe5, 0xc8), (0x66ab, 0xbc, 0xc8), (0x66ad, 0xfb, 0x53),
  (0x66ae, 0xbc, 0xc7), (0x66af, 0xe5, 0xc9), (0x66b0, 0xe5, 0xc4), (0x66b1, 0xbc, 0xca),
  (0x66b2, 0xe5, 0xc6), (0x66b3, 0xfb, 0x4d), (0x66b4, 0xbc, 0xc9), (0x66b5, 0xe5, 0xc3),
  (0x66b6, 0x9c, 0xbf), (0x66b7, 0xe5, 0xc7), (0x66b8, 0xbe, 0xe9), (0x66b9, 0xbe, 0xe6),
  (0x66ba, 0xe9, 0xbb), (0x66bb, 0xe9, 0xba), (0x66bd, 0xe9, 0xb9), (0x66be, 0xe9, 0xb4),
  (0x66bf, 0x9b, 0x72), (0x66c0, 0xe9, 0xb5), (0x66c4, 0xbe, 0xe7), (0x66c6, 0xbe, 0xe4),
  (0x66c7, 0xbe, 0xe8), (0x66c8, 0xe9, 0xb3), (0x66c9, 0xbe, 0xe5), (0x66ca, 0xe9, 0xb6),
  (0x66cb, 0xe9, 0xb7), (0x66cc, 0xe9, 0xbc), (0x66cd, 0xfb, 0x50), (0x66ce, 0x93, 0xbe),
  (0x66cf, 0xe9, 0xb8), (0x66d2, 0xec, 0xf2), (0x66d6, 0xc0, 0xc7), (0x66d8, 0xef, 0xdc),
  (0x66d9, 0xc0, 0xc6), (0x66da, 0xef, 0xda), (0x66db, 0xef, 0xdb), (0x66dc, 0xc2, 0x60),
  (0x66dd, 0xc3, 0x6e), (0x66de, 0xf2, 0x4b), (0x66e0, 0xc3, 0x6d), (0x66e3, 0xf4, 0x51),
  (0x66e4, 0xf4, 0x52), (0x66e6, 0xc4, 0x66), (0x66e7, 0x8c, 0xdb), (0x66e8, 0xf4, 0x50),
  (0x66e9, 0xc4, 0xe4), (0x66eb, 0xf7, 0xdf), (0x66ec, 0xc5, 0xce), (0x66ed, 0xf8, 0xaa)]

/-- `ENCODE_TABLE[6016..6144]`, (code point, byte 0, byte 1).  src/generated/whatwg/big5_whatwg_tables.rs.inc:4486-4528 -/
def encRow47 : List (Nat × Nat × Nat) := [
  (0x66ee, 0xf8, 0xab), (0x66f0, 0xa4, 0xea), (0x66f1, 0x9d, 0xf1), (0x66f2, 0xa6, 0xb1),
  (0x66f3, 0xa6, 0xb2), (0x66f4, 0xa7, 0xf3), (0x66f6, 0xcc, 0xd1), (0x66f7, 0xac, 0x54),
  (0x66f8, 0xae, 0xd1), (0x66f9, 0xb1, 0xe4), (0x66fc, 0xb0, 0xd2), (0x66fe, 0xb4, 0xbf),
  (0x66ff, 0xb4, 0xc0), (0x6700, 0xb3, 0xcc), (0x6701, 0xd9, 0xa9), (0x6702, 0xfc, 0xeb),
  (0x6703, 0xb7, 0x7c), (0x6704, 0xe1, 0xfa), (0x6705, 0xe1, 0xf9), (0x6708, 0xa4, 0xeb),
  (0x6709, 0xa6, 0xb3), (0x670a, 0xcc, 0xd2), (0x670b, 0xaa, 0x42), (0x670c, 0xa0, 0xbb),
  (0x670d, 0xaa, 0x41), (0x670e, 0x9b, 0x7e), (0x670f, 0xce, 0xf9), (0x6710, 0xce, 0xfa),
  (0x6712, 0xd1, 0xd7), (0x6713, 0xd1, 0xd8), (0x6714, 0xae, 0xd2), (0x6715, 0xae, 0xd3),
  (0x6716, 0x8d, 0xb3), (0x6717, 0xae, 0xd4), (0x6718, 0xd5, 0xaf), (0x6719, 0x8c, 0x52),
  (0x671b, 0xb1, 0xe6), (0x671d, 0xb4, 0xc2), (0x671e, 0x9a, 0xe8), (0x671f, 0xb4, 0xc1),
  (0x6720, 0xdd, 0xc8), (0x6721, 0xdf, 0x7a), (0x6722, 0xe1, 0xfb), (0x6723, 0xe9, 0xbd),
  (0x6725, 0x8e, 0xdc), (0x6726, 0xc2, 0x61), (0x6727, 0xc4, 0x67), (0x6728, 0xa4, 0xec),
  (0x672a, 0xa5, 0xbc), (0x672b, 0xa5, 0xbd), (0x672c, 0xa5, 0xbb), (0x672d, 0xa5, 0xbe),
  (0x672e, 0xa5, 0xba), (0x6731, 0xa6, 0xb6), (0x6733, 0xc9, 0xf6), (0x6734, 0xa6, 0xb5),
  (0x6735, 0xa6, 0xb7), (0x6736, 0x9c, 0xf9), (0x6738, 0xc9, 0xf1), (0x6739, 0xc9, 0xf0),
  (0x673a, 0xc9, 0xf3), (0x673b, 0xc9, 0xf2), (0x673c, 0xc9, 0xf5), (0x673d, 0xa6, 0xb4),
  (0x673e, 0xc9, 0xef), (0x673f, 0xc9, 0xf4), (0x6744, 0xfa, 0x50), (0x6745, 0xca, 0xfd),
  (0x6746, 0xa7, 0xfd), (0x6747, 0xca, 0xfe), (0x6748, 0xcb, 0x43), (0x6749, 0xa7, 0xfc),
  (0x674b, 0xcb, 0x47), (0x674c, 0xcb, 0x42), (0x674d, 0xcb, 0x45), (0x674e, 0xa7, 0xf5),
  (0x674f, 0xa7, 0xf6), (0x6750, 0xa7, 0xf7), (0x6751, 0xa7, 0xf8), (0x6753, 0xa8, 0x40),
  (0x6755, 0xcb, 0x41), (0x6756, 0xa7, 0xfa), (0x6757, 0xa8, 0x41), (0x6759, 0xcb, 0x40),
  (0x675a, 0xcb, 0x46), (0x675c, 0xa7, 0xf9), (0x675d, 0xcb, 0x44), (0x675e, 0xa7, 0xfb),
  (0x675f, 0xa7, 0xf4), (0x6760, 0xa7, 0xfe), (0x6761, 0x98, 0xe7), (0x6762, 0xfc, 0xf3),
  (0x6767, 0xfc, 0xf2), (0x676a, 0xaa, 0x57), (0x676b, 0x8c, 0xca), (0x676c, 0xcc, 0xd4),
  (0x676d, 0xaa, 0x43), (0x676e, 0x87, 0x75), (0x676f, 0xaa, 0x4d), (0x6770, 0xaa, 0x4e),
  (0x6771, 0xaa, 0x46), (0x6772, 0xaa, 0x58), (0x6773, 0xaa, 0x48), (0x6774, 0xcc, 0xdc),
  (0x6775, 0xaa, 0x53), (0x6776, 0xcc, 0xd7), (0x6777, 0xaa, 0x49), (0x6778, 0xcc, 0xe6),
  (0x6779, 0xcc, 0xe7), (0x677a, 0xcc, 0xdf), (0x677b, 0xcc, 0xd8), (0x677c, 0xaa, 0x56),
  (0x677d, 0xcc, 0xe4), (0x677e, 0xaa, 0x51), (0x677f, 0xaa, 0x4f), (0x6781, 0xcc, 0xe5),
  (0x6782, 0x87, 0xba), (0x6783, 0xcc, 0xe3), (0x6784, 0xcc, 0xdb), (0x6785, 0xcc, 0xd3),
  (0x6786, 0xcc, 0xda), (0x6787, 0xaa, 0x4a), (0x6789, 0xaa, 0x50), (0x678b, 0xaa, 0x44),
  (0x678c, 0xcc, 0xde), (0x678d, 0xcc, 0xdd), (0x678e, 0xcc, 0xd5), (0x678f, 0x93, 0xe5)]

/-- `ENCODE_TABLE[6144..6272]`, (code point, byte 0, byte 1).  src/generated/whatwg/big5_whatwg_tables.rs.inc:4529-4571 -/
def encRow48 : List (Nat × Nat × Nat) := [
  (0x6790, 0xaa, 0x52), (0x6791, 0xcc, 0xe1), (0x6792, 0xcc, 0xd6), (0x6793, 0xaa, 0x55),
  (0x6794, 0xcc, 0xe8), (0x6795, 0xaa, 0x45), (0x6797, 0xaa, 0x4c), (0x6798, 0xcc, 0xd9),
  (0x6799, 0xcc, 0xe2), (0x679a, 0xaa, 0x54), (0x679c, 0xaa, 0x47), (0x679d, 0xaa, 0x4b),
  (0x679f, 0xcc, 0xe0), (0x67a0, 0x9a, 0x59), (0x67a4, 0x8d, 0xb5), (0x67ac, 0xfd, 0x4d),
  (0x67ae, 0xcf, 0x5b), (0x67af, 0xac, 0x5c), (0x67b0, 0xac, 0x69), (0x67b1, 0xfd, 0x5e),
  (0x67b2, 0xcf, 0x56), (0x67b3, 0xcf, 0x4c), (0x67b4, 0xac, 0x62), (0x67b5, 0xcf, 0x4a),
  (0x67b6, 0xac, 0x5b), (0x67b7, 0xcf, 0x45), (0x67b8, 0xac, 0x65), (0x67b9, 0xcf, 0x52),
  (0x67ba, 0xce, 0xfe), (0x67bb, 0xcf, 0x41), (0x67bf, 0x8f, 0x7d), (0x67c0, 0xcf, 0x44),
  (0x67c1, 0xce, 0xfb), (0x67c2, 0xcf, 0x51), (0x67c3, 0xcf, 0x61), (0x67c4, 0xac, 0x60),
  (0x67c5, 0xcf, 0x46), (0x67c6, 0xcf, 0x58), (0x67c8, 0xce, 0xfd), (0x67c9, 0xcf, 0x5f),
  (0x67ca, 0xcf, 0x60), (0x67cb, 0xcf, 0x63), (0x67cc, 0xcf, 0x5a), (0x67cd, 0xcf, 0x4b),
  (0x67ce, 0xcf, 0x53), (0x67cf, 0xac, 0x66), (0x67d0, 0xac, 0x59), (0x67d1, 0xac, 0x61),
  (0x67d2, 0xac, 0x6d), (0x67d3, 0xac, 0x56), (0x67d4, 0xac, 0x58), (0x67d6, 0x95, 0x47),
  (0x67d7, 0xfc, 0xf6), (0x67d8, 0xcf, 0x43), (0x67d9, 0xac, 0x6a), (0x67da, 0xac, 0x63),
  (0x67db, 0xcf, 0x5d), (0x67dc, 0xcf, 0x40), (0x67dd, 0xac, 0x6c), (0x67de, 0xac, 0x67),
  (0x67df, 0xcf, 0x49), (0x67e2, 0xac, 0x6b), (0x67e3, 0xcf, 0x50), (0x67e4, 0xcf, 0x48),
  (0x67e5, 0xac, 0x64), (0x67e6, 0xcf, 0x5c), (0x67e7, 0xcf, 0x54), (0x67e9, 0xac, 0x5e),
  (0x67ea, 0xcf, 0x62), (0x67eb, 0xcf, 0x47), (0x67ec, 0xac, 0x5a), (0x67ed, 0xcf, 0x59),
  (0x67ee, 0xcf, 0x4f), (0x67ef, 0xac, 0x5f), (0x67f0, 0xcf, 0x55), (0x67f1, 0xac, 0x57),
  (0x67f2, 0xce, 0xfc), (0x67f3, 0xac, 0x68), (0x67f4, 0xae, 0xe3), (0x67f5, 0xac, 0x5d),
  (0x67f6, 0xcf, 0x4e), (0x67f7, 0xcf, 0x4d), (0x67f8, 0xcf, 0x42), (0x67f9, 0x92, 0x50),
  (0x67fa, 0xcf, 0x5e), (0x67fc, 0xcf, 0x57), (0x67fe, 0x89, 0x68), (0x67ff, 0xac, 0x55),
  (0x6800, 0x8d, 0xb6), (0x6801, 0xfc, 0xfb), (0x6802, 0xa0, 0x7d), (0x6803, 0x98, 0xfc),
  (0x6804, 0x89, 0x69), (0x680d, 0xfe, 0x4f), (0x6810, 0x92, 0x56), (0x6812, 0xd1, 0xec),
  (0x6813, 0xae, 0xea), (0x6814, 0xd1, 0xed), (0x6816, 0xd1, 0xe1), (0x6817, 0xae, 0xdf),
  (0x6818, 0xae, 0xeb), (0x681a, 0xd1, 0xda), (0x681b, 0xfa, 0xc9), (0x681c, 0xd1, 0xe3),
  (0x681d, 0xd1, 0xeb), (0x681e, 0x93, 0xe8), (0x681f, 0xd1, 0xd9), (0x6820, 0xd1, 0xf4),
  (0x6821, 0xae, 0xd5), (0x6822, 0xfc, 0xf8), (0x6825, 0xd1, 0xf3), (0x6826, 0xd1, 0xee),
  (0x6828, 0xd1, 0xef), (0x6829, 0xae, 0xdd), (0x682a, 0xae, 0xe8), (0x682b, 0xd1, 0xe5),
  (0x682d, 0xd1, 0xe6), (0x682e, 0xd1, 0xf0), (0x682f, 0xd1, 0xe7), (0x6831, 0xd1, 0xe2),
  (0x6832, 0xd1, 0xdc), (0x6833, 0xd1, 0xdd), (0x6834, 0xd1, 0xea), (0x6835, 0xd1, 0xe4),
  (0x6836, 0x9c, 0xe3), (0x6837, 0xfd, 0xa9), (0x6838, 0xae, 0xd6), (0x6839, 0xae, 0xda)]

/-- `ENCODE_TABLE[6272..6400]`, (code point, byte 0, byte 1).  src/generated/whatwg/big5_whatwg_tables.rs.inc:4571-4614 -/
def encRow49 : List (Nat × Nat × Nat) := [
  (0x683a, 0xd1, 0xf2), (0x683b, 0xd1, 0xde), (0x683c, 0xae, 0xe6), (0x683d, 0xae, 0xe2),
  (0x683e, 0xfc, 0x44), (0x6840, 0xae, 0xe5), (0x6841, 0xae, 0xec), (0x6842, 0xae, 0xdb),
  (0x6843, 0xae, 0xe7), (0x6844, 0xd1, 0xe9), (0x6845, 0xae, 0xe9), (0x6846, 0xae, 0xd8),
  (0x6847, 0x96, 0x40), (0x6848, 0xae, 0xd7), (0x6849, 0xd1, 0xdb), (0x684a, 0x8d, 0xb8),
  (0x684b, 0xd1, 0xdf), (0x684c, 0xae, 0xe0), (0x684d, 0xd1, 0xf1), (0x684e, 0xd1, 0xe8),
  (0x684f, 0xd1, 0xe0), (0x6850, 0xae, 0xe4), (0x6851, 0xae, 0xe1), (0x6853, 0xae, 0xd9),
  (0x6854, 0xae, 0xdc), (0x6855, 0x9b, 0x4a), (0x6856, 0x8f, 0xb9), (0x685d, 0xfc, 0xfe),
  (0x6865, 0x89, 0x6a), (0x686b, 0xd5, 0xc4), (0x686d, 0xd5, 0xb4), (0x686e, 0xd5, 0xb5),
  (0x686f, 0xd5, 0xb9), (0x6871, 0xd5, 0xc8), (0x6872, 0xd5, 0xc5), (0x6874, 0xd5, 0xbe),
  (0x6875, 0xd5, 0xbd), (0x6876, 0xb1, 0xed), (0x6877, 0xd5, 0xc1), (0x6878, 0xd5, 0xd0),
  (0x6879, 0xd5, 0xb0), (0x687b, 0xd5, 0xd1), (0x687c, 0xd5, 0xc3), (0x687d, 0xd5, 0xd5),
  (0x687e, 0xd5, 0xc9), (0x687f, 0xb1, 0xec), (0x6880, 0xd5, 0xc7), (0x6881, 0xb1, 0xe7),
  (0x6882, 0xb1, 0xfc), (0x6883, 0xb1, 0xf2), (0x6884, 0x8d, 0xb9), (0x6885, 0xb1, 0xf6),
  (0x6886, 0xb1, 0xf5), (0x6887, 0xd5, 0xb1), (0x6888, 0x91, 0x7e), (0x6889, 0xd5, 0xce),
  (0x688a, 0xd5, 0xd4), (0x688b, 0xd5, 0xcc), (0x688c, 0xd5, 0xd3), (0x688f, 0xd5, 0xc0),
  (0x6890, 0xd5, 0xb2), (0x6891, 0xd5, 0xd2), (0x6892, 0xd5, 0xc2), (0x6893, 0xb1, 0xea),
  (0x6894, 0xb1, 0xf7), (0x6896, 0xd5, 0xcb), (0x6897, 0xb1, 0xf0), (0x6898, 0x93, 0xf4),
  (0x689b, 0xd5, 0xca), (0x689c, 0xd5, 0xb3), (0x689d, 0xb1, 0xf8), (0x689f, 0xb1, 0xfa),
  (0x68a0, 0xd5, 0xcd), (0x68a1, 0xb1, 0xfb), (0x68a2, 0xb1, 0xe9), (0x68a3, 0xd5, 0xba),
  (0x68a4, 0xd5, 0xcf), (0x68a6, 0xfb, 0x7c), (0x68a7, 0xb1, 0xef), (0x68a8, 0xb1, 0xf9),
  (0x68a9, 0xd5, 0xbc), (0x68aa, 0xd5, 0xc6), (0x68ab, 0xd5, 0xb7), (0x68ac, 0xd5, 0xbb),
  (0x68ad, 0xb1, 0xf4), (0x68ae, 0xd5, 0xb6), (0x68af, 0xb1, 0xe8), (0x68b0, 0xb1, 0xf1),
  (0x68b1, 0xb1, 0xee), (0x68b2, 0xd5, 0xbf), (0x68b3, 0xae, 0xde), (0x68b4, 0xd9, 0xc0),
  (0x68b5, 0xb1, 0xeb), (0x68b6, 0x93, 0xe7), (0x68b9, 0x97, 0xef), (0x68bd, 0xfe, 0x4a),
  (0x68c3, 0xfd, 0x45), (0x68c4, 0xb1, 0xf3), (0x68c5, 0x96, 0xa5), (0x68c6, 0xd9, 0xc3),
  (0x68c7, 0xd9, 0xd9), (0x68c8, 0xd9, 0xce), (0x68c9, 0xb4, 0xd6), (0x68ca, 0xfe, 0xe0),
  (0x68cb, 0xb4, 0xd1), (0x68cc, 0xd9, 0xbd), (0x68cd, 0xb4, 0xd2), (0x68ce, 0xd9, 0xcd),
  (0x68d0, 0xd9, 0xc6), (0x68d1, 0xd9, 0xd3), (0x68d2, 0xb4, 0xce), (0x68d3, 0xd9, 0xab),
  (0x68d4, 0xd9, 0xd5), (0x68d5, 0xb4, 0xc4), (0x68d6, 0xd9, 0xb3), (0x68d7, 0xb4, 0xc7),
  (0x68d8, 0xb4, 0xc6), (0x68da, 0xb4, 0xd7), (0x68dc, 0xd9, 0xad), (0x68dd, 0xd9, 0xcf),
  (0x68de, 0xd9, 0xd0), (0x68df, 0xb4, 0xc9), (0x68e0, 0xb4, 0xc5), (0x68e1, 0xd9, 0xbb),
  (0x68e3, 0xb4, 0xd0), (0x68e4, 0xd9, 0xb6), (0x68e6, 0xd9, 0xd1), (0x68e7, 0xb4, 0xcc)]

/-- `ENCODE_TABLE[6400..6528]`, (code point, byte 0, byte 1).  src/generated/whatwg/big5_whatwg_tables.rs.inc:4614-4656 -/
def encRow50 : List (Nat × Nat × Nat) := [
  (0x68e8, 0xd9, 0xc9), (0x68e9, 0xd9, 0xd6), (0x68ea, 0xd9, 0xb0), (0x68eb, 0xd9, 0xb5),
  (0x68ec, 0xd9, 0xaf), (0x68ee, 0xb4, 0xcb), (0x68ef, 0xd9, 0xc2), (0x68f0, 0xdd, 0xde),
  (0x68f1, 0xd9, 0xb1), (0x68f2, 0xb4, 0xcf), (0x68f3, 0xd9, 0xba), (0x68f4, 0xd9, 0xd2),
  (0x68f5, 0xb4, 0xca), (0x68f6, 0xd9, 0xb7), (0x68f7, 0xd9, 0xb4), (0x68f8, 0xd9, 0xc5),
  (0x68f9, 0xb4, 0xcd), (0x68fa, 0xb4, 0xc3), (0x68fb, 0xb4, 0xd9), (0x68fc, 0xd9, 0xc8),
  (0x68fd, 0xd9, 0xc7), (0x6900, 0xfd, 0x48), (0x6901, 0xfd, 0x47), (0x6902, 0xfe, 0xf2),
  (0x6903, 0xfe, 0x6a), (0x6904, 0xd9, 0xac), (0x6905, 0xb4, 0xc8), (0x6906, 0xd9, 0xd4),
  (0x6907, 0xd9, 0xbc), (0x6908, 0xd9, 0xbe), (0x6909, 0x8d, 0xbd), (0x690a, 0xd9, 0xcb),
  (0x690b, 0xd9, 0xca), (0x690c, 0xd9, 0xaa), (0x690d, 0xb4, 0xd3), (0x690e, 0xb4, 0xd5),
  (0x690f, 0xd9, 0xb2), (0x6910, 0xd9, 0xb9), (0x6911, 0xd9, 0xc1), (0x6912, 0xb4, 0xd4),
  (0x6913, 0xd9, 0xb8), (0x6914, 0xd9, 0xc4), (0x6915, 0xd9, 0xd7), (0x6917, 0xd9, 0xcc),
  (0x6918, 0x9b, 0xa1), (0x6919, 0x8c, 0xa2), (0x691a, 0x9a, 0xb7), (0x691b, 0x8e, 0xfc),
  (0x6925, 0xd9, 0xd8), (0x692a, 0xd9, 0xae), (0x692c, 0x9f, 0xa1), (0x692f, 0xdd, 0xf2),
  (0x6930, 0xb7, 0xa6), (0x6932, 0xdd, 0xf0), (0x6933, 0xdd, 0xdb), (0x6934, 0xdd, 0xe0),
  (0x6935, 0xdd, 0xd9), (0x6936, 0xfd, 0x51), (0x6937, 0xdd, 0xec), (0x6938, 0xdd, 0xcb),
  (0x6939, 0xdd, 0xd2), (0x693b, 0xdd, 0xea), (0x693c, 0xdd, 0xf4), (0x693d, 0xdd, 0xdc),
  (0x693e, 0xfa, 0xad), (0x693f, 0xdd, 0xcf), (0x6940, 0xdd, 0xe2), (0x6941, 0xdd, 0xe7),
  (0x6942, 0xdd, 0xd3), (0x6943, 0x8d, 0xbe), (0x6944, 0xdd, 0xe4), (0x6945, 0xdd, 0xd0),
  (0x6946, 0x89, 0xa4), (0x6948, 0xdd, 0xd7), (0x6949, 0xdd, 0xd8), (0x694a, 0xb7, 0xa8),
  (0x694b, 0xdd, 0xeb), (0x694c, 0xdd, 0xe9), (0x694e, 0xdd, 0xcc), (0x694f, 0xdd, 0xee),
  (0x6951, 0xdd, 0xef), (0x6952, 0xdd, 0xf1), (0x6953, 0xb7, 0xac), (0x6954, 0xb7, 0xa4),
  (0x6955, 0x9a, 0xd9), (0x6956, 0xd5, 0xb8), (0x6957, 0xdd, 0xd4), (0x6958, 0xdd, 0xe6),
  (0x6959, 0xdd, 0xd5), (0x695a, 0xb7, 0xa1), (0x695b, 0xb7, 0xb1), (0x695c, 0xdd, 0xed),
  (0x695d, 0xb7, 0xaf), (0x695e, 0xb7, 0xab), (0x695f, 0xdd, 0xca), (0x6960, 0xb7, 0xa3),
  (0x6961, 0xfd, 0x4e), (0x6962, 0xdd, 0xcd), (0x6963, 0xb7, 0xb0), (0x6964, 0x8d, 0xc0),
  (0x6965, 0xdd, 0xdd), (0x6966, 0xdd, 0xc9), (0x6967, 0x97, 0xf0), (0x6968, 0xb7, 0xa9),
  (0x6969, 0xdd, 0xe1), (0x696a, 0xdd, 0xd1), (0x696b, 0xb7, 0xaa), (0x696c, 0xdd, 0xda),
  (0x696d, 0xb7, 0x7e), (0x696e, 0xb4, 0xd8), (0x696f, 0xdd, 0xe3), (0x6970, 0xd9, 0xbf),
  (0x6971, 0xdd, 0xce), (0x6972, 0x93, 0xb4), (0x6973, 0xfd, 0x44), (0x6974, 0xdd, 0xe8),
  (0x6975, 0xb7, 0xa5), (0x6976, 0xdd, 0xe5), (0x6977, 0xb7, 0xa2), (0x6978, 0xdd, 0xdf),
  (0x6979, 0xb7, 0xad), (0x697a, 0xdd, 0xd6), (0x697b, 0xdd, 0xf3), (0x6980, 0x9f, 0xa7),
  (0x6982, 0xb7, 0xa7), (0x6983, 0xde, 0xc6), (0x6985, 0x8d, 0xc2), (0x6986, 0xb7, 0xae)]

/-- `ENCODE_TABLE[6528..6656]`, (code point, byte 0, byte 1).  src/generated/whatwg/big5_whatwg_tables.rs.inc:4657-4699 -/
def encRow51 : List (Nat × Nat × Nat) := [
  (0x698a, 0x99, 0xb6), (0x698d, 0xe2, 0x4a), (0x698e, 0xe2, 0x48), (0x6990, 0xe2, 0x5e),
  (0x6991, 0xe2, 0x46), (0x6993, 0xe2, 0x58), (0x6994, 0xb7, 0x7d), (0x6995, 0xba, 0x5f),
  (0x6996, 0xe2, 0x42), (0x6997, 0xe2, 0x5d), (0x6998, 0xfd, 0x52), (0x6999, 0xe2, 0x47),
  (0x699a, 0xe2, 0x55), (0x699b, 0xba, 0x64), (0x699c, 0xba, 0x5d), (0x699e, 0xe2, 0x5b),
  (0x699f, 0x8d, 0xc1), (0x69a0, 0xe2, 0x40), (0x69a1, 0xe2, 0x5a), (0x69a2, 0x8e, 0x46),
  (0x69a3, 0xba, 0x6f), (0x69a4, 0xe2, 0x51), (0x69a5, 0xe2, 0x61), (0x69a6, 0xba, 0x6d),
  (0x69a7, 0xe2, 0x49), (0x69a8, 0xba, 0x5e), (0x69a9, 0xe2, 0x4b), (0x69aa, 0xe2, 0x59),
  (0x69ab, 0xba, 0x67), (0x69ac, 0xe2, 0x44), (0x69ad, 0xba, 0x6b), (0x69ae, 0xba, 0x61),
  (0x69af, 0xe2, 0x4d), (0x69b0, 0xe2, 0x43), (0x69b1, 0xe1, 0xfc), (0x69b2, 0xa0, 0xd1),
  (0x69b3, 0xe2, 0x57), (0x69b4, 0xba, 0x68), (0x69b5, 0xe2, 0x60), (0x69b6, 0xe1, 0xfd),
  (0x69b7, 0xba, 0x65), (0x69b9, 0xe2, 0x53), (0x69bb, 0xba, 0x66), (0x69bc, 0xe2, 0x45),
  (0x69bd, 0xe2, 0x50), (0x69be, 0xe2, 0x4c), (0x69bf, 0xe2, 0x4e), (0x69c0, 0x9f, 0xca),
  (0x69c1, 0xba, 0x60), (0x69c2, 0xe2, 0x5f), (0x69c3, 0xba, 0x6e), (0x69c4, 0xe2, 0x4f),
  (0x69c6, 0xe2, 0x62), (0x69c9, 0xe1, 0xfe), (0x69ca, 0xe2, 0x54), (0x69cb, 0xba, 0x63),
  (0x69cc, 0xba, 0x6c), (0x69cd, 0xba, 0x6a), (0x69ce, 0xe2, 0x41), (0x69cf, 0xe2, 0x56),
  (0x69d0, 0xba, 0x69), (0x69d1, 0x92, 0xcf), (0x69d3, 0xba, 0x62), (0x69d4, 0xe2, 0x52),
  (0x69d5, 0x9c, 0xf4), (0x69d6, 0x8d, 0xc4), (0x69d9, 0xe2, 0x5c), (0x69e1, 0xfd, 0x41),
  (0x69e2, 0xe5, 0xd5), (0x69e4, 0xe5, 0xd1), (0x69e5, 0xe5, 0xcd), (0x69e6, 0xe5, 0xe1),
  (0x69e7, 0xe5, 0xde), (0x69e8, 0xbc, 0xcd), (0x69e9, 0x9b, 0x4c), (0x69eb, 0xe5, 0xe5),
  (0x69ec, 0xe5, 0xd4), (0x69ed, 0xbc, 0xd8), (0x69ee, 0xe5, 0xdb), (0x69f1, 0xe5, 0xd0),
  (0x69f2, 0xe5, 0xda), (0x69f3, 0xbc, 0xd5), (0x69f4, 0xe5, 0xee), (0x69f6, 0xe5, 0xeb),
  (0x69f7, 0xe5, 0xdd), (0x69f8, 0xe5, 0xce), (0x69f9, 0xfd, 0x57), (0x69fa, 0xfc, 0xef),
  (0x69fb, 0xe5, 0xe2), (0x69fc, 0xe5, 0xe4), (0x69fd, 0xbc, 0xd1), (0x69fe, 0xe5, 0xd8),
  (0x69ff, 0xe5, 0xd3), (0x6a00, 0xe5, 0xca), (0x6a01, 0xbc, 0xce), (0x6a02, 0xbc, 0xd6),
  (0x6a03, 0x9c, 0xde), (0x6a04, 0xe5, 0xe7), (0x6a05, 0xbc, 0xd7), (0x6a06, 0xe5, 0xcb),
  (0x6a07, 0xe5, 0xed), (0x6a08, 0xe5, 0xe0), (0x6a09, 0xe5, 0xe6), (0x6a0a, 0xbc, 0xd4),
  (0x6a0b, 0xfd, 0x42), (0x6a0c, 0x98, 0x6c), (0x6a0d, 0xe5, 0xe3), (0x6a0f, 0xe5, 0xea),
  (0x6a11, 0xbc, 0xd9), (0x6a13, 0xbc, 0xd3), (0x6a14, 0xe5, 0xdc), (0x6a15, 0xe5, 0xcf),
  (0x6a16, 0xe5, 0xef), (0x6a17, 0xe5, 0xcc), (0x6a18, 0xe5, 0xe8), (0x6a19, 0xbc, 0xd0),
  (0x6a1a, 0x97, 0xf9), (0x6a1b, 0xe5, 0xd6), (0x6a1c, 0x95, 0x58), (0x6a1d, 0xe5, 0xd7),
  (0x6a1e, 0xbc, 0xcf), (0x6a1f, 0xbc, 0xcc), (0x6a20, 0xe5, 0xd2), (0x6a21, 0xbc, 0xd2),
  (0x6a23, 0xbc, 0xcb), (0x6a25, 0xe5, 0xe9), (0x6a26, 0xe5, 0xec), (0x6a27, 0xe5, 0xd9)]

/-- `ENCODE_TABLE[6656..6784]`, (code point, byte 0, byte 1).  src/generated/whatwg/big5_whatwg_tables.rs.inc:4699-4742 -/
def encRow52 : List (Nat × Nat × Nat) := [
  (0x6a28, 0xe9, 0xca), (0x6a29, 0x87, 0xb6), (0x6a2b, 0x98, 0x5e), (0x6a2c, 0xfe, 0x7b),
  (0x6a2d, 0x94, 0xcd), (0x6a32, 0xe9, 0xc2), (0x6a33, 0x93, 0xee), (0x6a34, 0xe9, 0xbe),
  (0x6a35, 0xbe, 0xf6), (0x6a38, 0xbe, 0xeb), (0x6a39, 0xbe, 0xf0), (0x6a3a, 0xbe, 0xec),
  (0x6a3b, 0xe9, 0xcc), (0x6a3c, 0xe9, 0xd7), (0x6a3d, 0xbe, 0xea), (0x6a3e, 0xe9, 0xc4),
  (0x6a3f, 0xe9, 0xcd), (0x6a40, 0xe5, 0xdf), (0x6a41, 0xe9, 0xce), (0x6a43, 0x8c, 0xa3),
  (0x6a44, 0xbe, 0xf1), (0x6a45, 0xfd, 0x5a), (0x6a46, 0xe9, 0xdd), (0x6a47, 0xbe, 0xf5),
  (0x6a48, 0xbe, 0xf8), (0x6a49, 0xe9, 0xc0), (0x6a4b, 0xbe, 0xf4), (0x6a4c, 0x93, 0xf5),
  (0x6a4d, 0xe9, 0xdb), (0x6a4e, 0xe9, 0xdc), (0x6a4f, 0xe9, 0xd2), (0x6a50, 0xe9, 0xd1),
  (0x6a51, 0xe9, 0xc9), (0x6a52, 0x93, 0xef), (0x6a53, 0x8e, 0xea), (0x6a54, 0xe9, 0xd3),
  (0x6a55, 0xe9, 0xda), (0x6a56, 0xe9, 0xd9), (0x6a57, 0x8f, 0x5b), (0x6a58, 0xbe, 0xef),
  (0x6a59, 0xbe, 0xed), (0x6a5a, 0xe9, 0xcb), (0x6a5b, 0xe9, 0xc8), (0x6a5d, 0xe9, 0xc5),
  (0x6a5e, 0xe9, 0xd8), (0x6a5f, 0xbe, 0xf7), (0x6a60, 0xe9, 0xd6), (0x6a61, 0xbe, 0xf3),
  (0x6a62, 0xbe, 0xf2), (0x6a63, 0x8c, 0x5e), (0x6a64, 0xe9, 0xd0), (0x6a65, 0x8d, 0xc6),
  (0x6a66, 0xe9, 0xbf), (0x6a67, 0xe9, 0xc1), (0x6a68, 0xe9, 0xc3), (0x6a69, 0xe9, 0xd5),
  (0x6a6a, 0xe9, 0xcf), (0x6a6b, 0xbe, 0xee), (0x6a6d, 0xe9, 0xc6), (0x6a6f, 0xe9, 0xd4),
  (0x6a71, 0x8d, 0xc8), (0x6a74, 0x8d, 0xc7), (0x6a76, 0xe9, 0xc7), (0x6a7a, 0x93, 0xf7),
  (0x6a7e, 0xc0, 0xcf), (0x6a7f, 0xed, 0x45), (0x6a80, 0xc0, 0xc8), (0x6a81, 0xec, 0xf5),
  (0x6a82, 0x8d, 0xc9), (0x6a83, 0xed, 0x41), (0x6a84, 0xc0, 0xca), (0x6a85, 0xed, 0x48),
  (0x6a87, 0xec, 0xfc), (0x6a89, 0xec, 0xf7), (0x6a8a, 0xfb, 0xf2), (0x6a8c, 0xed, 0x49),
  (0x6a8d, 0xec, 0xf3), (0x6a8e, 0xec, 0xfe), (0x6a8f, 0x96, 0x70), (0x6a90, 0xc0, 0xd1),
  (0x6a91, 0xed, 0x44), (0x6a92, 0xed, 0x4a), (0x6a93, 0xec, 0xfd), (0x6a94, 0xc0, 0xc9),
  (0x6a95, 0xed, 0x40), (0x6a96, 0xec, 0xf4), (0x6a97, 0xc0, 0xd0), (0x6a99, 0x8d, 0xcb),
  (0x6a9a, 0xed, 0x47), (0x6a9b, 0xec, 0xf9), (0x6a9c, 0xc0, 0xcc), (0x6a9d, 0xfd, 0x5c),
  (0x6a9e, 0xec, 0xfb), (0x6a9f, 0xec, 0xf8), (0x6aa0, 0xc0, 0xd2), (0x6aa1, 0xec, 0xfa),
  (0x6aa2, 0xc0, 0xcb), (0x6aa3, 0xc0, 0xce), (0x6aa4, 0xed, 0x43), (0x6aa5, 0xec, 0xf6),
  (0x6aa6, 0xed, 0x46), (0x6aa7, 0x8f, 0x65), (0x6aa8, 0xed, 0x42), (0x6aab, 0x8d, 0xcd),
  (0x6aac, 0xc2, 0x63), (0x6aad, 0xef, 0xe7), (0x6aae, 0xc2, 0x68), (0x6aaf, 0xc2, 0x69),
  (0x6ab1, 0x9d, 0xa8), (0x6ab2, 0x94, 0xf9), (0x6ab3, 0xc2, 0x62), (0x6ab4, 0xef, 0xe6),
  (0x6ab5, 0x8d, 0xce), (0x6ab6, 0xef, 0xe3), (0x6ab7, 0xef, 0xe4), (0x6ab8, 0xc2, 0x66),
  (0x6ab9, 0xef, 0xde), (0x6aba, 0xef, 0xe2), (0x6abb, 0xc2, 0x65), (0x6abd, 0xef, 0xdf),
  (0x6abe, 0x93, 0xea), (0x6ac2, 0xc2, 0x67), (0x6ac3, 0xc2, 0x64), (0x6ac5, 0xef, 0xdd),
  (0x6ac6, 0xef, 0xe1), (0x6ac7, 0xef, 0xe5), (0x6ac8, 0xfd, 0x5f), (0x6ac9, 0x93, 0xf0)]

/-- `ENCODE_TABLE[6784..6912]`, (code point, byte 0, byte 1).  src/generated/whatwg/big5_whatwg_tables.rs.inc:4742-4784 -/
def encRow53 : List (Nat × Nat × Nat) := [
  (0x6aca, 0x9f, 0xb6), (0x6acb, 0xf2, 0x51), (0x6acc, 0xf2, 0x4e), (0x6acd, 0xf2, 0x57),
  (0x6acf, 0xf2, 0x56), (0x6ad0, 0xf2, 0x54), (0x6ad1, 0xf2, 0x4f), (0x6ad3, 0xc3, 0x72),
  (0x6ad4, 0x8d, 0xcf), (0x6ad8, 0x97, 0x63), (0x6ad9, 0xf2, 0x50), (0x6ada, 0xc3, 0x71),
  (0x6adb, 0xc0, 0xcd), (0x6adc, 0xf2, 0x53), (0x6add, 0xc3, 0x70), (0x6ade, 0xf2, 0x58),
  (0x6adf, 0xf2, 0x52), (0x6ae0, 0xf2, 0x4d), (0x6ae1, 0xef, 0xe0), (0x6ae5, 0xc3, 0x6f),
  (0x6ae7, 0xf2, 0x4c), (0x6ae8, 0xf4, 0x56), (0x6aea, 0xf4, 0x55), (0x6aeb, 0xf2, 0x55),
  (0x6aec, 0xc4, 0x68), (0x6aee, 0xf4, 0x59), (0x6aef, 0xf4, 0x5a), (0x6af0, 0xf4, 0x54),
  (0x6af1, 0xf4, 0x58), (0x6af3, 0xf4, 0x53), (0x6af6, 0x8d, 0xd0), (0x6af8, 0xf5, 0xd1),
  (0x6af9, 0xf4, 0x57), (0x6afa, 0xc4, 0xe7), (0x6afb, 0xc4, 0xe5), (0x6afc, 0xf5, 0xcf),
  (0x6b00, 0xf5, 0xd2), (0x6b02, 0xf5, 0xce), (0x6b03, 0xf5, 0xd0), (0x6b04, 0xc4, 0xe6),
  (0x6b05, 0x93, 0xf1), (0x6b08, 0xf6, 0xe5), (0x6b09, 0xf6, 0xe6), (0x6b0a, 0xc5, 0x76),
  (0x6b0b, 0xf6, 0xe4), (0x6b0f, 0xf7, 0xe2), (0x6b10, 0xc5, 0xcf), (0x6b11, 0xf7, 0xe0),
  (0x6b12, 0xf7, 0xe1), (0x6b13, 0xf8, 0xac), (0x6b16, 0xc6, 0x56), (0x6b17, 0xf8, 0xf3),
  (0x6b18, 0xf8, 0xf1), (0x6b19, 0xf8, 0xf2), (0x6b1a, 0xf8, 0xf4), (0x6b1d, 0xfd, 0x62),
  (0x6b1e, 0xf9, 0xbb), (0x6b20, 0xa4, 0xed), (0x6b21, 0xa6, 0xb8), (0x6b23, 0xaa, 0x59),
  (0x6b25, 0xcc, 0xe9), (0x6b28, 0xcf, 0x64), (0x6b2c, 0xd1, 0xf5), (0x6b2d, 0xd1, 0xf7),
  (0x6b2f, 0xd1, 0xf6), (0x6b31, 0xd1, 0xf8), (0x6b32, 0xb1, 0xfd), (0x6b33, 0xd5, 0xd7),
  (0x6b34, 0xd1, 0xf9), (0x6b35, 0xfd, 0x65), (0x6b36, 0xd5, 0xd6), (0x6b37, 0xd5, 0xd8),
  (0x6b38, 0xd5, 0xd9), (0x6b39, 0xd9, 0xda), (0x6b3a, 0xb4, 0xdb), (0x6b3b, 0xd9, 0xdb),
  (0x6b3c, 0xd9, 0xdd), (0x6b3d, 0xb4, 0xdc), (0x6b3e, 0xb4, 0xda), (0x6b3f, 0xd9, 0xdc),
  (0x6b41, 0xdd, 0xfa), (0x6b42, 0xdd, 0xf8), (0x6b43, 0xdd, 0xf7), (0x6b45, 0xdd, 0xf6),
  (0x6b46, 0xdd, 0xf5), (0x6b47, 0xb7, 0xb2), (0x6b48, 0xdd, 0xf9), (0x6b49, 0xba, 0x70),
  (0x6b4a, 0xe2, 0x63), (0x6b4b, 0xe2, 0x65), (0x6b4c, 0xba, 0x71), (0x6b4d, 0xe2, 0x64),
  (0x6b4e, 0xbc, 0xdb), (0x6b50, 0xbc, 0xda), (0x6b51, 0xe5, 0xf0), (0x6b52, 0x9f, 0xdb),
  (0x6b54, 0xe9, 0xdf), (0x6b55, 0xe9, 0xde), (0x6b56, 0xe9, 0xe0), (0x6b57, 0x93, 0xf8),
  (0x6b59, 0xbe, 0xf9), (0x6b5b, 0xed, 0x4b), (0x6b5c, 0xc0, 0xd3), (0x6b5e, 0xef, 0xe8),
  (0x6b5f, 0xc2, 0x6a), (0x6b60, 0xf2, 0x59), (0x6b61, 0xc5, 0x77), (0x6b62, 0xa4, 0xee),
  (0x6b63, 0xa5, 0xbf), (0x6b64, 0xa6, 0xb9), (0x6b65, 0xa8, 0x42), (0x6b66, 0xaa, 0x5a),
  (0x6b67, 0xaa, 0x5b), (0x6b6a, 0xac, 0x6e), (0x6b6d, 0xd1, 0xfa), (0x6b6f, 0x8b, 0xf7),
  (0x6b72, 0xb7, 0xb3), (0x6b74, 0xfd, 0x66), (0x6b76, 0xe6, 0xd1), (0x6b77, 0xbe, 0xfa),
  (0x6b78, 0xc2, 0x6b), (0x6b79, 0xa4, 0xef), (0x6b7a, 0x8b, 0xcf), (0x6b7b, 0xa6, 0xba),
  (0x6b7e, 0xcc, 0xeb), (0x6b7f, 0xaa, 0x5c), (0x6b80, 0xcc, 0xea), (0x6b81, 0x8d, 0xd1)]

/-- `ENCODE_TABLE[6912..7040]`, (code point, byte 0, byte 1).  src/generated/whatwg/big5_whatwg_tables.rs.inc:4785-4827 -/
def encRow54 : List (Nat × Nat × Nat) := [
  (0x6b82, 0xcf, 0x65), (0x6b83, 0xac, 0x6f), (0x6b84, 0xcf, 0x66), (0x6b86, 0xac, 0x70),
  (0x6b88, 0xd1, 0xfc), (0x6b89, 0xae, 0xee), (0x6b8a, 0xae, 0xed), (0x6b8c, 0xd5, 0xde),
  (0x6b8d, 0xd5, 0xdc), (0x6b8e, 0xd5, 0xdd), (0x6b8f, 0xd5, 0xdb), (0x6b91, 0xd5, 0xda),
  (0x6b94, 0xd9, 0xde), (0x6b95, 0xd9, 0xe1), (0x6b96, 0xb4, 0xde), (0x6b97, 0xd9, 0xdf),
  (0x6b98, 0xb4, 0xdd), (0x6b99, 0xd9, 0xe0), (0x6b9b, 0xdd, 0xfb), (0x6b9e, 0xe2, 0x66),
  (0x6b9f, 0xe2, 0x67), (0x6ba0, 0xe2, 0x68), (0x6ba2, 0xe5, 0xf3), (0x6ba3, 0xe5, 0xf2),
  (0x6ba4, 0xbc, 0xdc), (0x6ba5, 0xe5, 0xf1), (0x6ba6, 0xe5, 0xf4), (0x6ba7, 0xe9, 0xe1),
  (0x6baa, 0xe9, 0xe2), (0x6bab, 0xe9, 0xe3), (0x6bad, 0xed, 0x4c), (0x6bae, 0xc0, 0xd4),
  (0x6baf, 0xc2, 0x6c), (0x6bb0, 0xf2, 0x5a), (0x6bb2, 0xc4, 0xe8), (0x6bb3, 0xc9, 0x5f),
  (0x6bb5, 0xac, 0x71), (0x6bb6, 0xcf, 0x67), (0x6bb7, 0xae, 0xef), (0x6bba, 0xb1, 0xfe),
  (0x6bbc, 0xb4, 0xdf), (0x6bbd, 0xd9, 0xe2), (0x6bbf, 0xb7, 0xb5), (0x6bc0, 0xb7, 0xb4),
  (0x6bc1, 0x8d, 0xd2), (0x6bc3, 0xe2, 0x69), (0x6bc4, 0xe2, 0x6a), (0x6bc5, 0xbc, 0xdd),
  (0x6bc6, 0xbc, 0xde), (0x6bc7, 0xe9, 0xe5), (0x6bc8, 0xe9, 0xe4), (0x6bc9, 0xef, 0xe9),
  (0x6bca, 0xf7, 0xe3), (0x6bcb, 0xa4, 0xf0), (0x6bcc, 0xc9, 0x60), (0x6bcd, 0xa5, 0xc0),
  (0x6bcf, 0xa8, 0x43), (0x6bd0, 0xcb, 0x48), (0x6bd2, 0xac, 0x72), (0x6bd3, 0xb7, 0xb6),
  (0x6bd4, 0xa4, 0xf1), (0x6bd6, 0xcf, 0x68), (0x6bd7, 0xac, 0x73), (0x6bd8, 0xcf, 0x69),
  (0x6bda, 0xc0, 0xd5), (0x6bdb, 0xa4, 0xf2), (0x6bdc, 0xfd, 0x71), (0x6bde, 0xcc, 0xec),
  (0x6be0, 0xcf, 0x6a), (0x6be1, 0xfd, 0x6f), (0x6be2, 0xd2, 0x42), (0x6be3, 0xd2, 0x41),
  (0x6be4, 0xd1, 0xfe), (0x6be6, 0xd1, 0xfd), (0x6be7, 0xd2, 0x43), (0x6be8, 0xd2, 0x40),
  (0x6bea, 0x8d, 0xd3), (0x6beb, 0xb2, 0x40), (0x6bec, 0xb2, 0x41), (0x6bef, 0xb4, 0xe0),
  (0x6bf0, 0xd9, 0xe3), (0x6bf2, 0xd9, 0xe4), (0x6bf3, 0xd9, 0xe5), (0x6bf7, 0xde, 0x41),
  (0x6bf8, 0xde, 0x42), (0x6bf9, 0xde, 0x40), (0x6bfa, 0x9f, 0xe7), (0x6bfb, 0xdd, 0xfd),
  (0x6bfc, 0xdd, 0xfe), (0x6bfd, 0xb7, 0xb7), (0x6bfe, 0xe2, 0x6b), (0x6bff, 0xe5, 0xf7),
  (0x6c00, 0xe5, 0xf6), (0x6c01, 0xe5, 0xf5), (0x6c02, 0xe5, 0xf8), (0x6c03, 0xe9, 0xe7),
  (0x6c04, 0xe9, 0xe6), (0x6c05, 0xbe, 0xfb), (0x6c06, 0xe9, 0xe8), (0x6c08, 0xc0, 0xd6),
  (0x6c09, 0xed, 0x4d), (0x6c0b, 0xef, 0xea), (0x6c0c, 0xf2, 0x5b), (0x6c0d, 0xf6, 0xe7),
  (0x6c0f, 0xa4, 0xf3), (0x6c10, 0xa5, 0xc2), (0x6c11, 0xa5, 0xc1), (0x6c13, 0xaa, 0x5d),
  (0x6c14, 0xc9, 0x61), (0x6c15, 0xc9, 0x7e), (0x6c16, 0xa6, 0xbb), (0x6c18, 0xc9, 0xf7),
  (0x6c19, 0xcb, 0x49), (0x6c1a, 0xcb, 0x4a), (0x6c1b, 0xaa, 0x5e), (0x6c1c, 0x90, 0xbd),
  (0x6c1d, 0xcc, 0xed), (0x6c1f, 0xac, 0x74), (0x6c20, 0xcf, 0x6b), (0x6c21, 0xcf, 0x6c),
  (0x6c23, 0xae, 0xf0), (0x6c24, 0xae, 0xf4), (0x6c25, 0xd2, 0x44), (0x6c26, 0xae, 0xf3),
  (0x6c27, 0xae, 0xf1), (0x6c28, 0xae, 0xf2), (0x6c2a, 0xd5, 0xdf), (0x6c2b, 0xb2, 0x42)]

/-- `ENCODE_TABLE[7040..7168]`, (code point, byte 0, byte 1).  src/generated/whatwg/big5_whatwg_tables.rs.inc:4827-4870 -/
def encRow55 : List (Nat × Nat × Nat) := [
  (0x6c2c, 0xb4, 0xe3), (0x6c2e, 0xb4, 0xe1), (0x6c2f, 0xb4, 0xe2), (0x6c30, 0xd9, 0xe6),
  (0x6c31, 0x9f, 0xd0), (0x6c33, 0xba, 0x72), (0x6c34, 0xa4, 0xf4), (0x6c35, 0x8b, 0xd0),
  (0x6c36, 0xc9, 0xa1), (0x6c37, 0xfd, 0x72), (0x6c38, 0xa5, 0xc3), (0x6c39, 0x9c, 0xae),
  (0x6c3a, 0x8b, 0xd1), (0x6c3b, 0xc9, 0xa4), (0x6c3d, 0x8a, 0xdb), (0x6c3e, 0xa5, 0xc6),
  (0x6c3f, 0xc9, 0xa3), (0x6c40, 0xa5, 0xc5), (0x6c41, 0xa5, 0xc4), (0x6c42, 0xa8, 0x44),
  (0x6c43, 0xc9, 0xa2), (0x6c46, 0xc9, 0xf8), (0x6c49, 0xfa, 0xe4), (0x6c4a, 0x9e, 0xfd),
  (0x6c4b, 0xc9, 0xfe), (0x6c4c, 0xca, 0x40), (0x6c4d, 0xa6, 0xc5), (0x6c4e, 0xa6, 0xc6),
  (0x6c4f, 0xc9, 0xfb), (0x6c50, 0xa6, 0xc1), (0x6c52, 0xc9, 0xf9), (0x6c54, 0xc9, 0xfd),
  (0x6c55, 0xa6, 0xc2), (0x6c57, 0xa6, 0xbd), (0x6c58, 0x95, 0xce), (0x6c59, 0xa6, 0xbe),
  (0x6c5a, 0xfd, 0x76), (0x6c5b, 0xa6, 0xc4), (0x6c5c, 0xc9, 0xfa), (0x6c5d, 0xa6, 0xbc),
  (0x6c5e, 0xa8, 0x45), (0x6c5f, 0xa6, 0xbf), (0x6c60, 0xa6, 0xc0), (0x6c61, 0xa6, 0xc3),
  (0x6c65, 0xcb, 0x5b), (0x6c66, 0xcb, 0x59), (0x6c67, 0xcb, 0x4c), (0x6c68, 0xa8, 0x51),
  (0x6c69, 0xcb, 0x53), (0x6c6a, 0xa8, 0x4c), (0x6c6b, 0xcb, 0x4d), (0x6c6d, 0xcb, 0x55),
  (0x6c6e, 0xfb, 0x62), (0x6c6f, 0xcb, 0x52), (0x6c70, 0xa8, 0x4f), (0x6c71, 0xcb, 0x51),
  (0x6c72, 0xa8, 0x56), (0x6c73, 0xcb, 0x5a), (0x6c74, 0xa8, 0x58), (0x6c75, 0x8d, 0xd4),
  (0x6c76, 0xa8, 0x5a), (0x6c78, 0xcb, 0x4b), (0x6c79, 0xfd, 0x78), (0x6c7a, 0xa8, 0x4d),
  (0x6c7b, 0xcb, 0x5c), (0x6c7d, 0xa8, 0x54), (0x6c7e, 0xa8, 0x57), (0x6c7f, 0x8e, 0xe3),
  (0x6c80, 0xcd, 0x45), (0x6c81, 0xa8, 0x47), (0x6c82, 0xa8, 0x5e), (0x6c83, 0xa8, 0x55),
  (0x6c84, 0xcb, 0x4e), (0x6c85, 0xa8, 0x4a), (0x6c86, 0xa8, 0x59), (0x6c87, 0xcb, 0x56),
  (0x6c88, 0xa8, 0x48), (0x6c89, 0xa8, 0x49), (0x6c8a, 0xcd, 0x43), (0x6c8b, 0xcb, 0x4f),
  (0x6c8c, 0xa8, 0x50), (0x6c8d, 0xa8, 0x5b), (0x6c8e, 0xcb, 0x5d), (0x6c8f, 0xcb, 0x50),
  (0x6c90, 0xa8, 0x4e), (0x6c92, 0xa8, 0x53), (0x6c93, 0xcc, 0xee), (0x6c94, 0xa8, 0x5c),
  (0x6c95, 0xcb, 0x57), (0x6c96, 0xa8, 0x52), (0x6c98, 0xa8, 0x5d), (0x6c99, 0xa8, 0x46),
  (0x6c9a, 0xcb, 0x54), (0x6c9b, 0xa8, 0x4b), (0x6c9c, 0xcb, 0x58), (0x6c9d, 0xcd, 0x44),
  (0x6c9f, 0x90, 0x76), (0x6ca2, 0x98, 0xc6), (0x6caa, 0x8d, 0xd5), (0x6cab, 0xaa, 0x6a),
  (0x6cac, 0xaa, 0x7a), (0x6cad, 0xcc, 0xf5), (0x6cae, 0xaa, 0x71), (0x6caf, 0x97, 0xd1),
  (0x6cb0, 0xcd, 0x4b), (0x6cb1, 0xaa, 0x62), (0x6cb2, 0x9e, 0xb6), (0x6cb3, 0xaa, 0x65),
  (0x6cb4, 0xcd, 0x42), (0x6cb6, 0xcc, 0xf3), (0x6cb7, 0xcc, 0xf7), (0x6cb8, 0xaa, 0x6d),
  (0x6cb9, 0xaa, 0x6f), (0x6cba, 0xcc, 0xfa), (0x6cbb, 0xaa, 0x76), (0x6cbc, 0xaa, 0x68),
  (0x6cbd, 0xaa, 0x66), (0x6cbe, 0xaa, 0x67), (0x6cbf, 0xaa, 0x75), (0x6cc0, 0xcd, 0x47),
  (0x6cc1, 0xaa, 0x70), (0x6cc2, 0xcc, 0xf9), (0x6cc3, 0xcc, 0xfb), (0x6cc4, 0xaa, 0x6e),
  (0x6cc5, 0xaa, 0x73), (0x6cc6, 0xcc, 0xfc), (0x6cc7, 0xcd, 0x4a), (0x6cc9, 0xac, 0x75)]

/-- `ENCODE_TABLE[7168..7296]`, (code point, byte 0, byte 1).  src/generated/whatwg/big5_whatwg_tables.rs.inc:4870-4912 -/
def encRow56 : List (Nat × Nat × Nat) := [
  (0x6cca, 0xaa, 0x79), (0x6ccb, 0xfa, 0xc7), (0x6ccc, 0xaa, 0x63), (0x6ccd, 0xcd, 0x49),
  (0x6cce, 0xa0, 0x42), (0x6ccf, 0xcd, 0x4d), (0x6cd0, 0xcc, 0xf8), (0x6cd1, 0xcd, 0x4f),
  (0x6cd2, 0xcd, 0x40), (0x6cd3, 0xaa, 0x6c), (0x6cd4, 0xcc, 0xf4), (0x6cd5, 0xaa, 0x6b),
  (0x6cd6, 0xaa, 0x7d), (0x6cd7, 0xaa, 0x72), (0x6cd9, 0xcc, 0xf2), (0x6cda, 0xcf, 0x75),
  (0x6cdb, 0xaa, 0x78), (0x6cdc, 0xaa, 0x7c), (0x6cdd, 0xcd, 0x41), (0x6cde, 0xcd, 0x46),
  (0x6cdf, 0x98, 0x73), (0x6ce0, 0xaa, 0x7e), (0x6ce1, 0xaa, 0x77), (0x6ce2, 0xaa, 0x69),
  (0x6ce3, 0xaa, 0x5f), (0x6ce5, 0xaa, 0x64), (0x6ce7, 0xcc, 0xf6), (0x6ce8, 0xaa, 0x60),
  (0x6ce9, 0xcd, 0x4e), (0x6cea, 0x9f, 0xfc), (0x6ceb, 0xcc, 0xf0), (0x6cec, 0xcc, 0xef),
  (0x6ced, 0xcc, 0xfd), (0x6cee, 0xcc, 0xf1), (0x6cef, 0xaa, 0x7b), (0x6cf0, 0xae, 0xf5),
  (0x6cf1, 0xaa, 0x74), (0x6cf2, 0xcc, 0xfe), (0x6cf3, 0xaa, 0x61), (0x6cf5, 0xac, 0xa6),
  (0x6cf9, 0xcd, 0x4c), (0x6cff, 0x8c, 0xa5), (0x6d00, 0xcf, 0x7c), (0x6d01, 0xcf, 0xa1),
  (0x6d02, 0x8d, 0xd7), (0x6d03, 0xcf, 0xa4), (0x6d04, 0xcf, 0x77), (0x6d05, 0x92, 0xfb),
  (0x6d06, 0x8d, 0xd8), (0x6d07, 0xcf, 0xa7), (0x6d08, 0xcf, 0xaa), (0x6d09, 0xcf, 0xac),
  (0x6d0a, 0xcf, 0x74), (0x6d0b, 0xac, 0x76), (0x6d0c, 0xac, 0x7b), (0x6d0d, 0xd2, 0x49),
  (0x6d0e, 0xac, 0xad), (0x6d0f, 0xcf, 0xa5), (0x6d10, 0xcf, 0xad), (0x6d11, 0xcf, 0x7b),
  (0x6d12, 0xcf, 0x73), (0x6d16, 0xd2, 0x64), (0x6d17, 0xac, 0x7e), (0x6d18, 0xcf, 0xa2),
  (0x6d19, 0xcf, 0x78), (0x6d1a, 0xcf, 0x7a), (0x6d1b, 0xac, 0xa5), (0x6d1d, 0xcf, 0x7d),
  (0x6d1e, 0xac, 0x7d), (0x6d1f, 0xcf, 0x70), (0x6d20, 0xcf, 0xa8), (0x6d22, 0xcf, 0xab),
  (0x6d24, 0x94, 0x4f), (0x6d25, 0xac, 0x7a), (0x6d26, 0x8d, 0xd9), (0x6d27, 0xac, 0xa8),
  (0x6d28, 0xcf, 0x6d), (0x6d29, 0xac, 0xaa), (0x6d2a, 0xac, 0x78), (0x6d2b, 0xac, 0xae),
  (0x6d2c, 0xcf, 0xa9), (0x6d2d, 0xcf, 0x6f), (0x6d2e, 0xac, 0xab), (0x6d2f, 0xd2, 0x5e),
  (0x6d30, 0xcd, 0x48), (0x6d31, 0xac, 0x7c), (0x6d32, 0xac, 0x77), (0x6d33, 0xcf, 0x76),
  (0x6d34, 0xcf, 0x6e), (0x6d35, 0xac, 0xac), (0x6d36, 0xac, 0xa4), (0x6d37, 0xcf, 0xa3),
  (0x6d38, 0xac, 0xa9), (0x6d39, 0xac, 0xa7), (0x6d3a, 0xcf, 0x79), (0x6d3b, 0xac, 0xa1),
  (0x6d3c, 0xcf, 0x71), (0x6d3d, 0xac, 0xa2), (0x6d3e, 0xac, 0xa3), (0x6d3f, 0xcf, 0x72),
  (0x6d40, 0xcf, 0xa6), (0x6d41, 0xac, 0x79), (0x6d42, 0xcf, 0x7e), (0x6d4e, 0x89, 0x6b),
  (0x6d57, 0x97, 0xce), (0x6d58, 0xd2, 0x4c), (0x6d59, 0xae, 0xfd), (0x6d5a, 0xaf, 0x43),
  (0x6d5b, 0xfa, 0xf3), (0x6d5c, 0xfd, 0xae), (0x6d5e, 0xd2, 0x55), (0x6d5f, 0xd2, 0x5b),
  (0x6d60, 0xd2, 0x57), (0x6d61, 0xd2, 0x4a), (0x6d62, 0xd2, 0x4d), (0x6d63, 0xd2, 0x46),
  (0x6d64, 0xd2, 0x47), (0x6d65, 0xaf, 0x4a), (0x6d66, 0xae, 0xfa), (0x6d67, 0x94, 0x47),
  (0x6d68, 0xd2, 0x5f), (0x6d69, 0xaf, 0x45), (0x6d6a, 0xae, 0xf6), (0x6d6c, 0xaf, 0x40),
  (0x6d6d, 0xd2, 0x4e), (0x6d6e, 0xaf, 0x42), (0x6d6f, 0xd2, 0x4f), (0x6d70, 0xd2, 0x59)]

/-- `ENCODE_TABLE[7296..7424]`, (code point, byte 0, byte 1).  src/generated/whatwg/big5_whatwg_tables.rs.inc:4913-4955 -/
def encRow57 : List (Nat × Nat × Nat) := [
  (0x6d71, 0xfb, 0xaf), (0x6d72, 0x92, 0xb7), (0x6d74, 0xaf, 0x44), (0x6d75, 0xd2, 0x68),
  (0x6d76, 0xd2, 0x48), (0x6d77, 0xae, 0xfc), (0x6d78, 0xae, 0xfb), (0x6d79, 0xaf, 0x48),
  (0x6d7a, 0xd2, 0x45), (0x6d7b, 0xd2, 0x66), (0x6d7c, 0xd2, 0x5a), (0x6d7d, 0xd2, 0x67),
  (0x6d7e, 0xd2, 0x61), (0x6d7f, 0xd2, 0x53), (0x6d80, 0xd2, 0x62), (0x6d81, 0x8d, 0xda),
  (0x6d82, 0xd2, 0x5c), (0x6d83, 0xd2, 0x65), (0x6d84, 0xd2, 0x63), (0x6d85, 0xaf, 0x49),
  (0x6d86, 0xd2, 0x54), (0x6d87, 0xae, 0xf9), (0x6d88, 0xae, 0xf8), (0x6d89, 0xaf, 0x41),
  (0x6d8a, 0xaf, 0x47), (0x6d8b, 0xd2, 0x60), (0x6d8c, 0xaf, 0x46), (0x6d8d, 0xd2, 0x51),
  (0x6d8e, 0xb2, 0x43), (0x6d8f, 0x9c, 0x5a), (0x6d90, 0xd2, 0x69), (0x6d91, 0xd2, 0x50),
  (0x6d92, 0xd2, 0x4b), (0x6d93, 0xae, 0xfe), (0x6d94, 0xaf, 0x4b), (0x6d95, 0xae, 0xf7),
  (0x6d96, 0xfd, 0xad), (0x6d97, 0xd2, 0x58), (0x6d98, 0xd2, 0x5d), (0x6da4, 0x8d, 0xdc),
  (0x6da5, 0x94, 0x44), (0x6daa, 0xb2, 0x65), (0x6dab, 0xd5, 0xe1), (0x6dac, 0xd5, 0xe5),
  (0x6dae, 0xb2, 0x52), (0x6daf, 0xb2, 0x50), (0x6db1, 0x8d, 0xdd), (0x6db2, 0xb2, 0x47),
  (0x6db3, 0xd5, 0xe3), (0x6db4, 0xd5, 0xe2), (0x6db5, 0xb2, 0x5b), (0x6db7, 0xd5, 0xe8),
  (0x6db8, 0xb2, 0x55), (0x6db9, 0xa0, 0xd6), (0x6dba, 0xd5, 0xfa), (0x6dbb, 0xd6, 0x47),
  (0x6dbc, 0xb2, 0x44), (0x6dbd, 0xd5, 0xf7), (0x6dbe, 0xd5, 0xf0), (0x6dbf, 0xb2, 0x67),
  (0x6dc0, 0xd5, 0xe0), (0x6dc2, 0xd5, 0xfc), (0x6dc4, 0xb2, 0x64), (0x6dc5, 0xb2, 0x58),
  (0x6dc6, 0xb2, 0x63), (0x6dc7, 0xb2, 0x4e), (0x6dc8, 0xd5, 0xec), (0x6dc9, 0xd5, 0xfe),
  (0x6dca, 0xd5, 0xf6), (0x6dcb, 0xb2, 0x4f), (0x6dcc, 0xb2, 0x49), (0x6dcd, 0xd6, 0x45),
  (0x6dcf, 0xd5, 0xfd), (0x6dd0, 0xd6, 0x40), (0x6dd1, 0xb2, 0x51), (0x6dd2, 0xb2, 0x59),
  (0x6dd3, 0xd6, 0x42), (0x6dd4, 0xd5, 0xea), (0x6dd5, 0xd5, 0xfb), (0x6dd6, 0xd5, 0xef),
  (0x6dd7, 0xd6, 0x44), (0x6dd8, 0xb2, 0x5e), (0x6dd9, 0xb2, 0x46), (0x6dda, 0xb2, 0x5c),
  (0x6ddb, 0xd5, 0xf4), (0x6ddc, 0xd5, 0xf2), (0x6ddd, 0xd5, 0xf3), (0x6dde, 0xb2, 0x53),
  (0x6ddf, 0xd5, 0xee), (0x6de0, 0xd5, 0xed), (0x6de1, 0xb2, 0x48), (0x6de2, 0xd5, 0xe7),
  (0x6de3, 0xd6, 0x46), (0x6de4, 0xb2, 0x4a), (0x6de5, 0xd5, 0xf1), (0x6de6, 0xb2, 0x68),
  (0x6de8, 0xb2, 0x62), (0x6de9, 0xd5, 0xe6), (0x6dea, 0xb2, 0x5f), (0x6deb, 0xb2, 0x5d),
  (0x6dec, 0xb2, 0x66), (0x6ded, 0xd5, 0xf8), (0x6dee, 0xb2, 0x61), (0x6def, 0xd2, 0x52),
  (0x6df0, 0xd5, 0xf9), (0x6df1, 0xb2, 0x60), (0x6df2, 0xd6, 0x41), (0x6df3, 0xb2, 0x45),
  (0x6df4, 0xd5, 0xf5), (0x6df5, 0xb2, 0x57), (0x6df6, 0xd5, 0xe9), (0x6df7, 0xb2, 0x56),
  (0x6df9, 0xb2, 0x54), (0x6dfa, 0xb2, 0x4c), (0x6dfb, 0xb2, 0x4b), (0x6dfc, 0xd9, 0xe7),
  (0x6dfd, 0xd6, 0x43), (0x6dfe, 0x8c, 0x41), (0x6e00, 0xd5, 0xeb), (0x6e02, 0x97, 0xd5),
  (0x6e03, 0xd9, 0xfc), (0x6e04, 0x94, 0x4a), (0x6e05, 0xb2, 0x4d), (0x6e0a, 0x94, 0x4d),
  (0x6e0f, 0x97, 0xcb), (0x6e15, 0x8d, 0xde), (0x6e18, 0x8d, 0xdf), (0x6e19, 0xb5, 0x41)]

/-- `ENCODE_TABLE[7424..7552]`, (code point, byte 0, byte 1).  src/generated/whatwg/big5_whatwg_tables.rs.inc:4955-4998 -/
def encRow58 : List (Nat × Nat × Nat) := [
  (0x6e1a, 0xb2, 0x5a), (0x6e1b, 0xb4, 0xee), (0x6e1c, 0xd9, 0xf6), (0x6e1d, 0xb4, 0xfc),
  (0x6e1f, 0xd9, 0xea), (0x6e20, 0xb4, 0xeb), (0x6e21, 0xb4, 0xe7), (0x6e22, 0xda, 0x49),
  (0x6e23, 0xb4, 0xed), (0x6e24, 0xb4, 0xf1), (0x6e25, 0xb4, 0xec), (0x6e26, 0xb4, 0xf5),
  (0x6e27, 0xda, 0x4d), (0x6e28, 0xda, 0x44), (0x6e29, 0x8d, 0xe0), (0x6e2a, 0xfe, 0xf9),
  (0x6e2b, 0xd9, 0xf1), (0x6e2c, 0xb4, 0xfa), (0x6e2d, 0xb4, 0xf4), (0x6e2e, 0xd9, 0xfd),
  (0x6e2f, 0xb4, 0xe4), (0x6e30, 0xda, 0x4a), (0x6e31, 0xda, 0x43), (0x6e32, 0xb4, 0xe8),
  (0x6e33, 0xd9, 0xf7), (0x6e34, 0xb4, 0xf7), (0x6e35, 0xda, 0x55), (0x6e36, 0xda, 0x56),
  (0x6e38, 0xb4, 0xe5), (0x6e39, 0xda, 0x48), (0x6e3a, 0xb4, 0xf9), (0x6e3b, 0xd9, 0xfb),
  (0x6e3c, 0xd9, 0xed), (0x6e3d, 0xd9, 0xee), (0x6e3e, 0xb4, 0xfd), (0x6e3f, 0xd9, 0xf2),
  (0x6e40, 0xd9, 0xf9), (0x6e41, 0xd9, 0xf3), (0x6e43, 0xb4, 0xfb), (0x6e44, 0xb5, 0x44),
  (0x6e45, 0xd9, 0xef), (0x6e46, 0xd9, 0xe8), (0x6e47, 0xd9, 0xe9), (0x6e49, 0xd9, 0xeb),
  (0x6e4a, 0xb4, 0xea), (0x6e4b, 0xd9, 0xf8), (0x6e4d, 0xb4, 0xf8), (0x6e4e, 0xb5, 0x42),
  (0x6e4f, 0xfd, 0xc0), (0x6e50, 0xfc, 0xf9), (0x6e51, 0xd9, 0xfa), (0x6e52, 0xda, 0x53),
  (0x6e53, 0xda, 0x4b), (0x6e54, 0xb4, 0xe6), (0x6e55, 0xda, 0x51), (0x6e56, 0xb4, 0xf2),
  (0x6e57, 0x8c, 0xdd), (0x6e58, 0xb4, 0xf0), (0x6e59, 0xfb, 0x7e), (0x6e5a, 0xda, 0x57),
  (0x6e5b, 0xb4, 0xef), (0x6e5c, 0xda, 0x41), (0x6e5d, 0xd9, 0xf4), (0x6e5e, 0xd9, 0xfe),
  (0x6e5f, 0xb5, 0x47), (0x6e60, 0xda, 0x45), (0x6e61, 0xda, 0x42), (0x6e62, 0xd9, 0xf0),
  (0x6e63, 0xb5, 0x43), (0x6e64, 0xda, 0x4f), (0x6e65, 0xda, 0x4c), (0x6e66, 0xda, 0x54),
  (0x6e67, 0xb4, 0xe9), (0x6e68, 0xda, 0x40), (0x6e69, 0xb5, 0x46), (0x6e6b, 0xda, 0x47),
  (0x6e6e, 0xb4, 0xf3), (0x6e6f, 0xb4, 0xf6), (0x6e71, 0xda, 0x46), (0x6e72, 0xb5, 0x45),
  (0x6e73, 0xd9, 0xf5), (0x6e74, 0xd5, 0xe4), (0x6e76, 0x92, 0xb3), (0x6e77, 0xda, 0x50),
  (0x6e78, 0xda, 0x4e), (0x6e79, 0xda, 0x52), (0x6e7c, 0xfd, 0xaf), (0x6e86, 0x8d, 0xe1),
  (0x6e88, 0xd9, 0xec), (0x6e89, 0xb5, 0x40), (0x6e8b, 0x95, 0xd3), (0x6e8d, 0xde, 0x61),
  (0x6e8e, 0xde, 0x60), (0x6e8f, 0xde, 0x46), (0x6e90, 0xb7, 0xbd), (0x6e92, 0xde, 0x5f),
  (0x6e93, 0xde, 0x49), (0x6e94, 0xde, 0x4a), (0x6e96, 0xb7, 0xc7), (0x6e97, 0xde, 0x68),
  (0x6e98, 0xb7, 0xc2), (0x6e99, 0xde, 0x5e), (0x6e9a, 0x89, 0xc1), (0x6e9b, 0xde, 0x43),
  (0x6e9c, 0xb7, 0xc8), (0x6e9d, 0xb7, 0xbe), (0x6e9e, 0xde, 0x52), (0x6e9f, 0xde, 0x48),
  (0x6ea0, 0xde, 0x4b), (0x6ea1, 0xde, 0x63), (0x6ea2, 0xb7, 0xb8), (0x6ea3, 0xde, 0x6a),
  (0x6ea4, 0xde, 0x62), (0x6ea5, 0xb7, 0xc1), (0x6ea6, 0xde, 0x57), (0x6ea7, 0xb7, 0xcc),
  (0x6eaa, 0xb7, 0xcb), (0x6eab, 0xb7, 0xc5), (0x6eae, 0xde, 0x69), (0x6eaf, 0xb7, 0xb9),
  (0x6eb0, 0xde, 0x55), (0x6eb1, 0xde, 0x4c), (0x6eb2, 0xde, 0x59), (0x6eb3, 0xde, 0x65),
  (0x6eb4, 0xb7, 0xcd), (0x6eb5, 0xfd, 0x68), (0x6eb6, 0xb7, 0xbb), (0x6eb7, 0xde, 0x54)]

/-- `ENCODE_TABLE[7552..7680]`, (code point, byte 0, byte 1).  src/generated/whatwg/big5_whatwg_tables.rs.inc:4998-5040 -/
def encRow59 : List (Nat × Nat × Nat) := [
  (0x6eb8, 0x9c, 0xb7), (0x6eb9, 0xde, 0x4d), (0x6eba, 0xb7, 0xc4), (0x6ebb, 0x8d, 0xe3),
  (0x6ebc, 0xb7, 0xc3), (0x6ebd, 0xde, 0x50), (0x6ebe, 0xde, 0x5a), (0x6ebf, 0xde, 0x64),
  (0x6ec0, 0xde, 0x47), (0x6ec1, 0xde, 0x51), (0x6ec2, 0xb7, 0xbc), (0x6ec3, 0xde, 0x5b),
  (0x6ec4, 0xb7, 0xc9), (0x6ec5, 0xb7, 0xc0), (0x6ec6, 0xde, 0x4e), (0x6ec7, 0xb7, 0xbf),
  (0x6ec8, 0xde, 0x45), (0x6ec9, 0xde, 0x53), (0x6eca, 0xde, 0x67), (0x6ecb, 0xb4, 0xfe),
  (0x6ecc, 0xba, 0xb0), (0x6ecd, 0xde, 0x56), (0x6ece, 0xe2, 0x6c), (0x6ecf, 0xde, 0x58),
  (0x6ed0, 0xde, 0x66), (0x6ed1, 0xb7, 0xc6), (0x6ed2, 0xde, 0x4f), (0x6ed3, 0xb7, 0xba),
  (0x6ed4, 0xb7, 0xca), (0x6ed5, 0xbc, 0xf0), (0x6ed6, 0xde, 0x44), (0x6ed8, 0xde, 0x5d),
  (0x6ed9, 0xfa, 0xc0), (0x6eda, 0x8d, 0xe5), (0x6edb, 0xfa, 0x64), (0x6edc, 0xde, 0x5c),
  (0x6edd, 0x89, 0x47), (0x6ee2, 0x8d, 0xe4), (0x6ee8, 0x8d, 0xe7), (0x6ee9, 0x8d, 0xe8),
  (0x6eeb, 0xe2, 0xaa), (0x6eec, 0xba, 0xad), (0x6eed, 0xe2, 0x7d), (0x6eee, 0xe2, 0xa4),
  (0x6eef, 0xba, 0xa2), (0x6ef1, 0xe2, 0x6e), (0x6ef2, 0xba, 0xaf), (0x6ef4, 0xba, 0x77),
  (0x6ef5, 0xe2, 0x6d), (0x6ef6, 0xe2, 0xb0), (0x6ef7, 0xba, 0xb1), (0x6ef8, 0xe2, 0x71),
  (0x6ef9, 0xe2, 0xa3), (0x6efa, 0xfd, 0xc7), (0x6efb, 0xe2, 0x73), (0x6efc, 0xe2, 0xb3),
  (0x6efd, 0xe2, 0xaf), (0x6efe, 0xba, 0x75), (0x6eff, 0xba, 0xa1), (0x6f00, 0xe6, 0x53),
  (0x6f01, 0xba, 0xae), (0x6f02, 0xba, 0x7d), (0x6f03, 0xe2, 0x6f), (0x6f04, 0xfd, 0xb0),
  (0x6f05, 0xe2, 0xae), (0x6f06, 0xba, 0xa3), (0x6f07, 0xe2, 0xab), (0x6f08, 0xe2, 0xb8),
  (0x6f09, 0xe2, 0x75), (0x6f0a, 0xe2, 0x7e), (0x6f0b, 0x94, 0x45), (0x6f0c, 0x97, 0xd6),
  (0x6f0d, 0xe2, 0xb6), (0x6f0e, 0xe2, 0xac), (0x6f0f, 0xba, 0x7c), (0x6f12, 0xe2, 0x7c),
  (0x6f13, 0xba, 0x76), (0x6f14, 0xba, 0x74), (0x6f15, 0xba, 0xa8), (0x6f16, 0xfc, 0xc6),
  (0x6f17, 0x98, 0x44), (0x6f18, 0xe2, 0x7a), (0x6f19, 0xe2, 0x77), (0x6f1a, 0xe2, 0x78),
  (0x6f1c, 0xe2, 0xb2), (0x6f1e, 0xe2, 0xb7), (0x6f1f, 0xe2, 0xb5), (0x6f20, 0xba, 0x7a),
  (0x6f21, 0xe2, 0xb9), (0x6f22, 0xba, 0x7e), (0x6f23, 0xba, 0xa7), (0x6f24, 0x8d, 0xe9),
  (0x6f25, 0xe2, 0x70), (0x6f26, 0xe5, 0xfa), (0x6f27, 0xe2, 0x79), (0x6f29, 0xba, 0x78),
  (0x6f2a, 0xba, 0xac), (0x6f2b, 0xba, 0xa9), (0x6f2c, 0xba, 0x7b), (0x6f2d, 0xe2, 0xa5),
  (0x6f2e, 0xe2, 0x74), (0x6f2f, 0xba, 0xaa), (0x6f30, 0xe2, 0xa7), (0x6f31, 0xba, 0xa4),
  (0x6f32, 0xba, 0xa6), (0x6f33, 0xba, 0x73), (0x6f34, 0x8d, 0xea), (0x6f35, 0xe2, 0xa9),
  (0x6f36, 0xe2, 0xa1), (0x6f37, 0xe2, 0x72), (0x6f38, 0xba, 0xa5), (0x6f39, 0xe2, 0xb1),
  (0x6f3a, 0xe2, 0xb4), (0x6f3b, 0xe2, 0x7b), (0x6f3c, 0xe2, 0xa8), (0x6f3d, 0xfe, 0x50),
  (0x6f3e, 0xba, 0x79), (0x6f3f, 0xbc, 0xdf), (0x6f40, 0xe2, 0xa6), (0x6f41, 0xe5, 0xf9),
  (0x6f43, 0xe2, 0xad), (0x6f44, 0xfd, 0xcc), (0x6f4e, 0xe2, 0x76), (0x6f4f, 0xe6, 0x44),
  (0x6f50, 0xe6, 0x4e), (0x6f51, 0xbc, 0xe2), (0x6f52, 0xe6, 0x4d), (0x6f53, 0xe6, 0x59)]

/-- `ENCODE_TABLE[7680..7808]`, (code point, byte 0, byte 1).  src/generated/whatwg/big5_whatwg_tables.rs.inc:5041-5083 -/
def encRow60 : List (Nat × Nat × Nat) := [
  (0x6f54, 0xbc, 0xe4), (0x6f55, 0xe6, 0x4b), (0x6f56, 0x9d, 0xa7), (0x6f57, 0xe6, 0x4f),
  (0x6f58, 0xbc, 0xef), (0x6f5a, 0xe6, 0x46), (0x6f5b, 0xbc, 0xe7), (0x6f5c, 0xfd, 0xcd),
  (0x6f5d, 0xe6, 0x52), (0x6f5e, 0xe9, 0xf0), (0x6f5f, 0xbc, 0xf3), (0x6f60, 0xbc, 0xf2),
  (0x6f61, 0xe6, 0x54), (0x6f62, 0xe6, 0x43), (0x6f63, 0xe6, 0x5e), (0x6f64, 0xbc, 0xed),
  (0x6f66, 0xbc, 0xe3), (0x6f67, 0xe6, 0x57), (0x6f69, 0xe6, 0x5b), (0x6f6a, 0xe6, 0x60),
  (0x6f6b, 0xe6, 0x55), (0x6f6c, 0xe6, 0x49), (0x6f6d, 0xbc, 0xe6), (0x6f6e, 0xbc, 0xe9),
  (0x6f6f, 0xbc, 0xf1), (0x6f70, 0xbc, 0xec), (0x6f72, 0xe6, 0x4c), (0x6f73, 0xe2, 0xa2),
  (0x6f74, 0xfd, 0xcf), (0x6f76, 0xe6, 0x48), (0x6f77, 0xe6, 0x5f), (0x6f78, 0xbc, 0xe8),
  (0x6f79, 0x95, 0xd2), (0x6f7a, 0xbc, 0xeb), (0x6f7b, 0xe6, 0x61), (0x6f7c, 0xbc, 0xe0),
  (0x6f7d, 0xe6, 0x56), (0x6f7e, 0xe5, 0xfb), (0x6f7f, 0xe6, 0x5c), (0x6f80, 0xc0, 0xdf),
  (0x6f81, 0x8d, 0xed), (0x6f82, 0xe6, 0x4a), (0x6f84, 0xbc, 0xe1), (0x6f85, 0xe6, 0x45),
  (0x6f86, 0xbc, 0xe5), (0x6f87, 0xe5, 0xfc), (0x6f88, 0xba, 0xab), (0x6f89, 0xe6, 0x41),
  (0x6f8a, 0xfc, 0xba), (0x6f8b, 0xe6, 0x5a), (0x6f8c, 0xe6, 0x42), (0x6f8d, 0xe6, 0x40),
  (0x6f8e, 0xbc, 0xea), (0x6f90, 0xe6, 0x58), (0x6f92, 0xe5, 0xfe), (0x6f93, 0xe6, 0x51),
  (0x6f94, 0xe6, 0x50), (0x6f95, 0xe6, 0x5d), (0x6f96, 0xe6, 0x47), (0x6f97, 0xbc, 0xee),
  (0x6f9d, 0xfd, 0xc5), (0x6f9e, 0xe9, 0xf3), (0x6f9f, 0xfd, 0xd2), (0x6fa0, 0xbf, 0x49),
  (0x6fa1, 0xbe, 0xfe), (0x6fa2, 0xea, 0x40), (0x6fa3, 0xe9, 0xeb), (0x6fa4, 0xbf, 0x41),
  (0x6fa5, 0xe9, 0xf7), (0x6fa6, 0xbf, 0x48), (0x6fa7, 0xbf, 0x43), (0x6fa8, 0xe9, 0xf5),
  (0x6fa9, 0xed, 0x4f), (0x6faa, 0xe9, 0xfb), (0x6fab, 0xea, 0x42), (0x6fac, 0xe9, 0xfa),
  (0x6fad, 0xe9, 0xe9), (0x6fae, 0xe9, 0xf8), (0x6faf, 0xea, 0x44), (0x6fb0, 0xea, 0x46),
  (0x6fb1, 0xbe, 0xfd), (0x6fb2, 0xea, 0x45), (0x6fb3, 0xbf, 0x44), (0x6fb4, 0xbf, 0x4a),
  (0x6fb5, 0x9c, 0xdc), (0x6fb6, 0x9b, 0xf6), (0x6fb8, 0xe9, 0xfe), (0x6fb9, 0xbf, 0x46),
  (0x6fba, 0xe9, 0xf9), (0x6fbb, 0x95, 0xcf), (0x6fbc, 0xe9, 0xed), (0x6fbd, 0xe9, 0xf2),
  (0x6fbe, 0x8d, 0xee), (0x6fbf, 0xe9, 0xfd), (0x6fc0, 0xbf, 0x45), (0x6fc1, 0xbf, 0x42),
  (0x6fc2, 0xbe, 0xfc), (0x6fc3, 0xbf, 0x40), (0x6fc4, 0xe9, 0xf1), (0x6fc6, 0xe5, 0xfd),
  (0x6fc7, 0xe9, 0xec), (0x6fc8, 0xe9, 0xef), (0x6fc9, 0xea, 0x41), (0x6fca, 0xe9, 0xf4),
  (0x6fcb, 0xe9, 0xea), (0x6fcc, 0xed, 0x4e), (0x6fcd, 0xea, 0x43), (0x6fce, 0xe9, 0xee),
  (0x6fcf, 0xe9, 0xfc), (0x6fd3, 0xfd, 0xd4), (0x6fd4, 0xed, 0x51), (0x6fd5, 0xc0, 0xe3),
  (0x6fd8, 0xc0, 0xd7), (0x6fd9, 0x96, 0xec), (0x6fda, 0x96, 0xeb), (0x6fdb, 0xc0, 0xdb),
  (0x6fdc, 0xed, 0x53), (0x6fdd, 0xed, 0x59), (0x6fde, 0xed, 0x57), (0x6fdf, 0xc0, 0xd9),
  (0x6fe0, 0xc0, 0xda), (0x6fe1, 0xc0, 0xe1), (0x6fe2, 0xed, 0x5a), (0x6fe3, 0xed, 0x52),
  (0x6fe4, 0xc0, 0xdc), (0x6fe6, 0xed, 0x56), (0x6fe7, 0xed, 0x55), (0x6fe8, 0xed, 0x5b)]

/-- `ENCODE_TABLE[7808..7936]`, (code point, byte 0, byte 1).  src/generated/whatwg/big5_whatwg_tables.rs.inc:5083-5126 -/
def encRow61 : List (Nat × Nat × Nat) := [
  (0x6fe9, 0xc0, 0xe2), (0x6feb, 0xc0, 0xdd), (0x6fec, 0xc0, 0xe0), (0x6fed, 0xed, 0x54),
  (0x6fee, 0xc0, 0xe4), (0x6fef, 0xc0, 0xde), (0x6ff0, 0xc0, 0xe5), (0x6ff1, 0xc0, 0xd8),
  (0x6ff2, 0xed, 0x58), (0x6ff4, 0xed, 0x50), (0x6ff6, 0x90, 0xb6), (0x6ff7, 0xef, 0xf7),
  (0x6ff8, 0xfd, 0xc3), (0x6ffa, 0xc2, 0x71), (0x6ffb, 0xef, 0xf4), (0x6ffc, 0xef, 0xf6),
  (0x6ffe, 0xc2, 0x6f), (0x6fff, 0xef, 0xf2), (0x7000, 0xef, 0xf3), (0x7001, 0xef, 0xee),
  (0x7003, 0x98, 0xab), (0x7004, 0xe9, 0xf6), (0x7005, 0xef, 0xef), (0x7006, 0xc2, 0x70),
  (0x7007, 0xef, 0xeb), (0x7009, 0xc2, 0x6d), (0x700a, 0xef, 0xf8), (0x700b, 0xc2, 0x6e),
  (0x700c, 0xef, 0xec), (0x700d, 0xef, 0xed), (0x700e, 0xef, 0xf1), (0x700f, 0xc2, 0x73),
  (0x7011, 0xc2, 0x72), (0x7014, 0xef, 0xf0), (0x7015, 0xc3, 0x78), (0x7016, 0xf2, 0x5f),
  (0x7017, 0xf2, 0x65), (0x7018, 0xc3, 0x79), (0x7019, 0xf2, 0x5c), (0x701a, 0xc3, 0x76),
  (0x701b, 0xc3, 0x73), (0x701c, 0xf2, 0x67), (0x701d, 0xc3, 0x77), (0x701e, 0x96, 0xed),
  (0x701f, 0xc3, 0x74), (0x7020, 0xf2, 0x5e), (0x7021, 0xf2, 0x61), (0x7022, 0xf2, 0x62),
  (0x7023, 0xf2, 0x63), (0x7024, 0xf2, 0x66), (0x7026, 0xef, 0xf5), (0x7027, 0xf2, 0x5d),
  (0x7028, 0xc3, 0x75), (0x7029, 0xf2, 0x64), (0x702a, 0xf2, 0x68), (0x702b, 0xf2, 0x60),
  (0x702c, 0x8d, 0xf4), (0x702f, 0xf4, 0x5d), (0x7030, 0xc4, 0x6a), (0x7031, 0xf4, 0x60),
  (0x7032, 0xc4, 0x6b), (0x7033, 0xf4, 0x68), (0x7034, 0xf4, 0x5f), (0x7035, 0xf4, 0x5c),
  (0x7037, 0xf4, 0x5e), (0x7038, 0xf4, 0x62), (0x7039, 0xf4, 0x65), (0x703a, 0xf4, 0x64),
  (0x703b, 0xf4, 0x67), (0x703c, 0xf4, 0x5b), (0x703e, 0xc4, 0x69), (0x703f, 0xf4, 0x63),
  (0x7040, 0xf4, 0x66), (0x7041, 0xf4, 0x69), (0x7042, 0xf4, 0x61), (0x7043, 0xf5, 0xd3),
  (0x7044, 0xf5, 0xd4), (0x7045, 0xf5, 0xd8), (0x7046, 0xf5, 0xd9), (0x7048, 0xf5, 0xd6),
  (0x7049, 0xf5, 0xd7), (0x704a, 0xf5, 0xd5), (0x704b, 0xfd, 0xe0), (0x704c, 0xc4, 0xe9),
  (0x704d, 0x8c, 0x67), (0x7050, 0x8d, 0xf6), (0x7051, 0xc5, 0x78), (0x7052, 0xf6, 0xeb),
  (0x7054, 0x8d, 0xf7), (0x7055, 0xf6, 0xe8), (0x7056, 0xf6, 0xe9), (0x7057, 0xf6, 0xea),
  (0x7058, 0xc5, 0x79), (0x705a, 0xf7, 0xe5), (0x705b, 0xf7, 0xe4), (0x705c, 0x8f, 0xfa),
  (0x705d, 0xf8, 0xaf), (0x705e, 0xc5, 0xf4), (0x705f, 0xf8, 0xad), (0x7060, 0xf8, 0xb0),
  (0x7061, 0xf8, 0xae), (0x7062, 0xf8, 0xf5), (0x7063, 0xc6, 0x57), (0x7064, 0xc6, 0x65),
  (0x7065, 0xf9, 0xa3), (0x7066, 0xf9, 0x6c), (0x7067, 0x97, 0xd0), (0x7068, 0xf9, 0xa2),
  (0x7069, 0xf9, 0xd0), (0x706a, 0xf9, 0xd1), (0x706b, 0xa4, 0xf5), (0x706c, 0x8b, 0xd2),
  (0x706e, 0x87, 0xde), (0x706f, 0x8d, 0xf8), (0x7070, 0xa6, 0xc7), (0x7071, 0xca, 0x41),
  (0x7074, 0xcb, 0x5e), (0x7075, 0x90, 0xd9), (0x7076, 0xa8, 0x5f), (0x7077, 0x8c, 0x47),
  (0x7078, 0xa8, 0x62), (0x7079, 0xfa, 0xf0), (0x707a, 0xcb, 0x5f), (0x707c, 0xa8, 0x60),
  (0x707d, 0xa8, 0x61), (0x707e, 0xfd, 0xe1), (0x707f, 0x8d, 0xf9), (0x7081, 0xfd, 0xe3)]

/-- `ENCODE_TABLE[7936..8064]`, (code point, byte 0, byte 1).  src/generated/whatwg/big5_whatwg_tables.rs.inc:5126-5168 -/
def encRow62 : List (Nat × Nat × Nat) := [
  (0x7082, 0xcd, 0x58), (0x7083, 0xcd, 0x5a), (0x7084, 0xcd, 0x55), (0x7085, 0xcd, 0x52),
  (0x7086, 0xcd, 0x54), (0x7089, 0x8d, 0xfa), (0x708a, 0xaa, 0xa4), (0x708b, 0xfb, 0x63),
  (0x708e, 0xaa, 0xa2), (0x708f, 0x90, 0xa6), (0x7091, 0xcd, 0x56), (0x7092, 0xaa, 0xa3),
  (0x7093, 0xcd, 0x53), (0x7094, 0xcd, 0x50), (0x7095, 0xaa, 0xa1), (0x7096, 0xcd, 0x57),
  (0x7098, 0xcd, 0x51), (0x7099, 0xaa, 0xa5), (0x709a, 0xcd, 0x59), (0x709f, 0xcf, 0xaf),
  (0x70a0, 0x99, 0x70), (0x70a1, 0xcf, 0xb3), (0x70a3, 0x91, 0xeb), (0x70a4, 0xac, 0xb7),
  (0x70a5, 0x97, 0x70), (0x70a6, 0x98, 0x6f), (0x70a7, 0xfd, 0xe2), (0x70a9, 0xcf, 0xb6),
  (0x70ab, 0xac, 0xaf), (0x70ac, 0xac, 0xb2), (0x70ad, 0xac, 0xb4), (0x70ae, 0xac, 0xb6),
  (0x70af, 0xac, 0xb3), (0x70b0, 0xcf, 0xb2), (0x70b1, 0xcf, 0xb1), (0x70b3, 0xac, 0xb1),
  (0x70b4, 0xcf, 0xb4), (0x70b5, 0xcf, 0xb5), (0x70b7, 0xcf, 0xae), (0x70b8, 0xac, 0xb5),
  (0x70b9, 0x98, 0xf2), (0x70ba, 0xac, 0xb0), (0x70bb, 0x9a, 0xfc), (0x70bc, 0x89, 0x6c),
  (0x70bd, 0xfd, 0xfd), (0x70be, 0xcf, 0xb0), (0x70c0, 0x99, 0x5e), (0x70c4, 0x95, 0xbd),
  (0x70c5, 0xd2, 0x77), (0x70c6, 0xd2, 0x78), (0x70c7, 0xd2, 0x79), (0x70c8, 0xaf, 0x50),
  (0x70ca, 0xaf, 0x4c), (0x70cb, 0xd2, 0x6e), (0x70cc, 0xfd, 0xe4), (0x70cd, 0xd2, 0x76),
  (0x70ce, 0xd2, 0x7b), (0x70cf, 0xaf, 0x51), (0x70d0, 0x91, 0xe6), (0x70d1, 0xd2, 0x6c),
  (0x70d2, 0xd2, 0x72), (0x70d3, 0xd2, 0x6b), (0x70d4, 0xd2, 0x75), (0x70d5, 0xfd, 0xe5),
  (0x70d6, 0xfd, 0xe6), (0x70d7, 0xd2, 0x71), (0x70d8, 0xaf, 0x4d), (0x70d9, 0xaf, 0x4f),
  (0x70da, 0xd2, 0x7a), (0x70dc, 0xd2, 0x6a), (0x70dd, 0xd2, 0x6d), (0x70de, 0xd2, 0x73),
  (0x70df, 0xfd, 0xe7), (0x70e0, 0xd2, 0x74), (0x70e1, 0xd2, 0x7c), (0x70e2, 0xd2, 0x70),
  (0x70e4, 0xaf, 0x4e), (0x70ef, 0xb2, 0x6d), (0x70f0, 0xd6, 0x4e), (0x70f1, 0x94, 0x54),
  (0x70f3, 0xd6, 0x50), (0x70f4, 0xd6, 0x4c), (0x70f5, 0x99, 0xb8), (0x70f6, 0xd6, 0x58),
  (0x70f7, 0xd6, 0x4a), (0x70f8, 0xd6, 0x57), (0x70f9, 0xb2, 0x69), (0x70fa, 0xd6, 0x48),
  (0x70fb, 0xda, 0x5b), (0x70fc, 0xd6, 0x52), (0x70fd, 0xb2, 0x6c), (0x70fe, 0x97, 0xe9),
  (0x70ff, 0xd6, 0x53), (0x7100, 0xd6, 0x56), (0x7102, 0xd6, 0x5a), (0x7104, 0xd6, 0x4f),
  (0x7105, 0x93, 0x46), (0x7106, 0xd6, 0x54), (0x7109, 0xb2, 0x6a), (0x710a, 0xb2, 0x6b),
  (0x710b, 0xd6, 0x59), (0x710c, 0xd6, 0x4d), (0x710d, 0xd6, 0x49), (0x710e, 0xd6, 0x5b),
  (0x7110, 0xd6, 0x51), (0x7113, 0xd6, 0x55), (0x7117, 0xd6, 0x4b), (0x7119, 0xb5, 0x48),
  (0x711a, 0xb5, 0x49), (0x711b, 0xda, 0x65), (0x711c, 0xb5, 0x4f), (0x711d, 0x98, 0x63),
  (0x711e, 0xda, 0x59), (0x711f, 0xda, 0x62), (0x7120, 0xda, 0x58), (0x7121, 0xb5, 0x4c),
  (0x7122, 0xda, 0x60), (0x7123, 0xda, 0x5e), (0x7125, 0xda, 0x5f), (0x7126, 0xb5, 0x4a),
  (0x7128, 0xda, 0x63), (0x7129, 0x95, 0xbc), (0x712b, 0xfd, 0xed), (0x712c, 0xfd, 0xf7),
  (0x712e, 0xda, 0x5c), (0x712f, 0xda, 0x5a), (0x7130, 0xb5, 0x4b), (0x7131, 0xda, 0x5d)]

/-- `ENCODE_TABLE[8064..8192]`, (code point, byte 0, byte 1).  src/generated/whatwg/big5_whatwg_tables.rs.inc:5169-5211 -/
def encRow63 : List (Nat × Nat × Nat) := [
  (0x7132, 0xda, 0x61), (0x7133, 0x98, 0x70), (0x7134, 0x96, 0xf6), (0x7135, 0x8e, 0xa9),
  (0x7136, 0xb5, 0x4d), (0x713a, 0xda, 0x64), (0x713b, 0x94, 0x51), (0x713e, 0x8e, 0x43),
  (0x7140, 0x8b, 0x5a), (0x7141, 0xde, 0x70), (0x7142, 0xde, 0x77), (0x7143, 0xde, 0x79),
  (0x7144, 0xde, 0xa1), (0x7145, 0xfd, 0xee), (0x7146, 0xb7, 0xda), (0x7147, 0xde, 0x6b),
  (0x7149, 0xb7, 0xd2), (0x714a, 0xfd, 0xf0), (0x714b, 0xde, 0x7a), (0x714c, 0xb7, 0xd7),
  (0x714d, 0xde, 0xa2), (0x714e, 0xb7, 0xce), (0x714f, 0xfd, 0xf4), (0x7150, 0xde, 0x7d),
  (0x7151, 0x9b, 0xf5), (0x7152, 0xde, 0x6d), (0x7153, 0xde, 0x7e), (0x7154, 0xde, 0x6c),
  (0x7156, 0xb7, 0xdc), (0x7157, 0x8c, 0xee), (0x7158, 0xde, 0x78), (0x7159, 0xb7, 0xcf),
  (0x715a, 0xde, 0xa3), (0x715c, 0xb7, 0xd4), (0x715d, 0xde, 0x71), (0x715e, 0xb7, 0xd9),
  (0x715f, 0xde, 0x7c), (0x7160, 0xde, 0x6f), (0x7161, 0xde, 0x76), (0x7162, 0xa0, 0xdf),
  (0x7163, 0xde, 0x6e), (0x7164, 0xb7, 0xd1), (0x7165, 0xb7, 0xd8), (0x7166, 0xb7, 0xd6),
  (0x7167, 0xb7, 0xd3), (0x7168, 0xb7, 0xdb), (0x7169, 0xb7, 0xd0), (0x716a, 0xde, 0x75),
  (0x716b, 0x97, 0x7e), (0x716c, 0xb7, 0xd5), (0x716e, 0xb5, 0x4e), (0x7170, 0xde, 0x7b),
  (0x7171, 0x9b, 0xd5), (0x7172, 0xde, 0x73), (0x7173, 0x9a, 0xc3), (0x7175, 0x97, 0xc8),
  (0x7176, 0xa0, 0xdb), (0x7177, 0x91, 0xd0), (0x7178, 0xde, 0x74), (0x717a, 0x9f, 0xe4),
  (0x717b, 0xe2, 0xc1), (0x717c, 0x8f, 0xdd), (0x717d, 0xba, 0xb4), (0x717e, 0x91, 0xe9),
  (0x7180, 0xe2, 0xbd), (0x7181, 0xe2, 0xc3), (0x7182, 0xe2, 0xbf), (0x7184, 0xba, 0xb6),
  (0x7185, 0xe2, 0xbe), (0x7186, 0xe2, 0xc2), (0x7187, 0xe2, 0xba), (0x7188, 0x98, 0xe0),
  (0x7189, 0xe2, 0xbc), (0x718a, 0xba, 0xb5), (0x718c, 0x92, 0xca), (0x718e, 0x98, 0x57),
  (0x718f, 0xe2, 0xc0), (0x7190, 0xe2, 0xbb), (0x7191, 0x8c, 0x51), (0x7192, 0xba, 0xb7),
  (0x7194, 0xba, 0xb2), (0x7196, 0xfd, 0xeb), (0x7197, 0xe2, 0xc4), (0x7198, 0x9b, 0x49),
  (0x7199, 0xba, 0xb3), (0x719a, 0xe6, 0x67), (0x719b, 0xe6, 0x64), (0x719c, 0xe6, 0x70),
  (0x719d, 0xe6, 0x6a), (0x719e, 0xe6, 0x6c), (0x719f, 0xbc, 0xf4), (0x71a0, 0xe6, 0x66),
  (0x71a1, 0xe6, 0x6e), (0x71a2, 0x9d, 0x76), (0x71a3, 0x9e, 0xaf), (0x71a4, 0xe6, 0x6d),
  (0x71a5, 0xe6, 0x6b), (0x71a7, 0xe6, 0x71), (0x71a8, 0xbc, 0xf7), (0x71a9, 0xe6, 0x68),
  (0x71aa, 0xe6, 0x6f), (0x71ac, 0xbc, 0xf5), (0x71ad, 0x9c, 0xcc), (0x71af, 0xe6, 0x63),
  (0x71b0, 0xe6, 0x65), (0x71b1, 0xbc, 0xf6), (0x71b2, 0xe6, 0x62), (0x71b3, 0xe6, 0x72),
  (0x71b4, 0xfd, 0xea), (0x71b5, 0xe6, 0x69), (0x71b7, 0x8d, 0xf1), (0x71b8, 0xea, 0x4a),
  (0x71b9, 0xbf, 0x51), (0x71ba, 0xfd, 0xfb), (0x71bc, 0xea, 0x55), (0x71bd, 0xea, 0x53),
  (0x71be, 0xbf, 0x4b), (0x71bf, 0xea, 0x49), (0x71c0, 0xea, 0x4c), (0x71c1, 0xea, 0x4d),
  (0x71c2, 0xea, 0x48), (0x71c3, 0xbf, 0x55), (0x71c4, 0xbf, 0x56), (0x71c5, 0xea, 0x47),
  (0x71c6, 0xea, 0x56), (0x71c7, 0xea, 0x51), (0x71c8, 0xbf, 0x4f), (0x71c9, 0xbf, 0x4c)]

/-- `ENCODE_TABLE[8192..8320]`, (code point, byte 0, byte 1).  src/generated/whatwg/big5_whatwg_tables.rs.inc:5211-5254 -/
def encRow64 : List (Nat × Nat × Nat) := [
  (0x71ca, 0xea, 0x50), (0x71cb, 0xea, 0x4e), (0x71ce, 0xbf, 0x52), (0x71cf, 0xea, 0x52),
  (0x71d0, 0xbf, 0x4d), (0x71d1, 0x8e, 0x53), (0x71d2, 0xbf, 0x4e), (0x71d4, 0xea, 0x4f),
  (0x71d5, 0xbf, 0x50), (0x71d6, 0xea, 0x4b), (0x71d8, 0xea, 0x54), (0x71d9, 0xbf, 0x53),
  (0x71da, 0xea, 0x57), (0x71db, 0xea, 0x58), (0x71dc, 0xbf, 0x54), (0x71dd, 0xfa, 0xcf),
  (0x71df, 0x9c, 0x62), (0x71e0, 0xc0, 0xee), (0x71e1, 0xed, 0x5c), (0x71e2, 0xed, 0x62),
  (0x71e4, 0xed, 0x60), (0x71e5, 0xc0, 0xea), (0x71e6, 0xc0, 0xe9), (0x71e7, 0xc0, 0xe6),
  (0x71e8, 0xed, 0x5e), (0x71eb, 0x96, 0xf9), (0x71ec, 0xc0, 0xec), (0x71ed, 0xc0, 0xeb),
  (0x71ee, 0xc0, 0xe8), (0x71f0, 0xed, 0x61), (0x71f1, 0xed, 0x5d), (0x71f2, 0xed, 0x5f),
  (0x71f4, 0xc0, 0xed), (0x71f5, 0x98, 0xbf), (0x71f6, 0x9e, 0x49), (0x71f8, 0xc2, 0x77),
  (0x71f9, 0xef, 0xfb), (0x71fb, 0xc2, 0x74), (0x71fc, 0xc2, 0x75), (0x71fd, 0xef, 0xfd),
  (0x71fe, 0xc2, 0x76), (0x71ff, 0xef, 0xfa), (0x7200, 0x8c, 0xa7), (0x7201, 0x9b, 0x76),
  (0x7202, 0xf2, 0x6c), (0x7203, 0xef, 0xfc), (0x7205, 0xf2, 0x6d), (0x7206, 0xc3, 0x7a),
  (0x7207, 0xf2, 0x6b), (0x7209, 0x9b, 0xca), (0x720a, 0xf2, 0x6a), (0x720c, 0xf2, 0x69),
  (0x720d, 0xc3, 0x7b), (0x720e, 0xfd, 0xfe), (0x720f, 0x92, 0xdc), (0x7210, 0xc4, 0x6c),
  (0x7213, 0xf4, 0x6a), (0x7214, 0xf4, 0x6b), (0x7215, 0xfe, 0x41), (0x7216, 0x91, 0xcc),
  (0x7217, 0x91, 0xe2), (0x7219, 0xf5, 0xdc), (0x721a, 0xf5, 0xdb), (0x721b, 0xc4, 0xea),
  (0x721d, 0xf5, 0xda), (0x721e, 0xf6, 0xec), (0x721f, 0xf6, 0xed), (0x7222, 0xf7, 0xe6),
  (0x7223, 0xf8, 0xb1), (0x7224, 0xfe, 0x44), (0x7225, 0x87, 0x5f), (0x7226, 0xf8, 0xf6),
  (0x7227, 0xf9, 0xbc), (0x7228, 0xc6, 0x79), (0x7229, 0xf9, 0xc6), (0x722a, 0xa4, 0xf6),
  (0x722b, 0x8b, 0xd3), (0x722c, 0xaa, 0xa6), (0x722d, 0xaa, 0xa7), (0x722e, 0xfe, 0x47),
  (0x7230, 0xac, 0xb8), (0x7235, 0xc0, 0xef), (0x7236, 0xa4, 0xf7), (0x7238, 0xaa, 0xa8),
  (0x7239, 0xaf, 0x52), (0x723a, 0xb7, 0xdd), (0x723b, 0xa4, 0xf8), (0x723d, 0xb2, 0x6e),
  (0x723e, 0xba, 0xb8), (0x723f, 0xc9, 0x62), (0x7240, 0xfe, 0x48), (0x7241, 0xcf, 0xb7),
  (0x7242, 0xd2, 0x7d), (0x7244, 0xe2, 0xc5), (0x7246, 0xc0, 0xf0), (0x7247, 0xa4, 0xf9),
  (0x7248, 0xaa, 0xa9), (0x7249, 0xcf, 0xb8), (0x724a, 0xcf, 0xb9), (0x724b, 0xda, 0x66),
  (0x724c, 0xb5, 0x50), (0x724f, 0xde, 0xa4), (0x7250, 0x94, 0x55), (0x7252, 0xb7, 0xde),
  (0x7253, 0xe2, 0xc6), (0x7255, 0xfe, 0x4b), (0x7256, 0xbc, 0xf8), (0x7257, 0xfe, 0x4c),
  (0x7258, 0xc3, 0x7c), (0x7259, 0xa4, 0xfa), (0x725a, 0xda, 0x67), (0x725b, 0xa4, 0xfb),
  (0x725c, 0x8d, 0xbf), (0x725d, 0xa6, 0xc9), (0x725e, 0xca, 0x42), (0x725f, 0xa6, 0xc8),
  (0x7260, 0xa8, 0x65), (0x7261, 0xa8, 0x64), (0x7262, 0xa8, 0x63), (0x7263, 0xcb, 0x60),
  (0x7266, 0x9e, 0x78), (0x7267, 0xaa, 0xaa), (0x7269, 0xaa, 0xab), (0x726a, 0xcd, 0x5b),
  (0x726c, 0xcf, 0xba), (0x726e, 0xcf, 0xbd), (0x726f, 0xac, 0xba), (0x7270, 0xcf, 0xbb)]

/-- `ENCODE_TABLE[8320..8448]`, (code point, byte 0, byte 1).  src/generated/whatwg/big5_whatwg_tables.rs.inc:5254-5296 -/
def encRow65 : List (Nat × Nat × Nat) := [
  (0x7272, 0xac, 0xb9), (0x7273, 0xcf, 0xbc), (0x7274, 0xac, 0xbb), (0x7276, 0xd2, 0xa2),
  (0x7277, 0xd2, 0xa1), (0x7278, 0xd2, 0x7e), (0x7279, 0xaf, 0x53), (0x727b, 0xd6, 0x5d),
  (0x727c, 0xd6, 0x5e), (0x727d, 0xb2, 0x6f), (0x727e, 0xd6, 0x5c), (0x727f, 0xd6, 0x5f),
  (0x7280, 0xb5, 0x52), (0x7281, 0xb2, 0x70), (0x7282, 0xfe, 0x51), (0x7284, 0xb5, 0x51),
  (0x7285, 0xda, 0x6b), (0x7286, 0xda, 0x6a), (0x7287, 0x94, 0x56), (0x7288, 0xda, 0x68),
  (0x7289, 0xda, 0x69), (0x728b, 0xda, 0x6c), (0x728c, 0xde, 0xa6), (0x728d, 0xde, 0xa5),
  (0x728e, 0xde, 0xa9), (0x728f, 0x9d, 0x61), (0x7290, 0xde, 0xa8), (0x7291, 0xde, 0xa7),
  (0x7292, 0xba, 0xb9), (0x7293, 0xe2, 0xc9), (0x7294, 0x94, 0x57), (0x7295, 0xe2, 0xc8),
  (0x7296, 0xba, 0xba), (0x7297, 0xe2, 0xc7), (0x7298, 0xe6, 0x73), (0x729a, 0xe6, 0x74),
  (0x729b, 0xbc, 0xf9), (0x729d, 0xea, 0x59), (0x729e, 0xea, 0x5a), (0x729f, 0x99, 0x66),
  (0x72a1, 0xf2, 0x72), (0x72a2, 0xc3, 0x7d), (0x72a3, 0xf2, 0x71), (0x72a4, 0xf2, 0x70),
  (0x72a5, 0xf2, 0x6e), (0x72a6, 0xf2, 0x6f), (0x72a7, 0xc4, 0xeb), (0x72a8, 0xf4, 0x6c),
  (0x72a9, 0xf6, 0xee), (0x72aa, 0xf8, 0xf7), (0x72ac, 0xa4, 0xfc), (0x72ad, 0x8b, 0xd5),
  (0x72ae, 0xc9, 0xa5), (0x72af, 0xa5, 0xc7), (0x72b0, 0xc9, 0xa6), (0x72b2, 0xa0, 0x69),
  (0x72b4, 0xca, 0x43), (0x72b5, 0xca, 0x44), (0x72ba, 0xcb, 0x66), (0x72bd, 0xcb, 0x62),
  (0x72bf, 0xcb, 0x61), (0x72c0, 0xaa, 0xac), (0x72c1, 0xcb, 0x65), (0x72c2, 0xa8, 0x67),
  (0x72c3, 0xcb, 0x63), (0x72c4, 0xa8, 0x66), (0x72c5, 0xcb, 0x67), (0x72c6, 0xcb, 0x64),
  (0x72c9, 0xcd, 0x5f), (0x72ca, 0xcf, 0xbe), (0x72cb, 0xcd, 0x5d), (0x72cc, 0xcd, 0x64),
  (0x72cd, 0x98, 0xb4), (0x72ce, 0xaa, 0xad), (0x72d0, 0xaa, 0xb0), (0x72d1, 0xcd, 0x65),
  (0x72d2, 0xcd, 0x61), (0x72d4, 0xcd, 0x62), (0x72d6, 0xcd, 0x5c), (0x72d7, 0xaa, 0xaf),
  (0x72d8, 0xcd, 0x5e), (0x72d9, 0xaa, 0xae), (0x72da, 0xcd, 0x63), (0x72dc, 0xcd, 0x60),
  (0x72df, 0xcf, 0xc2), (0x72e0, 0xac, 0xbd), (0x72e1, 0xac, 0xbe), (0x72e2, 0xa0, 0x49),
  (0x72e3, 0xcf, 0xc5), (0x72e4, 0xcf, 0xbf), (0x72e6, 0xcf, 0xc4), (0x72e8, 0xcf, 0xc0),
  (0x72e9, 0xac, 0xbc), (0x72ea, 0xcf, 0xc3), (0x72eb, 0xcf, 0xc1), (0x72f3, 0xd2, 0xa8),
  (0x72f4, 0xd2, 0xa5), (0x72f6, 0xd2, 0xa7), (0x72f7, 0xaf, 0x58), (0x72f8, 0xaf, 0x57),
  (0x72f9, 0xaf, 0x55), (0x72fa, 0xd2, 0xa4), (0x72fb, 0xd2, 0xa9), (0x72fc, 0xaf, 0x54),
  (0x72fd, 0xaf, 0x56), (0x72fe, 0xd2, 0xa6), (0x72ff, 0xd6, 0x67), (0x7300, 0xd2, 0xa3),
  (0x7301, 0xd2, 0xaa), (0x7302, 0xa0, 0x4c), (0x7304, 0x9e, 0x65), (0x7307, 0xd6, 0x62),
  (0x7308, 0xd6, 0x66), (0x730a, 0xd6, 0x65), (0x730b, 0xda, 0x6e), (0x730c, 0xda, 0x79),
  (0x730f, 0xd6, 0x68), (0x7310, 0x98, 0xb5), (0x7311, 0xd6, 0x63), (0x7312, 0xda, 0x6d),
  (0x7313, 0xb2, 0x74), (0x7316, 0xb2, 0x73), (0x7317, 0xd6, 0x61), (0x7318, 0xd6, 0x64),
  (0x7319, 0xb2, 0x75), (0x731b, 0xb2, 0x72), (0x731c, 0xb2, 0x71), (0x731d, 0xd6, 0x60)]

/-- `ENCODE_TABLE[8448..8576]`, (code point, byte 0, byte 1).  src/generated/whatwg/big5_whatwg_tables.rs.inc:5297-5339 -/
def encRow66 : List (Nat × Nat × Nat) := [
  (0x731e, 0xd6, 0x69), (0x7322, 0xda, 0x70), (0x7323, 0xda, 0x77), (0x7325, 0xb5, 0x54),
  (0x7326, 0xda, 0x76), (0x7327, 0xda, 0x73), (0x7328, 0xfe, 0x58), (0x7329, 0xb5, 0x56),
  (0x732a, 0x99, 0x75), (0x732b, 0xfe, 0x53), (0x732c, 0xa0, 0x65), (0x732d, 0xda, 0x75),
  (0x732e, 0xfe, 0x59), (0x7330, 0xda, 0x6f), (0x7331, 0xda, 0x71), (0x7332, 0xda, 0x74),
  (0x7333, 0xda, 0x72), (0x7334, 0xb5, 0x55), (0x7335, 0xda, 0x78), (0x7336, 0xb5, 0x53),
  (0x7337, 0xb7, 0xdf), (0x7338, 0x98, 0xb7), (0x7339, 0x98, 0xb8), (0x733a, 0xde, 0xad),
  (0x733b, 0xde, 0xac), (0x733c, 0xde, 0xaa), (0x733e, 0xb7, 0xe2), (0x733f, 0xb7, 0xe1),
  (0x7340, 0xde, 0xae), (0x7341, 0x98, 0xba), (0x7342, 0xde, 0xab), (0x7343, 0xe2, 0xca),
  (0x7344, 0xba, 0xbb), (0x7345, 0xb7, 0xe0), (0x7348, 0x98, 0xbb), (0x7349, 0xde, 0xb0),
  (0x734a, 0xde, 0xaf), (0x734c, 0xe2, 0xcd), (0x734d, 0xe2, 0xcb), (0x734e, 0xbc, 0xfa),
  (0x734f, 0x9f, 0xbc), (0x7350, 0xba, 0xbc), (0x7351, 0xe2, 0xcc), (0x7352, 0xe6, 0x76),
  (0x7357, 0xbc, 0xfb), (0x7358, 0xe6, 0x75), (0x7359, 0xe6, 0x7e), (0x735a, 0xe6, 0x7d),
  (0x735b, 0xe6, 0x7b), (0x735d, 0xe6, 0x7a), (0x735e, 0xe6, 0x77), (0x735f, 0xe6, 0x78),
  (0x7360, 0xe6, 0x79), (0x7361, 0xe6, 0x7c), (0x7362, 0xe6, 0xa1), (0x7365, 0xea, 0x5f),
  (0x7366, 0xea, 0x5c), (0x7367, 0xea, 0x5d), (0x7368, 0xbf, 0x57), (0x7369, 0xea, 0x5b),
  (0x736a, 0xea, 0x61), (0x736b, 0xea, 0x60), (0x736c, 0xea, 0x5e), (0x736e, 0xed, 0x64),
  (0x736f, 0xed, 0x65), (0x7370, 0xc0, 0xf1), (0x7371, 0xa0, 0x4a), (0x7372, 0xc0, 0xf2),
  (0x7373, 0xed, 0x63), (0x7374, 0x9e, 0xc7), (0x7375, 0xc2, 0x79), (0x7376, 0xef, 0xfe),
  (0x7377, 0xc2, 0x78), (0x7378, 0xc3, 0x7e), (0x737a, 0xc3, 0xa1), (0x737b, 0xc4, 0x6d),
  (0x737c, 0xf4, 0x6e), (0x737d, 0xf4, 0x6d), (0x737e, 0xf5, 0xdd), (0x737f, 0xf6, 0xef),
  (0x7380, 0xc5, 0x7a), (0x7381, 0xf7, 0xe8), (0x7382, 0xf7, 0xe7), (0x7383, 0xf7, 0xe9),
  (0x7384, 0xa5, 0xc8), (0x7385, 0xcf, 0xc6), (0x7386, 0xaf, 0x59), (0x7387, 0xb2, 0x76),
  (0x7388, 0xd6, 0x6a), (0x7389, 0xa5, 0xc9), (0x738a, 0xc9, 0xa7), (0x738b, 0xa4, 0xfd),
  (0x738c, 0x8c, 0xa9), (0x738e, 0xca, 0x45), (0x738f, 0x98, 0xae), (0x7392, 0xcb, 0x6c),
  (0x7393, 0xcb, 0x6a), (0x7394, 0xcb, 0x6b), (0x7395, 0xcb, 0x68), (0x7396, 0xa8, 0x68),
  (0x7397, 0xcb, 0x69), (0x7398, 0x92, 0xd6), (0x739c, 0xfa, 0xe1), (0x739d, 0xcd, 0x6d),
  (0x739e, 0x91, 0xd4), (0x739f, 0xaa, 0xb3), (0x73a0, 0xcd, 0x6b), (0x73a1, 0xcd, 0x67),
  (0x73a2, 0xcd, 0x6a), (0x73a4, 0xcd, 0x66), (0x73a5, 0xaa, 0xb5), (0x73a6, 0xcd, 0x69),
  (0x73a7, 0xfa, 0xde), (0x73a8, 0xaa, 0xb2), (0x73a9, 0xaa, 0xb1), (0x73aa, 0xfe, 0x5b),
  (0x73ab, 0xaa, 0xb4), (0x73ac, 0xcd, 0x6c), (0x73ad, 0xcd, 0x68), (0x73b2, 0xac, 0xc2),
  (0x73b3, 0xac, 0xc5), (0x73b4, 0xcf, 0xce), (0x73b5, 0xcf, 0xcd), (0x73b6, 0xcf, 0xcc),
  (0x73b7, 0xac, 0xbf), (0x73b8, 0xcf, 0xd5), (0x73b9, 0xcf, 0xcb), (0x73ba, 0x8c, 0x53)]

/-- `ENCODE_TABLE[8576..8704]`, (code point, byte 0, byte 1).  src/generated/whatwg/big5_whatwg_tables.rs.inc:5339-5382 -/
def encRow67 : List (Nat × Nat × Nat) := [
  (0x73bb, 0xac, 0xc1), (0x73bc, 0xd2, 0xaf), (0x73be, 0xcf, 0xd2), (0x73bf, 0xcf, 0xd0),
  (0x73c0, 0xac, 0xc4), (0x73c2, 0xcf, 0xc8), (0x73c3, 0xcf, 0xd3), (0x73c4, 0x87, 0xbf),
  (0x73c5, 0xcf, 0xca), (0x73c6, 0xcf, 0xd4), (0x73c7, 0xcf, 0xd1), (0x73c8, 0xcf, 0xc9),
  (0x73c9, 0xfe, 0x5e), (0x73ca, 0xac, 0xc0), (0x73cb, 0xcf, 0xd6), (0x73cc, 0xcf, 0xc7),
  (0x73cd, 0xac, 0xc3), (0x73ce, 0xfb, 0xd7), (0x73cf, 0xfe, 0x5a), (0x73d0, 0x94, 0xc5),
  (0x73d2, 0xd2, 0xb4), (0x73d3, 0xd2, 0xab), (0x73d4, 0xd2, 0xb6), (0x73d5, 0xfa, 0xca),
  (0x73d6, 0xd2, 0xae), (0x73d7, 0xd2, 0xb9), (0x73d8, 0xd2, 0xba), (0x73d9, 0xd2, 0xac),
  (0x73da, 0xd2, 0xb8), (0x73db, 0xd2, 0xb5), (0x73dc, 0xd2, 0xb3), (0x73dd, 0xd2, 0xb7),
  (0x73de, 0xaf, 0x5f), (0x73e0, 0xaf, 0x5d), (0x73e1, 0x98, 0xc1), (0x73e2, 0x97, 0x5c),
  (0x73e3, 0xd2, 0xb1), (0x73e4, 0xfe, 0x74), (0x73e5, 0xd2, 0xad), (0x73e6, 0x97, 0x73),
  (0x73e7, 0xd2, 0xb0), (0x73e8, 0xd2, 0xbb), (0x73e9, 0xd2, 0xb2), (0x73ea, 0xaf, 0x5e),
  (0x73eb, 0xcf, 0xcf), (0x73ed, 0xaf, 0x5a), (0x73ee, 0xaf, 0x5c), (0x73ef, 0xfa, 0x46),
  (0x73f3, 0x97, 0x64), (0x73f4, 0xd6, 0x78), (0x73f5, 0xd6, 0x6d), (0x73f6, 0xd6, 0x6b),
  (0x73f7, 0xfe, 0x68), (0x73f8, 0xd6, 0x6c), (0x73f9, 0x96, 0x4e), (0x73fa, 0xd6, 0x73),
  (0x73fb, 0x97, 0x65), (0x73fc, 0xd6, 0x74), (0x73fd, 0xd6, 0x70), (0x73fe, 0xb2, 0x7b),
  (0x73ff, 0xd6, 0x75), (0x7400, 0xd6, 0x72), (0x7401, 0xd6, 0x6f), (0x7402, 0x8c, 0x5a),
  (0x7403, 0xb2, 0x79), (0x7404, 0xd6, 0x6e), (0x7405, 0xb2, 0x77), (0x7406, 0xb2, 0x7a),
  (0x7407, 0xd6, 0x71), (0x7408, 0xd6, 0x79), (0x7409, 0xaf, 0x5b), (0x740a, 0xb2, 0x78),
  (0x740b, 0xd6, 0x77), (0x740c, 0xd6, 0x76), (0x740d, 0xb2, 0x7c), (0x7411, 0x89, 0xa1),
  (0x7412, 0x95, 0xfa), (0x7414, 0x92, 0xd4), (0x7415, 0xfe, 0x69), (0x7416, 0xda, 0x7e),
  (0x7417, 0xfb, 0x45), (0x7419, 0x98, 0xc8), (0x741a, 0xda, 0xa1), (0x741b, 0xb5, 0x60),
  (0x741c, 0x90, 0xef), (0x741d, 0xda, 0xa7), (0x741e, 0x98, 0xc9), (0x741f, 0x98, 0xca),
  (0x7420, 0xda, 0xa9), (0x7421, 0xda, 0xa2), (0x7422, 0xb5, 0x5a), (0x7423, 0xda, 0xa6),
  (0x7424, 0xda, 0xa5), (0x7425, 0xb5, 0x5b), (0x7426, 0xb5, 0x61), (0x7428, 0xb5, 0x62),
  (0x7429, 0xda, 0xa8), (0x742a, 0xb5, 0x58), (0x742b, 0xda, 0x7d), (0x742c, 0xda, 0x7b),
  (0x742d, 0xda, 0xa3), (0x742e, 0xda, 0x7a), (0x742f, 0xb5, 0x5f), (0x7430, 0xda, 0x7c),
  (0x7431, 0xda, 0xa4), (0x7432, 0xda, 0xaa), (0x7433, 0xb5, 0x59), (0x7434, 0xb5, 0x5e),
  (0x7435, 0xb5, 0x5c), (0x7436, 0xb5, 0x5d), (0x7437, 0x94, 0x6d), (0x7438, 0x94, 0xb7),
  (0x7439, 0xfe, 0x6c), (0x743a, 0xb5, 0x57), (0x743c, 0x94, 0x6b), (0x743f, 0xb7, 0xe9),
  (0x7440, 0xde, 0xb7), (0x7441, 0xb7, 0xe8), (0x7442, 0xde, 0xbb), (0x7443, 0x92, 0xfc),
  (0x7444, 0xde, 0xb1), (0x7445, 0x95, 0xeb), (0x7446, 0xde, 0xbc), (0x7447, 0xfe, 0x73),
  (0x7448, 0x97, 0x6e), (0x7449, 0xfe, 0x5f), (0x744a, 0xde, 0xb2), (0x744b, 0xde, 0xb3)]

/-- `ENCODE_TABLE[8704..8832]`, (code point, byte 0, byte 1).  src/generated/whatwg/big5_whatwg_tables.rs.inc:5382-5424 -/
def encRow68 : List (Nat × Nat × Nat) := [
  (0x744c, 0x87, 0xb8), (0x744d, 0xde, 0xbd), (0x744e, 0xde, 0xba), (0x744f, 0xde, 0xb8),
  (0x7450, 0xde, 0xb9), (0x7451, 0xde, 0xb5), (0x7452, 0xde, 0xb4), (0x7453, 0xfd, 0xbd),
  (0x7454, 0xde, 0xbe), (0x7455, 0xb7, 0xe5), (0x7456, 0x92, 0xd5), (0x7457, 0xde, 0xb6),
  (0x7459, 0xb7, 0xea), (0x745a, 0xb7, 0xe4), (0x745b, 0xb7, 0xeb), (0x745c, 0xb7, 0xec),
  (0x745d, 0xfe, 0xb9), (0x745e, 0xb7, 0xe7), (0x745f, 0xb7, 0xe6), (0x7460, 0xfe, 0x71),
  (0x7461, 0x87, 0x78), (0x7462, 0xe2, 0xce), (0x7463, 0xba, 0xbe), (0x7464, 0xba, 0xbd),
  (0x7465, 0xfb, 0xbb), (0x7467, 0xe2, 0xd3), (0x7468, 0x94, 0x7a), (0x7469, 0xbc, 0xfc),
  (0x746a, 0xba, 0xbf), (0x746b, 0x95, 0xfb), (0x746c, 0xfe, 0x77), (0x746d, 0xba, 0xc1),
  (0x746e, 0xe2, 0xd4), (0x746f, 0xb7, 0xe3), (0x7470, 0xba, 0xc0), (0x7471, 0xe2, 0xd0),
  (0x7472, 0xe2, 0xd2), (0x7473, 0xe2, 0xcf), (0x7474, 0xfe, 0x79), (0x7475, 0xe2, 0xd1),
  (0x7476, 0xfe, 0x75), (0x7479, 0x92, 0xd1), (0x747a, 0x94, 0x5d), (0x747c, 0xe6, 0xaa),
  (0x747d, 0xe6, 0xa7), (0x747e, 0xbd, 0x40), (0x747f, 0xea, 0x62), (0x7480, 0xbd, 0x41),
  (0x7481, 0xe6, 0xa6), (0x7482, 0xfe, 0x7c), (0x7483, 0xbc, 0xfe), (0x7485, 0xe6, 0xa8),
  (0x7486, 0xe6, 0xa5), (0x7487, 0xe6, 0xa2), (0x7488, 0xe6, 0xa9), (0x7489, 0xe6, 0xa3),
  (0x748a, 0xe6, 0xa4), (0x748b, 0xbc, 0xfd), (0x748c, 0x93, 0x44), (0x748d, 0x8e, 0xa6),
  (0x7490, 0xed, 0x69), (0x7492, 0xea, 0x66), (0x7494, 0xea, 0x65), (0x7495, 0xea, 0x67),
  (0x7497, 0xed, 0x66), (0x7498, 0xbf, 0x5a), (0x7499, 0x92, 0xd3), (0x749a, 0xea, 0x63),
  (0x749b, 0x94, 0xb8), (0x749c, 0xbf, 0x58), (0x749d, 0x87, 0x79), (0x749e, 0xbf, 0x5c),
  (0x749f, 0xbf, 0x5b), (0x74a0, 0xea, 0x64), (0x74a1, 0xea, 0x68), (0x74a3, 0xbf, 0x59),
  (0x74a4, 0xfc, 0x71), (0x74a5, 0xed, 0x6d), (0x74a6, 0xc0, 0xf5), (0x74a7, 0xc2, 0x7a),
  (0x74a8, 0xc0, 0xf6), (0x74a9, 0xc0, 0xf3), (0x74aa, 0xed, 0x6a), (0x74ab, 0xed, 0x68),
  (0x74ad, 0xed, 0x6b), (0x74af, 0xed, 0x6e), (0x74b0, 0xc0, 0xf4), (0x74b1, 0xed, 0x6c),
  (0x74b2, 0xed, 0x67), (0x74b4, 0x97, 0x5e), (0x74b5, 0xf0, 0x42), (0x74b6, 0xf0, 0x45),
  (0x74b7, 0xf2, 0x75), (0x74b8, 0xf0, 0x40), (0x74b9, 0x8c, 0xad), (0x74ba, 0xf4, 0x6f),
  (0x74bb, 0xf0, 0x46), (0x74bd, 0xc3, 0xa2), (0x74be, 0xf0, 0x44), (0x74bf, 0xc2, 0x7b),
  (0x74c0, 0xf0, 0x41), (0x74c1, 0xf0, 0x43), (0x74c2, 0xf0, 0x47), (0x74c3, 0xf2, 0x76),
  (0x74c5, 0xf2, 0x74), (0x74c6, 0x87, 0xc1), (0x74c8, 0xfe, 0xa7), (0x74ca, 0xc3, 0xa3),
  (0x74cb, 0xf2, 0x73), (0x74cc, 0x94, 0x6a), (0x74cf, 0xc4, 0x6e), (0x74d0, 0x93, 0xe3),
  (0x74d3, 0x98, 0xcf), (0x74d4, 0xc4, 0xed), (0x74d5, 0xf6, 0xf1), (0x74d6, 0xc4, 0xec),
  (0x74d7, 0xf6, 0xf3), (0x74d8, 0xf6, 0xf0), (0x74d9, 0xf6, 0xf2), (0x74da, 0xc5, 0xd0),
  (0x74db, 0xf8, 0xb2), (0x74dc, 0xa5, 0xca), (0x74dd, 0xcd, 0x6e), (0x74de, 0xd2, 0xbc),
  (0x74df, 0xd2, 0xbd), (0x74e0, 0xb2, 0x7d), (0x74e1, 0xde, 0xbf), (0x74e2, 0xbf, 0x5d)]

/-- `ENCODE_TABLE[8832..8960]`, (code point, byte 0, byte 1).  src/generated/whatwg/big5_whatwg_tables.rs.inc:5425-5467 -/
def encRow69 : List (Nat × Nat × Nat) := [
  (0x74e3, 0xc3, 0xa4), (0x74e4, 0xc5, 0x7b), (0x74e5, 0xf8, 0xb3), (0x74e6, 0xa5, 0xcb),
  (0x74e7, 0xa0, 0xd9), (0x74e8, 0xcd, 0x6f), (0x74e9, 0xa2, 0x60), (0x74ec, 0xcf, 0xd7),
  (0x74ee, 0xcf, 0xd8), (0x74f0, 0xa0, 0xbf), (0x74f1, 0xa0, 0x4d), (0x74f2, 0xa0, 0xb8),
  (0x74f4, 0xd2, 0xbe), (0x74f5, 0xd2, 0xbf), (0x74f6, 0xb2, 0x7e), (0x74f7, 0xb2, 0xa1),
  (0x74f8, 0xa0, 0xce), (0x74fb, 0xda, 0xab), (0x74fd, 0xde, 0xc2), (0x74fe, 0xde, 0xc1),
  (0x74ff, 0xde, 0xc0), (0x7500, 0xe2, 0xd5), (0x7502, 0xe2, 0xd6), (0x7503, 0xe2, 0xd7),
  (0x7504, 0xba, 0xc2), (0x7505, 0xa0, 0xb7), (0x7507, 0xe6, 0xad), (0x7508, 0xe6, 0xac),
  (0x750b, 0xea, 0x69), (0x750c, 0xbf, 0x5e), (0x750d, 0xbf, 0x5f), (0x750e, 0xfe, 0xa9),
  (0x750f, 0xed, 0x72), (0x7510, 0xed, 0x6f), (0x7511, 0xed, 0x70), (0x7512, 0xed, 0x71),
  (0x7513, 0xf0, 0x49), (0x7514, 0xf0, 0x48), (0x7515, 0xc2, 0x7c), (0x7516, 0xf2, 0x77),
  (0x7517, 0xf5, 0xde), (0x7518, 0xa5, 0xcc), (0x7519, 0x89, 0xc3), (0x751a, 0xac, 0xc6),
  (0x751c, 0xb2, 0xa2), (0x751d, 0xde, 0xc3), (0x751e, 0xfe, 0xab), (0x751f, 0xa5, 0xcd),
  (0x7521, 0xd2, 0xc0), (0x7522, 0xb2, 0xa3), (0x7525, 0xb5, 0x63), (0x7526, 0xb5, 0x64),
  (0x7528, 0xa5, 0xce), (0x7529, 0xa5, 0xcf), (0x752a, 0xca, 0x46), (0x752b, 0xa8, 0x6a),
  (0x752c, 0xa8, 0x69), (0x752d, 0xac, 0xc7), (0x752e, 0xcf, 0xd9), (0x752f, 0xda, 0xac),
  (0x7530, 0xa5, 0xd0), (0x7531, 0xa5, 0xd1), (0x7532, 0xa5, 0xd2), (0x7533, 0xa5, 0xd3),
  (0x7534, 0x9d, 0xf4), (0x7535, 0x89, 0x6d), (0x7537, 0xa8, 0x6b), (0x7538, 0xa8, 0x6c),
  (0x7539, 0xcb, 0x6e), (0x753a, 0xcb, 0x6d), (0x753b, 0x9c, 0x7b), (0x753d, 0xaa, 0xb6),
  (0x753e, 0xcd, 0x72), (0x753f, 0xcd, 0x70), (0x7540, 0xcd, 0x71), (0x7542, 0x98, 0xd2),
  (0x7546, 0x9f, 0xa9), (0x7547, 0xcf, 0xda), (0x7548, 0xcf, 0xdb), (0x754a, 0xfe, 0xb2),
  (0x754b, 0xac, 0xcb), (0x754c, 0xac, 0xc9), (0x754d, 0xfe, 0xb1), (0x754e, 0xac, 0xca),
  (0x754f, 0xac, 0xc8), (0x7551, 0x97, 0xd9), (0x7553, 0xa0, 0xc4), (0x7554, 0xaf, 0x60),
  (0x7555, 0x94, 0x76), (0x7559, 0xaf, 0x64), (0x755a, 0xaf, 0x63), (0x755b, 0xd2, 0xc1),
  (0x755c, 0xaf, 0x62), (0x755d, 0xaf, 0x61), (0x755f, 0xd2, 0xc2), (0x7560, 0x99, 0x78),
  (0x7562, 0xb2, 0xa6), (0x7563, 0xd6, 0x7b), (0x7564, 0xd6, 0x7a), (0x7565, 0xb2, 0xa4),
  (0x7566, 0xb2, 0xa5), (0x7567, 0xfe, 0xb3), (0x756a, 0xb5, 0x66), (0x756b, 0xb5, 0x65),
  (0x756c, 0xda, 0xae), (0x756d, 0x98, 0xd3), (0x756e, 0xfe, 0xb4), (0x756f, 0xda, 0xad),
  (0x7570, 0xb2, 0xa7), (0x7572, 0x98, 0xd4), (0x7576, 0xb7, 0xed), (0x7577, 0xde, 0xc5),
  (0x7578, 0xb7, 0xee), (0x7579, 0xde, 0xc4), (0x757a, 0x9f, 0xb9), (0x757d, 0xe2, 0xd8),
  (0x757e, 0xe6, 0xae), (0x757f, 0xbd, 0x42), (0x7580, 0xea, 0x6a), (0x7583, 0x94, 0x71),
  (0x7584, 0xed, 0x73), (0x7586, 0xc3, 0xa6), (0x7587, 0xc3, 0xa5), (0x758a, 0xc5, 0x7c),
  (0x758b, 0xa5, 0xd4), (0x758c, 0xcd, 0x73), (0x758d, 0x98, 0xd5), (0x758e, 0xfe, 0xb8)]

/-- `ENCODE_TABLE[8960..9088]`, (code point, byte 0, byte 1).  src/generated/whatwg/big5_whatwg_tables.rs.inc:5467-5510 -/
def encRow70 : List (Nat × Nat × Nat) := [
  (0x758f, 0xb2, 0xa8), (0x7590, 0xe2, 0xd9), (0x7591, 0xba, 0xc3), (0x7592, 0xc6, 0xd4),
  (0x7594, 0xcb, 0x6f), (0x7595, 0xcb, 0x70), (0x7598, 0xcd, 0x74), (0x7599, 0xaa, 0xb8),
  (0x759a, 0xaa, 0xb9), (0x759d, 0xaa, 0xb7), (0x759e, 0xfe, 0xba), (0x75a2, 0xac, 0xcf),
  (0x75a3, 0xac, 0xd0), (0x75a4, 0xac, 0xcd), (0x75a5, 0xac, 0xce), (0x75a7, 0xcf, 0xdc),
  (0x75aa, 0xcf, 0xdd), (0x75ab, 0xac, 0xcc), (0x75b0, 0xd2, 0xc3), (0x75b1, 0x9e, 0x5c),
  (0x75b2, 0xaf, 0x68), (0x75b3, 0xaf, 0x69), (0x75b4, 0xfe, 0xbb), (0x75b5, 0xb2, 0xab),
  (0x75b6, 0xd2, 0xc9), (0x75b8, 0xaf, 0x6e), (0x75b9, 0xaf, 0x6c), (0x75ba, 0xd2, 0xca),
  (0x75bb, 0xd2, 0xc5), (0x75bc, 0xaf, 0x6b), (0x75bd, 0xaf, 0x6a), (0x75be, 0xaf, 0x65),
  (0x75bf, 0xd2, 0xc8), (0x75c0, 0xd2, 0xc7), (0x75c1, 0xd2, 0xc4), (0x75c2, 0xaf, 0x6d),
  (0x75c3, 0xa0, 0x44), (0x75c4, 0xd2, 0xc6), (0x75c5, 0xaf, 0x66), (0x75c7, 0xaf, 0x67),
  (0x75c8, 0x98, 0xd7), (0x75ca, 0xb2, 0xac), (0x75cb, 0xd6, 0xa1), (0x75cc, 0xd6, 0xa2),
  (0x75cd, 0xb2, 0xad), (0x75ce, 0xd6, 0x7c), (0x75cf, 0xd6, 0x7e), (0x75d0, 0xd6, 0xa4),
  (0x75d1, 0xd6, 0xa3), (0x75d2, 0xd6, 0x7d), (0x75d4, 0xb2, 0xa9), (0x75d5, 0xb2, 0xaa),
  (0x75d7, 0xda, 0xb6), (0x75d8, 0xb5, 0x6b), (0x75d9, 0xb5, 0x6a), (0x75da, 0xda, 0xb0),
  (0x75db, 0xb5, 0x68), (0x75dc, 0x98, 0xd8), (0x75dd, 0xda, 0xb3), (0x75de, 0xb5, 0x6c),
  (0x75df, 0xda, 0xb4), (0x75e0, 0xb5, 0x6d), (0x75e1, 0xda, 0xb1), (0x75e2, 0xb5, 0x67),
  (0x75e3, 0xb5, 0x69), (0x75e4, 0xda, 0xb5), (0x75e6, 0xda, 0xb2), (0x75e7, 0xda, 0xaf),
  (0x75ed, 0xde, 0xd2), (0x75ef, 0xde, 0xc7), (0x75f0, 0xb7, 0xf0), (0x75f1, 0xb7, 0xf3),
  (0x75f2, 0xb7, 0xf2), (0x75f3, 0xb7, 0xf7), (0x75f4, 0xb7, 0xf6), (0x75f5, 0xde, 0xd3),
  (0x75f6, 0xde, 0xd1), (0x75f7, 0xde, 0xca), (0x75f8, 0xde, 0xce), (0x75f9, 0x9e, 0xef),
  (0x75fa, 0xb7, 0xf4), (0x75fb, 0xde, 0xd0), (0x75fc, 0xde, 0xcc), (0x75fd, 0xde, 0xd4),
  (0x75fe, 0xde, 0xcb), (0x75ff, 0xb7, 0xf5), (0x7600, 0xb7, 0xef), (0x7601, 0xb7, 0xf1),
  (0x7602, 0xfe, 0xbc), (0x7603, 0xde, 0xc9), (0x7607, 0x9f, 0xfe), (0x7608, 0xe2, 0xdb),
  (0x7609, 0xba, 0xc7), (0x760a, 0xe2, 0xdf), (0x760b, 0xba, 0xc6), (0x760c, 0xe2, 0xdc),
  (0x760d, 0xba, 0xc5), (0x760f, 0xde, 0xc8), (0x7610, 0xde, 0xcf), (0x7611, 0xe2, 0xde),
  (0x7613, 0xba, 0xc8), (0x7614, 0xe2, 0xe0), (0x7615, 0xe2, 0xdd), (0x7616, 0xe2, 0xda),
  (0x7619, 0xe6, 0xb1), (0x761a, 0xe6, 0xb5), (0x761b, 0xe6, 0xb7), (0x761c, 0xe6, 0xb3),
  (0x761d, 0xe6, 0xb2), (0x761e, 0xe6, 0xb0), (0x761f, 0xbd, 0x45), (0x7620, 0xbd, 0x43),
  (0x7621, 0xbd, 0x48), (0x7622, 0xbd, 0x49), (0x7623, 0xe6, 0xb4), (0x7624, 0xbd, 0x46),
  (0x7625, 0xe6, 0xaf), (0x7626, 0xbd, 0x47), (0x7627, 0xba, 0xc4), (0x7628, 0xe6, 0xb6),
  (0x7629, 0xbd, 0x44), (0x762c, 0xfe, 0xbd), (0x762d, 0xea, 0x6c), (0x762f, 0xea, 0x6b),
  (0x7630, 0xea, 0x73), (0x7631, 0xea, 0x6d), (0x7632, 0xea, 0x72), (0x7633, 0xea, 0x6f)]

/-- `ENCODE_TABLE[9088..9216]`, (code point, byte 0, byte 1).  src/generated/whatwg/big5_whatwg_tables.rs.inc:5510-5552 -/
def encRow71 : List (Nat × Nat × Nat) := [
  (0x7634, 0xbf, 0x60), (0x7635, 0xea, 0x71), (0x7638, 0xbf, 0x61), (0x763a, 0xbf, 0x62),
  (0x763b, 0x9d, 0xdd), (0x763c, 0xea, 0x70), (0x763d, 0xea, 0x6e), (0x7640, 0x9e, 0xe1),
  (0x7642, 0xc0, 0xf8), (0x7643, 0xed, 0x74), (0x7646, 0xc0, 0xf7), (0x7647, 0xed, 0x77),
  (0x7648, 0xed, 0x75), (0x7649, 0xed, 0x76), (0x764c, 0xc0, 0xf9), (0x764d, 0x98, 0xda),
  (0x764e, 0x9d, 0xdf), (0x764f, 0xfe, 0xbf), (0x7650, 0xf0, 0x4d), (0x7651, 0xfe, 0xbe),
  (0x7652, 0xc2, 0xa1), (0x7653, 0xf0, 0x4e), (0x7654, 0x9e, 0xeb), (0x7656, 0xc2, 0x7d),
  (0x7657, 0xf0, 0x4f), (0x7658, 0xc2, 0x7e), (0x7659, 0xf0, 0x4c), (0x765a, 0xf0, 0x50),
  (0x765c, 0xf0, 0x4a), (0x765f, 0xc3, 0xa7), (0x7660, 0xf2, 0x78), (0x7661, 0xc3, 0xa8),
  (0x7662, 0xc4, 0x6f), (0x7664, 0xf0, 0x4b), (0x7665, 0xc4, 0x70), (0x7666, 0x9e, 0x59),
  (0x7667, 0xa0, 0x5c), (0x7669, 0xc4, 0xee), (0x766a, 0xf5, 0xdf), (0x766c, 0xc5, 0x7e),
  (0x766d, 0xf6, 0xf4), (0x766e, 0xc5, 0x7d), (0x766f, 0xfe, 0xc0), (0x7670, 0xf7, 0xea),
  (0x7671, 0xc5, 0xf5), (0x7672, 0xc5, 0xf6), (0x7673, 0x94, 0x77), (0x7674, 0x98, 0xdc),
  (0x7675, 0xf9, 0xcc), (0x7676, 0xc6, 0xd5), (0x7678, 0xac, 0xd1), (0x7679, 0xcf, 0xde),
  (0x767a, 0x98, 0xde), (0x767b, 0xb5, 0x6e), (0x767c, 0xb5, 0x6f), (0x767d, 0xa5, 0xd5),
  (0x767e, 0xa6, 0xca), (0x767f, 0xca, 0x47), (0x7681, 0xcb, 0x71), (0x7682, 0xa8, 0x6d),
  (0x7684, 0xaa, 0xba), (0x7686, 0xac, 0xd2), (0x7687, 0xac, 0xd3), (0x7688, 0xac, 0xd4),
  (0x7689, 0xd6, 0xa6), (0x768a, 0xd2, 0xcb), (0x768b, 0xaf, 0x6f), (0x768e, 0xb2, 0xae),
  (0x768f, 0xd6, 0xa5), (0x7690, 0xfe, 0xc3), (0x7692, 0xda, 0xb8), (0x7693, 0xb5, 0x71),
  (0x7695, 0xda, 0xb7), (0x7696, 0xb5, 0x70), (0x7699, 0xde, 0xd5), (0x769a, 0xbd, 0x4a),
  (0x769b, 0xe6, 0xbb), (0x769c, 0xe6, 0xb8), (0x769d, 0xe6, 0xb9), (0x769e, 0xe6, 0xba),
  (0x76a1, 0xfe, 0xc8), (0x76a4, 0xed, 0x78), (0x76a5, 0xfe, 0xc9), (0x76a6, 0xf0, 0x51),
  (0x76aa, 0xf4, 0x71), (0x76ab, 0xf4, 0x70), (0x76ad, 0xf6, 0xf5), (0x76ae, 0xa5, 0xd6),
  (0x76af, 0xcd, 0x75), (0x76b0, 0xaf, 0x70), (0x76b4, 0xb5, 0x72), (0x76b5, 0xde, 0xd6),
  (0x76b7, 0xfe, 0xca), (0x76b8, 0xe2, 0xe1), (0x76ba, 0xbd, 0x4b), (0x76bb, 0xea, 0x74),
  (0x76bd, 0xf0, 0x52), (0x76be, 0xf4, 0x72), (0x76bf, 0xa5, 0xd7), (0x76c2, 0xaa, 0xbb),
  (0x76c3, 0xac, 0xd7), (0x76c4, 0xcf, 0xdf), (0x76c5, 0xac, 0xd8), (0x76c6, 0xac, 0xd6),
  (0x76c8, 0xac, 0xd5), (0x76c9, 0xd2, 0xcc), (0x76ca, 0xaf, 0x71), (0x76cc, 0xfe, 0xcb),
  (0x76cd, 0xaf, 0x72), (0x76ce, 0xaf, 0x73), (0x76d2, 0xb2, 0xb0), (0x76d3, 0xd6, 0xa7),
  (0x76d4, 0xb2, 0xaf), (0x76d6, 0x9f, 0xc2), (0x76d9, 0x8c, 0x6b), (0x76da, 0xda, 0xb9),
  (0x76db, 0xb2, 0xb1), (0x76dc, 0xb5, 0x73), (0x76dd, 0xde, 0xd7), (0x76de, 0xb7, 0xf8),
  (0x76df, 0xb7, 0xf9), (0x76e1, 0xba, 0xc9), (0x76e3, 0xba, 0xca), (0x76e4, 0xbd, 0x4c),
  (0x76e5, 0xbf, 0x64), (0x76e6, 0xea, 0x75), (0x76e7, 0xbf, 0x63), (0x76e9, 0xed, 0x79)]

/-- `ENCODE_TABLE[9216..9344]`, (code point, byte 0, byte 1).  src/generated/whatwg/big5_whatwg_tables.rs.inc:5553-5595 -/
def encRow72 : List (Nat × Nat × Nat) := [
  (0x76ea, 0xc0, 0xfa), (0x76ec, 0xf0, 0x53), (0x76ed, 0xf4, 0x73), (0x76ee, 0xa5, 0xd8),
  (0x76ef, 0xa8, 0x6e), (0x76f0, 0xcd, 0x78), (0x76f1, 0xcd, 0x77), (0x76f2, 0xaa, 0xbc),
  (0x76f3, 0xcd, 0x76), (0x76f4, 0xaa, 0xbd), (0x76f5, 0xcd, 0x79), (0x76f7, 0xcf, 0xe5),
  (0x76f8, 0xac, 0xdb), (0x76f9, 0xac, 0xda), (0x76fa, 0xcf, 0xe7), (0x76fb, 0xcf, 0xe6),
  (0x76fc, 0xac, 0xdf), (0x76fe, 0xac, 0xde), (0x7701, 0xac, 0xd9), (0x7703, 0xcf, 0xe1),
  (0x7704, 0xcf, 0xe2), (0x7705, 0xcf, 0xe3), (0x7707, 0xac, 0xe0), (0x7708, 0xcf, 0xe0),
  (0x7709, 0xac, 0xdc), (0x770a, 0xcf, 0xe4), (0x770b, 0xac, 0xdd), (0x770c, 0x98, 0xc4),
  (0x770e, 0x94, 0xb0), (0x770f, 0x94, 0xb1), (0x7710, 0xd2, 0xcf), (0x7711, 0xd2, 0xd3),
  (0x7712, 0xd2, 0xd1), (0x7713, 0xd2, 0xd0), (0x7715, 0xd2, 0xd4), (0x7719, 0xd2, 0xd5),
  (0x771a, 0xd2, 0xd6), (0x771b, 0xd2, 0xce), (0x771d, 0xd2, 0xcd), (0x771e, 0xfe, 0xd1),
  (0x771f, 0xaf, 0x75), (0x7720, 0xaf, 0x76), (0x7722, 0xd2, 0xd7), (0x7723, 0xd2, 0xd2),
  (0x7724, 0xa0, 0xc1), (0x7725, 0xd6, 0xb0), (0x7726, 0xfe, 0xd2), (0x7727, 0xd2, 0xd8),
  (0x7728, 0xaf, 0x77), (0x7729, 0xaf, 0x74), (0x772b, 0xa0, 0xcd), (0x772d, 0xd6, 0xaa),
  (0x772f, 0xd6, 0xa9), (0x7731, 0xd6, 0xab), (0x7732, 0xd6, 0xac), (0x7733, 0xd6, 0xae),
  (0x7734, 0xd6, 0xad), (0x7735, 0xd6, 0xb2), (0x7736, 0xb2, 0xb5), (0x7737, 0xb2, 0xb2),
  (0x7738, 0xb2, 0xb6), (0x7739, 0xd6, 0xa8), (0x773a, 0xb2, 0xb7), (0x773b, 0xd6, 0xb1),
  (0x773c, 0xb2, 0xb4), (0x773d, 0xd6, 0xaf), (0x773e, 0xb2, 0xb3), (0x7740, 0xfe, 0xd3),
  (0x7743, 0x98, 0xe5), (0x7744, 0xda, 0xbc), (0x7745, 0xda, 0xbe), (0x7746, 0xda, 0xba),
  (0x7747, 0xda, 0xbb), (0x774a, 0xda, 0xbf), (0x774b, 0xda, 0xc1), (0x774c, 0xda, 0xc2),
  (0x774d, 0xda, 0xbd), (0x774e, 0xda, 0xc0), (0x774f, 0xb5, 0x74), (0x7752, 0xde, 0xdb),
  (0x7754, 0xde, 0xe0), (0x7755, 0xde, 0xd8), (0x7756, 0xde, 0xdc), (0x7758, 0xfe, 0xd6),
  (0x7759, 0xde, 0xe1), (0x775a, 0xde, 0xdd), (0x775b, 0xb7, 0xfa), (0x775c, 0xb8, 0x43),
  (0x775e, 0xb7, 0xfd), (0x775f, 0xde, 0xd9), (0x7760, 0xde, 0xda), (0x7761, 0xba, 0xce),
  (0x7762, 0xb8, 0x46), (0x7763, 0xb7, 0xfe), (0x7765, 0xb8, 0x44), (0x7766, 0xb7, 0xfc),
  (0x7767, 0xde, 0xdf), (0x7768, 0xb8, 0x45), (0x7769, 0xde, 0xde), (0x776a, 0xb8, 0x41),
  (0x776b, 0xb7, 0xfb), (0x776c, 0xb8, 0x42), (0x776d, 0xde, 0xe2), (0x776e, 0xe2, 0xe6),
  (0x776f, 0xe2, 0xe8), (0x7772, 0x91, 0xe4), (0x7777, 0x8f, 0xc7), (0x7778, 0x94, 0xae),
  (0x7779, 0xb8, 0x40), (0x777a, 0x8a, 0x4f), (0x777b, 0x94, 0xb2), (0x777c, 0xe2, 0xe3),
  (0x777d, 0xba, 0xcc), (0x777e, 0xe2, 0xe9), (0x777f, 0xba, 0xcd), (0x7780, 0xe2, 0xe7),
  (0x7781, 0xe2, 0xe2), (0x7782, 0xe2, 0xe5), (0x7783, 0xe2, 0xea), (0x7784, 0xba, 0xcb),
  (0x7785, 0xe2, 0xe4), (0x7787, 0xbd, 0x4e), (0x7788, 0xe6, 0xbf), (0x7789, 0xe6, 0xbe),
  (0x778b, 0xbd, 0x51), (0x778c, 0xbd, 0x4f), (0x778d, 0xe6, 0xbc), (0x778e, 0xbd, 0x4d)]

/-- `ENCODE_TABLE[9344..9472]`, (code point, byte 0, byte 1).  src/generated/whatwg/big5_whatwg_tables.rs.inc:5595-5638 -/
def encRow73 : List (Nat × Nat × Nat) := [
  (0x778f, 0xe6, 0xbd), (0x7791, 0xbd, 0x50), (0x7793, 0x8f, 0xd4), (0x7795, 0xea, 0x7d),
  (0x7797, 0xea, 0xa1), (0x7798, 0x98, 0xea), (0x7799, 0xea, 0x7e), (0x779a, 0xea, 0x76),
  (0x779b, 0xea, 0x7a), (0x779c, 0xea, 0x79), (0x779d, 0xea, 0x77), (0x779e, 0xbf, 0x66),
  (0x779f, 0xbf, 0x67), (0x77a0, 0xbf, 0x65), (0x77a1, 0xea, 0x78), (0x77a2, 0xea, 0x7b),
  (0x77a3, 0xea, 0x7c), (0x77a5, 0xbf, 0x68), (0x77a7, 0xc1, 0x40), (0x77a8, 0xed, 0xa3),
  (0x77aa, 0xc0, 0xfc), (0x77ab, 0xed, 0x7b), (0x77ac, 0xc0, 0xfe), (0x77ad, 0xc1, 0x41),
  (0x77af, 0xfe, 0xd8), (0x77b0, 0xc0, 0xfd), (0x77b1, 0xed, 0xa2), (0x77b2, 0xed, 0x7c),
  (0x77b3, 0xc0, 0xfb), (0x77b4, 0xed, 0xa1), (0x77b5, 0xed, 0x7a), (0x77b6, 0xed, 0x7e),
  (0x77b7, 0xed, 0x7d), (0x77b9, 0x9d, 0xe0), (0x77ba, 0xf0, 0x55), (0x77bb, 0xc2, 0xa4),
  (0x77bc, 0xc2, 0xa5), (0x77bd, 0xc2, 0xa2), (0x77be, 0x98, 0xee), (0x77bf, 0xc2, 0xa3),
  (0x77c2, 0xf0, 0x54), (0x77c3, 0x95, 0xc4), (0x77c4, 0xf2, 0x7b), (0x77c5, 0xfc, 0xe8),
  (0x77c7, 0xc3, 0xa9), (0x77c9, 0xf2, 0x79), (0x77ca, 0xf2, 0x7a), (0x77cb, 0x98, 0xef),
  (0x77cc, 0xf4, 0x74), (0x77cd, 0xf4, 0x77), (0x77ce, 0xf4, 0x75), (0x77cf, 0xf4, 0x76),
  (0x77d0, 0xf5, 0xe0), (0x77d3, 0xc4, 0xef), (0x77d4, 0xf7, 0xeb), (0x77d5, 0xf8, 0xb4),
  (0x77d7, 0x9b, 0x78), (0x77d8, 0xf8, 0xf8), (0x77d9, 0xf8, 0xf9), (0x77da, 0xc6, 0x66),
  (0x77db, 0xa5, 0xd9), (0x77dc, 0xac, 0xe1), (0x77dd, 0x8c, 0x6e), (0x77de, 0xda, 0xc3),
  (0x77e0, 0xde, 0xe3), (0x77e2, 0xa5, 0xda), (0x77e3, 0xa8, 0x6f), (0x77e5, 0xaa, 0xbe),
  (0x77e6, 0xfa, 0xd8), (0x77e7, 0xcf, 0xe8), (0x77e8, 0xcf, 0xe9), (0x77e9, 0xaf, 0x78),
  (0x77ec, 0xda, 0xc4), (0x77ed, 0xb5, 0x75), (0x77ee, 0xb8, 0x47), (0x77ef, 0xc1, 0x42),
  (0x77f0, 0xed, 0xa4), (0x77f1, 0xf2, 0x7c), (0x77f2, 0xf4, 0x78), (0x77f3, 0xa5, 0xdb),
  (0x77f4, 0xfe, 0xdc), (0x77f7, 0xcd, 0xa1), (0x77f8, 0xcd, 0x7a), (0x77f9, 0xcd, 0x7c),
  (0x77fa, 0xcd, 0x7e), (0x77fb, 0xcd, 0x7d), (0x77fc, 0xcd, 0x7b), (0x77fd, 0xaa, 0xbf),
  (0x77fe, 0xa0, 0xae), (0x7802, 0xac, 0xe2), (0x7803, 0xcf, 0xf2), (0x7805, 0xcf, 0xed),
  (0x7806, 0xcf, 0xea), (0x7808, 0x9d, 0x4c), (0x7809, 0xcf, 0xf1), (0x780c, 0xac, 0xe4),
  (0x780d, 0xac, 0xe5), (0x780e, 0xcf, 0xf0), (0x780f, 0xcf, 0xef), (0x7810, 0xcf, 0xee),
  (0x7811, 0xcf, 0xeb), (0x7812, 0xcf, 0xec), (0x7813, 0xcf, 0xf3), (0x7814, 0xac, 0xe3),
  (0x7818, 0x98, 0xf1), (0x781c, 0x98, 0xf3), (0x781d, 0xaf, 0x7c), (0x781e, 0x94, 0xc1),
  (0x781f, 0xaf, 0xa4), (0x7820, 0xaf, 0xa3), (0x7821, 0xd2, 0xe1), (0x7822, 0xd2, 0xdb),
  (0x7823, 0xd2, 0xd9), (0x7825, 0xaf, 0xa1), (0x7826, 0xd6, 0xb9), (0x7827, 0xaf, 0x7a),
  (0x7828, 0xd2, 0xde), (0x7829, 0xd2, 0xe2), (0x782a, 0xd2, 0xe4), (0x782b, 0xd2, 0xe0),
  (0x782c, 0xd2, 0xda), (0x782d, 0xaf, 0xa2), (0x782e, 0xd2, 0xdf), (0x782f, 0xd2, 0xdd),
  (0x7830, 0xaf, 0x79), (0x7831, 0xd2, 0xe5), (0x7832, 0xaf, 0xa5), (0x7833, 0xd2, 0xe3)]

/-- `ENCODE_TABLE[9472..9600]`, (code point, byte 0, byte 1).  src/generated/whatwg/big5_whatwg_tables.rs.inc:5638-5680 -/
def encRow74 : List (Nat × Nat × Nat) := [
  (0x7834, 0xaf, 0x7d), (0x7835, 0xd2, 0xdc), (0x7837, 0xaf, 0x7e), (0x7838, 0xaf, 0x7b),
  (0x7839, 0x98, 0xf5), (0x783c, 0xfa, 0x4f), (0x783d, 0x96, 0xe2), (0x7842, 0x94, 0x50),
  (0x7843, 0xb2, 0xb9), (0x7844, 0x96, 0xa2), (0x7845, 0xd6, 0xba), (0x7847, 0x98, 0xf6),
  (0x7848, 0xd6, 0xb3), (0x7849, 0xd6, 0xb5), (0x784a, 0xd6, 0xb7), (0x784b, 0x96, 0xe5),
  (0x784c, 0xd6, 0xb8), (0x784d, 0xd6, 0xb6), (0x784e, 0xb2, 0xba), (0x7850, 0xd6, 0xbb),
  (0x7851, 0x98, 0xf7), (0x7852, 0xd6, 0xb4), (0x7853, 0xa0, 0x46), (0x7854, 0x96, 0xe3),
  (0x785c, 0xda, 0xc8), (0x785d, 0xb5, 0x76), (0x785e, 0xda, 0xd0), (0x7860, 0xda, 0xc5),
  (0x7862, 0xda, 0xd1), (0x7864, 0xda, 0xc6), (0x7865, 0xda, 0xc7), (0x7866, 0x98, 0xf8),
  (0x7868, 0xda, 0xcf), (0x7869, 0xda, 0xce), (0x786a, 0xda, 0xcb), (0x786b, 0xb2, 0xb8),
  (0x786c, 0xb5, 0x77), (0x786d, 0xda, 0xc9), (0x786e, 0xda, 0xcc), (0x786f, 0xb5, 0x78),
  (0x7870, 0xda, 0xcd), (0x7871, 0xda, 0xca), (0x7879, 0xde, 0xee), (0x787a, 0x9e, 0xe4),
  (0x787b, 0xde, 0xf2), (0x787c, 0xb8, 0x4e), (0x787e, 0xe2, 0xf0), (0x787f, 0xb8, 0x51),
  (0x7880, 0xde, 0xf0), (0x7881, 0xf9, 0xd6), (0x7883, 0xde, 0xed), (0x7884, 0xde, 0xe8),
  (0x7885, 0xde, 0xea), (0x7886, 0xde, 0xeb), (0x7887, 0xde, 0xe4), (0x7888, 0x94, 0xc3),
  (0x7889, 0xb8, 0x4d), (0x788c, 0xb8, 0x4c), (0x788d, 0x94, 0xc2), (0x788e, 0xb8, 0x48),
  (0x788f, 0xde, 0xe7), (0x7891, 0xb8, 0x4f), (0x7893, 0xb8, 0x50), (0x7894, 0xde, 0xe6),
  (0x7895, 0xde, 0xe9), (0x7896, 0xde, 0xf1), (0x7897, 0xb8, 0x4a), (0x7898, 0xb8, 0x4b),
  (0x7899, 0xde, 0xef), (0x789a, 0xde, 0xe5), (0x789e, 0xe2, 0xf2), (0x789f, 0xba, 0xd0),
  (0x78a0, 0xe2, 0xf4), (0x78a1, 0xde, 0xec), (0x78a2, 0xe2, 0xf6), (0x78a3, 0xba, 0xd4),
  (0x78a4, 0xe2, 0xf7), (0x78a5, 0xe2, 0xf3), (0x78a7, 0xba, 0xd1), (0x78a8, 0xe2, 0xef),
  (0x78a9, 0xba, 0xd3), (0x78aa, 0xe2, 0xec), (0x78ab, 0xe2, 0xf1), (0x78ac, 0xe2, 0xf5),
  (0x78ad, 0xe2, 0xee), (0x78af, 0xfe, 0xe1), (0x78b0, 0xb8, 0x49), (0x78b1, 0xfe, 0xe9),
  (0x78b2, 0xe2, 0xeb), (0x78b3, 0xba, 0xd2), (0x78b4, 0xe2, 0xed), (0x78b6, 0x96, 0xe4),
  (0x78b8, 0x89, 0xac), (0x78b9, 0x96, 0xdb), (0x78ba, 0xbd, 0x54), (0x78bb, 0xe6, 0xc1),
  (0x78bc, 0xbd, 0x58), (0x78be, 0xbd, 0x56), (0x78c1, 0xba, 0xcf), (0x78c3, 0xe6, 0xc8),
  (0x78c4, 0xe6, 0xc9), (0x78c5, 0xbd, 0x53), (0x78c7, 0xfe, 0xe2), (0x78c8, 0xe6, 0xc7),
  (0x78c9, 0xe6, 0xca), (0x78ca, 0xbd, 0x55), (0x78cb, 0xbd, 0x52), (0x78cc, 0xe6, 0xc3),
  (0x78cd, 0xe6, 0xc0), (0x78ce, 0xe6, 0xc5), (0x78cf, 0xe6, 0xc2), (0x78d0, 0xbd, 0x59),
  (0x78d1, 0xe6, 0xc4), (0x78d2, 0x94, 0xc4), (0x78d3, 0xfe, 0xe3), (0x78d4, 0xe6, 0xc6),
  (0x78d5, 0xbd, 0x57), (0x78d7, 0xfe, 0xe7), (0x78d8, 0x9f, 0xfb), (0x78da, 0xbf, 0x6a),
  (0x78db, 0xea, 0xa8), (0x78dd, 0xea, 0xa2), (0x78de, 0xea, 0xa6), (0x78df, 0xea, 0xac),
  (0x78e0, 0xea, 0xad), (0x78e1, 0xea, 0xa9), (0x78e2, 0xea, 0xaa), (0x78e3, 0xea, 0xa7)]

/-- `ENCODE_TABLE[9600..9728]`, (code point, byte 0, byte 1).  src/generated/whatwg/big5_whatwg_tables.rs.inc:5681-5723 -/
def encRow75 : List (Nat × Nat × Nat) := [
  (0x78e4, 0x8c, 0x59), (0x78e5, 0xea, 0xa4), (0x78e7, 0xbf, 0x6c), (0x78e8, 0xbf, 0x69),
  (0x78e9, 0xea, 0xa3), (0x78ea, 0xea, 0xa5), (0x78ec, 0xbf, 0x6b), (0x78ed, 0xea, 0xab),
  (0x78ee, 0x93, 0xc9), (0x78ef, 0xc1, 0x46), (0x78f0, 0x94, 0xe8), (0x78f1, 0xfb, 0x56),
  (0x78f2, 0xed, 0xaa), (0x78f3, 0xed, 0xa5), (0x78f4, 0xc1, 0x45), (0x78f5, 0x90, 0xc5),
  (0x78f7, 0xc1, 0x43), (0x78f9, 0xed, 0xac), (0x78fa, 0xc1, 0x44), (0x78fb, 0xed, 0xa8),
  (0x78fc, 0xed, 0xa9), (0x78fd, 0xed, 0xa6), (0x78fe, 0xed, 0xad), (0x78ff, 0xf0, 0x56),
  (0x7901, 0xc1, 0x47), (0x7902, 0xed, 0xa7), (0x7904, 0xed, 0xae), (0x7905, 0xed, 0xab),
  (0x7906, 0xa0, 0xa8), (0x7909, 0xf0, 0x5a), (0x790c, 0xf0, 0x57), (0x790e, 0xc2, 0xa6),
  (0x7910, 0xf0, 0x5b), (0x7911, 0xf0, 0x5d), (0x7912, 0xf0, 0x5c), (0x7913, 0xf0, 0x58),
  (0x7914, 0xf0, 0x59), (0x7917, 0xf2, 0xa3), (0x7919, 0xc3, 0xaa), (0x791b, 0xf2, 0x7e),
  (0x791c, 0xf2, 0xa2), (0x791d, 0xf2, 0x7d), (0x791e, 0xf2, 0xa4), (0x7921, 0xf2, 0xa1),
  (0x7923, 0xf4, 0x7a), (0x7924, 0xf4, 0x7d), (0x7925, 0xf4, 0x79), (0x7926, 0xc4, 0x71),
  (0x7927, 0xf4, 0x7b), (0x7928, 0xf4, 0x7c), (0x7929, 0xf4, 0x7e), (0x792a, 0xc4, 0x72),
  (0x792b, 0xc4, 0x74), (0x792c, 0xc4, 0x73), (0x792d, 0xf5, 0xe1), (0x792e, 0xfe, 0xe5),
  (0x792f, 0xf5, 0xe3), (0x7931, 0xf5, 0xe2), (0x7932, 0x98, 0xfd), (0x7933, 0x98, 0xfb),
  (0x7934, 0xfe, 0xe8), (0x7935, 0xf6, 0xf6), (0x7936, 0x8e, 0xbf), (0x7938, 0xf8, 0xb5),
  (0x7939, 0xf8, 0xfa), (0x793a, 0xa5, 0xdc), (0x793b, 0x8b, 0xd8), (0x793c, 0xfe, 0xf7),
  (0x793d, 0xcb, 0x72), (0x793e, 0xaa, 0xc0), (0x793f, 0xcd, 0xa3), (0x7940, 0xaa, 0xc1),
  (0x7941, 0xaa, 0xc2), (0x7942, 0xcd, 0xa2), (0x7944, 0xcf, 0xf8), (0x7945, 0xcf, 0xf7),
  (0x7946, 0xac, 0xe6), (0x7947, 0xac, 0xe9), (0x7948, 0xac, 0xe8), (0x7949, 0xac, 0xe7),
  (0x794a, 0xcf, 0xf4), (0x794b, 0xcf, 0xf6), (0x794c, 0xcf, 0xf5), (0x794f, 0xd2, 0xe8),
  (0x7950, 0xaf, 0xa7), (0x7951, 0xd2, 0xec), (0x7952, 0xd2, 0xeb), (0x7953, 0xd2, 0xea),
  (0x7954, 0xd2, 0xe6), (0x7955, 0xaf, 0xa6), (0x7956, 0xaf, 0xaa), (0x7957, 0xaf, 0xad),
  (0x7958, 0x8f, 0x68), (0x7959, 0x94, 0xc6), (0x795a, 0xaf, 0xae), (0x795b, 0xd2, 0xe7),
  (0x795c, 0xd2, 0xe9), (0x795d, 0xaf, 0xac), (0x795e, 0xaf, 0xab), (0x795f, 0xaf, 0xa9),
  (0x7960, 0xaf, 0xa8), (0x7961, 0xd6, 0xc2), (0x7962, 0x9d, 0xea), (0x7963, 0xd6, 0xc0),
  (0x7964, 0xd6, 0xbc), (0x7965, 0xb2, 0xbb), (0x7967, 0xd6, 0xbd), (0x7968, 0xb2, 0xbc),
  (0x7969, 0xd6, 0xbe), (0x796a, 0xd6, 0xbf), (0x796b, 0xd6, 0xc1), (0x796d, 0xb2, 0xbd),
  (0x7970, 0xda, 0xd5), (0x7971, 0xfc, 0x69), (0x7972, 0xda, 0xd4), (0x7973, 0xda, 0xd3),
  (0x7974, 0xda, 0xd2), (0x7979, 0xde, 0xf6), (0x797a, 0xb8, 0x52), (0x797c, 0xde, 0xf3),
  (0x797d, 0xde, 0xf5), (0x797e, 0x9c, 0xda), (0x797f, 0xb8, 0x53), (0x7980, 0xfe, 0xf3),
  (0x7981, 0xb8, 0x54), (0x7982, 0xde, 0xf4), (0x7983, 0x9c, 0x72), (0x7986, 0xfe, 0xf0)]

/-- `ENCODE_TABLE[9728..9856]`, (code point, byte 0, byte 1).  src/generated/whatwg/big5_whatwg_tables.rs.inc:5723-5766 -/
def encRow76 : List (Nat × Nat × Nat) := [
  (0x7987, 0x89, 0xc9), (0x7988, 0xe3, 0x41), (0x798a, 0xe2, 0xf9), (0x798b, 0xe2, 0xfa),
  (0x798d, 0xba, 0xd7), (0x798e, 0xba, 0xd5), (0x798f, 0xba, 0xd6), (0x7990, 0xe3, 0x43),
  (0x7991, 0x99, 0x41), (0x7992, 0xe3, 0x42), (0x7993, 0xe2, 0xfe), (0x7994, 0xe2, 0xfd),
  (0x7995, 0xe2, 0xfc), (0x7996, 0xe2, 0xfb), (0x7997, 0xe3, 0x40), (0x7998, 0xe2, 0xf8),
  (0x7999, 0x99, 0x42), (0x799a, 0xe6, 0xcb), (0x799b, 0x94, 0xca), (0x799c, 0xe6, 0xce),
  (0x799d, 0xfe, 0xf5), (0x799f, 0x91, 0xd7), (0x79a0, 0xe6, 0xcd), (0x79a1, 0xe6, 0xcc),
  (0x79a2, 0xe6, 0xcf), (0x79a4, 0xea, 0xae), (0x79a5, 0x94, 0xcc), (0x79a6, 0xbf, 0x6d),
  (0x79a7, 0xc1, 0x48), (0x79a8, 0xed, 0xb0), (0x79a9, 0xfe, 0xf8), (0x79aa, 0xc1, 0x49),
  (0x79ab, 0xed, 0xaf), (0x79ac, 0xf0, 0x5f), (0x79ad, 0xf0, 0x5e), (0x79ae, 0xc2, 0xa7),
  (0x79b0, 0xf2, 0xa5), (0x79b1, 0xc3, 0xab), (0x79b2, 0xf4, 0xa1), (0x79b3, 0xc5, 0xa1),
  (0x79b4, 0xf6, 0xf7), (0x79b6, 0xf8, 0xb7), (0x79b7, 0xf8, 0xb6), (0x79b8, 0xc9, 0xa8),
  (0x79b9, 0xac, 0xea), (0x79ba, 0xac, 0xeb), (0x79bb, 0xd6, 0xc3), (0x79bd, 0xb8, 0x56),
  (0x79be, 0xa5, 0xdd), (0x79bf, 0xa8, 0x72), (0x79c0, 0xa8, 0x71), (0x79c1, 0xa8, 0x70),
  (0x79c4, 0x97, 0xa8), (0x79c5, 0xcd, 0xa4), (0x79c6, 0xfe, 0xfc), (0x79c8, 0xaa, 0xc4),
  (0x79c9, 0xaa, 0xc3), (0x79ca, 0x8c, 0xde), (0x79cb, 0xac, 0xee), (0x79cc, 0xfd, 0xbf),
  (0x79cd, 0xcf, 0xfa), (0x79ce, 0xcf, 0xfd), (0x79cf, 0xcf, 0xfb), (0x79d0, 0x87, 0xb3),
  (0x79d1, 0xac, 0xec), (0x79d2, 0xac, 0xed), (0x79d4, 0xfe, 0xfe), (0x79d5, 0xcf, 0xf9),
  (0x79d6, 0xcf, 0xfc), (0x79d8, 0xaf, 0xb5), (0x79dc, 0xd2, 0xf3), (0x79dd, 0xd2, 0xf5),
  (0x79de, 0xd2, 0xf4), (0x79df, 0xaf, 0xb2), (0x79e0, 0xd2, 0xef), (0x79e2, 0x96, 0xd1),
  (0x79e3, 0x9c, 0xbd), (0x79e4, 0xaf, 0xaf), (0x79e6, 0xaf, 0xb3), (0x79e7, 0xaf, 0xb1),
  (0x79e9, 0xaf, 0xb4), (0x79ea, 0xd2, 0xf2), (0x79eb, 0xd2, 0xed), (0x79ec, 0xd2, 0xee),
  (0x79ed, 0xd2, 0xf1), (0x79ee, 0xd2, 0xf0), (0x79f1, 0x94, 0xd5), (0x79f4, 0x94, 0xd0),
  (0x79f6, 0xd6, 0xc6), (0x79f7, 0xd6, 0xc7), (0x79f8, 0xd6, 0xc5), (0x79fa, 0xd6, 0xc4),
  (0x79fb, 0xb2, 0xbe), (0x7a00, 0xb5, 0x7d), (0x7a02, 0xda, 0xd6), (0x7a03, 0xda, 0xd8),
  (0x7a04, 0xda, 0xda), (0x7a05, 0xb5, 0x7c), (0x7a06, 0x99, 0x44), (0x7a08, 0xb5, 0x7a),
  (0x7a0a, 0xda, 0xd7), (0x7a0b, 0xb5, 0x7b), (0x7a0c, 0xda, 0xd9), (0x7a0d, 0xb5, 0x79),
  (0x7a10, 0xdf, 0x41), (0x7a11, 0xde, 0xf7), (0x7a12, 0xde, 0xfa), (0x7a13, 0xde, 0xfe),
  (0x7a14, 0xb8, 0x5a), (0x7a15, 0xde, 0xfc), (0x7a17, 0xde, 0xfb), (0x7a18, 0xde, 0xf8),
  (0x7a19, 0xde, 0xf9), (0x7a1a, 0xb8, 0x58), (0x7a1b, 0xdf, 0x40), (0x7a1c, 0xb8, 0x57),
  (0x7a1e, 0xb8, 0x5c), (0x7a1f, 0xb8, 0x5b), (0x7a20, 0xb8, 0x59), (0x7a22, 0xde, 0xfd),
  (0x7a26, 0xe3, 0x49), (0x7a28, 0xe3, 0x48), (0x7a2a, 0x8c, 0x63), (0x7a2b, 0xe3, 0x44),
  (0x7a2c, 0x87, 0xbb), (0x7a2d, 0xa0, 0xb3), (0x7a2e, 0xba, 0xd8), (0x7a2f, 0xe3, 0x47)]

/-- `ENCODE_TABLE[9856..9984]`, (code point, byte 0, byte 1).  src/generated/whatwg/big5_whatwg_tables.rs.inc:5766-5808 -/
def encRow77 : List (Nat × Nat × Nat) := [
  (0x7a30, 0xe3, 0x46), (0x7a31, 0xba, 0xd9), (0x7a32, 0x87, 0xb4), (0x7a37, 0xbd, 0x5e),
  (0x7a39, 0xe6, 0xd2), (0x7a3a, 0x94, 0xcf), (0x7a3b, 0xbd, 0x5f), (0x7a3c, 0xbd, 0x5b),
  (0x7a3d, 0xbd, 0x5d), (0x7a3e, 0x9f, 0xfa), (0x7a3f, 0xbd, 0x5a), (0x7a40, 0xbd, 0x5c),
  (0x7a43, 0x91, 0xe5), (0x7a44, 0xea, 0xaf), (0x7a45, 0x9c, 0x6a), (0x7a46, 0xbf, 0x70),
  (0x7a47, 0xea, 0xb1), (0x7a48, 0xea, 0xb0), (0x7a49, 0x8e, 0x49), (0x7a4a, 0xe3, 0x45),
  (0x7a4b, 0xbf, 0x72), (0x7a4c, 0xbf, 0x71), (0x7a4d, 0xbf, 0x6e), (0x7a4e, 0xbf, 0x6f),
  (0x7a54, 0xed, 0xb5), (0x7a56, 0xed, 0xb3), (0x7a57, 0xc1, 0x4a), (0x7a58, 0xed, 0xb4),
  (0x7a5a, 0xed, 0xb6), (0x7a5b, 0xed, 0xb2), (0x7a5c, 0xed, 0xb1), (0x7a5f, 0xf0, 0x60),
  (0x7a60, 0xc2, 0xaa), (0x7a61, 0xc2, 0xa8), (0x7a62, 0xc2, 0xa9), (0x7a65, 0x8e, 0x4c),
  (0x7a67, 0xf2, 0xa6), (0x7a68, 0xf2, 0xa7), (0x7a69, 0xc3, 0xad), (0x7a6b, 0xc3, 0xac),
  (0x7a6c, 0xf4, 0xa3), (0x7a6d, 0xf4, 0xa4), (0x7a6e, 0xf4, 0xa2), (0x7a70, 0xf6, 0xf8),
  (0x7a71, 0xf6, 0xf9), (0x7a72, 0x87, 0xc9), (0x7a74, 0xa5, 0xde), (0x7a75, 0xca, 0x48),
  (0x7a76, 0xa8, 0x73), (0x7a78, 0xcd, 0xa5), (0x7a79, 0xaa, 0xc6), (0x7a7a, 0xaa, 0xc5),
  (0x7a7b, 0xcd, 0xa6), (0x7a7d, 0x8e, 0x4d), (0x7a7e, 0xd0, 0x40), (0x7a7f, 0xac, 0xef),
  (0x7a80, 0xcf, 0xfe), (0x7a81, 0xac, 0xf0), (0x7a83, 0x9a, 0x73), (0x7a84, 0xaf, 0xb6),
  (0x7a85, 0xd2, 0xf8), (0x7a86, 0xd2, 0xf6), (0x7a87, 0xd2, 0xfc), (0x7a88, 0xaf, 0xb7),
  (0x7a89, 0xd2, 0xf7), (0x7a8a, 0xd2, 0xfb), (0x7a8b, 0xd2, 0xf9), (0x7a8c, 0xd2, 0xfa),
  (0x7a8f, 0xd6, 0xc8), (0x7a90, 0xd6, 0xca), (0x7a91, 0x99, 0x47), (0x7a92, 0xb2, 0xbf),
  (0x7a93, 0x8c, 0xb1), (0x7a94, 0xd6, 0xc9), (0x7a95, 0xb2, 0xc0), (0x7a96, 0xb5, 0xa2),
  (0x7a97, 0xb5, 0xa1), (0x7a98, 0xb5, 0x7e), (0x7a99, 0xda, 0xdb), (0x7a9e, 0xdf, 0x44),
  (0x7a9f, 0xb8, 0x5d), (0x7aa0, 0xb8, 0x5e), (0x7aa2, 0xdf, 0x43), (0x7aa3, 0xdf, 0x42),
  (0x7aa8, 0xe3, 0x4a), (0x7aa9, 0xba, 0xdb), (0x7aaa, 0xba, 0xda), (0x7aab, 0xe3, 0x4b),
  (0x7aac, 0xe3, 0x4c), (0x7aae, 0xbd, 0x61), (0x7aaf, 0xbd, 0x60), (0x7ab0, 0x8e, 0x50),
  (0x7ab1, 0xea, 0xb5), (0x7ab2, 0xe6, 0xd3), (0x7ab3, 0xe6, 0xd5), (0x7ab4, 0xe6, 0xd4),
  (0x7ab5, 0xea, 0xb4), (0x7ab6, 0xea, 0xb2), (0x7ab7, 0xea, 0xb6), (0x7ab8, 0xea, 0xb3),
  (0x7aba, 0xbf, 0x73), (0x7abb, 0x8e, 0x4f), (0x7abc, 0x99, 0x49), (0x7abe, 0xed, 0xb7),
  (0x7abf, 0xc1, 0x4b), (0x7ac0, 0xed, 0xb8), (0x7ac1, 0xed, 0xb9), (0x7ac2, 0x8e, 0x51),
  (0x7ac3, 0x8e, 0x52), (0x7ac4, 0xc2, 0xab), (0x7ac5, 0xc2, 0xac), (0x7ac7, 0xc4, 0x75),
  (0x7ac8, 0x9a, 0xb2), (0x7ac9, 0x89, 0xa5), (0x7aca, 0xc5, 0xd1), (0x7acb, 0xa5, 0xdf),
  (0x7acf, 0x99, 0x4c), (0x7ad1, 0xd0, 0x41), (0x7ad3, 0x9f, 0xf8), (0x7ad8, 0xd2, 0xfd),
  (0x7ad9, 0xaf, 0xb8), (0x7ada, 0x8e, 0x56), (0x7adb, 0x99, 0x4d), (0x7adc, 0x91, 0xca),
  (0x7add, 0x8e, 0x57), (0x7adf, 0xb3, 0xba), (0x7ae0, 0xb3, 0xb9), (0x7ae2, 0x94, 0xe1)]

/-- `ENCODE_TABLE[9984..10112]`, (code point, byte 0, byte 1).  src/generated/whatwg/big5_whatwg_tables.rs.inc:5809-5851 -/
def encRow78 : List (Nat × Nat × Nat) := [
  (0x7ae3, 0xb5, 0xa4), (0x7ae4, 0xda, 0xdd), (0x7ae5, 0xb5, 0xa3), (0x7ae6, 0xda, 0xdc),
  (0x7ae7, 0x90, 0x47), (0x7ae9, 0x8f, 0xd8), (0x7aea, 0x8e, 0x58), (0x7aeb, 0xdf, 0x45),
  (0x7aed, 0xba, 0xdc), (0x7aee, 0xe3, 0x4d), (0x7aef, 0xba, 0xdd), (0x7af6, 0xc4, 0x76),
  (0x7af7, 0xf4, 0xa5), (0x7af9, 0xa6, 0xcb), (0x7afa, 0xaa, 0xc7), (0x7afb, 0xcd, 0xa7),
  (0x7afc, 0x87, 0xa3), (0x7afd, 0xac, 0xf2), (0x7afe, 0x94, 0xeb), (0x7aff, 0xac, 0xf1),
  (0x7b00, 0xd0, 0x42), (0x7b01, 0xd0, 0x43), (0x7b04, 0xd3, 0x40), (0x7b05, 0xd3, 0x42),
  (0x7b06, 0xaf, 0xb9), (0x7b08, 0xd3, 0x44), (0x7b09, 0xd3, 0x47), (0x7b0a, 0xd3, 0x45),
  (0x7b0b, 0x8e, 0x5c), (0x7b0c, 0x95, 0x53), (0x7b0e, 0xd3, 0x46), (0x7b0f, 0xd3, 0x43),
  (0x7b10, 0xd2, 0xfe), (0x7b11, 0xaf, 0xba), (0x7b12, 0xd3, 0x48), (0x7b13, 0xd3, 0x41),
  (0x7b14, 0x9f, 0xe5), (0x7b18, 0xd6, 0xd3), (0x7b19, 0xb2, 0xc6), (0x7b1a, 0xd6, 0xdc),
  (0x7b1b, 0xb2, 0xc3), (0x7b1d, 0xd6, 0xd5), (0x7b1e, 0xb2, 0xc7), (0x7b1f, 0x9f, 0x56),
  (0x7b20, 0xb2, 0xc1), (0x7b22, 0xd6, 0xd0), (0x7b23, 0xd6, 0xdd), (0x7b24, 0xd6, 0xd1),
  (0x7b25, 0xd6, 0xce), (0x7b26, 0xb2, 0xc5), (0x7b27, 0x95, 0x4f), (0x7b28, 0xb2, 0xc2),
  (0x7b29, 0x8e, 0x5e), (0x7b2a, 0xd6, 0xd4), (0x7b2b, 0xd6, 0xd7), (0x7b2c, 0xb2, 0xc4),
  (0x7b2d, 0xd6, 0xd8), (0x7b2e, 0xb2, 0xc8), (0x7b2f, 0xd6, 0xd9), (0x7b30, 0xd6, 0xcf),
  (0x7b31, 0xd6, 0xd6), (0x7b32, 0xd6, 0xda), (0x7b33, 0xd6, 0xd2), (0x7b34, 0xd6, 0xcd),
  (0x7b35, 0xd6, 0xcb), (0x7b38, 0xd6, 0xdb), (0x7b39, 0x99, 0x6a), (0x7b3b, 0xda, 0xdf),
  (0x7b40, 0xda, 0xe4), (0x7b42, 0x9c, 0x64), (0x7b43, 0x9c, 0xd9), (0x7b44, 0xda, 0xe0),
  (0x7b45, 0xda, 0xe6), (0x7b46, 0xb5, 0xa7), (0x7b47, 0xd6, 0xcc), (0x7b48, 0xda, 0xe1),
  (0x7b49, 0xb5, 0xa5), (0x7b4a, 0xda, 0xde), (0x7b4b, 0xb5, 0xac), (0x7b4c, 0xda, 0xe2),
  (0x7b4d, 0xb5, 0xab), (0x7b4e, 0xda, 0xe3), (0x7b4f, 0xb5, 0xad), (0x7b50, 0xb5, 0xa8),
  (0x7b51, 0x9d, 0x5a), (0x7b52, 0xb5, 0xa9), (0x7b54, 0xb5, 0xaa), (0x7b55, 0x8e, 0x5d),
  (0x7b56, 0xb5, 0xa6), (0x7b58, 0xda, 0xe5), (0x7b60, 0xb8, 0x61), (0x7b61, 0xdf, 0x50),
  (0x7b62, 0x99, 0x50), (0x7b63, 0xdf, 0x53), (0x7b64, 0xdf, 0x47), (0x7b65, 0xdf, 0x4c),
  (0x7b66, 0xdf, 0x46), (0x7b67, 0xb8, 0x63), (0x7b69, 0xdf, 0x4a), (0x7b6c, 0x99, 0x51),
  (0x7b6d, 0xdf, 0x48), (0x7b6e, 0xb8, 0x62), (0x7b6f, 0x8e, 0x62), (0x7b70, 0xdf, 0x4f),
  (0x7b71, 0xdf, 0x4e), (0x7b72, 0xdf, 0x4b), (0x7b73, 0xdf, 0x4d), (0x7b74, 0xdf, 0x49),
  (0x7b75, 0xba, 0xe1), (0x7b76, 0xdf, 0x52), (0x7b77, 0xb8, 0x5f), (0x7b78, 0xdf, 0x51),
  (0x7b7b, 0x99, 0x52), (0x7b82, 0xe3, 0x5d), (0x7b84, 0xba, 0xe8), (0x7b85, 0xe3, 0x58),
  (0x7b87, 0xba, 0xe7), (0x7b88, 0xe3, 0x4e), (0x7b8a, 0xe3, 0x50), (0x7b8b, 0xba, 0xe0),
  (0x7b8c, 0xe3, 0x55), (0x7b8d, 0xe3, 0x54), (0x7b8e, 0xe3, 0x57), (0x7b8f, 0xba, 0xe5),
  (0x7b90, 0xe3, 0x52), (0x7b91, 0xe3, 0x51), (0x7b92, 0x8e, 0x68), (0x7b94, 0xba, 0xe4)]

/-- `ENCODE_TABLE[10112..10240]`, (code point, byte 0, byte 1).  src/generated/whatwg/big5_whatwg_tables.rs.inc:5851-5894 -/
def encRow79 : List (Nat × Nat × Nat) := [
  (0x7b95, 0xba, 0xdf), (0x7b96, 0xe3, 0x53), (0x7b97, 0xba, 0xe2), (0x7b98, 0xe3, 0x59),
  (0x7b99, 0xe3, 0x5b), (0x7b9b, 0xe3, 0x56), (0x7b9c, 0xe3, 0x4f), (0x7b9d, 0xba, 0xe3),
  (0x7ba0, 0xbd, 0x69), (0x7ba1, 0xba, 0xde), (0x7ba2, 0x8e, 0x61), (0x7ba3, 0x9f, 0x59),
  (0x7ba4, 0xe3, 0x5c), (0x7bac, 0xe6, 0xd9), (0x7bad, 0xbd, 0x62), (0x7bae, 0x87, 0xd0),
  (0x7baf, 0xe6, 0xdb), (0x7bb1, 0xbd, 0x63), (0x7bb2, 0x8b, 0xb3), (0x7bb4, 0xbd, 0x65),
  (0x7bb5, 0xe6, 0xde), (0x7bb7, 0xe6, 0xd6), (0x7bb8, 0x8e, 0x69), (0x7bb9, 0xe6, 0xdc),
  (0x7bbe, 0xe6, 0xd8), (0x7bc0, 0xb8, 0x60), (0x7bc1, 0xbd, 0x68), (0x7bc4, 0xbd, 0x64),
  (0x7bc5, 0x87, 0xb9), (0x7bc6, 0xbd, 0x66), (0x7bc7, 0xbd, 0x67), (0x7bc9, 0xbf, 0x76),
  (0x7bca, 0xe6, 0xdd), (0x7bcb, 0xe6, 0xd7), (0x7bcc, 0xbd, 0x6a), (0x7bce, 0xe6, 0xda),
  (0x7bcf, 0x9f, 0x5d), (0x7bd0, 0x8e, 0x66), (0x7bd4, 0xea, 0xc0), (0x7bd5, 0xea, 0xbb),
  (0x7bd8, 0xea, 0xc5), (0x7bd9, 0xbf, 0x74), (0x7bda, 0xea, 0xbd), (0x7bdb, 0xbf, 0x78),
  (0x7bdc, 0xea, 0xc3), (0x7bdd, 0xea, 0xba), (0x7bde, 0xea, 0xb7), (0x7bdf, 0xea, 0xc6),
  (0x7be0, 0xc1, 0x51), (0x7be1, 0xbf, 0x79), (0x7be2, 0xea, 0xc2), (0x7be3, 0xea, 0xb8),
  (0x7be4, 0xbf, 0x77), (0x7be5, 0xea, 0xbc), (0x7be6, 0xbf, 0x7b), (0x7be7, 0xea, 0xb9),
  (0x7be8, 0xea, 0xbe), (0x7be9, 0xbf, 0x7a), (0x7bea, 0xea, 0xc1), (0x7beb, 0xea, 0xc4),
  (0x7bec, 0x8c, 0xb2), (0x7bf0, 0xed, 0xcb), (0x7bf1, 0xed, 0xcc), (0x7bf2, 0xed, 0xbc),
  (0x7bf3, 0xed, 0xc3), (0x7bf4, 0xed, 0xc1), (0x7bf7, 0xc1, 0x4f), (0x7bf8, 0xed, 0xc8),
  (0x7bf9, 0xea, 0xbf), (0x7bfa, 0x8e, 0x6e), (0x7bfb, 0xed, 0xbf), (0x7bfc, 0x9f, 0x64),
  (0x7bfd, 0xed, 0xc9), (0x7bfe, 0xc1, 0x4e), (0x7bff, 0xed, 0xbe), (0x7c00, 0xed, 0xbd),
  (0x7c01, 0xed, 0xc7), (0x7c02, 0xed, 0xc4), (0x7c03, 0xed, 0xc6), (0x7c05, 0xed, 0xba),
  (0x7c06, 0x8e, 0x6f), (0x7c07, 0xc1, 0x4c), (0x7c09, 0xed, 0xc5), (0x7c0a, 0xed, 0xce),
  (0x7c0b, 0xed, 0xc2), (0x7c0c, 0xc1, 0x50), (0x7c0d, 0xc1, 0x4d), (0x7c0e, 0xed, 0xc0),
  (0x7c0f, 0xed, 0xbb), (0x7c10, 0xed, 0xcd), (0x7c11, 0xbf, 0x75), (0x7c12, 0x99, 0x53),
  (0x7c15, 0xfa, 0xb8), (0x7c19, 0xf0, 0x63), (0x7c1b, 0x99, 0x54), (0x7c1c, 0xf0, 0x61),
  (0x7c1d, 0xf0, 0x67), (0x7c1e, 0xc2, 0xb0), (0x7c1f, 0xf0, 0x65), (0x7c20, 0xf0, 0x64),
  (0x7c21, 0xc2, 0xb2), (0x7c22, 0xf0, 0x6a), (0x7c23, 0xc2, 0xb1), (0x7c25, 0xf0, 0x6b),
  (0x7c26, 0xf0, 0x68), (0x7c27, 0xc2, 0xae), (0x7c28, 0xf0, 0x69), (0x7c29, 0xf0, 0x62),
  (0x7c2a, 0xc2, 0xaf), (0x7c2b, 0xc2, 0xad), (0x7c2c, 0xf2, 0xab), (0x7c2d, 0xf0, 0x66),
  (0x7c30, 0xf0, 0x6c), (0x7c33, 0xf2, 0xa8), (0x7c35, 0x8e, 0x70), (0x7c37, 0xc3, 0xb2),
  (0x7c38, 0xc3, 0xb0), (0x7c39, 0xf2, 0xaa), (0x7c3b, 0xf2, 0xac), (0x7c3c, 0xf2, 0xa9),
  (0x7c3d, 0xc3, 0xb1), (0x7c3e, 0xc3, 0xae), (0x7c3f, 0xc3, 0xaf), (0x7c40, 0xc3, 0xb3),
  (0x7c42, 0x9f, 0x61), (0x7c43, 0xc4, 0x78), (0x7c44, 0x8e, 0x72), (0x7c45, 0xf4, 0xaa)]

/-- `ENCODE_TABLE[10240..10368]`, (code point, byte 0, byte 1).  src/generated/whatwg/big5_whatwg_tables.rs.inc:5894-5936 -/
def encRow80 : List (Nat × Nat × Nat) := [
  (0x7c47, 0xf4, 0xa9), (0x7c48, 0xf4, 0xa7), (0x7c49, 0xf4, 0xa6), (0x7c4a, 0xf4, 0xa8),
  (0x7c4c, 0xc4, 0x77), (0x7c4d, 0xc4, 0x79), (0x7c50, 0xc4, 0xf0), (0x7c51, 0xa0, 0x6b),
  (0x7c53, 0xf5, 0xe5), (0x7c54, 0xf5, 0xe4), (0x7c56, 0x9f, 0x40), (0x7c57, 0xf6, 0xfa),
  (0x7c59, 0xf6, 0xfc), (0x7c5a, 0xf6, 0xfe), (0x7c5b, 0xf6, 0xfd), (0x7c5c, 0xf6, 0xfb),
  (0x7c5d, 0x94, 0xed), (0x7c5f, 0xc5, 0xa3), (0x7c60, 0xc5, 0xa2), (0x7c63, 0xc5, 0xd3),
  (0x7c64, 0xc5, 0xd2), (0x7c65, 0xc5, 0xd4), (0x7c66, 0xf7, 0xed), (0x7c67, 0xf7, 0xec),
  (0x7c69, 0xf8, 0xfb), (0x7c6a, 0xf8, 0xb8), (0x7c6b, 0xf8, 0xfc), (0x7c6c, 0xc6, 0x58),
  (0x7c6d, 0x94, 0xee), (0x7c6e, 0xc6, 0x59), (0x7c6f, 0xf9, 0x6d), (0x7c70, 0x9f, 0xbd),
  (0x7c72, 0xc6, 0x7e), (0x7c73, 0xa6, 0xcc), (0x7c74, 0x8e, 0x7b), (0x7c75, 0xcd, 0xa8),
  (0x7c78, 0xd0, 0x45), (0x7c79, 0xd0, 0x46), (0x7c7a, 0xd0, 0x44), (0x7c7b, 0x99, 0x57),
  (0x7c7c, 0x94, 0xf7), (0x7c7d, 0xac, 0xf3), (0x7c7e, 0x9f, 0x5f), (0x7c7f, 0xd0, 0x47),
  (0x7c80, 0xd0, 0x48), (0x7c81, 0xd0, 0x49), (0x7c83, 0x8e, 0x73), (0x7c84, 0xd3, 0x49),
  (0x7c85, 0xd3, 0x4f), (0x7c86, 0x9f, 0x62), (0x7c88, 0xd3, 0x4d), (0x7c89, 0xaf, 0xbb),
  (0x7c8a, 0xd3, 0x4b), (0x7c8c, 0xd3, 0x4c), (0x7c8d, 0xd3, 0x4e), (0x7c8e, 0x94, 0xf6),
  (0x7c91, 0xd3, 0x4a), (0x7c92, 0xb2, 0xc9), (0x7c94, 0xd6, 0xde), (0x7c95, 0xb2, 0xcb),
  (0x7c96, 0xd6, 0xe0), (0x7c97, 0xb2, 0xca), (0x7c98, 0xd6, 0xdf), (0x7c9c, 0x99, 0x58),
  (0x7c9e, 0xda, 0xe8), (0x7c9f, 0xb5, 0xaf), (0x7ca1, 0xda, 0xea), (0x7ca2, 0xda, 0xe7),
  (0x7ca3, 0xd6, 0xe1), (0x7ca5, 0xb5, 0xb0), (0x7ca6, 0x8e, 0x75), (0x7ca7, 0xf9, 0xdb),
  (0x7ca8, 0xda, 0xe9), (0x7cac, 0x90, 0x72), (0x7cae, 0x94, 0xf8), (0x7caf, 0xdf, 0x56),
  (0x7cb1, 0xb8, 0x64), (0x7cb2, 0xdf, 0x54), (0x7cb3, 0xb8, 0x65), (0x7cb4, 0xdf, 0x55),
  (0x7cb5, 0xb8, 0x66), (0x7cb8, 0x99, 0x5a), (0x7cb9, 0xba, 0xe9), (0x7cba, 0xe3, 0x61),
  (0x7cbb, 0xe3, 0x5e), (0x7cbc, 0xe3, 0x60), (0x7cbd, 0xba, 0xea), (0x7cbe, 0xba, 0xeb),
  (0x7cbf, 0xe3, 0x5f), (0x7cc2, 0xa0, 0xb0), (0x7cc3, 0x8c, 0xb3), (0x7cc5, 0xe6, 0xdf),
  (0x7cc7, 0x8e, 0x79), (0x7cc8, 0xe6, 0xe0), (0x7cc9, 0x8e, 0x78), (0x7cca, 0xbd, 0x6b),
  (0x7ccb, 0xe6, 0xe2), (0x7ccc, 0xe6, 0xe1), (0x7ccd, 0x94, 0xf3), (0x7cce, 0x8e, 0x7e),
  (0x7cd0, 0xea, 0xca), (0x7cd1, 0xea, 0xcb), (0x7cd2, 0xea, 0xc7), (0x7cd3, 0x98, 0xaf),
  (0x7cd4, 0xea, 0xc8), (0x7cd5, 0xbf, 0x7c), (0x7cd6, 0xbf, 0x7d), (0x7cd7, 0xea, 0xc9),
  (0x7cd9, 0xc1, 0x57), (0x7cda, 0xa0, 0xb2), (0x7cdc, 0xc1, 0x53), (0x7cdd, 0xc1, 0x58),
  (0x7cde, 0xc1, 0x54), (0x7cdf, 0xc1, 0x56), (0x7ce0, 0xc1, 0x52), (0x7ce2, 0xc1, 0x55),
  (0x7ce6, 0x8e, 0x7a), (0x7ce7, 0xc2, 0xb3), (0x7ce8, 0xed, 0xcf), (0x7cea, 0xf2, 0xae),
  (0x7cec, 0xf2, 0xad), (0x7ced, 0x99, 0x5c), (0x7cee, 0xf4, 0xab), (0x7cef, 0xc4, 0x7a),
  (0x7cf0, 0xc4, 0x7b), (0x7cf1, 0xf7, 0x41), (0x7cf2, 0xf5, 0xe6), (0x7cf3, 0x8e, 0x7c)]

/-- `ENCODE_TABLE[10368..10496]`, (code point, byte 0, byte 1).  src/generated/whatwg/big5_whatwg_tables.rs.inc:5937-5979 -/
def encRow81 : List (Nat × Nat × Nat) := [
  (0x7cf4, 0xf7, 0x40), (0x7cf5, 0x8e, 0x7d), (0x7cf6, 0xf8, 0xfd), (0x7cf7, 0xf9, 0xa4),
  (0x7cf8, 0xa6, 0xcd), (0x7cf9, 0x8b, 0xd9), (0x7cfb, 0xa8, 0x74), (0x7cfc, 0x89, 0xa2),
  (0x7cfd, 0xcd, 0xa9), (0x7cfe, 0xaa, 0xc8), (0x7d00, 0xac, 0xf6), (0x7d01, 0xd0, 0x4c),
  (0x7d02, 0xac, 0xf4), (0x7d03, 0xd0, 0x4a), (0x7d04, 0xac, 0xf9), (0x7d05, 0xac, 0xf5),
  (0x7d06, 0xac, 0xfa), (0x7d07, 0xac, 0xf8), (0x7d08, 0xd0, 0x4b), (0x7d09, 0xac, 0xf7),
  (0x7d0a, 0xaf, 0xbf), (0x7d0b, 0xaf, 0xbe), (0x7d0c, 0xd3, 0x5a), (0x7d0d, 0xaf, 0xc7),
  (0x7d0e, 0xd3, 0x53), (0x7d0f, 0xd3, 0x59), (0x7d10, 0xaf, 0xc3), (0x7d11, 0xd3, 0x52),
  (0x7d12, 0xd3, 0x58), (0x7d13, 0xd3, 0x56), (0x7d14, 0xaf, 0xc2), (0x7d15, 0xaf, 0xc4),
  (0x7d16, 0xd3, 0x55), (0x7d17, 0xaf, 0xbd), (0x7d18, 0xd3, 0x54), (0x7d19, 0xaf, 0xc8),
  (0x7d1a, 0xaf, 0xc5), (0x7d1b, 0xaf, 0xc9), (0x7d1c, 0xaf, 0xc6), (0x7d1d, 0xd3, 0x51),
  (0x7d1e, 0xd3, 0x50), (0x7d1f, 0xd3, 0x57), (0x7d20, 0xaf, 0xc0), (0x7d21, 0xaf, 0xbc),
  (0x7d22, 0xaf, 0xc1), (0x7d25, 0x9e, 0xd7), (0x7d28, 0xd6, 0xf0), (0x7d29, 0xd6, 0xe9),
  (0x7d2b, 0xb5, 0xb5), (0x7d2c, 0xd6, 0xe8), (0x7d2e, 0xb2, 0xcf), (0x7d2f, 0xb2, 0xd6),
  (0x7d30, 0xb2, 0xd3), (0x7d31, 0xb2, 0xd9), (0x7d32, 0xb2, 0xd8), (0x7d33, 0xb2, 0xd4),
  (0x7d35, 0xd6, 0xe2), (0x7d36, 0xd6, 0xe5), (0x7d38, 0xd6, 0xe4), (0x7d39, 0xb2, 0xd0),
  (0x7d3a, 0xd6, 0xe6), (0x7d3b, 0xd6, 0xef), (0x7d3c, 0xb2, 0xd1), (0x7d3d, 0xd6, 0xe3),
  (0x7d3e, 0xd6, 0xec), (0x7d3f, 0xd6, 0xed), (0x7d40, 0xb2, 0xd2), (0x7d41, 0xd6, 0xea),
  (0x7d42, 0xb2, 0xd7), (0x7d43, 0xb2, 0xcd), (0x7d44, 0xb2, 0xd5), (0x7d45, 0xd6, 0xe7),
  (0x7d46, 0xb2, 0xcc), (0x7d47, 0xd6, 0xeb), (0x7d4a, 0xd6, 0xee), (0x7d4d, 0xa0, 0xb6),
  (0x7d4e, 0xda, 0xfb), (0x7d4f, 0xda, 0xf2), (0x7d50, 0xb5, 0xb2), (0x7d51, 0xda, 0xf9),
  (0x7d52, 0xda, 0xf6), (0x7d53, 0xda, 0xee), (0x7d54, 0xda, 0xf7), (0x7d55, 0xb5, 0xb4),
  (0x7d56, 0xda, 0xef), (0x7d58, 0xda, 0xeb), (0x7d5a, 0x9e, 0x42), (0x7d5b, 0xb8, 0x6c),
  (0x7d5c, 0xda, 0xf4), (0x7d5d, 0x8e, 0xa4), (0x7d5e, 0xb5, 0xb1), (0x7d5f, 0xda, 0xfa),
  (0x7d61, 0xb5, 0xb8), (0x7d62, 0xb5, 0xba), (0x7d63, 0xda, 0xed), (0x7d66, 0xb5, 0xb9),
  (0x7d67, 0xda, 0xf0), (0x7d68, 0xb5, 0xb3), (0x7d69, 0xda, 0xf8), (0x7d6a, 0xda, 0xf1),
  (0x7d6b, 0xda, 0xf5), (0x7d6d, 0xda, 0xf3), (0x7d6e, 0xb5, 0xb6), (0x7d6f, 0xda, 0xec),
  (0x7d70, 0xb5, 0xbb), (0x7d71, 0xb2, 0xce), (0x7d72, 0xb5, 0xb7), (0x7d73, 0xb5, 0xbc),
  (0x7d79, 0xb8, 0x68), (0x7d7a, 0xdf, 0x5d), (0x7d7b, 0xdf, 0x5f), (0x7d7c, 0xdf, 0x61),
  (0x7d7d, 0xdf, 0x65), (0x7d7f, 0xdf, 0x5b), (0x7d80, 0xdf, 0x59), (0x7d81, 0xb8, 0x6a),
  (0x7d83, 0xdf, 0x60), (0x7d84, 0xdf, 0x64), (0x7d85, 0xdf, 0x5c), (0x7d86, 0xdf, 0x58),
  (0x7d88, 0xdf, 0x57), (0x7d89, 0x8e, 0xa7), (0x7d8b, 0x8c, 0x76), (0x7d8c, 0xdf, 0x62),
  (0x7d8d, 0xdf, 0x5a), (0x7d8e, 0xdf, 0x5e), (0x7d8f, 0xb8, 0x6b), (0x7d91, 0xb8, 0x69)]

/-- `ENCODE_TABLE[10496..10624]`, (code point, byte 0, byte 1).  src/generated/whatwg/big5_whatwg_tables.rs.inc:5979-6022 -/
def encRow82 : List (Nat × Nat × Nat) := [
  (0x7d92, 0xdf, 0x66), (0x7d93, 0xb8, 0x67), (0x7d94, 0xdf, 0x63), (0x7d95, 0x87, 0x67),
  (0x7d96, 0xe3, 0x72), (0x7d97, 0x95, 0x42), (0x7d9c, 0xba, 0xee), (0x7d9d, 0xe3, 0x6a),
  (0x7d9e, 0xbd, 0x78), (0x7d9f, 0xe3, 0x74), (0x7da0, 0xba, 0xf1), (0x7da1, 0xe3, 0x78),
  (0x7da2, 0xba, 0xf7), (0x7da3, 0xe3, 0x65), (0x7da4, 0x98, 0x7d), (0x7da6, 0xe3, 0x75),
  (0x7da7, 0xe3, 0x62), (0x7da8, 0x97, 0x55), (0x7da9, 0xe3, 0x77), (0x7daa, 0xe3, 0x66),
  (0x7dab, 0x8e, 0xa8), (0x7dac, 0xba, 0xfe), (0x7dad, 0xba, 0xfb), (0x7dae, 0xe3, 0x76),
  (0x7daf, 0xe3, 0x70), (0x7db0, 0xba, 0xed), (0x7db1, 0xba, 0xf5), (0x7db2, 0xba, 0xf4),
  (0x7db3, 0x8e, 0xaa), (0x7db4, 0xba, 0xf3), (0x7db5, 0xba, 0xf9), (0x7db7, 0xe3, 0x63),
  (0x7db8, 0xba, 0xfa), (0x7db9, 0xe3, 0x71), (0x7dba, 0xba, 0xf6), (0x7dbb, 0xba, 0xec),
  (0x7dbc, 0xe3, 0x73), (0x7dbd, 0xba, 0xef), (0x7dbe, 0xba, 0xf0), (0x7dbf, 0xba, 0xf8),
  (0x7dc0, 0xe3, 0x68), (0x7dc1, 0xe3, 0x67), (0x7dc2, 0xe3, 0x64), (0x7dc4, 0xe3, 0x6c),
  (0x7dc5, 0xe3, 0x69), (0x7dc6, 0xe3, 0x6d), (0x7dc7, 0xba, 0xfd), (0x7dc9, 0xe3, 0x79),
  (0x7dca, 0xba, 0xf2), (0x7dcb, 0xe3, 0x6e), (0x7dcc, 0xe3, 0x6f), (0x7dcd, 0x89, 0xa3),
  (0x7dce, 0xe3, 0x6b), (0x7dcf, 0x99, 0x60), (0x7dd0, 0x99, 0x62), (0x7dd2, 0x8e, 0xab),
  (0x7dd3, 0x94, 0xfc), (0x7dd4, 0x99, 0x61), (0x7dd7, 0xe6, 0xe7), (0x7dd8, 0xbd, 0x70),
  (0x7dd9, 0xbd, 0x79), (0x7dda, 0xbd, 0x75), (0x7ddb, 0xe6, 0xe4), (0x7ddc, 0x94, 0xfa),
  (0x7ddd, 0xbd, 0x72), (0x7dde, 0xbd, 0x76), (0x7ddf, 0xe6, 0xf0), (0x7de0, 0xbd, 0x6c),
  (0x7de1, 0xe6, 0xe8), (0x7de3, 0xbd, 0x74), (0x7de4, 0x8e, 0xae), (0x7de5, 0x8e, 0xb2),
  (0x7de6, 0xe6, 0xeb), (0x7de7, 0xe6, 0xe6), (0x7de8, 0xbd, 0x73), (0x7de9, 0xbd, 0x77),
  (0x7dea, 0xe6, 0xe5), (0x7dec, 0xbd, 0x71), (0x7dee, 0xe6, 0xef), (0x7def, 0xbd, 0x6e),
  (0x7df0, 0xe6, 0xee), (0x7df1, 0xe6, 0xed), (0x7df2, 0xbd, 0x7a), (0x7df3, 0xe5, 0x72),
  (0x7df4, 0xbd, 0x6d), (0x7df5, 0x8e, 0xb0), (0x7df6, 0xe6, 0xec), (0x7df7, 0xe6, 0xe3),
  (0x7df9, 0xbd, 0x7b), (0x7dfa, 0xe6, 0xea), (0x7dfb, 0xbd, 0x6f), (0x7dfd, 0x99, 0x63),
  (0x7dfe, 0x97, 0xaa), (0x7e03, 0xe6, 0xe9), (0x7e07, 0x94, 0xfb), (0x7e08, 0xbf, 0xa2),
  (0x7e09, 0xbf, 0xa7), (0x7e0a, 0xbf, 0x7e), (0x7e0b, 0xea, 0xd8), (0x7e0c, 0xea, 0xcf),
  (0x7e0d, 0xea, 0xdb), (0x7e0e, 0xea, 0xd3), (0x7e0f, 0xea, 0xd9), (0x7e10, 0xbf, 0xa8),
  (0x7e11, 0xbf, 0xa1), (0x7e12, 0xea, 0xcc), (0x7e13, 0xea, 0xd2), (0x7e14, 0xea, 0xdc),
  (0x7e15, 0xea, 0xd5), (0x7e16, 0xea, 0xda), (0x7e17, 0xea, 0xce), (0x7e1a, 0xea, 0xd6),
  (0x7e1b, 0xbf, 0xa3), (0x7e1c, 0xea, 0xd4), (0x7e1d, 0x8e, 0xb4), (0x7e1e, 0xbf, 0xa5),
  (0x7e1f, 0xea, 0xd0), (0x7e20, 0xea, 0xd1), (0x7e21, 0xea, 0xcd), (0x7e22, 0xea, 0xd7),
  (0x7e23, 0xbf, 0xa4), (0x7e24, 0xea, 0xde), (0x7e25, 0xea, 0xdd), (0x7e27, 0x8e, 0xbb),
  (0x7e29, 0xed, 0xda), (0x7e2a, 0xed, 0xd6), (0x7e2b, 0xc1, 0x5f), (0x7e2d, 0xed, 0xd0)]

/-- `ENCODE_TABLE[10624..10752]`, (code point, byte 0, byte 1).  src/generated/whatwg/big5_whatwg_tables.rs.inc:6022-6064 -/
def encRow83 : List (Nat × Nat × Nat) := [
  (0x7e2e, 0xc1, 0x59), (0x7e2f, 0xc1, 0x69), (0x7e30, 0xed, 0xdc), (0x7e31, 0xc1, 0x61),
  (0x7e32, 0xc1, 0x5d), (0x7e33, 0xed, 0xd3), (0x7e34, 0xc1, 0x64), (0x7e35, 0xc1, 0x67),
  (0x7e36, 0xed, 0xde), (0x7e37, 0xc1, 0x5c), (0x7e38, 0xed, 0xd5), (0x7e39, 0xc1, 0x65),
  (0x7e3a, 0xed, 0xe0), (0x7e3b, 0xed, 0xdd), (0x7e3c, 0xed, 0xd1), (0x7e3d, 0xc1, 0x60),
  (0x7e3e, 0xc1, 0x5a), (0x7e3f, 0xc1, 0x68), (0x7e40, 0xed, 0xd8), (0x7e41, 0xc1, 0x63),
  (0x7e42, 0xed, 0xd2), (0x7e43, 0xc1, 0x5e), (0x7e44, 0xed, 0xdf), (0x7e45, 0xc1, 0x62),
  (0x7e46, 0xc1, 0x5b), (0x7e47, 0xed, 0xd9), (0x7e48, 0xc1, 0x66), (0x7e49, 0xed, 0xd7),
  (0x7e4c, 0xed, 0xdb), (0x7e50, 0xf0, 0x6e), (0x7e51, 0xf0, 0x74), (0x7e52, 0xc2, 0xb9),
  (0x7e53, 0xf0, 0x77), (0x7e54, 0xc2, 0xb4), (0x7e55, 0xc2, 0xb5), (0x7e56, 0xf0, 0x6f),
  (0x7e57, 0xf0, 0x76), (0x7e58, 0xf0, 0x71), (0x7e59, 0xc2, 0xba), (0x7e5a, 0xc2, 0xb7),
  (0x7e5b, 0x8c, 0xdc), (0x7e5c, 0xf0, 0x6d), (0x7e5e, 0xc2, 0xb6), (0x7e5f, 0xf0, 0x73),
  (0x7e60, 0xf0, 0x75), (0x7e61, 0xc2, 0xb8), (0x7e62, 0xf0, 0x72), (0x7e63, 0xf0, 0x70),
  (0x7e65, 0x98, 0x76), (0x7e67, 0x8e, 0xa1), (0x7e68, 0xf2, 0xb8), (0x7e69, 0xc3, 0xb7),
  (0x7e6a, 0xc3, 0xb8), (0x7e6b, 0xc3, 0xb4), (0x7e6c, 0x8c, 0xb4), (0x7e6d, 0xc3, 0xb5),
  (0x7e6e, 0x8e, 0xb7), (0x7e6f, 0xf2, 0xb4), (0x7e70, 0xf2, 0xb2), (0x7e72, 0xf2, 0xb6),
  (0x7e73, 0xc3, 0xba), (0x7e74, 0xf2, 0xb7), (0x7e75, 0xf2, 0xb0), (0x7e76, 0xf2, 0xaf),
  (0x7e77, 0xf2, 0xb3), (0x7e78, 0xf2, 0xb1), (0x7e79, 0xc3, 0xb6), (0x7e7a, 0xf2, 0xb5),
  (0x7e7b, 0xf4, 0xac), (0x7e7c, 0xc4, 0x7e), (0x7e7d, 0xc4, 0x7d), (0x7e7e, 0xf4, 0xad),
  (0x7e7f, 0x9d, 0xa6), (0x7e80, 0xf4, 0xaf), (0x7e81, 0xf4, 0xae), (0x7e82, 0xc4, 0xa1),
  (0x7e86, 0xf5, 0xeb), (0x7e87, 0x9b, 0x7b), (0x7e88, 0xf5, 0xe9), (0x7e8a, 0xf5, 0xe7),
  (0x7e8b, 0xf5, 0xea), (0x7e8c, 0xc4, 0xf2), (0x7e8d, 0xf5, 0xec), (0x7e8e, 0x9e, 0xb0),
  (0x7e8f, 0xc4, 0xf1), (0x7e91, 0xf7, 0x42), (0x7e92, 0x8e, 0xb8), (0x7e93, 0xc5, 0xd5),
  (0x7e94, 0xc5, 0xd7), (0x7e95, 0xf7, 0xee), (0x7e96, 0xc5, 0xd6), (0x7e97, 0xf8, 0xb9),
  (0x7e98, 0xf9, 0x40), (0x7e99, 0xf9, 0x42), (0x7e9a, 0xf8, 0xfe), (0x7e9b, 0xf9, 0x41),
  (0x7e9c, 0xc6, 0x6c), (0x7e9f, 0x9d, 0x70), (0x7ea4, 0x89, 0x6e), (0x7eac, 0x89, 0x6f),
  (0x7eba, 0x89, 0x70), (0x7ec7, 0x89, 0x71), (0x7ecf, 0x89, 0x72), (0x7edf, 0x89, 0x73),
  (0x7f06, 0x89, 0x74), (0x7f36, 0xa6, 0xce), (0x7f37, 0x89, 0x75), (0x7f38, 0xac, 0xfb),
  (0x7f39, 0xd2, 0x6f), (0x7f3a, 0xaf, 0xca), (0x7f3d, 0xb2, 0xda), (0x7f3e, 0xda, 0xfc),
  (0x7f3f, 0xda, 0xfd), (0x7f40, 0x8e, 0xbc), (0x7f41, 0x8e, 0xbd), (0x7f43, 0xea, 0xdf),
  (0x7f44, 0xc1, 0x6a), (0x7f45, 0xed, 0xe1), (0x7f47, 0x8e, 0xbe), (0x7f48, 0xc2, 0xbb),
  (0x7f49, 0x9d, 0xd1), (0x7f4a, 0xf2, 0xba), (0x7f4b, 0xf2, 0xb9), (0x7f4c, 0xc4, 0xa2),
  (0x7f4d, 0xf5, 0xed), (0x7f4e, 0x94, 0xfd), (0x7f4f, 0xf7, 0x43), (0x7f50, 0xc5, 0xf8)]

/-- `ENCODE_TABLE[10752..10880]`, (code point, byte 0, byte 1).  src/generated/whatwg/big5_whatwg_tables.rs.inc:6065-6107 -/
def encRow84 : List (Nat × Nat × Nat) := [
  (0x7f51, 0xca, 0x49), (0x7f52, 0x8b, 0xd7), (0x7f53, 0x8b, 0xda), (0x7f54, 0xaa, 0xc9),
  (0x7f55, 0xa8, 0x75), (0x7f58, 0xd0, 0x4d), (0x7f5b, 0xd3, 0x60), (0x7f5c, 0xd3, 0x5b),
  (0x7f5d, 0xd3, 0x5f), (0x7f5e, 0xd3, 0x5d), (0x7f5f, 0xaf, 0xcb), (0x7f60, 0xd3, 0x5e),
  (0x7f61, 0xd3, 0x5c), (0x7f63, 0xd6, 0xf1), (0x7f65, 0xda, 0xfe), (0x7f66, 0xdb, 0x40),
  (0x7f67, 0xdf, 0x69), (0x7f68, 0xdf, 0x6a), (0x7f69, 0xb8, 0x6e), (0x7f6a, 0xb8, 0x6f),
  (0x7f6b, 0xdf, 0x68), (0x7f6c, 0xdf, 0x6b), (0x7f6d, 0xdf, 0x67), (0x7f6e, 0xb8, 0x6d),
  (0x7f70, 0xbb, 0x40), (0x7f71, 0xa0, 0xe2), (0x7f72, 0xb8, 0x70), (0x7f73, 0xe3, 0x7a),
  (0x7f75, 0xbd, 0x7c), (0x7f76, 0xe6, 0xf1), (0x7f77, 0xbd, 0x7d), (0x7f78, 0x9f, 0xe9),
  (0x7f79, 0xbf, 0xa9), (0x7f7a, 0xea, 0xe2), (0x7f7b, 0xea, 0xe0), (0x7f7c, 0xea, 0xe1),
  (0x7f7d, 0xed, 0xe4), (0x7f7e, 0xed, 0xe3), (0x7f7f, 0xed, 0xe2), (0x7f83, 0xf2, 0xbb),
  (0x7f85, 0xc3, 0xb9), (0x7f86, 0xf2, 0xbc), (0x7f87, 0xf7, 0x44), (0x7f88, 0xc5, 0xf9),
  (0x7f89, 0xf8, 0xba), (0x7f8a, 0xa6, 0xcf), (0x7f8b, 0xaa, 0xcb), (0x7f8c, 0xaa, 0xca),
  (0x7f8d, 0xd0, 0x4f), (0x7f8e, 0xac, 0xfc), (0x7f8f, 0xfd, 0xa8), (0x7f91, 0xd0, 0x4e),
  (0x7f92, 0xd3, 0x62), (0x7f93, 0x8a, 0xe7), (0x7f94, 0xaf, 0xcc), (0x7f95, 0xd6, 0xf2),
  (0x7f96, 0xd3, 0x61), (0x7f97, 0x8e, 0xc2), (0x7f9a, 0xb2, 0xdc), (0x7f9b, 0xd6, 0xf5),
  (0x7f9c, 0xd6, 0xf3), (0x7f9d, 0xd6, 0xf4), (0x7f9e, 0xb2, 0xdb), (0x7fa0, 0xdb, 0x42),
  (0x7fa1, 0xdb, 0x43), (0x7fa2, 0xdb, 0x41), (0x7fa3, 0x8e, 0xc4), (0x7fa4, 0xb8, 0x73),
  (0x7fa5, 0xdf, 0x6d), (0x7fa6, 0xdf, 0x6c), (0x7fa7, 0xdf, 0x6e), (0x7fa8, 0xb8, 0x72),
  (0x7fa9, 0xb8, 0x71), (0x7fac, 0xe6, 0xf2), (0x7fad, 0xe6, 0xf4), (0x7fae, 0x99, 0x64),
  (0x7faf, 0xbd, 0x7e), (0x7fb0, 0xe6, 0xf3), (0x7fb1, 0xea, 0xe3), (0x7fb2, 0xbf, 0xaa),
  (0x7fb3, 0xf0, 0x79), (0x7fb4, 0x99, 0x65), (0x7fb5, 0xf0, 0x78), (0x7fb6, 0xc3, 0xbb),
  (0x7fb7, 0xf2, 0xbd), (0x7fb8, 0xc3, 0xbd), (0x7fb9, 0xc3, 0xbc), (0x7fba, 0xf4, 0xb0),
  (0x7fbb, 0xf5, 0xee), (0x7fbc, 0xc4, 0xf3), (0x7fbd, 0xa6, 0xd0), (0x7fbe, 0xd0, 0x50),
  (0x7fbf, 0xac, 0xfd), (0x7fc0, 0xd3, 0x65), (0x7fc1, 0xaf, 0xce), (0x7fc2, 0xd3, 0x64),
  (0x7fc3, 0xd3, 0x63), (0x7fc5, 0xaf, 0xcd), (0x7fc7, 0xd6, 0xfb), (0x7fc9, 0xd6, 0xfd),
  (0x7fca, 0xd6, 0xf6), (0x7fcb, 0xd6, 0xf7), (0x7fcc, 0xb2, 0xdd), (0x7fcd, 0xd6, 0xf8),
  (0x7fce, 0xb2, 0xde), (0x7fcf, 0xd6, 0xfc), (0x7fd0, 0xd6, 0xf9), (0x7fd1, 0xd6, 0xfa),
  (0x7fd2, 0xb2, 0xdf), (0x7fd4, 0xb5, 0xbe), (0x7fd5, 0xb5, 0xbf), (0x7fd7, 0xdb, 0x44),
  (0x7fdb, 0xdf, 0x6f), (0x7fdc, 0xdf, 0x70), (0x7fdd, 0x95, 0x4e), (0x7fde, 0xe3, 0x7e),
  (0x7fdf, 0xbb, 0x43), (0x7fe0, 0xbb, 0x41), (0x7fe1, 0xbb, 0x42), (0x7fe2, 0xe3, 0x7b),
  (0x7fe3, 0xe3, 0x7c), (0x7fe5, 0xe3, 0x7d), (0x7fe6, 0xe6, 0xf9), (0x7fe7, 0x98, 0xb3),
  (0x7fe8, 0xe6, 0xfa), (0x7fe9, 0xbd, 0xa1), (0x7fea, 0xe6, 0xf7), (0x7feb, 0xe6, 0xf6)]

/-- `ENCODE_TABLE[10880..11008]`, (code point, byte 0, byte 1).  src/generated/whatwg/big5_whatwg_tables.rs.inc:6107-6150 -/
def encRow85 : List (Nat × Nat × Nat) := [
  (0x7fec, 0xe6, 0xf8), (0x7fed, 0xe6, 0xf5), (0x7fee, 0xbf, 0xad), (0x7fef, 0xea, 0xe4),
  (0x7ff0, 0xbf, 0xab), (0x7ff1, 0xbf, 0xac), (0x7ff2, 0xed, 0xe6), (0x7ff3, 0xc1, 0x6b),
  (0x7ff4, 0xed, 0xe5), (0x7ff5, 0xef, 0xa8), (0x7ff7, 0xf0, 0x7a), (0x7ff8, 0xf0, 0x7b),
  (0x7ff9, 0xc2, 0xbc), (0x7ffa, 0x8e, 0xcb), (0x7ffb, 0xc2, 0xbd), (0x7ffc, 0xc1, 0x6c),
  (0x7ffd, 0xf2, 0xbe), (0x7ffe, 0xf2, 0xbf), (0x7fff, 0xf4, 0xb1), (0x8000, 0xc4, 0xa3),
  (0x8001, 0xa6, 0xd1), (0x8002, 0x8b, 0xdf), (0x8003, 0xa6, 0xd2), (0x8004, 0xac, 0xfe),
  (0x8005, 0x8e, 0xcd), (0x8006, 0xaf, 0xcf), (0x8007, 0xd0, 0x51), (0x8008, 0x8e, 0xce),
  (0x800b, 0xb5, 0xc0), (0x800c, 0xa6, 0xd3), (0x800d, 0xad, 0x41), (0x800e, 0xd0, 0x52),
  (0x800f, 0xd0, 0x53), (0x8010, 0xad, 0x40), (0x8011, 0xad, 0x42), (0x8012, 0xa6, 0xd4),
  (0x8014, 0xd0, 0x54), (0x8015, 0xaf, 0xd1), (0x8016, 0xd3, 0x66), (0x8017, 0xaf, 0xd3),
  (0x8018, 0xaf, 0xd0), (0x8019, 0xaf, 0xd2), (0x801b, 0xd7, 0x41), (0x801c, 0xb2, 0xe0),
  (0x801d, 0x8e, 0xcf), (0x801e, 0xd7, 0x40), (0x801f, 0xd6, 0xfe), (0x8020, 0x99, 0x68),
  (0x8021, 0xdf, 0x71), (0x8024, 0xe3, 0xa1), (0x8025, 0x99, 0x69), (0x8026, 0xbd, 0xa2),
  (0x8028, 0x8e, 0xd0), (0x8029, 0xea, 0xe6), (0x802a, 0xea, 0xe5), (0x802c, 0xed, 0xe7),
  (0x802e, 0x99, 0x6b), (0x802f, 0x8e, 0xd1), (0x8030, 0xf5, 0xef), (0x8031, 0x99, 0x6c),
  (0x8033, 0xa6, 0xd5), (0x8034, 0xcb, 0x73), (0x8035, 0xcd, 0xaa), (0x8036, 0xad, 0x43),
  (0x8037, 0xd0, 0x55), (0x8039, 0xd3, 0x68), (0x803b, 0x8e, 0xd4), (0x803c, 0x8e, 0xd5),
  (0x803d, 0xaf, 0xd4), (0x803e, 0xd3, 0x67), (0x803f, 0xaf, 0xd5), (0x8043, 0xd7, 0x43),
  (0x8046, 0xb2, 0xe2), (0x8047, 0xd7, 0x42), (0x8048, 0xd7, 0x44), (0x804a, 0xb2, 0xe1),
  (0x804f, 0xdb, 0x46), (0x8050, 0xdb, 0x47), (0x8051, 0xdb, 0x45), (0x8052, 0xb5, 0xc1),
  (0x8054, 0x99, 0x6d), (0x8056, 0xb8, 0x74), (0x8058, 0xb8, 0x75), (0x805a, 0xbb, 0x45),
  (0x805b, 0xa0, 0xbe), (0x805c, 0xe3, 0xa3), (0x805d, 0xe3, 0xa2), (0x805e, 0xbb, 0x44),
  (0x8061, 0x8e, 0xd6), (0x8062, 0xa0, 0xbc), (0x8063, 0xa0, 0xb5), (0x8064, 0xe6, 0xfb),
  (0x8066, 0xa0, 0xb4), (0x8067, 0xe6, 0xfc), (0x806c, 0xea, 0xe7), (0x806f, 0xc1, 0x70),
  (0x8070, 0xc1, 0x6f), (0x8071, 0xc1, 0x6d), (0x8072, 0xc1, 0x6e), (0x8073, 0xc1, 0x71),
  (0x8075, 0xf0, 0x7c), (0x8076, 0xc2, 0xbf), (0x8077, 0xc2, 0xbe), (0x8078, 0xf2, 0xc0),
  (0x8079, 0xf4, 0xb2), (0x807d, 0xc5, 0xa5), (0x807e, 0xc5, 0xa4), (0x807f, 0xa6, 0xd6),
  (0x8080, 0x8b, 0xe0), (0x8082, 0xd1, 0xfb), (0x8084, 0xb8, 0x77), (0x8085, 0xb5, 0xc2),
  (0x8086, 0xb8, 0x76), (0x8087, 0xbb, 0x46), (0x8089, 0xa6, 0xd7), (0x808a, 0xc9, 0xa9),
  (0x808b, 0xa6, 0xd8), (0x808c, 0xa6, 0xd9), (0x808f, 0xcd, 0xab), (0x8090, 0xcb, 0x76),
  (0x8092, 0xcb, 0x77), (0x8093, 0xa8, 0x77), (0x8095, 0xcb, 0x74), (0x8096, 0xa8, 0x76),
  (0x8098, 0xa8, 0x79), (0x8099, 0xcb, 0x75), (0x809a, 0xa8, 0x7b), (0x809b, 0xa8, 0x7a)]

/-- `ENCODE_TABLE[11008..11136]`, (code point, byte 0, byte 1).  src/generated/whatwg/big5_whatwg_tables.rs.inc:6150-6192 -/
def encRow86 : List (Nat × Nat × Nat) := [
  (0x809c, 0xcb, 0x78), (0x809d, 0xa8, 0x78), (0x809f, 0x89, 0xb5), (0x80a1, 0xaa, 0xd1),
  (0x80a2, 0xaa, 0xcf), (0x80a3, 0xcd, 0xad), (0x80a5, 0xaa, 0xce), (0x80a7, 0x8e, 0xdd),
  (0x80a9, 0xaa, 0xd3), (0x80aa, 0xaa, 0xd5), (0x80ab, 0xaa, 0xd2), (0x80ad, 0xcd, 0xb0),
  (0x80ae, 0xcd, 0xac), (0x80af, 0xaa, 0xd6), (0x80b1, 0xaa, 0xd0), (0x80b2, 0xa8, 0x7c),
  (0x80b4, 0xaa, 0xd4), (0x80b5, 0xcd, 0xaf), (0x80b6, 0x9e, 0x5d), (0x80b7, 0x99, 0x71),
  (0x80b8, 0xcd, 0xae), (0x80ba, 0xaa, 0xcd), (0x80bc, 0x89, 0xae), (0x80bd, 0x9d, 0xe8),
  (0x80c2, 0xd0, 0x5b), (0x80c3, 0xad, 0x47), (0x80c4, 0xad, 0x48), (0x80c5, 0xd0, 0x5d),
  (0x80c6, 0x95, 0x65), (0x80c7, 0xd0, 0x57), (0x80c8, 0xd0, 0x5a), (0x80c9, 0xd0, 0x63),
  (0x80ca, 0xd0, 0x61), (0x80cc, 0xad, 0x49), (0x80cd, 0xd0, 0x67), (0x80ce, 0xad, 0x4c),
  (0x80cf, 0xd0, 0x64), (0x80d0, 0xd0, 0x5c), (0x80d1, 0xd0, 0x59), (0x80d4, 0xdb, 0x49),
  (0x80d5, 0xd0, 0x62), (0x80d6, 0xad, 0x44), (0x80d7, 0xd0, 0x65), (0x80d8, 0xd0, 0x56),
  (0x80d9, 0xd0, 0x5f), (0x80da, 0xad, 0x46), (0x80db, 0xad, 0x4b), (0x80dc, 0xd0, 0x60),
  (0x80dd, 0xad, 0x4f), (0x80de, 0xad, 0x4d), (0x80e0, 0xd0, 0x58), (0x80e1, 0xad, 0x4a),
  (0x80e3, 0xd0, 0x5e), (0x80e4, 0xad, 0x4e), (0x80e5, 0xad, 0x45), (0x80e6, 0xd0, 0x66),
  (0x80e9, 0x99, 0x72), (0x80ec, 0x8b, 0x5c), (0x80ed, 0xaf, 0xda), (0x80ef, 0xaf, 0xe3),
  (0x80f0, 0xaf, 0xd8), (0x80f1, 0xaf, 0xd6), (0x80f2, 0xd3, 0x6a), (0x80f3, 0xaf, 0xde),
  (0x80f4, 0xaf, 0xdb), (0x80f5, 0xd3, 0x6c), (0x80f6, 0x89, 0xb1), (0x80f8, 0xaf, 0xdd),
  (0x80f9, 0xd3, 0x6b), (0x80fa, 0xd3, 0x69), (0x80fb, 0xd3, 0x6e), (0x80fc, 0xaf, 0xe2),
  (0x80fd, 0xaf, 0xe0), (0x80fe, 0xdb, 0x48), (0x8100, 0xd3, 0x6f), (0x8101, 0xd3, 0x6d),
  (0x8102, 0xaf, 0xd7), (0x8103, 0xa0, 0xc0), (0x8105, 0xaf, 0xd9), (0x8106, 0xaf, 0xdc),
  (0x8107, 0x8e, 0xdf), (0x8108, 0xaf, 0xdf), (0x8109, 0x95, 0x66), (0x810a, 0xaf, 0xe1),
  (0x810c, 0x99, 0x74), (0x810e, 0x99, 0x76), (0x8112, 0x99, 0x77), (0x8114, 0x99, 0x79),
  (0x8115, 0xd7, 0x4e), (0x8116, 0xb2, 0xe4), (0x8117, 0x9d, 0xda), (0x8118, 0xd7, 0x45),
  (0x8119, 0xd7, 0x47), (0x811a, 0x8e, 0xe0), (0x811b, 0xd7, 0x48), (0x811d, 0xd7, 0x50),
  (0x811e, 0xd7, 0x4c), (0x811f, 0xd7, 0x4a), (0x8121, 0xd7, 0x4d), (0x8122, 0xd7, 0x51),
  (0x8123, 0xb2, 0xe5), (0x8124, 0xb2, 0xe9), (0x8125, 0xd7, 0x46), (0x8127, 0xd7, 0x4f),
  (0x8129, 0xb2, 0xe7), (0x812a, 0x93, 0x5c), (0x812b, 0xb2, 0xe6), (0x812c, 0xd7, 0x4b),
  (0x812d, 0xd7, 0x49), (0x812f, 0xb2, 0xe3), (0x8130, 0xb2, 0xe8), (0x8132, 0x9d, 0xe6),
  (0x8134, 0x8b, 0x5f), (0x8137, 0x95, 0x63), (0x8139, 0xb5, 0xc8), (0x813a, 0xdb, 0x51),
  (0x813d, 0xdb, 0x4f), (0x813e, 0xb5, 0xca), (0x8142, 0x95, 0x67), (0x8143, 0xdb, 0x4a),
  (0x8144, 0xdf, 0xa1), (0x8146, 0xb5, 0xc9), (0x8147, 0xdb, 0x4e), (0x8148, 0x9d, 0xe3),
  (0x814a, 0xdb, 0x4b), (0x814b, 0xb5, 0xc5), (0x814c, 0xb5, 0xcb), (0x814d, 0xdb, 0x50)]

/-- `ENCODE_TABLE[11136..11264]`, (code point, byte 0, byte 1).  src/generated/whatwg/big5_whatwg_tables.rs.inc:6193-6235 -/
def encRow87 : List (Nat × Nat × Nat) := [
  (0x814e, 0xb5, 0xc7), (0x814f, 0xdb, 0x4d), (0x8150, 0xbb, 0x47), (0x8151, 0xb5, 0xc6),
  (0x8152, 0xdb, 0x4c), (0x8153, 0xb5, 0xcc), (0x8154, 0xb5, 0xc4), (0x8155, 0xb5, 0xc3),
  (0x8156, 0x99, 0x7c), (0x8159, 0x99, 0x7d), (0x815a, 0x99, 0x7e), (0x815b, 0xdf, 0x77),
  (0x815c, 0xdf, 0x75), (0x815e, 0xdf, 0x7b), (0x8160, 0xdf, 0x73), (0x8161, 0xdf, 0xa2),
  (0x8162, 0xdf, 0x78), (0x8164, 0xdf, 0x72), (0x8165, 0xb8, 0x7b), (0x8166, 0xb8, 0xa3),
  (0x8167, 0xdf, 0x7d), (0x8169, 0xdf, 0x76), (0x816b, 0xb8, 0x7e), (0x816c, 0x8c, 0xfb),
  (0x816d, 0x8b, 0x5b), (0x816e, 0xb8, 0x7c), (0x816f, 0xdf, 0x7e), (0x8170, 0xb8, 0x79),
  (0x8171, 0xb8, 0x78), (0x8172, 0xdf, 0x79), (0x8173, 0xb8, 0x7d), (0x8174, 0xb5, 0xcd),
  (0x8176, 0xdf, 0x7c), (0x8177, 0xdf, 0x74), (0x8178, 0xb8, 0x7a), (0x8179, 0xb8, 0xa1),
  (0x817a, 0xb8, 0xa2), (0x817c, 0x99, 0xa3), (0x817f, 0xbb, 0x4c), (0x8180, 0xbb, 0x48),
  (0x8182, 0xbb, 0x4d), (0x8183, 0xe3, 0xa6), (0x8184, 0x99, 0xa4), (0x8186, 0xe3, 0xa5),
  (0x8187, 0xe3, 0xa7), (0x8188, 0xbb, 0x4a), (0x8189, 0xe3, 0xa4), (0x818a, 0xbb, 0x4b),
  (0x818b, 0xe3, 0xaa), (0x818c, 0xe3, 0xa9), (0x818d, 0xe3, 0xa8), (0x818f, 0xbb, 0x49),
  (0x8193, 0x99, 0xa6), (0x8195, 0xe7, 0x41), (0x8197, 0xe7, 0x44), (0x8198, 0xbd, 0xa8),
  (0x8199, 0xe7, 0x43), (0x819a, 0xbd, 0xa7), (0x819b, 0xbd, 0xa3), (0x819c, 0xbd, 0xa4),
  (0x819d, 0xbd, 0xa5), (0x819e, 0xe7, 0x40), (0x819f, 0xe6, 0xfe), (0x81a0, 0xbd, 0xa6),
  (0x81a2, 0xe7, 0x42), (0x81a3, 0xe6, 0xfd), (0x81a5, 0x99, 0xa8), (0x81a6, 0xea, 0xe9),
  (0x81a7, 0xea, 0xf3), (0x81a8, 0xbf, 0xb1), (0x81a9, 0xbf, 0xb0), (0x81aa, 0x8a, 0xbe),
  (0x81ab, 0xea, 0xed), (0x81ac, 0xea, 0xef), (0x81ae, 0xea, 0xea), (0x81b0, 0xea, 0xee),
  (0x81b1, 0xea, 0xe8), (0x81b2, 0xea, 0xf1), (0x81b3, 0xbf, 0xaf), (0x81b4, 0xea, 0xf0),
  (0x81b5, 0xea, 0xec), (0x81b6, 0x9e, 0x61), (0x81b7, 0xea, 0xf2), (0x81b9, 0xea, 0xeb),
  (0x81ba, 0xc1, 0x74), (0x81bb, 0xed, 0xe8), (0x81bc, 0xed, 0xee), (0x81bd, 0xc1, 0x78),
  (0x81be, 0xc1, 0x7a), (0x81bf, 0xc1, 0x77), (0x81c0, 0xc1, 0x76), (0x81c1, 0x99, 0xaa),
  (0x81c2, 0xc1, 0x75), (0x81c3, 0xc1, 0x73), (0x81c4, 0xed, 0xe9), (0x81c5, 0xed, 0xec),
  (0x81c6, 0xc1, 0x72), (0x81c7, 0xed, 0xed), (0x81c8, 0xa0, 0xc8), (0x81c9, 0xc1, 0x79),
  (0x81ca, 0xed, 0xeb), (0x81cc, 0xed, 0xea), (0x81cd, 0xc2, 0xc0), (0x81cf, 0xc2, 0xc1),
  (0x81d0, 0xf0, 0xa1), (0x81d1, 0xf0, 0x7d), (0x81d2, 0xf0, 0x7e), (0x81d5, 0xf2, 0xc2),
  (0x81d7, 0xf2, 0xc1), (0x81d8, 0xc3, 0xbe), (0x81d9, 0xf4, 0xb4), (0x81da, 0xc4, 0xa4),
  (0x81db, 0xf4, 0xb3), (0x81dd, 0xf5, 0xf0), (0x81de, 0xf7, 0x45), (0x81df, 0xc5, 0xa6),
  (0x81e0, 0xf9, 0x43), (0x81e1, 0xf9, 0x44), (0x81e2, 0xc5, 0xd8), (0x81e3, 0xa6, 0xda),
  (0x81e4, 0x99, 0xab), (0x81e5, 0xaa, 0xd7), (0x81e6, 0xdb, 0x52), (0x81e7, 0xbb, 0x4e),
  (0x81e8, 0xc1, 0x7b), (0x81e9, 0xed, 0xef), (0x81ea, 0xa6, 0xdb), (0x81ec, 0xaf, 0xe5)]

/-- `ENCODE_TABLE[11264..11392]`, (code point, byte 0, byte 1).  src/generated/whatwg/big5_whatwg_tables.rs.inc:6235-6278 -/
def encRow88 : List (Nat × Nat × Nat) := [
  (0x81ed, 0xaf, 0xe4), (0x81ee, 0xdb, 0x53), (0x81ef, 0xfe, 0xc4), (0x81f2, 0xea, 0xf4),
  (0x81f3, 0xa6, 0xdc), (0x81f4, 0xad, 0x50), (0x81f6, 0x98, 0xc2), (0x81f7, 0xdb, 0x54),
  (0x81f8, 0xdb, 0x55), (0x81f9, 0xdb, 0x56), (0x81fa, 0xbb, 0x4f), (0x81fb, 0xbf, 0xb2),
  (0x81fc, 0xa6, 0xdd), (0x81fe, 0xaa, 0xd8), (0x81ff, 0xd0, 0x68), (0x8200, 0xaf, 0xe6),
  (0x8201, 0xd3, 0x70), (0x8202, 0xb2, 0xea), (0x8204, 0xdb, 0x57), (0x8205, 0xb8, 0xa4),
  (0x8207, 0xbb, 0x50), (0x8208, 0xbf, 0xb3), (0x8209, 0xc1, 0x7c), (0x820a, 0xc2, 0xc2),
  (0x820b, 0xf4, 0xb5), (0x820c, 0xa6, 0xde), (0x820d, 0xaa, 0xd9), (0x8210, 0xaf, 0xe7),
  (0x8211, 0xd7, 0x52), (0x8212, 0xb5, 0xce), (0x8214, 0xbb, 0x51), (0x8215, 0xe3, 0xab),
  (0x8216, 0xe7, 0x45), (0x8218, 0x8e, 0xe8), (0x821a, 0xa0, 0xba), (0x821b, 0xa6, 0xdf),
  (0x821c, 0xb5, 0xcf), (0x821d, 0xdf, 0xa3), (0x821e, 0xbb, 0x52), (0x821f, 0xa6, 0xe0),
  (0x8220, 0xcd, 0xb1), (0x8221, 0xd0, 0x69), (0x8222, 0xad, 0x51), (0x8225, 0xd3, 0x72),
  (0x8226, 0xfd, 0x77), (0x8228, 0xaf, 0xea), (0x8229, 0x8e, 0xee), (0x822a, 0xaf, 0xe8),
  (0x822b, 0xaf, 0xe9), (0x822c, 0xaf, 0xeb), (0x822d, 0x9e, 0xbf), (0x822f, 0xd3, 0x71),
  (0x8232, 0xd7, 0x57), (0x8233, 0xd7, 0x54), (0x8234, 0xd7, 0x56), (0x8235, 0xb2, 0xeb),
  (0x8236, 0xb2, 0xed), (0x8237, 0xb2, 0xec), (0x8238, 0xd7, 0x53), (0x8239, 0xb2, 0xee),
  (0x823a, 0xd7, 0x55), (0x823c, 0xdb, 0x58), (0x823d, 0xdb, 0x59), (0x823e, 0x89, 0xc2),
  (0x823f, 0xdb, 0x5a), (0x8240, 0xdf, 0xa6), (0x8242, 0xdf, 0xa7), (0x8244, 0xdf, 0xa5),
  (0x8245, 0xdf, 0xa8), (0x8247, 0xb8, 0xa5), (0x8249, 0xdf, 0xa4), (0x824b, 0xbb, 0x53),
  (0x824e, 0xe7, 0x4a), (0x824f, 0xe7, 0x46), (0x8250, 0xe7, 0x49), (0x8251, 0xe7, 0x4b),
  (0x8252, 0xe7, 0x48), (0x8253, 0xe7, 0x47), (0x8254, 0x99, 0xac), (0x8255, 0xea, 0xf5),
  (0x8256, 0xea, 0xf6), (0x8257, 0xea, 0xf7), (0x8258, 0xbf, 0xb4), (0x8259, 0xbf, 0xb5),
  (0x825a, 0xed, 0xf1), (0x825b, 0xed, 0xf0), (0x825c, 0xed, 0xf2), (0x825e, 0xf0, 0xa3),
  (0x825f, 0xf0, 0xa2), (0x8261, 0xf2, 0xc4), (0x8262, 0x95, 0x6b), (0x8263, 0xf2, 0xc5),
  (0x8264, 0xf2, 0xc3), (0x8265, 0x95, 0x6c), (0x8266, 0xc4, 0xa5), (0x8268, 0xf4, 0xb6),
  (0x8269, 0xf4, 0xb7), (0x826b, 0xf7, 0x46), (0x826c, 0xf7, 0xef), (0x826d, 0xf8, 0xbb),
  (0x826e, 0xa6, 0xe1), (0x826f, 0xa8, 0x7d), (0x8271, 0xc1, 0x7d), (0x8272, 0xa6, 0xe2),
  (0x8274, 0xd7, 0x58), (0x8275, 0xdb, 0x5b), (0x8276, 0x99, 0xaf), (0x8277, 0xc6, 0x41),
  (0x8278, 0xca, 0x4a), (0x8279, 0x99, 0x4a), (0x827a, 0x89, 0x76), (0x827b, 0x8f, 0x48),
  (0x827c, 0xca, 0x4b), (0x827d, 0xca, 0x4d), (0x827e, 0xa6, 0xe3), (0x827f, 0xca, 0x4e),
  (0x8280, 0xca, 0x4c), (0x8283, 0xcb, 0xa2), (0x8284, 0xcb, 0xa3), (0x8285, 0xcb, 0x7b),
  (0x8287, 0xfb, 0xee), (0x828a, 0xcb, 0xa1), (0x828b, 0xa8, 0xa1), (0x828d, 0xa8, 0xa2),
  (0x828e, 0xcb, 0x7c), (0x828f, 0xcb, 0x7a), (0x8290, 0xcb, 0x79), (0x8291, 0xcb, 0x7d)]

/-- `ENCODE_TABLE[11392..11520]`, (code point, byte 0, byte 1).  src/generated/whatwg/big5_whatwg_tables.rs.inc:6278-6320 -/
def encRow89 : List (Nat × Nat × Nat) := [
  (0x8292, 0xa8, 0x7e), (0x8293, 0xcb, 0x7e), (0x8294, 0xd0, 0x6a), (0x8298, 0xcd, 0xb6),
  (0x8299, 0xaa, 0xdc), (0x829a, 0xcd, 0xb5), (0x829b, 0xcd, 0xb7), (0x829d, 0xaa, 0xdb),
  (0x829e, 0xcd, 0xbc), (0x829f, 0xaa, 0xdf), (0x82a0, 0xcd, 0xb2), (0x82a1, 0xcd, 0xc0),
  (0x82a2, 0xcd, 0xc6), (0x82a3, 0xaa, 0xe6), (0x82a4, 0xcd, 0xc3), (0x82a5, 0xaa, 0xe3),
  (0x82a6, 0x99, 0xae), (0x82a7, 0xcd, 0xb9), (0x82a8, 0xcd, 0xbf), (0x82a9, 0xcd, 0xc1),
  (0x82aa, 0x8e, 0xfb), (0x82ab, 0xcd, 0xb4), (0x82ac, 0xaa, 0xe2), (0x82ad, 0xaa, 0xdd),
  (0x82ae, 0xcd, 0xba), (0x82af, 0xaa, 0xe4), (0x82b0, 0xaa, 0xe7), (0x82b1, 0xaa, 0xe1),
  (0x82b3, 0xaa, 0xda), (0x82b4, 0xcd, 0xbe), (0x82b5, 0xcd, 0xb8), (0x82b6, 0xcd, 0xc5),
  (0x82b7, 0xaa, 0xe9), (0x82b8, 0xaa, 0xe5), (0x82b9, 0xaa, 0xe0), (0x82ba, 0xcd, 0xbd),
  (0x82bb, 0xaf, 0xec), (0x82bc, 0xcd, 0xbb), (0x82bd, 0xaa, 0xde), (0x82be, 0xaa, 0xe8),
  (0x82bf, 0x8c, 0xd0), (0x82c0, 0xcd, 0xb3), (0x82c2, 0xcd, 0xc2), (0x82c3, 0xcd, 0xc4),
  (0x82c4, 0x8b, 0x52), (0x82ca, 0x99, 0xb0), (0x82cf, 0x89, 0x77), (0x82d0, 0x8f, 0x41),
  (0x82d1, 0xad, 0x62), (0x82d2, 0xad, 0x5c), (0x82d3, 0xad, 0x64), (0x82d4, 0xad, 0x61),
  (0x82d5, 0xd0, 0x71), (0x82d6, 0xd0, 0x74), (0x82d7, 0xad, 0x5d), (0x82d8, 0x99, 0xb1),
  (0x82d9, 0xd0, 0x6b), (0x82db, 0xad, 0x56), (0x82dc, 0xad, 0x60), (0x82de, 0xad, 0x63),
  (0x82df, 0xad, 0x65), (0x82e0, 0xd0, 0xa2), (0x82e1, 0xd0, 0x77), (0x82e2, 0x8f, 0x49),
  (0x82e3, 0xad, 0x55), (0x82e4, 0xd0, 0xa1), (0x82e5, 0xad, 0x59), (0x82e6, 0xad, 0x57),
  (0x82e7, 0xad, 0x52), (0x82e8, 0xd0, 0x6f), (0x82ea, 0xd0, 0x7e), (0x82eb, 0xd0, 0x73),
  (0x82ec, 0xd0, 0x76), (0x82ed, 0xd0, 0xa5), (0x82ee, 0xfa, 0x4d), (0x82ef, 0xad, 0x66),
  (0x82f0, 0xd0, 0x7d), (0x82f1, 0xad, 0x5e), (0x82f2, 0xd0, 0x78), (0x82f3, 0xd0, 0xa4),
  (0x82f4, 0xd0, 0x75), (0x82f5, 0xd0, 0x79), (0x82f6, 0xd0, 0x7c), (0x82f7, 0x9d, 0xe4),
  (0x82f8, 0x8c, 0xb5), (0x82f9, 0xd0, 0x6d), (0x82fa, 0xd0, 0xa3), (0x82fb, 0xd0, 0x7b),
  (0x82fc, 0xfb, 0xe9), (0x82fd, 0x9b, 0x54), (0x82fe, 0xd0, 0x6c), (0x82ff, 0x99, 0xb2),
  (0x8300, 0xd0, 0x70), (0x8301, 0xad, 0x5f), (0x8302, 0xad, 0x5a), (0x8303, 0xad, 0x53),
  (0x8304, 0xad, 0x58), (0x8305, 0xad, 0x54), (0x8306, 0xad, 0x67), (0x8307, 0xd0, 0x6e),
  (0x8308, 0xd3, 0xa5), (0x8309, 0xad, 0x5b), (0x830b, 0x9e, 0x68), (0x830c, 0xd0, 0x7a),
  (0x830d, 0xce, 0x41), (0x8316, 0xd3, 0xa8), (0x8317, 0xaf, 0xfa), (0x8318, 0x8f, 0x4a),
  (0x8319, 0xd3, 0x76), (0x831a, 0x8f, 0x42), (0x831b, 0xd3, 0xa3), (0x831c, 0xd3, 0x7d),
  (0x831d, 0x8f, 0x51), (0x831e, 0xd3, 0xb2), (0x8320, 0xd3, 0xaa), (0x8322, 0xd3, 0x7e),
  (0x8324, 0xd3, 0xa9), (0x8325, 0xd3, 0x78), (0x8326, 0xd3, 0x7c), (0x8327, 0xd3, 0xb5),
  (0x8328, 0xaf, 0xfd), (0x8329, 0xd3, 0xad), (0x832a, 0xd3, 0xa4), (0x832b, 0xaf, 0xed),
  (0x832c, 0xd3, 0xb3), (0x832d, 0xd3, 0x74), (0x832f, 0xd3, 0xac), (0x8331, 0xaf, 0xfc)]

/-- `ENCODE_TABLE[11520..11648]`, (code point, byte 0, byte 1).  src/generated/whatwg/big5_whatwg_tables.rs.inc:6321-6363 -/
def encRow90 : List (Nat × Nat × Nat) := [
  (0x8332, 0xaf, 0xf7), (0x8333, 0xd3, 0x73), (0x8334, 0xaf, 0xf5), (0x8335, 0xaf, 0xf4),
  (0x8336, 0xaf, 0xf9), (0x8337, 0xd3, 0xab), (0x8338, 0xaf, 0xf1), (0x8339, 0xaf, 0xf8),
  (0x833a, 0xd0, 0x72), (0x833b, 0xdb, 0x5c), (0x833c, 0xd3, 0xa6), (0x833d, 0x98, 0x46),
  (0x833f, 0xd3, 0x7a), (0x8340, 0xaf, 0xfb), (0x8341, 0xd3, 0x7b), (0x8342, 0xd3, 0xa1),
  (0x8343, 0xaf, 0xfe), (0x8344, 0xd3, 0x75), (0x8345, 0xd3, 0xaf), (0x8347, 0xd3, 0xae),
  (0x8348, 0xd3, 0xb6), (0x8349, 0xaf, 0xf3), (0x834a, 0xaf, 0xf0), (0x834b, 0xd3, 0xb4),
  (0x834c, 0xd3, 0xb0), (0x834d, 0xd3, 0xa7), (0x834e, 0xd3, 0xa2), (0x834f, 0xaf, 0xf6),
  (0x8350, 0xaf, 0xf2), (0x8351, 0xd3, 0x77), (0x8352, 0xaf, 0xee), (0x8353, 0xd3, 0xb1),
  (0x8354, 0xaf, 0xef), (0x8356, 0xd3, 0x79), (0x8357, 0x99, 0xb4), (0x8362, 0x8e, 0xf5),
  (0x8363, 0xfd, 0x55), (0x8366, 0x9c, 0xcd), (0x836f, 0x89, 0x78), (0x8373, 0xd7, 0x5e),
  (0x8374, 0xd7, 0x60), (0x8375, 0xd7, 0x65), (0x8376, 0xd7, 0x79), (0x8377, 0xb2, 0xfc),
  (0x8378, 0xb2, 0xf2), (0x837a, 0xd7, 0x5d), (0x837b, 0xb2, 0xfd), (0x837c, 0xb2, 0xfe),
  (0x837d, 0xd7, 0x68), (0x837e, 0xd7, 0x6f), (0x837f, 0xd7, 0x75), (0x8381, 0xd7, 0x62),
  (0x8383, 0xd7, 0x69), (0x8385, 0x8f, 0x53), (0x8386, 0xb3, 0x40), (0x8387, 0xd7, 0x77),
  (0x8388, 0xd7, 0x72), (0x8389, 0xb2, 0xfa), (0x838a, 0xb2, 0xf8), (0x838b, 0xd7, 0x6e),
  (0x838c, 0xd7, 0x6a), (0x838d, 0xd7, 0x5c), (0x838e, 0xb2, 0xef), (0x838f, 0xd7, 0x61),
  (0x8390, 0xd7, 0x59), (0x8391, 0x8f, 0x6f), (0x8392, 0xb2, 0xf7), (0x8393, 0xb2, 0xf9),
  (0x8394, 0xd7, 0x66), (0x8395, 0xd7, 0x63), (0x8396, 0xb2, 0xf4), (0x8397, 0xd7, 0x73),
  (0x8398, 0xb2, 0xf1), (0x8399, 0xd7, 0x64), (0x839a, 0xd7, 0x7a), (0x839b, 0xd7, 0x6c),
  (0x839c, 0x8e, 0x63), (0x839d, 0xd7, 0x6b), (0x839e, 0xb2, 0xf0), (0x83a0, 0xb2, 0xfb),
  (0x83a2, 0xb2, 0xf3), (0x83a3, 0xd7, 0x5a), (0x83a4, 0xd7, 0x5f), (0x83a5, 0xd7, 0x70),
  (0x83a6, 0xd7, 0x76), (0x83a7, 0xb3, 0x41), (0x83a8, 0xd7, 0x5b), (0x83a9, 0xd7, 0x67),
  (0x83aa, 0xd7, 0x6d), (0x83ab, 0xb2, 0xf6), (0x83ac, 0x8f, 0x56), (0x83ae, 0xd7, 0x78),
  (0x83af, 0xd7, 0x71), (0x83b0, 0xd7, 0x74), (0x83b9, 0xfe, 0x76), (0x83bd, 0xb2, 0xf5),
  (0x83be, 0x9f, 0xc6), (0x83bf, 0xdb, 0x6c), (0x83c0, 0xdb, 0x60), (0x83c1, 0x8f, 0x57),
  (0x83c2, 0xdb, 0x7d), (0x83c3, 0xdb, 0xa7), (0x83c4, 0xdb, 0xaa), (0x83c5, 0xb5, 0xd5),
  (0x83c6, 0xdb, 0x68), (0x83c7, 0xdb, 0xa3), (0x83c8, 0xdb, 0x69), (0x83c9, 0xdb, 0x77),
  (0x83ca, 0xb5, 0xe2), (0x83cb, 0xdb, 0x73), (0x83cc, 0xb5, 0xdf), (0x83cd, 0xfa, 0xac),
  (0x83ce, 0xdb, 0x74), (0x83cf, 0x9c, 0x77), (0x83d1, 0xdb, 0xa4), (0x83d3, 0x8f, 0x58),
  (0x83d4, 0xb5, 0xe8), (0x83d5, 0xdb, 0xa1), (0x83d6, 0xdb, 0x75), (0x83d7, 0xdb, 0xac),
  (0x83d8, 0xdb, 0x70), (0x83d9, 0xdf, 0xc8), (0x83db, 0xdb, 0xaf), (0x83dc, 0xb5, 0xe6),
  (0x83dd, 0xdb, 0x6e), (0x83de, 0xdb, 0x7a), (0x83df, 0xb5, 0xe9), (0x83e0, 0xb5, 0xd4)]

/-- `ENCODE_TABLE[11648..11776]`, (code point, byte 0, byte 1).  src/generated/whatwg/big5_whatwg_tables.rs.inc:6363-6406 -/
def encRow91 : List (Nat × Nat × Nat) := [
  (0x83e1, 0xdb, 0x72), (0x83e2, 0xdb, 0xad), (0x83e3, 0xdb, 0x6b), (0x83e4, 0xdb, 0x64),
  (0x83e5, 0xdb, 0x6f), (0x83e7, 0xdb, 0x63), (0x83e8, 0xdb, 0x61), (0x83e9, 0xb5, 0xd0),
  (0x83ea, 0xdb, 0xa5), (0x83eb, 0xdb, 0x6a), (0x83ec, 0xdb, 0xa8), (0x83ed, 0x98, 0x48),
  (0x83ee, 0xdb, 0xa9), (0x83ef, 0xb5, 0xd8), (0x83f0, 0xb5, 0xdd), (0x83f1, 0xb5, 0xd9),
  (0x83f2, 0xb5, 0xe1), (0x83f3, 0xdb, 0x7e), (0x83f4, 0xb5, 0xda), (0x83f5, 0xdb, 0x76),
  (0x83f6, 0xdb, 0x66), (0x83f8, 0xb5, 0xd2), (0x83f9, 0xdb, 0x5e), (0x83fa, 0xdb, 0xa2),
  (0x83fb, 0xdb, 0xab), (0x83fc, 0xdb, 0x65), (0x83fd, 0xb5, 0xe0), (0x83fe, 0xdb, 0xb0),
  (0x83ff, 0xdb, 0x71), (0x8401, 0xdb, 0x6d), (0x8403, 0xb5, 0xd1), (0x8404, 0xb5, 0xe5),
  (0x8405, 0x99, 0xb7), (0x8406, 0xdb, 0x7c), (0x8407, 0xb5, 0xe7), (0x8409, 0xdb, 0x78),
  (0x840a, 0xb5, 0xdc), (0x840b, 0xb5, 0xd6), (0x840c, 0xb5, 0xde), (0x840d, 0xb5, 0xd3),
  (0x840e, 0xb5, 0xe4), (0x840f, 0x8f, 0x6e), (0x8410, 0xdb, 0x67), (0x8411, 0xdb, 0x7b),
  (0x8412, 0xdb, 0x62), (0x8413, 0xdb, 0xa6), (0x8414, 0x96, 0x65), (0x8416, 0xfa, 0x6c),
  (0x8418, 0x9d, 0xe7), (0x841b, 0xdb, 0xae), (0x841c, 0x9e, 0x62), (0x8420, 0x96, 0xcc),
  (0x8421, 0x8e, 0x67), (0x8423, 0xdb, 0x5f), (0x8424, 0xfc, 0x75), (0x8426, 0x98, 0x7e),
  (0x8429, 0xdf, 0xc7), (0x842b, 0xdf, 0xdd), (0x842c, 0xb8, 0x55), (0x842d, 0xdf, 0xcc),
  (0x842e, 0xfd, 0xb9), (0x842f, 0xdf, 0xca), (0x8430, 0xdf, 0xb5), (0x8431, 0xb8, 0xa9),
  (0x8432, 0xdf, 0xc5), (0x8433, 0xdf, 0xd9), (0x8434, 0xdf, 0xc1), (0x8435, 0xb8, 0xb1),
  (0x8436, 0xdf, 0xd8), (0x8437, 0xdf, 0xbf), (0x8438, 0xb5, 0xe3), (0x8439, 0xdf, 0xcf),
  (0x843a, 0xdf, 0xc0), (0x843b, 0xdf, 0xd6), (0x843c, 0xb8, 0xb0), (0x843d, 0xb8, 0xa8),
  (0x843e, 0x97, 0xfc), (0x843f, 0xdf, 0xaa), (0x8440, 0xdf, 0xb2), (0x8442, 0xdf, 0xcb),
  (0x8443, 0xdf, 0xc3), (0x8444, 0xdf, 0xdc), (0x8445, 0xdf, 0xc6), (0x8446, 0xb8, 0xb6),
  (0x8447, 0xdf, 0xd7), (0x8448, 0x98, 0xf9), (0x8449, 0xb8, 0xad), (0x844a, 0x8f, 0x66),
  (0x844b, 0xdf, 0xc9), (0x844c, 0xdf, 0xd1), (0x844d, 0xdf, 0xb6), (0x844e, 0xdf, 0xd0),
  (0x8450, 0xdf, 0xe1), (0x8451, 0xdf, 0xb1), (0x8452, 0xdf, 0xd2), (0x8453, 0x95, 0x6e),
  (0x8454, 0xdf, 0xdf), (0x8455, 0x92, 0x45), (0x8456, 0xdf, 0xab), (0x8457, 0xb5, 0xdb),
  (0x8458, 0x8f, 0x60), (0x8459, 0xdf, 0xb9), (0x845a, 0xdf, 0xb8), (0x845b, 0xb8, 0xaf),
  (0x845c, 0x9e, 0xd1), (0x845d, 0xdf, 0xbc), (0x845e, 0xdf, 0xbe), (0x845f, 0xdf, 0xcd),
  (0x8460, 0xdf, 0xde), (0x8461, 0xb8, 0xb2), (0x8462, 0xfe, 0xcd), (0x8463, 0xb8, 0xb3),
  (0x8464, 0x99, 0xb9), (0x8465, 0xdf, 0xb0), (0x8466, 0xb8, 0xab), (0x8467, 0xdf, 0xb4),
  (0x8468, 0xdf, 0xda), (0x8469, 0xb8, 0xb4), (0x846b, 0xb8, 0xac), (0x846c, 0xb8, 0xae),
  (0x846d, 0xb8, 0xb5), (0x846e, 0xdf, 0xe0), (0x846f, 0xdf, 0xd3), (0x8470, 0xdf, 0xce),
  (0x8471, 0x8f, 0x62), (0x8472, 0x97, 0x4c), (0x8473, 0xdf, 0xbb), (0x8474, 0xdf, 0xba)]

/-- `ENCODE_TABLE[11776..11904]`, (code point, byte 0, byte 1).  src/generated/whatwg/big5_whatwg_tables.rs.inc:6406-6448 -/
def encRow92 : List (Nat × Nat × Nat) := [
  (0x8475, 0xb8, 0xaa), (0x8476, 0xdf, 0xac), (0x8477, 0xb8, 0xa7), (0x8478, 0xdf, 0xc4),
  (0x8479, 0xdf, 0xad), (0x847a, 0xdf, 0xc2), (0x847d, 0xdf, 0xb7), (0x847e, 0xdf, 0xdb),
  (0x847f, 0x91, 0xc7), (0x8480, 0x95, 0x5f), (0x8482, 0xb8, 0xa6), (0x8484, 0x87, 0xab),
  (0x8486, 0xdf, 0xb3), (0x8488, 0x99, 0xbb), (0x848d, 0xdf, 0xaf), (0x848e, 0xdf, 0xd5),
  (0x848f, 0xdf, 0xae), (0x8490, 0xbb, 0x60), (0x8491, 0xe3, 0xd3), (0x8492, 0x8e, 0x6d),
  (0x8493, 0x8f, 0x71), (0x8494, 0xe3, 0xc2), (0x8496, 0x94, 0xcb), (0x8497, 0xe3, 0xac),
  (0x8498, 0xe3, 0xca), (0x8499, 0xbb, 0x58), (0x849a, 0xe3, 0xbb), (0x849b, 0xe3, 0xc5),
  (0x849c, 0xbb, 0x5b), (0x849d, 0xe3, 0xbe), (0x849e, 0xbb, 0x59), (0x849f, 0xe3, 0xaf),
  (0x84a0, 0xe3, 0xcd), (0x84a1, 0xe3, 0xae), (0x84a2, 0xe3, 0xc1), (0x84a3, 0x95, 0xb1),
  (0x84a4, 0xe3, 0xad), (0x84a7, 0xe3, 0xbf), (0x84a8, 0x8f, 0x69), (0x84a9, 0xe3, 0xc6),
  (0x84aa, 0xe3, 0xba), (0x84ab, 0xe3, 0xb5), (0x84ac, 0xe3, 0xb3), (0x84ad, 0x9a, 0xf2),
  (0x84ae, 0xe3, 0xb4), (0x84af, 0xe3, 0xc7), (0x84b0, 0xe3, 0xd2), (0x84b1, 0xe3, 0xbc),
  (0x84b2, 0xbb, 0x5a), (0x84b4, 0xe3, 0xb7), (0x84b6, 0xe3, 0xcb), (0x84b8, 0xbb, 0x5d),
  (0x84b9, 0xe3, 0xb6), (0x84ba, 0xe3, 0xb0), (0x84bb, 0xe3, 0xc0), (0x84bc, 0xbb, 0x61),
  (0x84bd, 0x96, 0xc3), (0x84be, 0x99, 0xbd), (0x84bf, 0xbb, 0x55), (0x84c0, 0xbb, 0x5e),
  (0x84c1, 0xe3, 0xb8), (0x84c2, 0xe3, 0xb2), (0x84c4, 0xbb, 0x57), (0x84c5, 0xdf, 0xd4),
  (0x84c6, 0xbb, 0x56), (0x84c7, 0xe3, 0xc3), (0x84c9, 0xbb, 0x54), (0x84ca, 0xbb, 0x63),
  (0x84cb, 0xbb, 0x5c), (0x84cc, 0xe3, 0xc4), (0x84cd, 0xe3, 0xb9), (0x84ce, 0xe3, 0xb1),
  (0x84cf, 0xe3, 0xcc), (0x84d0, 0xe3, 0xbd), (0x84d1, 0xbb, 0x62), (0x84d2, 0xe3, 0xd0),
  (0x84d3, 0xbb, 0x5f), (0x84d4, 0xe3, 0xcf), (0x84d6, 0xe3, 0xc9), (0x84d7, 0xe3, 0xce),
  (0x84da, 0xa0, 0xcf), (0x84db, 0xe3, 0xd1), (0x84de, 0x8f, 0x6d), (0x84e1, 0x99, 0xbe),
  (0x84e2, 0x8e, 0xf4), (0x84e4, 0x8f, 0x72), (0x84e5, 0x95, 0xe4), (0x84e7, 0xe7, 0x73),
  (0x84e8, 0xe7, 0x74), (0x84e9, 0xe7, 0x67), (0x84ea, 0xe7, 0x66), (0x84eb, 0xe7, 0x62),
  (0x84ec, 0xbd, 0xb4), (0x84ee, 0xbd, 0xac), (0x84ef, 0xe7, 0x76), (0x84f0, 0xe7, 0x75),
  (0x84f1, 0xdf, 0xa9), (0x84f2, 0xe7, 0x5f), (0x84f3, 0xe7, 0x63), (0x84f4, 0xe7, 0x5d),
  (0x84f6, 0xe7, 0x70), (0x84f7, 0xe7, 0x61), (0x84f8, 0x99, 0xbf), (0x84f9, 0xe7, 0x77),
  (0x84fa, 0xe7, 0x5a), (0x84fb, 0xe7, 0x58), (0x84fc, 0xe7, 0x64), (0x84fd, 0xe7, 0x6e),
  (0x84fe, 0xe7, 0x69), (0x84ff, 0xbd, 0xb6), (0x8500, 0xe7, 0x4f), (0x8502, 0xe7, 0x6d),
  (0x8503, 0x92, 0x42), (0x8504, 0x87, 0xd7), (0x8505, 0xfb, 0xa5), (0x8506, 0xbd, 0xb7),
  (0x8507, 0xdf, 0xbd), (0x8508, 0xe7, 0x5b), (0x8509, 0xe7, 0x52), (0x850a, 0xe7, 0x55),
  (0x850b, 0xe7, 0x7b), (0x850c, 0xe7, 0x5c), (0x850d, 0xe7, 0x53), (0x850e, 0xe7, 0x51),
  (0x850f, 0xe7, 0x4e), (0x8510, 0x99, 0xc0), (0x8511, 0xbd, 0xb0), (0x8512, 0xe7, 0x65)]

/-- `ENCODE_TABLE[11904..12032]`, (code point, byte 0, byte 1).  src/generated/whatwg/big5_whatwg_tables.rs.inc:6449-6491 -/
def encRow93 : List (Nat × Nat × Nat) := [
  (0x8513, 0xbd, 0xaf), (0x8514, 0xbd, 0xb3), (0x8515, 0xe7, 0x60), (0x8516, 0xe7, 0x68),
  (0x8517, 0xbd, 0xa9), (0x8518, 0xe7, 0x78), (0x8519, 0xe7, 0x7c), (0x851a, 0xbd, 0xab),
  (0x851c, 0xe7, 0x57), (0x851d, 0xe7, 0x6b), (0x851e, 0xe7, 0x6f), (0x851f, 0xe7, 0x54),
  (0x8520, 0xe7, 0x79), (0x8521, 0xbd, 0xb2), (0x8523, 0xbd, 0xb1), (0x8524, 0xe7, 0x4c),
  (0x8525, 0xbd, 0xb5), (0x8526, 0xe7, 0x72), (0x8527, 0xe7, 0x56), (0x8528, 0xe7, 0x6a),
  (0x8529, 0xe7, 0x50), (0x852a, 0xe7, 0x5e), (0x852b, 0xe7, 0x59), (0x852c, 0xbd, 0xad),
  (0x852d, 0xbd, 0xae), (0x852e, 0xe7, 0x6c), (0x852f, 0xe7, 0x7d), (0x8530, 0xe7, 0x7a),
  (0x8531, 0xe7, 0x71), (0x8533, 0xfd, 0xb4), (0x8534, 0x8f, 0x77), (0x8538, 0x99, 0xc1),
  (0x853b, 0xe7, 0x4d), (0x853d, 0xbd, 0xaa), (0x853e, 0xeb, 0x49), (0x8540, 0xeb, 0x40),
  (0x8541, 0xeb, 0x43), (0x8542, 0xfa, 0xb9), (0x8543, 0xbf, 0xbb), (0x8544, 0xeb, 0x45),
  (0x8545, 0xea, 0xf9), (0x8546, 0xeb, 0x41), (0x8547, 0xeb, 0x47), (0x8548, 0xbf, 0xb8),
  (0x8549, 0xbf, 0xbc), (0x854a, 0xbf, 0xb6), (0x854b, 0x8f, 0x40), (0x854c, 0xfa, 0x44),
  (0x854d, 0xea, 0xfb), (0x854e, 0xeb, 0x4c), (0x8551, 0xeb, 0x46), (0x8552, 0x99, 0xc2),
  (0x8553, 0xea, 0xfc), (0x8554, 0xeb, 0x55), (0x8555, 0xeb, 0x4f), (0x8556, 0xea, 0xf8),
  (0x8557, 0xee, 0x46), (0x8558, 0xea, 0xfe), (0x8559, 0xbf, 0xb7), (0x855a, 0x8f, 0x5c),
  (0x855b, 0xeb, 0x4a), (0x855d, 0xeb, 0x54), (0x855e, 0xbf, 0xbf), (0x855f, 0x8c, 0xbd),
  (0x8560, 0xeb, 0x51), (0x8561, 0xea, 0xfd), (0x8562, 0xeb, 0x44), (0x8563, 0xeb, 0x48),
  (0x8564, 0xeb, 0x42), (0x8565, 0xeb, 0x56), (0x8566, 0xeb, 0x53), (0x8567, 0xeb, 0x50),
  (0x8568, 0xbf, 0xb9), (0x8569, 0xbf, 0xba), (0x856a, 0xbf, 0xbe), (0x856b, 0xea, 0xfa),
  (0x856c, 0xeb, 0x57), (0x856d, 0xbf, 0xbd), (0x856e, 0xeb, 0x4d), (0x856f, 0x99, 0xc4),
  (0x8570, 0x99, 0xc5), (0x8571, 0xeb, 0x4b), (0x8573, 0x8f, 0x7b), (0x8575, 0xeb, 0x4e),
  (0x8576, 0xee, 0x53), (0x8577, 0xee, 0x40), (0x8578, 0xee, 0x45), (0x8579, 0xee, 0x52),
  (0x857a, 0xee, 0x44), (0x857b, 0xed, 0xfb), (0x857c, 0xee, 0x41), (0x857e, 0xc1, 0xa2),
  (0x8580, 0xed, 0xf4), (0x8581, 0xee, 0x4d), (0x8582, 0xee, 0x4f), (0x8583, 0xed, 0xf3),
  (0x8584, 0xc1, 0xa1), (0x8585, 0xee, 0x51), (0x8586, 0xee, 0x49), (0x8587, 0xc1, 0xa8),
  (0x8588, 0xee, 0x50), (0x8589, 0xee, 0x42), (0x858a, 0xc1, 0xaa), (0x858b, 0xed, 0xf9),
  (0x858c, 0xeb, 0x52), (0x858d, 0xee, 0x4a), (0x858e, 0xee, 0x47), (0x858f, 0xed, 0xf5),
  (0x8590, 0xee, 0x55), (0x8591, 0xc1, 0xa4), (0x8593, 0x87, 0x76), (0x8594, 0xc1, 0xa5),
  (0x8595, 0xed, 0xf7), (0x8596, 0xee, 0x48), (0x8597, 0x8c, 0xb6), (0x8598, 0xee, 0x54),
  (0x8599, 0xee, 0x4b), (0x859a, 0xed, 0xfd), (0x859b, 0xc1, 0xa7), (0x859c, 0xc1, 0xa3),
  (0x859d, 0xee, 0x4c), (0x859e, 0xed, 0xfe), (0x859f, 0xee, 0x56), (0x85a0, 0xed, 0xf8),
  (0x85a1, 0xee, 0x43), (0x85a2, 0xee, 0x4e), (0x85a3, 0xed, 0xfa), (0x85a4, 0xed, 0xfc)]

/-- `ENCODE_TABLE[12032..12160]`, (code point, byte 0, byte 1).  src/generated/whatwg/big5_whatwg_tables.rs.inc:6491-6534 -/
def encRow94 : List (Nat × Nat × Nat) := [
  (0x85a6, 0xc2, 0xcb), (0x85a7, 0xed, 0xf6), (0x85a8, 0xc1, 0xa9), (0x85a9, 0xc2, 0xc4),
  (0x85aa, 0xc1, 0x7e), (0x85af, 0xc1, 0xa6), (0x85b0, 0xc2, 0xc8), (0x85b1, 0xf0, 0xb3),
  (0x85b3, 0xf0, 0xa9), (0x85b4, 0xf0, 0xa4), (0x85b5, 0xf0, 0xaa), (0x85b6, 0xf0, 0xb4),
  (0x85b7, 0xf0, 0xb8), (0x85b8, 0xf0, 0xb7), (0x85b9, 0xc2, 0xca), (0x85ba, 0xc2, 0xc9),
  (0x85bd, 0xf0, 0xab), (0x85be, 0xf0, 0xb9), (0x85bf, 0xf0, 0xae), (0x85c0, 0xf0, 0xa6),
  (0x85c1, 0x8f, 0xa3), (0x85c2, 0xf0, 0xa8), (0x85c3, 0xf0, 0xa7), (0x85c4, 0xf0, 0xad),
  (0x85c5, 0xf0, 0xb2), (0x85c6, 0xf0, 0xa5), (0x85c7, 0xf0, 0xac), (0x85c8, 0xf0, 0xb1),
  (0x85c9, 0xc2, 0xc7), (0x85cb, 0xf0, 0xaf), (0x85cd, 0xc2, 0xc5), (0x85ce, 0xf0, 0xb0),
  (0x85cf, 0xc2, 0xc3), (0x85d0, 0xc2, 0xc6), (0x85d1, 0xf2, 0xd5), (0x85d2, 0xf0, 0xb5),
  (0x85d5, 0xc3, 0xc2), (0x85d6, 0x8c, 0xce), (0x85d7, 0xf2, 0xcd), (0x85d8, 0xf2, 0xd1),
  (0x85d9, 0xf2, 0xc9), (0x85da, 0xf2, 0xcc), (0x85dc, 0xf2, 0xd4), (0x85dd, 0xc3, 0xc0),
  (0x85de, 0xf2, 0xd9), (0x85df, 0xf2, 0xd2), (0x85e0, 0x99, 0xc6), (0x85e1, 0xf2, 0xca),
  (0x85e2, 0xf2, 0xda), (0x85e3, 0xf2, 0xd3), (0x85e4, 0xc3, 0xc3), (0x85e5, 0xc3, 0xc4),
  (0x85e6, 0xf2, 0xd7), (0x85e8, 0xf2, 0xcb), (0x85e9, 0xc3, 0xbf), (0x85ea, 0xc3, 0xc1),
  (0x85eb, 0xf2, 0xc6), (0x85ec, 0xf2, 0xce), (0x85ed, 0xf2, 0xc8), (0x85ee, 0x96, 0xcd),
  (0x85ef, 0xf2, 0xd8), (0x85f0, 0xf2, 0xd6), (0x85f1, 0xf2, 0xc7), (0x85f2, 0xf2, 0xcf),
  (0x85f6, 0xf4, 0xbe), (0x85f7, 0xc3, 0xc5), (0x85f8, 0xf2, 0xd0), (0x85f9, 0xc4, 0xa7),
  (0x85fa, 0xc4, 0xa9), (0x85fb, 0xc4, 0xa6), (0x85fc, 0x96, 0xc7), (0x85fd, 0xf4, 0xc3),
  (0x85fe, 0xf4, 0xbb), (0x85ff, 0xf4, 0xb9), (0x8600, 0xf4, 0xbd), (0x8601, 0xf4, 0xba),
  (0x8602, 0x8f, 0xa5), (0x8604, 0xf4, 0xbf), (0x8605, 0xf4, 0xc1), (0x8606, 0xc4, 0xaa),
  (0x8607, 0xc4, 0xac), (0x8609, 0xf4, 0xc0), (0x860a, 0xc4, 0xad), (0x860b, 0xc4, 0xab),
  (0x860c, 0xf4, 0xc2), (0x860d, 0xfa, 0xbb), (0x860f, 0x8c, 0x61), (0x8610, 0x95, 0x70),
  (0x8611, 0xc4, 0xa8), (0x8613, 0x87, 0xaf), (0x8614, 0x93, 0x68), (0x8616, 0x8f, 0x7e),
  (0x8617, 0xc4, 0xf4), (0x8618, 0xf5, 0xf1), (0x8619, 0xf5, 0xf7), (0x861a, 0xc4, 0xf6),
  (0x861b, 0xf4, 0xbc), (0x861c, 0xf5, 0xf6), (0x861e, 0xf5, 0xfd), (0x861f, 0xf5, 0xf4),
  (0x8620, 0xf5, 0xfb), (0x8621, 0xf5, 0xfa), (0x8622, 0xf4, 0xb8), (0x8623, 0xf5, 0xf5),
  (0x8624, 0xf0, 0xb6), (0x8625, 0xf5, 0xfe), (0x8626, 0xf5, 0xf3), (0x8627, 0xf5, 0xf8),
  (0x8628, 0x8f, 0xaa), (0x8629, 0xf5, 0xfc), (0x862a, 0xf5, 0xf2), (0x862c, 0xf7, 0x4a),
  (0x862d, 0xc4, 0xf5), (0x862e, 0xf5, 0xf9), (0x862f, 0xa0, 0x50), (0x8631, 0xf7, 0xf4),
  (0x8632, 0xf7, 0x4b), (0x8633, 0xf7, 0x49), (0x8634, 0xf7, 0x47), (0x8635, 0xf7, 0x48),
  (0x8636, 0xf7, 0x4c), (0x8638, 0xc5, 0xd9), (0x8639, 0xf7, 0xf2), (0x863a, 0xf7, 0xf0),
  (0x863b, 0xf7, 0xf5), (0x863c, 0xf7, 0xf3), (0x863e, 0xf7, 0xf6), (0x863f, 0xc5, 0xda)]

/-- `ENCODE_TABLE[12160..12288]`, (code point, byte 0, byte 1).  src/generated/whatwg/big5_whatwg_tables.rs.inc:6534-6576 -/
def encRow95 : List (Nat × Nat × Nat) := [
  (0x8640, 0xf7, 0xf1), (0x8642, 0x90, 0xd3), (0x8643, 0xf8, 0xbc), (0x8645, 0x95, 0x56),
  (0x8646, 0xf9, 0x45), (0x8647, 0xf9, 0x46), (0x8648, 0xf9, 0x47), (0x864b, 0xf9, 0xc7),
  (0x864c, 0xf9, 0xbd), (0x864d, 0xca, 0x4f), (0x864e, 0xaa, 0xea), (0x8650, 0xad, 0x68),
  (0x8652, 0xd3, 0xb8), (0x8653, 0xd3, 0xb7), (0x8654, 0xb0, 0x40), (0x8655, 0xb3, 0x42),
  (0x8656, 0xd7, 0x7c), (0x8659, 0xd7, 0x7b), (0x865b, 0xb5, 0xea), (0x865c, 0xb8, 0xb8),
  (0x865e, 0xb8, 0xb7), (0x865f, 0xb8, 0xb9), (0x8661, 0xe3, 0xd4), (0x8662, 0xe7, 0x7e),
  (0x8663, 0xeb, 0x58), (0x8664, 0xeb, 0x5a), (0x8665, 0xeb, 0x59), (0x8667, 0xc1, 0xab),
  (0x8668, 0xee, 0x57), (0x8669, 0xf0, 0xba), (0x866a, 0xf9, 0xa5), (0x866b, 0xa6, 0xe4),
  (0x866c, 0x8f, 0xb8), (0x866d, 0xcd, 0xc9), (0x866e, 0xcd, 0xca), (0x866f, 0xcd, 0xc8),
  (0x8670, 0xcd, 0xc7), (0x8671, 0xaa, 0xeb), (0x8672, 0x99, 0xc8), (0x8673, 0xd0, 0xa9),
  (0x8674, 0xd0, 0xa7), (0x8677, 0xd0, 0xa6), (0x8679, 0xad, 0x69), (0x867a, 0xad, 0x6b),
  (0x867b, 0xad, 0x6a), (0x867c, 0xd0, 0xa8), (0x867e, 0x8f, 0xaf), (0x8685, 0xd3, 0xc4),
  (0x8686, 0xd3, 0xc1), (0x8687, 0xd3, 0xbf), (0x868a, 0xb0, 0x41), (0x868b, 0xd3, 0xc2),
  (0x868c, 0xb0, 0x46), (0x868d, 0xd3, 0xbc), (0x868e, 0xd3, 0xcb), (0x8690, 0xd3, 0xcd),
  (0x8691, 0xd3, 0xbd), (0x8692, 0x99, 0xc9), (0x8693, 0xb0, 0x43), (0x8694, 0xd3, 0xce),
  (0x8695, 0xd3, 0xc9), (0x8696, 0xd3, 0xbb), (0x8697, 0xd3, 0xc0), (0x8698, 0xd3, 0xca),
  (0x8699, 0xd3, 0xc6), (0x869a, 0xd3, 0xc3), (0x869c, 0xb0, 0x48), (0x869d, 0xd3, 0xcc),
  (0x869e, 0xd3, 0xbe), (0x86a0, 0x95, 0x79), (0x86a1, 0xd3, 0xc7), (0x86a2, 0xd3, 0xb9),
  (0x86a3, 0xb0, 0x47), (0x86a4, 0xb0, 0x44), (0x86a5, 0xd3, 0xc5), (0x86a7, 0xd3, 0xc8),
  (0x86a8, 0xd3, 0xba), (0x86a9, 0xb0, 0x45), (0x86aa, 0xb0, 0x42), (0x86ad, 0x9f, 0x49),
  (0x86af, 0xb3, 0x4c), (0x86b0, 0xd7, 0xa5), (0x86b1, 0xb3, 0x4b), (0x86b2, 0x99, 0xca),
  (0x86b3, 0xd7, 0xa8), (0x86b4, 0xd7, 0xab), (0x86b5, 0xb3, 0x48), (0x86b6, 0xb3, 0x46),
  (0x86b7, 0xd7, 0x7e), (0x86b8, 0xd7, 0xa9), (0x86b9, 0xd7, 0xa7), (0x86ba, 0xd7, 0xa4),
  (0x86bb, 0xd7, 0xac), (0x86bc, 0xd7, 0xad), (0x86bd, 0xd7, 0xaf), (0x86be, 0xd7, 0xb0),
  (0x86bf, 0xd7, 0x7d), (0x86c0, 0xb3, 0x45), (0x86c1, 0xd7, 0xa2), (0x86c2, 0xd7, 0xa1),
  (0x86c3, 0xd7, 0xae), (0x86c4, 0xb3, 0x47), (0x86c5, 0xd7, 0xa3), (0x86c6, 0xb3, 0x49),
  (0x86c7, 0xb3, 0x44), (0x86c8, 0xd7, 0xa6), (0x86c9, 0xb3, 0x4d), (0x86cb, 0xb3, 0x4a),
  (0x86cc, 0xd7, 0xaa), (0x86d0, 0xb5, 0xf1), (0x86d1, 0xdb, 0xbf), (0x86d3, 0xdb, 0xb4),
  (0x86d4, 0xb5, 0xee), (0x86d6, 0xdf, 0xe7), (0x86d7, 0xdb, 0xbd), (0x86d8, 0xdb, 0xb1),
  (0x86d9, 0xb5, 0xec), (0x86da, 0xdb, 0xb6), (0x86db, 0xb5, 0xef), (0x86dc, 0xdb, 0xba),
  (0x86dd, 0xdb, 0xb8), (0x86de, 0xb5, 0xf2), (0x86df, 0xb5, 0xeb), (0x86e2, 0xdb, 0xb2),
  (0x86e3, 0xdb, 0xb5), (0x86e4, 0xb5, 0xf0), (0x86e6, 0xdb, 0xb3), (0x86e8, 0xdb, 0xbe)]

/-- `ENCODE_TABLE[12288..12416]`, (code point, byte 0, byte 1).  src/generated/whatwg/big5_whatwg_tables.rs.inc:6577-6619 -/
def encRow96 : List (Nat × Nat × Nat) := [
  (0x86e9, 0xdb, 0xbc), (0x86ea, 0xdb, 0xb7), (0x86eb, 0xdb, 0xb9), (0x86ec, 0xdb, 0xbb),
  (0x86ed, 0xb5, 0xed), (0x86ef, 0x99, 0xcb), (0x86f5, 0xdf, 0xe8), (0x86f6, 0xdf, 0xee),
  (0x86f7, 0xdf, 0xe4), (0x86f8, 0xdf, 0xea), (0x86f9, 0xb8, 0xba), (0x86fa, 0xdf, 0xe6),
  (0x86fb, 0xb8, 0xc0), (0x86fe, 0xb8, 0xbf), (0x8700, 0xb8, 0xbe), (0x8701, 0xdf, 0xed),
  (0x8702, 0xb8, 0xc1), (0x8703, 0xb8, 0xc2), (0x8704, 0xdf, 0xe3), (0x8705, 0xdf, 0xf0),
  (0x8706, 0xb8, 0xc3), (0x8707, 0xb8, 0xbd), (0x8708, 0xb8, 0xbc), (0x8709, 0xdf, 0xec),
  (0x870a, 0xb8, 0xc4), (0x870b, 0xdf, 0xe2), (0x870c, 0xdf, 0xe5), (0x870d, 0xdf, 0xef),
  (0x870e, 0xdf, 0xeb), (0x8711, 0xe3, 0xf4), (0x8712, 0xe3, 0xe9), (0x8713, 0xb8, 0xbb),
  (0x8718, 0xbb, 0x6a), (0x8719, 0xe3, 0xdd), (0x871a, 0xe3, 0xf2), (0x871b, 0xe3, 0xde),
  (0x871c, 0xbb, 0x65), (0x871e, 0xe3, 0xdb), (0x8720, 0xe3, 0xe4), (0x8721, 0xe3, 0xdc),
  (0x8722, 0xbb, 0x67), (0x8723, 0xe3, 0xd6), (0x8724, 0xe3, 0xf1), (0x8725, 0xbb, 0x68),
  (0x8726, 0xe3, 0xee), (0x8727, 0xe3, 0xef), (0x8728, 0xe3, 0xd7), (0x8729, 0xbb, 0x6d),
  (0x872a, 0xe3, 0xe6), (0x872c, 0xe3, 0xe0), (0x872d, 0xe3, 0xe7), (0x872e, 0xe3, 0xda),
  (0x8730, 0xe3, 0xf3), (0x8731, 0xe3, 0xeb), (0x8732, 0xe3, 0xe5), (0x8733, 0xe3, 0xd5),
  (0x8734, 0xbb, 0x69), (0x8735, 0xe3, 0xec), (0x8737, 0xbb, 0x6c), (0x8738, 0xe3, 0xf0),
  (0x873a, 0xe3, 0xea), (0x873b, 0xbb, 0x66), (0x873c, 0xe3, 0xe8), (0x873e, 0xe3, 0xe2),
  (0x873f, 0xbb, 0x64), (0x8740, 0xe3, 0xd9), (0x8741, 0xe3, 0xe1), (0x8742, 0xe3, 0xed),
  (0x8743, 0xe3, 0xdf), (0x8746, 0xe3, 0xe3), (0x874c, 0xbd, 0xc1), (0x874d, 0xdf, 0xe9),
  (0x874e, 0xe7, 0xb2), (0x874f, 0xe7, 0xbb), (0x8750, 0xe7, 0xb1), (0x8751, 0xe7, 0xad),
  (0x8752, 0xe7, 0xaa), (0x8753, 0xbd, 0xc2), (0x8754, 0xe7, 0xa8), (0x8755, 0xbb, 0x6b),
  (0x8756, 0xe7, 0xa1), (0x8757, 0xbd, 0xc0), (0x8758, 0xe7, 0xa7), (0x8759, 0xbd, 0xbf),
  (0x875a, 0xe7, 0xac), (0x875b, 0xe7, 0xa9), (0x875c, 0xe7, 0xb9), (0x875d, 0xe7, 0xb4),
  (0x875e, 0xe7, 0xae), (0x875f, 0xe7, 0xb3), (0x8760, 0xbd, 0xbb), (0x8761, 0xe7, 0xab),
  (0x8762, 0xe7, 0xbe), (0x8763, 0xe7, 0xa2), (0x8764, 0xe7, 0xa3), (0x8765, 0xe7, 0xba),
  (0x8766, 0xbd, 0xbc), (0x8767, 0xe7, 0xbf), (0x8768, 0xbd, 0xbe), (0x8769, 0xe7, 0xc0),
  (0x876a, 0xe7, 0xb0), (0x876b, 0xe3, 0xd8), (0x876c, 0xe7, 0xb6), (0x876d, 0xe7, 0xaf),
  (0x876e, 0xe7, 0xb8), (0x876f, 0xe7, 0xb5), (0x8770, 0x9d, 0xd5), (0x8771, 0x8f, 0xb0),
  (0x8773, 0xe7, 0xa6), (0x8774, 0xbd, 0xb9), (0x8775, 0xe7, 0xbd), (0x8776, 0xbd, 0xba),
  (0x8777, 0xe7, 0xa4), (0x8778, 0xbd, 0xbd), (0x8779, 0xeb, 0x64), (0x877a, 0xe7, 0xb7),
  (0x877b, 0xe7, 0xbc), (0x877d, 0xfa, 0x7a), (0x8781, 0xeb, 0x61), (0x8782, 0xbd, 0xb8),
  (0x8783, 0xbf, 0xc0), (0x8784, 0xeb, 0x6b), (0x8785, 0xeb, 0x67), (0x8786, 0x9e, 0x5f),
  (0x8787, 0xeb, 0x65), (0x8788, 0xeb, 0x60), (0x8789, 0xeb, 0x6f), (0x878b, 0x99, 0xcd)]

/-- `ENCODE_TABLE[12416..12544]`, (code point, byte 0, byte 1).  src/generated/whatwg/big5_whatwg_tables.rs.inc:6619-6662 -/
def encRow97 : List (Nat × Nat × Nat) := [
  (0x878c, 0xa0, 0xc9), (0x878d, 0xbf, 0xc4), (0x878f, 0xeb, 0x5c), (0x8790, 0xeb, 0x68),
  (0x8791, 0xeb, 0x69), (0x8792, 0xeb, 0x5f), (0x8793, 0xeb, 0x5e), (0x8794, 0xeb, 0x6c),
  (0x8796, 0xeb, 0x62), (0x8797, 0xeb, 0x5d), (0x8798, 0xeb, 0x63), (0x879a, 0xeb, 0x6e),
  (0x879b, 0xeb, 0x5b), (0x879c, 0xeb, 0x6d), (0x879d, 0xeb, 0x6a), (0x879e, 0xbf, 0xc2),
  (0x879f, 0xbf, 0xc1), (0x87a2, 0xbf, 0xc3), (0x87a3, 0xeb, 0x66), (0x87a4, 0xf0, 0xcb),
  (0x87a5, 0x9a, 0xdb), (0x87a9, 0xa0, 0xc6), (0x87aa, 0xee, 0x59), (0x87ab, 0xc1, 0xb1),
  (0x87ac, 0xee, 0x5d), (0x87ad, 0xee, 0x5a), (0x87ae, 0xee, 0x61), (0x87af, 0xee, 0x67),
  (0x87b0, 0xee, 0x5c), (0x87b1, 0x8f, 0xb4), (0x87b2, 0xee, 0x70), (0x87b3, 0xc1, 0xae),
  (0x87b4, 0xee, 0x6a), (0x87b5, 0xee, 0x5f), (0x87b6, 0xee, 0x6b), (0x87b7, 0xee, 0x66),
  (0x87b8, 0xee, 0x6d), (0x87b9, 0xee, 0x5e), (0x87ba, 0xc1, 0xb3), (0x87bb, 0xc1, 0xb2),
  (0x87bc, 0xee, 0x60), (0x87bd, 0xee, 0x6e), (0x87be, 0xee, 0x58), (0x87bf, 0xee, 0x6c),
  (0x87c0, 0xc1, 0xac), (0x87c1, 0xa0, 0xd7), (0x87c2, 0xee, 0x64), (0x87c3, 0xee, 0x63),
  (0x87c4, 0xee, 0x68), (0x87c5, 0xee, 0x5b), (0x87c6, 0xc1, 0xb0), (0x87c8, 0xc1, 0xb4),
  (0x87c9, 0xee, 0x62), (0x87ca, 0xee, 0x69), (0x87cb, 0xc1, 0xb5), (0x87cc, 0xee, 0x65),
  (0x87ce, 0xa0, 0xc7), (0x87d1, 0xc1, 0xad), (0x87d2, 0xc1, 0xaf), (0x87d3, 0xf0, 0xc7),
  (0x87d4, 0xf0, 0xc5), (0x87d6, 0xa0, 0x43), (0x87d7, 0xf0, 0xcc), (0x87d8, 0xf0, 0xc9),
  (0x87d9, 0xf0, 0xcd), (0x87da, 0x8f, 0xb5), (0x87db, 0xf0, 0xbe), (0x87dc, 0xf0, 0xc6),
  (0x87dd, 0xf0, 0xd1), (0x87de, 0xee, 0x6f), (0x87df, 0xf0, 0xc2), (0x87e0, 0xc2, 0xcf),
  (0x87e1, 0xe7, 0xa5), (0x87e2, 0xf0, 0xbd), (0x87e3, 0xf0, 0xca), (0x87e4, 0xf0, 0xc4),
  (0x87e5, 0xf0, 0xc1), (0x87e6, 0xf0, 0xbc), (0x87e7, 0xf0, 0xbb), (0x87e8, 0xf0, 0xd0),
  (0x87ea, 0xf0, 0xc0), (0x87eb, 0xf0, 0xbf), (0x87ec, 0xc2, 0xcd), (0x87ed, 0xf0, 0xc8),
  (0x87ee, 0x8f, 0xb2), (0x87ef, 0xc2, 0xcc), (0x87f2, 0xc2, 0xce), (0x87f3, 0xf0, 0xc3),
  (0x87f4, 0xf0, 0xcf), (0x87f5, 0xa0, 0x61), (0x87f6, 0xf2, 0xde), (0x87f7, 0xf2, 0xdf),
  (0x87f9, 0xc3, 0xc9), (0x87fa, 0xf2, 0xdc), (0x87fb, 0xc3, 0xc6), (0x87fc, 0xf2, 0xe4),
  (0x87fe, 0xc3, 0xca), (0x87ff, 0xf2, 0xe6), (0x8800, 0xf2, 0xdb), (0x8801, 0xf0, 0xce),
  (0x8802, 0xf2, 0xe8), (0x8803, 0xf2, 0xdd), (0x8804, 0x9e, 0x5e), (0x8805, 0xc3, 0xc7),
  (0x8806, 0xf2, 0xe3), (0x8808, 0xf2, 0xe5), (0x8809, 0xf2, 0xe0), (0x880a, 0xf2, 0xe7),
  (0x880b, 0xf2, 0xe2), (0x880c, 0xf2, 0xe1), (0x880d, 0xc3, 0xc8), (0x880f, 0x8f, 0xb6),
  (0x8810, 0xf4, 0xc5), (0x8811, 0xf4, 0xc6), (0x8813, 0xf4, 0xc8), (0x8814, 0xc4, 0xae),
  (0x8815, 0xc4, 0xaf), (0x8816, 0xf4, 0xc9), (0x8817, 0xf4, 0xc7), (0x8818, 0x9f, 0xe8),
  (0x8819, 0xf4, 0xc4), (0x881b, 0xf6, 0x42), (0x881c, 0xf6, 0x45), (0x881d, 0xf6, 0x41),
  (0x881f, 0xc4, 0xfa), (0x8820, 0xf6, 0x43), (0x8821, 0xc4, 0xf9), (0x8822, 0xc4, 0xf8)]

/-- `ENCODE_TABLE[12544..12672]`, (code point, byte 0, byte 1).  src/generated/whatwg/big5_whatwg_tables.rs.inc:6662-6704 -/
def encRow98 : List (Nat × Nat × Nat) := [
  (0x8823, 0xc4, 0xf7), (0x8824, 0xf6, 0x44), (0x8825, 0xf7, 0x51), (0x8826, 0xf7, 0x4f),
  (0x8827, 0x9c, 0xb2), (0x8828, 0xf7, 0x4e), (0x8829, 0xf6, 0x40), (0x882a, 0xf7, 0x50),
  (0x882b, 0xf6, 0x46), (0x882c, 0xf7, 0x4d), (0x882d, 0x95, 0x7c), (0x882e, 0xf7, 0xf9),
  (0x882f, 0xf7, 0xd7), (0x8830, 0xf7, 0xf7), (0x8831, 0xc5, 0xdb), (0x8832, 0xf7, 0xf8),
  (0x8833, 0xf7, 0xfa), (0x8835, 0xf8, 0xbf), (0x8836, 0xc5, 0xfa), (0x8837, 0xf8, 0xbe),
  (0x8838, 0xf8, 0xbd), (0x8839, 0xc5, 0xfb), (0x883b, 0xc6, 0x5a), (0x883c, 0xf9, 0x6e),
  (0x883d, 0xf9, 0xa7), (0x883e, 0xf9, 0xa6), (0x883f, 0xf9, 0xa8), (0x8840, 0xa6, 0xe5),
  (0x8841, 0xd0, 0xaa), (0x8842, 0x9f, 0xc7), (0x8843, 0xd3, 0xcf), (0x8844, 0xd3, 0xd0),
  (0x8845, 0x8f, 0xbb), (0x8846, 0x8f, 0xbc), (0x8848, 0xdb, 0xc0), (0x884a, 0xf6, 0x47),
  (0x884b, 0xf8, 0xc0), (0x884c, 0xa6, 0xe6), (0x884d, 0xad, 0x6c), (0x884e, 0xd0, 0xab),
  (0x884f, 0x8f, 0xec), (0x8852, 0xd7, 0xb1), (0x8853, 0xb3, 0x4e), (0x8855, 0xdb, 0xc2),
  (0x8856, 0xdb, 0xc1), (0x8857, 0xb5, 0xf3), (0x8859, 0xb8, 0xc5), (0x885a, 0xe7, 0xc1),
  (0x885b, 0xbd, 0xc3), (0x885d, 0xbd, 0xc4), (0x885e, 0x8f, 0xc0), (0x8860, 0x93, 0x6a),
  (0x8861, 0xbf, 0xc5), (0x8862, 0xc5, 0xfc), (0x8863, 0xa6, 0xe7), (0x8864, 0x8b, 0xe4),
  (0x8865, 0x9c, 0x7c), (0x8867, 0xd0, 0xac), (0x8868, 0xaa, 0xed), (0x8869, 0xd0, 0xae),
  (0x886a, 0xd0, 0xad), (0x886b, 0xad, 0x6d), (0x886d, 0xd3, 0xd1), (0x886e, 0x95, 0xa1),
  (0x886f, 0xd3, 0xd8), (0x8870, 0xb0, 0x49), (0x8871, 0xd3, 0xd6), (0x8872, 0xd3, 0xd4),
  (0x8874, 0xd3, 0xdb), (0x8875, 0xd3, 0xd2), (0x8876, 0xd3, 0xd3), (0x8877, 0xb0, 0x4a),
  (0x8879, 0xb0, 0x4e), (0x887c, 0xd3, 0xdc), (0x887d, 0xb0, 0x4d), (0x887e, 0xd3, 0xda),
  (0x887f, 0xd3, 0xd7), (0x8880, 0xd3, 0xd5), (0x8881, 0xb0, 0x4b), (0x8882, 0xb0, 0x4c),
  (0x8883, 0xd3, 0xd9), (0x8884, 0xfe, 0xec), (0x8887, 0x95, 0xa3), (0x8888, 0xb3, 0x50),
  (0x8889, 0xd7, 0xb2), (0x888b, 0xb3, 0x55), (0x888c, 0xd7, 0xc2), (0x888d, 0xb3, 0x54),
  (0x888e, 0xd7, 0xc4), (0x888f, 0x8c, 0x45), (0x8890, 0x8c, 0xb8), (0x8891, 0xd7, 0xb8),
  (0x8892, 0xb3, 0x52), (0x8893, 0xd7, 0xc3), (0x8895, 0xd7, 0xb3), (0x8896, 0xb3, 0x53),
  (0x8897, 0xd7, 0xbf), (0x8898, 0xd7, 0xbb), (0x8899, 0xd7, 0xbd), (0x889a, 0xd7, 0xb7),
  (0x889b, 0xd7, 0xbe), (0x889c, 0x8f, 0xc1), (0x889d, 0x87, 0xb7), (0x889e, 0xb3, 0x4f),
  (0x889f, 0xd7, 0xba), (0x88a0, 0xa0, 0x52), (0x88a1, 0xd7, 0xb9), (0x88a2, 0xd7, 0xb5),
  (0x88a4, 0xd7, 0xc0), (0x88a7, 0xd7, 0xbc), (0x88a8, 0xd7, 0xb4), (0x88aa, 0xd7, 0xb6),
  (0x88ab, 0xb3, 0x51), (0x88ac, 0xd7, 0xc1), (0x88ae, 0x99, 0xd0), (0x88b1, 0xb5, 0xf6),
  (0x88b2, 0xdb, 0xcd), (0x88b4, 0x8f, 0xc3), (0x88b5, 0x8f, 0xc4), (0x88b6, 0xdb, 0xc9),
  (0x88b7, 0xdb, 0xcb), (0x88b8, 0xdb, 0xc6), (0x88b9, 0xdb, 0xc5), (0x88ba, 0xdb, 0xc3),
  (0x88bc, 0xdb, 0xca), (0x88bd, 0xdb, 0xcc), (0x88be, 0xdb, 0xc8), (0x88bf, 0x95, 0xa4)]

/-- `ENCODE_TABLE[12672..12800]`, (code point, byte 0, byte 1).  src/generated/whatwg/big5_whatwg_tables.rs.inc:6705-6747 -/
def encRow99 : List (Nat × Nat × Nat) := [
  (0x88c0, 0xdb, 0xc7), (0x88c1, 0xb5, 0xf4), (0x88c2, 0xb5, 0xf5), (0x88c5, 0x8f, 0xc6),
  (0x88c7, 0x9e, 0x60), (0x88c9, 0xdb, 0xcf), (0x88ca, 0xb8, 0xcd), (0x88cb, 0xdf, 0xf2),
  (0x88cc, 0xdf, 0xf8), (0x88cd, 0xdf, 0xf3), (0x88ce, 0xdf, 0xf4), (0x88cf, 0xf9, 0xd8),
  (0x88d0, 0xdf, 0xf9), (0x88d2, 0xb8, 0xcf), (0x88d4, 0xb8, 0xc7), (0x88d5, 0xb8, 0xce),
  (0x88d6, 0xdf, 0xf1), (0x88d7, 0xdb, 0xc4), (0x88d8, 0xb8, 0xca), (0x88d9, 0xb8, 0xc8),
  (0x88da, 0xdf, 0xf7), (0x88db, 0xdf, 0xf6), (0x88dc, 0xb8, 0xc9), (0x88dd, 0xb8, 0xcb),
  (0x88de, 0xdf, 0xf5), (0x88df, 0xb8, 0xc6), (0x88e1, 0xb8, 0xcc), (0x88e6, 0x95, 0xa5),
  (0x88e7, 0xe3, 0xf6), (0x88e8, 0xbb, 0x74), (0x88eb, 0xe4, 0x42), (0x88ec, 0xe4, 0x41),
  (0x88ee, 0xe3, 0xfb), (0x88ef, 0xbb, 0x76), (0x88f0, 0xe4, 0x40), (0x88f1, 0xe3, 0xf7),
  (0x88f2, 0xe3, 0xf8), (0x88f3, 0xbb, 0x6e), (0x88f4, 0xbb, 0x70), (0x88f5, 0x9c, 0xb3),
  (0x88f6, 0xe3, 0xfd), (0x88f7, 0xe3, 0xf5), (0x88f8, 0xbb, 0x72), (0x88f9, 0xbb, 0x71),
  (0x88fa, 0xe3, 0xf9), (0x88fb, 0xe3, 0xfe), (0x88fc, 0xe3, 0xfc), (0x88fd, 0xbb, 0x73),
  (0x88fe, 0xe3, 0xfa), (0x88ff, 0x99, 0xd1), (0x8900, 0xfe, 0xf1), (0x8901, 0xdb, 0xce),
  (0x8902, 0xbb, 0x6f), (0x8905, 0xe7, 0xc2), (0x8906, 0xe7, 0xc9), (0x8907, 0xbd, 0xc6),
  (0x8909, 0xe7, 0xcd), (0x890a, 0xbd, 0xca), (0x890b, 0xe7, 0xc5), (0x890c, 0xe7, 0xc3),
  (0x890e, 0xe7, 0xcc), (0x8910, 0xbd, 0xc5), (0x8911, 0xe7, 0xcb), (0x8912, 0xbd, 0xc7),
  (0x8913, 0xbd, 0xc8), (0x8914, 0xe7, 0xc4), (0x8915, 0xbd, 0xc9), (0x8916, 0xe7, 0xca),
  (0x8917, 0xe7, 0xc6), (0x8918, 0xe7, 0xc7), (0x8919, 0xe7, 0xc8), (0x891a, 0xbb, 0x75),
  (0x891e, 0xeb, 0x70), (0x891f, 0xeb, 0x7c), (0x8921, 0xbf, 0xca), (0x8922, 0xeb, 0x77),
  (0x8923, 0xeb, 0x79), (0x8924, 0x99, 0xd2), (0x8925, 0xbf, 0xc8), (0x8926, 0xeb, 0x71),
  (0x8927, 0xeb, 0x75), (0x8929, 0xeb, 0x78), (0x892a, 0xbf, 0xc6), (0x892b, 0xbf, 0xc9),
  (0x892c, 0xeb, 0x7b), (0x892d, 0xeb, 0x73), (0x892e, 0xeb, 0x74), (0x892f, 0xeb, 0x7a),
  (0x8930, 0xeb, 0x72), (0x8931, 0xeb, 0x76), (0x8932, 0xbf, 0xc7), (0x8933, 0xee, 0x72),
  (0x8935, 0xee, 0x71), (0x8936, 0xc1, 0xb7), (0x8937, 0xee, 0x77), (0x8938, 0xc1, 0xb9),
  (0x893b, 0xc1, 0xb6), (0x893c, 0xee, 0x73), (0x893d, 0xc1, 0xba), (0x893e, 0xee, 0x74),
  (0x8941, 0xee, 0x75), (0x8942, 0xee, 0x78), (0x8943, 0x9c, 0xc2), (0x8944, 0xc1, 0xb8),
  (0x8946, 0xf0, 0xd6), (0x8947, 0x99, 0xd3), (0x8949, 0xf0, 0xd9), (0x894b, 0xf0, 0xd3),
  (0x894c, 0xf0, 0xd5), (0x894d, 0x95, 0xa7), (0x894f, 0xf0, 0xd4), (0x8950, 0xf0, 0xd7),
  (0x8951, 0xf0, 0xd8), (0x8952, 0xee, 0x76), (0x8953, 0xf0, 0xd2), (0x8954, 0x95, 0xa9),
  (0x8956, 0xc3, 0xcd), (0x8957, 0xf2, 0xec), (0x8958, 0xf2, 0xef), (0x8959, 0xf2, 0xf1),
  (0x895a, 0xf2, 0xea), (0x895b, 0xf2, 0xeb), (0x895c, 0xf2, 0xee), (0x895d, 0xf2, 0xf0),
  (0x895e, 0xc3, 0xce), (0x895f, 0xc3, 0xcc), (0x8960, 0xc3, 0xcb), (0x8961, 0xf2, 0xed)]

/-- `ENCODE_TABLE[12800..12928]`, (code point, byte 0, byte 1).  src/generated/whatwg/big5_whatwg_tables.rs.inc:6747-6790 -/
def encRow100 : List (Nat × Nat × Nat) := [
  (0x8962, 0xf2, 0xe9), (0x8963, 0xf4, 0xca), (0x8964, 0xc4, 0xb0), (0x8965, 0x95, 0xa6),
  (0x8966, 0xf4, 0xcb), (0x8969, 0xf6, 0x49), (0x896a, 0xc4, 0xfb), (0x896b, 0xf6, 0x4b),
  (0x896c, 0xc4, 0xfc), (0x896d, 0xf6, 0x48), (0x896e, 0xf6, 0x4a), (0x896f, 0xc5, 0xa8),
  (0x8971, 0xf7, 0x52), (0x8972, 0xc5, 0xa7), (0x8973, 0xf7, 0xfd), (0x8974, 0xf7, 0xfc),
  (0x8976, 0xf7, 0xfb), (0x8977, 0x9c, 0x5d), (0x8979, 0xf9, 0x48), (0x897a, 0xf9, 0x49),
  (0x897b, 0xf9, 0x4b), (0x897c, 0xf9, 0x4a), (0x897e, 0xca, 0x50), (0x897f, 0xa6, 0xe8),
  (0x8980, 0x98, 0xe2), (0x8981, 0xad, 0x6e), (0x8982, 0xd7, 0xc5), (0x8983, 0xb5, 0xf7),
  (0x8985, 0xdf, 0xfa), (0x8986, 0xc2, 0xd0), (0x8987, 0x8f, 0xc9), (0x8988, 0xf2, 0xf2),
  (0x8989, 0xa0, 0xc2), (0x898a, 0x8f, 0xca), (0x898b, 0xa8, 0xa3), (0x898f, 0xb3, 0x57),
  (0x8991, 0x99, 0xd4), (0x8993, 0xb3, 0x56), (0x8994, 0xa0, 0xb9), (0x8995, 0xdb, 0xd0),
  (0x8996, 0xb5, 0xf8), (0x8997, 0xdb, 0xd2), (0x8998, 0xdb, 0xd1), (0x899b, 0xdf, 0xfb),
  (0x899c, 0xb8, 0xd0), (0x899d, 0xe4, 0x43), (0x899e, 0xe4, 0x46), (0x899f, 0xe4, 0x45),
  (0x89a1, 0xe4, 0x44), (0x89a2, 0xe7, 0xce), (0x89a3, 0xe7, 0xd0), (0x89a4, 0xe7, 0xcf),
  (0x89a5, 0x9b, 0x58), (0x89a6, 0x8f, 0xcb), (0x89a7, 0x8f, 0xcd), (0x89a9, 0x8f, 0xcc),
  (0x89aa, 0xbf, 0xcb), (0x89ac, 0xc1, 0xbb), (0x89ad, 0xee, 0x79), (0x89ae, 0xee, 0x7b),
  (0x89af, 0xee, 0x7a), (0x89b2, 0xc2, 0xd1), (0x89b6, 0xf2, 0xf4), (0x89b7, 0xf2, 0xf3),
  (0x89b9, 0xf4, 0xcc), (0x89ba, 0xc4, 0xb1), (0x89bc, 0x8f, 0xce), (0x89bd, 0xc4, 0xfd),
  (0x89be, 0xf7, 0x54), (0x89bf, 0xf7, 0x53), (0x89c0, 0xc6, 0x5b), (0x89c1, 0x8b, 0xe5),
  (0x89c6, 0x89, 0x79), (0x89d2, 0xa8, 0xa4), (0x89d3, 0xd0, 0xaf), (0x89d4, 0xad, 0x6f),
  (0x89d5, 0xd7, 0xc8), (0x89d6, 0xd7, 0xc6), (0x89d9, 0xd7, 0xc7), (0x89da, 0xdb, 0xd4),
  (0x89db, 0xdb, 0xd5), (0x89dc, 0xe0, 0x43), (0x89dd, 0xdb, 0xd3), (0x89df, 0xdf, 0xfc),
  (0x89e0, 0xe0, 0x41), (0x89e1, 0xe0, 0x40), (0x89e2, 0xe0, 0x42), (0x89e3, 0xb8, 0xd1),
  (0x89e4, 0xdf, 0xfe), (0x89e5, 0xdf, 0xfd), (0x89e6, 0xe0, 0x44), (0x89e7, 0x8f, 0xd0),
  (0x89e8, 0xe4, 0x49), (0x89e9, 0xe4, 0x47), (0x89eb, 0xe4, 0x48), (0x89ec, 0xe7, 0xd3),
  (0x89ed, 0xe7, 0xd1), (0x89f0, 0xe7, 0xd2), (0x89f1, 0xeb, 0x7d), (0x89f2, 0xee, 0x7c),
  (0x89f3, 0xee, 0x7d), (0x89f4, 0xc2, 0xd2), (0x89f6, 0xf2, 0xf5), (0x89f7, 0xf4, 0xcd),
  (0x89f8, 0xc4, 0xb2), (0x89fa, 0xf6, 0x4c), (0x89fb, 0xf7, 0x55), (0x89fc, 0xc5, 0xa9),
  (0x89fe, 0xf7, 0xfe), (0x89ff, 0xf9, 0x4c), (0x8a00, 0xa8, 0xa5), (0x8a02, 0xad, 0x71),
  (0x8a03, 0xad, 0x72), (0x8a04, 0xd0, 0xb0), (0x8a07, 0xd0, 0xb1), (0x8a08, 0xad, 0x70),
  (0x8a0a, 0xb0, 0x54), (0x8a0c, 0xb0, 0x52), (0x8a0e, 0xb0, 0x51), (0x8a0f, 0xb0, 0x58),
  (0x8a10, 0xb0, 0x50), (0x8a11, 0xb0, 0x59), (0x8a12, 0xd3, 0xdd), (0x8a13, 0xb0, 0x56),
  (0x8a15, 0xb0, 0x53), (0x8a16, 0xb0, 0x57), (0x8a17, 0xb0, 0x55), (0x8a18, 0xb0, 0x4f)]

/-- `ENCODE_TABLE[12928..13056]`, (code point, byte 0, byte 1).  src/generated/whatwg/big5_whatwg_tables.rs.inc:6790-6832 -/
def encRow101 : List (Nat × Nat × Nat) := [
  (0x8a1b, 0xb3, 0x5f), (0x8a1c, 0x95, 0xb6), (0x8a1d, 0xb3, 0x59), (0x8a1e, 0xd7, 0xcc),
  (0x8a1f, 0xb3, 0x5e), (0x8a22, 0xb3, 0x60), (0x8a23, 0xb3, 0x5a), (0x8a25, 0xb3, 0x5b),
  (0x8a27, 0xd7, 0xca), (0x8a29, 0x99, 0xd6), (0x8a2a, 0xb3, 0x58), (0x8a2b, 0x95, 0xe5),
  (0x8a2c, 0xd7, 0xcb), (0x8a2d, 0xb3, 0x5d), (0x8a30, 0xd7, 0xc9), (0x8a31, 0xb3, 0x5c),
  (0x8a34, 0xb6, 0x44), (0x8a36, 0xb6, 0x46), (0x8a38, 0x99, 0xd7), (0x8a39, 0xdb, 0xd8),
  (0x8a3a, 0xb6, 0x45), (0x8a3b, 0xb5, 0xf9), (0x8a3c, 0xb5, 0xfd), (0x8a3d, 0x95, 0xb5),
  (0x8a3e, 0xb8, 0xe4), (0x8a3f, 0xe0, 0x49), (0x8a40, 0xdb, 0xda), (0x8a41, 0xb5, 0xfe),
  (0x8a44, 0xdb, 0xdd), (0x8a45, 0xdb, 0xde), (0x8a46, 0xb6, 0x43), (0x8a48, 0xdb, 0xe0),
  (0x8a49, 0xa0, 0xca), (0x8a4a, 0xdb, 0xe2), (0x8a4c, 0xdb, 0xe3), (0x8a4d, 0xdb, 0xd7),
  (0x8a4e, 0xdb, 0xd6), (0x8a4f, 0xdb, 0xe4), (0x8a50, 0xb6, 0x42), (0x8a51, 0xdb, 0xe1),
  (0x8a52, 0xdb, 0xdf), (0x8a54, 0xb6, 0x40), (0x8a55, 0xb5, 0xfb), (0x8a56, 0xb6, 0x47),
  (0x8a57, 0xdb, 0xdb), (0x8a58, 0xdb, 0xdc), (0x8a59, 0xdb, 0xd9), (0x8a5b, 0xb6, 0x41),
  (0x8a5e, 0xb5, 0xfc), (0x8a60, 0xb5, 0xfa), (0x8a61, 0xe0, 0x48), (0x8a62, 0xb8, 0xdf),
  (0x8a63, 0xb8, 0xda), (0x8a66, 0xb8, 0xd5), (0x8a67, 0x9f, 0xfd), (0x8a68, 0xb8, 0xe5),
  (0x8a69, 0xb8, 0xd6), (0x8a6b, 0xb8, 0xd2), (0x8a6c, 0xb8, 0xe1), (0x8a6d, 0xb8, 0xde),
  (0x8a6e, 0xb8, 0xe0), (0x8a70, 0xb8, 0xd7), (0x8a71, 0xb8, 0xdc), (0x8a72, 0xb8, 0xd3),
  (0x8a73, 0xb8, 0xd4), (0x8a74, 0xe0, 0x50), (0x8a75, 0xe0, 0x4d), (0x8a76, 0xe0, 0x45),
  (0x8a77, 0xe0, 0x4a), (0x8a79, 0xb8, 0xe2), (0x8a7a, 0xe0, 0x51), (0x8a7b, 0xb8, 0xe3),
  (0x8a7c, 0xb8, 0xd9), (0x8a7e, 0xa0, 0x58), (0x8a7f, 0xe0, 0x47), (0x8a81, 0xe0, 0x4f),
  (0x8a82, 0xe0, 0x4b), (0x8a83, 0xe0, 0x4e), (0x8a84, 0xe0, 0x4c), (0x8a85, 0xb8, 0xdd),
  (0x8a86, 0xe0, 0x46), (0x8a87, 0xb8, 0xd8), (0x8a8b, 0xe4, 0x4c), (0x8a8c, 0xbb, 0x78),
  (0x8a8d, 0xbb, 0x7b), (0x8a8f, 0xe4, 0x4e), (0x8a90, 0x8f, 0xd6), (0x8a91, 0xbb, 0xa5),
  (0x8a92, 0xe4, 0x4d), (0x8a93, 0xbb, 0x7d), (0x8a94, 0x99, 0xd8), (0x8a95, 0xbd, 0xcf),
  (0x8a96, 0xe4, 0x4f), (0x8a98, 0xbb, 0xa4), (0x8a99, 0xe4, 0x4b), (0x8a9a, 0xbb, 0xa6),
  (0x8a9c, 0x8f, 0xd3), (0x8a9e, 0xbb, 0x79), (0x8aa0, 0xb8, 0xdb), (0x8aa1, 0xbb, 0x7c),
  (0x8aa3, 0xbb, 0x7a), (0x8aa4, 0xbb, 0x7e), (0x8aa5, 0xbb, 0xa2), (0x8aa6, 0xbb, 0x77),
  (0x8aa7, 0xbb, 0xa7), (0x8aa8, 0xbb, 0xa3), (0x8aa9, 0x8f, 0xe5), (0x8aaa, 0xbb, 0xa1),
  (0x8aab, 0xe4, 0x4a), (0x8aaf, 0x8f, 0xe9), (0x8ab0, 0xbd, 0xd6), (0x8ab2, 0xbd, 0xd2),
  (0x8ab4, 0x99, 0xd9), (0x8ab6, 0xbd, 0xd9), (0x8ab8, 0xe7, 0xd6), (0x8ab9, 0xbd, 0xda),
  (0x8aba, 0xe7, 0xe2), (0x8abb, 0xe7, 0xdb), (0x8abc, 0xbd, 0xcb), (0x8abd, 0xe7, 0xe3),
  (0x8abe, 0xe7, 0xdd), (0x8abf, 0xbd, 0xd5), (0x8ac0, 0xe7, 0xde), (0x8ac2, 0xbd, 0xd4),
  (0x8ac3, 0xe7, 0xe1), (0x8ac4, 0xbd, 0xce), (0x8ac5, 0xe7, 0xdf), (0x8ac6, 0xe7, 0xd5)]

/-- `ENCODE_TABLE[13056..13184]`, (code point, byte 0, byte 1).  src/generated/whatwg/big5_whatwg_tables.rs.inc:6833-6875 -/
def encRow102 : List (Nat × Nat × Nat) := [
  (0x8ac7, 0xbd, 0xcd), (0x8ac8, 0xeb, 0xaa), (0x8ac9, 0xbd, 0xd3), (0x8acb, 0xbd, 0xd0),
  (0x8acc, 0x8c, 0xf7), (0x8acd, 0xbd, 0xd8), (0x8acf, 0xe7, 0xd4), (0x8ad1, 0xe7, 0xd8),
  (0x8ad2, 0xbd, 0xcc), (0x8ad3, 0xe7, 0xd7), (0x8ad4, 0xe7, 0xd9), (0x8ad5, 0xe7, 0xda),
  (0x8ad6, 0xbd, 0xd7), (0x8ad7, 0xe7, 0xdc), (0x8ad8, 0xe7, 0xe0), (0x8ad9, 0xe7, 0xe4),
  (0x8ada, 0x92, 0x7c), (0x8adb, 0xbd, 0xdb), (0x8adc, 0xbf, 0xd2), (0x8add, 0xeb, 0xa5),
  (0x8ade, 0xeb, 0xab), (0x8adf, 0xeb, 0xa8), (0x8ae0, 0xeb, 0x7e), (0x8ae1, 0xeb, 0xac),
  (0x8ae2, 0xeb, 0xa1), (0x8ae4, 0xeb, 0xa7), (0x8ae6, 0xbf, 0xcd), (0x8ae7, 0xbf, 0xd3),
  (0x8ae8, 0xeb, 0xad), (0x8aea, 0x9c, 0x45), (0x8aeb, 0xbf, 0xcf), (0x8aed, 0xbf, 0xd9),
  (0x8aee, 0xbf, 0xd4), (0x8aef, 0xeb, 0xaf), (0x8af0, 0xeb, 0xa9), (0x8af1, 0xbf, 0xd0),
  (0x8af2, 0xeb, 0xa2), (0x8af3, 0xbf, 0xda), (0x8af4, 0xeb, 0xa3), (0x8af5, 0xeb, 0xa4),
  (0x8af6, 0xbf, 0xdb), (0x8af7, 0xbf, 0xd8), (0x8af8, 0xbd, 0xd1), (0x8af9, 0x8c, 0xe8),
  (0x8afa, 0xbf, 0xce), (0x8afb, 0xeb, 0xb0), (0x8afc, 0xbf, 0xdc), (0x8afe, 0xbf, 0xd5),
  (0x8aff, 0xeb, 0xae), (0x8b00, 0xbf, 0xd1), (0x8b01, 0xbf, 0xd6), (0x8b02, 0xbf, 0xd7),
  (0x8b04, 0xc1, 0xc3), (0x8b05, 0xee, 0xa4), (0x8b06, 0xee, 0xad), (0x8b07, 0xee, 0xaa),
  (0x8b08, 0xee, 0xac), (0x8b0a, 0xc1, 0xc0), (0x8b0b, 0xee, 0xa5), (0x8b0c, 0x8f, 0xde),
  (0x8b0d, 0xee, 0xab), (0x8b0e, 0xc1, 0xbc), (0x8b0f, 0xee, 0xa7), (0x8b10, 0xc1, 0xc4),
  (0x8b11, 0xee, 0xa3), (0x8b12, 0xee, 0xa8), (0x8b13, 0xee, 0xaf), (0x8b14, 0xeb, 0xa6),
  (0x8b15, 0xee, 0xa9), (0x8b16, 0xee, 0xa2), (0x8b17, 0xc1, 0xbd), (0x8b18, 0xee, 0xa1),
  (0x8b19, 0xc1, 0xbe), (0x8b1a, 0xee, 0xb0), (0x8b1b, 0xc1, 0xbf), (0x8b1c, 0xee, 0xae),
  (0x8b1d, 0xc1, 0xc2), (0x8b1e, 0xee, 0x7e), (0x8b1f, 0x8f, 0xdf), (0x8b20, 0xc1, 0xc1),
  (0x8b22, 0xee, 0xa6), (0x8b23, 0xf0, 0xdc), (0x8b24, 0xf0, 0xea), (0x8b25, 0xf0, 0xe5),
  (0x8b26, 0xf0, 0xe7), (0x8b27, 0xf0, 0xdb), (0x8b28, 0xc2, 0xd3), (0x8b2a, 0xf0, 0xda),
  (0x8b2b, 0xc2, 0xd6), (0x8b2c, 0xc2, 0xd5), (0x8b2d, 0xa0, 0x4b), (0x8b2e, 0xf0, 0xe9),
  (0x8b2f, 0xf0, 0xe1), (0x8b30, 0xf0, 0xde), (0x8b31, 0xf0, 0xe4), (0x8b33, 0xf0, 0xdd),
  (0x8b35, 0xf0, 0xdf), (0x8b36, 0xf0, 0xe8), (0x8b37, 0xf0, 0xe6), (0x8b39, 0xc2, 0xd4),
  (0x8b3a, 0xf0, 0xed), (0x8b3b, 0xf0, 0xeb), (0x8b3c, 0xf0, 0xe2), (0x8b3d, 0xf0, 0xec),
  (0x8b3e, 0xf0, 0xe3), (0x8b3f, 0x8f, 0xe2), (0x8b40, 0xf2, 0xf9), (0x8b41, 0xc3, 0xcf),
  (0x8b42, 0xf3, 0x41), (0x8b43, 0xa0, 0xcc), (0x8b45, 0xf6, 0x4f), (0x8b46, 0xc3, 0xd6),
  (0x8b47, 0xf0, 0xe0), (0x8b48, 0xf2, 0xf7), (0x8b49, 0xc3, 0xd2), (0x8b4a, 0xf2, 0xf8),
  (0x8b4b, 0xf2, 0xfd), (0x8b4c, 0x8f, 0xe3), (0x8b4d, 0x8f, 0xe4), (0x8b4e, 0xc3, 0xd4),
  (0x8b4f, 0xc3, 0xd5), (0x8b50, 0xf2, 0xf6), (0x8b51, 0xf3, 0x40), (0x8b52, 0xf3, 0x42),
  (0x8b53, 0xf2, 0xfa), (0x8b54, 0xf2, 0xfc), (0x8b55, 0xf2, 0xfe), (0x8b56, 0xf2, 0xfb)]

/-- `ENCODE_TABLE[13184..13312]`, (code point, byte 0, byte 1).  src/generated/whatwg/big5_whatwg_tables.rs.inc:6875-6918 -/
def encRow103 : List (Nat × Nat × Nat) := [
  (0x8b57, 0xf3, 0x43), (0x8b58, 0xc3, 0xd1), (0x8b59, 0xc3, 0xd7), (0x8b5a, 0xc3, 0xd3),
  (0x8b5c, 0xc3, 0xd0), (0x8b5d, 0xf4, 0xd0), (0x8b5e, 0x9b, 0xc4), (0x8b5f, 0xc4, 0xb7),
  (0x8b60, 0xf4, 0xce), (0x8b62, 0x9b, 0xfc), (0x8b63, 0xf4, 0xd2), (0x8b65, 0xf4, 0xd3),
  (0x8b66, 0xc4, 0xb5), (0x8b67, 0xf4, 0xd4), (0x8b68, 0xf4, 0xd1), (0x8b69, 0x96, 0x4c),
  (0x8b6a, 0xf4, 0xcf), (0x8b6b, 0xc4, 0xb8), (0x8b6c, 0xc4, 0xb4), (0x8b6d, 0xf4, 0xd5),
  (0x8b6f, 0xc4, 0xb6), (0x8b70, 0xc4, 0xb3), (0x8b74, 0xc4, 0xfe), (0x8b77, 0xc5, 0x40),
  (0x8b78, 0xf6, 0x4e), (0x8b79, 0xf6, 0x4d), (0x8b7a, 0xf6, 0x50), (0x8b7b, 0xf6, 0x51),
  (0x8b7d, 0xc5, 0x41), (0x8b7e, 0xf7, 0x56), (0x8b7f, 0xf7, 0x5b), (0x8b80, 0xc5, 0xaa),
  (0x8b81, 0x9a, 0xf6), (0x8b82, 0xf7, 0x58), (0x8b83, 0x8c, 0xae), (0x8b84, 0xf7, 0x57),
  (0x8b85, 0xf7, 0x5a), (0x8b86, 0xf7, 0x59), (0x8b88, 0xf8, 0x43), (0x8b8a, 0xc5, 0xdc),
  (0x8b8b, 0xf8, 0x42), (0x8b8c, 0xf8, 0x40), (0x8b8e, 0xf8, 0x41), (0x8b8f, 0x87, 0xcb),
  (0x8b90, 0x8f, 0xe7), (0x8b92, 0xc5, 0xfe), (0x8b93, 0xc5, 0xfd), (0x8b94, 0xf8, 0xc1),
  (0x8b95, 0xf8, 0xc2), (0x8b96, 0xc6, 0x40), (0x8b98, 0xf9, 0x4d), (0x8b99, 0xf9, 0x4e),
  (0x8b9a, 0xc6, 0x67), (0x8b9b, 0x8f, 0xe8), (0x8b9c, 0xc6, 0x6d), (0x8b9e, 0xf9, 0xa9),
  (0x8b9f, 0xf9, 0xc8), (0x8ba0, 0x8b, 0xe7), (0x8bbe, 0x89, 0x7a), (0x8be2, 0x89, 0x7b),
  (0x8c37, 0xa8, 0xa6), (0x8c39, 0xd7, 0xcd), (0x8c3b, 0xd7, 0xce), (0x8c3c, 0xe0, 0x52),
  (0x8c3d, 0xe4, 0x50), (0x8c3e, 0xe7, 0xe5), (0x8c3f, 0xc1, 0xc6), (0x8c41, 0xc1, 0xc5),
  (0x8c42, 0xf0, 0xee), (0x8c43, 0xf3, 0x44), (0x8c45, 0xf8, 0x44), (0x8c46, 0xa8, 0xa7),
  (0x8c47, 0xd3, 0xde), (0x8c48, 0xb0, 0x5a), (0x8c49, 0xb3, 0x61), (0x8c4a, 0xe0, 0x54),
  (0x8c4b, 0xe0, 0x53), (0x8c4c, 0xbd, 0xdc), (0x8c4d, 0xe7, 0xe6), (0x8c4e, 0xbd, 0xdd),
  (0x8c4f, 0xee, 0xb1), (0x8c50, 0xc2, 0xd7), (0x8c51, 0x99, 0xda), (0x8c54, 0xc6, 0x76),
  (0x8c55, 0xa8, 0xa8), (0x8c56, 0xcd, 0xcb), (0x8c57, 0xd3, 0xdf), (0x8c5a, 0xb3, 0x62),
  (0x8c5c, 0xd7, 0xcf), (0x8c5d, 0xd7, 0xd0), (0x8c5f, 0xdb, 0xe5), (0x8c61, 0xb6, 0x48),
  (0x8c62, 0xb8, 0xe6), (0x8c64, 0xe0, 0x56), (0x8c65, 0xe0, 0x55), (0x8c66, 0xe0, 0x57),
  (0x8c68, 0xe4, 0x51), (0x8c69, 0xe4, 0x52), (0x8c6a, 0xbb, 0xa8), (0x8c6b, 0xbf, 0xdd),
  (0x8c6c, 0xbd, 0xde), (0x8c6d, 0xbf, 0xde), (0x8c6f, 0xee, 0xb5), (0x8c70, 0xee, 0xb2),
  (0x8c71, 0xee, 0xb4), (0x8c72, 0xee, 0xb3), (0x8c73, 0xc1, 0xc7), (0x8c75, 0xf0, 0xef),
  (0x8c76, 0xf3, 0x46), (0x8c77, 0xf3, 0x45), (0x8c78, 0xcb, 0xa4), (0x8c79, 0xb0, 0x5c),
  (0x8c7a, 0xb0, 0x5b), (0x8c7b, 0xd3, 0xe0), (0x8c7d, 0xd7, 0xd1), (0x8c80, 0xdb, 0xe7),
  (0x8c81, 0xdb, 0xe6), (0x8c82, 0xb6, 0x49), (0x8c84, 0xe0, 0x59), (0x8c85, 0xe0, 0x5a),
  (0x8c86, 0xe0, 0x58), (0x8c89, 0xb8, 0xe8), (0x8c8a, 0xb8, 0xe7), (0x8c8c, 0xbb, 0xaa),
  (0x8c8d, 0xbb, 0xa9), (0x8c8f, 0xe7, 0xe7), (0x8c90, 0xeb, 0xb3), (0x8c91, 0xeb, 0xb1)]

/-- `ENCODE_TABLE[13312..13440]`, (code point, byte 0, byte 1).  src/generated/whatwg/big5_whatwg_tables.rs.inc:6918-6960 -/
def encRow104 : List (Nat × Nat × Nat) := [
  (0x8c92, 0xeb, 0xb2), (0x8c93, 0xbf, 0xdf), (0x8c94, 0xee, 0xb7), (0x8c95, 0xee, 0xb6),
  (0x8c97, 0xf0, 0xf2), (0x8c98, 0xf0, 0xf1), (0x8c99, 0xf0, 0xf0), (0x8c9a, 0xf3, 0x47),
  (0x8c9b, 0x8f, 0xed), (0x8c9c, 0xf9, 0xaa), (0x8c9d, 0xa8, 0xa9), (0x8c9e, 0xad, 0x73),
  (0x8c9f, 0x95, 0xc0), (0x8ca0, 0xad, 0x74), (0x8ca1, 0xb0, 0x5d), (0x8ca2, 0xb0, 0x5e),
  (0x8ca3, 0xd3, 0xe2), (0x8ca4, 0xd3, 0xe1), (0x8ca5, 0xd7, 0xd2), (0x8ca7, 0xb3, 0x68),
  (0x8ca8, 0xb3, 0x66), (0x8ca9, 0xb3, 0x63), (0x8caa, 0xb3, 0x67), (0x8cab, 0xb3, 0x65),
  (0x8cac, 0xb3, 0x64), (0x8cad, 0xa0, 0xcb), (0x8caf, 0xb6, 0x4a), (0x8cb0, 0xdb, 0xea),
  (0x8cb2, 0xb8, 0xed), (0x8cb3, 0xb6, 0x4c), (0x8cb4, 0xb6, 0x51), (0x8cb5, 0xdb, 0xec),
  (0x8cb6, 0xb6, 0x53), (0x8cb7, 0xb6, 0x52), (0x8cb8, 0xb6, 0x55), (0x8cb9, 0xdb, 0xeb),
  (0x8cba, 0xdb, 0xe8), (0x8cbb, 0xb6, 0x4f), (0x8cbc, 0xb6, 0x4b), (0x8cbd, 0xb6, 0x4d),
  (0x8cbe, 0xdb, 0xe9), (0x8cbf, 0xb6, 0x54), (0x8cc0, 0xb6, 0x50), (0x8cc1, 0xb6, 0x4e),
  (0x8cc2, 0xb8, 0xef), (0x8cc3, 0xb8, 0xee), (0x8cc4, 0xb8, 0xec), (0x8cc5, 0xb8, 0xf0),
  (0x8cc7, 0xb8, 0xea), (0x8cc8, 0xb8, 0xeb), (0x8cca, 0xb8, 0xe9), (0x8ccc, 0xe0, 0x5b),
  (0x8ccd, 0x9e, 0x48), (0x8ccf, 0xe4, 0x54), (0x8cd1, 0xbb, 0xac), (0x8cd2, 0xbb, 0xad),
  (0x8cd3, 0xbb, 0xab), (0x8cd4, 0x99, 0xdb), (0x8cd5, 0xe4, 0x53), (0x8cd6, 0x8f, 0xf3),
  (0x8cd7, 0xe4, 0x55), (0x8cd9, 0xe7, 0xea), (0x8cda, 0xe7, 0xec), (0x8cdb, 0x8f, 0xf9),
  (0x8cdc, 0xbd, 0xe7), (0x8cdd, 0xe7, 0xed), (0x8cde, 0xbd, 0xe0), (0x8cdf, 0xe7, 0xe9),
  (0x8ce0, 0xbd, 0xdf), (0x8ce1, 0xbd, 0xe9), (0x8ce2, 0xbd, 0xe5), (0x8ce3, 0xbd, 0xe6),
  (0x8ce4, 0xbd, 0xe2), (0x8ce5, 0xe7, 0xe8), (0x8ce6, 0xbd, 0xe1), (0x8ce7, 0xe7, 0xee),
  (0x8ce8, 0xe7, 0xeb), (0x8ce9, 0x95, 0xc1), (0x8cea, 0xbd, 0xe8), (0x8ceb, 0xa0, 0x4e),
  (0x8cec, 0xbd, 0xe3), (0x8ced, 0xbd, 0xe4), (0x8cee, 0xeb, 0xb5), (0x8cf0, 0xeb, 0xb7),
  (0x8cf1, 0xeb, 0xb6), (0x8cf2, 0x99, 0xdc), (0x8cf3, 0xeb, 0xb8), (0x8cf4, 0xbf, 0xe0),
  (0x8cf5, 0xeb, 0xb4), (0x8cf7, 0xa0, 0x64), (0x8cf8, 0xc1, 0xcb), (0x8cf9, 0xee, 0xb8),
  (0x8cfa, 0xc1, 0xc8), (0x8cfb, 0xc1, 0xcc), (0x8cfc, 0xc1, 0xca), (0x8cfd, 0xc1, 0xc9),
  (0x8cfe, 0xf0, 0xf3), (0x8d00, 0xf0, 0xf6), (0x8d02, 0xf0, 0xf5), (0x8d03, 0x8f, 0xf7),
  (0x8d04, 0xf0, 0xf4), (0x8d05, 0xc2, 0xd8), (0x8d06, 0xf3, 0x48), (0x8d07, 0xf3, 0x49),
  (0x8d08, 0xc3, 0xd8), (0x8d09, 0xf3, 0x4a), (0x8d0a, 0xc3, 0xd9), (0x8d0b, 0x89, 0xb0),
  (0x8d0c, 0xa0, 0x48), (0x8d0d, 0xc4, 0xba), (0x8d0f, 0xc4, 0xb9), (0x8d10, 0xf6, 0x52),
  (0x8d11, 0x8f, 0xfb), (0x8d12, 0x8f, 0xf6), (0x8d13, 0xc5, 0x42), (0x8d14, 0xf6, 0x53),
  (0x8d15, 0xf7, 0x5c), (0x8d16, 0xc5, 0xab), (0x8d17, 0xc5, 0xac), (0x8d18, 0x9d, 0xdc),
  (0x8d19, 0xf8, 0x45), (0x8d1b, 0xc6, 0x42), (0x8d1c, 0x99, 0xdd), (0x8d1d, 0x8b, 0xe8),
  (0x8d64, 0xa8, 0xaa), (0x8d66, 0xb3, 0x6a), (0x8d67, 0xb3, 0x69), (0x8d68, 0xe0, 0x5c)]

/-- `ENCODE_TABLE[13440..13568]`, (code point, byte 0, byte 1).  src/generated/whatwg/big5_whatwg_tables.rs.inc:6961-7003 -/
def encRow105 : List (Nat × Nat × Nat) := [
  (0x8d69, 0xe0, 0x5d), (0x8d6b, 0xbb, 0xae), (0x8d6c, 0xeb, 0xb9), (0x8d6d, 0xbd, 0xea),
  (0x8d6e, 0xeb, 0xba), (0x8d6f, 0xee, 0xb9), (0x8d70, 0xa8, 0xab), (0x8d72, 0xd0, 0xb2),
  (0x8d73, 0xad, 0x76), (0x8d74, 0xad, 0x75), (0x8d76, 0xd3, 0xe3), (0x8d77, 0x8f, 0xfe),
  (0x8d78, 0xd3, 0xe4), (0x8d79, 0xd7, 0xd5), (0x8d7a, 0x92, 0xc1), (0x8d7b, 0xd7, 0xd4),
  (0x8d7d, 0xd7, 0xd3), (0x8d80, 0xdb, 0xee), (0x8d81, 0xb6, 0x58), (0x8d82, 0x9f, 0xd6),
  (0x8d84, 0xdb, 0xed), (0x8d85, 0xb6, 0x57), (0x8d89, 0xdb, 0xef), (0x8d8a, 0xb6, 0x56),
  (0x8d8c, 0xe0, 0x5f), (0x8d8d, 0xe0, 0x62), (0x8d8e, 0xe0, 0x60), (0x8d8f, 0xe0, 0x61),
  (0x8d90, 0xe0, 0x65), (0x8d91, 0xe0, 0x5e), (0x8d92, 0xe0, 0x66), (0x8d93, 0xe0, 0x63),
  (0x8d94, 0xe0, 0x64), (0x8d95, 0xbb, 0xb0), (0x8d96, 0xe4, 0x56), (0x8d99, 0xbb, 0xaf),
  (0x8d9b, 0xe7, 0xf2), (0x8d9c, 0xe7, 0xf0), (0x8d9f, 0xbd, 0xeb), (0x8da0, 0xe7, 0xef),
  (0x8da1, 0xe7, 0xf1), (0x8da3, 0xbd, 0xec), (0x8da5, 0xeb, 0xbb), (0x8da6, 0xa0, 0xd2),
  (0x8da7, 0xeb, 0xbc), (0x8da8, 0xc1, 0xcd), (0x8da9, 0x90, 0x40), (0x8daa, 0xf3, 0x4c),
  (0x8dab, 0xf3, 0x4e), (0x8dac, 0xf3, 0x4b), (0x8dad, 0xf3, 0x4d), (0x8dae, 0xf4, 0xd6),
  (0x8daf, 0xf6, 0x54), (0x8db2, 0xf9, 0x6f), (0x8db3, 0xa8, 0xac), (0x8db4, 0xad, 0x77),
  (0x8db5, 0xd3, 0xe5), (0x8db6, 0xd3, 0xe7), (0x8db7, 0xd3, 0xe6), (0x8db9, 0xd7, 0xd8),
  (0x8dba, 0xb3, 0x6c), (0x8dbc, 0xd7, 0xd6), (0x8dbe, 0xb3, 0x6b), (0x8dbf, 0xd7, 0xd9),
  (0x8dc0, 0x8a, 0xc4), (0x8dc1, 0xd7, 0xda), (0x8dc2, 0xd7, 0xd7), (0x8dc3, 0x99, 0xe0),
  (0x8dc5, 0xdb, 0xfb), (0x8dc6, 0xb6, 0x60), (0x8dc7, 0xdb, 0xf3), (0x8dc8, 0xdb, 0xf9),
  (0x8dcb, 0xb6, 0x5b), (0x8dcc, 0xb6, 0x5e), (0x8dcd, 0xdb, 0xf2), (0x8dce, 0xb6, 0x59),
  (0x8dcf, 0xdb, 0xf6), (0x8dd0, 0xe0, 0x6c), (0x8dd1, 0xb6, 0x5d), (0x8dd3, 0xdb, 0xf1),
  (0x8dd4, 0x9f, 0xf0), (0x8dd5, 0xdb, 0xf7), (0x8dd6, 0xdb, 0xf4), (0x8dd7, 0xdb, 0xfa),
  (0x8dd8, 0xdb, 0xf0), (0x8dd9, 0xdb, 0xf8), (0x8dda, 0xb6, 0x5c), (0x8ddb, 0xb6, 0x5f),
  (0x8ddc, 0xdb, 0xf5), (0x8ddd, 0xb6, 0x5a), (0x8ddf, 0xb8, 0xf2), (0x8de0, 0xe0, 0x68),
  (0x8de1, 0xb8, 0xf1), (0x8de2, 0xe0, 0x6f), (0x8de3, 0xe0, 0x6e), (0x8de4, 0xb8, 0xf8),
  (0x8de6, 0xb8, 0xf9), (0x8de7, 0xe0, 0x70), (0x8de8, 0xb8, 0xf3), (0x8de9, 0xe0, 0x6d),
  (0x8dea, 0xb8, 0xf7), (0x8deb, 0xe0, 0x72), (0x8dec, 0xe0, 0x69), (0x8dee, 0xe0, 0x6b),
  (0x8def, 0xb8, 0xf4), (0x8df0, 0xe0, 0x67), (0x8df1, 0xe0, 0x6a), (0x8df2, 0xe0, 0x71),
  (0x8df3, 0xb8, 0xf5), (0x8df4, 0xe0, 0x73), (0x8dfa, 0xb8, 0xf6), (0x8dfc, 0xbb, 0xb1),
  (0x8dfd, 0xe4, 0x5b), (0x8dfe, 0xe4, 0x61), (0x8dff, 0xe4, 0x59), (0x8e00, 0xe4, 0x62),
  (0x8e01, 0x9f, 0xf3), (0x8e02, 0xe4, 0x58), (0x8e03, 0xe4, 0x5d), (0x8e04, 0xe4, 0x63),
  (0x8e05, 0xe4, 0x60), (0x8e06, 0xe4, 0x5f), (0x8e07, 0xe4, 0x5e), (0x8e09, 0xe4, 0x57),
  (0x8e0a, 0xe4, 0x5c), (0x8e0d, 0xe4, 0x5a), (0x8e0e, 0x9d, 0xbf), (0x8e0f, 0xbd, 0xf1)]

/-- `ENCODE_TABLE[13568..13696]`, (code point, byte 0, byte 1).  src/generated/whatwg/big5_whatwg_tables.rs.inc:7003-7046 -/
def encRow106 : List (Nat × Nat × Nat) := [
  (0x8e10, 0xbd, 0xee), (0x8e11, 0xe7, 0xfb), (0x8e12, 0xe8, 0x41), (0x8e13, 0xe8, 0x43),
  (0x8e14, 0xe8, 0x40), (0x8e15, 0xe7, 0xf8), (0x8e16, 0xe7, 0xfa), (0x8e17, 0xe8, 0x45),
  (0x8e18, 0xe8, 0x42), (0x8e19, 0xe7, 0xfc), (0x8e1a, 0xe8, 0x46), (0x8e1b, 0xe7, 0xf9),
  (0x8e1c, 0xe8, 0x44), (0x8e1d, 0xbd, 0xef), (0x8e1e, 0xbd, 0xf5), (0x8e1f, 0xbd, 0xf3),
  (0x8e20, 0xe7, 0xf3), (0x8e21, 0xbd, 0xf4), (0x8e22, 0xbd, 0xf0), (0x8e23, 0xe7, 0xf4),
  (0x8e24, 0xe7, 0xf6), (0x8e25, 0xe7, 0xf5), (0x8e26, 0xe7, 0xfd), (0x8e27, 0xe7, 0xfe),
  (0x8e28, 0x9f, 0xf6), (0x8e29, 0xbd, 0xf2), (0x8e2a, 0x95, 0xc8), (0x8e2b, 0xbd, 0xed),
  (0x8e2d, 0x9e, 0x5a), (0x8e2e, 0xe7, 0xf7), (0x8e30, 0xeb, 0xc6), (0x8e31, 0xbf, 0xe2),
  (0x8e33, 0xeb, 0xbd), (0x8e34, 0xbf, 0xe3), (0x8e35, 0xbf, 0xe6), (0x8e36, 0xeb, 0xc2),
  (0x8e38, 0xeb, 0xbf), (0x8e39, 0xbf, 0xe5), (0x8e3a, 0x99, 0xe3), (0x8e3c, 0xeb, 0xc3),
  (0x8e3d, 0xeb, 0xc4), (0x8e3e, 0xeb, 0xbe), (0x8e3f, 0xeb, 0xc7), (0x8e40, 0xeb, 0xc0),
  (0x8e41, 0xeb, 0xc5), (0x8e42, 0xbf, 0xe4), (0x8e44, 0xbf, 0xe1), (0x8e45, 0xeb, 0xc1),
  (0x8e46, 0x8a, 0x4a), (0x8e47, 0xee, 0xbf), (0x8e48, 0xc1, 0xd0), (0x8e49, 0xc1, 0xce),
  (0x8e4a, 0xc1, 0xd1), (0x8e4b, 0xc1, 0xcf), (0x8e4c, 0xee, 0xbe), (0x8e4d, 0xee, 0xbb),
  (0x8e4e, 0xee, 0xba), (0x8e4f, 0x9f, 0xf1), (0x8e50, 0xee, 0xbd), (0x8e53, 0xee, 0xbc),
  (0x8e54, 0xf1, 0x45), (0x8e55, 0xc2, 0xde), (0x8e56, 0xf0, 0xfb), (0x8e57, 0xf0, 0xfa),
  (0x8e59, 0xc2, 0xd9), (0x8e5a, 0xf1, 0x41), (0x8e5b, 0xf1, 0x40), (0x8e5c, 0xf0, 0xf7),
  (0x8e5d, 0xf1, 0x43), (0x8e5e, 0xf0, 0xfc), (0x8e5f, 0xc2, 0xdd), (0x8e60, 0xf0, 0xf9),
  (0x8e61, 0xf1, 0x42), (0x8e62, 0xf0, 0xf8), (0x8e63, 0xc2, 0xda), (0x8e64, 0xc2, 0xdc),
  (0x8e65, 0xf0, 0xfd), (0x8e66, 0xc2, 0xdb), (0x8e67, 0xf0, 0xfe), (0x8e68, 0x8a, 0xa7),
  (0x8e69, 0xf1, 0x44), (0x8e6a, 0xf3, 0x52), (0x8e6c, 0xc3, 0xde), (0x8e6d, 0xf3, 0x4f),
  (0x8e6f, 0xf3, 0x53), (0x8e71, 0x99, 0xe6), (0x8e72, 0xc3, 0xdb), (0x8e73, 0xf3, 0x51),
  (0x8e74, 0xc3, 0xe0), (0x8e75, 0x9f, 0xf7), (0x8e76, 0xc3, 0xdd), (0x8e77, 0x9f, 0xed),
  (0x8e78, 0xf3, 0x50), (0x8e7a, 0xc3, 0xdf), (0x8e7b, 0xf3, 0x54), (0x8e7c, 0xc3, 0xda),
  (0x8e7e, 0x8a, 0x5c), (0x8e80, 0x9d, 0xae), (0x8e81, 0xc4, 0xbc), (0x8e82, 0xc4, 0xbe),
  (0x8e84, 0xf4, 0xd9), (0x8e85, 0xc4, 0xbd), (0x8e86, 0xf4, 0xd7), (0x8e87, 0xc3, 0xdc),
  (0x8e88, 0xf4, 0xd8), (0x8e89, 0xc4, 0xbb), (0x8e8a, 0xc5, 0x43), (0x8e8b, 0xc5, 0x45),
  (0x8e8c, 0xf6, 0x56), (0x8e8d, 0xc5, 0x44), (0x8e8e, 0xf6, 0x55), (0x8e90, 0xf7, 0x61),
  (0x8e91, 0xc5, 0xad), (0x8e92, 0xf7, 0x60), (0x8e93, 0xc5, 0xae), (0x8e94, 0xf7, 0x5e),
  (0x8e95, 0xf7, 0x5d), (0x8e96, 0xf7, 0x62), (0x8e97, 0xf7, 0x63), (0x8e98, 0xf8, 0x46),
  (0x8e9a, 0xf7, 0x5f), (0x8e9d, 0xf8, 0xc6), (0x8e9e, 0xf8, 0xc3), (0x8e9f, 0xf8, 0xc4),
  (0x8ea0, 0xf8, 0xc5), (0x8ea1, 0xc6, 0x5c), (0x8ea3, 0xf9, 0x51), (0x8ea4, 0xf9, 0x50)]

/-- `ENCODE_TABLE[13696..13824]`, (code point, byte 0, byte 1).  src/generated/whatwg/big5_whatwg_tables.rs.inc:7046-7088 -/
def encRow107 : List (Nat × Nat × Nat) := [
  (0x8ea5, 0xf9, 0x4f), (0x8ea6, 0xf9, 0x70), (0x8ea7, 0x95, 0xc9), (0x8ea8, 0xf9, 0xbe),
  (0x8ea9, 0xf9, 0xab), (0x8eaa, 0xc6, 0x6e), (0x8eab, 0xa8, 0xad), (0x8eac, 0xb0, 0x60),
  (0x8ead, 0x90, 0x48), (0x8eb0, 0x99, 0xe8), (0x8eb2, 0xb8, 0xfa), (0x8eb6, 0x90, 0x49),
  (0x8eb9, 0x8c, 0xba), (0x8eba, 0xbd, 0xf6), (0x8ebc, 0x90, 0xb1), (0x8ebd, 0xeb, 0xc8),
  (0x8ec0, 0xc2, 0xdf), (0x8ec2, 0xf3, 0x55), (0x8ec3, 0x90, 0x4a), (0x8ec9, 0xf9, 0xac),
  (0x8eca, 0xa8, 0xae), (0x8ecb, 0xaa, 0xee), (0x8ecc, 0xad, 0x79), (0x8ecd, 0xad, 0x78),
  (0x8ece, 0x99, 0xea), (0x8ecf, 0xb0, 0x63), (0x8ed1, 0xd3, 0xe8), (0x8ed2, 0xb0, 0x61),
  (0x8ed3, 0xd3, 0xe9), (0x8ed4, 0xb0, 0x62), (0x8ed7, 0xd7, 0xdf), (0x8ed8, 0xd7, 0xdb),
  (0x8eda, 0x9b, 0xd1), (0x8edb, 0xb3, 0x6d), (0x8edc, 0xd7, 0xde), (0x8edd, 0xd7, 0xdd),
  (0x8ede, 0xd7, 0xdc), (0x8edf, 0xb3, 0x6e), (0x8ee0, 0xd7, 0xe0), (0x8ee1, 0xd7, 0xe1),
  (0x8ee2, 0x99, 0xeb), (0x8ee4, 0x99, 0xec), (0x8ee5, 0xdc, 0x43), (0x8ee6, 0xdc, 0x41),
  (0x8ee7, 0xdc, 0x45), (0x8ee8, 0xdc, 0x46), (0x8ee9, 0xdc, 0x4c), (0x8eeb, 0xdc, 0x48),
  (0x8eec, 0xdc, 0x4a), (0x8eed, 0x99, 0xed), (0x8eee, 0xdc, 0x42), (0x8eef, 0xdb, 0xfc),
  (0x8ef1, 0xdc, 0x49), (0x8ef2, 0x99, 0xee), (0x8ef4, 0xdc, 0x4b), (0x8ef5, 0xdc, 0x44),
  (0x8ef6, 0xdc, 0x47), (0x8ef7, 0xdb, 0xfd), (0x8ef8, 0xb6, 0x62), (0x8ef9, 0xdc, 0x40),
  (0x8efa, 0xdb, 0xfe), (0x8efb, 0xb6, 0x61), (0x8efc, 0xb6, 0x63), (0x8efe, 0xb8, 0xfd),
  (0x8eff, 0xe0, 0x75), (0x8f00, 0xe0, 0x77), (0x8f01, 0xe0, 0x76), (0x8f02, 0xe0, 0x7b),
  (0x8f03, 0xb8, 0xfb), (0x8f05, 0xe0, 0x78), (0x8f06, 0xe0, 0x74), (0x8f07, 0xe0, 0x79),
  (0x8f08, 0xe0, 0x7a), (0x8f09, 0xb8, 0xfc), (0x8f0a, 0xb8, 0xfe), (0x8f0b, 0x9d, 0x57),
  (0x8f0d, 0xe4, 0x67), (0x8f0e, 0xe4, 0x66), (0x8f10, 0xe4, 0x64), (0x8f11, 0xe4, 0x65),
  (0x8f12, 0xbb, 0xb3), (0x8f13, 0xbb, 0xb5), (0x8f14, 0xbb, 0xb2), (0x8f15, 0xbb, 0xb4),
  (0x8f16, 0xe8, 0x4d), (0x8f17, 0xe8, 0x4e), (0x8f18, 0xe8, 0x49), (0x8f19, 0x90, 0x4c),
  (0x8f1a, 0xe8, 0x4a), (0x8f1b, 0xbd, 0xf8), (0x8f1c, 0xbd, 0xfd), (0x8f1d, 0xbd, 0xf7),
  (0x8f1e, 0xbd, 0xfe), (0x8f1f, 0xbd, 0xf9), (0x8f20, 0xe8, 0x4b), (0x8f23, 0xe8, 0x4c),
  (0x8f24, 0xe8, 0x48), (0x8f25, 0xbe, 0x40), (0x8f26, 0xbd, 0xfb), (0x8f29, 0xbd, 0xfa),
  (0x8f2a, 0xbd, 0xfc), (0x8f2c, 0xe8, 0x47), (0x8f2d, 0x90, 0x4d), (0x8f2e, 0xeb, 0xca),
  (0x8f2f, 0xbf, 0xe8), (0x8f30, 0x95, 0xcb), (0x8f32, 0xeb, 0xcc), (0x8f33, 0xbf, 0xea),
  (0x8f34, 0xeb, 0xcf), (0x8f35, 0xeb, 0xcb), (0x8f36, 0x9c, 0x42), (0x8f37, 0xeb, 0xce),
  (0x8f38, 0xbf, 0xe9), (0x8f39, 0xeb, 0xcd), (0x8f3b, 0xbf, 0xe7), (0x8f3e, 0xc1, 0xd3),
  (0x8f3f, 0xc1, 0xd6), (0x8f40, 0xee, 0xc1), (0x8f41, 0x97, 0xe2), (0x8f42, 0xc1, 0xd4),
  (0x8f43, 0xee, 0xc0), (0x8f44, 0xc1, 0xd2), (0x8f45, 0xc1, 0xd5), (0x8f46, 0xf1, 0x46),
  (0x8f47, 0xf1, 0x47), (0x8f48, 0xf1, 0x48), (0x8f49, 0xc2, 0xe0), (0x8f4a, 0x95, 0xcc)]

/-- `ENCODE_TABLE[13824..13952]`, (code point, byte 0, byte 1).  src/generated/whatwg/big5_whatwg_tables.rs.inc:7089-7131 -/
def encRow108 : List (Nat × Nat × Nat) := [
  (0x8f4b, 0xf1, 0x49), (0x8f4d, 0xc2, 0xe1), (0x8f4e, 0xc3, 0xe2), (0x8f4f, 0xf3, 0x58),
  (0x8f50, 0xf3, 0x59), (0x8f51, 0xf3, 0x57), (0x8f52, 0xf3, 0x56), (0x8f53, 0xf3, 0x5a),
  (0x8f54, 0xc3, 0xe1), (0x8f55, 0xf4, 0xdd), (0x8f56, 0xf4, 0xdb), (0x8f57, 0xf4, 0xdc),
  (0x8f58, 0xf4, 0xde), (0x8f59, 0xf4, 0xda), (0x8f5a, 0xf4, 0xdf), (0x8f5b, 0xf6, 0x58),
  (0x8f5c, 0x9f, 0x78), (0x8f5d, 0xf6, 0x59), (0x8f5e, 0xf6, 0x57), (0x8f5f, 0xc5, 0x46),
  (0x8f60, 0xf7, 0x64), (0x8f61, 0xc5, 0xaf), (0x8f62, 0xf7, 0x65), (0x8f63, 0xf8, 0x48),
  (0x8f64, 0xf8, 0x47), (0x8f66, 0x89, 0x7c), (0x8f67, 0x89, 0x7d), (0x8f6e, 0x89, 0x7e),
  (0x8f93, 0x99, 0x5d), (0x8f9b, 0xa8, 0xaf), (0x8f9c, 0xb6, 0x64), (0x8f9f, 0xb9, 0x40),
  (0x8fa0, 0x9b, 0x5a), (0x8fa3, 0xbb, 0xb6), (0x8fa5, 0x90, 0x50), (0x8fa6, 0xbf, 0xec),
  (0x8fa7, 0x8c, 0x4f), (0x8fa8, 0xbf, 0xeb), (0x8fad, 0xc3, 0xe3), (0x8fae, 0xc4, 0x7c),
  (0x8faf, 0xc5, 0x47), (0x8fb0, 0xa8, 0xb0), (0x8fb1, 0xb0, 0x64), (0x8fb2, 0xb9, 0x41),
  (0x8fb3, 0x90, 0x54), (0x8fb4, 0xf3, 0x5b), (0x8fb5, 0xc6, 0xd6), (0x8fb6, 0x9a, 0xa8),
  (0x8fb7, 0x99, 0xef), (0x8fb8, 0xfe, 0xeb), (0x8fb9, 0x9d, 0xa3), (0x8fba, 0x9d, 0xa1),
  (0x8fbb, 0x99, 0x43), (0x8fbc, 0x99, 0x45), (0x8fbe, 0x9d, 0x7d), (0x8fbf, 0xcb, 0xa6),
  (0x8fc1, 0x99, 0xf0), (0x8fc2, 0xa8, 0xb1), (0x8fc4, 0xa8, 0xb4), (0x8fc5, 0xa8, 0xb3),
  (0x8fc6, 0xa8, 0xb2), (0x8fc9, 0xcb, 0xa5), (0x8fca, 0x99, 0xf1), (0x8fcb, 0xcd, 0xcd),
  (0x8fcc, 0x99, 0xf2), (0x8fcd, 0xcd, 0xcf), (0x8fce, 0xaa, 0xef), (0x8fcf, 0x8c, 0xbc),
  (0x8fd0, 0x9d, 0x60), (0x8fd1, 0xaa, 0xf1), (0x8fd2, 0xcd, 0xcc), (0x8fd3, 0xcd, 0xce),
  (0x8fd4, 0xaa, 0xf0), (0x8fd5, 0xcd, 0xd1), (0x8fd6, 0xcd, 0xd0), (0x8fd7, 0xcd, 0xd2),
  (0x8fda, 0xa0, 0xa3), (0x8fe0, 0xd0, 0xb6), (0x8fe1, 0xd0, 0xb4), (0x8fe2, 0xad, 0x7c),
  (0x8fe3, 0xd0, 0xb3), (0x8fe4, 0xad, 0xa3), (0x8fe5, 0xad, 0x7e), (0x8fe6, 0xad, 0x7b),
  (0x8fe8, 0xad, 0xa4), (0x8fea, 0xad, 0x7d), (0x8feb, 0xad, 0xa2), (0x8fed, 0xad, 0xa1),
  (0x8fee, 0xd0, 0xb5), (0x8ff0, 0xad, 0x7a), (0x8ff4, 0xb0, 0x6a), (0x8ff5, 0xd3, 0xeb),
  (0x8ff6, 0xd3, 0xf1), (0x8ff7, 0xb0, 0x67), (0x8ff8, 0xb0, 0x6e), (0x8ff9, 0x90, 0x5b),
  (0x8ffa, 0xb0, 0x69), (0x8ffb, 0xd3, 0xee), (0x8ffc, 0xd3, 0xf0), (0x8ffd, 0xb0, 0x6c),
  (0x8ffe, 0xd3, 0xea), (0x8fff, 0xd3, 0xed), (0x9000, 0xb0, 0x68), (0x9001, 0xb0, 0x65),
  (0x9002, 0xd3, 0xec), (0x9003, 0xb0, 0x6b), (0x9004, 0xd3, 0xef), (0x9005, 0xb0, 0x6d),
  (0x9006, 0xb0, 0x66), (0x9008, 0x9e, 0xdb), (0x900b, 0xd7, 0xe3), (0x900c, 0xd7, 0xe6),
  (0x900d, 0xb3, 0x70), (0x900f, 0xb3, 0x7a), (0x9010, 0xb3, 0x76), (0x9011, 0xd7, 0xe4),
  (0x9012, 0x9d, 0x79), (0x9014, 0xb3, 0x7e), (0x9015, 0xb3, 0x77), (0x9016, 0xb3, 0x7c),
  (0x9017, 0xb3, 0x72), (0x9019, 0xb3, 0x6f), (0x901a, 0xb3, 0x71), (0x901b, 0xb3, 0x7d),
  (0x901c, 0xd7, 0xe5), (0x901d, 0xb3, 0x75), (0x901e, 0xb3, 0x78), (0x901f, 0xb3, 0x74)]

/-- `ENCODE_TABLE[13952..14080]`, (code point, byte 0, byte 1).  src/generated/whatwg/big5_whatwg_tables.rs.inc:7131-7174 -/
def encRow109 : List (Nat × Nat × Nat) := [
  (0x9020, 0xb3, 0x79), (0x9021, 0xd7, 0xe7), (0x9022, 0xb3, 0x7b), (0x9023, 0xb3, 0x73),
  (0x9024, 0xd7, 0xe2), (0x902d, 0xdc, 0x4d), (0x902e, 0xb6, 0x65), (0x902f, 0xdc, 0x4f),
  (0x9031, 0xb6, 0x67), (0x9032, 0xb6, 0x69), (0x9033, 0x99, 0xf3), (0x9034, 0xdc, 0x4e),
  (0x9035, 0xb6, 0x66), (0x9036, 0xb6, 0x6a), (0x9037, 0x90, 0x62), (0x9038, 0xb6, 0x68),
  (0x903c, 0xb9, 0x47), (0x903d, 0xe0, 0xa3), (0x903e, 0xb9, 0x4f), (0x903f, 0xe0, 0x7e),
  (0x9041, 0xb9, 0x50), (0x9042, 0xb9, 0x45), (0x9044, 0xe0, 0xa1), (0x9046, 0x87, 0xbd),
  (0x9047, 0xb9, 0x4a), (0x9049, 0xe0, 0xa2), (0x904a, 0xb9, 0x43), (0x904b, 0xb9, 0x42),
  (0x904c, 0x9f, 0x55), (0x904d, 0xb9, 0x4d), (0x904e, 0xb9, 0x4c), (0x904f, 0xb9, 0x4b),
  (0x9050, 0xb9, 0x49), (0x9051, 0xb9, 0x4e), (0x9052, 0xe0, 0x7d), (0x9053, 0xb9, 0x44),
  (0x9054, 0xb9, 0x46), (0x9055, 0xb9, 0x48), (0x9056, 0x9b, 0xf9), (0x9058, 0xbb, 0xb8),
  (0x9059, 0xbb, 0xbb), (0x905b, 0xbb, 0xbf), (0x905c, 0xbb, 0xb9), (0x905d, 0xbb, 0xbe),
  (0x905e, 0xbb, 0xbc), (0x9060, 0xbb, 0xb7), (0x9061, 0x90, 0x65), (0x9062, 0xbb, 0xbd),
  (0x9063, 0xbb, 0xba), (0x9064, 0x96, 0xe0), (0x9067, 0xe8, 0x52), (0x9068, 0xbe, 0x43),
  (0x9069, 0xbe, 0x41), (0x906b, 0xe8, 0x53), (0x906c, 0x98, 0xbe), (0x906d, 0xbe, 0x44),
  (0x906e, 0xbe, 0x42), (0x906f, 0xe8, 0x51), (0x9070, 0xe8, 0x50), (0x9072, 0xbf, 0xf0),
  (0x9073, 0xe8, 0x4f), (0x9074, 0xbf, 0xee), (0x9075, 0xbf, 0xed), (0x9076, 0xeb, 0xd0),
  (0x9077, 0xbe, 0x45), (0x9078, 0xbf, 0xef), (0x9079, 0xeb, 0xd1), (0x907a, 0xbf, 0xf2),
  (0x907b, 0xeb, 0xd2), (0x907c, 0xbf, 0xf1), (0x907d, 0xc1, 0xd8), (0x907e, 0xee, 0xc3),
  (0x907f, 0xc1, 0xd7), (0x9080, 0xc1, 0xdc), (0x9081, 0xc1, 0xda), (0x9082, 0xc1, 0xdb),
  (0x9083, 0xc2, 0xe3), (0x9084, 0xc1, 0xd9), (0x9085, 0xee, 0xc2), (0x9086, 0xeb, 0xd3),
  (0x9087, 0xc2, 0xe2), (0x9088, 0xc2, 0xe4), (0x908a, 0xc3, 0xe4), (0x908b, 0xc3, 0xe5),
  (0x908d, 0xf4, 0xe0), (0x908f, 0xc5, 0xde), (0x9090, 0xc5, 0xdd), (0x9091, 0xa8, 0xb6),
  (0x9094, 0xca, 0x55), (0x9095, 0xb0, 0x6f), (0x9097, 0x95, 0xd9), (0x9098, 0xca, 0x53),
  (0x9099, 0xca, 0x51), (0x909b, 0xca, 0x54), (0x909e, 0xcb, 0xaa), (0x909f, 0xcb, 0xa7),
  (0x90a0, 0xcb, 0xac), (0x90a1, 0xcb, 0xa8), (0x90a2, 0xa8, 0xb7), (0x90a3, 0xa8, 0xba),
  (0x90a5, 0xcb, 0xa9), (0x90a6, 0xa8, 0xb9), (0x90a7, 0xcb, 0xab), (0x90a8, 0x90, 0x68),
  (0x90aa, 0xa8, 0xb8), (0x90ae, 0x90, 0x6c), (0x90af, 0xcd, 0xd5), (0x90b0, 0xcd, 0xd7),
  (0x90b1, 0xaa, 0xf4), (0x90b2, 0xcd, 0xd3), (0x90b3, 0xcd, 0xd6), (0x90b4, 0xcd, 0xd4),
  (0x90b5, 0xaa, 0xf2), (0x90b6, 0xaa, 0xf5), (0x90b8, 0xaa, 0xf3), (0x90bb, 0x95, 0xd8),
  (0x90bd, 0xd0, 0xb8), (0x90be, 0xd0, 0xbc), (0x90bf, 0xd0, 0xb9), (0x90c1, 0xad, 0xa7),
  (0x90c3, 0xad, 0xa8), (0x90c4, 0x90, 0x6a), (0x90c5, 0xd0, 0xbb), (0x90c7, 0xd0, 0xbd),
  (0x90c8, 0xd0, 0xbf), (0x90ca, 0xad, 0xa5), (0x90cb, 0xd0, 0xbe), (0x90ce, 0xad, 0xa6)]

/-- `ENCODE_TABLE[14080..14208]`, (code point, byte 0, byte 1).  src/generated/whatwg/big5_whatwg_tables.rs.inc:7174-7216 -/
def encRow110 : List (Nat × Nat × Nat) := [
  (0x90d4, 0xd7, 0xee), (0x90d5, 0xd0, 0xba), (0x90d6, 0xd3, 0xf2), (0x90d7, 0xd3, 0xfb),
  (0x90d8, 0xd3, 0xf9), (0x90d9, 0xd3, 0xf4), (0x90da, 0xd3, 0xf5), (0x90db, 0xd3, 0xfa),
  (0x90dc, 0xd3, 0xfc), (0x90dd, 0xb0, 0x71), (0x90df, 0xd3, 0xf7), (0x90e0, 0xd3, 0xf3),
  (0x90e1, 0xb0, 0x70), (0x90e2, 0xb0, 0x72), (0x90e3, 0xd3, 0xf6), (0x90e4, 0xd3, 0xfd),
  (0x90e5, 0xd3, 0xf8), (0x90e8, 0xb3, 0xa1), (0x90e9, 0xd7, 0xf1), (0x90ea, 0xd7, 0xe9),
  (0x90eb, 0xd7, 0xef), (0x90ec, 0xd7, 0xf0), (0x90ed, 0xb3, 0xa2), (0x90ef, 0xd7, 0xe8),
  (0x90f0, 0xd7, 0xea), (0x90f1, 0xd0, 0xb7), (0x90f2, 0xd7, 0xec), (0x90f3, 0xd7, 0xed),
  (0x90f4, 0xd7, 0xeb), (0x90f5, 0xb6, 0x6c), (0x90f9, 0xdc, 0x56), (0x90fa, 0xeb, 0xd4),
  (0x90fb, 0xdc, 0x57), (0x90fc, 0xdc, 0x54), (0x90fd, 0x90, 0x6d), (0x90fe, 0xb6, 0x6e),
  (0x90ff, 0xdc, 0x53), (0x9100, 0xdc, 0x59), (0x9101, 0xdc, 0x58), (0x9102, 0xb6, 0x6b),
  (0x9103, 0xdc, 0x5c), (0x9104, 0x9c, 0x68), (0x9105, 0xdc, 0x5b), (0x9106, 0xdc, 0x50),
  (0x9107, 0xdc, 0x5a), (0x9108, 0xdc, 0x55), (0x9109, 0xb6, 0x6d), (0x910b, 0xe0, 0xaa),
  (0x910d, 0xe0, 0xa5), (0x910e, 0xe0, 0xab), (0x910f, 0xe0, 0xa6), (0x9110, 0xe0, 0xa4),
  (0x9111, 0xe0, 0xa7), (0x9112, 0xb9, 0x51), (0x9114, 0xe0, 0xa9), (0x9116, 0xe0, 0xa8),
  (0x9117, 0xb9, 0x52), (0x9118, 0xbb, 0xc1), (0x9119, 0xbb, 0xc0), (0x911a, 0xe4, 0x6e),
  (0x911b, 0xe4, 0x71), (0x911c, 0xe4, 0x69), (0x911d, 0xe4, 0x6d), (0x911e, 0xbb, 0xc2),
  (0x911f, 0xe4, 0x6c), (0x9120, 0xe4, 0x6a), (0x9121, 0xe4, 0x70), (0x9122, 0xe4, 0x6b),
  (0x9123, 0xe4, 0x68), (0x9124, 0xe4, 0x6f), (0x9126, 0xe8, 0x59), (0x9127, 0xbe, 0x48),
  (0x9128, 0xf1, 0x4a), (0x9129, 0xe8, 0x56), (0x912a, 0xe8, 0x57), (0x912b, 0xe8, 0x55),
  (0x912c, 0xdc, 0x51), (0x912d, 0xbe, 0x47), (0x912e, 0xe8, 0x5a), (0x912f, 0xe8, 0x54),
  (0x9130, 0xbe, 0x46), (0x9131, 0xbe, 0x49), (0x9132, 0xe8, 0x58), (0x9133, 0xeb, 0xd5),
  (0x9134, 0xbf, 0xf3), (0x9135, 0xeb, 0xd6), (0x9136, 0xeb, 0xd7), (0x9138, 0xee, 0xc4),
  (0x9139, 0xc1, 0xdd), (0x913a, 0xf1, 0x4b), (0x913b, 0xf1, 0x4c), (0x913e, 0xf1, 0x4d),
  (0x913f, 0xf3, 0x5d), (0x9140, 0xf3, 0x5c), (0x9141, 0xf4, 0xe2), (0x9143, 0xf4, 0xe1),
  (0x9144, 0xf6, 0x5b), (0x9145, 0xf6, 0x5c), (0x9146, 0xf6, 0x5a), (0x9147, 0xf7, 0x66),
  (0x9148, 0xc5, 0xb0), (0x9149, 0xa8, 0xbb), (0x914a, 0xad, 0xaa), (0x914b, 0xad, 0xa9),
  (0x914c, 0xb0, 0x75), (0x914d, 0xb0, 0x74), (0x914e, 0xd4, 0x40), (0x914f, 0xd4, 0x41),
  (0x9150, 0xd3, 0xfe), (0x9151, 0x9f, 0xb2), (0x9152, 0xb0, 0x73), (0x9153, 0xd7, 0xf5),
  (0x9155, 0xd7, 0xf6), (0x9156, 0xd7, 0xf2), (0x9157, 0xb3, 0xa4), (0x9158, 0xd7, 0xf3),
  (0x9159, 0x9f, 0xae), (0x915a, 0xd7, 0xf4), (0x915c, 0x9f, 0xb0), (0x915e, 0x89, 0xad),
  (0x915f, 0xdc, 0x5f), (0x9160, 0xdc, 0x61), (0x9161, 0xdc, 0x5d), (0x9162, 0xdc, 0x60),
  (0x9163, 0xb6, 0x6f), (0x9164, 0xdc, 0x5e), (0x9165, 0xb6, 0x70), (0x9167, 0x90, 0x6e)]

/-- `ENCODE_TABLE[14208..14336]`, (code point, byte 0, byte 1).  src/generated/whatwg/big5_whatwg_tables.rs.inc:7217-7259 -/
def encRow111 : List (Nat × Nat × Nat) := [
  (0x9168, 0xdd, 0x73), (0x9169, 0xb9, 0x55), (0x916a, 0xb9, 0x54), (0x916c, 0xb9, 0x53),
  (0x916e, 0xe0, 0xac), (0x916f, 0xe0, 0xad), (0x9170, 0x9e, 0x71), (0x9172, 0xe4, 0x73),
  (0x9173, 0xe4, 0x75), (0x9174, 0xbb, 0xc6), (0x9175, 0xbb, 0xc3), (0x9176, 0x9e, 0x4a),
  (0x9177, 0xbb, 0xc5), (0x9178, 0xbb, 0xc4), (0x9179, 0xe4, 0x74), (0x917a, 0xe4, 0x72),
  (0x917c, 0x9f, 0xdc), (0x9180, 0xe8, 0x61), (0x9181, 0xe8, 0x5e), (0x9182, 0xe8, 0x5f),
  (0x9183, 0xbe, 0x4d), (0x9184, 0xe8, 0x60), (0x9185, 0xe8, 0x5b), (0x9186, 0xe8, 0x5c),
  (0x9187, 0xbe, 0x4a), (0x9189, 0xbe, 0x4b), (0x918a, 0xe8, 0x5d), (0x918b, 0xbe, 0x4c),
  (0x918c, 0x89, 0xab), (0x918d, 0xeb, 0xdb), (0x918e, 0x9f, 0xb8), (0x918f, 0xeb, 0xdc),
  (0x9190, 0xeb, 0xd9), (0x9191, 0xeb, 0xda), (0x9192, 0xbf, 0xf4), (0x9193, 0xeb, 0xd8),
  (0x9199, 0xee, 0xc8), (0x919a, 0xee, 0xc5), (0x919b, 0xee, 0xc7), (0x919c, 0xc1, 0xe0),
  (0x919d, 0xee, 0xcb), (0x919e, 0xc1, 0xdf), (0x919f, 0xee, 0xc9), (0x91a0, 0xee, 0xcc),
  (0x91a1, 0xee, 0xca), (0x91a2, 0xee, 0xc6), (0x91a3, 0xc1, 0xde), (0x91a5, 0xf1, 0x4f),
  (0x91a7, 0xf1, 0x50), (0x91a8, 0xf1, 0x4e), (0x91a9, 0x90, 0x70), (0x91aa, 0xf1, 0x52),
  (0x91ab, 0xc2, 0xe5), (0x91ac, 0xc2, 0xe6), (0x91ad, 0xf3, 0x5f), (0x91ae, 0xc3, 0xe7),
  (0x91af, 0xf1, 0x51), (0x91b0, 0xf3, 0x5e), (0x91b1, 0xc3, 0xe6), (0x91b2, 0xf4, 0xe5),
  (0x91b3, 0xf4, 0xe6), (0x91b4, 0xc4, 0xbf), (0x91b5, 0xf4, 0xe4), (0x91b6, 0x8b, 0x63),
  (0x91b7, 0xf4, 0xe3), (0x91b9, 0xf6, 0x5d), (0x91ba, 0xc5, 0x48), (0x91bb, 0x95, 0xdc),
  (0x91bc, 0xf8, 0x49), (0x91bd, 0xf8, 0xc8), (0x91be, 0xf8, 0xc7), (0x91c0, 0xc6, 0x43),
  (0x91c1, 0xc6, 0x5d), (0x91c2, 0xf8, 0xc9), (0x91c3, 0xf9, 0x71), (0x91c4, 0x90, 0x71),
  (0x91c5, 0xc6, 0x6f), (0x91c6, 0xa8, 0xbc), (0x91c7, 0xaa, 0xf6), (0x91c9, 0xb9, 0x56),
  (0x91cb, 0xc4, 0xc0), (0x91cc, 0xa8, 0xbd), (0x91cd, 0xad, 0xab), (0x91ce, 0xb3, 0xa5),
  (0x91cf, 0xb6, 0x71), (0x91d0, 0xc2, 0xe7), (0x91d1, 0xaa, 0xf7), (0x91d3, 0xd0, 0xc1),
  (0x91d4, 0x9b, 0xde), (0x91d5, 0xd4, 0x42), (0x91d6, 0xfc, 0x5e), (0x91d7, 0xb0, 0x78),
  (0x91d8, 0xb0, 0x76), (0x91d9, 0xb0, 0x7a), (0x91da, 0xd4, 0x44), (0x91dc, 0xb0, 0x79),
  (0x91dd, 0xb0, 0x77), (0x91df, 0x89, 0x49), (0x91e2, 0xd4, 0x43), (0x91e3, 0xb3, 0xa8),
  (0x91e4, 0xd7, 0xfc), (0x91e5, 0x96, 0x5b), (0x91e6, 0xb3, 0xa7), (0x91e7, 0xb3, 0xa9),
  (0x91e8, 0xd8, 0x42), (0x91e9, 0xb3, 0xab), (0x91ea, 0xd7, 0xfe), (0x91eb, 0xd8, 0x40),
  (0x91ec, 0xd7, 0xf7), (0x91ed, 0xb3, 0xaa), (0x91ee, 0xd8, 0x43), (0x91f1, 0xd7, 0xf9),
  (0x91f3, 0xd7, 0xfa), (0x91f4, 0xd7, 0xf8), (0x91f5, 0xb3, 0xa6), (0x91f6, 0x8c, 0x50),
  (0x91f7, 0xd8, 0x41), (0x91f8, 0xd7, 0xfb), (0x91f9, 0xd7, 0xfd), (0x91fa, 0x94, 0xa6),
  (0x91fd, 0xdc, 0x6d), (0x91fe, 0x8f, 0xd5), (0x91ff, 0xdc, 0x6c), (0x9200, 0xdc, 0x6a),
  (0x9201, 0xdc, 0x62), (0x9202, 0xdc, 0x71), (0x9203, 0xdc, 0x65), (0x9204, 0xdc, 0x6f)]

/-- `ENCODE_TABLE[14336..14464]`, (code point, byte 0, byte 1).  src/generated/whatwg/big5_whatwg_tables.rs.inc:7259-7302 -/
def encRow112 : List (Nat × Nat × Nat) := [
  (0x9205, 0xdc, 0x76), (0x9206, 0xdc, 0x6e), (0x9207, 0xb6, 0x79), (0x9208, 0x9e, 0x73),
  (0x9209, 0xb6, 0x75), (0x920a, 0xdc, 0x63), (0x920c, 0xdc, 0x69), (0x920d, 0xb6, 0x77),
  (0x920e, 0x90, 0x75), (0x920f, 0xdc, 0x68), (0x9210, 0xb6, 0x78), (0x9211, 0xb6, 0x7a),
  (0x9212, 0xdc, 0x6b), (0x9213, 0x99, 0xf7), (0x9214, 0xb6, 0x72), (0x9215, 0xb6, 0x73),
  (0x9216, 0xdc, 0x77), (0x9217, 0xdc, 0x75), (0x9218, 0x87, 0xb2), (0x9219, 0xdc, 0x74),
  (0x921a, 0xdc, 0x66), (0x921c, 0xdc, 0x72), (0x921e, 0xb6, 0x76), (0x9221, 0x8c, 0xbf),
  (0x9223, 0xb6, 0x74), (0x9224, 0xdc, 0x73), (0x9225, 0xdc, 0x64), (0x9226, 0xdc, 0x67),
  (0x9227, 0xdc, 0x70), (0x9228, 0x99, 0xf9), (0x922a, 0x96, 0x63), (0x922b, 0x95, 0xb9),
  (0x922d, 0xe4, 0xba), (0x922e, 0xe0, 0xb7), (0x9230, 0xe0, 0xb0), (0x9231, 0xe0, 0xc3),
  (0x9232, 0xe0, 0xcc), (0x9233, 0xe0, 0xb3), (0x9234, 0xb9, 0x61), (0x9235, 0x94, 0xd4),
  (0x9236, 0xe0, 0xc0), (0x9237, 0xb9, 0x57), (0x9238, 0xb9, 0x59), (0x9239, 0xb9, 0x65),
  (0x923a, 0xe0, 0xb1), (0x923c, 0xfc, 0xfa), (0x923d, 0xb9, 0x5a), (0x923e, 0xb9, 0x5c),
  (0x923f, 0xb9, 0x66), (0x9240, 0xb9, 0x5b), (0x9241, 0x90, 0x77), (0x9244, 0x90, 0xab),
  (0x9245, 0xb9, 0x64), (0x9246, 0xe0, 0xb9), (0x9248, 0xe0, 0xae), (0x9249, 0xb9, 0x62),
  (0x924a, 0xe0, 0xb8), (0x924b, 0xb9, 0x5e), (0x924c, 0xe0, 0xca), (0x924d, 0xb9, 0x63),
  (0x924e, 0xe0, 0xc8), (0x924f, 0xe0, 0xbc), (0x9250, 0xe0, 0xc6), (0x9251, 0xb9, 0x60),
  (0x9252, 0xe0, 0xaf), (0x9253, 0xe0, 0xc9), (0x9254, 0xe0, 0xc4), (0x9255, 0x9d, 0x4d),
  (0x9256, 0xe0, 0xcb), (0x9257, 0xb9, 0x58), (0x9258, 0x99, 0xfa), (0x925a, 0xb9, 0x67),
  (0x925b, 0xb9, 0x5d), (0x925d, 0x92, 0xe3), (0x925e, 0xe0, 0xb5), (0x925f, 0x97, 0xbb),
  (0x9260, 0xe0, 0xbd), (0x9261, 0xe0, 0xc1), (0x9262, 0x90, 0x78), (0x9263, 0xe0, 0xc5),
  (0x9264, 0xb9, 0x5f), (0x9265, 0xe0, 0xb4), (0x9266, 0xe0, 0xb2), (0x9267, 0xe0, 0xbe),
  (0x926b, 0x99, 0xfb), (0x926c, 0xe0, 0xbb), (0x926d, 0xe0, 0xba), (0x926e, 0x97, 0xe0),
  (0x926f, 0xe0, 0xbf), (0x9270, 0xe0, 0xc2), (0x9272, 0xe0, 0xc7), (0x9276, 0xe4, 0x78),
  (0x9277, 0x96, 0xdc), (0x9278, 0xbb, 0xc7), (0x9279, 0xe4, 0xa4), (0x927a, 0xe4, 0x7a),
  (0x927b, 0xbb, 0xcc), (0x927c, 0xbb, 0xd0), (0x927d, 0xe4, 0xad), (0x927e, 0xe4, 0xb5),
  (0x927f, 0xe4, 0xa6), (0x9280, 0xbb, 0xc8), (0x9281, 0x9c, 0xa8), (0x9282, 0xe4, 0xaa),
  (0x9283, 0xe0, 0xb6), (0x9284, 0x97, 0x72), (0x9285, 0xbb, 0xc9), (0x9286, 0xe4, 0xb1),
  (0x9287, 0xe4, 0xb6), (0x9288, 0xe4, 0xae), (0x9289, 0x94, 0x40), (0x928a, 0xe4, 0xb0),
  (0x928b, 0xe4, 0xb9), (0x928c, 0xe4, 0xb2), (0x928d, 0xe4, 0x7e), (0x928e, 0xe4, 0xa9),
  (0x928f, 0x92, 0xf2), (0x9291, 0xbb, 0xd1), (0x9293, 0xbb, 0xcd), (0x9294, 0xe4, 0x7c),
  (0x9295, 0xe4, 0xab), (0x9296, 0xbb, 0xcb), (0x9297, 0xe4, 0xa5), (0x9298, 0xbb, 0xca),
  (0x9299, 0xe4, 0xb3), (0x929a, 0xe4, 0xa2), (0x929b, 0xe4, 0x79), (0x929c, 0xbb, 0xce)]

/-- `ENCODE_TABLE[14464..14592]`, (code point, byte 0, byte 1).  src/generated/whatwg/big5_whatwg_tables.rs.inc:7302-7344 -/
def encRow113 : List (Nat × Nat × Nat) := [
  (0x929d, 0xe4, 0xb8), (0x92a0, 0xe4, 0x7b), (0x92a1, 0xe4, 0xaf), (0x92a2, 0xe4, 0xac),
  (0x92a3, 0xe4, 0xa7), (0x92a4, 0xe4, 0x77), (0x92a5, 0xe4, 0x76), (0x92a6, 0xe4, 0xa1),
  (0x92a7, 0xe4, 0xb4), (0x92a8, 0xbb, 0xcf), (0x92a9, 0xe4, 0xb7), (0x92aa, 0xe4, 0x7d),
  (0x92ab, 0xe4, 0xa3), (0x92ac, 0xbe, 0x52), (0x92ae, 0x99, 0xfd), (0x92b1, 0x99, 0xfc),
  (0x92b2, 0xbe, 0x5a), (0x92b3, 0xbe, 0x55), (0x92b4, 0xe8, 0xa4), (0x92b5, 0xe8, 0xa1),
  (0x92b6, 0xe8, 0x67), (0x92b7, 0xbe, 0x50), (0x92b9, 0x90, 0x7a), (0x92ba, 0x96, 0x4a),
  (0x92bb, 0xbe, 0x4f), (0x92bc, 0xbe, 0x56), (0x92be, 0x96, 0xd8), (0x92bf, 0x99, 0xfe),
  (0x92c0, 0xe8, 0x65), (0x92c1, 0xbe, 0x54), (0x92c2, 0xe8, 0x71), (0x92c3, 0xe8, 0x63),
  (0x92c4, 0xe8, 0x64), (0x92c5, 0xbe, 0x4e), (0x92c6, 0xe8, 0xa3), (0x92c7, 0xbe, 0x58),
  (0x92c8, 0xe8, 0x74), (0x92c9, 0xe8, 0x79), (0x92ca, 0xe8, 0x73), (0x92cb, 0xeb, 0xee),
  (0x92cc, 0xe8, 0x6f), (0x92cd, 0xe8, 0x77), (0x92ce, 0xe8, 0x75), (0x92cf, 0xe8, 0x68),
  (0x92d0, 0xe8, 0x62), (0x92d1, 0xe8, 0x7d), (0x92d2, 0xbe, 0x57), (0x92d3, 0xe8, 0x7e),
  (0x92d4, 0x90, 0x4b), (0x92d5, 0xe8, 0x78), (0x92d7, 0xe8, 0x6d), (0x92d8, 0xe8, 0x6b),
  (0x92d9, 0xe8, 0x66), (0x92db, 0xfa, 0x41), (0x92dd, 0xe8, 0x6e), (0x92de, 0xe8, 0x7b),
  (0x92df, 0xe8, 0x6a), (0x92e0, 0xe8, 0x7a), (0x92e1, 0xe8, 0xa2), (0x92e3, 0x9a, 0x40),
  (0x92e4, 0xbe, 0x53), (0x92e5, 0x97, 0x5b), (0x92e6, 0xe8, 0x76), (0x92e7, 0xe8, 0x7c),
  (0x92e8, 0xe8, 0x72), (0x92e9, 0xe8, 0x6c), (0x92ea, 0xbe, 0x51), (0x92eb, 0x9a, 0x41),
  (0x92ec, 0x91, 0xdd), (0x92ee, 0xe4, 0xa8), (0x92ef, 0xe8, 0x70), (0x92f0, 0xbe, 0x59),
  (0x92f1, 0xe8, 0x69), (0x92f2, 0x93, 0xfc), (0x92f3, 0x9a, 0x42), (0x92f4, 0x9a, 0x43),
  (0x92f6, 0x96, 0x59), (0x92f7, 0xeb, 0xf4), (0x92f8, 0xbf, 0xf7), (0x92f9, 0xeb, 0xf3),
  (0x92fa, 0xeb, 0xf0), (0x92fb, 0xec, 0x44), (0x92fc, 0xbf, 0xfb), (0x92fd, 0x9a, 0x44),
  (0x92fe, 0xec, 0x41), (0x92ff, 0xeb, 0xf8), (0x9300, 0xec, 0x43), (0x9301, 0xeb, 0xe9),
  (0x9302, 0xeb, 0xf6), (0x9303, 0x90, 0x51), (0x9304, 0xbf, 0xfd), (0x9306, 0xeb, 0xe1),
  (0x9307, 0x94, 0xbf), (0x9308, 0xeb, 0xdf), (0x9309, 0xec, 0x42), (0x930b, 0xec, 0x40),
  (0x930c, 0xeb, 0xfe), (0x930d, 0xeb, 0xed), (0x930e, 0xeb, 0xec), (0x930f, 0xeb, 0xe2),
  (0x9310, 0xc0, 0x40), (0x9312, 0xeb, 0xe8), (0x9313, 0xeb, 0xf2), (0x9314, 0xeb, 0xfd),
  (0x9315, 0xc0, 0x43), (0x9316, 0xec, 0x45), (0x9318, 0xc1, 0xe8), (0x9319, 0xc0, 0x45),
  (0x931a, 0xbf, 0xfe), (0x931b, 0xeb, 0xe6), (0x931d, 0xeb, 0xef), (0x931e, 0xeb, 0xde),
  (0x931f, 0xeb, 0xe0), (0x9320, 0xbf, 0xf5), (0x9321, 0xc0, 0x42), (0x9322, 0xbf, 0xfa),
  (0x9323, 0xeb, 0xe7), (0x9324, 0xeb, 0xf7), (0x9325, 0xeb, 0xf1), (0x9326, 0xc0, 0x41),
  (0x9327, 0xeb, 0xdd), (0x9328, 0xc1, 0xe3), (0x9329, 0xeb, 0xf9), (0x932a, 0xeb, 0xfc),
  (0x932b, 0xbf, 0xfc), (0x932c, 0x90, 0xa2), (0x932d, 0xeb, 0xeb), (0x932e, 0xc0, 0x44)]

/-- `ENCODE_TABLE[14592..14720]`, (code point, byte 0, byte 1).  src/generated/whatwg/big5_whatwg_tables.rs.inc:7345-7387 -/
def encRow114 : List (Nat × Nat × Nat) := [
  (0x932f, 0xbf, 0xf9), (0x9330, 0x9c, 0xab), (0x9331, 0x97, 0x76), (0x9333, 0xbf, 0xf8),
  (0x9334, 0xeb, 0xf5), (0x9335, 0xeb, 0xfb), (0x9336, 0xbf, 0xf6), (0x9338, 0xeb, 0xe4),
  (0x9339, 0xeb, 0xfa), (0x933c, 0xeb, 0xe5), (0x9340, 0xfc, 0x55), (0x9341, 0xfe, 0x45),
  (0x9342, 0x94, 0xa8), (0x9343, 0x9a, 0x45), (0x9344, 0xfa, 0x4b), (0x9345, 0x9d, 0xe1),
  (0x9346, 0xeb, 0xea), (0x9347, 0xee, 0xd2), (0x9348, 0x96, 0xd9), (0x9349, 0xee, 0xd7),
  (0x934a, 0xc1, 0xe5), (0x934b, 0xc1, 0xe7), (0x934c, 0xee, 0xdd), (0x934d, 0xc1, 0xe1),
  (0x934e, 0xee, 0xec), (0x934f, 0xee, 0xe3), (0x9350, 0xee, 0xd8), (0x9351, 0xee, 0xd9),
  (0x9352, 0xee, 0xe2), (0x9354, 0xc1, 0xee), (0x9355, 0xee, 0xe1), (0x9356, 0xee, 0xd1),
  (0x9357, 0xee, 0xe0), (0x9358, 0xee, 0xd4), (0x9359, 0xee, 0xed), (0x935a, 0xc1, 0xed),
  (0x935b, 0xc1, 0xeb), (0x935c, 0xee, 0xd5), (0x935e, 0xee, 0xe8), (0x935f, 0x97, 0x74),
  (0x9360, 0xee, 0xda), (0x9361, 0xee, 0xe7), (0x9362, 0xfd, 0xf5), (0x9363, 0xee, 0xe9),
  (0x9364, 0xee, 0xd0), (0x9365, 0xc1, 0xe6), (0x9366, 0x92, 0xe5), (0x9367, 0xee, 0xea),
  (0x9368, 0x96, 0x45), (0x9369, 0x91, 0xda), (0x936a, 0xee, 0xde), (0x936b, 0x90, 0xa3),
  (0x936c, 0xc1, 0xea), (0x936d, 0xee, 0xdb), (0x936e, 0x92, 0xc8), (0x9370, 0xc1, 0xec),
  (0x9371, 0xee, 0xe4), (0x9373, 0x90, 0xaf), (0x9374, 0x97, 0xbf), (0x9375, 0xc1, 0xe4),
  (0x9376, 0xee, 0xd6), (0x9377, 0xee, 0xe5), (0x9378, 0x91, 0x4c), (0x9379, 0xee, 0xdf),
  (0x937a, 0xeb, 0xe3), (0x937b, 0xee, 0xe6), (0x937c, 0xee, 0xd3), (0x937d, 0x96, 0x7a),
  (0x937e, 0xc1, 0xe9), (0x9380, 0xee, 0xeb), (0x9381, 0x91, 0xde), (0x9382, 0xc1, 0xe2),
  (0x9383, 0xee, 0xce), (0x9384, 0x9a, 0x46), (0x9385, 0xfe, 0xb0), (0x9386, 0x97, 0x79),
  (0x9387, 0x94, 0x6c), (0x9388, 0xf1, 0x60), (0x9389, 0xf1, 0x59), (0x938a, 0xc2, 0xe9),
  (0x938c, 0xf1, 0x54), (0x938d, 0xf1, 0x63), (0x938e, 0xf1, 0x5b), (0x938f, 0xee, 0xdc),
  (0x9390, 0x98, 0x58), (0x9391, 0xf1, 0x65), (0x9392, 0xf1, 0x55), (0x9394, 0xc2, 0xe8),
  (0x9395, 0xf1, 0x5f), (0x9396, 0xc2, 0xea), (0x9397, 0xc2, 0xf2), (0x9398, 0xc2, 0xf0),
  (0x9399, 0xf1, 0x61), (0x939a, 0xc2, 0xf1), (0x939b, 0xf1, 0x57), (0x939c, 0x92, 0x66),
  (0x939d, 0xf1, 0x58), (0x939e, 0xf1, 0x5d), (0x939f, 0xf1, 0x62), (0x93a0, 0x93, 0xfb),
  (0x93a1, 0xee, 0xcd), (0x93a2, 0xc2, 0xeb), (0x93a3, 0xf1, 0x6a), (0x93a4, 0xf1, 0x67),
  (0x93a5, 0xf1, 0x6b), (0x93a6, 0xf1, 0x5e), (0x93a7, 0xf1, 0x5a), (0x93a8, 0xf1, 0x68),
  (0x93a9, 0xf3, 0x6a), (0x93aa, 0xf1, 0x5c), (0x93ac, 0xc2, 0xee), (0x93ad, 0x9a, 0x47),
  (0x93ae, 0xc2, 0xed), (0x93af, 0xee, 0xcf), (0x93b0, 0xc2, 0xef), (0x93b1, 0xf1, 0x64),
  (0x93b2, 0xf1, 0x66), (0x93b3, 0xc2, 0xec), (0x93b4, 0xf1, 0x69), (0x93b5, 0xf1, 0x53),
  (0x93b7, 0xf1, 0x56), (0x93b8, 0x97, 0x49), (0x93bb, 0x97, 0x48), (0x93bd, 0x93, 0x4a),
  (0x93bf, 0x9c, 0xe2), (0x93c0, 0xf3, 0x73), (0x93c2, 0xf3, 0x63), (0x93c3, 0xc3, 0xeb)]

/-- `ENCODE_TABLE[14720..14848]`, (code point, byte 0, byte 1).  src/generated/whatwg/big5_whatwg_tables.rs.inc:7387-7430 -/
def encRow115 : List (Nat × Nat × Nat) := [
  (0x93c4, 0xf3, 0x71), (0x93c6, 0x92, 0x64), (0x93c7, 0xf3, 0x61), (0x93c8, 0xc3, 0xec),
  (0x93ca, 0xf3, 0x6c), (0x93cb, 0x91, 0xdf), (0x93cc, 0xf3, 0x68), (0x93cd, 0xc3, 0xf1),
  (0x93ce, 0xf3, 0x72), (0x93cf, 0xf3, 0x62), (0x93d0, 0xf3, 0x65), (0x93d1, 0xc3, 0xe9),
  (0x93d2, 0xf3, 0x74), (0x93d3, 0xfb, 0x79), (0x93d4, 0xf3, 0x6d), (0x93d5, 0xf3, 0x70),
  (0x93d6, 0xc3, 0xef), (0x93d7, 0xc3, 0xf4), (0x93d8, 0xc3, 0xf2), (0x93d9, 0xf3, 0x69),
  (0x93da, 0xf3, 0x64), (0x93db, 0x96, 0xd7), (0x93dc, 0xc3, 0xed), (0x93dd, 0xc3, 0xee),
  (0x93de, 0xf3, 0x60), (0x93df, 0xc3, 0xea), (0x93e0, 0x93, 0x43), (0x93e1, 0xc3, 0xe8),
  (0x93e2, 0xc3, 0xf0), (0x93e3, 0xf3, 0x6f), (0x93e4, 0xc3, 0xf3), (0x93e6, 0xf3, 0x6b),
  (0x93e7, 0xf3, 0x75), (0x93e8, 0xc3, 0xf5), (0x93ec, 0xf3, 0x67), (0x93ee, 0xf3, 0x6e),
  (0x93f0, 0xfd, 0xcb), (0x93f1, 0xfe, 0x7a), (0x93f3, 0x91, 0xdb), (0x93f4, 0x8c, 0x6a),
  (0x93f5, 0xf4, 0xf3), (0x93f6, 0xf5, 0x42), (0x93f7, 0xf4, 0xf5), (0x93f8, 0xf4, 0xfc),
  (0x93f9, 0xf3, 0x66), (0x93fa, 0xf4, 0xfa), (0x93fb, 0xf4, 0xe9), (0x93fc, 0xf5, 0x40),
  (0x93fd, 0xc4, 0xc3), (0x93fe, 0xf4, 0xed), (0x93ff, 0xf4, 0xfe), (0x9400, 0xf4, 0xf4),
  (0x9401, 0x97, 0xaf), (0x9403, 0xc4, 0xc2), (0x9404, 0x95, 0xdd), (0x9406, 0xf5, 0x44),
  (0x9407, 0xf4, 0xf6), (0x9408, 0x93, 0x48), (0x9409, 0xf4, 0xfb), (0x940a, 0xf4, 0xfd),
  (0x940b, 0xf4, 0xe7), (0x940c, 0xf5, 0x41), (0x940d, 0xf4, 0xf2), (0x940e, 0xf4, 0xf7),
  (0x940f, 0xf4, 0xeb), (0x9410, 0xf4, 0xef), (0x9411, 0xf5, 0x43), (0x9412, 0xf4, 0xf9),
  (0x9413, 0xf4, 0xe8), (0x9414, 0xf4, 0xec), (0x9415, 0xf4, 0xee), (0x9416, 0xf4, 0xf8),
  (0x9417, 0x9a, 0x4b), (0x9418, 0xc4, 0xc1), (0x9419, 0xf4, 0xf1), (0x941b, 0xfc, 0x45),
  (0x941d, 0x9a, 0x4d), (0x9420, 0xf4, 0xea), (0x9424, 0x91, 0xbc), (0x9425, 0x90, 0xe2),
  (0x9426, 0x90, 0xb4), (0x9427, 0x95, 0xe1), (0x9428, 0xf4, 0xf0), (0x9429, 0xf6, 0x61),
  (0x942a, 0xf6, 0x66), (0x942b, 0xc5, 0x4f), (0x942c, 0xf6, 0x68), (0x942d, 0x9a, 0x4e),
  (0x942e, 0xc5, 0x49), (0x942f, 0x87, 0xad), (0x9430, 0xf6, 0x64), (0x9431, 0xf6, 0x6a),
  (0x9432, 0xc5, 0x4e), (0x9433, 0xc5, 0x4a), (0x9435, 0xc5, 0x4b), (0x9436, 0xf6, 0x60),
  (0x9437, 0xf6, 0x67), (0x9438, 0xc5, 0x4d), (0x9439, 0xf6, 0x65), (0x943a, 0xc5, 0x4c),
  (0x943b, 0xf6, 0x5f), (0x943c, 0xf6, 0x63), (0x943d, 0xf6, 0x62), (0x943e, 0x9a, 0x4f),
  (0x943f, 0xf6, 0x5e), (0x9440, 0xf6, 0x69), (0x9442, 0xfe, 0x40), (0x9443, 0xfe, 0x43),
  (0x9444, 0xc5, 0xb1), (0x9445, 0xf7, 0x6d), (0x9446, 0xf7, 0x70), (0x9447, 0xf7, 0x6c),
  (0x9448, 0xf7, 0x6e), (0x9449, 0xf7, 0x6f), (0x944a, 0xf7, 0x69), (0x944b, 0xf7, 0x6a),
  (0x944c, 0xf7, 0x67), (0x944d, 0x96, 0xdd), (0x944f, 0xf7, 0x6b), (0x9450, 0xf7, 0x68),
  (0x9451, 0xc5, 0xb2), (0x9452, 0xc5, 0xb3), (0x9454, 0x9a, 0x51), (0x9455, 0xf8, 0x4b),
  (0x9457, 0xf8, 0x4d), (0x9458, 0x96, 0xa7), (0x945b, 0x90, 0xb0), (0x945d, 0xf8, 0x4c)]

/-- `ENCODE_TABLE[14848..14976]`, (code point, byte 0, byte 1).  src/generated/whatwg/big5_whatwg_tables.rs.inc:7430-7472 -/
def encRow116 : List (Nat × Nat × Nat) := [
  (0x945e, 0xf8, 0x4e), (0x9460, 0xc5, 0xe0), (0x9462, 0xf8, 0x4a), (0x9463, 0xc5, 0xdf),
  (0x9464, 0xc5, 0xe1), (0x9465, 0x9c, 0x4e), (0x9467, 0x94, 0x43), (0x9468, 0xf8, 0xcb),
  (0x9469, 0xf8, 0xcc), (0x946a, 0xc6, 0x44), (0x946b, 0xf8, 0xca), (0x946c, 0x8e, 0xba),
  (0x946d, 0xf9, 0x53), (0x946e, 0xf9, 0x52), (0x946f, 0xf9, 0x54), (0x9470, 0xc6, 0x5f),
  (0x9471, 0xf9, 0x55), (0x9472, 0xc6, 0x5e), (0x9473, 0xf9, 0x56), (0x9474, 0xf9, 0x72),
  (0x9475, 0xf9, 0x75), (0x9476, 0xf9, 0x74), (0x9477, 0xc6, 0x68), (0x9478, 0xf9, 0x73),
  (0x9479, 0x9a, 0x52), (0x947b, 0xfc, 0xc1), (0x947c, 0xc6, 0x72), (0x947d, 0xc6, 0x70),
  (0x947e, 0xc6, 0x71), (0x947f, 0xc6, 0x77), (0x9480, 0xf9, 0xc0), (0x9481, 0xf9, 0xc1),
  (0x9482, 0xf9, 0xbf), (0x9483, 0xf9, 0xc9), (0x9485, 0x8b, 0xe9), (0x949f, 0x9c, 0xaf),
  (0x94a2, 0x8b, 0xfd), (0x94c1, 0x9a, 0xbc), (0x94c3, 0x9a, 0xb8), (0x94dc, 0x9a, 0xae),
  (0x94f6, 0x9a, 0xa7), (0x952d, 0x9a, 0x53), (0x9547, 0x9d, 0x74), (0x9577, 0xaa, 0xf8),
  (0x9578, 0x8b, 0xea), (0x957a, 0xd8, 0x44), (0x957b, 0xdc, 0x78), (0x957c, 0xe8, 0xa5),
  (0x957d, 0xf3, 0x76), (0x957f, 0x8b, 0xeb), (0x9580, 0xaa, 0xf9), (0x9582, 0xad, 0xac),
  (0x9583, 0xb0, 0x7b), (0x9585, 0x90, 0xb2), (0x9586, 0xd8, 0x45), (0x9588, 0xd8, 0x46),
  (0x9589, 0xb3, 0xac), (0x958b, 0xb6, 0x7d), (0x958c, 0xdc, 0x7a), (0x958d, 0xdc, 0x79),
  (0x958e, 0xb6, 0xa3), (0x958f, 0xb6, 0x7c), (0x9590, 0xdc, 0x7b), (0x9591, 0xb6, 0x7e),
  (0x9592, 0xb6, 0xa2), (0x9593, 0xb6, 0xa1), (0x9594, 0xb6, 0x7b), (0x9596, 0x95, 0xe9),
  (0x9597, 0x95, 0xe8), (0x9598, 0xb9, 0x68), (0x9599, 0x95, 0xe6), (0x959b, 0xe0, 0xd0),
  (0x959c, 0xe0, 0xce), (0x959e, 0xe0, 0xcf), (0x959f, 0xe0, 0xcd), (0x95a0, 0x90, 0xb5),
  (0x95a1, 0xbb, 0xd2), (0x95a2, 0x9a, 0x54), (0x95a3, 0xbb, 0xd5), (0x95a4, 0xbb, 0xd7),
  (0x95a5, 0xbb, 0xd6), (0x95a6, 0x90, 0xb3), (0x95a7, 0x95, 0xe7), (0x95a8, 0xbb, 0xd3),
  (0x95a9, 0xbb, 0xd4), (0x95aa, 0x8b, 0x50), (0x95ab, 0xe8, 0xa7), (0x95ac, 0xe8, 0xa6),
  (0x95ad, 0xbe, 0x5b), (0x95ae, 0xe8, 0xa8), (0x95b0, 0xe8, 0xa9), (0x95b1, 0xbe, 0x5c),
  (0x95b5, 0xec, 0x4d), (0x95b6, 0xec, 0x4b), (0x95b7, 0xee, 0xf3), (0x95b9, 0xec, 0x49),
  (0x95ba, 0xec, 0x4a), (0x95bb, 0xc0, 0x46), (0x95bc, 0xec, 0x46), (0x95bd, 0xec, 0x4e),
  (0x95be, 0xec, 0x48), (0x95bf, 0xec, 0x4c), (0x95c0, 0xee, 0xef), (0x95c3, 0xee, 0xf1),
  (0x95c5, 0xee, 0xf2), (0x95c6, 0xc1, 0xf3), (0x95c7, 0xee, 0xee), (0x95c8, 0xc1, 0xf2),
  (0x95c9, 0xee, 0xf0), (0x95ca, 0xc1, 0xef), (0x95cb, 0xc1, 0xf0), (0x95cc, 0xc1, 0xf1),
  (0x95cd, 0xec, 0x47), (0x95d0, 0xc2, 0xf5), (0x95d1, 0xf1, 0x6e), (0x95d2, 0xf1, 0x6c),
  (0x95d3, 0xf1, 0x6d), (0x95d4, 0xc2, 0xf3), (0x95d5, 0xc2, 0xf6), (0x95d6, 0xc2, 0xf4),
  (0x95da, 0xf3, 0x77), (0x95db, 0xf3, 0x78), (0x95dc, 0xc3, 0xf6), (0x95de, 0xf5, 0x45),
  (0x95df, 0xf5, 0x47), (0x95e0, 0xf5, 0x46), (0x95e1, 0xc4, 0xc4), (0x95e2, 0xc5, 0x50)]

/-- `ENCODE_TABLE[14976..15104]`, (code point, byte 0, byte 1).  src/generated/whatwg/big5_whatwg_tables.rs.inc:7473-7515 -/
def encRow117 : List (Nat × Nat × Nat) := [
  (0x95e3, 0xf6, 0x6d), (0x95e4, 0xf6, 0x6c), (0x95e5, 0xf6, 0x6b), (0x95e8, 0x8b, 0xec),
  (0x95f4, 0x9a, 0x56), (0x961c, 0xaa, 0xfa), (0x961d, 0x8b, 0xfb), (0x961e, 0xc9, 0xaa),
  (0x9620, 0xca, 0x58), (0x9621, 0xa6, 0xe9), (0x9622, 0xca, 0x56), (0x9623, 0xca, 0x59),
  (0x9624, 0xca, 0x57), (0x9628, 0xcb, 0xae), (0x962a, 0xa8, 0xc1), (0x962c, 0xa8, 0xc2),
  (0x962d, 0xcb, 0xb0), (0x962e, 0xa8, 0xbf), (0x962f, 0xcb, 0xaf), (0x9630, 0xcb, 0xad),
  (0x9631, 0xa8, 0xc0), (0x9632, 0xa8, 0xbe), (0x9633, 0x9a, 0x57), (0x9638, 0xa0, 0xaa),
  (0x9639, 0xcd, 0xd8), (0x963a, 0xcd, 0xdb), (0x963b, 0xaa, 0xfd), (0x963c, 0xcd, 0xda),
  (0x963d, 0xcd, 0xd9), (0x963f, 0xaa, 0xfc), (0x9640, 0xaa, 0xfb), (0x9641, 0x9f, 0xa6),
  (0x9642, 0xab, 0x40), (0x9643, 0xcd, 0xdc), (0x9644, 0xaa, 0xfe), (0x9645, 0x99, 0xcc),
  (0x964a, 0xd0, 0xc6), (0x964b, 0xad, 0xae), (0x964c, 0xad, 0xaf), (0x964d, 0xad, 0xb0),
  (0x964e, 0xd0, 0xc7), (0x964f, 0xd0, 0xc3), (0x9650, 0xad, 0xad), (0x9651, 0xd0, 0xc4),
  (0x9653, 0xd0, 0xc5), (0x9654, 0xd0, 0xc2), (0x9656, 0x9c, 0x59), (0x9658, 0xb0, 0xa4),
  (0x965b, 0xb0, 0xa1), (0x965c, 0xd4, 0x45), (0x965d, 0xb0, 0xa2), (0x965e, 0xb0, 0xa5),
  (0x965f, 0xd4, 0x46), (0x9661, 0xb0, 0x7e), (0x9662, 0xb0, 0x7c), (0x9663, 0xb0, 0x7d),
  (0x9664, 0xb0, 0xa3), (0x9669, 0x99, 0xb5), (0x966a, 0xb3, 0xad), (0x966b, 0xd8, 0x49),
  (0x966c, 0xb3, 0xb5), (0x966d, 0xd8, 0x48), (0x966f, 0xd8, 0x4b), (0x9670, 0xb3, 0xb1),
  (0x9671, 0xd8, 0x4a), (0x9672, 0xb6, 0xab), (0x9673, 0xb3, 0xaf), (0x9674, 0xb3, 0xb2),
  (0x9675, 0xb3, 0xae), (0x9676, 0xb3, 0xb3), (0x9677, 0xb3, 0xb4), (0x9678, 0xb3, 0xb0),
  (0x967b, 0x90, 0xbe), (0x967c, 0xd8, 0x47), (0x967d, 0xb6, 0xa7), (0x967e, 0xdc, 0x7d),
  (0x9680, 0xdc, 0xa3), (0x9681, 0x9f, 0xaf), (0x9683, 0xdc, 0xa2), (0x9684, 0xb6, 0xac),
  (0x9685, 0xb6, 0xa8), (0x9686, 0xb6, 0xa9), (0x9687, 0xdc, 0x7c), (0x9688, 0xdc, 0x7e),
  (0x9689, 0xdc, 0xa1), (0x968a, 0xb6, 0xa4), (0x968b, 0xb6, 0xa6), (0x968d, 0xb6, 0xaa),
  (0x968e, 0xb6, 0xa5), (0x968f, 0x95, 0xf2), (0x9691, 0xe0, 0xd3), (0x9692, 0xe0, 0xd1),
  (0x9693, 0xe0, 0xd2), (0x9694, 0xb9, 0x6a), (0x9695, 0xb9, 0x6b), (0x9696, 0x90, 0xbf),
  (0x9697, 0xe0, 0xd4), (0x9698, 0xb9, 0x69), (0x9699, 0xbb, 0xd8), (0x969b, 0xbb, 0xda),
  (0x969c, 0xbb, 0xd9), (0x969e, 0xe4, 0xbb), (0x96a1, 0xe4, 0xbc), (0x96a2, 0xe8, 0xab),
  (0x96a3, 0x90, 0xc1), (0x96a4, 0xe8, 0xaa), (0x96a5, 0xfe, 0xe4), (0x96a7, 0xc0, 0x47),
  (0x96a8, 0xc0, 0x48), (0x96a9, 0xec, 0x4f), (0x96aa, 0xc0, 0x49), (0x96ac, 0xee, 0xf6),
  (0x96ae, 0xee, 0xf4), (0x96b0, 0xee, 0xf5), (0x96b1, 0xc1, 0xf4), (0x96b3, 0xf1, 0x6f),
  (0x96b4, 0xc3, 0xf7), (0x96b6, 0x90, 0xc4), (0x96b8, 0xc1, 0xf5), (0x96b9, 0xab, 0x41),
  (0x96bb, 0xb0, 0xa6), (0x96bc, 0xd4, 0x47), (0x96bd, 0x90, 0xc7), (0x96bf, 0xd8, 0x4c),
  (0x96c0, 0xb3, 0xb6), (0x96c1, 0xb6, 0xad), (0x96c2, 0xdc, 0xa4), (0x96c3, 0xdc, 0xa6)]

/-- `ENCODE_TABLE[15104..15232]`, (code point, byte 0, byte 1).  src/generated/whatwg/big5_whatwg_tables.rs.inc:7515-7558 -/
def encRow118 : List (Nat × Nat × Nat) := [
  (0x96c4, 0xb6, 0xaf), (0x96c5, 0xb6, 0xae), (0x96c6, 0xb6, 0xb0), (0x96c7, 0xb6, 0xb1),
  (0x96c8, 0xdc, 0xa5), (0x96c9, 0xb9, 0x6e), (0x96ca, 0xb9, 0x6f), (0x96cb, 0xb9, 0x6d),
  (0x96cc, 0xbb, 0xdb), (0x96cd, 0xb9, 0x6c), (0x96ce, 0xe0, 0xd5), (0x96d2, 0xbb, 0xdc),
  (0x96d3, 0xe8, 0xac), (0x96d4, 0xec, 0x50), (0x96d5, 0xc0, 0x4a), (0x96d6, 0xc1, 0xf6),
  (0x96d7, 0xf1, 0x70), (0x96d8, 0xf1, 0x74), (0x96d9, 0xc2, 0xf9), (0x96da, 0xf1, 0x71),
  (0x96db, 0xc2, 0xfa), (0x96dc, 0xc2, 0xf8), (0x96dd, 0xf1, 0x75), (0x96de, 0xc2, 0xfb),
  (0x96df, 0xf1, 0x73), (0x96e1, 0xf3, 0x79), (0x96e2, 0xc2, 0xf7), (0x96e3, 0xc3, 0xf8),
  (0x96e5, 0xf8, 0xcd), (0x96e8, 0xab, 0x42), (0x96e9, 0xb3, 0xb8), (0x96ea, 0xb3, 0xb7),
  (0x96ef, 0xb6, 0xb2), (0x96f0, 0xdc, 0xa8), (0x96f1, 0xdc, 0xa7), (0x96f2, 0xb6, 0xb3),
  (0x96f4, 0x92, 0xe4), (0x96f5, 0xe0, 0xd9), (0x96f6, 0xb9, 0x73), (0x96f7, 0xb9, 0x70),
  (0x96f8, 0xe0, 0xd8), (0x96f9, 0xb9, 0x72), (0x96fa, 0xe0, 0xd6), (0x96fb, 0xb9, 0x71),
  (0x96fd, 0xe0, 0xd7), (0x96ff, 0xe4, 0xbd), (0x9700, 0xbb, 0xdd), (0x9702, 0xe8, 0xaf),
  (0x9703, 0x9f, 0x52), (0x9704, 0xbe, 0x5d), (0x9705, 0xe8, 0xad), (0x9706, 0xbe, 0x5e),
  (0x9707, 0xbe, 0x5f), (0x9708, 0xe8, 0xae), (0x9709, 0xbe, 0x60), (0x970b, 0xec, 0x51),
  (0x970d, 0xc0, 0x4e), (0x970e, 0xc0, 0x4b), (0x970f, 0xc0, 0x50), (0x9710, 0xec, 0x53),
  (0x9711, 0xc0, 0x4c), (0x9712, 0xec, 0x52), (0x9713, 0xc0, 0x4f), (0x9716, 0xc0, 0x4d),
  (0x9718, 0xee, 0xf9), (0x9719, 0xee, 0xfb), (0x971b, 0x90, 0xdb), (0x971c, 0xc1, 0xf7),
  (0x971d, 0xee, 0xfa), (0x971e, 0xc1, 0xf8), (0x971f, 0xee, 0xf8), (0x9720, 0xee, 0xf7),
  (0x9721, 0xa0, 0x66), (0x9722, 0xf1, 0x77), (0x9723, 0xf1, 0x76), (0x9724, 0xc2, 0xfc),
  (0x9725, 0xf1, 0x78), (0x9726, 0xf3, 0x7e), (0x9727, 0xc3, 0xfa), (0x9728, 0xf3, 0x7d),
  (0x9729, 0xf3, 0x7a), (0x972a, 0xc3, 0xf9), (0x972b, 0xf3, 0x7b), (0x972c, 0xf3, 0x7c),
  (0x972e, 0xf5, 0x48), (0x972f, 0xf5, 0x49), (0x9730, 0xc4, 0xc5), (0x9731, 0x90, 0xd2),
  (0x9732, 0xc5, 0x53), (0x9734, 0x87, 0x6b), (0x9735, 0xf6, 0x6e), (0x9736, 0x90, 0xd4),
  (0x9738, 0xc5, 0x51), (0x9739, 0xc5, 0x52), (0x973a, 0xf6, 0x6f), (0x973d, 0xc5, 0xb4),
  (0x973e, 0xc5, 0xb5), (0x973f, 0xf7, 0x71), (0x9740, 0x9a, 0x5b), (0x9741, 0x95, 0xfd),
  (0x9742, 0xc6, 0x45), (0x9743, 0xf8, 0xcf), (0x9744, 0xc6, 0x47), (0x9746, 0xf8, 0xce),
  (0x9747, 0xf8, 0xd0), (0x9748, 0xc6, 0x46), (0x9749, 0xf9, 0x57), (0x974a, 0x87, 0xb1),
  (0x974b, 0xf9, 0xad), (0x9751, 0x8b, 0xc4), (0x9752, 0xab, 0x43), (0x9755, 0x8c, 0x66),
  (0x9756, 0xb9, 0x74), (0x9757, 0x90, 0xde), (0x9758, 0xe4, 0xbe), (0x975a, 0xe8, 0xb0),
  (0x975b, 0xc0, 0x51), (0x975c, 0x90, 0xdc), (0x975d, 0x96, 0x44), (0x975e, 0xab, 0x44),
  (0x975f, 0x90, 0xe1), (0x9760, 0xbe, 0x61), (0x9761, 0xc3, 0xfb), (0x9762, 0xad, 0xb1),
  (0x9766, 0xc0, 0x53), (0x9768, 0xc5, 0xe2), (0x9769, 0xad, 0xb2), (0x976a, 0xd8, 0x4d)]

/-- `ENCODE_TABLE[15232..15360]`, (code point, byte 0, byte 1).  src/generated/whatwg/big5_whatwg_tables.rs.inc:7558-7600 -/
def encRow119 : List (Nat × Nat × Nat) := [
  (0x976c, 0xdc, 0xa9), (0x976d, 0x9e, 0x46), (0x976e, 0xdc, 0xab), (0x9770, 0xdc, 0xaa),
  (0x9771, 0x96, 0x51), (0x9772, 0xe0, 0xdd), (0x9773, 0xe0, 0xda), (0x9774, 0xb9, 0x75),
  (0x9776, 0xb9, 0x76), (0x9777, 0xe0, 0xdb), (0x9778, 0xe0, 0xdc), (0x977a, 0xe4, 0xc0),
  (0x977b, 0xe4, 0xc5), (0x977c, 0xbb, 0xde), (0x977d, 0xe4, 0xbf), (0x977e, 0xe4, 0xc1),
  (0x977f, 0xe4, 0xc8), (0x9780, 0xe4, 0xc3), (0x9781, 0xe4, 0xc7), (0x9782, 0xe4, 0xc4),
  (0x9783, 0xe4, 0xc2), (0x9784, 0xe4, 0xc6), (0x9785, 0xbb, 0xdf), (0x9787, 0xfb, 0x58),
  (0x9788, 0xe8, 0xb3), (0x9789, 0x90, 0xe6), (0x978a, 0xe8, 0xb1), (0x978b, 0xbe, 0x63),
  (0x978d, 0xbe, 0x62), (0x978e, 0xe8, 0xb2), (0x978f, 0xbe, 0x64), (0x9794, 0xec, 0x56),
  (0x9797, 0xec, 0x55), (0x9798, 0xc0, 0x54), (0x9799, 0xec, 0x54), (0x979a, 0xee, 0xfc),
  (0x979b, 0x96, 0x50), (0x979c, 0xee, 0xfe), (0x979d, 0xef, 0x41), (0x979e, 0xef, 0x40),
  (0x979f, 0x90, 0xe7), (0x97a0, 0xc1, 0xf9), (0x97a1, 0xee, 0xfd), (0x97a2, 0xf1, 0xa1),
  (0x97a3, 0xc2, 0xfd), (0x97a4, 0xf1, 0x7d), (0x97a5, 0xf1, 0xa2), (0x97a6, 0xc2, 0xfe),
  (0x97a8, 0xf1, 0x7b), (0x97aa, 0xf1, 0x7e), (0x97ab, 0xf1, 0x7c), (0x97ac, 0xf1, 0x79),
  (0x97ad, 0xc3, 0x40), (0x97ae, 0xf1, 0x7a), (0x97b1, 0x90, 0xe8), (0x97b2, 0x9a, 0x5d),
  (0x97b3, 0xf3, 0xa1), (0x97b4, 0x9f, 0x7a), (0x97b6, 0xf3, 0xa3), (0x97b7, 0xf3, 0xa2),
  (0x97b8, 0x9b, 0x5c), (0x97b9, 0xf5, 0x4a), (0x97ba, 0x9f, 0x7c), (0x97bb, 0xf5, 0x4b),
  (0x97bd, 0xfc, 0x52), (0x97be, 0x90, 0xe9), (0x97bf, 0xf6, 0x70), (0x97c0, 0x90, 0xea),
  (0x97c1, 0xc5, 0xb7), (0x97c2, 0x9a, 0x5e), (0x97c3, 0xc5, 0xb6), (0x97c4, 0xf8, 0x4f),
  (0x97c5, 0xf8, 0x50), (0x97c6, 0xc6, 0x48), (0x97c7, 0xf8, 0xd1), (0x97c8, 0x9f, 0x76),
  (0x97c9, 0xc6, 0x69), (0x97cb, 0xad, 0xb3), (0x97cc, 0xb6, 0xb4), (0x97cd, 0xe4, 0xca),
  (0x97ce, 0xe4, 0xc9), (0x97cf, 0xe8, 0xb5), (0x97d0, 0xe8, 0xb4), (0x97d2, 0x90, 0xeb),
  (0x97d3, 0xc1, 0xfa), (0x97d4, 0xef, 0x43), (0x97d5, 0xef, 0x42), (0x97d6, 0xf1, 0xa5),
  (0x97d7, 0xf1, 0xa3), (0x97d8, 0xf1, 0xa6), (0x97d9, 0xf1, 0xa4), (0x97dc, 0xc3, 0xfc),
  (0x97dd, 0xf3, 0xa4), (0x97de, 0xf3, 0xa5), (0x97df, 0xf3, 0xa6), (0x97e0, 0x90, 0xec),
  (0x97e1, 0xf6, 0x71), (0x97e3, 0xf7, 0x72), (0x97e5, 0xf8, 0xd2), (0x97e6, 0x8b, 0xee),
  (0x97ed, 0xad, 0xb4), (0x97ee, 0x90, 0xee), (0x97f0, 0xec, 0x57), (0x97f1, 0xef, 0x44),
  (0x97f2, 0x91, 0xc6), (0x97f3, 0xad, 0xb5), (0x97f5, 0x90, 0xf2), (0x97f6, 0xbb, 0xe0),
  (0x97f8, 0xec, 0x58), (0x97f9, 0xc3, 0x41), (0x97fa, 0xf1, 0xa7), (0x97fb, 0xc3, 0xfd),
  (0x97fd, 0xf5, 0x4c), (0x97fe, 0xf5, 0x4d), (0x97ff, 0x90, 0xf1), (0x9800, 0xf8, 0x51),
  (0x9801, 0xad, 0xb6), (0x9802, 0xb3, 0xbb), (0x9803, 0xb3, 0xbc), (0x9804, 0xd8, 0x4e),
  (0x9805, 0xb6, 0xb5), (0x9806, 0xb6, 0xb6), (0x9807, 0xdc, 0xac), (0x9808, 0xb6, 0xb7),
  (0x980a, 0xb9, 0x7a), (0x980c, 0xb9, 0x7c), (0x980d, 0xe0, 0xdf), (0x980e, 0xe0, 0xe0)]

/-- `ENCODE_TABLE[15360..15488]`, (code point, byte 0, byte 1).  src/generated/whatwg/big5_whatwg_tables.rs.inc:7601-7643 -/
def encRow120 : List (Nat × Nat × Nat) := [
  (0x980f, 0xe0, 0xde), (0x9810, 0xb9, 0x77), (0x9811, 0xb9, 0x78), (0x9812, 0xb9, 0x7b),
  (0x9813, 0xb9, 0x79), (0x9814, 0xfc, 0xbc), (0x9815, 0x8a, 0x74), (0x9816, 0xe4, 0xcb),
  (0x9817, 0xbb, 0xe1), (0x9818, 0xbb, 0xe2), (0x981b, 0xe8, 0xbc), (0x981c, 0xbe, 0x67),
  (0x981d, 0xe8, 0xb7), (0x981e, 0xe8, 0xb6), (0x981f, 0x96, 0x57), (0x9820, 0xe8, 0xbb),
  (0x9821, 0xbe, 0x65), (0x9823, 0x9c, 0xef), (0x9824, 0xc0, 0x5b), (0x9826, 0xe8, 0xb8),
  (0x9827, 0xe8, 0xbd), (0x9828, 0xe8, 0xba), (0x9829, 0xe8, 0xb9), (0x982b, 0xbe, 0x66),
  (0x982d, 0xc0, 0x59), (0x982e, 0x9f, 0xdf), (0x982f, 0xec, 0x5a), (0x9830, 0xc0, 0x55),
  (0x9832, 0xec, 0x5b), (0x9833, 0x90, 0xf7), (0x9834, 0x90, 0xf6), (0x9835, 0xec, 0x59),
  (0x9837, 0xc0, 0x58), (0x9838, 0xc0, 0x56), (0x9839, 0xc0, 0x5a), (0x983b, 0xc0, 0x57),
  (0x9841, 0xef, 0x45), (0x9843, 0xef, 0x4a), (0x9844, 0xef, 0x46), (0x9845, 0xef, 0x49),
  (0x9846, 0xc1, 0xfb), (0x9847, 0x9b, 0x5e), (0x9848, 0xed, 0xd4), (0x9849, 0xef, 0x48),
  (0x984a, 0xef, 0x47), (0x984b, 0x90, 0xf8), (0x984c, 0xc3, 0x44), (0x984d, 0xc3, 0x42),
  (0x984e, 0xc3, 0x45), (0x984f, 0xc3, 0x43), (0x9850, 0xf1, 0xa8), (0x9851, 0xf1, 0xa9),
  (0x9852, 0xf1, 0xaa), (0x9853, 0xc3, 0x46), (0x9856, 0x8c, 0xfc), (0x9857, 0xf3, 0xaa),
  (0x9858, 0xc4, 0x40), (0x9859, 0xf3, 0xa8), (0x985b, 0xc4, 0x41), (0x985c, 0xf3, 0xa7),
  (0x985d, 0xf3, 0xa9), (0x985e, 0xc3, 0xfe), (0x985f, 0xf5, 0x51), (0x9860, 0xf5, 0x4e),
  (0x9862, 0xf5, 0x4f), (0x9863, 0xf5, 0x50), (0x9864, 0xf6, 0x72), (0x9865, 0xc5, 0x56),
  (0x9866, 0x90, 0xf9), (0x9867, 0xc5, 0x55), (0x9868, 0x8c, 0xc9), (0x9869, 0xf7, 0x74),
  (0x986a, 0xf7, 0x73), (0x986b, 0xc5, 0xb8), (0x986c, 0xfa, 0x6a), (0x986f, 0xc5, 0xe3),
  (0x9870, 0xc6, 0x49), (0x9871, 0xc6, 0x60), (0x9872, 0xf9, 0x58), (0x9873, 0xf9, 0xae),
  (0x9874, 0xf9, 0xaf), (0x9875, 0x8b, 0xef), (0x98a8, 0xad, 0xb7), (0x98a9, 0xdc, 0xad),
  (0x98ac, 0xe0, 0xe1), (0x98ad, 0xe4, 0xcc), (0x98ae, 0xe4, 0xcd), (0x98af, 0xbb, 0xe3),
  (0x98b1, 0xbb, 0xe4), (0x98b2, 0xe8, 0xbe), (0x98b3, 0xbe, 0x68), (0x98b4, 0x9f, 0xe0),
  (0x98b6, 0xc1, 0xfc), (0x98b7, 0x91, 0x42), (0x98b8, 0xf1, 0xab), (0x98b9, 0x9a, 0x62),
  (0x98ba, 0xc3, 0x47), (0x98bb, 0xf3, 0xad), (0x98bc, 0xc4, 0x42), (0x98bd, 0xf3, 0xac),
  (0x98be, 0xf3, 0xae), (0x98bf, 0xf3, 0xab), (0x98c0, 0xf6, 0x75), (0x98c1, 0xf5, 0x52),
  (0x98c2, 0xf5, 0x53), (0x98c3, 0x95, 0x69), (0x98c4, 0xc4, 0xc6), (0x98c6, 0xf6, 0x74),
  (0x98c7, 0x91, 0x44), (0x98c8, 0x91, 0x43), (0x98c9, 0xf6, 0x73), (0x98ca, 0x91, 0x41),
  (0x98cb, 0xf7, 0x75), (0x98cc, 0xf9, 0xb0), (0x98ce, 0x8b, 0xf0), (0x98db, 0xad, 0xb8),
  (0x98dc, 0x96, 0x60), (0x98de, 0x8b, 0xf1), (0x98df, 0xad, 0xb9), (0x98e0, 0x99, 0xf6),
  (0x98e1, 0x91, 0x49), (0x98e2, 0xb0, 0xa7), (0x98e3, 0xd4, 0x48), (0x98e5, 0xd8, 0x4f),
  (0x98e6, 0x91, 0x4a), (0x98e7, 0xb6, 0xb8), (0x98e9, 0xb6, 0xbb), (0x98ea, 0xb6, 0xb9)]

/-- `ENCODE_TABLE[15488..15616]`, (code point, byte 0, byte 1).  src/generated/whatwg/big5_whatwg_tables.rs.inc:7643-7686 -/
def encRow121 : List (Nat × Nat × Nat) := [
  (0x98eb, 0xdc, 0xae), (0x98ec, 0x91, 0x4b), (0x98ed, 0xb6, 0xbd), (0x98ef, 0xb6, 0xba),
  (0x98f1, 0x9a, 0x64), (0x98f2, 0xb6, 0xbc), (0x98f4, 0xb9, 0x7e), (0x98f5, 0x8a, 0xbf),
  (0x98f6, 0xe0, 0xe2), (0x98f9, 0xe0, 0xe3), (0x98fa, 0xe8, 0xc0), (0x98fc, 0xb9, 0x7d),
  (0x98fd, 0xb9, 0xa1), (0x98fe, 0xb9, 0xa2), (0x9900, 0xe4, 0xcf), (0x9902, 0xe4, 0xce),
  (0x9903, 0xbb, 0xe5), (0x9905, 0xbb, 0xe6), (0x9907, 0xe4, 0xd0), (0x9908, 0xe8, 0xbf),
  (0x9909, 0xbb, 0xe8), (0x990a, 0xbe, 0x69), (0x990c, 0xbb, 0xe7), (0x990e, 0x9a, 0x66),
  (0x9910, 0xc0, 0x5c), (0x9911, 0xe8, 0xc1), (0x9912, 0xbe, 0x6b), (0x9913, 0xbe, 0x6a),
  (0x9914, 0xe8, 0xc2), (0x9915, 0xe8, 0xc5), (0x9916, 0xe8, 0xc3), (0x9917, 0xe8, 0xc4),
  (0x9918, 0xbe, 0x6c), (0x9919, 0x9a, 0x67), (0x991a, 0xc0, 0x61), (0x991b, 0xc0, 0x5f),
  (0x991c, 0x9a, 0x69), (0x991e, 0xc0, 0x5e), (0x991f, 0xec, 0x5d), (0x9921, 0xc0, 0x60),
  (0x9924, 0xec, 0x5c), (0x9925, 0xef, 0x4b), (0x9927, 0xec, 0x5e), (0x9928, 0xc0, 0x5d),
  (0x9929, 0xec, 0x5f), (0x992a, 0xef, 0x4e), (0x992b, 0xef, 0x4c), (0x992c, 0xef, 0x4d),
  (0x992d, 0xef, 0x52), (0x992e, 0xc3, 0x4b), (0x992f, 0xef, 0x51), (0x9930, 0xef, 0x54),
  (0x9931, 0xef, 0x53), (0x9932, 0xef, 0x50), (0x9933, 0xef, 0x4f), (0x9935, 0xc1, 0xfd),
  (0x9937, 0x9a, 0x6a), (0x9938, 0x96, 0x52), (0x9939, 0x91, 0x4d), (0x993a, 0xf1, 0xae),
  (0x993b, 0x96, 0x66), (0x993c, 0xf1, 0xad), (0x993d, 0xc3, 0x4a), (0x993e, 0xc3, 0x48),
  (0x993f, 0xc3, 0x49), (0x9940, 0x9f, 0x7b), (0x9941, 0xf1, 0xac), (0x9942, 0x9a, 0x6b),
  (0x9943, 0xf3, 0xb1), (0x9945, 0xc4, 0x43), (0x9947, 0xf3, 0xb0), (0x9948, 0xf3, 0xaf),
  (0x9949, 0xc4, 0x44), (0x994a, 0xa0, 0x6c), (0x994b, 0xf5, 0x58), (0x994c, 0xf5, 0x57),
  (0x994d, 0x96, 0x67), (0x994e, 0xf5, 0x55), (0x9950, 0xf5, 0x54), (0x9951, 0xc4, 0xc8),
  (0x9952, 0xc4, 0xc7), (0x9953, 0xf5, 0x59), (0x9954, 0xf7, 0x76), (0x9955, 0xc5, 0xb9),
  (0x9956, 0xf6, 0x77), (0x9957, 0xc5, 0x57), (0x9958, 0xf6, 0x76), (0x9959, 0xf5, 0x56),
  (0x995b, 0xf7, 0x77), (0x995c, 0xc5, 0xe4), (0x995d, 0x9a, 0x6c), (0x995e, 0xc6, 0x61),
  (0x995f, 0xf9, 0x59), (0x9961, 0xf9, 0xb1), (0x9962, 0x9a, 0x6d), (0x9963, 0x8b, 0xf2),
  (0x9996, 0xad, 0xba), (0x9997, 0xd8, 0x50), (0x9998, 0xef, 0x55), (0x9999, 0xad, 0xbb),
  (0x999b, 0x96, 0x6a), (0x999c, 0xe4, 0xd2), (0x999d, 0xe4, 0xd1), (0x999e, 0xec, 0x60),
  (0x99a1, 0xef, 0x57), (0x99a3, 0xef, 0x56), (0x99a4, 0xfc, 0xea), (0x99a5, 0xc3, 0x4c),
  (0x99a6, 0xf3, 0xb2), (0x99a7, 0xf3, 0xb3), (0x99a8, 0xc4, 0xc9), (0x99aa, 0x96, 0x6c),
  (0x99ab, 0xf9, 0xb2), (0x99ac, 0xb0, 0xa8), (0x99ad, 0xb6, 0xbf), (0x99ae, 0xb6, 0xbe),
  (0x99af, 0xe0, 0xe4), (0x99b0, 0xe0, 0xe6), (0x99b1, 0xb9, 0xa4), (0x99b2, 0xe0, 0xe5),
  (0x99b3, 0xb9, 0xa3), (0x99b4, 0xb9, 0xa5), (0x99b5, 0xe0, 0xe7), (0x99b8, 0x91, 0xc4),
  (0x99b9, 0xe4, 0xd4), (0x99ba, 0xe4, 0xd6), (0x99bb, 0xe4, 0xd5), (0x99bc, 0x96, 0x77)]

/-- `ENCODE_TABLE[15616..15744]`, (code point, byte 0, byte 1).  src/generated/whatwg/big5_whatwg_tables.rs.inc:7686-7728 -/
def encRow122 : List (Nat × Nat × Nat) := [
  (0x99bd, 0xe4, 0xd8), (0x99c1, 0xbb, 0xe9), (0x99c2, 0xe4, 0xd7), (0x99c3, 0xe4, 0xd3),
  (0x99c4, 0x99, 0xf4), (0x99c5, 0x9a, 0x6f), (0x99c7, 0xe4, 0xd9), (0x99c9, 0xe8, 0xcc),
  (0x99cb, 0xe8, 0xcf), (0x99cc, 0xe8, 0xd1), (0x99cd, 0xe8, 0xc7), (0x99ce, 0xe8, 0xcb),
  (0x99cf, 0xe8, 0xc8), (0x99d0, 0xbe, 0x6e), (0x99d1, 0xbe, 0x71), (0x99d2, 0xbe, 0x73),
  (0x99d3, 0xe8, 0xc9), (0x99d4, 0xe8, 0xca), (0x99d5, 0xbe, 0x72), (0x99d6, 0x9b, 0xc6),
  (0x99d7, 0xe8, 0xd0), (0x99d8, 0xe8, 0xce), (0x99d9, 0xbe, 0x74), (0x99da, 0x9f, 0xab),
  (0x99db, 0xbe, 0x70), (0x99dc, 0xe8, 0xc6), (0x99dd, 0xbe, 0x6d), (0x99df, 0xbe, 0x6f),
  (0x99e0, 0x8c, 0xbe), (0x99e1, 0x8e, 0xc1), (0x99e2, 0xc0, 0x63), (0x99e3, 0xec, 0x66),
  (0x99e4, 0xec, 0x64), (0x99e5, 0xec, 0x63), (0x99e6, 0x95, 0x55), (0x99e7, 0xec, 0x69),
  (0x99e9, 0xec, 0x68), (0x99ea, 0xec, 0x67), (0x99ec, 0xec, 0x62), (0x99ed, 0xc0, 0x62),
  (0x99ee, 0xec, 0x61), (0x99f0, 0xec, 0x65), (0x99f1, 0xc0, 0x64), (0x99f4, 0xef, 0x5a),
  (0x99f5, 0x91, 0x52), (0x99f6, 0xef, 0x5e), (0x99f7, 0xef, 0x5b), (0x99f8, 0xef, 0x5d),
  (0x99f9, 0xef, 0x5c), (0x99fa, 0xef, 0x59), (0x99fb, 0xef, 0x5f), (0x99fc, 0xef, 0x62),
  (0x99fd, 0xef, 0x60), (0x99fe, 0xef, 0x61), (0x99ff, 0xc2, 0x40), (0x9a01, 0xc1, 0xfe),
  (0x9a02, 0xef, 0x58), (0x9a03, 0xef, 0x63), (0x9a04, 0xf1, 0xb3), (0x9a05, 0xf1, 0xb6),
  (0x9a06, 0xf1, 0xb8), (0x9a07, 0xf1, 0xb7), (0x9a09, 0xf1, 0xb1), (0x9a0a, 0xf1, 0xb5),
  (0x9a0b, 0xf1, 0xb0), (0x9a0c, 0x91, 0x53), (0x9a0d, 0xf1, 0xb2), (0x9a0e, 0xc3, 0x4d),
  (0x9a0f, 0xf1, 0xaf), (0x9a10, 0x91, 0x55), (0x9a11, 0xf1, 0xb4), (0x9a14, 0xf3, 0xc0),
  (0x9a15, 0xf3, 0xb5), (0x9a16, 0xc4, 0x45), (0x9a19, 0xc4, 0x46), (0x9a1a, 0xf3, 0xb4),
  (0x9a1b, 0xf3, 0xb9), (0x9a1c, 0xf3, 0xbf), (0x9a1d, 0xf3, 0xb7), (0x9a1e, 0xf3, 0xbe),
  (0x9a1f, 0x95, 0x5d), (0x9a20, 0xf3, 0xbb), (0x9a21, 0x96, 0x71), (0x9a22, 0xf3, 0xba),
  (0x9a23, 0xf3, 0xbd), (0x9a24, 0xf3, 0xb8), (0x9a25, 0xf3, 0xb6), (0x9a26, 0x9c, 0x6d),
  (0x9a27, 0xf3, 0xbc), (0x9a29, 0xf5, 0x60), (0x9a2a, 0xf5, 0x5e), (0x9a2b, 0xc4, 0xca),
  (0x9a2c, 0xf5, 0x5d), (0x9a2d, 0xf5, 0x63), (0x9a2e, 0xf5, 0x61), (0x9a2f, 0x96, 0x73),
  (0x9a30, 0xc4, 0xcb), (0x9a31, 0xf5, 0x5c), (0x9a32, 0xf5, 0x5a), (0x9a34, 0xf5, 0x5b),
  (0x9a35, 0xc4, 0xcd), (0x9a36, 0xf5, 0x5f), (0x9a37, 0xc4, 0xcc), (0x9a38, 0xf5, 0x62),
  (0x9a39, 0xf6, 0x78), (0x9a3a, 0xf6, 0x7e), (0x9a3b, 0x91, 0x54), (0x9a3c, 0x9a, 0x71),
  (0x9a3d, 0xf6, 0x79), (0x9a3e, 0xc5, 0x5b), (0x9a3f, 0xf6, 0xa1), (0x9a40, 0xc5, 0x5a),
  (0x9a41, 0xf6, 0x7d), (0x9a42, 0xf6, 0x7c), (0x9a43, 0xc5, 0x59), (0x9a44, 0xf6, 0x7b),
  (0x9a45, 0xc5, 0x58), (0x9a46, 0xf6, 0x7a), (0x9a48, 0xf7, 0x7d), (0x9a49, 0xf7, 0xa1),
  (0x9a4a, 0xf7, 0x7e), (0x9a4c, 0xf7, 0x7b), (0x9a4d, 0xc5, 0xbb), (0x9a4e, 0xf7, 0x78),
  (0x9a4f, 0xf7, 0x7c), (0x9a50, 0xf7, 0xa3), (0x9a52, 0xf7, 0xa2), (0x9a53, 0xf7, 0x79)]

/-- `ENCODE_TABLE[15744..15872]`, (code point, byte 0, byte 1).  src/generated/whatwg/big5_whatwg_tables.rs.inc:7729-7771 -/
def encRow123 : List (Nat × Nat × Nat) := [
  (0x9a54, 0xf7, 0x7a), (0x9a55, 0xc5, 0xba), (0x9a56, 0xf8, 0x52), (0x9a57, 0xc5, 0xe7),
  (0x9a58, 0x91, 0x56), (0x9a59, 0xf8, 0x53), (0x9a5a, 0xc5, 0xe5), (0x9a5b, 0xc5, 0xe6),
  (0x9a5c, 0x96, 0x6d), (0x9a5e, 0xf8, 0xd3), (0x9a5f, 0xc6, 0x4a), (0x9a60, 0xf9, 0x76),
  (0x9a62, 0xc6, 0x6a), (0x9a63, 0x95, 0x57), (0x9a64, 0xf9, 0xb3), (0x9a65, 0xc6, 0x6b),
  (0x9a66, 0xf9, 0xb4), (0x9a67, 0xf9, 0xb5), (0x9a68, 0xf9, 0xc3), (0x9a69, 0xf9, 0xc2),
  (0x9a6a, 0xc6, 0x7a), (0x9a6b, 0xf9, 0xcd), (0x9a6c, 0x89, 0xc6), (0x9a8f, 0x89, 0xc7),
  (0x9aa8, 0xb0, 0xa9), (0x9aab, 0xe0, 0xe9), (0x9aad, 0xe0, 0xe8), (0x9aaf, 0xbb, 0xea),
  (0x9ab0, 0xbb, 0xeb), (0x9ab1, 0xe4, 0xda), (0x9ab2, 0x8a, 0x6a), (0x9ab3, 0xe8, 0xd2),
  (0x9ab4, 0xec, 0x6c), (0x9ab6, 0x8b, 0x57), (0x9ab7, 0xbe, 0x75), (0x9ab8, 0xc0, 0x65),
  (0x9ab9, 0xec, 0x6a), (0x9aba, 0x9f, 0xe1), (0x9abb, 0xec, 0x6d), (0x9abc, 0xc0, 0x66),
  (0x9abd, 0x9b, 0x5f), (0x9abe, 0xef, 0x64), (0x9abf, 0xec, 0x6b), (0x9ac0, 0xf1, 0xb9),
  (0x9ac1, 0xc3, 0x4e), (0x9ac2, 0xf3, 0xc1), (0x9ac6, 0xf5, 0x66), (0x9ac7, 0xf5, 0x64),
  (0x9aca, 0xf5, 0x65), (0x9acd, 0xf6, 0xa2), (0x9acf, 0xc5, 0x5c), (0x9ad0, 0xf7, 0xa4),
  (0x9ad1, 0xc5, 0xea), (0x9ad2, 0xc5, 0xbc), (0x9ad3, 0xc5, 0xe8), (0x9ad4, 0xc5, 0xe9),
  (0x9ad5, 0xf8, 0xd4), (0x9ad6, 0xc6, 0x62), (0x9ad7, 0xa0, 0x5d), (0x9ad8, 0xb0, 0xaa),
  (0x9adc, 0xf1, 0xba), (0x9adf, 0xd4, 0x49), (0x9ae0, 0x91, 0x5b), (0x9ae1, 0xb9, 0xa6),
  (0x9ae2, 0x91, 0x5c), (0x9ae3, 0xe4, 0xdb), (0x9ae6, 0xbb, 0xec), (0x9ae7, 0xe4, 0xdc),
  (0x9aeb, 0xe8, 0xd4), (0x9aec, 0xe8, 0xd3), (0x9aed, 0xc0, 0x68), (0x9aee, 0xbe, 0x76),
  (0x9aef, 0xbe, 0x77), (0x9af1, 0xe8, 0xd7), (0x9af2, 0xe8, 0xd6), (0x9af3, 0xe8, 0xd5),
  (0x9af4, 0x91, 0x5e), (0x9af6, 0xec, 0x6e), (0x9af7, 0xec, 0x71), (0x9af9, 0xec, 0x70),
  (0x9afa, 0xec, 0x6f), (0x9afb, 0xc0, 0x67), (0x9afc, 0xef, 0x68), (0x9afd, 0xef, 0x66),
  (0x9afe, 0xef, 0x65), (0x9aff, 0x9f, 0x5c), (0x9b01, 0xef, 0x67), (0x9b02, 0x9f, 0x57),
  (0x9b03, 0xc3, 0x4f), (0x9b04, 0xf1, 0xbc), (0x9b05, 0xf1, 0xbd), (0x9b06, 0xc3, 0x50),
  (0x9b08, 0xf1, 0xbb), (0x9b09, 0x9f, 0x65), (0x9b0a, 0xf3, 0xc3), (0x9b0b, 0xf3, 0xc2),
  (0x9b0c, 0xf3, 0xc5), (0x9b0d, 0xc4, 0x47), (0x9b0e, 0xf3, 0xc4), (0x9b0f, 0x9a, 0x72),
  (0x9b10, 0xf5, 0x67), (0x9b11, 0xf5, 0x69), (0x9b12, 0xf5, 0x68), (0x9b14, 0x91, 0x60),
  (0x9b15, 0xf6, 0xa3), (0x9b16, 0xf6, 0xa6), (0x9b17, 0xf6, 0xa4), (0x9b18, 0xf6, 0xa5),
  (0x9b19, 0xf7, 0xa5), (0x9b1a, 0xc5, 0xbd), (0x9b1e, 0xf8, 0x54), (0x9b1f, 0xf8, 0x55),
  (0x9b20, 0xf8, 0x56), (0x9b22, 0xc6, 0x4b), (0x9b23, 0xc6, 0x63), (0x9b24, 0xf9, 0xb6),
  (0x9b25, 0xb0, 0xab), (0x9b27, 0xbe, 0x78), (0x9b28, 0xc0, 0x69), (0x9b29, 0xf1, 0xbe),
  (0x9b2a, 0x9f, 0x5e), (0x9b2b, 0xf7, 0xa6), (0x9b2d, 0x91, 0x61), (0x9b2e, 0x9f, 0x60),
  (0x9b2f, 0xd4, 0x4a), (0x9b31, 0xc6, 0x7b), (0x9b32, 0xb0, 0xac), (0x9b33, 0xec, 0x72)]

/-- `ENCODE_TABLE[15872..16000]`, (code point, byte 0, byte 1).  src/generated/whatwg/big5_whatwg_tables.rs.inc:7771-7814 -/
def encRow124 : List (Nat × Nat × Nat) := [
  (0x9b34, 0x91, 0x64), (0x9b35, 0xf1, 0xbf), (0x9b37, 0xf3, 0xc6), (0x9b39, 0x9f, 0x41),
  (0x9b3a, 0xf6, 0xa7), (0x9b3b, 0xf7, 0xa7), (0x9b3c, 0xb0, 0xad), (0x9b3e, 0xe4, 0xdd),
  (0x9b3f, 0xe4, 0xde), (0x9b40, 0x91, 0x69), (0x9b41, 0xbb, 0xed), (0x9b42, 0xbb, 0xee),
  (0x9b43, 0xe8, 0xd9), (0x9b44, 0xbe, 0x7a), (0x9b45, 0xbe, 0x79), (0x9b46, 0xe8, 0xd8),
  (0x9b48, 0xef, 0x69), (0x9b4a, 0xf1, 0xc0), (0x9b4b, 0xf1, 0xc2), (0x9b4c, 0xf1, 0xc1),
  (0x9b4d, 0xc3, 0x53), (0x9b4e, 0xc3, 0x52), (0x9b4f, 0xc3, 0x51), (0x9b50, 0x91, 0x68),
  (0x9b51, 0xc5, 0x5e), (0x9b52, 0xf6, 0xa8), (0x9b54, 0xc5, 0x5d), (0x9b55, 0xf7, 0xa9),
  (0x9b56, 0xf7, 0xa8), (0x9b58, 0xc6, 0x4c), (0x9b59, 0xf8, 0xd5), (0x9b5a, 0xb3, 0xbd),
  (0x9b5b, 0xe0, 0xea), (0x9b5f, 0xe4, 0xe1), (0x9b60, 0xe4, 0xdf), (0x9b61, 0xe4, 0xe0),
  (0x9b64, 0xe8, 0xe2), (0x9b66, 0xe8, 0xdd), (0x9b67, 0xe8, 0xda), (0x9b68, 0xe8, 0xe1),
  (0x9b69, 0x9a, 0x74), (0x9b6c, 0xe8, 0xe3), (0x9b6f, 0xbe, 0x7c), (0x9b70, 0xe8, 0xe0),
  (0x9b71, 0xe8, 0xdc), (0x9b74, 0xe8, 0xdb), (0x9b75, 0xe8, 0xdf), (0x9b76, 0xe8, 0xde),
  (0x9b77, 0xbe, 0x7b), (0x9b7a, 0xec, 0x7d), (0x9b7b, 0xec, 0x78), (0x9b7c, 0xec, 0x76),
  (0x9b7d, 0xec, 0xa1), (0x9b7e, 0xec, 0x77), (0x9b7f, 0x96, 0xb2), (0x9b80, 0xec, 0x73),
  (0x9b81, 0x9a, 0x75), (0x9b82, 0xec, 0x79), (0x9b83, 0xfd, 0xa5), (0x9b85, 0xec, 0x74),
  (0x9b86, 0xef, 0x72), (0x9b87, 0xec, 0x75), (0x9b88, 0xec, 0xa2), (0x9b8b, 0x9e, 0xe9),
  (0x9b8d, 0x8b, 0xba), (0x9b8e, 0x91, 0x6d), (0x9b8f, 0xa0, 0x60), (0x9b90, 0xec, 0x7c),
  (0x9b91, 0xc0, 0x6a), (0x9b92, 0xec, 0x7b), (0x9b93, 0xec, 0x7a), (0x9b95, 0xec, 0x7e),
  (0x9b97, 0x9f, 0xde), (0x9b9a, 0xef, 0x6a), (0x9b9b, 0xef, 0x6d), (0x9b9d, 0x9f, 0xc3),
  (0x9b9e, 0xef, 0x6c), (0x9b9f, 0x96, 0xb5), (0x9ba0, 0xef, 0x74), (0x9ba1, 0xef, 0x6f),
  (0x9ba2, 0xef, 0x73), (0x9ba4, 0xef, 0x71), (0x9ba5, 0xef, 0x70), (0x9ba6, 0xef, 0x6e),
  (0x9ba8, 0xef, 0x6b), (0x9baa, 0xc2, 0x43), (0x9bab, 0xc2, 0x42), (0x9bad, 0xc2, 0x44),
  (0x9bae, 0xc2, 0x41), (0x9baf, 0xef, 0x75), (0x9bb0, 0xa0, 0x67), (0x9bb5, 0xf1, 0xc8),
  (0x9bb6, 0xf1, 0xcb), (0x9bb8, 0xf1, 0xc9), (0x9bb9, 0xf1, 0xcd), (0x9bbd, 0xf1, 0xce),
  (0x9bbf, 0xf1, 0xc6), (0x9bc0, 0xc3, 0x58), (0x9bc1, 0xf1, 0xc7), (0x9bc3, 0xf1, 0xc5),
  (0x9bc4, 0xf1, 0xcc), (0x9bc6, 0xf1, 0xc4), (0x9bc7, 0xf1, 0xc3), (0x9bc8, 0xc3, 0x57),
  (0x9bc9, 0xc3, 0x55), (0x9bca, 0xc3, 0x54), (0x9bcf, 0x96, 0xb3), (0x9bd3, 0xf1, 0xca),
  (0x9bd4, 0xf3, 0xcf), (0x9bd5, 0xf3, 0xd5), (0x9bd6, 0xc4, 0x4a), (0x9bd7, 0xf3, 0xd0),
  (0x9bd9, 0xf3, 0xd3), (0x9bda, 0xf3, 0xd7), (0x9bdb, 0xc4, 0x4b), (0x9bdc, 0xf3, 0xd2),
  (0x9bdd, 0x9a, 0x76), (0x9bde, 0xf3, 0xca), (0x9be0, 0xf3, 0xc9), (0x9be1, 0xf3, 0xd6),
  (0x9be2, 0xf3, 0xcd), (0x9be4, 0xf3, 0xcb), (0x9be5, 0xf3, 0xd4), (0x9be6, 0xf3, 0xcc),
  (0x9be7, 0xc4, 0x49), (0x9be8, 0xc4, 0x48), (0x9be9, 0x95, 0xd5), (0x9bea, 0xf3, 0xc7)]

/-- `ENCODE_TABLE[16000..16128]`, (code point, byte 0, byte 1).  src/generated/whatwg/big5_whatwg_tables.rs.inc:7814-7856 -/
def encRow125 : List (Nat × Nat × Nat) := [
  (0x9beb, 0xf3, 0xc8), (0x9bec, 0xf3, 0xd1), (0x9bed, 0x9e, 0xca), (0x9bf0, 0xf3, 0xce),
  (0x9bf1, 0x9a, 0x77), (0x9bf4, 0x9a, 0x78), (0x9bf7, 0xf5, 0x6c), (0x9bf8, 0xf5, 0x6f),
  (0x9bfd, 0xc3, 0x56), (0x9bff, 0x91, 0x70), (0x9c02, 0x91, 0x6f), (0x9c05, 0xf5, 0x6d),
  (0x9c06, 0xf5, 0x73), (0x9c07, 0xf5, 0x71), (0x9c08, 0xf5, 0x6b), (0x9c09, 0xf5, 0x76),
  (0x9c0a, 0x9f, 0xa3), (0x9c0b, 0xf5, 0x6a), (0x9c0c, 0x91, 0x71), (0x9c0d, 0xc4, 0xcf),
  (0x9c0e, 0xf5, 0x72), (0x9c10, 0x96, 0xb1), (0x9c12, 0xf5, 0x6e), (0x9c13, 0xc4, 0xce),
  (0x9c14, 0xf5, 0x75), (0x9c15, 0x9f, 0x63), (0x9c17, 0xf5, 0x74), (0x9c1b, 0x9f, 0x67),
  (0x9c1c, 0xf6, 0xab), (0x9c1d, 0xf6, 0xaa), (0x9c1f, 0x8b, 0xb9), (0x9c20, 0x9a, 0x7a),
  (0x9c21, 0xf6, 0xb1), (0x9c23, 0xf6, 0xad), (0x9c24, 0xf6, 0xb0), (0x9c25, 0xc5, 0x60),
  (0x9c26, 0x8b, 0x56), (0x9c28, 0xf6, 0xae), (0x9c29, 0xf6, 0xaf), (0x9c2b, 0xf6, 0xa9),
  (0x9c2c, 0xf6, 0xac), (0x9c2d, 0xc5, 0x5f), (0x9c2f, 0x9a, 0xda), (0x9c31, 0xc5, 0xbf),
  (0x9c32, 0xf7, 0xb4), (0x9c33, 0xf7, 0xaf), (0x9c34, 0xf7, 0xb3), (0x9c35, 0x96, 0xb0),
  (0x9c36, 0xf7, 0xb6), (0x9c37, 0xf7, 0xb2), (0x9c39, 0xf7, 0xae), (0x9c3a, 0x9a, 0x7e),
  (0x9c3b, 0xc5, 0xc1), (0x9c3c, 0xf7, 0xb1), (0x9c3d, 0xf7, 0xb5), (0x9c3e, 0xc5, 0xc0),
  (0x9c3f, 0xf7, 0xac), (0x9c40, 0xf5, 0x70), (0x9c41, 0xf7, 0xb0), (0x9c44, 0xf7, 0xad),
  (0x9c45, 0x9d, 0xde), (0x9c46, 0xf7, 0xaa), (0x9c48, 0xf7, 0xab), (0x9c49, 0xc5, 0xbe),
  (0x9c4a, 0xf8, 0x5a), (0x9c4b, 0xf8, 0x5c), (0x9c4c, 0xf8, 0x5f), (0x9c4d, 0xf8, 0x5b),
  (0x9c4e, 0xf8, 0x60), (0x9c4f, 0x96, 0xad), (0x9c50, 0xf8, 0x59), (0x9c52, 0xf8, 0x57),
  (0x9c53, 0x96, 0xae), (0x9c54, 0xc5, 0xeb), (0x9c55, 0xf8, 0x5d), (0x9c56, 0xc5, 0xed),
  (0x9c57, 0xc5, 0xec), (0x9c58, 0xf8, 0x58), (0x9c59, 0xf8, 0x5e), (0x9c5d, 0x9e, 0xa1),
  (0x9c5e, 0xf8, 0xda), (0x9c5f, 0xc6, 0x4d), (0x9c60, 0xf8, 0xdb), (0x9c62, 0xf8, 0xd9),
  (0x9c63, 0xf8, 0xd6), (0x9c66, 0xf8, 0xd8), (0x9c67, 0xf8, 0xd7), (0x9c68, 0xf9, 0x5a),
  (0x9c6d, 0xf9, 0x5c), (0x9c6e, 0xf9, 0x5b), (0x9c71, 0xf9, 0x79), (0x9c72, 0x9e, 0x50),
  (0x9c73, 0xf9, 0x78), (0x9c74, 0xf9, 0x77), (0x9c75, 0xf9, 0x7a), (0x9c77, 0xc6, 0x73),
  (0x9c78, 0xc6, 0x74), (0x9c79, 0xf9, 0xca), (0x9c7a, 0xf9, 0xce), (0x9c7b, 0x96, 0xaf),
  (0x9c7c, 0x8b, 0xf4), (0x9ce5, 0xb3, 0xbe), (0x9ce6, 0xdc, 0xaf), (0x9ce7, 0xe0, 0xed),
  (0x9ce9, 0xb9, 0xa7), (0x9cea, 0xe0, 0xeb), (0x9ced, 0xe0, 0xec), (0x9cf1, 0xe4, 0xe2),
  (0x9cf2, 0xe4, 0xe3), (0x9cf3, 0xbb, 0xf1), (0x9cf4, 0xbb, 0xef), (0x9cf5, 0xe4, 0xe4),
  (0x9cf6, 0xbb, 0xf0), (0x9cf7, 0xe8, 0xe8), (0x9cf9, 0xe8, 0xeb), (0x9cfa, 0xe8, 0xe5),
  (0x9cfb, 0xe8, 0xec), (0x9cfc, 0xe8, 0xe4), (0x9cfd, 0xe8, 0xe6), (0x9cff, 0xe8, 0xe7),
  (0x9d00, 0xe8, 0xea), (0x9d02, 0x9f, 0xa4), (0x9d03, 0xbe, 0xa1), (0x9d04, 0xe8, 0xef),
  (0x9d05, 0xe8, 0xee), (0x9d06, 0xbe, 0x7d), (0x9d07, 0xe8, 0xe9), (0x9d08, 0xe8, 0xed)]

/-- `ENCODE_TABLE[16128..16256]`, (code point, byte 0, byte 1).  src/generated/whatwg/big5_whatwg_tables.rs.inc:7857-7899 -/
def encRow126 : List (Nat × Nat × Nat) := [
  (0x9d09, 0xbe, 0x7e), (0x9d0c, 0x96, 0xbd), (0x9d10, 0xec, 0xac), (0x9d12, 0xc0, 0x6f),
  (0x9d14, 0xec, 0xa7), (0x9d15, 0xc0, 0x6b), (0x9d16, 0x96, 0xf4), (0x9d17, 0xec, 0xa4),
  (0x9d18, 0xec, 0xaa), (0x9d19, 0xec, 0xad), (0x9d1b, 0xc0, 0x70), (0x9d1d, 0xec, 0xa9),
  (0x9d1e, 0xec, 0xa6), (0x9d1f, 0xec, 0xae), (0x9d20, 0xec, 0xa5), (0x9d21, 0x96, 0xb8),
  (0x9d22, 0xec, 0xab), (0x9d23, 0xc0, 0x6c), (0x9d25, 0xec, 0xa3), (0x9d26, 0xc0, 0x6d),
  (0x9d28, 0xc0, 0x6e), (0x9d29, 0xec, 0xa8), (0x9d2d, 0xef, 0xa9), (0x9d2e, 0xef, 0x7a),
  (0x9d2f, 0xef, 0x7b), (0x9d30, 0xef, 0x7e), (0x9d31, 0xef, 0x7c), (0x9d33, 0xef, 0x76),
  (0x9d34, 0xfa, 0xa1), (0x9d36, 0xef, 0x79), (0x9d37, 0xef, 0xa5), (0x9d38, 0xef, 0x7d),
  (0x9d39, 0x91, 0xa7), (0x9d3b, 0xc2, 0x45), (0x9d3d, 0xef, 0xa7), (0x9d3e, 0xef, 0xa4),
  (0x9d3f, 0xc2, 0x46), (0x9d40, 0xef, 0xa6), (0x9d41, 0xef, 0x77), (0x9d42, 0xef, 0xa2),
  (0x9d43, 0xef, 0xa3), (0x9d44, 0xa0, 0x5e), (0x9d45, 0xef, 0xa1), (0x9d49, 0x9a, 0x7d),
  (0x9d4a, 0xf1, 0xd2), (0x9d4b, 0xf1, 0xd4), (0x9d4c, 0xf1, 0xd7), (0x9d4e, 0x89, 0x48),
  (0x9d4f, 0xf1, 0xd1), (0x9d50, 0x9e, 0xb1), (0x9d51, 0xc3, 0x59), (0x9d52, 0xf1, 0xd9),
  (0x9d53, 0xf1, 0xd0), (0x9d54, 0xf1, 0xda), (0x9d56, 0xf1, 0xd6), (0x9d57, 0xf1, 0xd8),
  (0x9d58, 0xf1, 0xdc), (0x9d59, 0xf1, 0xd5), (0x9d5a, 0xf1, 0xdd), (0x9d5b, 0xf1, 0xd3),
  (0x9d5c, 0xf1, 0xcf), (0x9d5d, 0xc3, 0x5a), (0x9d5e, 0x9d, 0xdb), (0x9d5f, 0xf1, 0xdb),
  (0x9d60, 0xc3, 0x5b), (0x9d61, 0xc4, 0x4d), (0x9d67, 0xef, 0x78), (0x9d68, 0xf3, 0xf1),
  (0x9d69, 0xf3, 0xe8), (0x9d6a, 0xc4, 0x4f), (0x9d6b, 0xf3, 0xe4), (0x9d6c, 0xc4, 0x50),
  (0x9d6d, 0x95, 0xbf), (0x9d6e, 0x8a, 0x73), (0x9d6f, 0xf3, 0xed), (0x9d70, 0xf3, 0xe7),
  (0x9d71, 0xf3, 0xdd), (0x9d72, 0xc4, 0x4e), (0x9d73, 0xf3, 0xea), (0x9d74, 0xf3, 0xe5),
  (0x9d75, 0xf3, 0xe6), (0x9d77, 0xf3, 0xd8), (0x9d78, 0xf3, 0xdf), (0x9d79, 0xf3, 0xee),
  (0x9d7b, 0xf3, 0xeb), (0x9d7c, 0x9e, 0xfe), (0x9d7d, 0xf3, 0xe3), (0x9d7e, 0x91, 0x7a),
  (0x9d7f, 0xf3, 0xef), (0x9d80, 0xf3, 0xde), (0x9d81, 0xf3, 0xd9), (0x9d82, 0xf3, 0xec),
  (0x9d83, 0x91, 0x7b), (0x9d84, 0xf3, 0xdb), (0x9d85, 0xf3, 0xe9), (0x9d86, 0xf3, 0xe0),
  (0x9d87, 0xf3, 0xf0), (0x9d88, 0xf3, 0xdc), (0x9d89, 0xc4, 0x4c), (0x9d8a, 0xf3, 0xda),
  (0x9d8b, 0xf3, 0xe1), (0x9d8c, 0xf3, 0xe2), (0x9d90, 0xf5, 0x7d), (0x9d92, 0xf5, 0x7b),
  (0x9d93, 0x9a, 0xa3), (0x9d94, 0xf5, 0xa2), (0x9d96, 0xf5, 0xae), (0x9d97, 0xf5, 0xa5),
  (0x9d98, 0xf5, 0x7c), (0x9d99, 0xf5, 0x78), (0x9d9a, 0xf5, 0xa7), (0x9d9b, 0xf5, 0x7e),
  (0x9d9c, 0xf5, 0xa3), (0x9d9d, 0xf5, 0x7a), (0x9d9e, 0xf5, 0xaa), (0x9d9f, 0xf5, 0x77),
  (0x9da0, 0xf5, 0xa1), (0x9da1, 0xf5, 0xa6), (0x9da2, 0xf5, 0xa8), (0x9da3, 0xf5, 0xab),
  (0x9da4, 0xf5, 0x79), (0x9da5, 0x96, 0xc2), (0x9da6, 0xf5, 0xaf), (0x9da7, 0xf5, 0xb0),
  (0x9da8, 0xf5, 0xa9), (0x9da9, 0xf5, 0xad), (0x9daa, 0xf5, 0xa4), (0x9dab, 0x9f, 0x77)]

/-- `ENCODE_TABLE[16256..16384]`, (code point, byte 0, byte 1).  src/generated/whatwg/big5_whatwg_tables.rs.inc:7899-7942 -/
def encRow127 : List (Nat × Nat × Nat) := [
  (0x9dac, 0xf6, 0xc1), (0x9dad, 0xf6, 0xc4), (0x9daf, 0xc5, 0x61), (0x9db1, 0xf6, 0xc3),
  (0x9db2, 0xf6, 0xc8), (0x9db3, 0xf6, 0xc6), (0x9db4, 0xc5, 0x62), (0x9db5, 0xf6, 0xbd),
  (0x9db6, 0xf6, 0xb3), (0x9db7, 0xf6, 0xb2), (0x9db8, 0xc5, 0x64), (0x9db9, 0xf6, 0xbf),
  (0x9dba, 0xf6, 0xc0), (0x9dbb, 0xf6, 0xbc), (0x9dbc, 0xf6, 0xb4), (0x9dbd, 0x9a, 0xa4),
  (0x9dbe, 0xf6, 0xb9), (0x9dbf, 0xf5, 0xac), (0x9dc0, 0x9a, 0xa5), (0x9dc1, 0xf6, 0xb5),
  (0x9dc2, 0xc5, 0x63), (0x9dc3, 0xf6, 0xbb), (0x9dc4, 0x91, 0xa1), (0x9dc5, 0xf6, 0xba),
  (0x9dc7, 0xf6, 0xb6), (0x9dc8, 0xf6, 0xc2), (0x9dc9, 0x89, 0xb8), (0x9dca, 0xf6, 0xb7),
  (0x9dcb, 0xf7, 0xbb), (0x9dcc, 0xf6, 0xc5), (0x9dcd, 0xf6, 0xc7), (0x9dce, 0xf6, 0xbe),
  (0x9dcf, 0xf6, 0xb8), (0x9dd0, 0xf7, 0xbc), (0x9dd1, 0xf7, 0xbe), (0x9dd2, 0xf7, 0xb8),
  (0x9dd3, 0xc5, 0xc2), (0x9dd4, 0x91, 0x73), (0x9dd5, 0xf7, 0xc5), (0x9dd6, 0xf7, 0xc3),
  (0x9dd7, 0xc5, 0xc3), (0x9dd8, 0xf7, 0xc2), (0x9dd9, 0xf7, 0xc1), (0x9dda, 0xf7, 0xba),
  (0x9ddb, 0xf7, 0xb7), (0x9ddc, 0xf7, 0xbd), (0x9ddd, 0xf7, 0xc6), (0x9dde, 0xf7, 0xb9),
  (0x9ddf, 0xf7, 0xbf), (0x9de1, 0xf8, 0x69), (0x9de2, 0xf8, 0x6e), (0x9de3, 0xf8, 0x64),
  (0x9de4, 0xf8, 0x67), (0x9de5, 0xc5, 0xee), (0x9de6, 0xf8, 0x6b), (0x9de8, 0xf8, 0x72),
  (0x9de9, 0xf7, 0xc0), (0x9deb, 0xf8, 0x65), (0x9dec, 0xf8, 0x6f), (0x9ded, 0xf8, 0x73),
  (0x9dee, 0xf8, 0x6a), (0x9def, 0xf8, 0x63), (0x9df0, 0x9c, 0x6b), (0x9df2, 0xf8, 0x6c),
  (0x9df3, 0xf8, 0x71), (0x9df4, 0xf8, 0x70), (0x9df5, 0xf7, 0xc4), (0x9df6, 0xf8, 0x68),
  (0x9df7, 0xf8, 0x62), (0x9df8, 0xf8, 0x66), (0x9df9, 0xc6, 0x4e), (0x9dfa, 0xc6, 0x4f),
  (0x9dfb, 0xf8, 0x61), (0x9dfc, 0x9a, 0xa6), (0x9dfd, 0xf8, 0xe6), (0x9dfe, 0xf8, 0xdd),
  (0x9dff, 0xf8, 0xe5), (0x9e00, 0xf8, 0xe2), (0x9e01, 0xf8, 0xe3), (0x9e02, 0xf8, 0xdc),
  (0x9e03, 0xf8, 0xdf), (0x9e04, 0xf8, 0xe7), (0x9e05, 0xf8, 0xe1), (0x9e06, 0xf8, 0xe0),
  (0x9e07, 0xf8, 0xde), (0x9e09, 0xf8, 0xe4), (0x9e0a, 0x89, 0xbd), (0x9e0b, 0xf9, 0x5d),
  (0x9e0c, 0x89, 0xb9), (0x9e0d, 0xf9, 0x5e), (0x9e0e, 0x91, 0x7d), (0x9e0f, 0xf9, 0x60),
  (0x9e10, 0xf9, 0x5f), (0x9e11, 0xf9, 0x62), (0x9e12, 0xf9, 0x61), (0x9e13, 0xf9, 0x7c),
  (0x9e14, 0xf9, 0x7b), (0x9e15, 0xf9, 0xb7), (0x9e17, 0xf9, 0xb8), (0x9e18, 0x96, 0xbb),
  (0x9e19, 0xf9, 0xc5), (0x9e1a, 0xc6, 0x78), (0x9e1b, 0xc6, 0x7c), (0x9e1c, 0x9f, 0xf2),
  (0x9e1d, 0xf9, 0xcf), (0x9e1e, 0xc6, 0x7d), (0x9e1f, 0x8b, 0xf5), (0x9e75, 0xb3, 0xbf),
  (0x9e79, 0xc4, 0xd0), (0x9e7a, 0xf6, 0xc9), (0x9e7b, 0x9a, 0xa9), (0x9e7c, 0xc6, 0x50),
  (0x9e7d, 0xc6, 0x51), (0x9e7f, 0xb3, 0xc0), (0x9e80, 0xe0, 0xee), (0x9e81, 0x9f, 0x54),
  (0x9e82, 0xb9, 0xa8), (0x9e83, 0xe8, 0xf0), (0x9e84, 0x9f, 0xe3), (0x9e85, 0x9e, 0xed),
  (0x9e86, 0xec, 0xb0), (0x9e87, 0xec, 0xb1), (0x9e88, 0xec, 0xaf), (0x9e89, 0xef, 0xab),
  (0x9e8a, 0xef, 0xaa), (0x9e8b, 0xc2, 0x47), (0x9e8c, 0xf1, 0xdf), (0x9e8d, 0xef, 0xac)]

/-- `ENCODE_TABLE[16384..16512]`, (code point, byte 0, byte 1).  src/generated/whatwg/big5_whatwg_tables.rs.inc:7942-7984 -/
def encRow128 : List (Nat × Nat × Nat) := [
  (0x9e8e, 0xf1, 0xde), (0x9e90, 0x91, 0xaa), (0x9e91, 0xf3, 0xf3), (0x9e92, 0xc4, 0x51),
  (0x9e93, 0xc4, 0x53), (0x9e94, 0xf3, 0xf2), (0x9e95, 0x91, 0xab), (0x9e96, 0xa0, 0x70),
  (0x9e97, 0xc4, 0x52), (0x9e98, 0x9f, 0x6d), (0x9e99, 0xf5, 0xb1), (0x9e9a, 0xf5, 0xb3),
  (0x9e9b, 0xf5, 0xb2), (0x9e9c, 0xf6, 0xca), (0x9e9d, 0xc5, 0x65), (0x9e9e, 0x91, 0xac),
  (0x9e9f, 0xc5, 0xef), (0x9ea0, 0xf8, 0xe8), (0x9ea1, 0xf9, 0x63), (0x9ea2, 0x91, 0xad),
  (0x9ea4, 0xf9, 0xd2), (0x9ea5, 0xb3, 0xc1), (0x9ea6, 0xa0, 0xfd), (0x9ea7, 0xe4, 0xe5),
  (0x9ea8, 0x9f, 0xe2), (0x9ea9, 0xbe, 0xa2), (0x9eaa, 0x91, 0xaf), (0x9eab, 0x9e, 0x41),
  (0x9eac, 0x9a, 0xaa), (0x9ead, 0xec, 0xb3), (0x9eae, 0xec, 0xb2), (0x9eaf, 0x91, 0xb0),
  (0x9eb0, 0xef, 0xad), (0x9eb1, 0x9a, 0xab), (0x9eb4, 0xc4, 0x54), (0x9eb5, 0xc4, 0xd1),
  (0x9eb6, 0xf7, 0xc7), (0x9eb7, 0xf9, 0xcb), (0x9ebb, 0xb3, 0xc2), (0x9ebc, 0xbb, 0xf2),
  (0x9ebd, 0x9a, 0xac), (0x9ebe, 0xbe, 0xa3), (0x9ebf, 0x9a, 0x4a), (0x9ec0, 0xf3, 0xf4),
  (0x9ec1, 0x91, 0xb2), (0x9ec2, 0xf8, 0x74), (0x9ec3, 0xb6, 0xc0), (0x9ec4, 0x8b, 0xf6),
  (0x9ec6, 0x9a, 0xad), (0x9ec7, 0x89, 0xb6), (0x9ec8, 0xef, 0xae), (0x9ecc, 0xc6, 0x64),
  (0x9ecd, 0xb6, 0xc1), (0x9ece, 0xbe, 0xa4), (0x9ecf, 0xc2, 0x48), (0x9ed0, 0xf8, 0x75),
  (0x9ed1, 0xb6, 0xc2), (0x9ed3, 0xe8, 0xf1), (0x9ed4, 0xc0, 0x72), (0x9ed5, 0xec, 0xb4),
  (0x9ed6, 0xec, 0xb5), (0x9ed8, 0xc0, 0x71), (0x9eda, 0xef, 0xaf), (0x9edb, 0xc2, 0x4c),
  (0x9edc, 0xc2, 0x4a), (0x9edd, 0xc2, 0x4b), (0x9ede, 0xc2, 0x49), (0x9edf, 0xf1, 0xe0),
  (0x9ee0, 0xc3, 0x5c), (0x9ee2, 0x9a, 0xaf), (0x9ee4, 0xf5, 0xb5), (0x9ee5, 0xf5, 0xb4),
  (0x9ee6, 0xf5, 0xb7), (0x9ee7, 0xf5, 0xb6), (0x9ee8, 0xc4, 0xd2), (0x9eeb, 0xf6, 0xcb),
  (0x9eed, 0xf6, 0xcd), (0x9eee, 0xf6, 0xcc), (0x9eef, 0xc5, 0x66), (0x9ef0, 0xf7, 0xc8),
  (0x9ef1, 0x9a, 0xb0), (0x9ef2, 0xf8, 0x76), (0x9ef3, 0xf8, 0x77), (0x9ef4, 0xc5, 0xf0),
  (0x9ef5, 0xf9, 0x64), (0x9ef6, 0xf9, 0x7d), (0x9ef7, 0xc6, 0x75), (0x9ef8, 0x9a, 0xb1),
  (0x9ef9, 0xdc, 0xb0), (0x9efa, 0xec, 0xb6), (0x9efb, 0xef, 0xb0), (0x9efc, 0xf3, 0xf5),
  (0x9efd, 0xe0, 0xef), (0x9efe, 0x9a, 0xa1), (0x9eff, 0xef, 0xb1), (0x9f00, 0xf1, 0xe2),
  (0x9f01, 0xf1, 0xe1), (0x9f02, 0x91, 0xb9), (0x9f06, 0xf8, 0x78), (0x9f07, 0xc6, 0x52),
  (0x9f08, 0x91, 0xba), (0x9f09, 0xf9, 0x65), (0x9f0a, 0xf9, 0x7e), (0x9f0e, 0xb9, 0xa9),
  (0x9f0f, 0xe8, 0xf2), (0x9f10, 0xe8, 0xf3), (0x9f12, 0xec, 0xb7), (0x9f13, 0xb9, 0xaa),
  (0x9f15, 0xc3, 0x5d), (0x9f16, 0x91, 0xbf), (0x9f17, 0x91, 0xbe), (0x9f18, 0xf6, 0xcf),
  (0x9f19, 0xc5, 0x67), (0x9f1a, 0xf6, 0xd0), (0x9f1b, 0xf6, 0xce), (0x9f1c, 0xf8, 0x79),
  (0x9f1e, 0xf8, 0xe9), (0x9f20, 0xb9, 0xab), (0x9f22, 0xef, 0xb4), (0x9f23, 0xef, 0xb3),
  (0x9f24, 0xef, 0xb2), (0x9f25, 0xf1, 0xe4), (0x9f26, 0xa0, 0x41), (0x9f27, 0x8b, 0xb7),
  (0x9f28, 0xf1, 0xe8), (0x9f29, 0xf1, 0xe7), (0x9f2a, 0xf1, 0xe6), (0x9f2b, 0xf1, 0xe5)]

/-- `ENCODE_TABLE[16512..16640]`, (code point, byte 0, byte 1).  src/generated/whatwg/big5_whatwg_tables.rs.inc:7985-8027 -/
def encRow129 : List (Nat × Nat × Nat) := [
  (0x9f2c, 0xc3, 0x5e), (0x9f2d, 0xf3, 0xf6), (0x9f2e, 0xf5, 0xb9), (0x9f2f, 0xc4, 0xd3),
  (0x9f30, 0xf5, 0xb8), (0x9f31, 0xf6, 0xd1), (0x9f32, 0xf7, 0xcb), (0x9f33, 0xf7, 0xca),
  (0x9f34, 0xc5, 0xc4), (0x9f35, 0xf7, 0xc9), (0x9f36, 0xf8, 0x7c), (0x9f37, 0xf8, 0x7b),
  (0x9f38, 0xf8, 0x7a), (0x9f39, 0x91, 0xc0), (0x9f3b, 0xbb, 0xf3), (0x9f3d, 0xec, 0xb8),
  (0x9f3e, 0xc2, 0x4d), (0x9f40, 0xf3, 0xf7), (0x9f41, 0xf3, 0xf8), (0x9f42, 0xf7, 0xcc),
  (0x9f43, 0xf8, 0x7d), (0x9f44, 0x9a, 0xb3), (0x9f45, 0x91, 0xc3), (0x9f46, 0xf8, 0xea),
  (0x9f47, 0xf9, 0x66), (0x9f48, 0xf9, 0xb9), (0x9f49, 0xf9, 0xd4), (0x9f4a, 0xbb, 0xf4),
  (0x9f4b, 0xc2, 0x4e), (0x9f4c, 0xf1, 0xe9), (0x9f4d, 0xf3, 0xf9), (0x9f4e, 0xf6, 0xd2),
  (0x9f4f, 0xf8, 0x7e), (0x9f50, 0xa0, 0xfc), (0x9f52, 0xbe, 0xa6), (0x9f53, 0x9f, 0xee),
  (0x9f54, 0xef, 0xb5), (0x9f55, 0xf1, 0xea), (0x9f56, 0xf3, 0xfa), (0x9f57, 0xf3, 0xfb),
  (0x9f58, 0xf3, 0xfc), (0x9f59, 0xf5, 0xbe), (0x9f5a, 0x9f, 0x69), (0x9f5b, 0xf5, 0xba),
  (0x9f5c, 0xc5, 0x68), (0x9f5d, 0xf5, 0xbd), (0x9f5e, 0xf5, 0xbc), (0x9f5f, 0xc4, 0xd4),
  (0x9f60, 0xf5, 0xbb), (0x9f61, 0xc4, 0xd6), (0x9f62, 0x91, 0xc8), (0x9f63, 0xc4, 0xd5),
  (0x9f64, 0xf6, 0xd4), (0x9f65, 0xf6, 0xd3), (0x9f66, 0xc5, 0x69), (0x9f67, 0xc5, 0x6a),
  (0x9f69, 0x91, 0xc9), (0x9f6a, 0xc5, 0xc6), (0x9f6b, 0xf7, 0xcd), (0x9f6c, 0xc5, 0xc5),
  (0x9f6e, 0xf8, 0xa3), (0x9f6f, 0xf8, 0xa4), (0x9f70, 0xf8, 0xa2), (0x9f71, 0xf8, 0xa1),
  (0x9f72, 0xc6, 0x54), (0x9f74, 0xf8, 0xeb), (0x9f75, 0xf8, 0xec), (0x9f76, 0xf8, 0xed),
  (0x9f77, 0xc6, 0x53), (0x9f78, 0xf9, 0x67), (0x9f79, 0xf9, 0x6a), (0x9f7a, 0xf9, 0x69),
  (0x9f7b, 0xf9, 0x68), (0x9f7e, 0xf9, 0xd3), (0x9f7f, 0x8d, 0xe6), (0x9f8d, 0xc0, 0x73),
  (0x9f8e, 0x91, 0xcb), (0x9f90, 0xc3, 0x65), (0x9f91, 0xf5, 0xbf), (0x9f92, 0xf6, 0xd5),
  (0x9f94, 0xc5, 0xc7), (0x9f95, 0xf7, 0xce), (0x9f96, 0x87, 0xac), (0x9f97, 0x87, 0xa4),
  (0x9f98, 0xf9, 0xd5), (0x9f99, 0x89, 0xc8), (0x9f9c, 0xc0, 0x74), (0x9f9f, 0x8d, 0xaa),
  (0x9fa0, 0xef, 0xb6), (0x9fa2, 0xf7, 0xcf), (0x9fa4, 0xf9, 0xa1), (0x9fa5, 0x9f, 0xdd),
  (0x9fa6, 0x8c, 0x43), (0x9fa7, 0x8c, 0x6d), (0x9fa8, 0x8c, 0x74), (0x9fa9, 0x8c, 0xb7),
  (0x9faa, 0x8c, 0xb9), (0x9fab, 0x8c, 0xbb), (0x9fac, 0x8c, 0xc0), (0x9fad, 0x8c, 0xd7),
  (0x9fae, 0x8c, 0xd8), (0x9faf, 0x8c, 0xda), (0x9fb0, 0xc8, 0xa1), (0x9fb1, 0xc8, 0xa3),
  (0x9fb2, 0x8c, 0xed), (0x9fb3, 0x8d, 0x48), (0x9fc7, 0x87, 0xc2), (0x9fc8, 0x87, 0xd2),
  (0x9fc9, 0x87, 0xd6), (0x9fca, 0x87, 0xda), (0x9fcb, 0x87, 0xdf), (0xf907, 0x8b, 0xf8),
  (0xfa0c, 0xc9, 0x4a), (0xfa0d, 0xdd, 0xfc), (0xfe30, 0xa1, 0x4a), (0xfe31, 0xa1, 0x57),
  (0xfe33, 0xa1, 0x59), (0xfe34, 0xa1, 0x5b), (0xfe35, 0xa1, 0x5f), (0xfe36, 0xa1, 0x60),
  (0xfe37, 0xa1, 0x63), (0xfe38, 0xa1, 0x64), (0xfe39, 0xa1, 0x67), (0xfe3a, 0xa1, 0x68),
  (0xfe3b, 0xa1, 0x6b), (0xfe3c, 0xa1, 0x6c), (0xfe3d, 0xa1, 0x6f), (0xfe3e, 0xa1, 0x70)]

/-- `ENCODE_TABLE[16640..16768]`, (code point, byte 0, byte 1).  src/generated/whatwg/big5_whatwg_tables.rs.inc:8027-8070 -/
def encRow130 : List (Nat × Nat × Nat) := [
  (0xfe3f, 0xa1, 0x73), (0xfe40, 0xa1, 0x74), (0xfe41, 0xa1, 0x77), (0xfe42, 0xa1, 0x78),
  (0xfe43, 0xa1, 0x7b), (0xfe44, 0xa1, 0x7c), (0xfe49, 0xa1, 0xc6), (0xfe4a, 0xa1, 0xc7),
  (0xfe4b, 0xa1, 0xca), (0xfe4c, 0xa1, 0xcb), (0xfe4d, 0xa1, 0xc8), (0xfe4e, 0xa1, 0xc9),
  (0xfe4f, 0xa1, 0x5c), (0xfe50, 0xa1, 0x4d), (0xfe51, 0xa1, 0x4e), (0xfe52, 0xa1, 0x4f),
  (0xfe54, 0xa1, 0x51), (0xfe55, 0xa1, 0x52), (0xfe56, 0xa1, 0x53), (0xfe57, 0xa1, 0x54),
  (0xfe59, 0xa1, 0x7d), (0xfe5a, 0xa1, 0x7e), (0xfe5b, 0xa1, 0xa1), (0xfe5c, 0xa1, 0xa2),
  (0xfe5d, 0xa1, 0xa3), (0xfe5e, 0xa1, 0xa4), (0xfe5f, 0xa1, 0xcc), (0xfe60, 0xa1, 0xcd),
  (0xfe61, 0xa1, 0xce), (0xfe62, 0xa1, 0xde), (0xfe63, 0xa1, 0xdf), (0xfe64, 0xa1, 0xe0),
  (0xfe65, 0xa1, 0xe1), (0xfe66, 0xa1, 0xe2), (0xfe68, 0xa2, 0x42), (0xfe69, 0xa2, 0x4c),
  (0xfe6a, 0xa2, 0x4d), (0xfe6b, 0xa2, 0x4e), (0xff01, 0xa1, 0x49), (0xff02, 0xc8, 0xd0),
  (0xff03, 0xa1, 0xad), (0xff04, 0xa2, 0x43), (0xff05, 0xa2, 0x48), (0xff06, 0xa1, 0xae),
  (0xff07, 0xc8, 0xcf), (0xff08, 0xa1, 0x5d), (0xff09, 0xa1, 0x5e), (0xff0a, 0xa1, 0xaf),
  (0xff0b, 0xa1, 0xcf), (0xff0c, 0xa1, 0x41), (0xff0d, 0xa1, 0xd0), (0xff0e, 0xa1, 0x44),
  (0xff0f, 0xa1, 0xfe), (0xff10, 0xa2, 0xaf), (0xff11, 0xa2, 0xb0), (0xff12, 0xa2, 0xb1),
  (0xff13, 0xa2, 0xb2), (0xff14, 0xa2, 0xb3), (0xff15, 0xa2, 0xb4), (0xff16, 0xa2, 0xb5),
  (0xff17, 0xa2, 0xb6), (0xff18, 0xa2, 0xb7), (0xff19, 0xa2, 0xb8), (0xff1a, 0xa1, 0x47),
  (0xff1b, 0xa1, 0x46), (0xff1c, 0xa1, 0xd5), (0xff1d, 0xa1, 0xd7), (0xff1e, 0xa1, 0xd6),
  (0xff1f, 0xa1, 0x48), (0xff20, 0xa2, 0x49), (0xff21, 0xa2, 0xcf), (0xff22, 0xa2, 0xd0),
  (0xff23, 0xa2, 0xd1), (0xff24, 0xa2, 0xd2), (0xff25, 0xa2, 0xd3), (0xff26, 0xa2, 0xd4),
  (0xff27, 0xa2, 0xd5), (0xff28, 0xa2, 0xd6), (0xff29, 0xa2, 0xd7), (0xff2a, 0xa2, 0xd8),
  (0xff2b, 0xa2, 0xd9), (0xff2c, 0xa2, 0xda), (0xff2d, 0xa2, 0xdb), (0xff2e, 0xa2, 0xdc),
  (0xff2f, 0xa2, 0xdd), (0xff30, 0xa2, 0xde), (0xff31, 0xa2, 0xdf), (0xff32, 0xa2, 0xe0),
  (0xff33, 0xa2, 0xe1), (0xff34, 0xa2, 0xe2), (0xff35, 0xa2, 0xe3), (0xff36, 0xa2, 0xe4),
  (0xff37, 0xa2, 0xe5), (0xff38, 0xa2, 0xe6), (0xff39, 0xa2, 0xe7), (0xff3a, 0xa2, 0xe8),
  (0xff3b, 0xc6, 0xe4), (0xff3c, 0xa2, 0x40), (0xff3d, 0xc6, 0xe5), (0xff3f, 0xa1, 0xc4),
  (0xff41, 0xa2, 0xe9), (0xff42, 0xa2, 0xea), (0xff43, 0xa2, 0xeb), (0xff44, 0xa2, 0xec),
  (0xff45, 0xa2, 0xed), (0xff46, 0xa2, 0xee), (0xff47, 0xa2, 0xef), (0xff48, 0xa2, 0xf0),
  (0xff49, 0xa2, 0xf1), (0xff4a, 0xa2, 0xf2), (0xff4b, 0xa2, 0xf3), (0xff4c, 0xa2, 0xf4),
  (0xff4d, 0xa2, 0xf5), (0xff4e, 0xa2, 0xf6), (0xff4f, 0xa2, 0xf7), (0xff50, 0xa2, 0xf8),
  (0xff51, 0xa2, 0xf9), (0xff52, 0xa2, 0xfa), (0xff53, 0xa2, 0xfb), (0xff54, 0xa2, 0xfc),
  (0xff55, 0xa2, 0xfd), (0xff56, 0xa2, 0xfe), (0xff57, 0xa3, 0x40), (0xff58, 0xa3, 0x41),
  (0xff59, 0xa3, 0x42), (0xff5a, 0xa3, 0x43), (0xff5b, 0xa1, 0x61), (0xff5c, 0xa1, 0x55)]

/-- `ENCODE_TABLE[16768..16896]`, (code point, byte 0, byte 1).  src/generated/whatwg/big5_whatwg_tables.rs.inc:8070-8112 -/
def encRow131 : List (Nat × Nat × Nat) := [
  (0xff5d, 0xa1, 0x62), (0xff5e, 0xa1, 0xe3), (0xffe0, 0xa2, 0x46), (0xffe1, 0xa2, 0x47),
  (0xffe2, 0xc8, 0xcd), (0xffe3, 0xa1, 0xc3), (0xffe4, 0xc8, 0xce), (0xffe5, 0xa2, 0x44),
  (0xffed, 0xf9, 0xfe), (0x20021, 0x9c, 0x71), (0x2003e, 0x93, 0x75), (0x20046, 0x93, 0x76),
  (0x2004e, 0x95, 0x48), (0x20068, 0x8e, 0xc6), (0x20086, 0x8b, 0xc5), (0x20087, 0x8b, 0xfa),
  (0x2008a, 0xc8, 0x7c), (0x20094, 0x9a, 0xb4), (0x200ca, 0x88, 0x4e), (0x200cb, 0x88, 0x4b),
  (0x200cc, 0xc8, 0x7a), (0x200cd, 0x88, 0x48), (0x200d1, 0x88, 0x47), (0x200ee, 0xa0, 0xf6),
  (0x2010c, 0x88, 0x45), (0x2010e, 0x88, 0x53), (0x20118, 0xfc, 0xad), (0x201a4, 0x8c, 0xf5),
  (0x201a9, 0x8a, 0xad), (0x201ab, 0x92, 0x72), (0x201c1, 0xfc, 0x47), (0x201d4, 0x94, 0xdf),
  (0x201f2, 0x9f, 0xd1), (0x20204, 0xfb, 0xcb), (0x2020c, 0x92, 0x7d), (0x20214, 0x98, 0xa4),
  (0x20239, 0x8c, 0xf9), (0x2025b, 0x94, 0xe7), (0x20274, 0x90, 0xcb), (0x20275, 0x92, 0x7b),
  (0x20299, 0x94, 0xd8), (0x2029e, 0xfc, 0x5f), (0x202a0, 0xfa, 0x54), (0x202b7, 0x9a, 0xb5),
  (0x202bf, 0x96, 0xda), (0x202c0, 0x92, 0x79), (0x202e5, 0xfa, 0x74), (0x2030a, 0x92, 0x75),
  (0x20325, 0x8d, 0xfb), (0x20341, 0x8a, 0x49), (0x20345, 0x92, 0xdf), (0x20346, 0x9b, 0x7c),
  (0x20347, 0xfa, 0x63), (0x2037e, 0xfa, 0x60), (0x2037f, 0x92, 0x6d), (0x20380, 0xfa, 0x62),
  (0x203a0, 0x9a, 0xb6), (0x203a7, 0x97, 0x6b), (0x203b5, 0xfd, 0x6a), (0x203c9, 0xfd, 0x54),
  (0x203cb, 0x92, 0x73), (0x203f5, 0x97, 0xd8), (0x203fc, 0x9f, 0xbb), (0x20413, 0x93, 0x42),
  (0x20414, 0x92, 0x76), (0x2041f, 0xfa, 0x65), (0x20465, 0x92, 0x6c), (0x20487, 0xfa, 0x6e),
  (0x2048e, 0x9e, 0xe0), (0x20491, 0x92, 0xc0), (0x20492, 0x92, 0xbf), (0x204a3, 0x92, 0xbe),
  (0x204d7, 0x9a, 0xba), (0x204fc, 0x8a, 0xb3), (0x204fe, 0x97, 0x75), (0x20547, 0xfa, 0x40),
  (0x2058e, 0xfa, 0x76), (0x205a5, 0xfb, 0xd0), (0x205b3, 0xfa, 0x7b), (0x205c3, 0xfe, 0x6d),
  (0x205ca, 0x9b, 0xb3), (0x205d0, 0x89, 0xcc), (0x205d5, 0x9a, 0xbe), (0x205df, 0xfa, 0x42),
  (0x205e0, 0x92, 0xbc), (0x205eb, 0x94, 0x5c), (0x20611, 0x9b, 0xb5), (0x20615, 0x9a, 0xbf),
  (0x20619, 0x98, 0xa7), (0x2061a, 0x97, 0xa4), (0x20630, 0x90, 0xfd), (0x20656, 0xfc, 0x7b),
  (0x20676, 0x9a, 0xc0), (0x2070e, 0x92, 0xc3), (0x20731, 0x8a, 0xaa), (0x20779, 0x9b, 0xd0),
  (0x2082c, 0x95, 0x50), (0x20873, 0x92, 0xc6), (0x208d5, 0x98, 0xa6), (0x20916, 0x95, 0x46),
  (0x20923, 0xfd, 0x63), (0x20954, 0xfa, 0xc2), (0x20979, 0x9e, 0xc3), (0x209e7, 0x89, 0xb2),
  (0x20a11, 0x9c, 0x66), (0x20a50, 0x90, 0x53), (0x20a6f, 0x8c, 0x62), (0x20a8a, 0x87, 0xa8),
  (0x20ab4, 0x97, 0xc1), (0x20ac2, 0x9a, 0xc4), (0x20acd, 0x9a, 0xc5), (0x20b0d, 0x8e, 0xef),
  (0x20b8f, 0xfa, 0xe9), (0x20b9f, 0x8d, 0x40), (0x20ba8, 0x92, 0x62), (0x20ba9, 0x8a, 0xf7),
  (0x20bbf, 0x9a, 0xc6), (0x20bc6, 0x92, 0xe1), (0x20bcb, 0x9a, 0xc9), (0x20be2, 0xfa, 0xc6),
  (0x20beb, 0x97, 0xa5), (0x20bfb, 0x9a, 0xcb), (0x20bff, 0xfa, 0x72), (0x20c0b, 0x8a, 0x5e),
  (0x20c0d, 0x94, 0xe0), (0x20c20, 0x92, 0xcc), (0x20c34, 0x8a, 0xe5), (0x20c3a, 0xfe, 0x5c)]

/-- `ENCODE_TABLE[16896..17024]`, (code point, byte 0, byte 1).  src/generated/whatwg/big5_whatwg_tables.rs.inc:8113-8155 -/
def encRow132 : List (Nat × Nat × Nat) := [
  (0x20c3b, 0x9a, 0xcc), (0x20c41, 0x9d, 0xf9), (0x20c42, 0x8a, 0x43), (0x20c43, 0x8a, 0xa6),
  (0x20c53, 0x9a, 0xcd), (0x20c65, 0x9a, 0xce), (0x20c77, 0xfa, 0xee), (0x20c78, 0x9b, 0xcc),
  (0x20c7c, 0x9a, 0xcf), (0x20c8d, 0x9a, 0xd1), (0x20c96, 0x9d, 0xfa), (0x20c9c, 0x9d, 0x7c),
  (0x20cb5, 0x9a, 0xd3), (0x20cb8, 0x97, 0xa6), (0x20ccf, 0x99, 0x5f), (0x20cd3, 0xfb, 0xf6),
  (0x20cd4, 0x9f, 0xc5), (0x20cd5, 0x8a, 0x59), (0x20cd6, 0x8b, 0x6b), (0x20cdd, 0x9a, 0xd4),
  (0x20ced, 0x9a, 0xd5), (0x20cff, 0x97, 0xa2), (0x20d15, 0x8a, 0x44), (0x20d28, 0x9f, 0x4a),
  (0x20d31, 0x90, 0xa1), (0x20d32, 0xfd, 0xa4), (0x20d46, 0x8a, 0x64), (0x20d47, 0x8a, 0xf2),
  (0x20d48, 0x8a, 0xf8), (0x20d49, 0x9d, 0xd8), (0x20d4c, 0x94, 0xd6), (0x20d4d, 0xfa, 0xfe),
  (0x20d4e, 0xfb, 0xa7), (0x20d6f, 0x9a, 0xd6), (0x20d71, 0x9f, 0x4d), (0x20d74, 0xfa, 0xf6),
  (0x20d7c, 0x8a, 0x57), (0x20d7e, 0x8b, 0x43), (0x20d7f, 0x8b, 0x44), (0x20d96, 0x8a, 0xb6),
  (0x20d9c, 0x8a, 0xc0), (0x20da7, 0x9e, 0x54), (0x20db2, 0x9a, 0xd7), (0x20dc8, 0x9a, 0xd8),
  (0x20e04, 0x9a, 0xdc), (0x20e09, 0x8a, 0xca), (0x20e0a, 0x9e, 0xa8), (0x20e0d, 0x92, 0x63),
  (0x20e0e, 0x9a, 0xdd), (0x20e0f, 0x8b, 0x65), (0x20e10, 0x8b, 0x6f), (0x20e11, 0x8b, 0x7e),
  (0x20e16, 0x8f, 0x43), (0x20e1d, 0x92, 0xd0), (0x20e4c, 0x8a, 0xf4), (0x20e6d, 0x9d, 0xbe),
  (0x20e73, 0x9a, 0xe1), (0x20e75, 0xfc, 0xde), (0x20e76, 0x9d, 0xfd), (0x20e77, 0x8b, 0x66),
  (0x20e78, 0x8b, 0x70), (0x20e79, 0x8b, 0x75), (0x20e7a, 0x8a, 0xe4), (0x20e7b, 0x8b, 0xa4),
  (0x20e8c, 0x8a, 0xed), (0x20e96, 0x8a, 0x5d), (0x20e98, 0x8b, 0x48), (0x20e9d, 0x9d, 0xed),
  (0x20ea2, 0x9e, 0x40), (0x20eaa, 0x8a, 0xef), (0x20eab, 0x8a, 0xf6), (0x20eac, 0x9e, 0x76),
  (0x20eb6, 0x9e, 0xe3), (0x20ed7, 0x9a, 0xde), (0x20ed8, 0x8d, 0xfe), (0x20edd, 0xfa, 0xfc),
  (0x20ef8, 0x9c, 0xb1), (0x20ef9, 0x9e, 0x77), (0x20efa, 0x8b, 0x64), (0x20efb, 0x8b, 0x67),
  (0x20f1d, 0x97, 0x4b), (0x20f26, 0x96, 0x53), (0x20f2d, 0x9a, 0xe0), (0x20f2e, 0x8b, 0x4a),
  (0x20f30, 0x8a, 0xf1), (0x20f31, 0x8a, 0xd7), (0x20f3b, 0xa0, 0xab), (0x20f4c, 0x8a, 0xb5),
  (0x20f64, 0x8a, 0x5f), (0x20f8d, 0x8a, 0xee), (0x20f90, 0x9a, 0xdf), (0x20fad, 0x8a, 0xfe),
  (0x20fb4, 0x8a, 0x58), (0x20fb5, 0x8b, 0xa3), (0x20fb6, 0x8b, 0xa7), (0x20fbc, 0x9a, 0xe3),
  (0x20fdf, 0x92, 0x61), (0x20fea, 0x9d, 0xd7), (0x20feb, 0x9e, 0x7d), (0x20fec, 0x9e, 0xa7),
  (0x20fed, 0x9e, 0xab), (0x21014, 0x90, 0x42), (0x2101d, 0x8b, 0x79), (0x2101e, 0x8b, 0x7a),
  (0x2104f, 0x9a, 0xe6), (0x2105c, 0x9a, 0xe5), (0x2106f, 0x8a, 0x7e), (0x21075, 0x9e, 0x44),
  (0x21076, 0x9a, 0xe7), (0x21077, 0x8a, 0x7c), (0x21078, 0x8b, 0x71), (0x2107b, 0x9a, 0xe9),
  (0x21088, 0x9a, 0xea), (0x21096, 0x9a, 0xeb), (0x2109d, 0x8a, 0xbd), (0x210b4, 0xfb, 0x4e),
  (0x210bf, 0x9a, 0xed), (0x210c0, 0x8a, 0xf9), (0x210c1, 0x9e, 0x63), (0x210c7, 0x8b, 0x49),
  (0x210c8, 0x8a, 0xce), (0x210c9, 0x8b, 0x6e), (0x210cf, 0x8a, 0xe8), (0x210d3, 0x9a, 0xee),
  (0x210e4, 0x92, 0xce), (0x210f4, 0x8a, 0x5a), (0x210f5, 0x8b, 0x7b), (0x210f6, 0x8b, 0x7c)]

/-- `ENCODE_TABLE[17024..17152]`, (code point, byte 0, byte 1).  src/generated/whatwg/big5_whatwg_tables.rs.inc:8155-8198 -/
def encRow133 : List (Nat × Nat × Nat) := [
  (0x2112f, 0x9a, 0xef), (0x2113b, 0x9a, 0xf0), (0x2113d, 0x8a, 0xfa), (0x21145, 0x89, 0x41),
  (0x21148, 0x8b, 0x72), (0x2114f, 0x8a, 0xf3), (0x21180, 0x8b, 0xa8), (0x21187, 0x9e, 0xae),
  (0x211d9, 0x9e, 0x72), (0x2123c, 0xfb, 0x73), (0x2124f, 0xfb, 0x5f), (0x2127c, 0x90, 0xba),
  (0x212a8, 0x91, 0xfe), (0x212a9, 0x9e, 0xf6), (0x212b0, 0x97, 0xed), (0x212e3, 0x9a, 0xf3),
  (0x212fe, 0xa0, 0xee), (0x21302, 0x96, 0x7c), (0x21303, 0x93, 0x45), (0x21304, 0x98, 0x6e),
  (0x21305, 0xfa, 0x56), (0x21336, 0x9a, 0xf5), (0x2133a, 0xfc, 0x4b), (0x21375, 0x9a, 0xf4),
  (0x21376, 0xfe, 0xde), (0x2138e, 0xfc, 0xb7), (0x21398, 0x97, 0xf1), (0x2139c, 0x97, 0xc7),
  (0x213c5, 0x9c, 0xcb), (0x213c6, 0x92, 0x40), (0x213ed, 0x9c, 0xe8), (0x213fe, 0x91, 0xfd),
  (0x21413, 0x97, 0x4e), (0x21416, 0xfb, 0x68), (0x21424, 0x97, 0x6c), (0x2143f, 0x8c, 0xc2),
  (0x21452, 0x97, 0xe8), (0x21454, 0xfb, 0x6a), (0x21455, 0x8b, 0x74), (0x2148a, 0x8e, 0xe7),
  (0x21497, 0xfd, 0xc8), (0x214b6, 0x92, 0x41), (0x214e8, 0x96, 0xa1), (0x214fd, 0x8e, 0xf3),
  (0x21577, 0x9a, 0xf7), (0x21582, 0x8f, 0xa6), (0x21596, 0xfa, 0xd6), (0x2160a, 0x9c, 0xc7),
  (0x21613, 0xfa, 0xd7), (0x21619, 0x9a, 0xf8), (0x2163e, 0xfb, 0xa1), (0x21661, 0x8e, 0xc5),
  (0x21692, 0xfb, 0xa4), (0x216b8, 0xfb, 0xc2), (0x216ba, 0x9a, 0xc1), (0x216c0, 0x91, 0xfa),
  (0x216c1, 0xfe, 0xdb), (0x216c2, 0x97, 0xab), (0x216d3, 0x91, 0x47), (0x216d5, 0xfb, 0xb1),
  (0x216df, 0x8f, 0xea), (0x216e6, 0x94, 0xd2), (0x216e7, 0xfe, 0x61), (0x216e8, 0xfa, 0xce),
  (0x216fa, 0x92, 0xed), (0x216fb, 0x91, 0xf3), (0x216fc, 0x93, 0xc6), (0x216fe, 0x93, 0x5a),
  (0x2170d, 0xfa, 0xfb), (0x21710, 0x92, 0xef), (0x21726, 0xfa, 0xc8), (0x2173a, 0x98, 0x47),
  (0x2173b, 0x93, 0x66), (0x2173c, 0x98, 0x55), (0x21757, 0x96, 0xe6), (0x2176c, 0x9f, 0x43),
  (0x2176d, 0x9f, 0xaa), (0x2176e, 0x94, 0xda), (0x2176f, 0x92, 0xee), (0x21770, 0xfc, 0xaf),
  (0x21771, 0xfb, 0xfb), (0x21773, 0x8e, 0xf9), (0x21774, 0x91, 0xf6), (0x217ab, 0x93, 0x64),
  (0x217b0, 0x94, 0xf5), (0x217b1, 0x9c, 0xb6), (0x217b2, 0xfb, 0xad), (0x217b3, 0x98, 0x4e),
  (0x217b4, 0x8f, 0x44), (0x217b5, 0x96, 0xfd), (0x217c3, 0x9a, 0xf9), (0x217c7, 0x9a, 0xfa),
  (0x217d9, 0x97, 0x69), (0x217da, 0x95, 0xd4), (0x217db, 0x98, 0x4b), (0x217dc, 0xfb, 0xaa),
  (0x217df, 0x98, 0x7c), (0x217ef, 0x91, 0xea), (0x217f5, 0x9d, 0xaf), (0x217f6, 0x9d, 0xc5),
  (0x217f8, 0x91, 0xf1), (0x217f9, 0x8e, 0xb1), (0x217fa, 0x97, 0xa9), (0x217fb, 0xfb, 0xac),
  (0x217fc, 0xfc, 0xb8), (0x21820, 0x9c, 0xb9), (0x21828, 0xfb, 0xb0), (0x21829, 0xfc, 0xd2),
  (0x2182a, 0x93, 0xcb), (0x2182d, 0x9a, 0xfd), (0x21839, 0x91, 0xf4), (0x2183a, 0x8b, 0xac),
  (0x2183b, 0xa0, 0x55), (0x21840, 0x95, 0x74), (0x21845, 0x95, 0xbe), (0x21852, 0x97, 0xad),
  (0x2185e, 0x8e, 0xe9), (0x21861, 0x92, 0xf8), (0x21862, 0x97, 0xbe), (0x21863, 0x91, 0x6c),
  (0x21864, 0x94, 0xaa), (0x21877, 0xfc, 0x63), (0x2187b, 0x9d, 0xc6), (0x21883, 0x97, 0xb5),
  (0x21884, 0x92, 0xb8), (0x21885, 0x91, 0xef), (0x2189e, 0xfe, 0xa6), (0x2189f, 0x97, 0x60)]

/-- `ENCODE_TABLE[17152..17280]`, (code point, byte 0, byte 1).  src/generated/whatwg/big5_whatwg_tables.rs.inc:8198-8240 -/
def encRow134 : List (Nat × Nat × Nat) := [
  (0x218a0, 0x93, 0x58), (0x218a1, 0x95, 0x76), (0x218a2, 0x8f, 0xac), (0x218be, 0x91, 0xec),
  (0x218bf, 0x97, 0xb4), (0x218d1, 0x91, 0xf7), (0x218d6, 0x97, 0x4a), (0x218d7, 0xfb, 0x49),
  (0x218d8, 0x95, 0x78), (0x218d9, 0x93, 0xbc), (0x218fa, 0x91, 0xd6), (0x21903, 0x93, 0x55),
  (0x21904, 0x93, 0x56), (0x21905, 0x98, 0x51), (0x21910, 0x8f, 0xf8), (0x21911, 0xfb, 0xc0),
  (0x21912, 0x93, 0xf2), (0x21915, 0x90, 0xd0), (0x2191c, 0x9c, 0x44), (0x21922, 0x92, 0x55),
  (0x21927, 0x93, 0x63), (0x2193b, 0x91, 0xa5), (0x21944, 0xa0, 0xed), (0x21958, 0xfd, 0x6b),
  (0x2196a, 0x9a, 0xfe), (0x2197c, 0x93, 0x51), (0x21980, 0x8c, 0x57), (0x21983, 0xfa, 0x78),
  (0x21988, 0xfe, 0xa8), (0x21996, 0x93, 0x50), (0x219db, 0xfa, 0x4c), (0x219f3, 0x92, 0xf7),
  (0x21a2d, 0x9b, 0x40), (0x21a34, 0xfb, 0xce), (0x21a45, 0x9b, 0x41), (0x21a4b, 0xfe, 0xad),
  (0x21a63, 0x87, 0x61), (0x21b44, 0xfb, 0xd5), (0x21bc1, 0x8b, 0xc2), (0x21bc2, 0x9a, 0x7c),
  (0x21c2a, 0x9b, 0x42), (0x21c70, 0x9b, 0x43), (0x21ca2, 0x9e, 0x79), (0x21ca5, 0xfb, 0xd9),
  (0x21cac, 0x9b, 0x44), (0x21d46, 0xa0, 0xa7), (0x21d53, 0x87, 0x7b), (0x21d5e, 0x87, 0x6e),
  (0x21d90, 0x9b, 0xf3), (0x21db6, 0x8c, 0x79), (0x21dba, 0x93, 0x5e), (0x21dca, 0x89, 0xcb),
  (0x21dd1, 0x9f, 0x53), (0x21deb, 0x93, 0xd7), (0x21df9, 0xfb, 0xe1), (0x21e1c, 0xfe, 0xd0),
  (0x21e23, 0x8c, 0xf1), (0x21e37, 0xfb, 0xe2), (0x21e3d, 0xfc, 0xe3), (0x21e89, 0x90, 0x74),
  (0x21ea4, 0xfb, 0xe6), (0x21ea8, 0x9b, 0xb7), (0x21ec8, 0x9b, 0x45), (0x21ed5, 0x9b, 0x47),
  (0x21f0f, 0x9f, 0x50), (0x21f15, 0x9b, 0x48), (0x21f6a, 0xfc, 0x5b), (0x21f9e, 0x98, 0xa9),
  (0x21fa1, 0x9c, 0xfd), (0x21fe8, 0x88, 0x4c), (0x22045, 0x9b, 0x4b), (0x22049, 0xfb, 0xec),
  (0x2207e, 0x8c, 0x69), (0x2209a, 0x9b, 0xa8), (0x220c7, 0x8a, 0xd5), (0x220fc, 0xfa, 0x73),
  (0x2212a, 0xfd, 0x59), (0x2215b, 0x91, 0xa2), (0x22173, 0xfb, 0xed), (0x2217a, 0x9c, 0xa9),
  (0x221a1, 0x8a, 0xa8), (0x221c1, 0x8d, 0x42), (0x221c3, 0x9b, 0xc3), (0x22208, 0x8a, 0xe1),
  (0x2227c, 0x9b, 0x4e), (0x22321, 0x95, 0xd0), (0x22325, 0x90, 0x5f), (0x223bd, 0x97, 0xee),
  (0x223d0, 0xfc, 0x4e), (0x223d7, 0x9b, 0x4f), (0x223fa, 0x9b, 0x50), (0x22465, 0x9e, 0xc6),
  (0x22471, 0xfc, 0x50), (0x2248b, 0xfd, 0x73), (0x22491, 0xfd, 0xa7), (0x224b0, 0x9d, 0xa2),
  (0x224bc, 0x87, 0xd1), (0x224c1, 0x87, 0xd3), (0x224c9, 0x87, 0xd4), (0x224cc, 0x87, 0xd5),
  (0x224ed, 0xfa, 0x58), (0x22513, 0xfa, 0x5e), (0x2251b, 0xa0, 0x59), (0x22530, 0xfa, 0x75),
  (0x22554, 0xfb, 0xbe), (0x2258d, 0x9c, 0xa2), (0x225af, 0x93, 0x70), (0x225be, 0x93, 0x71),
  (0x2261b, 0x93, 0x77), (0x2261c, 0xfe, 0xef), (0x2262b, 0x93, 0x6d), (0x22668, 0xfc, 0x5d),
  (0x2267a, 0x90, 0xb8), (0x22696, 0x8a, 0xfc), (0x22698, 0xfb, 0x41), (0x226f4, 0x9e, 0x6b),
  (0x226f5, 0x94, 0xe3), (0x226f6, 0x8e, 0xe2), (0x22712, 0x8c, 0x7d), (0x22714, 0x8e, 0xd7),
  (0x2271b, 0x9c, 0x4d), (0x2271f, 0x96, 0xa3), (0x2272a, 0x9b, 0x51), (0x22775, 0x8a, 0xc3),
  (0x22781, 0x96, 0xaa), (0x22796, 0x8c, 0xe2), (0x227b4, 0xfc, 0x68), (0x227b5, 0x8b, 0x6d)]

/-- `ENCODE_TABLE[17280..17408]`, (code point, byte 0, byte 1).  src/generated/whatwg/big5_whatwg_tables.rs.inc:8241-8283 -/
def encRow135 : List (Nat × Nat × Nat) := [
  (0x227cd, 0xfd, 0x67), (0x22803, 0x8a, 0xe9), (0x2285f, 0xfc, 0xa1), (0x22860, 0x93, 0x6c),
  (0x22871, 0x9b, 0x52), (0x228ad, 0xfe, 0x70), (0x228c1, 0xfc, 0xa8), (0x228f7, 0xfc, 0xe9),
  (0x22926, 0x9c, 0xb4), (0x22939, 0x8a, 0xea), (0x2294f, 0x9b, 0x53), (0x22967, 0x9b, 0x55),
  (0x2296b, 0x96, 0xab), (0x22980, 0xfc, 0xa7), (0x22993, 0x9b, 0x56), (0x22a66, 0x8a, 0xbc),
  (0x22acf, 0x8a, 0xcb), (0x22ad5, 0x9b, 0x57), (0x22ae6, 0x89, 0xcd), (0x22ae8, 0x9b, 0x59),
  (0x22b0e, 0x9b, 0x5b), (0x22b22, 0x93, 0xa5), (0x22b3f, 0x9b, 0x5d), (0x22b43, 0x9e, 0x4f),
  (0x22b6a, 0x93, 0xa3), (0x22bca, 0x8a, 0x7b), (0x22bce, 0x8b, 0x42), (0x22c26, 0x97, 0x50),
  (0x22c27, 0x8f, 0xb3), (0x22c38, 0x8a, 0x50), (0x22c4c, 0x9b, 0x60), (0x22c51, 0x8b, 0x45),
  (0x22c55, 0x8b, 0x46), (0x22c62, 0x9d, 0xfe), (0x22c88, 0x9b, 0x62), (0x22c9b, 0x93, 0x7b),
  (0x22ca1, 0x93, 0xb1), (0x22ca9, 0x8a, 0x60), (0x22cb2, 0x8a, 0xd8), (0x22cb7, 0x9b, 0x63),
  (0x22cc2, 0x8a, 0x69), (0x22cc6, 0x8a, 0x47), (0x22cc9, 0x8a, 0xcc), (0x22d07, 0x93, 0x7c),
  (0x22d08, 0x9b, 0x65), (0x22d12, 0x9b, 0x66), (0x22d44, 0x8a, 0x72), (0x22d4c, 0x8a, 0x7a),
  (0x22d67, 0x93, 0xaf), (0x22d8d, 0x8a, 0xb0), (0x22d95, 0x9b, 0x68), (0x22da0, 0x9e, 0xa3),
  (0x22da3, 0xfa, 0xec), (0x22da4, 0x8b, 0x77), (0x22db7, 0x9b, 0x67), (0x22dee, 0x8b, 0x59),
  (0x22e0d, 0xfc, 0xb1), (0x22e36, 0xfc, 0xbb), (0x22e42, 0x9b, 0x69), (0x22e78, 0x93, 0xa8),
  (0x22e8b, 0x8a, 0xe0), (0x22eb3, 0x9e, 0x51), (0x22eef, 0x8f, 0x5f), (0x22f74, 0x9b, 0x6a),
  (0x22fcc, 0x9b, 0x6b), (0x22fe3, 0x97, 0xec), (0x23033, 0x9b, 0x6c), (0x23044, 0xfe, 0x4e),
  (0x2304b, 0xfd, 0xc2), (0x23066, 0x9b, 0x6d), (0x2307d, 0x91, 0x67), (0x2307e, 0xfc, 0xcc),
  (0x2308e, 0x93, 0xb6), (0x230b7, 0x90, 0xe4), (0x230bc, 0x90, 0xe5), (0x230da, 0x9e, 0xf2),
  (0x23103, 0x93, 0xca), (0x2313d, 0x8b, 0xbc), (0x2317d, 0x8f, 0x46), (0x23182, 0x93, 0xcf),
  (0x231a4, 0xfc, 0xdb), (0x231a5, 0xfc, 0xdc), (0x231b3, 0x93, 0xc0), (0x231c8, 0xfc, 0xe6),
  (0x231c9, 0x96, 0xe7), (0x231ea, 0x87, 0xa7), (0x231f7, 0xfc, 0xd8), (0x231f8, 0xfc, 0xd9),
  (0x231f9, 0xfd, 0xa6), (0x2320f, 0x93, 0xce), (0x23225, 0x95, 0xf1), (0x2322f, 0x9c, 0xe9),
  (0x23231, 0xfc, 0xe4), (0x23232, 0x94, 0xaf), (0x23233, 0xfa, 0x77), (0x23234, 0x93, 0xcc),
  (0x23256, 0x8c, 0xe1), (0x2325e, 0x87, 0xa9), (0x23262, 0x90, 0x5a), (0x23281, 0x8c, 0x54),
  (0x23289, 0x93, 0xbf), (0x2328a, 0xfb, 0x51), (0x232ab, 0x93, 0xb9), (0x232ac, 0xfe, 0xd7),
  (0x232ad, 0x93, 0xb7), (0x232d2, 0x93, 0xd9), (0x232e0, 0x93, 0xbb), (0x232e1, 0x93, 0xda),
  (0x23300, 0x98, 0xa3), (0x2330a, 0x90, 0xd1), (0x2331f, 0x9b, 0x6e), (0x233b4, 0xfa, 0x70),
  (0x233cc, 0x9b, 0xeb), (0x233de, 0x9b, 0x6f), (0x233e6, 0xfc, 0xfc), (0x233f4, 0x8b, 0x40),
  (0x233f5, 0xa0, 0x7b), (0x233f9, 0x8c, 0xa1), (0x233fa, 0x97, 0xf7), (0x233fe, 0x93, 0xe2),
  (0x23400, 0xfc, 0xd6), (0x2343f, 0x95, 0x59), (0x23450, 0x93, 0xa6), (0x2346f, 0xfd, 0x40),
  (0x23472, 0x93, 0x5f), (0x234e5, 0x97, 0xf2), (0x23519, 0x9c, 0x76), (0x23530, 0x8e, 0xf8)]

/-- `ENCODE_TABLE[17408..17536]`, (code point, byte 0, byte 1).  src/generated/whatwg/big5_whatwg_tables.rs.inc:8283-8326 -/
def encRow136 : List (Nat × Nat × Nat) := [
  (0x23551, 0x8c, 0xeb), (0x2355a, 0x8f, 0x47), (0x23567, 0x9b, 0x74), (0x23595, 0x92, 0xb4),
  (0x23599, 0x91, 0xed), (0x2359c, 0x96, 0xd2), (0x235bb, 0x87, 0xd8), (0x235cd, 0xfd, 0x46),
  (0x235ce, 0x8f, 0x4f), (0x235cf, 0x95, 0x49), (0x235f3, 0x9b, 0x75), (0x23600, 0xfa, 0x5c),
  (0x23617, 0x87, 0x51), (0x2361a, 0x9b, 0x79), (0x2363c, 0xfd, 0x4b), (0x23640, 0x96, 0xd3),
  (0x23659, 0xfd, 0x58), (0x2365f, 0x94, 0x5f), (0x23677, 0xa0, 0xf5), (0x2368e, 0x87, 0xc7),
  (0x2369e, 0x87, 0x7c), (0x236a6, 0x92, 0x43), (0x236ad, 0x97, 0xfa), (0x236ba, 0x9d, 0xd9),
  (0x236df, 0x97, 0xf4), (0x236ee, 0x92, 0x4d), (0x23703, 0xfd, 0x5b), (0x23716, 0x9b, 0x7a),
  (0x23720, 0x9e, 0xd5), (0x2372d, 0xfa, 0xae), (0x2372f, 0x9c, 0xc9), (0x2373f, 0x92, 0x58),
  (0x23766, 0x8e, 0xc8), (0x23781, 0x94, 0xb4), (0x237a2, 0x93, 0xe1), (0x237bc, 0x93, 0xdf),
  (0x237c2, 0xfc, 0xf0), (0x237d5, 0x93, 0xec), (0x237d6, 0x97, 0xf6), (0x237d7, 0x96, 0xcf),
  (0x2383a, 0x93, 0xde), (0x239c2, 0x8a, 0xcf), (0x23aa7, 0x9b, 0xa2), (0x23adb, 0xfd, 0x69),
  (0x23aee, 0x93, 0x52), (0x23afa, 0x98, 0xa2), (0x23b1a, 0x8c, 0xe7), (0x23b5a, 0xfd, 0x6e),
  (0x23c63, 0x8c, 0xa4), (0x23c99, 0xfa, 0x7c), (0x23c9a, 0x93, 0xfa), (0x23c9b, 0x90, 0x7c),
  (0x23cb5, 0x8f, 0x67), (0x23cb7, 0x9d, 0xb7), (0x23cc7, 0xa0, 0xe9), (0x23cc8, 0xfa, 0x4e),
  (0x23cc9, 0xfd, 0xa1), (0x23cfc, 0x9e, 0x74), (0x23cfd, 0x9f, 0xbf), (0x23cfe, 0x9e, 0xcb),
  (0x23cff, 0x9b, 0xb9), (0x23d40, 0x9d, 0xd4), (0x23d5b, 0x97, 0xb9), (0x23d7e, 0x8e, 0xf1),
  (0x23d8f, 0x95, 0x7b), (0x23db6, 0x9e, 0xd2), (0x23db7, 0x97, 0x53), (0x23db8, 0x96, 0xa4),
  (0x23db9, 0x8f, 0xbe), (0x23dba, 0x94, 0xd9), (0x23dbb, 0x90, 0x58), (0x23dbc, 0xfd, 0x79),
  (0x23dbd, 0xfd, 0x7b), (0x23de3, 0x8e, 0xda), (0x23df8, 0x8e, 0xfa), (0x23e06, 0x87, 0x62),
  (0x23e11, 0x9b, 0xa5), (0x23e2c, 0x9e, 0xd9), (0x23e2d, 0x97, 0xd4), (0x23e2e, 0x90, 0xbb),
  (0x23e2f, 0xfd, 0xbc), (0x23e30, 0xfd, 0xc6), (0x23e31, 0x92, 0x48), (0x23e39, 0x92, 0xb5),
  (0x23e88, 0x9d, 0xc1), (0x23e89, 0x92, 0xb9), (0x23e8a, 0x92, 0xa6), (0x23e8b, 0x8f, 0x4b),
  (0x23eb9, 0x9b, 0xa6), (0x23ebf, 0x92, 0xb6), (0x23ed7, 0x8e, 0x40), (0x23ef7, 0x9e, 0xd8),
  (0x23ef8, 0x94, 0x5e), (0x23ef9, 0x98, 0x5f), (0x23efa, 0x94, 0xce), (0x23efb, 0x92, 0x4a),
  (0x23efc, 0xfd, 0x70), (0x23f35, 0x94, 0x67), (0x23f41, 0x8d, 0xec), (0x23f4a, 0x9b, 0xd8),
  (0x23f61, 0x87, 0x63), (0x23f7f, 0x94, 0x48), (0x23f80, 0xfa, 0xc1), (0x23f81, 0x9c, 0xf7),
  (0x23f82, 0xfd, 0xbe), (0x23f8f, 0x8f, 0xda), (0x23fb4, 0xfd, 0xd9), (0x23fb7, 0xfc, 0x7e),
  (0x23fc0, 0x93, 0xf9), (0x23fc5, 0xfa, 0x43), (0x23feb, 0xfa, 0xeb), (0x23fec, 0xfa, 0xc3),
  (0x23fed, 0x97, 0xd3), (0x23fee, 0x95, 0xf9), (0x23fef, 0x9c, 0x48), (0x23ff0, 0xfd, 0xd8),
  (0x24011, 0xa0, 0xd8), (0x24039, 0xfd, 0xd7), (0x2403a, 0xfb, 0x4a), (0x2403b, 0x9b, 0xaf),
  (0x2403c, 0x94, 0x4b), (0x2403d, 0xfd, 0xc9), (0x24057, 0x8e, 0xac), (0x24085, 0xfd, 0xb2),
  (0x2408b, 0x92, 0x5a), (0x2408c, 0xfc, 0xbd), (0x2408d, 0x92, 0xd9), (0x24091, 0xfd, 0xd5)]

/-- `ENCODE_TABLE[17536..17664]`, (code point, byte 0, byte 1).  src/generated/whatwg/big5_whatwg_tables.rs.inc:8326-8368 -/
def encRow137 : List (Nat × Nat × Nat) := [
  (0x240c9, 0x92, 0xdd), (0x240e1, 0x92, 0x59), (0x240ec, 0x8c, 0xf0), (0x24104, 0x96, 0xba),
  (0x2410f, 0x92, 0x5b), (0x24119, 0x9b, 0xab), (0x2413f, 0xfd, 0xda), (0x24140, 0xfd, 0xde),
  (0x24144, 0xfd, 0xd3), (0x2414e, 0x8c, 0x46), (0x24155, 0xfd, 0xd6), (0x24156, 0xfd, 0xdc),
  (0x24157, 0xfd, 0xdd), (0x2415c, 0x90, 0xfe), (0x2415f, 0xfe, 0xa1), (0x24161, 0x87, 0xa5),
  (0x24177, 0x8b, 0xad), (0x2417a, 0x9c, 0xd8), (0x241a3, 0x9e, 0x6d), (0x241a4, 0xfd, 0x7c),
  (0x241a5, 0xfb, 0x61), (0x241ac, 0x96, 0xf8), (0x241b5, 0x96, 0xf0), (0x241cd, 0xfc, 0xf4),
  (0x241e2, 0xfe, 0x60), (0x241fc, 0x98, 0x52), (0x2421b, 0x96, 0x4f), (0x2424b, 0x91, 0x6e),
  (0x24256, 0x98, 0x6d), (0x24259, 0x98, 0x64), (0x24276, 0x94, 0x53), (0x24277, 0xfd, 0xec),
  (0x24278, 0xfb, 0x78), (0x24284, 0x95, 0xba), (0x24293, 0x98, 0x5d), (0x24295, 0x92, 0xf9),
  (0x242a5, 0x98, 0x5a), (0x242bf, 0x87, 0x50), (0x242c1, 0xfd, 0xf6), (0x242c9, 0x93, 0xd0),
  (0x242ca, 0x98, 0x62), (0x242ee, 0x9b, 0xad), (0x242fa, 0x97, 0x4f), (0x2430d, 0x9b, 0xae),
  (0x2431a, 0x94, 0x52), (0x24334, 0x9b, 0xb0), (0x24348, 0x91, 0xd2), (0x24362, 0x97, 0xea),
  (0x24363, 0xfb, 0x6b), (0x24364, 0x91, 0xb1), (0x24365, 0xfd, 0xf3), (0x2438c, 0x92, 0xcb),
  (0x24396, 0x9b, 0xb1), (0x2439c, 0xfc, 0xec), (0x243bd, 0x98, 0x6b), (0x243c1, 0x97, 0x51),
  (0x243e9, 0x98, 0x71), (0x243ea, 0x95, 0xef), (0x243f2, 0x9e, 0xf3), (0x243f8, 0x91, 0xe8),
  (0x24404, 0x9b, 0xba), (0x24435, 0xfb, 0x4c), (0x24436, 0x92, 0x6a), (0x2445a, 0xfd, 0xf8),
  (0x2445b, 0x98, 0x61), (0x24473, 0x91, 0xe7), (0x24487, 0x93, 0xed), (0x24488, 0x97, 0x44),
  (0x244b9, 0x91, 0xe1), (0x244bc, 0xfb, 0xf5), (0x244ce, 0x98, 0x69), (0x244d3, 0x8a, 0x62),
  (0x244d6, 0x9b, 0xbb), (0x24505, 0x8c, 0xa8), (0x24521, 0x9c, 0x55), (0x24578, 0x8e, 0x77),
  (0x245c8, 0x8a, 0xb2), (0x24618, 0x9e, 0xbc), (0x2462a, 0x93, 0xe6), (0x24665, 0x93, 0xa2),
  (0x24674, 0x9b, 0xbd), (0x24697, 0x94, 0xb3), (0x246d4, 0x93, 0x7d), (0x24706, 0x9e, 0x66),
  (0x24725, 0x94, 0x59), (0x2472f, 0x9b, 0xbf), (0x2478f, 0x94, 0x58), (0x247e0, 0x9e, 0xa5),
  (0x24812, 0x9b, 0xc7), (0x24823, 0xfe, 0x54), (0x24882, 0x8e, 0x74), (0x248e9, 0x8b, 0xd6),
  (0x248f0, 0x94, 0xb6), (0x248f1, 0xfd, 0x74), (0x248f2, 0x98, 0xc0), (0x248f3, 0x94, 0xa5),
  (0x248fb, 0x9b, 0xc8), (0x248ff, 0x95, 0xed), (0x24900, 0xfd, 0x7e), (0x24901, 0xfb, 0xeb),
  (0x2490c, 0xfd, 0x7d), (0x24916, 0x97, 0x6f), (0x24917, 0x94, 0x61), (0x24919, 0x9f, 0xc1),
  (0x2492f, 0x95, 0xd7), (0x24933, 0xfa, 0x52), (0x24934, 0x9c, 0x58), (0x2493e, 0x9f, 0x68),
  (0x2493f, 0x9b, 0xe7), (0x24940, 0xfc, 0xce), (0x24941, 0x96, 0xe8), (0x24942, 0xfa, 0x49),
  (0x24943, 0x97, 0xa1), (0x24962, 0x95, 0x4d), (0x24963, 0x9e, 0xf8), (0x24974, 0xfe, 0x49),
  (0x24975, 0x91, 0xce), (0x24976, 0x97, 0x71), (0x2497b, 0x8c, 0xcf), (0x2497f, 0xfd, 0xb1),
  (0x24982, 0xfc, 0x6e), (0x24988, 0x9c, 0xf2), (0x24989, 0x93, 0xb8), (0x2498a, 0x90, 0x43),
  (0x2498b, 0x97, 0x59), (0x2498c, 0x94, 0xd7), (0x2498d, 0xfe, 0x66), (0x2498e, 0x94, 0x7d)]

/-- `ENCODE_TABLE[17664..17792]`, (code point, byte 0, byte 1).  src/generated/whatwg/big5_whatwg_tables.rs.inc:8369-8411 -/
def encRow138 : List (Nat × Nat × Nat) := [
  (0x2498f, 0xfc, 0x6f), (0x24994, 0x92, 0x46), (0x249a4, 0xfa, 0x6d), (0x249a7, 0x8e, 0xf7),
  (0x249a9, 0xfb, 0xb7), (0x249ab, 0x94, 0x7c), (0x249ac, 0x92, 0xcd), (0x249ad, 0x97, 0xb2),
  (0x249b7, 0xfe, 0x65), (0x249b8, 0x96, 0x7e), (0x249b9, 0x97, 0x58), (0x249ba, 0x9b, 0x77),
  (0x249bb, 0x91, 0xcf), (0x249c5, 0x94, 0xa4), (0x249d0, 0x9c, 0xad), (0x249da, 0x8b, 0xab),
  (0x249de, 0x96, 0xd5), (0x249df, 0xfc, 0xb3), (0x249e3, 0x93, 0xae), (0x249e5, 0x97, 0x6d),
  (0x249ec, 0x94, 0x46), (0x249ed, 0x95, 0xf7), (0x249f6, 0x9c, 0x46), (0x249f7, 0x95, 0x5b),
  (0x249f8, 0x91, 0xd1), (0x249f9, 0x94, 0xf4), (0x249fb, 0xfe, 0x67), (0x24a0e, 0x92, 0xa5),
  (0x24a12, 0xfe, 0xdf), (0x24a13, 0x8c, 0xab), (0x24a15, 0x9b, 0xc9), (0x24a21, 0xfc, 0xed),
  (0x24a22, 0xfd, 0xfa), (0x24a23, 0xfc, 0xc8), (0x24a24, 0xfe, 0x62), (0x24a25, 0x91, 0xfc),
  (0x24a26, 0xfe, 0x6b), (0x24a27, 0xfd, 0xf9), (0x24a28, 0xfc, 0xc7), (0x24a29, 0x91, 0x4e),
  (0x24a2a, 0x9c, 0xb8), (0x24a3e, 0x97, 0x67), (0x24a42, 0x95, 0xee), (0x24a45, 0x9b, 0xb2),
  (0x24a4a, 0x94, 0x60), (0x24a4e, 0x94, 0xa2), (0x24a4f, 0x98, 0x75), (0x24a50, 0x97, 0xac),
  (0x24a51, 0x91, 0xd3), (0x24a5d, 0x98, 0x7b), (0x24a65, 0x8e, 0xeb), (0x24a66, 0x97, 0x6a),
  (0x24a67, 0x96, 0x5e), (0x24a71, 0x97, 0xeb), (0x24a77, 0x9f, 0xf9), (0x24a78, 0x95, 0xf8),
  (0x24a79, 0xfe, 0xa2), (0x24a7a, 0x8f, 0xe6), (0x24a8c, 0xfe, 0x7e), (0x24a93, 0x9d, 0xa4),
  (0x24a94, 0x97, 0x68), (0x24a95, 0x8e, 0xec), (0x24a96, 0x94, 0xbd), (0x24aa4, 0x94, 0x5b),
  (0x24aa5, 0x9c, 0xf6), (0x24aa6, 0xfa, 0xa7), (0x24aa7, 0x9b, 0xd9), (0x24ab1, 0xfa, 0x5d),
  (0x24ab2, 0x96, 0x56), (0x24ab3, 0x97, 0x62), (0x24aba, 0x94, 0xba), (0x24abb, 0xa0, 0x4f),
  (0x24abc, 0x92, 0xd8), (0x24ac0, 0x9b, 0xcb), (0x24ac7, 0x94, 0xbb), (0x24aca, 0x9d, 0x5f),
  (0x24ad1, 0x90, 0xcf), (0x24adf, 0x94, 0x65), (0x24ae2, 0x9f, 0x4c), (0x24ae9, 0x90, 0xd8),
  (0x24b0f, 0x8d, 0x5b), (0x24b6e, 0x9e, 0xbe), (0x24bf5, 0xfb, 0x6d), (0x24c09, 0x95, 0xca),
  (0x24c9e, 0x9d, 0xc2), (0x24c9f, 0x97, 0xf8), (0x24cc9, 0x8f, 0xfc), (0x24cd9, 0x94, 0x73),
  (0x24d06, 0x94, 0x74), (0x24d13, 0xfe, 0xb7), (0x24db8, 0x8a, 0x4b), (0x24dea, 0x8a, 0x55),
  (0x24deb, 0x8b, 0x69), (0x24e3b, 0x8a, 0xdc), (0x24e50, 0x8b, 0x76), (0x24ea5, 0x9b, 0xce),
  (0x24ea7, 0x8a, 0x68), (0x24f0e, 0xa0, 0xf8), (0x24f5c, 0x98, 0xdf), (0x24f82, 0xfe, 0xb5),
  (0x24f86, 0x9b, 0xcf), (0x24f97, 0x96, 0xfb), (0x24f9a, 0x9b, 0xfb), (0x24fa9, 0x9e, 0xce),
  (0x24fb8, 0x8e, 0xe5), (0x24fc2, 0x9e, 0x7b), (0x2502c, 0x9b, 0xd2), (0x25052, 0x8a, 0xa5),
  (0x2509d, 0xfe, 0xce), (0x2512b, 0x8a, 0x45), (0x25148, 0x9d, 0xfc), (0x2517d, 0xfe, 0xcf),
  (0x2517e, 0x8b, 0xa5), (0x251cd, 0x8c, 0x4a), (0x251e3, 0x8a, 0xec), (0x251e6, 0xfc, 0xe0),
  (0x251e7, 0x94, 0xad), (0x25220, 0xfe, 0xd5), (0x25221, 0x94, 0xac), (0x25250, 0xfc, 0x5a),
  (0x25299, 0x9b, 0xd6), (0x252c7, 0x8a, 0x6f), (0x252d8, 0x8b, 0xa9), (0x2530e, 0x8e, 0x5f),
  (0x25311, 0x9d, 0xcb), (0x25313, 0xfc, 0xe7), (0x25419, 0x9b, 0xd7), (0x25425, 0x93, 0xc8)]

/-- `ENCODE_TABLE[17792..17920]`, (code point, byte 0, byte 1).  src/generated/whatwg/big5_whatwg_tables.rs.inc:8411-8454 -/
def encRow139 : List (Nat × Nat × Nat) := [
  (0x2542f, 0x91, 0xf0), (0x25430, 0x8f, 0xe0), (0x25446, 0x9b, 0xdb), (0x2546c, 0x90, 0xed),
  (0x2546e, 0x9b, 0xdc), (0x2549a, 0x8d, 0x53), (0x25531, 0xa0, 0xec), (0x25535, 0x98, 0xfa),
  (0x2553f, 0x9b, 0xe0), (0x2555b, 0x93, 0xc7), (0x2555c, 0x92, 0x49), (0x2555d, 0x96, 0xe1),
  (0x2555e, 0x9b, 0xe2), (0x25562, 0x9b, 0xe4), (0x25565, 0x8f, 0xe1), (0x25566, 0x9b, 0xe5),
  (0x25581, 0x94, 0xc0), (0x25584, 0x93, 0xc3), (0x2558f, 0x93, 0xc5), (0x255b9, 0x90, 0x79),
  (0x255d5, 0x97, 0x7b), (0x255db, 0x90, 0x7e), (0x255e0, 0xfe, 0xe6), (0x25605, 0xfe, 0x46),
  (0x25635, 0x9d, 0xb8), (0x25651, 0x92, 0x70), (0x25683, 0x95, 0xa8), (0x25695, 0x8c, 0xb0),
  (0x256e3, 0x94, 0xc8), (0x256f6, 0x98, 0xb9), (0x25706, 0x91, 0x40), (0x2571d, 0xfc, 0xbe),
  (0x25725, 0x91, 0x57), (0x2573d, 0x8b, 0xb2), (0x25772, 0xfa, 0xdf), (0x257c7, 0x9b, 0xe6),
  (0x257df, 0x96, 0x43), (0x257e0, 0x8e, 0x44), (0x257e1, 0x9c, 0x4f), (0x25857, 0xfe, 0xf4),
  (0x2585d, 0x9b, 0xe8), (0x25872, 0x93, 0xdc), (0x258c8, 0x96, 0x6f), (0x258de, 0x87, 0xa1),
  (0x258e1, 0x8e, 0x4a), (0x25903, 0x9b, 0xed), (0x25946, 0x92, 0xf6), (0x25956, 0x9d, 0xb9),
  (0x259ac, 0x8e, 0x4e), (0x259cc, 0xfb, 0xcf), (0x25a54, 0x87, 0x60), (0x25a95, 0x9e, 0xc2),
  (0x25a9c, 0x94, 0xe5), (0x25aae, 0x9b, 0xf0), (0x25aaf, 0x94, 0xe4), (0x25ae9, 0x95, 0x51),
  (0x25b74, 0x8b, 0xbb), (0x25b89, 0x9b, 0xf1), (0x25bb3, 0x94, 0xf0), (0x25bb4, 0x8e, 0x64),
  (0x25bc6, 0x94, 0xea), (0x25be4, 0x8f, 0x61), (0x25be8, 0x9b, 0x64), (0x25c01, 0x8e, 0x5b),
  (0x25c06, 0x9b, 0xf2), (0x25c21, 0x9f, 0xbe), (0x25c4a, 0x9d, 0xc9), (0x25c65, 0x8e, 0x6c),
  (0x25c91, 0x8f, 0x73), (0x25ca4, 0x8c, 0xaf), (0x25cc0, 0x8f, 0x75), (0x25cc1, 0x8e, 0x71),
  (0x25cfe, 0x8e, 0x60), (0x25d20, 0x8e, 0x6a), (0x25d30, 0x8c, 0x4c), (0x25d43, 0x95, 0x52),
  (0x25d99, 0x87, 0xcf), (0x25db9, 0x87, 0xc0), (0x25e0e, 0x95, 0x54), (0x25e49, 0x8a, 0xd4),
  (0x25e81, 0x9d, 0xbb), (0x25e82, 0x95, 0x43), (0x25e83, 0x92, 0xfe), (0x25ea6, 0x94, 0xf2),
  (0x25ebc, 0x94, 0xf1), (0x25ed7, 0xa0, 0xea), (0x25ed8, 0x9d, 0xd2), (0x25f1a, 0xa0, 0xb1),
  (0x25f4b, 0x91, 0xf8), (0x25fe1, 0x94, 0x62), (0x25fe2, 0x9b, 0xa4), (0x26021, 0x87, 0x7d),
  (0x26029, 0x8e, 0xad), (0x26048, 0x9e, 0xad), (0x26064, 0x96, 0xd0), (0x26083, 0xfe, 0xee),
  (0x26097, 0x8a, 0xb4), (0x260a4, 0x97, 0x57), (0x260a5, 0x8a, 0x77), (0x26102, 0x9b, 0xf7),
  (0x26121, 0x8e, 0xb5), (0x26159, 0xa0, 0x6d), (0x2615a, 0x8e, 0xb6), (0x2615b, 0x97, 0x56),
  (0x2615c, 0x95, 0x40), (0x261ad, 0xa0, 0xf3), (0x261ae, 0x94, 0xbe), (0x261b2, 0x9b, 0xfa),
  (0x261dd, 0xfd, 0xdf), (0x26258, 0x9d, 0xbc), (0x26261, 0x94, 0xfe), (0x2626a, 0x8b, 0xdb),
  (0x2626b, 0xa0, 0xfe), (0x262d0, 0x8e, 0xc0), (0x26335, 0x9f, 0x47), (0x2634b, 0x8b, 0xde),
  (0x2634c, 0xa0, 0xfb), (0x26351, 0x8e, 0xc3), (0x263be, 0x96, 0x49), (0x263f5, 0xfe, 0xc2),
  (0x263f8, 0x95, 0x4c), (0x26402, 0x9b, 0xfd), (0x26410, 0x90, 0xcc), (0x26411, 0x9c, 0x60),
  (0x26412, 0x95, 0x4b), (0x2644a, 0x9b, 0xfe), (0x26469, 0x9c, 0x70), (0x26484, 0x9c, 0x43)]

/-- `ENCODE_TABLE[17920..18048]`, (code point, byte 0, byte 1).  src/generated/whatwg/big5_whatwg_tables.rs.inc:8454-8496 -/
def encRow140 : List (Nat × Nat × Nat) := [
  (0x26488, 0x9c, 0x47), (0x26489, 0x8e, 0xcc), (0x2648d, 0x8e, 0x54), (0x26498, 0x8e, 0xe4),
  (0x26512, 0x9c, 0x49), (0x26572, 0x8b, 0x5e), (0x265a0, 0x95, 0x5e), (0x265ad, 0x95, 0x5c),
  (0x265bf, 0x9c, 0x4b), (0x26612, 0x8b, 0xe1), (0x26626, 0x8e, 0xd9), (0x266af, 0x9d, 0xb4),
  (0x266b1, 0x92, 0x5f), (0x266b5, 0x9c, 0x4c), (0x266da, 0x8a, 0xa1), (0x266e8, 0x8e, 0xdb),
  (0x266fc, 0x9c, 0x56), (0x26716, 0x8a, 0xa2), (0x26741, 0x97, 0x54), (0x26799, 0x9c, 0x5e),
  (0x267b3, 0x9e, 0xd4), (0x267b4, 0x95, 0x68), (0x267cc, 0xa0, 0xc3), (0x2681c, 0x8a, 0xe6),
  (0x26846, 0xa0, 0xf7), (0x2685e, 0x9c, 0x61), (0x2686e, 0x9c, 0x5f), (0x26888, 0xfc, 0x4d),
  (0x2688a, 0x9e, 0x5b), (0x26893, 0x9e, 0x69), (0x268c7, 0x9c, 0x63), (0x2690e, 0xfe, 0xc7),
  (0x26911, 0xfe, 0xc6), (0x26926, 0x9c, 0x67), (0x26939, 0x9c, 0x69), (0x26951, 0x8b, 0xe2),
  (0x269a8, 0x91, 0x65), (0x269b5, 0x9c, 0xe7), (0x269f2, 0x8a, 0x54), (0x269fa, 0x9c, 0x6c),
  (0x26a2d, 0x9c, 0x6e), (0x26a2e, 0xfe, 0x5d), (0x26a34, 0x9c, 0x73), (0x26a42, 0x95, 0x6a),
  (0x26a51, 0x95, 0x6d), (0x26a52, 0x8e, 0xf0), (0x26b05, 0x8f, 0x4d), (0x26b0a, 0x8e, 0xf6),
  (0x26b13, 0xfa, 0xbc), (0x26b15, 0x8c, 0xd5), (0x26b23, 0x87, 0x5e), (0x26b28, 0xfb, 0xda),
  (0x26b50, 0x8b, 0x4c), (0x26b51, 0xfd, 0x75), (0x26b52, 0x9b, 0xdd), (0x26b53, 0xfa, 0xf5),
  (0x26b5b, 0x9c, 0x74), (0x26b75, 0x95, 0x45), (0x26b82, 0x96, 0xc6), (0x26b96, 0x8f, 0x6a),
  (0x26b97, 0x8f, 0x4e), (0x26b9d, 0x9c, 0x78), (0x26bb3, 0xfa, 0x55), (0x26bc0, 0x97, 0xe4),
  (0x26bf7, 0x9c, 0x41), (0x26c21, 0x92, 0x5c), (0x26c40, 0x96, 0xfa), (0x26c41, 0x8c, 0xf6),
  (0x26c46, 0x8d, 0x4d), (0x26c7e, 0xfb, 0x66), (0x26c7f, 0x8e, 0x65), (0x26c80, 0x98, 0x49),
  (0x26c81, 0xfb, 0xa8), (0x26c82, 0x98, 0x42), (0x26ca4, 0x9c, 0x7a), (0x26cb7, 0x97, 0xfb),
  (0x26cb8, 0x90, 0xca), (0x26cbd, 0x9c, 0x5b), (0x26cc0, 0x97, 0x4d), (0x26cc3, 0x8e, 0xd3),
  (0x26cd1, 0x95, 0x61), (0x26d22, 0x9f, 0x4b), (0x26d23, 0x9f, 0xb5), (0x26d24, 0x93, 0xd2),
  (0x26d25, 0xfd, 0xaa), (0x26d26, 0x98, 0x40), (0x26d27, 0x91, 0x46), (0x26d28, 0x98, 0x67),
  (0x26d29, 0xfa, 0x5a), (0x26d2a, 0xfb, 0xa9), (0x26d51, 0x98, 0x41), (0x26d74, 0x8c, 0xd3),
  (0x26da0, 0xfc, 0xfd), (0x26da1, 0xfd, 0xab), (0x26da2, 0x91, 0xbd), (0x26da3, 0x8f, 0x4c),
  (0x26da4, 0x96, 0xc9), (0x26da5, 0x8f, 0x55), (0x26da6, 0xfb, 0xae), (0x26da7, 0x95, 0x6f),
  (0x26dae, 0x9c, 0x7d), (0x26ddc, 0xa0, 0xf0), (0x26dea, 0x94, 0x6f), (0x26deb, 0xfd, 0xac),
  (0x26df0, 0x96, 0xcb), (0x26e00, 0x96, 0xce), (0x26e05, 0xa0, 0x56), (0x26e07, 0x9c, 0xe1),
  (0x26e12, 0x96, 0xc4), (0x26e42, 0x8f, 0x5e), (0x26e43, 0x8f, 0x6c), (0x26e44, 0x8e, 0xa3),
  (0x26e45, 0xfb, 0xb3), (0x26e6e, 0xfc, 0x53), (0x26e72, 0xfd, 0xb3), (0x26e77, 0x8f, 0x6b),
  (0x26e84, 0x96, 0xca), (0x26e88, 0x87, 0xcd), (0x26e8b, 0x87, 0x53), (0x26e99, 0x8f, 0x79),
  (0x26ed0, 0x9e, 0x6f), (0x26ed1, 0xa0, 0xc5), (0x26ed2, 0xfc, 0x78), (0x26ed3, 0x8e, 0x42),
  (0x26ed4, 0x8f, 0x5a), (0x26ed5, 0x90, 0xc2), (0x26ed6, 0x8e, 0xa5), (0x26ed7, 0x90, 0x61)]

/-- `ENCODE_TABLE[18048..18176]`, (code point, byte 0, byte 1).  src/generated/whatwg/big5_whatwg_tables.rs.inc:8497-8539 -/
def encRow141 : List (Nat × Nat × Nat) := [
  (0x26f26, 0x92, 0x4f), (0x26f73, 0x93, 0x73), (0x26f74, 0xfd, 0xb5), (0x26f9f, 0xfe, 0xcc),
  (0x26fa1, 0xfb, 0xbd), (0x26fbe, 0x8c, 0xd6), (0x26fde, 0x98, 0x43), (0x26fdf, 0x96, 0xc5),
  (0x2700e, 0x89, 0xbc), (0x2704b, 0x9c, 0xa3), (0x27052, 0x92, 0x4b), (0x27053, 0x98, 0x4a),
  (0x27088, 0x8f, 0xa4), (0x270ad, 0xa0, 0xf1), (0x270ae, 0x9e, 0xfb), (0x270af, 0x9c, 0xd2),
  (0x270cd, 0x8f, 0xa7), (0x270d2, 0x87, 0x54), (0x270f8, 0xfc, 0x5c), (0x27109, 0x98, 0x45),
  (0x2710c, 0x90, 0x46), (0x2710d, 0x8c, 0xd1), (0x27126, 0xfe, 0xfa), (0x27127, 0x95, 0x60),
  (0x27164, 0x9f, 0x48), (0x27165, 0x92, 0x47), (0x27175, 0x90, 0xfb), (0x271cd, 0x9c, 0xa4),
  (0x2721b, 0x95, 0x71), (0x27267, 0x87, 0x45), (0x27280, 0x9c, 0xa6), (0x27285, 0x9c, 0xa7),
  (0x2728b, 0x9c, 0xaa), (0x272b2, 0x9e, 0xd3), (0x272b6, 0x9e, 0x70), (0x272e6, 0x9c, 0xac),
  (0x27352, 0x87, 0x52), (0x2739a, 0x8f, 0xae), (0x273ff, 0x8d, 0x50), (0x27422, 0x95, 0x7d),
  (0x27450, 0x9c, 0xb0), (0x27484, 0x97, 0xb6), (0x27486, 0xa0, 0xbd), (0x27574, 0x8a, 0xdf),
  (0x275a3, 0x9e, 0xaa), (0x275e0, 0x8f, 0xbd), (0x275e4, 0x8f, 0xbf), (0x275fd, 0x93, 0x69),
  (0x275fe, 0x9b, 0xa7), (0x27607, 0xc8, 0xa4), (0x2760c, 0xfe, 0xea), (0x27632, 0x9b, 0xe1),
  (0x27639, 0x8b, 0x41), (0x27655, 0x9d, 0xb6), (0x27656, 0xa0, 0xeb), (0x27657, 0x9b, 0xa3),
  (0x27694, 0x8b, 0xa1), (0x2770f, 0x8f, 0xc8), (0x27735, 0x89, 0x4c), (0x27736, 0x98, 0x60),
  (0x27741, 0x94, 0xc7), (0x2775e, 0x8b, 0x58), (0x27784, 0x95, 0xab), (0x27785, 0x95, 0xaa),
  (0x277cc, 0x9c, 0xc3), (0x27858, 0x9c, 0xc4), (0x27870, 0x93, 0xd6), (0x2789d, 0x9d, 0xac),
  (0x278b2, 0x8b, 0xe6), (0x278c8, 0x8a, 0x71), (0x27924, 0x8f, 0xd1), (0x27967, 0x99, 0xd5),
  (0x2797a, 0x90, 0xf4), (0x279a0, 0x8a, 0xa3), (0x279dd, 0x9c, 0xce), (0x279fd, 0x9c, 0xd4),
  (0x27a0a, 0x9c, 0xd5), (0x27a0e, 0xfb, 0xc8), (0x27a3e, 0x9d, 0xb3), (0x27a53, 0xfc, 0x70),
  (0x27a59, 0x8f, 0xd7), (0x27a79, 0x9b, 0x73), (0x27a84, 0xfa, 0x5b), (0x27abd, 0x8f, 0xd2),
  (0x27abe, 0x90, 0x64), (0x27af4, 0x98, 0xb6), (0x27b06, 0x96, 0x68), (0x27b0b, 0x9c, 0xd6),
  (0x27b18, 0x98, 0xbd), (0x27b38, 0x8f, 0xdc), (0x27b39, 0xfe, 0xf6), (0x27b3a, 0x8f, 0xd9),
  (0x27b48, 0x95, 0x41), (0x27b65, 0x87, 0xca), (0x27bef, 0x87, 0x6c), (0x27bf4, 0x97, 0xf3),
  (0x27c12, 0x9b, 0xf8), (0x27c6c, 0x87, 0x5a), (0x27cb1, 0x87, 0x48), (0x27cc5, 0x87, 0x4a),
  (0x27d2f, 0x9e, 0x6c), (0x27d53, 0x8f, 0xf2), (0x27d54, 0x8f, 0xee), (0x27d66, 0x9c, 0xd7),
  (0x27d73, 0x9e, 0x6e), (0x27d84, 0x8a, 0x40), (0x27d8f, 0x8f, 0xef), (0x27d98, 0x8f, 0xf4),
  (0x27dbd, 0x8f, 0xf5), (0x27ddc, 0x95, 0xc2), (0x27e4d, 0x98, 0x6a), (0x27e4f, 0x97, 0xcf),
  (0x27f2e, 0x9e, 0xe5), (0x27ff9, 0x9e, 0x7c), (0x28002, 0x90, 0x41), (0x28009, 0x9c, 0xdb),
  (0x2801e, 0x94, 0x41), (0x28023, 0x9c, 0xe6), (0x28024, 0x9d, 0xb0), (0x28048, 0x9c, 0xea),
  (0x28083, 0x9c, 0xed), (0x28090, 0x9c, 0xfa), (0x280bd, 0x8b, 0x62), (0x280be, 0x8a, 0x4e),
  (0x280e8, 0x9c, 0xca), (0x280e9, 0x8a, 0x66), (0x280f4, 0x9c, 0xfb), (0x2812e, 0x9c, 0xfc)]

/-- `ENCODE_TABLE[18176..18304]`, (code point, byte 0, byte 1).  src/generated/whatwg/big5_whatwg_tables.rs.inc:8539-8582 -/
def encRow142 : List (Nat × Nat × Nat) := [
  (0x2814f, 0x9c, 0xfe), (0x2815d, 0x8a, 0x53), (0x2816f, 0x9c, 0xe5), (0x28189, 0x9d, 0x40),
  (0x281af, 0x9d, 0x41), (0x281bc, 0x90, 0x45), (0x28207, 0x8b, 0x73), (0x28218, 0x97, 0xca),
  (0x2821a, 0x9d, 0x42), (0x28256, 0x8a, 0x61), (0x2827c, 0x8b, 0xae), (0x2829b, 0x8a, 0xd2),
  (0x282cd, 0x8b, 0xa2), (0x282e2, 0x9d, 0xf2), (0x28306, 0x9d, 0x43), (0x28318, 0x9c, 0xdf),
  (0x2832f, 0x9d, 0x44), (0x2833a, 0x8e, 0xca), (0x28365, 0x90, 0x4e), (0x2836d, 0x8e, 0xb3),
  (0x2837d, 0x9f, 0xf5), (0x2838a, 0x9d, 0x45), (0x28412, 0x90, 0x4f), (0x28468, 0x9d, 0x47),
  (0x2846c, 0x89, 0xca), (0x28473, 0x9c, 0xb5), (0x28482, 0xfb, 0xfe), (0x28501, 0x90, 0x5e),
  (0x2853c, 0x90, 0x63), (0x2853d, 0x90, 0x57), (0x2856c, 0x90, 0x66), (0x285e8, 0x9b, 0xc0),
  (0x285f4, 0xfc, 0xe5), (0x28600, 0x91, 0x62), (0x2860b, 0x90, 0x67), (0x28625, 0x8f, 0xa1),
  (0x2863b, 0x8f, 0xa2), (0x286aa, 0x9d, 0x48), (0x286ab, 0xfa, 0xd3), (0x286b2, 0x8d, 0x4f),
  (0x286bc, 0x90, 0x5d), (0x286d8, 0x90, 0xb9), (0x286e6, 0x90, 0x6b), (0x2870f, 0x8c, 0x5c),
  (0x28713, 0x90, 0x69), (0x28804, 0xfe, 0x57), (0x2882b, 0xfe, 0x55), (0x2890d, 0x87, 0xa6),
  (0x28933, 0x90, 0x73), (0x28948, 0x9b, 0xef), (0x28949, 0x9c, 0xf0), (0x28956, 0x9d, 0x4b),
  (0x28964, 0xfe, 0xd9), (0x28968, 0xfe, 0xda), (0x2896c, 0x91, 0xe0), (0x2896d, 0x8d, 0x43),
  (0x2897e, 0x91, 0xd8), (0x28989, 0x96, 0x46), (0x289a8, 0x93, 0x60), (0x289aa, 0xfa, 0x53),
  (0x289ab, 0x9c, 0xd3), (0x289b8, 0x9d, 0x4e), (0x289bc, 0xfb, 0x40), (0x289c0, 0x8d, 0xe2),
  (0x289dc, 0x94, 0x42), (0x289de, 0x90, 0x56), (0x289e1, 0x98, 0x65), (0x289e3, 0x8c, 0x6c),
  (0x289e4, 0xfa, 0x4a), (0x289e7, 0x9d, 0x50), (0x289e8, 0x9d, 0x52), (0x289f9, 0x95, 0xaf),
  (0x289fa, 0x97, 0x5a), (0x289fb, 0x93, 0x49), (0x289fc, 0x97, 0x47), (0x28a0f, 0xa0, 0xf4),
  (0x28a16, 0x97, 0x78), (0x28a25, 0x8f, 0xcf), (0x28a29, 0xfc, 0x60), (0x28a32, 0x8c, 0x4e),
  (0x28a36, 0xfc, 0x56), (0x28a44, 0x91, 0xdc), (0x28a45, 0x96, 0x61), (0x28a46, 0x92, 0xec),
  (0x28a47, 0x93, 0x5d), (0x28a48, 0x8e, 0xde), (0x28a49, 0x96, 0xfe), (0x28a4a, 0xfd, 0x4f),
  (0x28a4b, 0x95, 0xde), (0x28a59, 0x98, 0xb0), (0x28a5a, 0xa0, 0x40), (0x28a81, 0x97, 0xbd),
  (0x28a82, 0x97, 0x7d), (0x28a83, 0x97, 0xf5), (0x28a9a, 0x9b, 0xac), (0x28a9b, 0xfa, 0xda),
  (0x28a9c, 0x92, 0xc2), (0x28ac0, 0x97, 0xb1), (0x28ac6, 0x90, 0x7b), (0x28acb, 0x93, 0xfe),
  (0x28acc, 0x94, 0x7b), (0x28ace, 0x97, 0x77), (0x28ade, 0xfa, 0xbe), (0x28adf, 0xfd, 0x43),
  (0x28ae0, 0x90, 0xc6), (0x28ae1, 0x90, 0xa4), (0x28ae2, 0x90, 0xa8), (0x28ae3, 0x94, 0xa9),
  (0x28ae5, 0x90, 0xa9), (0x28aea, 0x8c, 0x65), (0x28afc, 0x95, 0xe0), (0x28b0c, 0x90, 0x7d),
  (0x28b13, 0x92, 0x65), (0x28b21, 0xfd, 0xba), (0x28b22, 0x93, 0xc4), (0x28b2b, 0xfe, 0xed),
  (0x28b2c, 0x9d, 0xab), (0x28b2d, 0xa0, 0xe3), (0x28b2f, 0x96, 0x48), (0x28b46, 0x9d, 0x53),
  (0x28b4c, 0x8a, 0xa9), (0x28b4e, 0x9b, 0xc5), (0x28b50, 0x96, 0x5d), (0x28b63, 0x97, 0x5f),
  (0x28b64, 0x96, 0x5f), (0x28b65, 0x96, 0x6e), (0x28b66, 0xfb, 0x5d), (0x28b6c, 0x9d, 0xb1)]

/-- `ENCODE_TABLE[18304..18432]`, (code point, byte 0, byte 1).  src/generated/whatwg/big5_whatwg_tables.rs.inc:8582-8624 -/
def encRow143 : List (Nat × Nat × Nat) := [
  (0x28b8f, 0xfe, 0xa3), (0x28b99, 0x9d, 0xb2), (0x28b9c, 0x95, 0xae), (0x28b9d, 0xfc, 0xa3),
  (0x28bb9, 0x87, 0x69), (0x28bc2, 0xa0, 0xa2), (0x28bc5, 0x96, 0x55), (0x28bd4, 0x9d, 0x54),
  (0x28bd7, 0x93, 0x41), (0x28bd9, 0x95, 0xad), (0x28bda, 0x91, 0xd5), (0x28be7, 0x97, 0x7a),
  (0x28be8, 0xfd, 0xfc), (0x28be9, 0x8e, 0x47), (0x28bea, 0x93, 0xfd), (0x28beb, 0x90, 0xa5),
  (0x28bec, 0x90, 0xac), (0x28bf5, 0x95, 0xac), (0x28bff, 0x90, 0xae), (0x28c03, 0xfe, 0xa5),
  (0x28c09, 0x9d, 0x56), (0x28c1c, 0x97, 0xe3), (0x28c1d, 0x95, 0xe2), (0x28c23, 0x94, 0x66),
  (0x28c26, 0x96, 0x47), (0x28c2b, 0x91, 0xb8), (0x28c30, 0x9c, 0xec), (0x28c39, 0x90, 0xad),
  (0x28c3b, 0x95, 0xe3), (0x28cca, 0x8b, 0x4f), (0x28ccd, 0x8a, 0xe3), (0x28cd2, 0x8b, 0x4d),
  (0x28d34, 0x95, 0xea), (0x28d99, 0x8b, 0x4e), (0x28db9, 0x8c, 0xc1), (0x28e0f, 0x8b, 0xed),
  (0x28e36, 0x91, 0xd9), (0x28e39, 0xa0, 0xa4), (0x28e65, 0x95, 0xf5), (0x28e66, 0x95, 0xf4),
  (0x28e97, 0x9f, 0xb3), (0x28eac, 0xfe, 0xaf), (0x28eb2, 0xfe, 0x72), (0x28eb3, 0x92, 0x7a),
  (0x28ed9, 0xfe, 0xac), (0x28ee7, 0x95, 0xf3), (0x28fc5, 0x9d, 0x58), (0x29079, 0x8d, 0x46),
  (0x29088, 0x93, 0x72), (0x2908b, 0x91, 0xc5), (0x29093, 0x96, 0x42), (0x290af, 0x90, 0xcd),
  (0x290b0, 0x95, 0xfe), (0x290b1, 0x91, 0x59), (0x290c0, 0x9c, 0x65), (0x290e4, 0x97, 0xcc),
  (0x290e5, 0x90, 0xce), (0x290ec, 0x9d, 0x59), (0x290ed, 0xfc, 0xf5), (0x2910d, 0xfe, 0xfd),
  (0x29110, 0x9d, 0x5b), (0x2913c, 0x9d, 0x5c), (0x2914d, 0x93, 0x7e), (0x2915b, 0x98, 0xac),
  (0x2915e, 0x9d, 0x5e), (0x29170, 0xfd, 0xd0), (0x2919c, 0xfd, 0x60), (0x291a8, 0x9c, 0xcf),
  (0x291d5, 0x90, 0xdd), (0x291eb, 0x90, 0xe0), (0x2941d, 0x90, 0xf3), (0x29420, 0x98, 0xb1),
  (0x29433, 0x90, 0xf0), (0x2943f, 0x93, 0xbd), (0x29448, 0x95, 0xb7), (0x294d0, 0x9f, 0x46),
  (0x294d9, 0x8e, 0x4b), (0x294da, 0x96, 0x58), (0x294e5, 0x8a, 0x4c), (0x294e7, 0x9d, 0x63),
  (0x2959e, 0x9e, 0xcf), (0x295b0, 0x9d, 0x65), (0x295b8, 0x9d, 0x66), (0x295d7, 0x96, 0x5a),
  (0x295e9, 0x9d, 0x64), (0x295f4, 0x8a, 0x6c), (0x29720, 0x8a, 0xd9), (0x29732, 0x9d, 0x67),
  (0x297d4, 0x8a, 0x70), (0x29810, 0x8b, 0xf3), (0x29857, 0x91, 0x50), (0x298a4, 0x9c, 0xc1),
  (0x298d1, 0x9d, 0x68), (0x298ea, 0x93, 0xa7), (0x298f1, 0x96, 0x74), (0x298fa, 0x8c, 0xfd),
  (0x29903, 0xa0, 0xef), (0x29905, 0x91, 0x51), (0x2992f, 0x96, 0xc1), (0x29945, 0x87, 0x77),
  (0x29947, 0x8c, 0x64), (0x29948, 0x96, 0x76), (0x29949, 0x9d, 0x69), (0x2995d, 0xfc, 0xa4),
  (0x2996a, 0x9d, 0x6a), (0x2999d, 0x92, 0x4e), (0x299c3, 0x9d, 0x6b), (0x299c9, 0x9b, 0xc1),
  (0x29a28, 0x9d, 0x6c), (0x29a4d, 0x8a, 0x65), (0x29b05, 0x91, 0x5d), (0x29b0e, 0x9d, 0x6d),
  (0x29bd5, 0x91, 0x5a), (0x29c73, 0x8c, 0x42), (0x29cad, 0x9c, 0xc0), (0x29d3e, 0x91, 0x6a),
  (0x29d5a, 0x9d, 0x6e), (0x29d7c, 0x9e, 0xa6), (0x29d98, 0x9d, 0xcd), (0x29d9b, 0x9d, 0x6f),
  (0x29df6, 0x89, 0xbb), (0x29e06, 0x9e, 0xf9), (0x29e2d, 0x96, 0xb4), (0x29e68, 0x91, 0x72),
  (0x29eac, 0x9e, 0xc8), (0x29eb0, 0x87, 0x71), (0x29ec3, 0x8b, 0x55), (0x29ef8, 0x9d, 0x71)]

/-- `ENCODE_TABLE[18432..18490]`, (code point, byte 0, byte 1).  src/generated/whatwg/big5_whatwg_tables.rs.inc:8625-8644 -/
def encRow144 : List (Nat × Nat × Nat) := [
  (0x29f23, 0x9d, 0x72), (0x29f30, 0x9e, 0xcc), (0x29fb7, 0x91, 0x74), (0x29fde, 0x9e, 0xd0),
  (0x2a014, 0x90, 0x5c), (0x2a087, 0x8e, 0xd2), (0x2a0b9, 0x91, 0xa8), (0x2a0e1, 0x91, 0x77),
  (0x2a0ed, 0x96, 0xbf), (0x2a0f3, 0x96, 0xc0), (0x2a0f8, 0x8f, 0xb1), (0x2a0fe, 0x96, 0xb7),
  (0x2a107, 0x8c, 0x55), (0x2a123, 0x91, 0x78), (0x2a133, 0x89, 0xbe), (0x2a134, 0x91, 0x7c),
  (0x2a150, 0xfb, 0x77), (0x2a192, 0x91, 0x75), (0x2a193, 0x91, 0xa3), (0x2a1ab, 0x91, 0x76),
  (0x2a1b4, 0x96, 0xbe), (0x2a1b5, 0x8d, 0x49), (0x2a1df, 0x91, 0x79), (0x2a1f5, 0x96, 0xb6),
  (0x2a220, 0x91, 0xa4), (0x2a233, 0x91, 0xa6), (0x2a293, 0x9d, 0x75), (0x2a29f, 0x90, 0x52),
  (0x2a2b2, 0xa0, 0x45), (0x2a2b4, 0x91, 0xa9), (0x2a2b6, 0x98, 0xaa), (0x2a2ba, 0x8c, 0x5f),
  (0x2a2bd, 0x8b, 0xaa), (0x2a2df, 0x9c, 0xdd), (0x2a2ff, 0x9d, 0x77), (0x2a351, 0x87, 0x56),
  (0x2a3a9, 0x89, 0x40), (0x2a434, 0x9e, 0xec), (0x2a45b, 0x93, 0xaa), (0x2a5c6, 0x94, 0x78),
  (0x2a5cb, 0x9d, 0x7a), (0x2a601, 0x8a, 0xc9), (0x2a632, 0x8b, 0x4b), (0x2a64a, 0x9f, 0xec),
  (0x2a65b, 0x8a, 0xe2), (0x2a6a9, 0x9e, 0x75), (0x2adff, 0x87, 0xdc), (0x2f825, 0x98, 0x74),
  (0x2f83b, 0x9a, 0xc8), (0x2f840, 0xa0, 0x47), (0x2f878, 0x8b, 0xc3), (0x2f894, 0xfc, 0x48),
  (0x2f8a6, 0xfc, 0x77), (0x2f8cd, 0x9c, 0x52), (0x2f994, 0x8e, 0xfd), (0x2f9b2, 0x8f, 0xa8),
  (0x2f9bc, 0x95, 0x7a), (0x2f9d4, 0x8f, 0xf0)]

/-- Rows of `ENCODE_TABLE`, 128 entries each (the last may be shorter).  src/generated/whatwg/big5_whatwg_tables.rs.inc:2480-8645 -/
def encRows : List (List (Nat × Nat × Nat)) := [
  encRow0, encRow1, encRow2, encRow3, encRow4, encRow5, encRow6, encRow7, encRow8, encRow9,
  encRow10, encRow11, encRow12, encRow13, encRow14, encRow15, encRow16, encRow17, encRow18,
  encRow19, encRow20, encRow21, encRow22, encRow23, encRow24, encRow25, encRow26, encRow27,
  encRow28, encRow29, encRow30, encRow31, encRow32, encRow33, encRow34, encRow35, encRow36,
  encRow37, encRow38, encRow39, encRow40, encRow41, encRow42, encRow43, encRow44, encRow45,
  encRow46, encRow47, encRow48, encRow49, encRow50, encRow51, encRow52, encRow53, encRow54,
  encRow55, encRow56, encRow57, encRow58, encRow59, encRow60, encRow61, encRow62, encRow63,
  encRow64, encRow65, encRow66, encRow67, encRow68, encRow69, encRow70, encRow71, encRow72,
  encRow73, encRow74, encRow75, encRow76, encRow77, encRow78, encRow79, encRow80, encRow81,
  encRow82, encRow83, encRow84, encRow85, encRow86, encRow87, encRow88, encRow89, encRow90,
  encRow91, encRow92, encRow93, encRow94, encRow95, encRow96, encRow97, encRow98, encRow99,
  encRow100, encRow101, encRow102, encRow103, encRow104, encRow105, encRow106, encRow107,
  encRow108, encRow109, encRow110, encRow111, encRow112, encRow113, encRow114, encRow115,
  encRow116, encRow117, encRow118, encRow119, encRow120, encRow121, encRow122, encRow123,
  encRow124, encRow125, encRow126, encRow127, encRow128, encRow129, encRow130, encRow131,
  encRow132, encRow133, encRow134, encRow135, encRow136, encRow137, encRow138, encRow139,
  encRow140, encRow141, encRow142, encRow143, encRow144]

end Verif.Tables.Big5
