import Verif.Text

/-! Generated by tools/gen_files.py: verbatim copies of parts of files of /repo. -/

namespace Verif.Files.Big5

/-- src/generated/whatwg/big5_whatwg_tables.rs.inc:2481-2608 -/
noncomputable def encode0 : List Text := lines! r#"    ('\u{A7}', [0xA1, 0xB1]), ('\u{A8}', [0xC6, 0xD8]), ('\u{AF}', [0xA1, 0xC2]), 
    ('\u{B0}', [0xA2, 0x58]), ('\u{B1}', [0xA1, 0xD3]), ('\u{B7}', [0xA1, 0x50]), 
    ('\u{C0}', [0x88, 0x59]), ('\u{C1}', [0x88, 0x57]), ('\u{C8}', [0x88, 0x5D]), 
    ('\u{C9}', [0x88, 0x5B]), ('\u{CA}', [0x88, 0x66]), ('\u{D2}', [0x88, 0x61]), 
    ('\u{D3}', [0x88, 0x5F]), ('\u{D7}', [0xA1, 0xD1]), ('\u{E0}', [0x88, 0x6A]), 
    ('\u{E1}', [0x88, 0x68]), ('\u{E8}', [0x88, 0x6F]), ('\u{E9}', [0x88, 0x6D]), 
    ('\u{EA}', [0x88, 0xA7]), ('\u{EC}', [0x88, 0x73]), ('\u{ED}', [0x88, 0x71]), 
    ('\u{F2}', [0x88, 0x77]), ('\u{F3}', [0x88, 0x75]), ('\u{F7}', [0xA1, 0xD2]), 
    ('\u{F8}', [0xC8, 0xFB]), ('\u{F9}', [0x88, 0x7B]), ('\u{FA}', [0x88, 0x79]), 
    ('\u{FC}', [0x88, 0xA2]), ('\u{100}', [0x88, 0x56]), ('\u{101}', [0x88, 0x67]), 
    ('\u{112}', [0x88, 0x5A]), ('\u{113}', [0x88, 0x6C]), ('\u{11A}', [0x88, 0x5C]), 
    ('\u{11B}', [0x88, 0x6E]), ('\u{12B}', [0x88, 0x70]), ('\u{14B}', [0xC8, 0xFC]), 
    ('\u{14C}', [0x88, 0x5E]), ('\u{14D}', [0x88, 0x74]), ('\u{153}', [0xC8, 0xFA]), 
    ('\u{16B}', [0x88, 0x78]), ('\u{1CD}', [0x88, 0x58]), ('\u{1CE}', [0x88, 0x69]), 
    ('\u{1D0}', [0x88, 0x72]), ('\u{1D1}', [0x88, 0x60]), ('\u{1D2}', [0x88, 0x76]), 
    ('\u{1D4}', [0x88, 0x7A]), ('\u{1D6}', [0x88, 0x7C]), ('\u{1D8}', [0x88, 0x7D]), 
    ('\u{1DA}', [0x88, 0x7E]), ('\u{1DC}', [0x88, 0xA1]), ('\u{250}', [0xC8, 0xF6]), 
    ('\u{251}', [0x88, 0x6B]), ('\u{254}', [0xC8, 0xF8]), ('\u{25B}', [0xC8, 0xF7]), 
    ('\u{261}', [0x88, 0xA8]), ('\u{26A}', [0xC8, 0xFE]), ('\u{275}', [0xC8, 0xF9]), 
    ('\u{283}', [0xC8, 0xF5]), ('\u{28A}', [0xC8, 0xFD]), ('\u{2C6}', [0xC6, 0xD9]), 
    ('\u{2C7}', [0xA3, 0xBE]), ('\u{2C9}', [0xA3, 0xBC]), ('\u{2CA}', [0xA3, 0xBD]), 
    ('\u{2CB}', [0xA3, 0xBF]), ('\u{2CD}', [0xA1, 0xC5]), ('\u{2D9}', [0xA3, 0xBB]), 
    ('\u{391}', [0xA3, 0x44]), ('\u{392}', [0xA3, 0x45]), ('\u{393}', [0xA3, 0x46]), 
    ('\u{394}', [0xA3, 0x47]), ('\u{395}', [0xA3, 0x48]), ('\u{396}', [0xA3, 0x49]), 
    ('\u{397}', [0xA3, 0x4A]), ('\u{398}', [0xA3, 0x4B]), ('\u{399}', [0xA3, 0x4C]), 
    ('\u{39A}', [0xA3, 0x4D]), ('\u{39B}', [0xA3, 0x4E]), ('\u{39C}', [0xA3, 0x4F]), 
    ('\u{39D}', [0xA3, 0x50]), ('\u{39E}', [0xA3, 0x51]), ('\u{39F}', [0xA3, 0x52]), 
    ('\u{3A0}', [0xA3, 0x53]), ('\u{3A1}', [0xA3, 0x54]), ('\u{3A3}', [0xA3, 0x55]), 
    ('\u{3A4}', [0xA3, 0x56]), ('\u{3A5}', [0xA3, 0x57]), ('\u{3A6}', [0xA3, 0x58]), 
    ('\u{3A7}', [0xA3, 0x59]), ('\u{3A8}', [0xA3, 0x5A]), ('\u{3A9}', [0xA3, 0x5B]), 
    ('\u{3B1}', [0xA3, 0x5C]), ('\u{3B2}', [0xA3, 0x5D]), ('\u{3B3}', [0xA3, 0x5E]), 
    ('\u{3B4}', [0xA3, 0x5F]), ('\u{3B5}', [0xA3, 0x60]), ('\u{3B6}', [0xA3, 0x61]), 
    ('\u{3B7}', [0xA3, 0x62]), ('\u{3B8}', [0xA3, 0x63]), ('\u{3B9}', [0xA3, 0x64]), 
    ('\u{3BA}', [0xA3, 0x65]), ('\u{3BB}', [0xA3, 0x66]), ('\u{3BC}', [0xA3, 0x67]), 
    ('\u{3BD}', [0xA3, 0x68]), ('\u{3BE}', [0xA3, 0x69]), ('\u{3BF}', [0xA3, 0x6A]), 
    ('\u{3C0}', [0xA3, 0x6B]), ('\u{3C1}', [0xA3, 0x6C]), ('\u{3C3}', [0xA3, 0x6D]), 
    ('\u{3C4}', [0xA3, 0x6E]), ('\u{3C5}', [0xA3, 0x6F]), ('\u{3C6}', [0xA3, 0x70]), 
    ('\u{3C7}', [0xA3, 0x71]), ('\u{3C8}', [0xA3, 0x72]), ('\u{3C9}', [0xA3, 0x73]), 
    ('\u{401}', [0xC7, 0xF9]), ('\u{410}', [0xC7, 0xF3]), ('\u{411}', [0xC7, 0xF4]), 
    ('\u{412}', [0xC7, 0xF5]), ('\u{413}', [0xC7, 0xF6]), ('\u{414}', [0xC7, 0xF7]), 
    ('\u{415}', [0xC7, 0xF8]), ('\u{416}', [0xC7, 0xFA]), ('\u{417}', [0xC7, 0xFB]), 
    ('\u{418}', [0xC7, 0xFC]), ('\u{419}', [0xC7, 0xFD]), ('\u{41A}', [0xC7, 0xFE]), 
    ('\u{41B}', [0xC8, 0x40]), ('\u{41C}', [0xC8, 0x41]), ('\u{41D}', [0xC8, 0x42]), 
    ('\u{41E}', [0xC8, 0x43]), ('\u{41F}', [0xC8, 0x44]), ('\u{420}', [0xC8, 0x45]), 
    ('\u{421}', [0xC8, 0x46]), ('\u{422}', [0xC8, 0x47]), ('\u{423}', [0xC8, 0x48]), 
    ('\u{424}', [0xC8, 0x49]), ('\u{425}', [0xC8, 0x4A]), ('\u{426}', [0xC8, 0x4B]), 
    ('\u{427}', [0xC8, 0x4C]), ('\u{428}', [0xC8, 0x4D]), ('\u{429}', [0xC8, 0x4E]), 
    ('\u{42A}', [0xC8, 0x4F]), ('\u{42B}', [0xC8, 0x50]), ('\u{42C}', [0xC8, 0x51]), 
    ('\u{42D}', [0xC8, 0x52]), ('\u{42E}', [0xC8, 0x53]), ('\u{42F}', [0xC8, 0x54]), 
    ('\u{430}', [0xC8, 0x55]), ('\u{431}', [0xC8, 0x56]), ('\u{432}', [0xC8, 0x57]), 
    ('\u{433}', [0xC8, 0x58]), ('\u{434}', [0xC8, 0x59]), ('\u{435}', [0xC8, 0x5A]), 
    ('\u{436}', [0xC8, 0x5C]), ('\u{437}', [0xC8, 0x5D]), ('\u{438}', [0xC8, 0x5E]), 
    ('\u{439}', [0xC8, 0x5F]), ('\u{43A}', [0xC8, 0x60]), ('\u{43B}', [0xC8, 0x61]), 
    ('\u{43C}', [0xC8, 0x62]), ('\u{43D}', [0xC8, 0x63]), ('\u{43E}', [0xC8, 0x64]), 
    ('\u{43F}', [0xC8, 0x65]), ('\u{440}', [0xC8, 0x66]), ('\u{441}', [0xC8, 0x67]), 
    ('\u{442}', [0xC8, 0x68]), ('\u{443}', [0xC8, 0x69]), ('\u{444}', [0xC8, 0x6A]), 
    ('\u{445}', [0xC8, 0x6B]), ('\u{446}', [0xC8, 0x6C]), ('\u{447}', [0xC8, 0x6D]), 
    ('\u{448}', [0xC8, 0x6E]), ('\u{449}', [0xC8, 0x6F]), ('\u{44A}', [0xC8, 0x70]), 
    ('\u{44B}', [0xC8, 0x71]), ('\u{44C}', [0xC8, 0x72]), ('\u{44D}', [0xC8, 0x73]), 
    ('\u{44E}', [0xC8, 0x74]), ('\u{44F}', [0xC8, 0x75]), ('\u{451}', [0xC8, 0x5B]), 
    ('\u{1EBE}', [0x88, 0x63]), ('\u{1EBF}', [0x88, 0xA4]), ('\u{1EC0}', [0x88, 0x65]), 
    ('\u{1EC1}', [0x88, 0xA6]), ('\u{2013}', [0xA1, 0x56]), ('\u{2014}', [0xA1, 0x58]), 
    ('\u{2018}', [0xA1, 0xA5]), ('\u{2019}', [0xA1, 0xA6]), ('\u{201C}', [0xA1, 0xA7]), 
    ('\u{201D}', [0xA1, 0xA8]), ('\u{2025}', [0xA1, 0x4C]), ('\u{2026}', [0xA1, 0x4B]), 
    ('\u{2027}', [0xA1, 0x45]), ('\u{2032}', [0xA1, 0xAC]), ('\u{2035}', [0xA1, 0xAB]), 
    ('\u{203B}', [0xA1, 0xB0]), ('\u{20AC}', [0xA3, 0xE1]), ('\u{2103}', [0xA2, 0x4A]), 
    ('\u{2105}', [0xA1, 0xC1]), ('\u{2109}', [0xA2, 0x4B]), ('\u{2116}', [0xC8, 0xD2]), 
    ('\u{2121}', [0xC8, 0xD3]), ('\u{2160}', [0xA2, 0xB9]), ('\u{2161}', [0xA2, 0xBA]), 
    ('\u{2162}', [0xA2, 0xBB]), ('\u{2163}', [0xA2, 0xBC]), ('\u{2164}', [0xA2, 0xBD]), 
    ('\u{2165}', [0xA2, 0xBE]), ('\u{2166}', [0xA2, 0xBF]), ('\u{2167}', [0xA2, 0xC0]), 
    ('\u{2168}', [0xA2, 0xC1]), ('\u{2169}', [0xA2, 0xC2]), ('\u{2170}', [0xC6, 0xB5]), 
    ('\u{2171}', [0xC6, 0xB6]), ('\u{2172}', [0xC6, 0xB7]), ('\u{2173}', [0xC6, 0xB8]), 
    ('\u{2174}', [0xC6, 0xB9]), ('\u{2175}', [0xC6, 0xBA]), ('\u{2176}', [0xC6, 0xBB]), 
    ('\u{2177}', [0xC6, 0xBC]), ('\u{2178}', [0xC6, 0xBD]), ('\u{2179}', [0xC6, 0xBE]), 
    ('\u{2190}', [0xA1, 0xF6]), ('\u{2191}', [0xA1, 0xF4]), ('\u{2192}', [0xA1, 0xF7]), 
    ('\u{2193}', [0xA1, 0xF5]), ('\u{2196}', [0xA1, 0xF8]), ('\u{2197}', [0xA1, 0xF9]), 
    ('\u{2198}', [0xA1, 0xFB]), ('\u{2199}', [0xA1, 0xFA]), ('\u{21B8}', [0xC8, 0x77]), 
    ('\u{21B9}', [0xC8, 0x78]), ('\u{21E7}', [0xC8, 0x76]), ('\u{2215}', [0xA2, 0x41]), 
    ('\u{221A}', [0xA1, 0xD4]), ('\u{221E}', [0xA1, 0xDB]), ('\u{221F}', [0xA1, 0xE8]), 
    ('\u{2220}', [0xA1, 0xE7]), ('\u{2223}', [0xA1, 0xFD]), ('\u{2225}', [0xA1, 0xFC]), 
    ('\u{2229}', [0xA1, 0xE4]), ('\u{222A}', [0xA1, 0xE5]), ('\u{222B}', [0xA1, 0xEC]), 
    ('\u{222E}', [0xA1, 0xED]), ('\u{2234}', [0xA1, 0xEF]), ('\u{2235}', [0xA1, 0xEE]), 
    ('\u{2252}', [0xA1, 0xDC]), ('\u{2260}', [0xA1, 0xDA]), ('\u{2261}', [0xA1, 0xDD]), 
    ('\u{2266}', [0xA1, 0xD8]), ('\u{2267}', [0xA1, 0xD9]), ('\u{2295}', [0xA1, 0xF2]), 
    ('\u{2299}', [0xA1, 0xF3]), ('\u{22A5}', [0xA1, 0xE6]), ('\u{22BF}', [0xA1, 0xE9]), 
    ('\u{23DA}', [0x88, 0xA9]), ('\u{23DB}', [0x88, 0xAA]), ('\u{2400}', [0xA3, 0xC0]), 
    ('\u{2401}', [0xA3, 0xC1]), ('\u{2402}', [0xA3, 0xC2]), ('\u{2403}', [0xA3, 0xC3]), 
    ('\u{2404}', [0xA3, 0xC4]), ('\u{2405}', [0xA3, 0xC5]), ('\u{2406}', [0xA3, 0xC6]), 
    ('\u{2407}', [0xA3, 0xC7]), ('\u{2408}', [0xA3, 0xC8]), ('\u{2409}', [0xA3, 0xC9]), 
    ('\u{240A}', [0xA3, 0xCA]), ('\u{240B}', [0xA3, 0xCB]), ('\u{240C}', [0xA3, 0xCC]), 
    ('\u{240D}', [0xA3, 0xCD]), ('\u{240E}', [0xA3, 0xCE]), ('\u{240F}', [0xA3, 0xCF]), 
    ('\u{2410}', [0xA3, 0xD0]), ('\u{2411}', [0xA3, 0xD1]), ('\u{2412}', [0xA3, 0xD2]), 
    ('\u{2413}', [0xA3, 0xD3]), ('\u{2414}', [0xA3, 0xD4]), ('\u{2415}', [0xA3, 0xD5]), 
    ('\u{2416}', [0xA3, 0xD6]), ('\u{2417}', [0xA3, 0xD7]), ('\u{2418}', [0xA3, 0xD8]), 
    ('\u{2419}', [0xA3, 0xD9]), ('\u{241A}', [0xA3, 0xDA]), ('\u{241B}', [0xA3, 0xDB]), 
    ('\u{241C}', [0xA3, 0xDC]), ('\u{241D}', [0xA3, 0xDD]), ('\u{241E}', [0xA3, 0xDE]), 
    ('\u{241F}', [0xA3, 0xDF]), ('\u{2421}', [0xA3, 0xE0]), ('\u{2460}', [0xC6, 0xA1]), 
    ('\u{2461}', [0xC6, 0xA2]), ('\u{2462}', [0xC6, 0xA3]), ('\u{2463}', [0xC6, 0xA4]), 
    ('\u{2464}', [0xC6, 0xA5]), ('\u{2465}', [0xC6, 0xA6]), ('\u{2466}', [0xC6, 0xA7]), 
    ('\u{2467}', [0xC6, 0xA8]), ('\u{2468}', [0xC6, 0xA9]), ('\u{2469}', [0xC6, 0xAA]), 
    ('\u{2474}', [0xC6, 0xAB]), ('\u{2475}', [0xC6, 0xAC]), ('\u{2476}', [0xC6, 0xAD]), 
    ('\u{2477}', [0xC6, 0xAE]), ('\u{2478}', [0xC6, 0xAF]), ('\u{2479}', [0xC6, 0xB0]), 
    ('\u{247A}', [0xC6, 0xB1]), ('\u{247B}', [0xC6, 0xB2]), ('\u{247C}', [0xC6, 0xB3]), 
    ('\u{247D}', [0xC6, 0xB4]), ('\u{2500}', [0xA2, 0x77]), ('\u{2502}', [0xA2, 0x78]), 
    ('\u{250C}', [0xA2, 0x7A]), ('\u{2510}', [0xA2, 0x7B]), ('\u{2514}', [0xA2, 0x7C]), 
    ('\u{2518}', [0xA2, 0x7D]), ('\u{251C}', [0xA2, 0x75]), ('\u{2524}', [0xA2, 0x74]), 
    ('\u{252C}', [0xA2, 0x73]), ('\u{2534}', [0xA2, 0x72]), ('\u{253C}', [0xA2, 0x71]), 
    ('\u{2550}', [0xF9, 0xF9]), ('\u{2551}', [0xF9, 0xF8]), ('\u{2552}', [0xF9, 0xE6]), 
    ('\u{2553}', [0xF9, 0xEF]), ('\u{2554}', [0xF9, 0xDD]), ('\u{2555}', [0xF9, 0xE8]), 
    ('\u{2556}', [0xF9, 0xF1]), ('\u{2557}', [0xF9, 0xDF]), ('\u{2558}', [0xF9, 0xEC]), 
    ('\u{2559}', [0xF9, 0xF5]), ('\u{255A}', [0xF9, 0xE3]), ('\u{255B}', [0xF9, 0xEE]), 
    ('\u{255C}', [0xF9, 0xF7]), ('\u{255D}', [0xF9, 0xE5]), ('\u{255E}', [0xF9, 0xE9]), 
    ('\u{255F}', [0xF9, 0xF2]), ('\u{2560}', [0xF9, 0xE0]), ('\u{2561}', [0xF9, 0xEB]), 
    ('\u{2562}', [0xF9, 0xF4]), ('\u{2563}', [0xF9, 0xE2]), ('\u{2564}', [0xF9, 0xE7]), 
    ('\u{2565}', [0xF9, 0xF0]), ('\u{2566}', [0xF9, 0xDE]), ('\u{2567}', [0xF9, 0xED]), 
    ('\u{2568}', [0xF9, 0xF6]), ('\u{2569}', [0xF9, 0xE4]), ('\u{256A}', [0xF9, 0xEA]), 
    ('\u{256B}', [0xF9, 0xF3]), ('\u{256C}', [0xF9, 0xE1]), ('\u{256D}', [0xA2, 0x7E]), 
    ('\u{256E}', [0xA2, 0xA1]), ('\u{256F}', [0xA2, 0xA3]), ('\u{2570}', [0xA2, 0xA2]), 
    ('\u{2571}', [0xA2, 0xAC]), ('\u{2572}', [0xA2, 0xAD]), ('\u{2573}', [0xA2, 0xAE]), 
    ('\u{2574}', [0xA1, 0x5A]), ('\u{2581}', [0xA2, 0x62]), ('\u{2582}', [0xA2, 0x63]), 
    ('\u{2583}', [0xA2, 0x64]), ('\u{2584}', [0xA2, 0x65]), ('\u{2585}', [0xA2, 0x66]), 
    ('\u{2586}', [0xA2, 0x67]), ('\u{2587}', [0xA2, 0x68]), ('\u{2588}', [0xA2, 0x69]), 
    ('\u{2589}', [0xA2, 0x70]), ('\u{258A}', [0xA2, 0x6F]), ('\u{258B}', [0xA2, 0x6E]), 
    ('\u{258C}', [0xA2, 0x6D]), ('\u{258D}', [0xA2, 0x6C]), ('\u{258E}', [0xA2, 0x6B]), 
    ('\u{258F}', [0xA2, 0x6A]), ('\u{2594}', [0xA2, 0x76]), ('\u{2595}', [0xA2, 0x79]), 
    ('\u{25A0}', [0xA1, 0xBD]), ('\u{25A1}', [0xA1, 0xBC]), ('\u{25B2}', [0xA1, 0xB6]), 
    ('\u{25B3}', [0xA1, 0xB5]), ('\u{25BC}', [0xA1, 0xBF]), ('\u{25BD}', [0xA1, 0xBE]), 
    ('\u{25C6}', [0xA1, 0xBB]), ('\u{25C7}', [0xA1, 0xBA]), ('\u{25CB}', [0xA1, 0xB3]), 
"#

/-- src/generated/whatwg/big5_whatwg_tables.rs.inc:2609-2736 -/
noncomputable def encode1 : List Text := lines! r#"    ('\u{25CE}', [0xA1, 0xB7]), ('\u{25CF}', [0xA1, 0xB4]), ('\u{25E2}', [0xA2, 0xA8]), 
    ('\u{25E3}', [0xA2, 0xA9]), ('\u{25E4}', [0xA2, 0xAB]), ('\u{25E5}', [0xA2, 0xAA]), 
    ('\u{2605}', [0xA1, 0xB9]), ('\u{2606}', [0xA1, 0xB8]), ('\u{2640}', [0xA1, 0xF0]), 
    ('\u{2642}', [0xA1, 0xF1]), ('\u{273D}', [0xC6, 0xE6]), ('\u{2E80}', [0xC8, 0xD6]), 
    ('\u{2E84}', [0xC8, 0xD7]), ('\u{2E86}', [0xC8, 0xD8]), ('\u{2E87}', [0xC8, 0xD9]), 
    ('\u{2E88}', [0xC8, 0xDA]), ('\u{2E8A}', [0xC8, 0xDB]), ('\u{2E8C}', [0xC8, 0xDC]), 
    ('\u{2E8D}', [0xC8, 0xDD]), ('\u{2E95}', [0xC8, 0xDE]), ('\u{2E9C}', [0xC8, 0xDF]), 
    ('\u{2E9D}', [0xC8, 0xE0]), ('\u{2EA5}', [0xC8, 0xE1]), ('\u{2EA7}', [0xC8, 0xE2]), 
    ('\u{2EAA}', [0xC8, 0xE3]), ('\u{2EAC}', [0xC8, 0xE4]), ('\u{2EAE}', [0xC8, 0xE5]), 
    ('\u{2EB6}', [0xC8, 0xE6]), ('\u{2EBC}', [0xC8, 0xE7]), ('\u{2EBE}', [0xC8, 0xE8]), 
    ('\u{2EC6}', [0xC8, 0xE9]), ('\u{2ECA}', [0xC8, 0xEA]), ('\u{2ECC}', [0xC8, 0xEB]), 
    ('\u{2ECD}', [0xC8, 0xEC]), ('\u{2ECF}', [0xC8, 0xED]), ('\u{2ED6}', [0xC8, 0xEE]), 
    ('\u{2ED7}', [0xC8, 0xEF]), ('\u{2EDE}', [0xC8, 0xF0]), ('\u{2EE3}', [0xC8, 0xF1]), 
    ('\u{2F33}', [0xC6, 0xCD]), ('\u{3000}', [0xA1, 0x40]), ('\u{3001}', [0xA1, 0x42]), 
    ('\u{3002}', [0xA1, 0x43]), ('\u{3003}', [0xA1, 0xB2]), ('\u{3005}', [0xC6, 0xE0]), 
    ('\u{3006}', [0xC6, 0xE1]), ('\u{3007}', [0xC6, 0xE2]), ('\u{3008}', [0xA1, 0x71]), 
    ('\u{3009}', [0xA1, 0x72]), ('\u{300A}', [0xA1, 0x6D]), ('\u{300B}', [0xA1, 0x6E]), 
    ('\u{300C}', [0xA1, 0x75]), ('\u{300D}', [0xA1, 0x76]), ('\u{300E}', [0xA1, 0x79]), 
    ('\u{300F}', [0xA1, 0x7A]), ('\u{3010}', [0xA1, 0x69]), ('\u{3011}', [0xA1, 0x6A]), 
    ('\u{3012}', [0xA2, 0x45]), ('\u{3014}', [0xA1, 0x65]), ('\u{3015}', [0xA1, 0x66]), 
    ('\u{301D}', [0xA1, 0xA9]), ('\u{301E}', [0xA1, 0xAA]), ('\u{3021}', [0xA2, 0xC3]), 
    ('\u{3022}', [0xA2, 0xC4]), ('\u{3023}', [0xA2, 0xC5]), ('\u{3024}', [0xA2, 0xC6]), 
    ('\u{3025}', [0xA2, 0xC7]), ('\u{3026}', [0xA2, 0xC8]), ('\u{3027}', [0xA2, 0xC9]), 
    ('\u{3028}', [0xA2, 0xCA]), ('\u{3029}', [0xA2, 0xCB]), ('\u{3041}', [0xC6, 0xE7]), 
    ('\u{3042}', [0xC6, 0xE8]), ('\u{3043}', [0xC6, 0xE9]), ('\u{3044}', [0xC6, 0xEA]), 
    ('\u{3045}', [0xC6, 0xEB]), ('\u{3046}', [0xC6, 0xEC]), ('\u{3047}', [0xC6, 0xED]), 
    ('\u{3048}', [0xC6, 0xEE]), ('\u{3049}', [0xC6, 0xEF]), ('\u{304A}', [0xC6, 0xF0]), 
    ('\u{304B}', [0xC6, 0xF1]), ('\u{304C}', [0xC6, 0xF2]), ('\u{304D}', [0xC6, 0xF3]), 
    ('\u{304E}', [0xC6, 0xF4]), ('\u{304F}', [0xC6, 0xF5]), ('\u{3050}', [0xC6, 0xF6]), 
    ('\u{3051}', [0xC6, 0xF7]), ('\u{3052}', [0xC6, 0xF8]), ('\u{3053}', [0xC6, 0xF9]), 
    ('\u{3054}', [0xC6, 0xFA]), ('\u{3055}', [0xC6, 0xFB]), ('\u{3056}', [0xC6, 0xFC]), 
    ('\u{3057}', [0xC6, 0xFD]), ('\u{3058}', [0xC6, 0xFE]), ('\u{3059}', [0xC7, 0x40]), 
    ('\u{305A}', [0xC7, 0x41]), ('\u{305B}', [0xC7, 0x42]), ('\u{305C}', [0xC7, 0x43]), 
    ('\u{305D}', [0xC7, 0x44]), ('\u{305E}', [0xC7, 0x45]), ('\u{305F}', [0xC7, 0x46]), 
    ('\u{3060}', [0xC7, 0x47]), ('\u{3061}', [0xC7, 0x48]), ('\u{3062}', [0xC7, 0x49]), 
    ('\u{3063}', [0xC7, 0x4A]), ('\u{3064}', [0xC7, 0x4B]), ('\u{3065}', [0xC7, 0x4C]), 
    ('\u{3066}', [0xC7, 0x4D]), ('\u{3067}', [0xC7, 0x4E]), ('\u{3068}', [0xC7, 0x4F]), 
    ('\u{3069}', [0xC7, 0x50]), ('\u{306A}', [0xC7, 0x51]), ('\u{306B}', [0xC7, 0x52]), 
    ('\u{306C}', [0xC7, 0x53]), ('\u{306D}', [0xC7, 0x54]), ('\u{306E}', [0xC7, 0x55]), 
    ('\u{306F}', [0xC7, 0x56]), ('\u{3070}', [0xC7, 0x57]), ('\u{3071}', [0xC7, 0x58]), 
    ('\u{3072}', [0xC7, 0x59]), ('\u{3073}', [0xC7, 0x5A]), ('\u{3074}', [0xC7, 0x5B]), 
    ('\u{3075}', [0xC7, 0x5C]), ('\u{3076}', [0xC7, 0x5D]), ('\u{3077}', [0xC7, 0x5E]), 
    ('\u{3078}', [0xC7, 0x5F]), ('\u{3079}', [0xC7, 0x60]), ('\u{307A}', [0xC7, 0x61]), 
    ('\u{307B}', [0xC7, 0x62]), ('\u{307C}', [0xC7, 0x63]), ('\u{307D}', [0xC7, 0x64]), 
    ('\u{307E}', [0xC7, 0x65]), ('\u{307F}', [0xC7, 0x66]), ('\u{3080}', [0xC7, 0x67]), 
    ('\u{3081}', [0xC7, 0x68]), ('\u{3082}', [0xC7, 0x69]), ('\u{3083}', [0xC7, 0x6A]), 
    ('\u{3084}', [0xC7, 0x6B]), ('\u{3085}', [0xC7, 0x6C]), ('\u{3086}', [0xC7, 0x6D]), 
    ('\u{3087}', [0xC7, 0x6E]), ('\u{3088}', [0xC7, 0x6F]), ('\u{3089}', [0xC7, 0x70]), 
    ('\u{308A}', [0xC7, 0x71]), ('\u{308B}', [0xC7, 0x72]), ('\u{308C}', [0xC7, 0x73]), 
    ('\u{308D}', [0xC7, 0x74]), ('\u{308E}', [0xC7, 0x75]), ('\u{308F}', [0xC7, 0x76]), 
    ('\u{3090}', [0xC7, 0x77]), ('\u{3091}', [0xC7, 0x78]), ('\u{3092}', [0xC7, 0x79]), 
    ('\u{3093}', [0xC7, 0x7A]), ('\u{309B}', [0xC8, 0xD4]), ('\u{309C}', [0xC8, 0xD5]), 
    ('\u{309D}', [0xC6, 0xDC]), ('\u{309E}', [0xC6, 0xDD]), ('\u{30A1}', [0xC7, 0x7B]), 
    ('\u{30A2}', [0xC7, 0x7C]), ('\u{30A3}', [0xC7, 0x7D]), ('\u{30A4}', [0xC7, 0x7E]), 
    ('\u{30A5}', [0xC7, 0xA1]), ('\u{30A6}', [0xC7, 0xA2]), ('\u{30A7}', [0xC7, 0xA3]), 
    ('\u{30A8}', [0xC7, 0xA4]), ('\u{30A9}', [0xC7, 0xA5]), ('\u{30AA}', [0xC7, 0xA6]), 
    ('\u{30AB}', [0xC7, 0xA7]), ('\u{30AC}', [0xC7, 0xA8]), ('\u{30AD}', [0xC7, 0xA9]), 
    ('\u{30AE}', [0xC7, 0xAA]), ('\u{30AF}', [0xC7, 0xAB]), ('\u{30B0}', [0xC7, 0xAC]), 
    ('\u{30B1}', [0xC7, 0xAD]), ('\u{30B2}', [0xC7, 0xAE]), ('\u{30B3}', [0xC7, 0xAF]), 
    ('\u{30B4}', [0xC7, 0xB0]), ('\u{30B5}', [0xC7, 0xB1]), ('\u{30B6}', [0xC7, 0xB2]), 
    ('\u{30B7}', [0xC7, 0xB3]), ('\u{30B8}', [0xC7, 0xB4]), ('\u{30B9}', [0xC7, 0xB5]), 
    ('\u{30BA}', [0xC7, 0xB6]), ('\u{30BB}', [0xC7, 0xB7]), ('\u{30BC}', [0xC7, 0xB8]), 
    ('\u{30BD}', [0xC7, 0xB9]), ('\u{30BE}', [0xC7, 0xBA]), ('\u{30BF}', [0xC7, 0xBB]), 
    ('\u{30C0}', [0xC7, 0xBC]), ('\u{30C1}', [0xC7, 0xBD]), ('\u{30C2}', [0xC7, 0xBE]), 
    ('\u{30C3}', [0xC7, 0xBF]), ('\u{30C4}', [0xC7, 0xC0]), ('\u{30C5}', [0xC7, 0xC1]), 
    ('\u{30C6}', [0xC7, 0xC2]), ('\u{30C7}', [0xC7, 0xC3]), ('\u{30C8}', [0xC7, 0xC4]), 
    ('\u{30C9}', [0xC7, 0xC5]), ('\u{30CA}', [0xC7, 0xC6]), ('\u{30CB}', [0xC7, 0xC7]), 
    ('\u{30CC}', [0xC7, 0xC8]), ('\u{30CD}', [0xC7, 0xC9]), ('\u{30CE}', [0xC7, 0xCA]), 
    ('\u{30CF}', [0xC7, 0xCB]), ('\u{30D0}', [0xC7, 0xCC]), ('\u{30D1}', [0xC7, 0xCD]), 
    ('\u{30D2}', [0xC7, 0xCE]), ('\u{30D3}', [0xC7, 0xCF]), ('\u{30D4}', [0xC7, 0xD0]), 
    ('\u{30D5}', [0xC7, 0xD1]), ('\u{30D6}', [0xC7, 0xD2]), ('\u{30D7}', [0xC7, 0xD3]), 
    ('\u{30D8}', [0xC7, 0xD4]), ('\u{30D9}', [0xC7, 0xD5]), ('\u{30DA}', [0xC7, 0xD6]), 
    ('\u{30DB}', [0xC7, 0xD7]), ('\u{30DC}', [0xC7, 0xD8]), ('\u{30DD}', [0xC7, 0xD9]), 
    ('\u{30DE}', [0xC7, 0xDA]), ('\u{30DF}', [0xC7, 0xDB]), ('\u{30E0}', [0xC7, 0xDC]), 
    ('\u{30E1}', [0xC7, 0xDD]), ('\u{30E2}', [0xC7, 0xDE]), ('\u{30E3}', [0xC7, 0xDF]), 
    ('\u{30E4}', [0xC7, 0xE0]), ('\u{30E5}', [0xC7, 0xE1]), ('\u{30E6}', [0xC7, 0xE2]), 
    ('\u{30E7}', [0xC7, 0xE3]), ('\u{30E8}', [0xC7, 0xE4]), ('\u{30E9}', [0xC7, 0xE5]), 
    ('\u{30EA}', [0xC7, 0xE6]), ('\u{30EB}', [0xC7, 0xE7]), ('\u{30EC}', [0xC7, 0xE8]), 
    ('\u{30ED}', [0xC7, 0xE9]), ('\u{30EE}', [0xC7, 0xEA]), ('\u{30EF}', [0xC7, 0xEB]), 
    ('\u{30F0}', [0xC7, 0xEC]), ('\u{30F1}', [0xC7, 0xED]), ('\u{30F2}', [0xC7, 0xEE]), 
    ('\u{30F3}', [0xC7, 0xEF]), ('\u{30F4}', [0xC7, 0xF0]), ('\u{30F5}', [0xC7, 0xF1]), 
    ('\u{30F6}', [0xC7, 0xF2]), ('\u{30FC}', [0xC6, 0xE3]), ('\u{30FD}', [0xC6, 0xDA]), 
    ('\u{30FE}', [0xC6, 0xDB]), ('\u{3105}', [0xA3, 0x74]), ('\u{3106}', [0xA3, 0x75]), 
    ('\u{3107}', [0xA3, 0x76]), ('\u{3108}', [0xA3, 0x77]), ('\u{3109}', [0xA3, 0x78]), 
    ('\u{310A}', [0xA3, 0x79]), ('\u{310B}', [0xA3, 0x7A]), ('\u{310C}', [0xA3, 0x7B]), 
    ('\u{310D}', [0xA3, 0x7C]), ('\u{310E}', [0xA3, 0x7D]), ('\u{310F}', [0xA3, 0x7E]), 
    ('\u{3110}', [0xA3, 0xA1]), ('\u{3111}', [0xA3, 0xA2]), ('\u{3112}', [0xA3, 0xA3]), 
    ('\u{3113}', [0xA3, 0xA4]), ('\u{3114}', [0xA3, 0xA5]), ('\u{3115}', [0xA3, 0xA6]), 
    ('\u{3116}', [0xA3, 0xA7]), ('\u{3117}', [0xA3, 0xA8]), ('\u{3118}', [0xA3, 0xA9]), 
    ('\u{3119}', [0xA3, 0xAA]), ('\u{311A}', [0xA3, 0xAB]), ('\u{311B}', [0xA3, 0xAC]), 
    ('\u{311C}', [0xA3, 0xAD]), ('\u{311D}', [0xA3, 0xAE]), ('\u{311E}', [0xA3, 0xAF]), 
    ('\u{311F}', [0xA3, 0xB0]), ('\u{3120}', [0xA3, 0xB1]), ('\u{3121}', [0xA3, 0xB2]), 
    ('\u{3122}', [0xA3, 0xB3]), ('\u{3123}', [0xA3, 0xB4]), ('\u{3124}', [0xA3, 0xB5]), 
    ('\u{3125}', [0xA3, 0xB6]), ('\u{3126}', [0xA3, 0xB7]), ('\u{3127}', [0xA3, 0xB8]), 
    ('\u{3128}', [0xA3, 0xB9]), ('\u{3129}', [0xA3, 0xBA]), ('\u{31C0}', [0x88, 0x40]), 
    ('\u{31C1}', [0x88, 0x41]), ('\u{31C2}', [0x88, 0x42]), ('\u{31C3}', [0x88, 0x43]), 
    ('\u{31C4}', [0x88, 0x44]), ('\u{31C5}', [0x88, 0x46]), ('\u{31C6}', [0x88, 0x49]), 
    ('\u{31C7}', [0x88, 0x4A]), ('\u{31C8}', [0x88, 0x4D]), ('\u{31C9}', [0x88, 0x4F]), 
    ('\u{31CA}', [0x88, 0x50]), ('\u{31CB}', [0x88, 0x51]), ('\u{31CC}', [0x88, 0x52]), 
    ('\u{31CD}', [0x88, 0x54]), ('\u{31CE}', [0x88, 0x55]), ('\u{31CF}', [0xC8, 0x79]), 
    ('\u{3231}', [0xC8, 0xD1]), ('\u{32A3}', [0xA1, 0xC0]), ('\u{338E}', [0xA2, 0x55]), 
    ('\u{338F}', [0xA2, 0x56]), ('\u{339C}', [0xA2, 0x50]), ('\u{339D}', [0xA2, 0x51]), 
    ('\u{339E}', [0xA2, 0x52]), ('\u{33A1}', [0xA2, 0x54]), ('\u{33C4}', [0xA2, 0x57]), 
    ('\u{33CE}', [0xA2, 0x53]), ('\u{33D1}', [0xA1, 0xEB]), ('\u{33D2}', [0xA1, 0xEA]), 
    ('\u{33D5}', [0xA2, 0x4F]), ('\u{3435}', [0x92, 0x77]), ('\u{3440}', [0x96, 0xDF]), 
    ('\u{344A}', [0x8C, 0xF4]), ('\u{344C}', [0x89, 0xD5]), ('\u{3464}', [0x93, 0xCD]), 
    ('\u{3473}', [0x9B, 0xDF]), ('\u{347A}', [0xFA, 0x68]), ('\u{347D}', [0x89, 0xDA]), 
    ('\u{347E}', [0x8F, 0x59]), ('\u{3493}', [0x89, 0xDB]), ('\u{3496}', [0x8F, 0x5D]), 
    ('\u{34A5}', [0x89, 0xDC]), ('\u{34AF}', [0x96, 0xF7]), ('\u{34BC}', [0x8A, 0xDA]), 
    ('\u{34C1}', [0x8B, 0xDC]), ('\u{34C8}', [0x97, 0xDB]), ('\u{34DF}', [0x9E, 0x53]), 
    ('\u{34E4}', [0x9D, 0xAA]), ('\u{34E6}', [0x87, 0xBE]), ('\u{34FB}', [0x9B, 0xEA]), 
    ('\u{3506}', [0x8A, 0x6E]), ('\u{353E}', [0x8B, 0xC8]), ('\u{3551}', [0x89, 0xE8]), 
    ('\u{3553}', [0x89, 0xEA]), ('\u{3559}', [0x8C, 0x4B]), ('\u{3561}', [0xFB, 0x70]), 
    ('\u{356D}', [0x89, 0xED]), ('\u{3570}', [0x94, 0xDD]), ('\u{3572}', [0x89, 0xEE]), 
    ('\u{3577}', [0x9E, 0xB4]), ('\u{3578}', [0x8A, 0xD3]), ('\u{3584}', [0x92, 0xDB]), 
    ('\u{3597}', [0x94, 0xDB]), ('\u{3598}', [0x89, 0xF9]), ('\u{35A1}', [0xFB, 0x7A]), 
    ('\u{35A5}', [0x89, 0xFB]), ('\u{35AD}', [0x9E, 0xFC]), ('\u{35BF}', [0x89, 0xFC]), 
    ('\u{35C1}', [0x89, 0xBF]), ('\u{35C5}', [0x89, 0xFE]), ('\u{35C7}', [0x89, 0xE6]), 
    ('\u{35CA}', [0x9D, 0x46]), ('\u{35CE}', [0x9D, 0xEE]), ('\u{35D2}', [0xA0, 0x7E]), 
    ('\u{35D6}', [0xA0, 0x68]), ('\u{35DB}', [0x98, 0xE9]), ('\u{35DD}', [0x8B, 0x68]), 
    ('\u{35F1}', [0x8D, 0xFD]), ('\u{35F2}', [0x8B, 0xBE]), ('\u{35F3}', [0x9F, 0xD9]), 
    ('\u{35FB}', [0x8A, 0xEB]), ('\u{35FE}', [0x9F, 0xD7]), ('\u{3609}', [0x8B, 0x6A]), 
    ('\u{3618}', [0x9C, 0x5C]), ('\u{361A}', [0x8B, 0xB1]), ('\u{3623}', [0xFB, 0x5E]), 
    ('\u{3625}', [0x87, 0x70]), ('\u{362D}', [0x9D, 0xF3]), ('\u{3635}', [0xA0, 0xD0]), 
    ('\u{3639}', [0xFC, 0x66]), ('\u{363E}', [0x92, 0xE9]), ('\u{3647}', [0x9A, 0xEC]), 
    ('\u{3648}', [0x8F, 0xAB]), ('\u{3649}', [0xFA, 0x48]), ('\u{364E}', [0x8E, 0x45]), 
    ('\u{365F}', [0x9C, 0x6F]), ('\u{3661}', [0x8D, 0x5C]), ('\u{367A}', [0x9E, 0xDE]), 
    ('\u{3681}', [0x89, 0xEF]), ('\u{369A}', [0x96, 0xE9]), ('\u{36A5}', [0x9E, 0xBB]), 
"#

/-- src/generated/whatwg/big5_whatwg_tables.rs.inc:2737-2864 -/
noncomputable def encode2 : List Text := lines! r#"    ('\u{36AA}', [0x94, 0xDE]), ('\u{36AC}', [0x9E, 0xB8]), ('\u{36B0}', [0x97, 0xBA]), 
    ('\u{36B1}', [0xFB, 0x65]), ('\u{36B5}', [0x95, 0xD6]), ('\u{36B9}', [0x9C, 0xBB]), 
    ('\u{36BC}', [0x97, 0xDA]), ('\u{36C1}', [0x8F, 0x45]), ('\u{36C3}', [0xFB, 0x7D]), 
    ('\u{36C4}', [0x91, 0x58]), ('\u{36C5}', [0xFE, 0x64]), ('\u{36C7}', [0x98, 0x56]), 
    ('\u{36C8}', [0x9B, 0x4D]), ('\u{36D3}', [0x93, 0x5B]), ('\u{36D4}', [0x95, 0xC7]), 
    ('\u{36D6}', [0x97, 0xE7]), ('\u{36DD}', [0x93, 0x59]), ('\u{36E1}', [0x91, 0xF5]), 
    ('\u{36E2}', [0x97, 0xB8]), ('\u{36E5}', [0xFD, 0xA2]), ('\u{36E6}', [0xFB, 0xB6]), 
    ('\u{36F5}', [0x92, 0xFA]), ('\u{3701}', [0x93, 0x57]), ('\u{3703}', [0x8B, 0xA6]), 
    ('\u{3708}', [0xFB, 0xB9]), ('\u{370A}', [0x97, 0xB0]), ('\u{370D}', [0xFD, 0xC4]), 
    ('\u{371C}', [0x9C, 0xA1]), ('\u{3722}', [0x91, 0xF2]), ('\u{3723}', [0x91, 0xF9]), 
    ('\u{3725}', [0x8F, 0xF1]), ('\u{372C}', [0x97, 0x45]), ('\u{372D}', [0x98, 0x53]), 
    ('\u{3730}', [0xFE, 0x78]), ('\u{3732}', [0xFB, 0xC1]), ('\u{3733}', [0x92, 0x51]), 
    ('\u{373A}', [0x9D, 0xAD]), ('\u{3740}', [0xFD, 0x6C]), ('\u{3743}', [0xFA, 0x6B]), 
    ('\u{3762}', [0x9B, 0xC2]), ('\u{376F}', [0x9A, 0x7B]), ('\u{3797}', [0x8B, 0x60]), 
    ('\u{37A0}', [0x93, 0x4B]), ('\u{37B9}', [0x9A, 0xBD]), ('\u{37BE}', [0x91, 0xB7]), 
    ('\u{37D6}', [0x8D, 0x4B]), ('\u{37F2}', [0x95, 0xB4]), ('\u{37F8}', [0xFE, 0xC5]), 
    ('\u{37FB}', [0x9E, 0xF0]), ('\u{380F}', [0x8D, 0x64]), ('\u{3819}', [0x92, 0x69]), 
    ('\u{3820}', [0x8D, 0x67]), ('\u{382D}', [0xFB, 0xEA]), ('\u{3836}', [0xFB, 0xEF]), 
    ('\u{3838}', [0x8D, 0x68]), ('\u{3863}', [0x93, 0xEB]), ('\u{3875}', [0x87, 0x7A]), 
    ('\u{38A0}', [0xFC, 0x42]), ('\u{38C3}', [0x91, 0x66]), ('\u{38CC}', [0xFA, 0xCD]), 
    ('\u{38D1}', [0x93, 0xDD]), ('\u{38D4}', [0x8D, 0x52]), ('\u{38FA}', [0x8B, 0xCC]), 
    ('\u{3908}', [0x8D, 0x6D]), ('\u{3914}', [0x8D, 0x6E]), ('\u{3927}', [0x96, 0xA8]), 
    ('\u{3932}', [0xFC, 0xA6]), ('\u{393F}', [0x8D, 0x6F]), ('\u{394D}', [0x8D, 0x70]), 
    ('\u{3963}', [0xFC, 0x64]), ('\u{3978}', [0x8C, 0xF3]), ('\u{3980}', [0x90, 0x60]), 
    ('\u{3989}', [0x8D, 0x74]), ('\u{398A}', [0x97, 0xC3]), ('\u{3992}', [0x8A, 0xD0]), 
    ('\u{3999}', [0x92, 0x74]), ('\u{399B}', [0x9B, 0xBE]), ('\u{39A1}', [0x9C, 0xC8]), 
    ('\u{39A4}', [0x9C, 0xBA]), ('\u{39B8}', [0x8D, 0x78]), ('\u{39DC}', [0x9E, 0xB9]), 
    ('\u{39E2}', [0x95, 0x5A]), ('\u{39E5}', [0x91, 0xB4]), ('\u{39EC}', [0x8A, 0x48]), 
    ('\u{39F8}', [0x8D, 0x7D]), ('\u{39FB}', [0x8A, 0x7D]), ('\u{39FE}', [0x8A, 0xC2]), 
    ('\u{3A01}', [0xFD, 0x4A]), ('\u{3A03}', [0x8D, 0xA1]), ('\u{3A06}', [0x8A, 0xD1]), 
    ('\u{3A17}', [0xFC, 0xB4]), ('\u{3A18}', [0x8B, 0x47]), ('\u{3A29}', [0x93, 0xA4]), 
    ('\u{3A2A}', [0x9E, 0xDA]), ('\u{3A34}', [0x8A, 0x51]), ('\u{3A4B}', [0x8D, 0xA6]), 
    ('\u{3A52}', [0x9E, 0xC5]), ('\u{3A57}', [0xFC, 0xC4]), ('\u{3A5C}', [0xA0, 0x78]), 
    ('\u{3A5E}', [0x94, 0xB5]), ('\u{3A66}', [0xFC, 0xC2]), ('\u{3A67}', [0x8A, 0x6B]), 
    ('\u{3A97}', [0x8D, 0xAB]), ('\u{3AAB}', [0xFA, 0xE8]), ('\u{3ABD}', [0x8D, 0xAD]), 
    ('\u{3ADE}', [0xFC, 0x49]), ('\u{3AE0}', [0x93, 0xC1]), ('\u{3AF0}', [0x90, 0x6F]), 
    ('\u{3AF2}', [0x8D, 0xB0]), ('\u{3AF5}', [0x87, 0xA2]), ('\u{3AFB}', [0x94, 0x7E]), 
    ('\u{3B0E}', [0x90, 0xFA]), ('\u{3B19}', [0x94, 0x79]), ('\u{3B22}', [0x8D, 0xB2]), 
    ('\u{3B2B}', [0xFC, 0xEE]), ('\u{3B39}', [0x99, 0x7B]), ('\u{3B42}', [0x8D, 0xB4]), 
    ('\u{3B58}', [0x8D, 0xB7]), ('\u{3B60}', [0x91, 0xB3]), ('\u{3B71}', [0x8D, 0xBB]), 
    ('\u{3B72}', [0x8D, 0xBA]), ('\u{3B7B}', [0x8D, 0xBC]), ('\u{3B7C}', [0x90, 0x44]), 
    ('\u{3B80}', [0xFD, 0x4C]), ('\u{3B95}', [0x87, 0x4B]), ('\u{3B96}', [0x93, 0xE4]), 
    ('\u{3B99}', [0x93, 0xE0]), ('\u{3BA1}', [0xFD, 0x53]), ('\u{3BBC}', [0x8D, 0xC3]), 
    ('\u{3BBE}', [0x9B, 0xB8]), ('\u{3BC2}', [0xFB, 0xF0]), ('\u{3BC4}', [0x93, 0xE9]), 
    ('\u{3BD7}', [0x93, 0xF6]), ('\u{3BDD}', [0x8D, 0xC5]), ('\u{3BEC}', [0x8D, 0xCA]), 
    ('\u{3BF2}', [0x8D, 0xCC]), ('\u{3BF3}', [0xFD, 0x5D]), ('\u{3BF4}', [0x93, 0xB5]), 
    ('\u{3C0D}', [0xFD, 0x61]), ('\u{3C11}', [0x9C, 0xF8]), ('\u{3C15}', [0x92, 0x52]), 
    ('\u{3C18}', [0xA0, 0xE8]), ('\u{3C54}', [0x9C, 0xA5]), ('\u{3C8B}', [0x8C, 0x56]), 
    ('\u{3CCB}', [0x8D, 0xD6]), ('\u{3CCD}', [0x97, 0xC0]), ('\u{3CD1}', [0xA0, 0xDE]), 
    ('\u{3CD6}', [0x97, 0xD2]), ('\u{3CDC}', [0xFA, 0xA5]), ('\u{3CEB}', [0xFD, 0xA3]), 
    ('\u{3CEF}', [0x8D, 0xDB]), ('\u{3D12}', [0x8C, 0xEA]), ('\u{3D13}', [0x8E, 0xAF]), 
    ('\u{3D1D}', [0x91, 0xB5]), ('\u{3D32}', [0xFD, 0x49]), ('\u{3D3B}', [0xFD, 0xD1]), 
    ('\u{3D46}', [0x8D, 0xEB]), ('\u{3D4C}', [0x97, 0xC6]), ('\u{3D4E}', [0xFD, 0xCE]), 
    ('\u{3D51}', [0x90, 0xFC]), ('\u{3D5F}', [0xFC, 0x59]), ('\u{3D62}', [0x96, 0xD6]), 
    ('\u{3D69}', [0x97, 0xC5]), ('\u{3D6A}', [0x8D, 0xEF]), ('\u{3D6F}', [0x97, 0xD7]), 
    ('\u{3D75}', [0x8D, 0xF0]), ('\u{3D7D}', [0x96, 0xA6]), ('\u{3D85}', [0xFB, 0xBF]), 
    ('\u{3D88}', [0x8C, 0xDF]), ('\u{3D8A}', [0x8D, 0xF3]), ('\u{3D8F}', [0x94, 0x49]), 
    ('\u{3D91}', [0x8D, 0xF5]), ('\u{3DA5}', [0x98, 0x72]), ('\u{3DAD}', [0x8E, 0x6B]), 
    ('\u{3DB4}', [0xFA, 0xFD]), ('\u{3DBF}', [0x8F, 0x50]), ('\u{3DC6}', [0x9D, 0xCC]), 
    ('\u{3DC7}', [0xFC, 0x65]), ('\u{3DC9}', [0x8C, 0x44]), ('\u{3DCC}', [0x99, 0x6E]), 
    ('\u{3DCD}', [0x94, 0xA1]), ('\u{3DD3}', [0x8F, 0x63]), ('\u{3DDB}', [0xA0, 0xDA]), 
    ('\u{3DE7}', [0x92, 0x53]), ('\u{3DE8}', [0xFD, 0xE9]), ('\u{3DEB}', [0x9D, 0xB5]), 
    ('\u{3DF3}', [0x98, 0x79]), ('\u{3DF4}', [0x87, 0x6A]), ('\u{3DF7}', [0x9D, 0x5D]), 
    ('\u{3DFC}', [0x8D, 0x63]), ('\u{3DFD}', [0x96, 0x69]), ('\u{3E06}', [0x9F, 0x70]), 
    ('\u{3E40}', [0xFC, 0x6A]), ('\u{3E43}', [0x8A, 0xC7]), ('\u{3E48}', [0x89, 0xD7]), 
    ('\u{3E55}', [0xFE, 0x4D]), ('\u{3E74}', [0x9E, 0xDD]), ('\u{3EA8}', [0xFE, 0xFB]), 
    ('\u{3EA9}', [0x98, 0xBC]), ('\u{3EAA}', [0xFA, 0xCC]), ('\u{3EAD}', [0x95, 0xB0]), 
    ('\u{3EB1}', [0x94, 0x64]), ('\u{3EB8}', [0x93, 0x6F]), ('\u{3EBF}', [0x94, 0xB9]), 
    ('\u{3EC2}', [0x95, 0xEC]), ('\u{3EC7}', [0x91, 0xEE]), ('\u{3ECA}', [0x98, 0xC3]), 
    ('\u{3ECC}', [0x95, 0xF6]), ('\u{3ED0}', [0x8F, 0xFD]), ('\u{3ED1}', [0x98, 0xC5]), 
    ('\u{3ED6}', [0x97, 0x66]), ('\u{3ED7}', [0xFE, 0x6E]), ('\u{3EDA}', [0x97, 0xDD]), 
    ('\u{3EDB}', [0x8C, 0xAA]), ('\u{3EDE}', [0x92, 0xD2]), ('\u{3EE1}', [0x97, 0x61]), 
    ('\u{3EE2}', [0x98, 0xCB]), ('\u{3EE7}', [0x95, 0xF0]), ('\u{3EE9}', [0x97, 0x5D]), 
    ('\u{3EEB}', [0x91, 0xE3]), ('\u{3EEC}', [0x87, 0x7E]), ('\u{3EF0}', [0x98, 0xCC]), 
    ('\u{3EF3}', [0x94, 0x69]), ('\u{3EF4}', [0x98, 0xCD]), ('\u{3EFA}', [0x98, 0xCE]), 
    ('\u{3EFC}', [0x95, 0xFC]), ('\u{3EFF}', [0x94, 0xA3]), ('\u{3F00}', [0x96, 0x62]), 
    ('\u{3F04}', [0xFE, 0xB6]), ('\u{3F06}', [0x94, 0x63]), ('\u{3F07}', [0x8D, 0x47]), 
    ('\u{3F0E}', [0x98, 0xD0]), ('\u{3F53}', [0x98, 0xD1]), ('\u{3F58}', [0x94, 0x75]), 
    ('\u{3F59}', [0xFA, 0xE0]), ('\u{3F63}', [0x94, 0x72]), ('\u{3F7C}', [0x98, 0xD6]), 
    ('\u{3F93}', [0x8A, 0xF0]), ('\u{3FC0}', [0x98, 0xD9]), ('\u{3FC8}', [0x8D, 0x5A]), 
    ('\u{3FD7}', [0x98, 0xDB]), ('\u{3FDC}', [0x98, 0xDD]), ('\u{3FE5}', [0x98, 0xA8]), 
    ('\u{3FED}', [0x8A, 0x6D]), ('\u{3FF9}', [0x8A, 0xFB]), ('\u{3FFA}', [0x8A, 0xAE]), 
    ('\u{4004}', [0xFB, 0xC9]), ('\u{4009}', [0x8C, 0x5D]), ('\u{401D}', [0x98, 0xE4]), 
    ('\u{4039}', [0x98, 0xE6]), ('\u{4045}', [0x98, 0xE8]), ('\u{4053}', [0x8A, 0x4D]), 
    ('\u{4057}', [0x92, 0x57]), ('\u{4062}', [0x95, 0xDF]), ('\u{4065}', [0xA0, 0xAC]), 
    ('\u{406A}', [0x98, 0xEB]), ('\u{406F}', [0x98, 0xEC]), ('\u{4071}', [0x8C, 0xC3]), 
    ('\u{40A8}', [0x98, 0xF4]), ('\u{40B4}', [0x87, 0xD9]), ('\u{40BB}', [0x8A, 0xB8]), 
    ('\u{40BF}', [0x9E, 0xE7]), ('\u{40C8}', [0x94, 0xBC]), ('\u{40D8}', [0xFC, 0xD1]), 
    ('\u{40DF}', [0x9C, 0xC6]), ('\u{40F8}', [0x8D, 0x4A]), ('\u{40FA}', [0x9E, 0x7E]), 
    ('\u{4102}', [0x8D, 0x44]), ('\u{4103}', [0x98, 0xFE]), ('\u{4104}', [0xFD, 0xE8]), 
    ('\u{4109}', [0x99, 0x40]), ('\u{410E}', [0x94, 0xC9]), ('\u{4131}', [0x87, 0xC6]), 
    ('\u{4132}', [0x94, 0xD3]), ('\u{4167}', [0x99, 0x46]), ('\u{416C}', [0x90, 0xC0]), 
    ('\u{416E}', [0x94, 0xD1]), ('\u{417C}', [0x8D, 0x4E]), ('\u{417F}', [0x95, 0x73]), 
    ('\u{4181}', [0x87, 0xCE]), ('\u{4190}', [0x93, 0xC2]), ('\u{41B2}', [0x99, 0x48]), 
    ('\u{41C4}', [0x99, 0x4B]), ('\u{41CA}', [0x8E, 0x55]), ('\u{41CF}', [0x99, 0x4E]), 
    ('\u{41DB}', [0x8E, 0xFE]), ('\u{41ED}', [0x8D, 0x5F]), ('\u{41EF}', [0x8E, 0x59]), 
    ('\u{41F9}', [0x94, 0xEC]), ('\u{4211}', [0x94, 0xEF]), ('\u{4223}', [0x8C, 0x60]), 
    ('\u{4240}', [0x8F, 0x74]), ('\u{4260}', [0x99, 0x55]), ('\u{426A}', [0x95, 0x44]), 
    ('\u{4276}', [0x8C, 0xCB]), ('\u{427A}', [0x99, 0x56]), ('\u{428C}', [0x99, 0x59]), 
    ('\u{4294}', [0x99, 0x5B]), ('\u{42A2}', [0x8C, 0xC4]), ('\u{42B5}', [0xFA, 0x45]), 
    ('\u{42B9}', [0x90, 0xB7]), ('\u{42BC}', [0x97, 0x43]), ('\u{42F4}', [0x95, 0xCD]), 
    ('\u{42FB}', [0x97, 0xC9]), ('\u{42FC}', [0xFD, 0x50]), ('\u{430A}', [0x87, 0xAA]), 
    ('\u{432B}', [0x8E, 0xB9]), ('\u{436E}', [0x95, 0xC6]), ('\u{4397}', [0x99, 0x67]), 
    ('\u{439A}', [0x8C, 0xE3]), ('\u{43BA}', [0x8A, 0xB9]), ('\u{43C1}', [0x8D, 0xFC]), 
    ('\u{43D9}', [0x8A, 0x76]), ('\u{43DF}', [0x9D, 0x51]), ('\u{43ED}', [0x99, 0x73]), 
    ('\u{43F0}', [0x87, 0x40]), ('\u{43F2}', [0x9D, 0x4F]), ('\u{4401}', [0x99, 0x7A]), 
    ('\u{4402}', [0x95, 0x64]), ('\u{4413}', [0x99, 0xA1]), ('\u{4425}', [0x99, 0xA5]), 
    ('\u{442D}', [0x99, 0xA7]), ('\u{447A}', [0x8E, 0xED]), ('\u{448F}', [0x99, 0xAD]), 
    ('\u{4491}', [0xC8, 0x7E]), ('\u{449F}', [0x94, 0x6E]), ('\u{44A0}', [0x8F, 0x70]), 
    ('\u{44A2}', [0xFA, 0xD0]), ('\u{44B0}', [0x99, 0xB3]), ('\u{44B7}', [0xA0, 0x53]), 
    ('\u{44BD}', [0x8D, 0x5E]), ('\u{44C0}', [0x96, 0x5C]), ('\u{44C3}', [0x8C, 0xE0]), 
    ('\u{44C5}', [0xFD, 0x7A]), ('\u{44CE}', [0x97, 0xFE]), ('\u{44DD}', [0x92, 0xBD]), 
    ('\u{44DE}', [0x8D, 0x5D]), ('\u{44DF}', [0x97, 0xFD]), ('\u{44E1}', [0x87, 0xDB]), 
    ('\u{44E4}', [0x8F, 0x64]), ('\u{44E9}', [0xFC, 0xF7]), ('\u{44EA}', [0x95, 0x62]), 
    ('\u{44EB}', [0x97, 0xCD]), ('\u{44EC}', [0x9E, 0x64]), ('\u{44F4}', [0x92, 0x4C]), 
    ('\u{4503}', [0x8E, 0xC9]), ('\u{4504}', [0x99, 0xBC]), ('\u{4509}', [0x9D, 0xA5]), 
    ('\u{450B}', [0x8F, 0x54]), ('\u{4516}', [0x8F, 0x7C]), ('\u{451B}', [0x8D, 0x55]), 
    ('\u{451D}', [0x8E, 0xA2]), ('\u{4527}', [0x8F, 0x7A]), ('\u{452E}', [0x97, 0xAE]), 
    ('\u{4533}', [0x96, 0xC8]), ('\u{4536}', [0x8C, 0xE4]), ('\u{453B}', [0x99, 0xC3]), 
    ('\u{453D}', [0x90, 0xD6]), ('\u{453F}', [0x9C, 0xBE]), ('\u{4543}', [0x8F, 0x76]), 
    ('\u{4551}', [0x94, 0x70]), ('\u{4552}', [0xFB, 0x4B]), ('\u{4555}', [0xFD, 0xCA]), 
    ('\u{4558}', [0x8C, 0xEF]), ('\u{455C}', [0x8E, 0xC7]), ('\u{4561}', [0x8D, 0x54]), 
    ('\u{4562}', [0xA0, 0xF9]), ('\u{456A}', [0x8F, 0xA9]), ('\u{456D}', [0x8D, 0x51]), 
    ('\u{4577}', [0x99, 0xC7]), ('\u{4578}', [0x87, 0x44]), ('\u{4585}', [0x90, 0xD7]), 
    ('\u{45A6}', [0x87, 0x43]), ('\u{45B3}', [0x87, 0x47]), ('\u{45DA}', [0x87, 0x58]), 
    ('\u{45E9}', [0x9E, 0xDF]), ('\u{45EA}', [0x8D, 0x59]), ('\u{4603}', [0x87, 0x42]), 
    ('\u{4606}', [0x99, 0xCE]), ('\u{460F}', [0x8F, 0xBA]), ('\u{4615}', [0x8F, 0xEB]), 
    ('\u{4617}', [0x99, 0xCF]), ('\u{465B}', [0x8F, 0xC2]), ('\u{467A}', [0x92, 0xC9]), 
"#

/-- src/generated/whatwg/big5_whatwg_tables.rs.inc:2865-2992 -/
noncomputable def encode3 : List Text := lines! r#"    ('\u{4680}', [0x97, 0xDC]), ('\u{46A1}', [0x87, 0x5D]), ('\u{46AE}', [0x87, 0xCC]), 
    ('\u{46BB}', [0x8D, 0x45]), ('\u{46CF}', [0x95, 0xB3]), ('\u{46D0}', [0x9C, 0x79]), 
    ('\u{46F5}', [0x95, 0xB2]), ('\u{46F7}', [0x8D, 0x4C]), ('\u{4713}', [0x8F, 0xDB]), 
    ('\u{4718}', [0x9B, 0xE3]), ('\u{4736}', [0x87, 0x4C]), ('\u{4744}', [0x87, 0x4D]), 
    ('\u{474E}', [0x9E, 0x7A]), ('\u{474F}', [0x87, 0x57]), ('\u{477C}', [0x9B, 0xEE]), 
    ('\u{4798}', [0x99, 0xDE]), ('\u{47A6}', [0xFA, 0xFA]), ('\u{47D5}', [0x8A, 0x52]), 
    ('\u{47ED}', [0x99, 0xE1]), ('\u{47F4}', [0x8A, 0x67]), ('\u{4800}', [0x8B, 0xB5]), 
    ('\u{480B}', [0x8A, 0xAC]), ('\u{4837}', [0x99, 0xE9]), ('\u{485D}', [0xFB, 0xCA]), 
    ('\u{4871}', [0x97, 0xDE]), ('\u{489B}', [0x95, 0xD1]), ('\u{48AD}', [0x99, 0xF5]), 
    ('\u{48AE}', [0xFC, 0x4A]), ('\u{48D0}', [0x9B, 0xA9]), ('\u{48DD}', [0xFB, 0xDC]), 
    ('\u{48ED}', [0xFE, 0x56]), ('\u{48F3}', [0x9E, 0xA4]), ('\u{48FA}', [0x9D, 0x49]), 
    ('\u{4906}', [0x95, 0xDB]), ('\u{4911}', [0x89, 0xC5]), ('\u{491E}', [0x99, 0xF8]), 
    ('\u{4925}', [0x96, 0x64]), ('\u{492A}', [0x90, 0x55]), ('\u{492D}', [0x96, 0xD4]), 
    ('\u{492F}', [0x87, 0xC4]), ('\u{4930}', [0x87, 0xAE]), ('\u{4935}', [0x97, 0x7C]), 
    ('\u{493C}', [0x96, 0x4D]), ('\u{493E}', [0x97, 0xE1]), ('\u{4945}', [0x9A, 0x48]), 
    ('\u{4951}', [0x9A, 0x49]), ('\u{4953}', [0xFE, 0x7D]), ('\u{4965}', [0x90, 0xAA]), 
    ('\u{496A}', [0x9A, 0x50]), ('\u{4972}', [0x93, 0x47]), ('\u{4989}', [0x8E, 0xD8]), 
    ('\u{49A1}', [0x90, 0xC9]), ('\u{49A7}', [0x9A, 0x55]), ('\u{49DF}', [0x90, 0xBC]), 
    ('\u{49E5}', [0x9A, 0x58]), ('\u{49E7}', [0x8B, 0xB8]), ('\u{4A0F}', [0x90, 0xD5]), 
    ('\u{4A1D}', [0x96, 0x41]), ('\u{4A24}', [0x9A, 0x5A]), ('\u{4A35}', [0x9A, 0x5C]), 
    ('\u{4A96}', [0x97, 0xC2]), ('\u{4AA4}', [0x87, 0x5C]), ('\u{4AB4}', [0x8A, 0xBB]), 
    ('\u{4AB8}', [0x9B, 0xAA]), ('\u{4AD1}', [0x90, 0xF5]), ('\u{4AE4}', [0x9A, 0x60]), 
    ('\u{4AFF}', [0x91, 0x45]), ('\u{4B10}', [0x8C, 0x58]), ('\u{4B19}', [0x9A, 0x63]), 
    ('\u{4B20}', [0x8C, 0x49]), ('\u{4B2C}', [0x8B, 0xB6]), ('\u{4B37}', [0xFC, 0xCF]), 
    ('\u{4B6F}', [0x96, 0x6B]), ('\u{4B70}', [0x9A, 0x6E]), ('\u{4B72}', [0x91, 0x4F]), 
    ('\u{4B7B}', [0x97, 0x46]), ('\u{4B7E}', [0xA0, 0xE6]), ('\u{4B8E}', [0x92, 0xD7]), 
    ('\u{4B90}', [0x96, 0x75]), ('\u{4B93}', [0x93, 0xD4]), ('\u{4B96}', [0x91, 0xBB]), 
    ('\u{4B97}', [0x96, 0x79]), ('\u{4B9D}', [0x9A, 0x70]), ('\u{4BBD}', [0x96, 0x78]), 
    ('\u{4BBE}', [0x91, 0xCD]), ('\u{4BC0}', [0x9C, 0x4A]), ('\u{4C04}', [0xA0, 0x6F]), 
    ('\u{4C07}', [0xA0, 0x6A]), ('\u{4C0E}', [0x91, 0x5F]), ('\u{4C32}', [0x87, 0x41]), 
    ('\u{4C3B}', [0x9F, 0xA5]), ('\u{4C3E}', [0x89, 0xBA]), ('\u{4C40}', [0x87, 0x4F]), 
    ('\u{4C47}', [0x87, 0x4E]), ('\u{4C57}', [0x87, 0x55]), ('\u{4C5B}', [0x9E, 0xCD]), 
    ('\u{4C6D}', [0x9A, 0x79]), ('\u{4C77}', [0x8C, 0xF2]), ('\u{4C7B}', [0x8D, 0x57]), 
    ('\u{4C7D}', [0x9D, 0xCE]), ('\u{4C81}', [0x8C, 0xD2]), ('\u{4C85}', [0x87, 0x59]), 
    ('\u{4CA4}', [0x9D, 0x73]), ('\u{4CAE}', [0x96, 0xB9]), ('\u{4CB0}', [0x96, 0xBC]), 
    ('\u{4CB7}', [0x9C, 0xD1]), ('\u{4CCD}', [0x89, 0xB7]), ('\u{4CE1}', [0x9E, 0xEE]), 
    ('\u{4CE2}', [0x87, 0x49]), ('\u{4CED}', [0xFB, 0x43]), ('\u{4D07}', [0x87, 0x5B]), 
    ('\u{4D09}', [0x9E, 0xC9]), ('\u{4D10}', [0xFB, 0xD3]), ('\u{4D34}', [0x91, 0xAE]), 
    ('\u{4D76}', [0x8D, 0x58]), ('\u{4D77}', [0x87, 0x46]), ('\u{4D89}', [0x8D, 0x56]), 
    ('\u{4D91}', [0x9D, 0x78]), ('\u{4D9C}', [0x9D, 0x7B]), ('\u{4E00}', [0xA4, 0x40]), 
    ('\u{4E01}', [0xA4, 0x42]), ('\u{4E03}', [0xA4, 0x43]), ('\u{4E04}', [0x9E, 0xB3]), 
    ('\u{4E07}', [0xC9, 0x45]), ('\u{4E08}', [0xA4, 0x56]), ('\u{4E09}', [0xA4, 0x54]), 
    ('\u{4E0A}', [0xA4, 0x57]), ('\u{4E0B}', [0xA4, 0x55]), ('\u{4E0C}', [0xC9, 0x46]), 
    ('\u{4E0D}', [0xA4, 0xA3]), ('\u{4E0E}', [0xC9, 0x4F]), ('\u{4E0F}', [0xC9, 0x4D]), 
    ('\u{4E10}', [0xA4, 0xA2]), ('\u{4E11}', [0xA4, 0xA1]), ('\u{4E14}', [0xA5, 0x42]), 
    ('\u{4E15}', [0xA5, 0x41]), ('\u{4E16}', [0xA5, 0x40]), ('\u{4E18}', [0xA5, 0x43]), 
    ('\u{4E19}', [0xA4, 0xFE]), ('\u{4E1A}', [0x9E, 0xB2]), ('\u{4E1C}', [0x9D, 0xD6]), 
    ('\u{4E1E}', [0xA5, 0xE0]), ('\u{4E1F}', [0xA5, 0xE1]), ('\u{4E21}', [0x99, 0x4F]), 
    ('\u{4E24}', [0x89, 0xCE]), ('\u{4E26}', [0xA8, 0xC3]), ('\u{4E28}', [0x8B, 0xC0]), 
    ('\u{4E2A}', [0x9F, 0xC4]), ('\u{4E2B}', [0xA4, 0x58]), ('\u{4E2C}', [0x8B, 0xD4]), 
    ('\u{4E2D}', [0xA4, 0xA4]), ('\u{4E2E}', [0xC9, 0x50]), ('\u{4E2F}', [0x8C, 0x72]), 
    ('\u{4E30}', [0xA4, 0xA5]), ('\u{4E31}', [0xC9, 0x63]), ('\u{4E32}', [0xA6, 0xEA]), 
    ('\u{4E33}', [0xCB, 0xB1]), ('\u{4E36}', [0xC6, 0xBF]), ('\u{4E37}', [0x8B, 0xF9]), 
    ('\u{4E38}', [0xA4, 0x59]), ('\u{4E39}', [0xA4, 0xA6]), ('\u{4E3B}', [0xA5, 0x44]), 
    ('\u{4E3C}', [0xC9, 0x64]), ('\u{4E3D}', [0x89, 0x46]), ('\u{4E3F}', [0xC6, 0xC0]), 
    ('\u{4E42}', [0xC9, 0x40]), ('\u{4E43}', [0xA4, 0x44]), ('\u{4E45}', [0xA4, 0x5B]), 
    ('\u{4E47}', [0xC9, 0x47]), ('\u{4E48}', [0xA4, 0x5C]), ('\u{4E49}', [0xFA, 0xE5]), 
    ('\u{4E4B}', [0xA4, 0xA7]), ('\u{4E4D}', [0xA5, 0x45]), ('\u{4E4E}', [0xA5, 0x47]), 
    ('\u{4E4F}', [0xA5, 0x46]), ('\u{4E52}', [0xA5, 0xE2]), ('\u{4E53}', [0xA5, 0xE3]), 
    ('\u{4E56}', [0xA8, 0xC4]), ('\u{4E58}', [0xAD, 0xBC]), ('\u{4E59}', [0xA4, 0x41]), 
    ('\u{4E5A}', [0xC8, 0x7B]), ('\u{4E5B}', [0x8B, 0xC6]), ('\u{4E5C}', [0xC9, 0x41]), 
    ('\u{4E5D}', [0xA4, 0x45]), ('\u{4E5E}', [0xA4, 0x5E]), ('\u{4E5F}', [0xA4, 0x5D]), 
    ('\u{4E69}', [0xA5, 0xE4]), ('\u{4E6A}', [0x9C, 0x57]), ('\u{4E73}', [0xA8, 0xC5]), 
    ('\u{4E78}', [0x9A, 0xFB]), ('\u{4E7E}', [0xB0, 0xAE]), ('\u{4E7F}', [0xD4, 0x4B]), 
    ('\u{4E80}', [0x89, 0xD0]), ('\u{4E81}', [0x89, 0xCF]), ('\u{4E82}', [0xB6, 0xC3]), 
    ('\u{4E83}', [0xDC, 0xB1]), ('\u{4E84}', [0xDC, 0xB2]), ('\u{4E85}', [0xC6, 0xC1]), 
    ('\u{4E86}', [0xA4, 0x46]), ('\u{4E87}', [0x89, 0xD1]), ('\u{4E88}', [0xA4, 0xA9]), 
    ('\u{4E89}', [0x89, 0xE2]), ('\u{4E8B}', [0xA8, 0xC6]), ('\u{4E8C}', [0xA4, 0x47]), 
    ('\u{4E8D}', [0xC9, 0x48]), ('\u{4E8E}', [0xA4, 0x5F]), ('\u{4E91}', [0xA4, 0xAA]), 
    ('\u{4E92}', [0xA4, 0xAC]), ('\u{4E93}', [0xC9, 0x51]), ('\u{4E94}', [0xA4, 0xAD]), 
    ('\u{4E95}', [0xA4, 0xAB]), ('\u{4E98}', [0x92, 0x7E]), ('\u{4E99}', [0xA5, 0xE5]), 
    ('\u{4E9A}', [0x9D, 0xBA]), ('\u{4E9B}', [0xA8, 0xC7]), ('\u{4E9E}', [0xA8, 0xC8]), 
    ('\u{4E9F}', [0xAB, 0x45]), ('\u{4EA0}', [0xC6, 0xC2]), ('\u{4EA1}', [0xA4, 0x60]), 
    ('\u{4EA2}', [0xA4, 0xAE]), ('\u{4EA3}', [0x8C, 0x6F]), ('\u{4EA4}', [0xA5, 0xE6]), 
    ('\u{4EA5}', [0xA5, 0xE8]), ('\u{4EA6}', [0xA5, 0xE7]), ('\u{4EA8}', [0xA6, 0xEB]), 
    ('\u{4EAB}', [0xA8, 0xC9]), ('\u{4EAC}', [0xA8, 0xCA]), ('\u{4EAD}', [0xAB, 0x46]), 
    ('\u{4EAE}', [0xAB, 0x47]), ('\u{4EB3}', [0xAD, 0xBD]), ('\u{4EB6}', [0xDC, 0xB3]), 
    ('\u{4EB7}', [0xFB, 0xF8]), ('\u{4EB9}', [0xF6, 0xD6]), ('\u{4EBA}', [0xA4, 0x48]), 
    ('\u{4EBB}', [0x8B, 0xC7]), ('\u{4EBC}', [0x92, 0x6B]), ('\u{4EBF}', [0x89, 0xD2]), 
    ('\u{4EC0}', [0xA4, 0xB0]), ('\u{4EC1}', [0xA4, 0xAF]), ('\u{4EC2}', [0xC9, 0x52]), 
    ('\u{4EC3}', [0xA4, 0xB1]), ('\u{4EC4}', [0xA4, 0xB7]), ('\u{4EC6}', [0xA4, 0xB2]), 
    ('\u{4EC7}', [0xA4, 0xB3]), ('\u{4EC8}', [0xC9, 0x54]), ('\u{4EC9}', [0xC9, 0x53]), 
    ('\u{4ECA}', [0xA4, 0xB5]), ('\u{4ECB}', [0xA4, 0xB6]), ('\u{4ECD}', [0xA4, 0xB4]), 
    ('\u{4ECE}', [0x9F, 0xCF]), ('\u{4ED4}', [0xA5, 0x4A]), ('\u{4ED5}', [0xA5, 0x4B]), 
    ('\u{4ED6}', [0xA5, 0x4C]), ('\u{4ED7}', [0xA5, 0x4D]), ('\u{4ED8}', [0xA5, 0x49]), 
    ('\u{4ED9}', [0xA5, 0x50]), ('\u{4EDA}', [0xC9, 0x6A]), ('\u{4EDC}', [0xC9, 0x66]), 
    ('\u{4EDD}', [0xC6, 0xDF]), ('\u{4EDE}', [0xA5, 0x51]), ('\u{4EDF}', [0xA5, 0x61]), 
    ('\u{4EE1}', [0xC9, 0x68]), ('\u{4EE3}', [0xA5, 0x4E]), ('\u{4EE4}', [0xA5, 0x4F]), 
    ('\u{4EE5}', [0xA5, 0x48]), ('\u{4EE8}', [0xC9, 0x65]), ('\u{4EE9}', [0xC9, 0x67]), 
    ('\u{4EEA}', [0x9D, 0xA9]), ('\u{4EEB}', [0x89, 0xD3]), ('\u{4EEE}', [0x99, 0xE2]), 
    ('\u{4EF0}', [0xA5, 0xF5]), ('\u{4EF1}', [0xC9, 0xB0]), ('\u{4EF2}', [0xA5, 0xF2]), 
    ('\u{4EF3}', [0xA5, 0xF6]), ('\u{4EF4}', [0xC9, 0xBA]), ('\u{4EF5}', [0xC9, 0xAE]), 
    ('\u{4EF6}', [0xA5, 0xF3]), ('\u{4EF7}', [0xC9, 0xB2]), ('\u{4EF8}', [0x92, 0x67]), 
    ('\u{4EFB}', [0xA5, 0xF4]), ('\u{4EFD}', [0xA5, 0xF7]), ('\u{4EFF}', [0xA5, 0xE9]), 
    ('\u{4F00}', [0xC9, 0xB1]), ('\u{4F01}', [0xA5, 0xF8]), ('\u{4F02}', [0xC9, 0xB5]), 
    ('\u{4F03}', [0x92, 0xA4]), ('\u{4F04}', [0xC9, 0xB9]), ('\u{4F05}', [0xC9, 0xB6]), 
    ('\u{4F08}', [0xC9, 0xB3]), ('\u{4F09}', [0xA5, 0xEA]), ('\u{4F0A}', [0xA5, 0xEC]), 
    ('\u{4F0B}', [0xA5, 0xF9]), ('\u{4F0D}', [0xA5, 0xEE]), ('\u{4F0E}', [0xC9, 0xAB]), 
    ('\u{4F0F}', [0xA5, 0xF1]), ('\u{4F10}', [0xA5, 0xEF]), ('\u{4F11}', [0xA5, 0xF0]), 
    ('\u{4F12}', [0xC9, 0xBB]), ('\u{4F13}', [0xC9, 0xB8]), ('\u{4F14}', [0xC9, 0xAF]), 
    ('\u{4F15}', [0xA5, 0xED]), ('\u{4F17}', [0x8C, 0x73]), ('\u{4F18}', [0xC9, 0xAC]), 
    ('\u{4F19}', [0xA5, 0xEB]), ('\u{4F1A}', [0x89, 0x4E]), ('\u{4F1D}', [0xC9, 0xB4]), 
    ('\u{4F22}', [0xC9, 0xB7]), ('\u{4F28}', [0x89, 0x4F]), ('\u{4F29}', [0x92, 0x78]), 
    ('\u{4F2C}', [0xC9, 0xAD]), ('\u{4F2D}', [0xCA, 0x66]), ('\u{4F2F}', [0xA7, 0x42]), 
    ('\u{4F30}', [0xA6, 0xF4]), ('\u{4F32}', [0x91, 0xB6]), ('\u{4F33}', [0xCA, 0x67]), 
    ('\u{4F34}', [0xA6, 0xF1]), ('\u{4F36}', [0xA7, 0x44]), ('\u{4F37}', [0x89, 0xD4]), 
    ('\u{4F38}', [0xA6, 0xF9]), ('\u{4F39}', [0x9F, 0xD2]), ('\u{4F3A}', [0xA6, 0xF8]), 
    ('\u{4F3B}', [0xCA, 0x5B]), ('\u{4F3C}', [0xA6, 0xFC]), ('\u{4F3D}', [0xA6, 0xF7]), 
    ('\u{4F3E}', [0xCA, 0x60]), ('\u{4F3F}', [0xCA, 0x68]), ('\u{4F41}', [0xCA, 0x64]), 
    ('\u{4F42}', [0x92, 0xA7]), ('\u{4F43}', [0xA6, 0xFA]), ('\u{4F45}', [0x95, 0xA2]), 
    ('\u{4F46}', [0xA6, 0xFD]), ('\u{4F47}', [0xA6, 0xEE]), ('\u{4F48}', [0xA7, 0x47]), 
    ('\u{4F49}', [0xCA, 0x5D]), ('\u{4F4B}', [0x92, 0x6E]), ('\u{4F4C}', [0xCB, 0xBD]), 
    ('\u{4F4D}', [0xA6, 0xEC]), ('\u{4F4E}', [0xA7, 0x43]), ('\u{4F4F}', [0xA6, 0xED]), 
    ('\u{4F50}', [0xA6, 0xF5]), ('\u{4F51}', [0xA6, 0xF6]), ('\u{4F52}', [0xCA, 0x62]), 
    ('\u{4F53}', [0xCA, 0x5E]), ('\u{4F54}', [0xA6, 0xFB]), ('\u{4F55}', [0xA6, 0xF3]), 
    ('\u{4F56}', [0xCA, 0x5A]), ('\u{4F57}', [0xA6, 0xEF]), ('\u{4F58}', [0xCA, 0x65]), 
    ('\u{4F59}', [0xA7, 0x45]), ('\u{4F5A}', [0xA7, 0x48]), ('\u{4F5B}', [0xA6, 0xF2]), 
    ('\u{4F5C}', [0xA7, 0x40]), ('\u{4F5D}', [0xA7, 0x46]), ('\u{4F5E}', [0xA6, 0xF0]), 
    ('\u{4F5F}', [0xCA, 0x63]), ('\u{4F60}', [0xA7, 0x41]), ('\u{4F61}', [0xCA, 0x69]), 
    ('\u{4F62}', [0xCA, 0x5C]), ('\u{4F63}', [0xA6, 0xFE]), ('\u{4F64}', [0xCA, 0x5F]), 
    ('\u{4F67}', [0xCA, 0x61]), ('\u{4F69}', [0xA8, 0xD8]), ('\u{4F6A}', [0xCB, 0xBF]), 
    ('\u{4F6B}', [0xCB, 0xCB]), ('\u{4F6C}', [0xA8, 0xD0]), ('\u{4F6E}', [0xCB, 0xCC]), 
    ('\u{4F6F}', [0xA8, 0xCB]), ('\u{4F70}', [0xA8, 0xD5]), ('\u{4F72}', [0x96, 0xEA]), 
    ('\u{4F73}', [0xA8, 0xCE]), ('\u{4F74}', [0xCB, 0xB9]), ('\u{4F75}', [0xA8, 0xD6]), 
    ('\u{4F76}', [0xCB, 0xB8]), ('\u{4F77}', [0xCB, 0xBC]), ('\u{4F78}', [0xCB, 0xC3]), 
    ('\u{4F79}', [0xCB, 0xC1]), ('\u{4F7A}', [0xA8, 0xDE]), ('\u{4F7B}', [0xA8, 0xD9]), 
    ('\u{4F7C}', [0xCB, 0xB3]), ('\u{4F7D}', [0xCB, 0xB5]), ('\u{4F7E}', [0xA8, 0xDB]), 
    ('\u{4F7F}', [0xA8, 0xCF]), ('\u{4F80}', [0xCB, 0xB6]), ('\u{4F81}', [0xCB, 0xC2]), 
"#

/-- src/generated/whatwg/big5_whatwg_tables.rs.inc:2993-3120 -/
noncomputable def encode4 : List Text := lines! r#"    ('\u{4F82}', [0xCB, 0xC9]), ('\u{4F83}', [0xA8, 0xD4]), ('\u{4F84}', [0xCB, 0xBB]), 
    ('\u{4F85}', [0xCB, 0xB4]), ('\u{4F86}', [0xA8, 0xD3]), ('\u{4F87}', [0xCB, 0xB7]), 
    ('\u{4F88}', [0xA8, 0xD7]), ('\u{4F89}', [0xCB, 0xBA]), ('\u{4F8A}', [0x92, 0x6F]), 
    ('\u{4F8B}', [0xA8, 0xD2]), ('\u{4F8D}', [0xA8, 0xCD]), ('\u{4F8F}', [0xA8, 0xDC]), 
    ('\u{4F90}', [0xCB, 0xC4]), ('\u{4F91}', [0xA8, 0xDD]), ('\u{4F92}', [0xCB, 0xC8]), 
    ('\u{4F94}', [0xCB, 0xC6]), ('\u{4F95}', [0xCB, 0xCA]), ('\u{4F96}', [0xA8, 0xDA]), 
    ('\u{4F97}', [0xCB, 0xBE]), ('\u{4F98}', [0xCB, 0xB2]), ('\u{4F9A}', [0xCB, 0xC0]), 
    ('\u{4F9B}', [0xA8, 0xD1]), ('\u{4F9C}', [0xCB, 0xC5]), ('\u{4F9D}', [0xA8, 0xCC]), 
    ('\u{4F9E}', [0xCB, 0xC7]), ('\u{4FA2}', [0x92, 0xA3]), ('\u{4FA8}', [0x89, 0x50]), 
    ('\u{4FAB}', [0xFA, 0x57]), ('\u{4FAE}', [0xAB, 0x56]), ('\u{4FAF}', [0xAB, 0x4A]), 
    ('\u{4FB0}', [0x98, 0x66]), ('\u{4FB2}', [0xCD, 0xE0]), ('\u{4FB3}', [0xCD, 0xE8]), 
    ('\u{4FB4}', [0x8C, 0xF8]), ('\u{4FB5}', [0xAB, 0x49]), ('\u{4FB6}', [0xAB, 0x51]), 
    ('\u{4FB7}', [0xAB, 0x5D]), ('\u{4FB9}', [0xCD, 0xEE]), ('\u{4FBA}', [0xCD, 0xEC]), 
    ('\u{4FBB}', [0x9C, 0x53]), ('\u{4FBD}', [0x89, 0xD6]), ('\u{4FBF}', [0xAB, 0x4B]), 
    ('\u{4FC0}', [0xCD, 0xED]), ('\u{4FC1}', [0xCD, 0xE3]), ('\u{4FC2}', [0xAB, 0x59]), 
    ('\u{4FC3}', [0xAB, 0x50]), ('\u{4FC4}', [0xAB, 0x58]), ('\u{4FC5}', [0xCD, 0xDE]), 
    ('\u{4FC7}', [0xCD, 0xEA]), ('\u{4FC8}', [0x98, 0xB2]), ('\u{4FC9}', [0xCD, 0xE1]), 
    ('\u{4FCA}', [0xAB, 0x54]), ('\u{4FCB}', [0xCD, 0xE2]), ('\u{4FCC}', [0x92, 0xAB]), 
    ('\u{4FCD}', [0xCD, 0xDD]), ('\u{4FCE}', [0xAB, 0x5B]), ('\u{4FCF}', [0xAB, 0x4E]), 
    ('\u{4FD0}', [0xAB, 0x57]), ('\u{4FD1}', [0xAB, 0x4D]), ('\u{4FD3}', [0xCD, 0xDF]), 
    ('\u{4FD4}', [0xCD, 0xE4]), ('\u{4FD6}', [0xCD, 0xEB]), ('\u{4FD7}', [0xAB, 0x55]), 
    ('\u{4FD8}', [0xAB, 0x52]), ('\u{4FD9}', [0xCD, 0xE6]), ('\u{4FDA}', [0xAB, 0x5A]), 
    ('\u{4FDB}', [0xCD, 0xE9]), ('\u{4FDC}', [0xCD, 0xE5]), ('\u{4FDD}', [0xAB, 0x4F]), 
    ('\u{4FDE}', [0xAB, 0x5C]), ('\u{4FDF}', [0xAB, 0x53]), ('\u{4FE0}', [0xAB, 0x4C]), 
    ('\u{4FE1}', [0xAB, 0x48]), ('\u{4FE4}', [0x96, 0xDE]), ('\u{4FE5}', [0x92, 0xAC]), 
    ('\u{4FEC}', [0xCD, 0xEF]), ('\u{4FEE}', [0xAD, 0xD7]), ('\u{4FEF}', [0xAD, 0xC1]), 
    ('\u{4FF0}', [0x8C, 0x70]), ('\u{4FF1}', [0xAD, 0xD1]), ('\u{4FF2}', [0x9F, 0x6E]), 
    ('\u{4FF3}', [0xAD, 0xD6]), ('\u{4FF4}', [0xD0, 0xD0]), ('\u{4FF5}', [0xD0, 0xCF]), 
    ('\u{4FF6}', [0xD0, 0xD4]), ('\u{4FF7}', [0xD0, 0xD5]), ('\u{4FF8}', [0xAD, 0xC4]), 
    ('\u{4FF9}', [0x8E, 0xF2]), ('\u{4FFA}', [0xAD, 0xCD]), ('\u{4FFD}', [0x9F, 0x6C]), 
    ('\u{4FFE}', [0xAD, 0xDA]), ('\u{5000}', [0xAD, 0xCE]), ('\u{5003}', [0x89, 0xD8]), 
    ('\u{5005}', [0xD0, 0xC9]), ('\u{5006}', [0xAD, 0xC7]), ('\u{5007}', [0xD0, 0xCA]), 
    ('\u{5008}', [0xFA, 0x59]), ('\u{5009}', [0xAD, 0xDC]), ('\u{500B}', [0xAD, 0xD3]), 
    ('\u{500C}', [0xAD, 0xBE]), ('\u{500D}', [0xAD, 0xBF]), ('\u{500E}', [0xD0, 0xDD]), 
    ('\u{500F}', [0xB0, 0xBF]), ('\u{5011}', [0xAD, 0xCC]), ('\u{5012}', [0xAD, 0xCB]), 
    ('\u{5013}', [0xD0, 0xCB]), ('\u{5014}', [0xAD, 0xCF]), ('\u{5015}', [0xD4, 0x5B]), 
    ('\u{5016}', [0xAD, 0xC6]), ('\u{5017}', [0xD0, 0xD6]), ('\u{5018}', [0xAD, 0xD5]), 
    ('\u{5019}', [0xAD, 0xD4]), ('\u{501A}', [0xAD, 0xCA]), ('\u{501B}', [0xD0, 0xCE]), 
    ('\u{501C}', [0xD0, 0xD7]), ('\u{501E}', [0xD0, 0xC8]), ('\u{501F}', [0xAD, 0xC9]), 
    ('\u{5020}', [0xD0, 0xD8]), ('\u{5021}', [0xAD, 0xD2]), ('\u{5022}', [0xD0, 0xCC]), 
    ('\u{5023}', [0xAD, 0xC0]), ('\u{5025}', [0xAD, 0xC3]), ('\u{5026}', [0xAD, 0xC2]), 
    ('\u{5027}', [0xD0, 0xD9]), ('\u{5028}', [0xAD, 0xD0]), ('\u{5029}', [0xAD, 0xC5]), 
    ('\u{502A}', [0xAD, 0xD9]), ('\u{502B}', [0xAD, 0xDB]), ('\u{502C}', [0xD0, 0xD3]), 
    ('\u{502D}', [0xAD, 0xD8]), ('\u{502E}', [0x92, 0xA8]), ('\u{502F}', [0xD0, 0xDB]), 
    ('\u{5030}', [0xD0, 0xCD]), ('\u{5031}', [0xD0, 0xDC]), ('\u{5033}', [0xD0, 0xD1]), 
    ('\u{5034}', [0x91, 0x63]), ('\u{5035}', [0xD0, 0xDA]), ('\u{5037}', [0xD0, 0xD2]), 
    ('\u{503B}', [0x8C, 0x40]), ('\u{503C}', [0xAD, 0xC8]), ('\u{5040}', [0xD4, 0x63]), 
    ('\u{5041}', [0xD4, 0x57]), ('\u{5043}', [0xB0, 0xB3]), ('\u{5045}', [0xD4, 0x5C]), 
    ('\u{5046}', [0xD4, 0x62]), ('\u{5047}', [0xB0, 0xB2]), ('\u{5048}', [0xD4, 0x55]), 
    ('\u{5049}', [0xB0, 0xB6]), ('\u{504A}', [0xD4, 0x59]), ('\u{504B}', [0xD4, 0x52]), 
    ('\u{504C}', [0xB0, 0xB4]), ('\u{504D}', [0xD4, 0x56]), ('\u{504E}', [0xB0, 0xB9]), 
    ('\u{504F}', [0xB0, 0xBE]), ('\u{5051}', [0xD4, 0x67]), ('\u{5053}', [0xD4, 0x51]), 
    ('\u{5055}', [0xB0, 0xBA]), ('\u{5056}', [0x9F, 0x73]), ('\u{5057}', [0xD4, 0x66]), 
    ('\u{5058}', [0x92, 0xAD]), ('\u{505A}', [0xB0, 0xB5]), ('\u{505B}', [0xD4, 0x58]), 
    ('\u{505C}', [0xB0, 0xB1]), ('\u{505D}', [0xD4, 0x53]), ('\u{505E}', [0xD4, 0x4F]), 
    ('\u{505F}', [0xD4, 0x5D]), ('\u{5060}', [0xD4, 0x50]), ('\u{5061}', [0xD4, 0x4E]), 
    ('\u{5062}', [0xD4, 0x5A]), ('\u{5063}', [0xD4, 0x60]), ('\u{5064}', [0xD4, 0x61]), 
    ('\u{5065}', [0xB0, 0xB7]), ('\u{5066}', [0x9B, 0xE9]), ('\u{5068}', [0xD8, 0x5B]), 
    ('\u{5069}', [0xD4, 0x5E]), ('\u{506A}', [0xD4, 0x4D]), ('\u{506B}', [0xD4, 0x5F]), 
    ('\u{506C}', [0x92, 0xA9]), ('\u{506D}', [0xB0, 0xC1]), ('\u{506E}', [0xD4, 0x64]), 
    ('\u{506F}', [0xB0, 0xC0]), ('\u{5070}', [0xD4, 0x4C]), ('\u{5072}', [0xD4, 0x54]), 
    ('\u{5073}', [0xD4, 0x65]), ('\u{5074}', [0xB0, 0xBC]), ('\u{5075}', [0xB0, 0xBB]), 
    ('\u{5076}', [0xB0, 0xB8]), ('\u{5077}', [0xB0, 0xBD]), ('\u{507A}', [0xB0, 0xAF]), 
    ('\u{507D}', [0xB0, 0xB0]), ('\u{5080}', [0xB3, 0xC8]), ('\u{5081}', [0x92, 0xAA]), 
    ('\u{5082}', [0xD8, 0x5E]), ('\u{5083}', [0xD8, 0x57]), ('\u{5085}', [0xB3, 0xC5]), 
    ('\u{5087}', [0xD8, 0x5F]), ('\u{5088}', [0x89, 0xD9]), ('\u{508B}', [0xD8, 0x55]), 
    ('\u{508C}', [0xD8, 0x58]), ('\u{508D}', [0xB3, 0xC4]), ('\u{508E}', [0xD8, 0x59]), 
    ('\u{5090}', [0xFD, 0x56]), ('\u{5091}', [0xB3, 0xC7]), ('\u{5092}', [0xD8, 0x5D]), 
    ('\u{5094}', [0xD8, 0x53]), ('\u{5095}', [0xD8, 0x52]), ('\u{5096}', [0xB3, 0xC9]), 
    ('\u{5098}', [0xB3, 0xCA]), ('\u{5099}', [0xB3, 0xC6]), ('\u{509A}', [0xB3, 0xCB]), 
    ('\u{509B}', [0xD8, 0x51]), ('\u{509C}', [0xD8, 0x5C]), ('\u{509D}', [0xD8, 0x5A]), 
    ('\u{509E}', [0xD8, 0x54]), ('\u{50A2}', [0xB3, 0xC3]), ('\u{50A3}', [0xD8, 0x56]), 
    ('\u{50A6}', [0x9F, 0xA8]), ('\u{50AC}', [0xB6, 0xCA]), ('\u{50AD}', [0xB6, 0xC4]), 
    ('\u{50AE}', [0xDC, 0xB7]), ('\u{50AF}', [0xB6, 0xCD]), ('\u{50B0}', [0xDC, 0xBD]), 
    ('\u{50B1}', [0xDC, 0xC0]), ('\u{50B2}', [0xB6, 0xC6]), ('\u{50B3}', [0xB6, 0xC7]), 
    ('\u{50B4}', [0xDC, 0xBA]), ('\u{50B5}', [0xB6, 0xC5]), ('\u{50B6}', [0xDC, 0xC3]), 
    ('\u{50B7}', [0xB6, 0xCB]), ('\u{50B8}', [0xDC, 0xC4]), ('\u{50BA}', [0xDC, 0xBF]), 
    ('\u{50BB}', [0xB6, 0xCC]), ('\u{50BC}', [0x8C, 0x71]), ('\u{50BD}', [0xDC, 0xB4]), 
    ('\u{50BE}', [0xB6, 0xC9]), ('\u{50BF}', [0xDC, 0xB5]), ('\u{50C1}', [0xDC, 0xBE]), 
    ('\u{50C2}', [0xDC, 0xBC]), ('\u{50C4}', [0xDC, 0xB8]), ('\u{50C5}', [0xB6, 0xC8]), 
    ('\u{50C6}', [0xDC, 0xB6]), ('\u{50C7}', [0xB6, 0xCE]), ('\u{50C8}', [0xDC, 0xBB]), 
    ('\u{50C9}', [0xDC, 0xC2]), ('\u{50CA}', [0xDC, 0xB9]), ('\u{50CB}', [0xDC, 0xC1]), 
    ('\u{50CD}', [0x92, 0xA1]), ('\u{50CE}', [0xB9, 0xB6]), ('\u{50CF}', [0xB9, 0xB3]), 
    ('\u{50D0}', [0x90, 0xE3]), ('\u{50D1}', [0xB9, 0xB4]), ('\u{50D3}', [0xE0, 0xF9]), 
    ('\u{50D4}', [0xE0, 0xF1]), ('\u{50D5}', [0xB9, 0xB2]), ('\u{50D6}', [0xB9, 0xAF]), 
    ('\u{50D7}', [0xE0, 0xF2]), ('\u{50D9}', [0xA0, 0xA6]), ('\u{50DA}', [0xB9, 0xB1]), 
    ('\u{50DB}', [0xE0, 0xF5]), ('\u{50DD}', [0xE0, 0xF7]), ('\u{50DF}', [0x94, 0xAB]), 
    ('\u{50E0}', [0xE0, 0xFE]), ('\u{50E1}', [0xFC, 0x72]), ('\u{50E3}', [0xE0, 0xFD]), 
    ('\u{50E4}', [0xE0, 0xF8]), ('\u{50E5}', [0xB9, 0xAE]), ('\u{50E6}', [0xE0, 0xF0]), 
    ('\u{50E7}', [0xB9, 0xAC]), ('\u{50E8}', [0xE0, 0xF3]), ('\u{50E9}', [0xB9, 0xB7]), 
    ('\u{50EA}', [0xE0, 0xF6]), ('\u{50EC}', [0xE0, 0xFA]), ('\u{50ED}', [0x9F, 0xCB]), 
    ('\u{50EE}', [0xB9, 0xAD]), ('\u{50EF}', [0xE0, 0xFC]), ('\u{50F0}', [0xE0, 0xFB]), 
    ('\u{50F1}', [0xB9, 0xB5]), ('\u{50F3}', [0xE0, 0xF4]), ('\u{50F4}', [0x97, 0xC4]), 
    ('\u{50F5}', [0xBB, 0xF8]), ('\u{50F6}', [0xE4, 0xEC]), ('\u{50F8}', [0xE4, 0xE9]), 
    ('\u{50F9}', [0xBB, 0xF9]), ('\u{50FB}', [0xBB, 0xF7]), ('\u{50FC}', [0x92, 0xAE]), 
    ('\u{50FD}', [0xE4, 0xF0]), ('\u{50FE}', [0xE4, 0xED]), ('\u{50FF}', [0xE4, 0xE6]), 
    ('\u{5100}', [0xBB, 0xF6]), ('\u{5101}', [0xFA, 0x67]), ('\u{5102}', [0xBB, 0xFA]), 
    ('\u{5103}', [0xE4, 0xE7]), ('\u{5104}', [0xBB, 0xF5]), ('\u{5105}', [0xBB, 0xFD]), 
    ('\u{5106}', [0xE4, 0xEA]), ('\u{5107}', [0xE4, 0xEB]), ('\u{5108}', [0xBB, 0xFB]), 
    ('\u{5109}', [0xBB, 0xFC]), ('\u{510A}', [0xE4, 0xF1]), ('\u{510B}', [0xE4, 0xEE]), 
    ('\u{510C}', [0xE4, 0xEF]), ('\u{510D}', [0x92, 0xA2]), ('\u{510E}', [0xFA, 0x69]), 
    ('\u{5110}', [0xBE, 0xAA]), ('\u{5111}', [0xE8, 0xF8]), ('\u{5112}', [0xBE, 0xA7]), 
    ('\u{5113}', [0xE8, 0xF5]), ('\u{5114}', [0xBE, 0xA9]), ('\u{5115}', [0xBE, 0xAB]), 
    ('\u{5117}', [0xE8, 0xF6]), ('\u{5118}', [0xBE, 0xA8]), ('\u{511A}', [0xE8, 0xF7]), 
    ('\u{511C}', [0xE8, 0xF4]), ('\u{511F}', [0xC0, 0x76]), ('\u{5120}', [0xEC, 0xBD]), 
    ('\u{5121}', [0xC0, 0x77]), ('\u{5122}', [0xEC, 0xBB]), ('\u{5124}', [0xEC, 0xBC]), 
    ('\u{5125}', [0xEC, 0xBA]), ('\u{5126}', [0xEC, 0xB9]), ('\u{5129}', [0xEC, 0xBE]), 
    ('\u{512A}', [0xC0, 0x75]), ('\u{512B}', [0x92, 0x68]), ('\u{512D}', [0xEF, 0xB8]), 
    ('\u{512E}', [0xEF, 0xB9]), ('\u{5130}', [0xE4, 0xE8]), ('\u{5131}', [0xEF, 0xB7]), 
    ('\u{5132}', [0xC0, 0x78]), ('\u{5133}', [0xC3, 0x5F]), ('\u{5134}', [0xF1, 0xEB]), 
    ('\u{5135}', [0xF1, 0xEC]), ('\u{5137}', [0xC4, 0xD7]), ('\u{5138}', [0xC4, 0xD8]), 
    ('\u{5139}', [0xF5, 0xC1]), ('\u{513A}', [0xF5, 0xC0]), ('\u{513B}', [0xC5, 0x6C]), 
    ('\u{513C}', [0xC5, 0x6B]), ('\u{513D}', [0xF7, 0xD0]), ('\u{513F}', [0xA4, 0x49]), 
    ('\u{5140}', [0xA4, 0x61]), ('\u{5141}', [0xA4, 0xB9]), ('\u{5143}', [0xA4, 0xB8]), 
    ('\u{5144}', [0xA5, 0x53]), ('\u{5145}', [0xA5, 0x52]), ('\u{5146}', [0xA5, 0xFC]), 
    ('\u{5147}', [0xA5, 0xFB]), ('\u{5148}', [0xA5, 0xFD]), ('\u{5149}', [0xA5, 0xFA]), 
    ('\u{514B}', [0xA7, 0x4A]), ('\u{514C}', [0xA7, 0x49]), ('\u{514D}', [0xA7, 0x4B]), 
    ('\u{5152}', [0xA8, 0xE0]), ('\u{5154}', [0xA8, 0xDF]), ('\u{5155}', [0xA8, 0xE1]), 
    ('\u{5156}', [0x89, 0x51]), ('\u{5157}', [0xAB, 0x5E]), ('\u{5159}', [0x92, 0xAF]), 
    ('\u{515A}', [0xD0, 0xDE]), ('\u{515B}', [0x92, 0xB0]), ('\u{515C}', [0xB0, 0xC2]), 
    ('\u{515D}', [0x92, 0xB1]), ('\u{515E}', [0x92, 0xB2]), ('\u{515F}', [0xD8, 0x60]), 
    ('\u{5160}', [0xFA, 0x6F]), ('\u{5161}', [0xA2, 0x5D]), ('\u{5162}', [0xB9, 0xB8]), 
    ('\u{5163}', [0xA2, 0x5E]), ('\u{5165}', [0xA4, 0x4A]), ('\u{5167}', [0xA4, 0xBA]), 
    ('\u{5168}', [0xA5, 0xFE]), ('\u{5169}', [0xA8, 0xE2]), ('\u{516A}', [0xFA, 0x71]), 
    ('\u{516B}', [0xA4, 0x4B]), ('\u{516C}', [0xA4, 0xBD]), ('\u{516D}', [0xA4, 0xBB]), 
    ('\u{516E}', [0xA4, 0xBC]), ('\u{5171}', [0xA6, 0x40]), ('\u{5174}', [0x89, 0x52]), 
    ('\u{5175}', [0xA7, 0x4C]), ('\u{5176}', [0xA8, 0xE4]), ('\u{5177}', [0xA8, 0xE3]), 
    ('\u{5178}', [0xA8, 0xE5]), ('\u{5179}', [0x94, 0x5A]), ('\u{517C}', [0xAD, 0xDD]), 
"#

/-- src/generated/whatwg/big5_whatwg_tables.rs.inc:3121-3248 -/
noncomputable def encode5 : List Text := lines! r#"    ('\u{5180}', [0xBE, 0xAC]), ('\u{5182}', [0xC6, 0xC3]), ('\u{5186}', [0x89, 0xDD]), 
    ('\u{5187}', [0xC9, 0x4E]), ('\u{5188}', [0xC8, 0xA2]), ('\u{5189}', [0xA5, 0x54]), 
    ('\u{518A}', [0xA5, 0x55]), ('\u{518D}', [0xA6, 0x41]), ('\u{518F}', [0xCA, 0x6A]), 
    ('\u{5191}', [0xAB, 0x60]), ('\u{5192}', [0xAB, 0x5F]), ('\u{5193}', [0xD0, 0xE0]), 
    ('\u{5194}', [0xD0, 0xDF]), ('\u{5195}', [0xB0, 0xC3]), ('\u{5196}', [0xC6, 0xC4]), 
    ('\u{5197}', [0xA4, 0xBE]), ('\u{5198}', [0xC9, 0x55]), ('\u{519A}', [0x9E, 0x52]), 
    ('\u{519C}', [0x89, 0x53]), ('\u{519E}', [0xCB, 0xCD]), ('\u{51A0}', [0xAB, 0x61]), 
    ('\u{51A2}', [0xAD, 0xE0]), ('\u{51A4}', [0xAD, 0xDE]), ('\u{51A5}', [0xAD, 0xDF]), 
    ('\u{51A7}', [0x9E, 0x55]), ('\u{51A8}', [0x92, 0xBA]), ('\u{51AA}', [0xBE, 0xAD]), 
    ('\u{51AB}', [0xC6, 0xC5]), ('\u{51AC}', [0xA5, 0x56]), ('\u{51AE}', [0x8C, 0x5B]), 
    ('\u{51B0}', [0xA6, 0x42]), ('\u{51B1}', [0xC9, 0xBC]), ('\u{51B2}', [0xFA, 0x7D]), 
    ('\u{51B3}', [0xFA, 0xA8]), ('\u{51B4}', [0x9A, 0x68]), ('\u{51B5}', [0xFA, 0x47]), 
    ('\u{51B6}', [0xA7, 0x4D]), ('\u{51B7}', [0xA7, 0x4E]), ('\u{51B8}', [0xFA, 0x7E]), 
    ('\u{51B9}', [0xCA, 0x6B]), ('\u{51BC}', [0xCB, 0xCE]), ('\u{51BD}', [0xA8, 0xE6]), 
    ('\u{51BE}', [0xCB, 0xCF]), ('\u{51C3}', [0x92, 0xBB]), ('\u{51C4}', [0xD0, 0xE2]), 
    ('\u{51C5}', [0xD0, 0xE3]), ('\u{51C6}', [0xAD, 0xE3]), ('\u{51C7}', [0xFD, 0xB6]), 
    ('\u{51C8}', [0xD0, 0xE4]), ('\u{51C9}', [0xFA, 0xA2]), ('\u{51CA}', [0xD0, 0xE1]), 
    ('\u{51CB}', [0xAD, 0xE4]), ('\u{51CC}', [0xAD, 0xE2]), ('\u{51CD}', [0xAD, 0xE1]), 
    ('\u{51CE}', [0xD0, 0xE5]), ('\u{51CF}', [0xFA, 0xA3]), ('\u{51D0}', [0xD4, 0x68]), 
    ('\u{51D1}', [0xFA, 0xA4]), ('\u{51D2}', [0x9B, 0xB4]), ('\u{51D3}', [0xFA, 0xA6]), 
    ('\u{51D4}', [0xD8, 0x61]), ('\u{51D7}', [0xDC, 0xC5]), ('\u{51D8}', [0xE1, 0x40]), 
    ('\u{51DB}', [0x89, 0xDF]), ('\u{51DC}', [0xBB, 0xFE]), ('\u{51DD}', [0xBE, 0xAE]), 
    ('\u{51DE}', [0xE8, 0xF9]), ('\u{51DF}', [0xFD, 0xDB]), ('\u{51E0}', [0xA4, 0x4C]), 
    ('\u{51E1}', [0xA4, 0x5A]), ('\u{51E2}', [0xFA, 0xA9]), ('\u{51E4}', [0x89, 0x54]), 
    ('\u{51ED}', [0xFA, 0xAB]), ('\u{51F0}', [0xB0, 0xC4]), ('\u{51F1}', [0xB3, 0xCD]), 
    ('\u{51F3}', [0xB9, 0xB9]), ('\u{51F4}', [0xFC, 0x7A]), ('\u{51F5}', [0xC9, 0x42]), 
    ('\u{51F6}', [0xA4, 0xBF]), ('\u{51F8}', [0xA5, 0x59]), ('\u{51F9}', [0xA5, 0x57]), 
    ('\u{51FA}', [0xA5, 0x58]), ('\u{51FC}', [0x89, 0xE0]), ('\u{51FD}', [0xA8, 0xE7]), 
    ('\u{51FE}', [0x9F, 0x4F]), ('\u{5200}', [0xA4, 0x4D]), ('\u{5201}', [0xA4, 0x4E]), 
    ('\u{5202}', [0xC8, 0x7D]), ('\u{5203}', [0xA4, 0x62]), ('\u{5205}', [0x89, 0xE1]), 
    ('\u{5206}', [0xA4, 0xC0]), ('\u{5207}', [0xA4, 0xC1]), ('\u{5208}', [0xA4, 0xC2]), 
    ('\u{5209}', [0xC9, 0xBE]), ('\u{520A}', [0xA5, 0x5A]), ('\u{520B}', [0xFA, 0xB0]), 
    ('\u{520C}', [0xC9, 0x6B]), ('\u{520E}', [0xA6, 0x46]), ('\u{5210}', [0xC9, 0xBF]), 
    ('\u{5211}', [0xA6, 0x44]), ('\u{5212}', [0xA6, 0x45]), ('\u{5213}', [0xC9, 0xBD]), 
    ('\u{5216}', [0xA6, 0x47]), ('\u{5217}', [0xA6, 0x43]), ('\u{521C}', [0xCA, 0x6C]), 
    ('\u{521D}', [0xAA, 0xEC]), ('\u{521E}', [0xCA, 0x6D]), ('\u{521F}', [0x9F, 0xCD]), 
    ('\u{5220}', [0xA0, 0xE7]), ('\u{5221}', [0xCA, 0x6E]), ('\u{5224}', [0xA7, 0x50]), 
    ('\u{5225}', [0xA7, 0x4F]), ('\u{5226}', [0xFA, 0xB1]), ('\u{5227}', [0x89, 0xA6]), 
    ('\u{5228}', [0xA7, 0x53]), ('\u{5229}', [0xA7, 0x51]), ('\u{522A}', [0xA7, 0x52]), 
    ('\u{522E}', [0xA8, 0xED]), ('\u{5230}', [0xA8, 0xEC]), ('\u{5231}', [0xCB, 0xD4]), 
    ('\u{5232}', [0xCB, 0xD1]), ('\u{5233}', [0xCB, 0xD2]), ('\u{5234}', [0x9E, 0xFA]), 
    ('\u{5235}', [0xCB, 0xD0]), ('\u{5236}', [0xA8, 0xEE]), ('\u{5237}', [0xA8, 0xEA]), 
    ('\u{5238}', [0xA8, 0xE9]), ('\u{523A}', [0xA8, 0xEB]), ('\u{523B}', [0xA8, 0xE8]), 
    ('\u{523C}', [0xFA, 0xB2]), ('\u{5241}', [0xA8, 0xEF]), ('\u{5243}', [0xAB, 0x63]), 
    ('\u{5244}', [0xCD, 0xF0]), ('\u{5246}', [0xCB, 0xD3]), ('\u{5247}', [0xAB, 0x68]), 
    ('\u{5249}', [0xCD, 0xF1]), ('\u{524A}', [0xAB, 0x64]), ('\u{524B}', [0xAB, 0x67]), 
    ('\u{524C}', [0xAB, 0x66]), ('\u{524D}', [0xAB, 0x65]), ('\u{524E}', [0xAB, 0x62]), 
    ('\u{524F}', [0x87, 0xBC]), ('\u{5252}', [0xD0, 0xE8]), ('\u{5254}', [0xAD, 0xE7]), 
    ('\u{5255}', [0xD0, 0xEB]), ('\u{5256}', [0xAD, 0xE5]), ('\u{5257}', [0xFA, 0xB4]), 
    ('\u{5259}', [0x92, 0xC4]), ('\u{525A}', [0xD0, 0xE7]), ('\u{525B}', [0xAD, 0xE8]), 
    ('\u{525C}', [0xAD, 0xE6]), ('\u{525D}', [0xAD, 0xE9]), ('\u{525E}', [0xD0, 0xE9]), 
    ('\u{525F}', [0xD0, 0xEA]), ('\u{5260}', [0x9F, 0x6F]), ('\u{5261}', [0xD0, 0xE6]), 
    ('\u{5262}', [0xD0, 0xEC]), ('\u{5268}', [0x8B, 0xB0]), ('\u{5269}', [0xB3, 0xD1]), 
    ('\u{526A}', [0xB0, 0xC5]), ('\u{526B}', [0xD4, 0x69]), ('\u{526C}', [0xD4, 0x6B]), 
    ('\u{526D}', [0xD4, 0x6A]), ('\u{526E}', [0xD4, 0x6C]), ('\u{526F}', [0xB0, 0xC6]), 
    ('\u{5272}', [0xB3, 0xCE]), ('\u{5273}', [0x9F, 0xAC]), ('\u{5274}', [0xB3, 0xCF]), 
    ('\u{5275}', [0xB3, 0xD0]), ('\u{5277}', [0xB6, 0xD0]), ('\u{5278}', [0xDC, 0xC7]), 
    ('\u{5279}', [0x89, 0xE3]), ('\u{527A}', [0xDC, 0xC6]), ('\u{527B}', [0xDC, 0xC8]), 
    ('\u{527C}', [0xDC, 0xC9]), ('\u{527D}', [0xB6, 0xD1]), ('\u{527F}', [0xB6, 0xCF]), 
    ('\u{5280}', [0xE1, 0x41]), ('\u{5281}', [0xE1, 0x42]), ('\u{5282}', [0xB9, 0xBB]), 
    ('\u{5283}', [0xB9, 0xBA]), ('\u{5284}', [0xE3, 0x5A]), ('\u{5287}', [0xBC, 0x40]), 
    ('\u{5288}', [0xBC, 0x41]), ('\u{5289}', [0xBC, 0x42]), ('\u{528A}', [0xBC, 0x44]), 
    ('\u{528B}', [0xE4, 0xF2]), ('\u{528C}', [0xE4, 0xF3]), ('\u{528D}', [0xBC, 0x43]), 
    ('\u{528F}', [0x9B, 0xD3]), ('\u{5290}', [0x89, 0xE4]), ('\u{5291}', [0xBE, 0xAF]), 
    ('\u{5293}', [0xBE, 0xB0]), ('\u{5294}', [0xFA, 0xB5]), ('\u{5296}', [0xF1, 0xED]), 
    ('\u{5297}', [0xF5, 0xC3]), ('\u{5298}', [0xF5, 0xC2]), ('\u{5299}', [0xF7, 0xD1]), 
    ('\u{529A}', [0x9F, 0xD5]), ('\u{529B}', [0xA4, 0x4F]), ('\u{529F}', [0xA5, 0x5C]), 
    ('\u{52A0}', [0xA5, 0x5B]), ('\u{52A1}', [0x89, 0x55]), ('\u{52A3}', [0xA6, 0x48]), 
    ('\u{52A4}', [0x92, 0xC5]), ('\u{52A6}', [0xC9, 0xC0]), ('\u{52A8}', [0x89, 0x56]), 
    ('\u{52A9}', [0xA7, 0x55]), ('\u{52AA}', [0xA7, 0x56]), ('\u{52AB}', [0xA7, 0x54]), 
    ('\u{52AC}', [0xA7, 0x57]), ('\u{52AD}', [0xCA, 0x6F]), ('\u{52AE}', [0xCA, 0x70]), 
    ('\u{52B5}', [0xFA, 0xB3]), ('\u{52B9}', [0xFA, 0xB6]), ('\u{52BB}', [0xA8, 0xF1]), 
    ('\u{52BC}', [0xCB, 0xD5]), ('\u{52BE}', [0xA8, 0xF0]), ('\u{52C0}', [0xCD, 0xF2]), 
    ('\u{52C1}', [0xAB, 0x6C]), ('\u{52C2}', [0xCD, 0xF3]), ('\u{52C3}', [0xAB, 0x6B]), 
    ('\u{52C5}', [0xFA, 0xB7]), ('\u{52C7}', [0xAB, 0x69]), ('\u{52C9}', [0xAB, 0x6A]), 
    ('\u{52CC}', [0x9E, 0xDC]), ('\u{52CD}', [0xD0, 0xED]), ('\u{52D0}', [0xFB, 0xC4]), 
    ('\u{52D1}', [0x9F, 0x71]), ('\u{52D2}', [0xB0, 0xC7]), ('\u{52D3}', [0xD4, 0x6E]), 
    ('\u{52D5}', [0xB0, 0xCA]), ('\u{52D6}', [0xD4, 0x6D]), ('\u{52D7}', [0xB1, 0xE5]), 
    ('\u{52D8}', [0xB0, 0xC9]), ('\u{52D9}', [0xB0, 0xC8]), ('\u{52DB}', [0xB3, 0xD4]), 
    ('\u{52DD}', [0xB3, 0xD3]), ('\u{52DE}', [0xB3, 0xD2]), ('\u{52DF}', [0xB6, 0xD2]), 
    ('\u{52E0}', [0xFA, 0xBA]), ('\u{52E1}', [0x92, 0xC7]), ('\u{52E2}', [0xB6, 0xD5]), 
    ('\u{52E3}', [0xB6, 0xD6]), ('\u{52E4}', [0xB6, 0xD4]), ('\u{52E6}', [0xB6, 0xD3]), 
    ('\u{52E9}', [0xE1, 0x43]), ('\u{52EB}', [0xE1, 0x44]), ('\u{52EF}', [0xE4, 0xF5]), 
    ('\u{52F0}', [0xBC, 0x45]), ('\u{52F1}', [0xE4, 0xF4]), ('\u{52F3}', [0xBE, 0xB1]), 
    ('\u{52F4}', [0xEC, 0xBF]), ('\u{52F5}', [0xC0, 0x79]), ('\u{52F7}', [0xF1, 0xEE]), 
    ('\u{52F8}', [0xC4, 0x55]), ('\u{52F9}', [0xC6, 0xC6]), ('\u{52FA}', [0xA4, 0x63]), 
    ('\u{52FB}', [0xA4, 0xC3]), ('\u{52FC}', [0xC9, 0x56]), ('\u{52FE}', [0xA4, 0xC4]), 
    ('\u{52FF}', [0xA4, 0xC5]), ('\u{5301}', [0x9A, 0x4C]), ('\u{5305}', [0xA5, 0x5D]), 
    ('\u{5306}', [0xA5, 0x5E]), ('\u{5308}', [0xA6, 0x49]), ('\u{5309}', [0xCA, 0x71]), 
    ('\u{530A}', [0xCB, 0xD6]), ('\u{530B}', [0xCB, 0xD7]), ('\u{530D}', [0xAB, 0x6D]), 
    ('\u{530E}', [0xD0, 0xEE]), ('\u{530F}', [0xB0, 0xCC]), ('\u{5310}', [0xB0, 0xCB]), 
    ('\u{5311}', [0xD8, 0x63]), ('\u{5312}', [0xD8, 0x62]), ('\u{5315}', [0xA4, 0x50]), 
    ('\u{5316}', [0xA4, 0xC6]), ('\u{5317}', [0xA5, 0x5F]), ('\u{5319}', [0xB0, 0xCD]), 
    ('\u{531A}', [0xC9, 0x43]), ('\u{531C}', [0xC9, 0x6C]), ('\u{531D}', [0xA5, 0x60]), 
    ('\u{531F}', [0xC9, 0xC2]), ('\u{5320}', [0xA6, 0x4B]), ('\u{5321}', [0xA6, 0x4A]), 
    ('\u{5322}', [0xC9, 0xC1]), ('\u{5323}', [0xA7, 0x58]), ('\u{5324}', [0x8C, 0x68]), 
    ('\u{5327}', [0x89, 0xE5]), ('\u{532A}', [0xAD, 0xEA]), ('\u{532C}', [0x9F, 0x7D]), 
    ('\u{532D}', [0xD4, 0x6F]), ('\u{532F}', [0xB6, 0xD7]), ('\u{5330}', [0xE1, 0x45]), 
    ('\u{5331}', [0xB9, 0xBC]), ('\u{5332}', [0xA0, 0xA9]), ('\u{5333}', [0xFA, 0xC4]), 
    ('\u{5334}', [0xE8, 0xFA]), ('\u{5337}', [0xF3, 0xFD]), ('\u{5338}', [0xC6, 0xC7]), 
    ('\u{5339}', [0xA4, 0xC7]), ('\u{533B}', [0x89, 0x57]), ('\u{533C}', [0xCB, 0xD8]), 
    ('\u{533D}', [0xCD, 0xF4]), ('\u{533E}', [0xB0, 0xD0]), ('\u{533F}', [0xB0, 0xCE]), 
    ('\u{5340}', [0xB0, 0xCF]), ('\u{5341}', [0xA4, 0x51]), ('\u{5342}', [0xFA, 0xAA]), 
    ('\u{5343}', [0xA4, 0x64]), ('\u{5344}', [0xA2, 0xCD]), ('\u{5345}', [0xA4, 0xCA]), 
    ('\u{5347}', [0xA4, 0xC9]), ('\u{5348}', [0xA4, 0xC8]), ('\u{5349}', [0xA5, 0x63]), 
    ('\u{534A}', [0xA5, 0x62]), ('\u{534C}', [0xC9, 0x6D]), ('\u{534D}', [0xC9, 0xC3]), 
    ('\u{534E}', [0x89, 0x58]), ('\u{5351}', [0xA8, 0xF5]), ('\u{5352}', [0xA8, 0xF2]), 
    ('\u{5353}', [0xA8, 0xF4]), ('\u{5354}', [0xA8, 0xF3]), ('\u{5357}', [0xAB, 0x6E]), 
    ('\u{535A}', [0xB3, 0xD5]), ('\u{535C}', [0xA4, 0x52]), ('\u{535D}', [0x8B, 0xE3]), 
    ('\u{535E}', [0xA4, 0xCB]), ('\u{535F}', [0x8B, 0x61]), ('\u{5360}', [0xA5, 0x65]), 
    ('\u{5361}', [0xA5, 0x64]), ('\u{5363}', [0xCA, 0x72]), ('\u{5364}', [0x9A, 0xF1]), 
    ('\u{5366}', [0xA8, 0xF6]), ('\u{5367}', [0x9E, 0xB7]), ('\u{5369}', [0xC6, 0xC8]), 
    ('\u{536C}', [0xC9, 0x57]), ('\u{536D}', [0xFA, 0xD1]), ('\u{536E}', [0xA5, 0x67]), 
    ('\u{536F}', [0xA5, 0x66]), ('\u{5370}', [0xA6, 0x4C]), ('\u{5371}', [0xA6, 0x4D]), 
    ('\u{5372}', [0xCA, 0x73]), ('\u{5373}', [0xA7, 0x59]), ('\u{5374}', [0xFA, 0xD2]), 
    ('\u{5375}', [0xA7, 0x5A]), ('\u{5377}', [0xA8, 0xF7]), ('\u{5378}', [0xA8, 0xF8]), 
    ('\u{5379}', [0xA8, 0xF9]), ('\u{537B}', [0xAB, 0x6F]), ('\u{537C}', [0xCD, 0xF5]), 
    ('\u{537D}', [0x9E, 0xBA]), ('\u{537E}', [0xFA, 0xD4]), ('\u{537F}', [0xAD, 0xEB]), 
    ('\u{5382}', [0xC9, 0x44]), ('\u{5384}', [0xA4, 0xCC]), ('\u{538A}', [0xC9, 0xC4]), 
    ('\u{538E}', [0xCA, 0x74]), ('\u{538F}', [0xCA, 0x75]), ('\u{5392}', [0xCB, 0xD9]), 
    ('\u{5393}', [0xFA, 0xD9]), ('\u{5394}', [0xCB, 0xDA]), ('\u{5396}', [0xCD, 0xF7]), 
    ('\u{5397}', [0xCD, 0xF6]), ('\u{5398}', [0xCD, 0xF9]), ('\u{5399}', [0xCD, 0xF8]), 
    ('\u{539A}', [0xAB, 0x70]), ('\u{539C}', [0xD4, 0x70]), ('\u{539D}', [0xAD, 0xED]), 
    ('\u{539E}', [0xD0, 0xEF]), ('\u{539F}', [0xAD, 0xEC]), ('\u{53A0}', [0xFA, 0xDB]), 
    ('\u{53A2}', [0x9C, 0xE0]), ('\u{53A4}', [0xD8, 0x64]), ('\u{53A5}', [0xB3, 0xD6]), 
    ('\u{53A6}', [0xFB, 0xF7]), ('\u{53A7}', [0xD8, 0x65]), ('\u{53A8}', [0xFB, 0xFA]), 
    ('\u{53A9}', [0x89, 0xE7]), ('\u{53AA}', [0xA0, 0x7A]), ('\u{53AB}', [0xFA, 0xDC]), 
    ('\u{53AC}', [0xE1, 0x46]), ('\u{53AD}', [0xB9, 0xBD]), ('\u{53AE}', [0xFA, 0xDD]), 
"#

/-- src/generated/whatwg/big5_whatwg_tables.rs.inc:3249-3376 -/
noncomputable def encode6 : List Text := lines! r#"    ('\u{53B0}', [0x89, 0xE9]), ('\u{53B2}', [0xBC, 0x46]), ('\u{53B4}', [0xF1, 0xEF]), 
    ('\u{53B6}', [0xC6, 0xC9]), ('\u{53B9}', [0xC9, 0x58]), ('\u{53BB}', [0xA5, 0x68]), 
    ('\u{53C1}', [0xFA, 0xE2]), ('\u{53C2}', [0x89, 0xEB]), ('\u{53C3}', [0xB0, 0xD1]), 
    ('\u{53C5}', [0xFA, 0xE3]), ('\u{53C8}', [0xA4, 0x53]), ('\u{53C9}', [0xA4, 0x65]), 
    ('\u{53CA}', [0xA4, 0xCE]), ('\u{53CB}', [0xA4, 0xCD]), ('\u{53CC}', [0x90, 0xC8]), 
    ('\u{53CD}', [0xA4, 0xCF]), ('\u{53D0}', [0x92, 0xDA]), ('\u{53D1}', [0x89, 0x59]), 
    ('\u{53D2}', [0x9C, 0xF5]), ('\u{53D4}', [0xA8, 0xFB]), ('\u{53D6}', [0xA8, 0xFA]), 
    ('\u{53D7}', [0xA8, 0xFC]), ('\u{53D8}', [0x89, 0x5A]), ('\u{53D9}', [0xFA, 0xE7]), 
    ('\u{53DA}', [0x9F, 0xA2]), ('\u{53DB}', [0xAB, 0x71]), ('\u{53DF}', [0xAD, 0xEE]), 
    ('\u{53E0}', [0xFA, 0xEA]), ('\u{53E1}', [0xE8, 0xFB]), ('\u{53E2}', [0xC2, 0x4F]), 
    ('\u{53E3}', [0xA4, 0x66]), ('\u{53E4}', [0xA5, 0x6A]), ('\u{53E5}', [0xA5, 0x79]), 
    ('\u{53E6}', [0xA5, 0x74]), ('\u{53E8}', [0xA5, 0x6F]), ('\u{53E9}', [0xA5, 0x6E]), 
    ('\u{53EA}', [0xA5, 0x75]), ('\u{53EB}', [0xA5, 0x73]), ('\u{53EC}', [0xA5, 0x6C]), 
    ('\u{53ED}', [0xA5, 0x7A]), ('\u{53EE}', [0xA5, 0x6D]), ('\u{53EF}', [0xA5, 0x69]), 
    ('\u{53F0}', [0xA5, 0x78]), ('\u{53F1}', [0xA5, 0x77]), ('\u{53F2}', [0xA5, 0x76]), 
    ('\u{53F3}', [0xA5, 0x6B]), ('\u{53F5}', [0xA5, 0x72]), ('\u{53F6}', [0xFA, 0xED]), 
    ('\u{53F7}', [0x8F, 0xAD]), ('\u{53F8}', [0xA5, 0x71]), ('\u{53FB}', [0xA5, 0x7B]), 
    ('\u{53FC}', [0xA5, 0x70]), ('\u{53FE}', [0xFB, 0x59]), ('\u{5401}', [0xA6, 0x53]), 
    ('\u{5403}', [0xA6, 0x59]), ('\u{5404}', [0xA6, 0x55]), ('\u{5406}', [0xA6, 0x5B]), 
    ('\u{5407}', [0xC9, 0xC5]), ('\u{5408}', [0xA6, 0x58]), ('\u{5409}', [0xA6, 0x4E]), 
    ('\u{540A}', [0xA6, 0x51]), ('\u{540B}', [0xA6, 0x54]), ('\u{540C}', [0xA6, 0x50]), 
    ('\u{540D}', [0xA6, 0x57]), ('\u{540E}', [0xA6, 0x5A]), ('\u{540F}', [0xA6, 0x4F]), 
    ('\u{5410}', [0xA6, 0x52]), ('\u{5411}', [0xA6, 0x56]), ('\u{5412}', [0xA6, 0x5C]), 
    ('\u{5413}', [0xFA, 0xEF]), ('\u{5414}', [0x96, 0xEF]), ('\u{5416}', [0x9D, 0xEC]), 
    ('\u{5418}', [0xCA, 0x7E]), ('\u{5419}', [0xCA, 0x7B]), ('\u{541A}', [0x9D, 0xCA]), 
    ('\u{541B}', [0xA7, 0x67]), ('\u{541C}', [0xCA, 0x7C]), ('\u{541D}', [0xA7, 0x5B]), 
    ('\u{541E}', [0xA7, 0x5D]), ('\u{541F}', [0xA7, 0x75]), ('\u{5420}', [0xA7, 0x70]), 
    ('\u{5421}', [0xFD, 0x6D]), ('\u{5423}', [0x89, 0xEC]), ('\u{5424}', [0xCA, 0xA5]), 
    ('\u{5425}', [0xCA, 0x7D]), ('\u{5426}', [0xA7, 0x5F]), ('\u{5427}', [0xA7, 0x61]), 
    ('\u{5428}', [0xCA, 0xA4]), ('\u{5429}', [0xA7, 0x68]), ('\u{542A}', [0xCA, 0x78]), 
    ('\u{542B}', [0xA7, 0x74]), ('\u{542C}', [0xA7, 0x76]), ('\u{542D}', [0xA7, 0x5C]), 
    ('\u{542E}', [0xA7, 0x6D]), ('\u{542F}', [0xFB, 0x44]), ('\u{5430}', [0xCA, 0x76]), 
    ('\u{5431}', [0xA7, 0x73]), ('\u{5432}', [0x9D, 0xE2]), ('\u{5433}', [0xA7, 0x64]), 
    ('\u{5434}', [0x8C, 0x75]), ('\u{5435}', [0xA7, 0x6E]), ('\u{5436}', [0xA7, 0x6F]), 
    ('\u{5437}', [0xCA, 0x77]), ('\u{5438}', [0xA7, 0x6C]), ('\u{5439}', [0xA7, 0x6A]), 
    ('\u{543B}', [0xA7, 0x6B]), ('\u{543C}', [0xA7, 0x71]), ('\u{543D}', [0xCA, 0xA1]), 
    ('\u{543E}', [0xA7, 0x5E]), ('\u{5440}', [0xA7, 0x72]), ('\u{5441}', [0xCA, 0xA3]), 
    ('\u{5442}', [0xA7, 0x66]), ('\u{5443}', [0xA7, 0x63]), ('\u{5445}', [0xCA, 0x7A]), 
    ('\u{5446}', [0xA7, 0x62]), ('\u{5447}', [0xCA, 0xA6]), ('\u{5448}', [0xA7, 0x65]), 
    ('\u{544A}', [0xA7, 0x69]), ('\u{544B}', [0x9E, 0xC0]), ('\u{544C}', [0x87, 0xC5]), 
    ('\u{544D}', [0x9E, 0x56]), ('\u{544E}', [0xA7, 0x60]), ('\u{544F}', [0xCA, 0xA2]), 
    ('\u{5454}', [0xCA, 0x79]), ('\u{5460}', [0xCB, 0xEB]), ('\u{5461}', [0xCB, 0xEA]), 
    ('\u{5462}', [0xA9, 0x4F]), ('\u{5463}', [0xCB, 0xED]), ('\u{5464}', [0xCB, 0xEF]), 
    ('\u{5465}', [0xCB, 0xE4]), ('\u{5466}', [0xCB, 0xE7]), ('\u{5467}', [0xCB, 0xEE]), 
    ('\u{5468}', [0xA9, 0x50]), ('\u{5469}', [0x9F, 0x79]), ('\u{546A}', [0x9A, 0xC7]), 
    ('\u{546B}', [0xCB, 0xE1]), ('\u{546C}', [0xCB, 0xE5]), ('\u{546D}', [0xFA, 0xF4]), 
    ('\u{546F}', [0xCB, 0xE9]), ('\u{5470}', [0xCE, 0x49]), ('\u{5471}', [0xA9, 0x4B]), 
    ('\u{5472}', [0xCE, 0x4D]), ('\u{5473}', [0xA8, 0xFD]), ('\u{5474}', [0xCB, 0xE6]), 
    ('\u{5475}', [0xA8, 0xFE]), ('\u{5476}', [0xA9, 0x4C]), ('\u{5477}', [0xA9, 0x45]), 
    ('\u{5478}', [0xA9, 0x41]), ('\u{547A}', [0xCB, 0xE2]), ('\u{547B}', [0xA9, 0x44]), 
    ('\u{547C}', [0xA9, 0x49]), ('\u{547D}', [0xA9, 0x52]), ('\u{547E}', [0xCB, 0xE3]), 
    ('\u{547F}', [0xCB, 0xDC]), ('\u{5480}', [0xA9, 0x43]), ('\u{5481}', [0xCB, 0xDD]), 
    ('\u{5482}', [0xCB, 0xDF]), ('\u{5484}', [0xA9, 0x46]), ('\u{5485}', [0x98, 0xA1]), 
    ('\u{5486}', [0xA9, 0x48]), ('\u{5487}', [0xCB, 0xDB]), ('\u{5488}', [0xCB, 0xE0]), 
    ('\u{548B}', [0xA9, 0x51]), ('\u{548C}', [0xA9, 0x4D]), ('\u{548D}', [0xCB, 0xE8]), 
    ('\u{548E}', [0xA9, 0x53]), ('\u{548F}', [0xFA, 0xF8]), ('\u{5490}', [0xA9, 0x4A]), 
    ('\u{5491}', [0xCB, 0xDE]), ('\u{5492}', [0xA9, 0x47]), ('\u{5493}', [0x89, 0xF0]), 
    ('\u{5494}', [0x9E, 0x47]), ('\u{5495}', [0xA9, 0x42]), ('\u{5496}', [0xA9, 0x40]), 
    ('\u{5497}', [0x9D, 0xF7]), ('\u{5498}', [0xCB, 0xEC]), ('\u{549A}', [0xA9, 0x4E]), 
    ('\u{549C}', [0x9F, 0xD3]), ('\u{549E}', [0x9A, 0xCA]), ('\u{54A0}', [0xCE, 0x48]), 
    ('\u{54A1}', [0xCD, 0xFB]), ('\u{54A2}', [0xCE, 0x4B]), ('\u{54A3}', [0x89, 0xF1]), 
    ('\u{54A4}', [0xFA, 0xF9]), ('\u{54A5}', [0xCD, 0xFD]), ('\u{54A6}', [0xAB, 0x78]), 
    ('\u{54A7}', [0xAB, 0xA8]), ('\u{54A8}', [0xAB, 0x74]), ('\u{54A9}', [0xAB, 0xA7]), 
    ('\u{54AA}', [0xAB, 0x7D]), ('\u{54AB}', [0xAB, 0xA4]), ('\u{54AC}', [0xAB, 0x72]), 
    ('\u{54AD}', [0xCD, 0xFC]), ('\u{54AE}', [0xCE, 0x43]), ('\u{54AF}', [0xAB, 0xA3]), 
    ('\u{54B0}', [0xCE, 0x4F]), ('\u{54B1}', [0xAB, 0xA5]), ('\u{54B2}', [0x8E, 0x5A]), 
    ('\u{54B3}', [0xAB, 0x79]), ('\u{54B4}', [0x89, 0xF2]), ('\u{54B6}', [0xCE, 0x45]), 
    ('\u{54B7}', [0xCE, 0x42]), ('\u{54B8}', [0xAB, 0x77]), ('\u{54B9}', [0x89, 0xF3]), 
    ('\u{54BA}', [0xCD, 0xFA]), ('\u{54BB}', [0xAB, 0xA6]), ('\u{54BC}', [0xCE, 0x4A]), 
    ('\u{54BD}', [0xAB, 0x7C]), ('\u{54BE}', [0xCE, 0x4C]), ('\u{54BF}', [0xAB, 0xA9]), 
    ('\u{54C0}', [0xAB, 0x73]), ('\u{54C1}', [0xAB, 0x7E]), ('\u{54C2}', [0xAB, 0x7B]), 
    ('\u{54C3}', [0xCE, 0x40]), ('\u{54C4}', [0xAB, 0xA1]), ('\u{54C5}', [0xCE, 0x46]), 
    ('\u{54C6}', [0xCE, 0x47]), ('\u{54C7}', [0xAB, 0x7A]), ('\u{54C8}', [0xAB, 0xA2]), 
    ('\u{54C9}', [0xAB, 0x76]), ('\u{54CB}', [0x92, 0x5D]), ('\u{54CC}', [0x8B, 0x51]), 
    ('\u{54CD}', [0x92, 0xE0]), ('\u{54CE}', [0xAB, 0x75]), ('\u{54CF}', [0xCD, 0xFE]), 
    ('\u{54D0}', [0x89, 0xF4]), ('\u{54D6}', [0xCE, 0x44]), ('\u{54DA}', [0x9F, 0xD4]), 
    ('\u{54DE}', [0xCE, 0x4E]), ('\u{54E0}', [0xD1, 0x44]), ('\u{54E1}', [0xAD, 0xFB]), 
    ('\u{54E2}', [0xD0, 0xF1]), ('\u{54E3}', [0x8A, 0x79]), ('\u{54E4}', [0xD0, 0xF6]), 
    ('\u{54E5}', [0xAD, 0xF4]), ('\u{54E6}', [0xAE, 0x40]), ('\u{54E7}', [0xD0, 0xF4]), 
    ('\u{54E8}', [0xAD, 0xEF]), ('\u{54E9}', [0xAD, 0xF9]), ('\u{54EA}', [0xAD, 0xFE]), 
    ('\u{54EB}', [0xD0, 0xFB]), ('\u{54ED}', [0xAD, 0xFA]), ('\u{54EE}', [0xAD, 0xFD]), 
    ('\u{54EF}', [0x89, 0xF5]), ('\u{54F1}', [0xD0, 0xFE]), ('\u{54F2}', [0xAD, 0xF5]), 
    ('\u{54F3}', [0xD0, 0xF5]), ('\u{54F7}', [0xD1, 0x42]), ('\u{54F8}', [0xD1, 0x43]), 
    ('\u{54FA}', [0xAD, 0xF7]), ('\u{54FB}', [0xD1, 0x41]), ('\u{54FC}', [0xAD, 0xF3]), 
    ('\u{54FD}', [0xAE, 0x43]), ('\u{54FF}', [0xD0, 0xF8]), ('\u{5501}', [0xAD, 0xF1]), 
    ('\u{5502}', [0x97, 0xA7]), ('\u{5503}', [0xD1, 0x46]), ('\u{5504}', [0xD0, 0xF9]), 
    ('\u{5505}', [0xD0, 0xFD]), ('\u{5506}', [0xAD, 0xF6]), ('\u{5507}', [0xAE, 0x42]), 
    ('\u{5508}', [0xD0, 0xFA]), ('\u{5509}', [0xAD, 0xFC]), ('\u{550A}', [0xD1, 0x40]), 
    ('\u{550B}', [0xD1, 0x47]), ('\u{550C}', [0xD4, 0xA1]), ('\u{550D}', [0x93, 0xBA]), 
    ('\u{550E}', [0xD1, 0x45]), ('\u{550F}', [0xAE, 0x44]), ('\u{5510}', [0xAD, 0xF0]), 
    ('\u{5511}', [0xD0, 0xFC]), ('\u{5512}', [0xD0, 0xF3]), ('\u{5513}', [0x9E, 0x58]), 
    ('\u{5514}', [0xAD, 0xF8]), ('\u{5517}', [0xD0, 0xF2]), ('\u{5518}', [0x89, 0xF6]), 
    ('\u{551A}', [0xD0, 0xF7]), ('\u{551E}', [0x9E, 0x57]), ('\u{5523}', [0x89, 0xF7]), 
    ('\u{5525}', [0x8A, 0x41]), ('\u{5526}', [0xD0, 0xF0]), ('\u{5527}', [0xAE, 0x41]), 
    ('\u{5528}', [0x89, 0xF8]), ('\u{552A}', [0xD4, 0x77]), ('\u{552B}', [0xFA, 0xF1]), 
    ('\u{552C}', [0xB0, 0xE4]), ('\u{552D}', [0xD4, 0xA7]), ('\u{552E}', [0xB0, 0xE2]), 
    ('\u{552F}', [0xB0, 0xDF]), ('\u{5530}', [0xD4, 0x7C]), ('\u{5531}', [0xB0, 0xDB]), 
    ('\u{5532}', [0xD4, 0xA2]), ('\u{5533}', [0xB0, 0xE6]), ('\u{5534}', [0xD4, 0x76]), 
    ('\u{5535}', [0xD4, 0x7B]), ('\u{5536}', [0xD4, 0x7A]), ('\u{5537}', [0xAD, 0xF2]), 
    ('\u{5538}', [0xB0, 0xE1]), ('\u{5539}', [0xD4, 0xA5]), ('\u{553B}', [0xD4, 0xA8]), 
    ('\u{553C}', [0xD4, 0x73]), ('\u{553E}', [0xB3, 0xE8]), ('\u{553F}', [0x89, 0xFA]), 
    ('\u{5540}', [0xD4, 0xA9]), ('\u{5541}', [0xB0, 0xE7]), ('\u{5543}', [0xB0, 0xD9]), 
    ('\u{5544}', [0xB0, 0xD6]), ('\u{5545}', [0xD4, 0x7E]), ('\u{5546}', [0xB0, 0xD3]), 
    ('\u{5547}', [0xFB, 0x42]), ('\u{5548}', [0xD4, 0xA6]), ('\u{5549}', [0xFA, 0xBF]), 
    ('\u{554A}', [0xB0, 0xDA]), ('\u{554B}', [0xD4, 0xAA]), ('\u{554D}', [0xD4, 0x74]), 
    ('\u{554E}', [0xD4, 0xA4]), ('\u{554F}', [0xB0, 0xDD]), ('\u{5550}', [0xD4, 0x75]), 
    ('\u{5551}', [0xD4, 0x78]), ('\u{5552}', [0xD4, 0x7D]), ('\u{5553}', [0xFB, 0xA3]), 
    ('\u{5555}', [0xB0, 0xDE]), ('\u{5556}', [0xB0, 0xDC]), ('\u{5557}', [0xB0, 0xE8]), 
    ('\u{555C}', [0xB0, 0xE3]), ('\u{555D}', [0xFA, 0xF7]), ('\u{555E}', [0xB0, 0xD7]), 
    ('\u{555F}', [0xB1, 0xD2]), ('\u{5561}', [0xB0, 0xD8]), ('\u{5562}', [0xD4, 0x79]), 
    ('\u{5563}', [0xB0, 0xE5]), ('\u{5564}', [0xB0, 0xE0]), ('\u{5565}', [0xD4, 0xA3]), 
    ('\u{5566}', [0xB0, 0xD5]), ('\u{5569}', [0x9E, 0x4E]), ('\u{556A}', [0xB0, 0xD4]), 
    ('\u{556B}', [0x94, 0xDC]), ('\u{5571}', [0x95, 0xDA]), ('\u{5572}', [0x9D, 0xF8]), 
    ('\u{5573}', [0x9F, 0x6A]), ('\u{5575}', [0xD4, 0x71]), ('\u{5576}', [0xD4, 0x72]), 
    ('\u{5577}', [0xD8, 0x6A]), ('\u{5579}', [0x8A, 0xB7]), ('\u{557B}', [0xB3, 0xD7]), 
    ('\u{557C}', [0xB3, 0xDA]), ('\u{557D}', [0xD8, 0x75]), ('\u{557E}', [0xB3, 0xEE]), 
    ('\u{557F}', [0xD8, 0x78]), ('\u{5580}', [0xB3, 0xD8]), ('\u{5581}', [0xD8, 0x71]), 
    ('\u{5582}', [0xB3, 0xDE]), ('\u{5583}', [0xB3, 0xE4]), ('\u{5584}', [0xB5, 0xBD]), 
    ('\u{5586}', [0xFB, 0x46]), ('\u{5587}', [0xB3, 0xE2]), ('\u{5588}', [0xD8, 0x6E]), 
    ('\u{5589}', [0xB3, 0xEF]), ('\u{558A}', [0xB3, 0xDB]), ('\u{558B}', [0xB3, 0xE3]), 
    ('\u{558C}', [0xD8, 0x76]), ('\u{558D}', [0xDC, 0xD7]), ('\u{558E}', [0xD8, 0x7B]), 
    ('\u{558F}', [0xD8, 0x6F]), ('\u{5590}', [0x8A, 0x46]), ('\u{5591}', [0xD8, 0x66]), 
    ('\u{5592}', [0xD8, 0x73]), ('\u{5593}', [0xD8, 0x6D]), ('\u{5594}', [0xB3, 0xE1]), 
    ('\u{5595}', [0xD8, 0x79]), ('\u{5598}', [0xB3, 0xDD]), ('\u{5599}', [0xB3, 0xF1]), 
    ('\u{559A}', [0xB3, 0xEA]), ('\u{559C}', [0xB3, 0xDF]), ('\u{559D}', [0xB3, 0xDC]), 
    ('\u{559F}', [0xB3, 0xE7]), ('\u{55A1}', [0xD8, 0x7A]), ('\u{55A2}', [0xD8, 0x6C]), 
    ('\u{55A3}', [0xD8, 0x72]), ('\u{55A4}', [0xD8, 0x74]), ('\u{55A5}', [0xD8, 0x68]), 
    ('\u{55A6}', [0xD8, 0x77]), ('\u{55A7}', [0xB3, 0xD9]), ('\u{55A8}', [0xD8, 0x67]), 
"#

/-- src/generated/whatwg/big5_whatwg_tables.rs.inc:3377-3504 -/
noncomputable def encode7 : List Text := lines! r#"    ('\u{55A9}', [0xFB, 0x47]), ('\u{55AA}', [0xB3, 0xE0]), ('\u{55AB}', [0xB3, 0xF0]), 
    ('\u{55AC}', [0xB3, 0xEC]), ('\u{55AD}', [0xD8, 0x69]), ('\u{55AE}', [0xB3, 0xE6]), 
    ('\u{55B0}', [0x91, 0x48]), ('\u{55B1}', [0xB3, 0xED]), ('\u{55B2}', [0xB3, 0xE9]), 
    ('\u{55B3}', [0xB3, 0xE5]), ('\u{55B4}', [0x92, 0xDE]), ('\u{55B5}', [0xD8, 0x70]), 
    ('\u{55B9}', [0x8B, 0x53]), ('\u{55BA}', [0x9D, 0xF6]), ('\u{55BB}', [0xB3, 0xEB]), 
    ('\u{55BC}', [0x9B, 0xDA]), ('\u{55BF}', [0xDC, 0xD5]), ('\u{55C0}', [0xDC, 0xD1]), 
    ('\u{55C1}', [0x9D, 0x7E]), ('\u{55C2}', [0xDC, 0xE0]), ('\u{55C3}', [0xDC, 0xCA]), 
    ('\u{55C4}', [0xDC, 0xD3]), ('\u{55C5}', [0xB6, 0xE5]), ('\u{55C6}', [0xB6, 0xE6]), 
    ('\u{55C7}', [0xB6, 0xDE]), ('\u{55C8}', [0xDC, 0xDC]), ('\u{55C9}', [0xB6, 0xE8]), 
    ('\u{55CA}', [0xDC, 0xCF]), ('\u{55CB}', [0xDC, 0xCE]), ('\u{55CC}', [0xDC, 0xCC]), 
    ('\u{55CD}', [0xDC, 0xDE]), ('\u{55CE}', [0xB6, 0xDC]), ('\u{55CF}', [0xDC, 0xD8]), 
    ('\u{55D0}', [0xDC, 0xCD]), ('\u{55D1}', [0xB6, 0xDF]), ('\u{55D2}', [0xDC, 0xD6]), 
    ('\u{55D3}', [0xB6, 0xDA]), ('\u{55D4}', [0xDC, 0xD2]), ('\u{55D5}', [0xDC, 0xD9]), 
    ('\u{55D6}', [0xDC, 0xDB]), ('\u{55D7}', [0x89, 0xFD]), ('\u{55D8}', [0x99, 0xE4]), 
    ('\u{55D9}', [0xDC, 0xDF]), ('\u{55DA}', [0xB6, 0xE3]), ('\u{55DB}', [0xDC, 0xCB]), 
    ('\u{55DC}', [0xB6, 0xDD]), ('\u{55DD}', [0xDC, 0xD0]), ('\u{55DE}', [0x9E, 0x43]), 
    ('\u{55DF}', [0xB6, 0xD8]), ('\u{55E1}', [0xB6, 0xE4]), ('\u{55E2}', [0xDC, 0xDA]), 
    ('\u{55E3}', [0xB6, 0xE0]), ('\u{55E4}', [0xB6, 0xE1]), ('\u{55E5}', [0xB6, 0xE7]), 
    ('\u{55E6}', [0xB6, 0xDB]), ('\u{55E7}', [0xA2, 0x5F]), ('\u{55E8}', [0xB6, 0xD9]), 
    ('\u{55E9}', [0xDC, 0xD4]), ('\u{55EA}', [0x9D, 0xE9]), ('\u{55EC}', [0x8F, 0x52]), 
    ('\u{55EF}', [0xB6, 0xE2]), ('\u{55F0}', [0x9D, 0xF5]), ('\u{55F1}', [0x9D, 0xF0]), 
    ('\u{55F2}', [0xDC, 0xDD]), ('\u{55F5}', [0x99, 0xE7]), ('\u{55F6}', [0xB9, 0xCD]), 
    ('\u{55F7}', [0xB9, 0xC8]), ('\u{55F9}', [0xE1, 0x55]), ('\u{55FA}', [0xE1, 0x51]), 
    ('\u{55FB}', [0x8B, 0xBD]), ('\u{55FC}', [0xE1, 0x4B]), ('\u{55FD}', [0xB9, 0xC2]), 
    ('\u{55FE}', [0xB9, 0xBE]), ('\u{55FF}', [0xE1, 0x54]), ('\u{5600}', [0xB9, 0xBF]), 
    ('\u{5601}', [0xE1, 0x4E]), ('\u{5602}', [0xE1, 0x50]), ('\u{5604}', [0xE1, 0x53]), 
    ('\u{5605}', [0x9D, 0xEF]), ('\u{5606}', [0xB9, 0xC4]), ('\u{5608}', [0xB9, 0xCB]), 
    ('\u{5609}', [0xB9, 0xC5]), ('\u{560C}', [0xE1, 0x49]), ('\u{560D}', [0xB9, 0xC6]), 
    ('\u{560E}', [0xB9, 0xC7]), ('\u{560F}', [0xE1, 0x4C]), ('\u{5610}', [0xB9, 0xCC]), 
    ('\u{5611}', [0x9F, 0xB7]), ('\u{5612}', [0xE1, 0x4A]), ('\u{5613}', [0xE1, 0x4F]), 
    ('\u{5614}', [0xB9, 0xC3]), ('\u{5615}', [0xE1, 0x48]), ('\u{5616}', [0xB9, 0xC9]), 
    ('\u{5617}', [0xB9, 0xC1]), ('\u{561B}', [0xB9, 0xC0]), ('\u{561C}', [0xE1, 0x4D]), 
    ('\u{561D}', [0xE1, 0x52]), ('\u{561E}', [0x9D, 0xD0]), ('\u{561F}', [0xB9, 0xCA]), 
    ('\u{5620}', [0x9F, 0xEB]), ('\u{5621}', [0x8D, 0xA9]), ('\u{5622}', [0x9D, 0xCF]), 
    ('\u{5623}', [0x98, 0xE1]), ('\u{5625}', [0x9D, 0xE5]), ('\u{5627}', [0xE1, 0x47]), 
    ('\u{5629}', [0xBC, 0x4D]), ('\u{562A}', [0xE5, 0x47]), ('\u{562C}', [0xE5, 0x44]), 
    ('\u{562D}', [0x9D, 0xC8]), ('\u{562E}', [0xBC, 0x47]), ('\u{562F}', [0xBC, 0x53]), 
    ('\u{5630}', [0xBC, 0x54]), ('\u{5632}', [0xBC, 0x4A]), ('\u{5633}', [0xE5, 0x42]), 
    ('\u{5634}', [0xBC, 0x4C]), ('\u{5635}', [0xE4, 0xF9]), ('\u{5636}', [0xBC, 0x52]), 
    ('\u{5637}', [0xFB, 0x4F]), ('\u{5638}', [0xE5, 0x46]), ('\u{5639}', [0xBC, 0x49]), 
    ('\u{563A}', [0xE5, 0x48]), ('\u{563B}', [0xBC, 0x48]), ('\u{563D}', [0xE5, 0x43]), 
    ('\u{563E}', [0xE5, 0x45]), ('\u{563F}', [0xBC, 0x4B]), ('\u{5640}', [0xE5, 0x41]), 
    ('\u{5641}', [0xE4, 0xFA]), ('\u{5642}', [0xE4, 0xF7]), ('\u{5643}', [0x9D, 0xEB]), 
    ('\u{5645}', [0xD8, 0x6B]), ('\u{5646}', [0xE4, 0xFD]), ('\u{5648}', [0xE4, 0xF6]), 
    ('\u{5649}', [0xE4, 0xFC]), ('\u{564A}', [0xE4, 0xFB]), ('\u{564C}', [0xE4, 0xF8]), 
    ('\u{564D}', [0xFB, 0x54]), ('\u{564E}', [0xBC, 0x4F]), ('\u{564F}', [0xFB, 0x55]), 
    ('\u{5650}', [0x9A, 0xA2]), ('\u{5652}', [0x8A, 0xD6]), ('\u{5653}', [0xBC, 0x4E]), 
    ('\u{5654}', [0x9A, 0x5F]), ('\u{5657}', [0xBC, 0x50]), ('\u{5658}', [0xE4, 0xFE]), 
    ('\u{5659}', [0xBE, 0xB2]), ('\u{565A}', [0xE5, 0x40]), ('\u{565D}', [0x9E, 0xF5]), 
    ('\u{565E}', [0xE9, 0x45]), ('\u{5660}', [0xE8, 0xFD]), ('\u{5661}', [0x8F, 0xB7]), 
    ('\u{5662}', [0xBE, 0xBE]), ('\u{5663}', [0xE9, 0x42]), ('\u{5664}', [0xBE, 0xB6]), 
    ('\u{5665}', [0xBE, 0xBA]), ('\u{5666}', [0xE9, 0x41]), ('\u{5668}', [0xBE, 0xB9]), 
    ('\u{5669}', [0xBE, 0xB5]), ('\u{566A}', [0xBE, 0xB8]), ('\u{566B}', [0xBE, 0xB3]), 
    ('\u{566C}', [0xBE, 0xBD]), ('\u{566D}', [0xE9, 0x43]), ('\u{566E}', [0xE8, 0xFE]), 
    ('\u{566F}', [0xBE, 0xBC]), ('\u{5670}', [0xE8, 0xFC]), ('\u{5671}', [0xBE, 0xBB]), 
    ('\u{5672}', [0xE9, 0x44]), ('\u{5673}', [0xE9, 0x40]), ('\u{5674}', [0xBC, 0x51]), 
    ('\u{5676}', [0xBE, 0xBF]), ('\u{5677}', [0xE9, 0x46]), ('\u{5678}', [0xBE, 0xB7]), 
    ('\u{5679}', [0xBE, 0xB4]), ('\u{567A}', [0x9A, 0xD2]), ('\u{567B}', [0x9E, 0x6A]), 
    ('\u{567C}', [0x9E, 0xE8]), ('\u{567E}', [0xEC, 0xC6]), ('\u{567F}', [0xEC, 0xC8]), 
    ('\u{5680}', [0xC0, 0x7B]), ('\u{5681}', [0xEC, 0xC9]), ('\u{5682}', [0xEC, 0xC7]), 
    ('\u{5683}', [0xEC, 0xC5]), ('\u{5684}', [0xEC, 0xC4]), ('\u{5685}', [0xC0, 0x7D]), 
    ('\u{5686}', [0xEC, 0xC3]), ('\u{5687}', [0xC0, 0x7E]), ('\u{5689}', [0x8B, 0xBF]), 
    ('\u{568A}', [0x91, 0xC2]), ('\u{568B}', [0x9D, 0x62]), ('\u{568C}', [0xEC, 0xC1]), 
    ('\u{568D}', [0xEC, 0xC2]), ('\u{568E}', [0xC0, 0x7A]), ('\u{568F}', [0xC0, 0xA1]), 
    ('\u{5690}', [0xC0, 0x7C]), ('\u{5692}', [0x92, 0x60]), ('\u{5693}', [0xEC, 0xC0]), 
    ('\u{5695}', [0xC2, 0x50]), ('\u{5697}', [0xEF, 0xBC]), ('\u{5698}', [0xEF, 0xBA]), 
    ('\u{5699}', [0xEF, 0xBF]), ('\u{569A}', [0xEF, 0xBD]), ('\u{569C}', [0xEF, 0xBB]), 
    ('\u{569D}', [0xEF, 0xBE]), ('\u{569E}', [0x92, 0x5E]), ('\u{569F}', [0x91, 0xC1]), 
    ('\u{56A1}', [0x8A, 0xC5]), ('\u{56A4}', [0x97, 0xA3]), ('\u{56A5}', [0xC3, 0x60]), 
    ('\u{56A6}', [0xF1, 0xF2]), ('\u{56A7}', [0xF1, 0xF3]), ('\u{56A8}', [0xC4, 0x56]), 
    ('\u{56AA}', [0xF1, 0xF4]), ('\u{56AB}', [0xF1, 0xF0]), ('\u{56AC}', [0xF1, 0xF5]), 
    ('\u{56AD}', [0xF1, 0xF1]), ('\u{56AE}', [0xC2, 0x51]), ('\u{56AF}', [0x8B, 0x6C]), 
    ('\u{56B1}', [0x8D, 0x7E]), ('\u{56B2}', [0xF3, 0xFE]), ('\u{56B3}', [0xF4, 0x41]), 
    ('\u{56B4}', [0xC4, 0x59]), ('\u{56B5}', [0xF4, 0x40]), ('\u{56B6}', [0xC4, 0x58]), 
    ('\u{56B7}', [0xC4, 0x57]), ('\u{56B9}', [0x9C, 0x54]), ('\u{56BC}', [0xC4, 0x5A]), 
    ('\u{56BD}', [0xF5, 0xC5]), ('\u{56BE}', [0xF5, 0xC6]), ('\u{56BF}', [0x9D, 0xBD]), 
    ('\u{56C0}', [0xC4, 0xDA]), ('\u{56C1}', [0xC4, 0xD9]), ('\u{56C2}', [0xC4, 0xDB]), 
    ('\u{56C3}', [0xF5, 0xC4]), ('\u{56C5}', [0xF6, 0xD8]), ('\u{56C6}', [0xF6, 0xD7]), 
    ('\u{56C8}', [0xC5, 0x6D]), ('\u{56C9}', [0xC5, 0x6F]), ('\u{56CA}', [0xC5, 0x6E]), 
    ('\u{56CB}', [0xF6, 0xD9]), ('\u{56CC}', [0xC5, 0xC8]), ('\u{56CD}', [0xF8, 0xA6]), 
    ('\u{56D1}', [0xC5, 0xF1]), ('\u{56D3}', [0xF8, 0xA5]), ('\u{56D4}', [0xF8, 0xEE]), 
    ('\u{56D6}', [0x9C, 0xC5]), ('\u{56D7}', [0xC9, 0x49]), ('\u{56DA}', [0xA5, 0x7D]), 
    ('\u{56DB}', [0xA5, 0x7C]), ('\u{56DD}', [0xA6, 0x5F]), ('\u{56DE}', [0xA6, 0x5E]), 
    ('\u{56DF}', [0xC9, 0xC7]), ('\u{56E0}', [0xA6, 0x5D]), ('\u{56E1}', [0xC9, 0xC6]), 
    ('\u{56E2}', [0x89, 0x5B]), ('\u{56E4}', [0xA7, 0x79]), ('\u{56E5}', [0xCA, 0xA9]), 
    ('\u{56E7}', [0xCA, 0xA8]), ('\u{56EA}', [0xA7, 0x77]), ('\u{56EB}', [0xA7, 0x7A]), 
    ('\u{56ED}', [0xFB, 0x5C]), ('\u{56EE}', [0xCA, 0xA7]), ('\u{56EF}', [0xFB, 0x5B]), 
    ('\u{56F0}', [0xA7, 0x78]), ('\u{56F1}', [0xFB, 0x57]), ('\u{56F7}', [0xCB, 0xF0]), 
    ('\u{56F9}', [0xCB, 0xF1]), ('\u{56FA}', [0xA9, 0x54]), ('\u{56FB}', [0x87, 0x65]), 
    ('\u{56FD}', [0x98, 0xC7]), ('\u{56FF}', [0xAB, 0xAA]), ('\u{5700}', [0xFB, 0x5A]), 
    ('\u{5701}', [0xD1, 0x48]), ('\u{5702}', [0xD1, 0x49]), ('\u{5703}', [0xAE, 0x45]), 
    ('\u{5704}', [0xAE, 0x46]), ('\u{5707}', [0xD4, 0xAC]), ('\u{5708}', [0xB0, 0xE9]), 
    ('\u{5709}', [0xB0, 0xEB]), ('\u{570A}', [0xD4, 0xAB]), ('\u{570B}', [0xB0, 0xEA]), 
    ('\u{570C}', [0xD8, 0x7C]), ('\u{570D}', [0xB3, 0xF2]), ('\u{5712}', [0xB6, 0xE9]), 
    ('\u{5713}', [0xB6, 0xEA]), ('\u{5714}', [0xDC, 0xE1]), ('\u{5715}', [0x9C, 0xEE]), 
    ('\u{5716}', [0xB9, 0xCF]), ('\u{5718}', [0xB9, 0xCE]), ('\u{571A}', [0xE5, 0x49]), 
    ('\u{571B}', [0xE9, 0x48]), ('\u{571C}', [0xE9, 0x47]), ('\u{571D}', [0x92, 0xE2]), 
    ('\u{571E}', [0xF9, 0x6B]), ('\u{571F}', [0xA4, 0x67]), ('\u{5720}', [0xC9, 0x59]), 
    ('\u{5722}', [0xC9, 0x6E]), ('\u{5723}', [0xC9, 0x6F]), ('\u{5728}', [0xA6, 0x62]), 
    ('\u{5729}', [0xA6, 0x66]), ('\u{572A}', [0xC9, 0xC9]), ('\u{572C}', [0xA6, 0x64]), 
    ('\u{572D}', [0xA6, 0x63]), ('\u{572E}', [0xC9, 0xC8]), ('\u{572F}', [0xA6, 0x65]), 
    ('\u{5730}', [0xA6, 0x61]), ('\u{5732}', [0x94, 0xA7]), ('\u{5733}', [0xA6, 0x60]), 
    ('\u{5734}', [0xC9, 0xCA]), ('\u{573B}', [0xA7, 0xA6]), ('\u{573D}', [0x8C, 0xCC]), 
    ('\u{573E}', [0xA7, 0xA3]), ('\u{573F}', [0x9B, 0xD4]), ('\u{5740}', [0xA7, 0x7D]), 
    ('\u{5741}', [0xCA, 0xAA]), ('\u{5742}', [0xFB, 0x64]), ('\u{5743}', [0xFB, 0x76]), 
    ('\u{5745}', [0xCA, 0xAB]), ('\u{5746}', [0xFB, 0x60]), ('\u{5747}', [0xA7, 0xA1]), 
    ('\u{5749}', [0xCA, 0xAD]), ('\u{574A}', [0xA7, 0x7B]), ('\u{574B}', [0xCA, 0xAE]), 
    ('\u{574C}', [0xCA, 0xAC]), ('\u{574D}', [0xA7, 0x7E]), ('\u{574E}', [0xA7, 0xA2]), 
    ('\u{574F}', [0xA7, 0xA5]), ('\u{5750}', [0xA7, 0xA4]), ('\u{5751}', [0xA7, 0x7C]), 
    ('\u{5752}', [0xCA, 0xAF]), ('\u{5754}', [0x99, 0xE5]), ('\u{5757}', [0x9A, 0xC2]), 
    ('\u{575B}', [0x91, 0xFB]), ('\u{575F}', [0xA0, 0x73]), ('\u{5761}', [0xA9, 0x59]), 
    ('\u{5762}', [0xCB, 0xFE]), ('\u{5764}', [0xA9, 0x5B]), ('\u{5766}', [0xA9, 0x5A]), 
    ('\u{5767}', [0x9F, 0x72]), ('\u{5768}', [0xCC, 0x40]), ('\u{5769}', [0xA9, 0x58]), 
    ('\u{576A}', [0xA9, 0x57]), ('\u{576B}', [0xCB, 0xF5]), ('\u{576D}', [0xCB, 0xF4]), 
    ('\u{576F}', [0xCB, 0xF2]), ('\u{5770}', [0xCB, 0xF7]), ('\u{5771}', [0xCB, 0xF6]), 
    ('\u{5772}', [0xCB, 0xF3]), ('\u{5773}', [0xCB, 0xFC]), ('\u{5774}', [0xCB, 0xFD]), 
    ('\u{5775}', [0xCB, 0xFA]), ('\u{5776}', [0xCB, 0xF8]), ('\u{5777}', [0xA9, 0x56]), 
    ('\u{577A}', [0x9F, 0xCC]), ('\u{577B}', [0xCB, 0xFB]), ('\u{577C}', [0xA9, 0x5C]), 
    ('\u{577D}', [0xCC, 0x41]), ('\u{577E}', [0x98, 0xA5]), ('\u{577F}', [0x92, 0xE8]), 
    ('\u{5780}', [0xCB, 0xF9]), ('\u{5782}', [0xAB, 0xAB]), ('\u{5783}', [0xA9, 0x55]), 
    ('\u{5788}', [0x9B, 0xBC]), ('\u{578A}', [0x96, 0xF3]), ('\u{578B}', [0xAB, 0xAC]), 
    ('\u{578C}', [0xCE, 0x54]), ('\u{578D}', [0x92, 0xE7]), ('\u{578F}', [0xCE, 0x5A]), 
    ('\u{5790}', [0xFC, 0x67]), ('\u{5793}', [0xAB, 0xB2]), ('\u{5794}', [0xCE, 0x58]), 
    ('\u{5795}', [0xCE, 0x5E]), ('\u{5797}', [0xCE, 0x55]), ('\u{5798}', [0xCE, 0x59]), 
    ('\u{5799}', [0xCE, 0x5B]), ('\u{579A}', [0xCE, 0x5D]), ('\u{579B}', [0xCE, 0x57]), 
    ('\u{579C}', [0x8B, 0x7D]), ('\u{579D}', [0xCE, 0x56]), ('\u{579E}', [0xCE, 0x51]), 
    ('\u{579F}', [0xCE, 0x52]), ('\u{57A0}', [0xAB, 0xAD]), ('\u{57A1}', [0x9B, 0xF4]), 
    ('\u{57A2}', [0xAB, 0xAF]), ('\u{57A3}', [0xAB, 0xAE]), ('\u{57A4}', [0xCE, 0x53]), 
"#

/-- src/generated/whatwg/big5_whatwg_tables.rs.inc:3505-3632 -/
noncomputable def encode8 : List Text := lines! r#"    ('\u{57A5}', [0xCE, 0x5C]), ('\u{57A7}', [0x9E, 0xF7]), ('\u{57AA}', [0x9E, 0xC1]), 
    ('\u{57AE}', [0xAB, 0xB1]), ('\u{57B3}', [0x87, 0xC3]), ('\u{57B4}', [0x99, 0x6F]), 
    ('\u{57B5}', [0xCE, 0x50]), ('\u{57B6}', [0xD1, 0x53]), ('\u{57B8}', [0xD1, 0x52]), 
    ('\u{57B9}', [0xD1, 0x57]), ('\u{57BA}', [0xD1, 0x4E]), ('\u{57BB}', [0x96, 0xF1]), 
    ('\u{57BC}', [0xD1, 0x51]), ('\u{57BD}', [0xD1, 0x50]), ('\u{57BE}', [0x8E, 0x41]), 
    ('\u{57BF}', [0xD1, 0x54]), ('\u{57C1}', [0xD1, 0x58]), ('\u{57C2}', [0xAE, 0x47]), 
    ('\u{57C3}', [0xAE, 0x4A]), ('\u{57C4}', [0x95, 0x4A]), ('\u{57C6}', [0xD1, 0x4F]), 
    ('\u{57C7}', [0xD1, 0x55]), ('\u{57C8}', [0x97, 0xE6]), ('\u{57CB}', [0xAE, 0x49]), 
    ('\u{57CC}', [0xD1, 0x4A]), ('\u{57CE}', [0xAB, 0xB0]), ('\u{57CF}', [0xD4, 0xBA]), 
    ('\u{57D0}', [0xD1, 0x56]), ('\u{57D2}', [0xD1, 0x4D]), ('\u{57D4}', [0xAE, 0x48]), 
    ('\u{57D5}', [0xD1, 0x4C]), ('\u{57D7}', [0x96, 0xF5]), ('\u{57DC}', [0xD4, 0xB1]), 
    ('\u{57DD}', [0x92, 0xE6]), ('\u{57DE}', [0x9F, 0x42]), ('\u{57DF}', [0xB0, 0xEC]), 
    ('\u{57E0}', [0xB0, 0xF0]), ('\u{57E1}', [0xD4, 0xC1]), ('\u{57E2}', [0xD4, 0xAF]), 
    ('\u{57E3}', [0xD4, 0xBD]), ('\u{57E4}', [0xB0, 0xF1]), ('\u{57E5}', [0xD4, 0xBF]), 
    ('\u{57E6}', [0xFB, 0x67]), ('\u{57E7}', [0xD4, 0xC5]), ('\u{57E9}', [0xD4, 0xC9]), 
    ('\u{57EC}', [0xD4, 0xC0]), ('\u{57ED}', [0xD4, 0xB4]), ('\u{57EE}', [0xD4, 0xBC]), 
    ('\u{57EF}', [0x99, 0xA9]), ('\u{57F0}', [0xD4, 0xCA]), ('\u{57F1}', [0xD4, 0xC8]), 
    ('\u{57F2}', [0xD4, 0xBE]), ('\u{57F3}', [0xD4, 0xB9]), ('\u{57F4}', [0xD4, 0xB2]), 
    ('\u{57F5}', [0xD8, 0xA6]), ('\u{57F6}', [0xD4, 0xB0]), ('\u{57F7}', [0xB0, 0xF5]), 
    ('\u{57F8}', [0xD4, 0xB7]), ('\u{57F9}', [0xB0, 0xF6]), ('\u{57FA}', [0xB0, 0xF2]), 
    ('\u{57FB}', [0xD4, 0xAD]), ('\u{57FC}', [0xD4, 0xC3]), ('\u{57FD}', [0xD4, 0xB5]), 
    ('\u{57FE}', [0xFA, 0xE6]), ('\u{5800}', [0xD4, 0xB3]), ('\u{5801}', [0xD4, 0xC6]), 
    ('\u{5802}', [0xB0, 0xF3]), ('\u{5803}', [0xFB, 0x69]), ('\u{5804}', [0xD4, 0xCC]), 
    ('\u{5805}', [0xB0, 0xED]), ('\u{5806}', [0xB0, 0xEF]), ('\u{5807}', [0xD4, 0xBB]), 
    ('\u{5808}', [0xD4, 0xB6]), ('\u{5809}', [0xAE, 0x4B]), ('\u{580A}', [0xB0, 0xEE]), 
    ('\u{580B}', [0xD4, 0xB8]), ('\u{580C}', [0xD4, 0xC7]), ('\u{580D}', [0xD4, 0xCB]), 
    ('\u{580E}', [0xD4, 0xC2]), ('\u{5810}', [0xD4, 0xC4]), ('\u{5812}', [0x97, 0xE5]), 
    ('\u{5814}', [0xD4, 0xAE]), ('\u{5818}', [0x87, 0xC8]), ('\u{5819}', [0xD8, 0xA1]), 
    ('\u{581B}', [0xD8, 0xAA]), ('\u{581C}', [0xD8, 0xA9]), ('\u{581D}', [0xB3, 0xFA]), 
    ('\u{581E}', [0xD8, 0xA2]), ('\u{5820}', [0xB3, 0xFB]), ('\u{5821}', [0xB3, 0xF9]), 
    ('\u{5822}', [0x96, 0x7D]), ('\u{5823}', [0xD8, 0xA4]), ('\u{5824}', [0xB3, 0xF6]), 
    ('\u{5825}', [0xD8, 0xA8]), ('\u{5826}', [0xFB, 0x6C]), ('\u{5827}', [0xD8, 0xA3]), 
    ('\u{5828}', [0xD8, 0xA5]), ('\u{5829}', [0xD8, 0x7D]), ('\u{582A}', [0xB3, 0xF4]), 
    ('\u{582C}', [0xD8, 0xB2]), ('\u{582D}', [0xD8, 0xB1]), ('\u{582E}', [0xD8, 0xAE]), 
    ('\u{582F}', [0xB3, 0xF3]), ('\u{5830}', [0xB3, 0xF7]), ('\u{5831}', [0xB3, 0xF8]), 
    ('\u{5832}', [0xD1, 0x4B]), ('\u{5833}', [0xD8, 0xAB]), ('\u{5834}', [0xB3, 0xF5]), 
    ('\u{5835}', [0xB0, 0xF4]), ('\u{5836}', [0xD8, 0xAD]), ('\u{5837}', [0xD8, 0x7E]), 
    ('\u{5838}', [0xD8, 0xB0]), ('\u{5839}', [0xD8, 0xAF]), ('\u{583A}', [0x99, 0xA2]), 
    ('\u{583B}', [0xD8, 0xB3]), ('\u{583D}', [0xDC, 0xEF]), ('\u{583F}', [0xD8, 0xAC]), 
    ('\u{5840}', [0x9A, 0xBB]), ('\u{5844}', [0x9A, 0x65]), ('\u{5847}', [0x94, 0x4E]), 
    ('\u{5848}', [0xD8, 0xA7]), ('\u{5849}', [0xDC, 0xE7]), ('\u{584A}', [0xB6, 0xF4]), 
    ('\u{584B}', [0xB6, 0xF7]), ('\u{584C}', [0xB6, 0xF2]), ('\u{584D}', [0xDC, 0xE6]), 
    ('\u{584E}', [0xDC, 0xEA]), ('\u{584F}', [0xDC, 0xE5]), ('\u{5851}', [0xB6, 0xEC]), 
    ('\u{5852}', [0xB6, 0xF6]), ('\u{5853}', [0xDC, 0xE2]), ('\u{5854}', [0xB6, 0xF0]), 
    ('\u{5855}', [0xDC, 0xE9]), ('\u{5857}', [0xB6, 0xEE]), ('\u{5858}', [0xB6, 0xED]), 
    ('\u{5859}', [0xDC, 0xEC]), ('\u{585A}', [0xB6, 0xEF]), ('\u{585B}', [0xDC, 0xEE]), 
    ('\u{585C}', [0xFB, 0x6E]), ('\u{585D}', [0xDC, 0xEB]), ('\u{585E}', [0xB6, 0xEB]), 
    ('\u{585F}', [0x99, 0xDF]), ('\u{5862}', [0xB6, 0xF5]), ('\u{5863}', [0xDC, 0xF0]), 
    ('\u{5864}', [0xDC, 0xE4]), ('\u{5865}', [0xDC, 0xED]), ('\u{5868}', [0xDC, 0xE3]), 
    ('\u{5869}', [0x98, 0xE3]), ('\u{586B}', [0xB6, 0xF1]), ('\u{586C}', [0x92, 0x54]), 
    ('\u{586D}', [0xB6, 0xF3]), ('\u{586F}', [0xDC, 0xE8]), ('\u{5871}', [0xDC, 0xF1]), 
    ('\u{5872}', [0x96, 0x7B]), ('\u{5873}', [0x8A, 0xAF]), ('\u{5874}', [0xE1, 0x5D]), 
    ('\u{5875}', [0xB9, 0xD0]), ('\u{5876}', [0xE1, 0x63]), ('\u{5879}', [0xB9, 0xD5]), 
    ('\u{587A}', [0xE1, 0x5F]), ('\u{587B}', [0xE1, 0x66]), ('\u{587C}', [0xE1, 0x57]), 
    ('\u{587D}', [0xB9, 0xD7]), ('\u{587E}', [0xB9, 0xD1]), ('\u{587F}', [0xE1, 0x5C]), 
    ('\u{5880}', [0xBC, 0x55]), ('\u{5881}', [0xE1, 0x5B]), ('\u{5882}', [0xE1, 0x64]), 
    ('\u{5883}', [0xB9, 0xD2]), ('\u{5885}', [0xB9, 0xD6]), ('\u{5886}', [0xE1, 0x5A]), 
    ('\u{5887}', [0xE1, 0x60]), ('\u{5888}', [0xE1, 0x65]), ('\u{5889}', [0xE1, 0x56]), 
    ('\u{588A}', [0xB9, 0xD4]), ('\u{588B}', [0xE1, 0x5E]), ('\u{588E}', [0xE1, 0x62]), 
    ('\u{588F}', [0xE1, 0x68]), ('\u{5890}', [0xE1, 0x58]), ('\u{5891}', [0xE1, 0x61]), 
    ('\u{5892}', [0x8C, 0x77]), ('\u{5893}', [0xB9, 0xD3]), ('\u{5894}', [0xE1, 0x67]), 
    ('\u{5896}', [0x87, 0xB0]), ('\u{5898}', [0xE1, 0x59]), ('\u{5899}', [0x8B, 0xAF]), 
    ('\u{589A}', [0x9E, 0xBD]), ('\u{589C}', [0xBC, 0x59]), ('\u{589D}', [0xE5, 0x4B]), 
    ('\u{589E}', [0xBC, 0x57]), ('\u{589F}', [0xBC, 0x56]), ('\u{58A0}', [0xE5, 0x4D]), 
    ('\u{58A1}', [0xE5, 0x52]), ('\u{58A3}', [0xE5, 0x4E]), ('\u{58A5}', [0xE5, 0x51]), 
    ('\u{58A6}', [0xBC, 0x5C]), ('\u{58A7}', [0x9E, 0xE6]), ('\u{58A8}', [0xBE, 0xA5]), 
    ('\u{58A9}', [0xBC, 0x5B]), ('\u{58AA}', [0xFB, 0x6F]), ('\u{58AB}', [0xE5, 0x4A]), 
    ('\u{58AC}', [0xE5, 0x50]), ('\u{58AE}', [0xBC, 0x5A]), ('\u{58AF}', [0xE5, 0x4F]), 
    ('\u{58B0}', [0x8E, 0xE1]), ('\u{58B1}', [0xE5, 0x4C]), ('\u{58B3}', [0xBC, 0x58]), 
    ('\u{58B5}', [0x9B, 0x7D]), ('\u{58B6}', [0x9C, 0x7E]), ('\u{58BA}', [0xE9, 0x4D]), 
    ('\u{58BB}', [0xF9, 0xD9]), ('\u{58BC}', [0xE9, 0x4F]), ('\u{58BD}', [0xE9, 0x4A]), 
    ('\u{58BE}', [0xBE, 0xC1]), ('\u{58BF}', [0xE9, 0x4C]), ('\u{58C1}', [0xBE, 0xC0]), 
    ('\u{58C2}', [0xE9, 0x4E]), ('\u{58C5}', [0xBE, 0xC3]), ('\u{58C6}', [0xE9, 0x50]), 
    ('\u{58C7}', [0xBE, 0xC2]), ('\u{58C8}', [0xE9, 0x49]), ('\u{58C9}', [0xE9, 0x4B]), 
    ('\u{58CB}', [0x92, 0xEA]), ('\u{58CE}', [0xC0, 0xA5]), ('\u{58CF}', [0xEC, 0xCC]), 
    ('\u{58D0}', [0x8C, 0x78]), ('\u{58D1}', [0xC0, 0xA4]), ('\u{58D2}', [0xEC, 0xCD]), 
    ('\u{58D3}', [0xC0, 0xA3]), ('\u{58D4}', [0xEC, 0xCB]), ('\u{58D5}', [0xC0, 0xA2]), 
    ('\u{58D6}', [0xEC, 0xCA]), ('\u{58D8}', [0xC2, 0x53]), ('\u{58D9}', [0xC2, 0x52]), 
    ('\u{58DA}', [0xF1, 0xF6]), ('\u{58DB}', [0xF1, 0xF8]), ('\u{58DC}', [0xFB, 0x72]), 
    ('\u{58DD}', [0xF1, 0xF7]), ('\u{58DE}', [0xC3, 0x61]), ('\u{58DF}', [0xC3, 0x62]), 
    ('\u{58E0}', [0xFB, 0x71]), ('\u{58E2}', [0xC3, 0x63]), ('\u{58E3}', [0xF4, 0x42]), 
    ('\u{58E4}', [0xC4, 0x5B]), ('\u{58E7}', [0xF7, 0xD3]), ('\u{58E8}', [0xF7, 0xD2]), 
    ('\u{58E9}', [0xC5, 0xF2]), ('\u{58EB}', [0xA4, 0x68]), ('\u{58EC}', [0xA4, 0xD0]), 
    ('\u{58EF}', [0xA7, 0xA7]), ('\u{58F0}', [0x89, 0x5C]), ('\u{58F2}', [0x98, 0xF0]), 
    ('\u{58F3}', [0x96, 0xF2]), ('\u{58F4}', [0xCE, 0x5F]), ('\u{58F9}', [0xB3, 0xFC]), 
    ('\u{58FA}', [0xB3, 0xFD]), ('\u{58FB}', [0xFB, 0x74]), ('\u{58FC}', [0xDC, 0xF2]), 
    ('\u{58FD}', [0xB9, 0xD8]), ('\u{58FE}', [0xE1, 0x69]), ('\u{58FF}', [0xE5, 0x53]), 
    ('\u{5902}', [0x8B, 0xC1]), ('\u{5903}', [0xC9, 0x5A]), ('\u{5904}', [0x89, 0x5D]), 
    ('\u{5905}', [0x89, 0xDE]), ('\u{5906}', [0xCA, 0xB0]), ('\u{5907}', [0x89, 0x5E]), 
    ('\u{590A}', [0xC6, 0xCA]), ('\u{590C}', [0xCC, 0x42]), ('\u{590D}', [0xCE, 0x60]), 
    ('\u{590E}', [0xD1, 0x59]), ('\u{590F}', [0xAE, 0x4C]), ('\u{5911}', [0xFE, 0x42]), 
    ('\u{5912}', [0xF1, 0xF9]), ('\u{5914}', [0xC4, 0xDC]), ('\u{5915}', [0xA4, 0x69]), 
    ('\u{5916}', [0xA5, 0x7E]), ('\u{5917}', [0xC9, 0x70]), ('\u{5919}', [0xA6, 0x67]), 
    ('\u{591A}', [0xA6, 0x68]), ('\u{591C}', [0xA9, 0x5D]), ('\u{591D}', [0x87, 0x68]), 
    ('\u{591F}', [0xFB, 0x7B]), ('\u{5920}', [0xB0, 0xF7]), ('\u{5922}', [0xB9, 0xDA]), 
    ('\u{5924}', [0xB9, 0xDB]), ('\u{5925}', [0xB9, 0xD9]), ('\u{5927}', [0xA4, 0x6A]), 
    ('\u{5929}', [0xA4, 0xD1]), ('\u{592A}', [0xA4, 0xD3]), ('\u{592B}', [0xA4, 0xD2]), 
    ('\u{592C}', [0xC9, 0x5B]), ('\u{592D}', [0xA4, 0xD4]), ('\u{592E}', [0xA5, 0xA1]), 
    ('\u{592F}', [0xC9, 0x71]), ('\u{5931}', [0xA5, 0xA2]), ('\u{5932}', [0x89, 0x5F]), 
    ('\u{5934}', [0x89, 0x60]), ('\u{5937}', [0xA6, 0x69]), ('\u{5938}', [0xA6, 0x6A]), 
    ('\u{593C}', [0xC9, 0xCB]), ('\u{593E}', [0xA7, 0xA8]), ('\u{5940}', [0xCA, 0xB1]), 
    ('\u{5944}', [0xA9, 0x61]), ('\u{5945}', [0xCC, 0x43]), ('\u{5947}', [0xA9, 0x5F]), 
    ('\u{5948}', [0xA9, 0x60]), ('\u{5949}', [0xA9, 0x5E]), ('\u{594A}', [0xD1, 0x5A]), 
    ('\u{594E}', [0xAB, 0xB6]), ('\u{594F}', [0xAB, 0xB5]), ('\u{5950}', [0xAB, 0xB7]), 
    ('\u{5951}', [0xAB, 0xB4]), ('\u{5953}', [0xCE, 0x61]), ('\u{5954}', [0xA9, 0x62]), 
    ('\u{5955}', [0xAB, 0xB3]), ('\u{5957}', [0xAE, 0x4D]), ('\u{5958}', [0xAE, 0x4E]), 
    ('\u{595A}', [0xAE, 0x4F]), ('\u{595C}', [0xD4, 0xCD]), ('\u{5960}', [0xB3, 0xFE]), 
    ('\u{5961}', [0xD8, 0xB4]), ('\u{5962}', [0xB0, 0xF8]), ('\u{5965}', [0x9B, 0xCD]), 
    ('\u{5967}', [0xB6, 0xF8]), ('\u{5969}', [0xB9, 0xDD]), ('\u{596A}', [0xB9, 0xDC]), 
    ('\u{596B}', [0xE1, 0x6A]), ('\u{596D}', [0xBC, 0x5D]), ('\u{596E}', [0xBE, 0xC4]), 
    ('\u{5970}', [0xEF, 0xC0]), ('\u{5971}', [0xF6, 0xDA]), ('\u{5972}', [0xF7, 0xD4]), 
    ('\u{5973}', [0xA4, 0x6B]), ('\u{5974}', [0xA5, 0xA3]), ('\u{5975}', [0x9D, 0xD3]), 
    ('\u{5976}', [0xA5, 0xA4]), ('\u{5977}', [0xC9, 0xD1]), ('\u{5978}', [0xA6, 0x6C]), 
    ('\u{5979}', [0xA6, 0x6F]), ('\u{597B}', [0xC9, 0xCF]), ('\u{597C}', [0xC9, 0xCD]), 
    ('\u{597D}', [0xA6, 0x6E]), ('\u{597E}', [0xC9, 0xD0]), ('\u{597F}', [0xC9, 0xD2]), 
    ('\u{5980}', [0xC9, 0xCC]), ('\u{5981}', [0xA6, 0x71]), ('\u{5982}', [0xA6, 0x70]), 
    ('\u{5983}', [0xA6, 0x6D]), ('\u{5984}', [0xA6, 0x6B]), ('\u{5985}', [0xC9, 0xCE]), 
    ('\u{5989}', [0x98, 0x4C]), ('\u{598A}', [0xA7, 0xB3]), ('\u{598D}', [0xA7, 0xB0]), 
    ('\u{598E}', [0xCA, 0xB6]), ('\u{598F}', [0xCA, 0xB9]), ('\u{5990}', [0xCA, 0xB8]), 
    ('\u{5992}', [0xA7, 0xAA]), ('\u{5993}', [0xA7, 0xB2]), ('\u{5994}', [0x97, 0x52]), 
    ('\u{5996}', [0xA7, 0xAF]), ('\u{5997}', [0xCA, 0xB5]), ('\u{5998}', [0xCA, 0xB3]), 
    ('\u{5999}', [0xA7, 0xAE]), ('\u{599A}', [0x95, 0xC3]), ('\u{599D}', [0xA7, 0xA9]), 
    ('\u{599E}', [0xA7, 0xAC]), ('\u{599F}', [0x9B, 0xB6]), ('\u{59A0}', [0xCA, 0xB4]), 
    ('\u{59A1}', [0xCA, 0xBB]), ('\u{59A2}', [0xCA, 0xB7]), ('\u{59A3}', [0xA7, 0xAD]), 
    ('\u{59A4}', [0xA7, 0xB1]), ('\u{59A5}', [0xA7, 0xB4]), ('\u{59A6}', [0xCA, 0xB2]), 
    ('\u{59A7}', [0xCA, 0xBA]), ('\u{59A8}', [0xA7, 0xAB]), ('\u{59AC}', [0x9A, 0xB9]), 
    ('\u{59AE}', [0xA9, 0x67]), ('\u{59AF}', [0xA9, 0x6F]), ('\u{59B0}', [0x97, 0xB3]), 
    ('\u{59B1}', [0xCC, 0x4F]), ('\u{59B2}', [0xCC, 0x48]), ('\u{59B3}', [0xA9, 0x70]), 
"#

/-- src/generated/whatwg/big5_whatwg_tables.rs.inc:3633-3760 -/
noncomputable def encode9 : List Text := lines! r#"    ('\u{59B4}', [0xCC, 0x53]), ('\u{59B5}', [0xCC, 0x44]), ('\u{59B6}', [0xCC, 0x4B]), 
    ('\u{59B7}', [0x9F, 0x74]), ('\u{59B8}', [0x92, 0xF1]), ('\u{59B9}', [0xA9, 0x66]), 
    ('\u{59BA}', [0xCC, 0x45]), ('\u{59BB}', [0xA9, 0x64]), ('\u{59BC}', [0xCC, 0x4C]), 
    ('\u{59BD}', [0xCC, 0x50]), ('\u{59BE}', [0xA9, 0x63]), ('\u{59BF}', [0x8C, 0xFA]), 
    ('\u{59C0}', [0xCC, 0x51]), ('\u{59C1}', [0xCC, 0x4A]), ('\u{59C3}', [0xCC, 0x4D]), 
    ('\u{59C4}', [0x97, 0xDF]), ('\u{59C5}', [0xA9, 0x72]), ('\u{59C6}', [0xA9, 0x69]), 
    ('\u{59C7}', [0xCC, 0x54]), ('\u{59C8}', [0xCC, 0x52]), ('\u{59C9}', [0xFB, 0xA6]), 
    ('\u{59CA}', [0xA9, 0x6E]), ('\u{59CB}', [0xA9, 0x6C]), ('\u{59CC}', [0xCC, 0x49]), 
    ('\u{59CD}', [0xA9, 0x6B]), ('\u{59CE}', [0xCC, 0x47]), ('\u{59CF}', [0xCC, 0x46]), 
    ('\u{59D0}', [0xA9, 0x6A]), ('\u{59D1}', [0xA9, 0x68]), ('\u{59D2}', [0xA9, 0x71]), 
    ('\u{59D3}', [0xA9, 0x6D]), ('\u{59D4}', [0xA9, 0x65]), ('\u{59D6}', [0xCC, 0x4E]), 
    ('\u{59D8}', [0xAB, 0xB9]), ('\u{59D9}', [0xFB, 0xAB]), ('\u{59DA}', [0xAB, 0xC0]), 
    ('\u{59DB}', [0xCE, 0x6F]), ('\u{59DC}', [0xAB, 0xB8]), ('\u{59DD}', [0xCE, 0x67]), 
    ('\u{59DE}', [0xCE, 0x63]), ('\u{59E0}', [0xCE, 0x73]), ('\u{59E1}', [0xCE, 0x62]), 
    ('\u{59E3}', [0xAB, 0xBB]), ('\u{59E4}', [0xCE, 0x6C]), ('\u{59E5}', [0xAB, 0xBE]), 
    ('\u{59E6}', [0xAB, 0xC1]), ('\u{59E8}', [0xAB, 0xBC]), ('\u{59E9}', [0xCE, 0x70]), 
    ('\u{59EA}', [0xAB, 0xBF]), ('\u{59EB}', [0x98, 0x77]), ('\u{59EC}', [0xAE, 0x56]), 
    ('\u{59ED}', [0xCE, 0x76]), ('\u{59EE}', [0xCE, 0x64]), ('\u{59EF}', [0x98, 0x54]), 
    ('\u{59F0}', [0x95, 0xC5]), ('\u{59F1}', [0xCE, 0x66]), ('\u{59F2}', [0xCE, 0x6D]), 
    ('\u{59F3}', [0xCE, 0x71]), ('\u{59F4}', [0xCE, 0x75]), ('\u{59F5}', [0xCE, 0x72]), 
    ('\u{59F6}', [0xCE, 0x6B]), ('\u{59F7}', [0xCE, 0x6E]), ('\u{59F8}', [0x9D, 0x55]), 
    ('\u{59F9}', [0xFB, 0xB2]), ('\u{59FA}', [0xCE, 0x68]), ('\u{59FB}', [0xAB, 0xC3]), 
    ('\u{59FC}', [0xCE, 0x6A]), ('\u{59FD}', [0xCE, 0x69]), ('\u{59FE}', [0xCE, 0x74]), 
    ('\u{59FF}', [0xAB, 0xBA]), ('\u{5A00}', [0xCE, 0x65]), ('\u{5A01}', [0xAB, 0xC2]), 
    ('\u{5A02}', [0x95, 0x7E]), ('\u{5A03}', [0xAB, 0xBD]), ('\u{5A09}', [0xAE, 0x5C]), 
    ('\u{5A0A}', [0xD1, 0x62]), ('\u{5A0B}', [0x97, 0x42]), ('\u{5A0C}', [0xAE, 0x5B]), 
    ('\u{5A0D}', [0x94, 0xE6]), ('\u{5A0F}', [0xD1, 0x60]), ('\u{5A11}', [0xAE, 0x50]), 
    ('\u{5A12}', [0x92, 0xF5]), ('\u{5A13}', [0xAE, 0x55]), ('\u{5A15}', [0xD1, 0x5F]), 
    ('\u{5A16}', [0xD1, 0x5C]), ('\u{5A17}', [0xD1, 0x61]), ('\u{5A18}', [0xAE, 0x51]), 
    ('\u{5A19}', [0xD1, 0x5B]), ('\u{5A1A}', [0x8C, 0xC5]), ('\u{5A1B}', [0xAE, 0x54]), 
    ('\u{5A1C}', [0xAE, 0x52]), ('\u{5A1E}', [0xD1, 0x63]), ('\u{5A1F}', [0xAE, 0x53]), 
    ('\u{5A20}', [0xAE, 0x57]), ('\u{5A21}', [0x92, 0xFD]), ('\u{5A23}', [0xAE, 0x58]), 
    ('\u{5A24}', [0xFB, 0xA2]), ('\u{5A25}', [0xAE, 0x5A]), ('\u{5A27}', [0x9C, 0x51]), 
    ('\u{5A29}', [0xAE, 0x59]), ('\u{5A2A}', [0x94, 0xE9]), ('\u{5A2B}', [0x98, 0x5C]), 
    ('\u{5A2C}', [0x92, 0xF0]), ('\u{5A2D}', [0xD1, 0x5D]), ('\u{5A2E}', [0xD1, 0x5E]), 
    ('\u{5A33}', [0xD1, 0x64]), ('\u{5A35}', [0xD4, 0xD4]), ('\u{5A36}', [0xB0, 0xF9]), 
    ('\u{5A37}', [0xD8, 0xC2]), ('\u{5A38}', [0xD4, 0xD3]), ('\u{5A39}', [0xD4, 0xE6]), 
    ('\u{5A3C}', [0xB1, 0x40]), ('\u{5A3D}', [0x94, 0x4C]), ('\u{5A3E}', [0xD4, 0xE4]), 
    ('\u{5A40}', [0xB0, 0xFE]), ('\u{5A41}', [0xB0, 0xFA]), ('\u{5A42}', [0xD4, 0xED]), 
    ('\u{5A43}', [0xD4, 0xDD]), ('\u{5A44}', [0xD4, 0xE0]), ('\u{5A45}', [0x91, 0x6B]), 
    ('\u{5A46}', [0xB1, 0x43]), ('\u{5A47}', [0xD4, 0xEA]), ('\u{5A48}', [0xD4, 0xE2]), 
    ('\u{5A49}', [0xB0, 0xFB]), ('\u{5A4A}', [0xB1, 0x44]), ('\u{5A4C}', [0xD4, 0xE7]), 
    ('\u{5A4D}', [0xD4, 0xE5]), ('\u{5A50}', [0xD4, 0xD6]), ('\u{5A51}', [0xD4, 0xEB]), 
    ('\u{5A52}', [0xD4, 0xDF]), ('\u{5A53}', [0xD4, 0xDA]), ('\u{5A54}', [0x8B, 0x78]), 
    ('\u{5A55}', [0xD4, 0xD0]), ('\u{5A56}', [0xD4, 0xEC]), ('\u{5A57}', [0xD4, 0xDC]), 
    ('\u{5A58}', [0xD4, 0xCF]), ('\u{5A59}', [0x94, 0xE2]), ('\u{5A5A}', [0xB1, 0x42]), 
    ('\u{5A5B}', [0xD4, 0xE1]), ('\u{5A5C}', [0xD4, 0xEE]), ('\u{5A5D}', [0xD4, 0xDE]), 
    ('\u{5A5E}', [0xD4, 0xD2]), ('\u{5A5F}', [0xD4, 0xD7]), ('\u{5A60}', [0xD4, 0xCE]), 
    ('\u{5A61}', [0x98, 0x4F]), ('\u{5A62}', [0xB1, 0x41]), ('\u{5A63}', [0xFB, 0xB5]), 
    ('\u{5A64}', [0xD4, 0xDB]), ('\u{5A65}', [0xD4, 0xD8]), ('\u{5A66}', [0xB0, 0xFC]), 
    ('\u{5A67}', [0x9C, 0xD0]), ('\u{5A68}', [0x92, 0x71]), ('\u{5A69}', [0xD4, 0xE9]), 
    ('\u{5A6A}', [0xB0, 0xFD]), ('\u{5A6B}', [0x93, 0x65]), ('\u{5A6C}', [0xD4, 0xD9]), 
    ('\u{5A6D}', [0xD4, 0xD5]), ('\u{5A6E}', [0x98, 0x5B]), ('\u{5A70}', [0xD4, 0xE8]), 
    ('\u{5A71}', [0x98, 0x50]), ('\u{5A77}', [0xB4, 0x40]), ('\u{5A78}', [0xD8, 0xBB]), 
    ('\u{5A79}', [0x97, 0xBC]), ('\u{5A7A}', [0xD8, 0xB8]), ('\u{5A7B}', [0xD8, 0xC9]), 
    ('\u{5A7C}', [0xD8, 0xBD]), ('\u{5A7D}', [0xD8, 0xCA]), ('\u{5A7E}', [0x92, 0xF3]), 
    ('\u{5A7F}', [0xB4, 0x42]), ('\u{5A81}', [0x93, 0x40]), ('\u{5A82}', [0x98, 0x4D]), 
    ('\u{5A83}', [0xD8, 0xC6]), ('\u{5A84}', [0xD8, 0xC3]), ('\u{5A86}', [0x95, 0x72]), 
    ('\u{5A88}', [0xFD, 0xEF]), ('\u{5A8A}', [0xD8, 0xC4]), ('\u{5A8B}', [0xD8, 0xC7]), 
    ('\u{5A8C}', [0xD8, 0xCB]), ('\u{5A8E}', [0xD4, 0xE3]), ('\u{5A8F}', [0xD8, 0xCD]), 
    ('\u{5A90}', [0xDD, 0x47]), ('\u{5A91}', [0xFD, 0xC1]), ('\u{5A92}', [0xB4, 0x43]), 
    ('\u{5A93}', [0xD8, 0xCE]), ('\u{5A94}', [0xD8, 0xB6]), ('\u{5A95}', [0xD8, 0xC0]), 
    ('\u{5A96}', [0xFB, 0xBA]), ('\u{5A97}', [0xD8, 0xC5]), ('\u{5A99}', [0x92, 0xEB]), 
    ('\u{5A9A}', [0xB4, 0x41]), ('\u{5A9B}', [0xB4, 0x44]), ('\u{5A9C}', [0xD8, 0xCC]), 
    ('\u{5A9D}', [0xD8, 0xCF]), ('\u{5A9E}', [0xD8, 0xBA]), ('\u{5A9F}', [0xD8, 0xB7]), 
    ('\u{5AA0}', [0xFC, 0x73]), ('\u{5AA1}', [0x97, 0xB7]), ('\u{5AA2}', [0xD8, 0xB9]), 
    ('\u{5AA4}', [0x87, 0x6F]), ('\u{5AA5}', [0xD8, 0xBE]), ('\u{5AA6}', [0xD8, 0xBC]), 
    ('\u{5AA7}', [0xB4, 0x45]), ('\u{5AA9}', [0xD8, 0xC8]), ('\u{5AAB}', [0xFB, 0xB4]), 
    ('\u{5AAC}', [0xD8, 0xBF]), ('\u{5AAE}', [0xD8, 0xC1]), ('\u{5AAF}', [0xD8, 0xB5]), 
    ('\u{5AB0}', [0xDC, 0xFA]), ('\u{5AB1}', [0xDC, 0xF8]), ('\u{5AB2}', [0xB7, 0x42]), 
    ('\u{5AB3}', [0xB7, 0x40]), ('\u{5AB4}', [0xDD, 0x43]), ('\u{5AB5}', [0xDC, 0xF9]), 
    ('\u{5AB6}', [0xDD, 0x44]), ('\u{5AB7}', [0xDD, 0x40]), ('\u{5AB8}', [0xDC, 0xF7]), 
    ('\u{5AB9}', [0xDD, 0x46]), ('\u{5ABA}', [0xDC, 0xF6]), ('\u{5ABB}', [0xDC, 0xFD]), 
    ('\u{5ABC}', [0xB6, 0xFE]), ('\u{5ABD}', [0xB6, 0xFD]), ('\u{5ABE}', [0xB6, 0xFC]), 
    ('\u{5ABF}', [0xDC, 0xFB]), ('\u{5AC0}', [0xDD, 0x41]), ('\u{5AC1}', [0xB6, 0xF9]), 
    ('\u{5AC2}', [0xB7, 0x41]), ('\u{5AC3}', [0x90, 0xA7]), ('\u{5AC4}', [0xDC, 0xF4]), 
    ('\u{5AC6}', [0xDC, 0xFE]), ('\u{5AC7}', [0xDC, 0xF3]), ('\u{5AC8}', [0xDC, 0xFC]), 
    ('\u{5AC9}', [0xB6, 0xFA]), ('\u{5ACA}', [0xDD, 0x42]), ('\u{5ACB}', [0xDC, 0xF5]), 
    ('\u{5ACC}', [0xB6, 0xFB]), ('\u{5ACD}', [0xDD, 0x45]), ('\u{5ACE}', [0x97, 0x41]), 
    ('\u{5ACF}', [0x92, 0xF4]), ('\u{5AD1}', [0x87, 0x72]), ('\u{5AD3}', [0xFB, 0xBC]), 
    ('\u{5AD5}', [0xE1, 0x6E]), ('\u{5AD6}', [0xB9, 0xE2]), ('\u{5AD7}', [0xB9, 0xE1]), 
    ('\u{5AD8}', [0xB9, 0xE3]), ('\u{5AD9}', [0xE1, 0x7A]), ('\u{5ADA}', [0xE1, 0x70]), 
    ('\u{5ADB}', [0xE1, 0x76]), ('\u{5ADC}', [0xE1, 0x6B]), ('\u{5ADD}', [0xE1, 0x79]), 
    ('\u{5ADE}', [0xE1, 0x78]), ('\u{5ADF}', [0xE1, 0x7C]), ('\u{5AE0}', [0xE1, 0x75]), 
    ('\u{5AE1}', [0xB9, 0xDE]), ('\u{5AE2}', [0xE1, 0x74]), ('\u{5AE3}', [0xB9, 0xE4]), 
    ('\u{5AE4}', [0x95, 0x77]), ('\u{5AE5}', [0xE1, 0x6D]), ('\u{5AE6}', [0xB9, 0xDF]), 
    ('\u{5AE8}', [0xE1, 0x7B]), ('\u{5AE9}', [0xB9, 0xE0]), ('\u{5AEA}', [0xE1, 0x6F]), 
    ('\u{5AEB}', [0xE1, 0x72]), ('\u{5AEC}', [0xE1, 0x77]), ('\u{5AED}', [0xE1, 0x71]), 
    ('\u{5AEE}', [0xE1, 0x6C]), ('\u{5AF0}', [0x9E, 0xE2]), ('\u{5AF2}', [0x8F, 0x78]), 
    ('\u{5AF3}', [0xE1, 0x73]), ('\u{5AF4}', [0xE5, 0x55]), ('\u{5AF5}', [0xBC, 0x61]), 
    ('\u{5AF6}', [0xE5, 0x58]), ('\u{5AF7}', [0xE5, 0x57]), ('\u{5AF8}', [0xE5, 0x5A]), 
    ('\u{5AF9}', [0xE5, 0x5C]), ('\u{5AFA}', [0xF9, 0xDC]), ('\u{5AFB}', [0xBC, 0x5F]), 
    ('\u{5AFD}', [0xE5, 0x56]), ('\u{5AFE}', [0x96, 0x72]), ('\u{5AFF}', [0xE5, 0x54]), 
    ('\u{5B01}', [0xE5, 0x5D]), ('\u{5B02}', [0xE5, 0x5B]), ('\u{5B03}', [0xE5, 0x59]), 
    ('\u{5B05}', [0xE5, 0x5F]), ('\u{5B07}', [0xE5, 0x5E]), ('\u{5B08}', [0xBC, 0x63]), 
    ('\u{5B09}', [0xBC, 0x5E]), ('\u{5B0B}', [0xBC, 0x60]), ('\u{5B0C}', [0xBC, 0x62]), 
    ('\u{5B0D}', [0x9E, 0xB5]), ('\u{5B0F}', [0xE5, 0x60]), ('\u{5B10}', [0xE9, 0x57]), 
    ('\u{5B11}', [0x96, 0x4B]), ('\u{5B13}', [0xE9, 0x56]), ('\u{5B14}', [0xE9, 0x55]), 
    ('\u{5B15}', [0x8C, 0xAC]), ('\u{5B16}', [0xE9, 0x58]), ('\u{5B17}', [0xE9, 0x51]), 
    ('\u{5B19}', [0xE9, 0x52]), ('\u{5B1A}', [0xE9, 0x5A]), ('\u{5B1B}', [0xE9, 0x53]), 
    ('\u{5B1D}', [0xBE, 0xC5]), ('\u{5B1E}', [0xE9, 0x5C]), ('\u{5B1F}', [0xA0, 0xFA]), 
    ('\u{5B20}', [0xE9, 0x5B]), ('\u{5B21}', [0xE9, 0x54]), ('\u{5B23}', [0xEC, 0xD1]), 
    ('\u{5B24}', [0xC0, 0xA8]), ('\u{5B25}', [0xEC, 0xCF]), ('\u{5B26}', [0xEC, 0xD4]), 
    ('\u{5B27}', [0xEC, 0xD3]), ('\u{5B28}', [0x96, 0xFC]), ('\u{5B2A}', [0xC0, 0xA7]), 
    ('\u{5B2B}', [0x95, 0x75]), ('\u{5B2C}', [0xEC, 0xD2]), ('\u{5B2D}', [0xEC, 0xCE]), 
    ('\u{5B2E}', [0xEC, 0xD6]), ('\u{5B2F}', [0xEC, 0xD5]), ('\u{5B30}', [0xC0, 0xA6]), 
    ('\u{5B32}', [0xEC, 0xD0]), ('\u{5B34}', [0xBE, 0xC6]), ('\u{5B38}', [0xC2, 0x54]), 
    ('\u{5B3C}', [0xEF, 0xC1]), ('\u{5B3D}', [0xF1, 0xFA]), ('\u{5B3E}', [0xF1, 0xFB]), 
    ('\u{5B3F}', [0xF1, 0xFC]), ('\u{5B40}', [0xC4, 0x5C]), ('\u{5B41}', [0x90, 0xDA]), 
    ('\u{5B43}', [0xC4, 0x5D]), ('\u{5B44}', [0x93, 0x67]), ('\u{5B45}', [0xF4, 0x43]), 
    ('\u{5B46}', [0xFE, 0xA4]), ('\u{5B47}', [0xF5, 0xC8]), ('\u{5B48}', [0xF5, 0xC7]), 
    ('\u{5B4A}', [0x90, 0xDF]), ('\u{5B4B}', [0xF6, 0xDB]), ('\u{5B4C}', [0xF6, 0xDC]), 
    ('\u{5B4D}', [0xF7, 0xD5]), ('\u{5B4E}', [0xF8, 0xA7]), ('\u{5B4F}', [0x93, 0x54]), 
    ('\u{5B50}', [0xA4, 0x6C]), ('\u{5B51}', [0xA4, 0x6D]), ('\u{5B53}', [0xA4, 0x6E]), 
    ('\u{5B54}', [0xA4, 0xD5]), ('\u{5B55}', [0xA5, 0xA5]), ('\u{5B56}', [0xC9, 0xD3]), 
    ('\u{5B57}', [0xA6, 0x72]), ('\u{5B58}', [0xA6, 0x73]), ('\u{5B5A}', [0xA7, 0xB7]), 
    ('\u{5B5B}', [0xA7, 0xB8]), ('\u{5B5C}', [0xA7, 0xB6]), ('\u{5B5D}', [0xA7, 0xB5]), 
    ('\u{5B5F}', [0xA9, 0x73]), ('\u{5B62}', [0xCC, 0x55]), ('\u{5B63}', [0xA9, 0x75]), 
    ('\u{5B64}', [0xA9, 0x74]), ('\u{5B65}', [0xCC, 0x56]), ('\u{5B66}', [0x89, 0x61]), 
    ('\u{5B68}', [0x8B, 0xB4]), ('\u{5B69}', [0xAB, 0xC4]), ('\u{5B6B}', [0xAE, 0x5D]), 
    ('\u{5B6C}', [0xD1, 0x65]), ('\u{5B6D}', [0x9D, 0xC0]), ('\u{5B6E}', [0xD4, 0xF0]), 
    ('\u{5B70}', [0xB1, 0x45]), ('\u{5B71}', [0xB4, 0x47]), ('\u{5B72}', [0xD4, 0xEF]), 
    ('\u{5B73}', [0xB4, 0x46]), ('\u{5B74}', [0x8E, 0x48]), ('\u{5B75}', [0xB9, 0xE5]), 
    ('\u{5B76}', [0xFB, 0xC5]), ('\u{5B77}', [0xE1, 0x7D]), ('\u{5B78}', [0xBE, 0xC7]), 
    ('\u{5B7A}', [0xC0, 0xA9]), ('\u{5B7B}', [0xEC, 0xD7]), ('\u{5B7C}', [0xFB, 0xC7]), 
    ('\u{5B7D}', [0xC4, 0x5E]), ('\u{5B7F}', [0xC5, 0x70]), ('\u{5B80}', [0xC6, 0xCB]), 
    ('\u{5B81}', [0xC9, 0x72]), ('\u{5B82}', [0xFA, 0x79]), ('\u{5B83}', [0xA5, 0xA6]), 
    ('\u{5B84}', [0xC9, 0x73]), ('\u{5B85}', [0xA6, 0x76]), ('\u{5B87}', [0xA6, 0x74]), 
"#

/-- src/generated/whatwg/big5_whatwg_tables.rs.inc:3761-3888 -/
noncomputable def encode10 : List Text := lines! r#"    ('\u{5B88}', [0xA6, 0x75]), ('\u{5B89}', [0xA6, 0x77]), ('\u{5B8B}', [0xA7, 0xBA]), 
    ('\u{5B8C}', [0xA7, 0xB9]), ('\u{5B8E}', [0xCA, 0xBC]), ('\u{5B8F}', [0xA7, 0xBB]), 
    ('\u{5B90}', [0x9E, 0x67]), ('\u{5B92}', [0xCA, 0xBD]), ('\u{5B93}', [0xCC, 0x57]), 
    ('\u{5B95}', [0xCC, 0x58]), ('\u{5B96}', [0x8C, 0xD9]), ('\u{5B97}', [0xA9, 0x76]), 
    ('\u{5B98}', [0xA9, 0x78]), ('\u{5B99}', [0xA9, 0x7A]), ('\u{5B9A}', [0xA9, 0x77]), 
    ('\u{5B9B}', [0xA9, 0x7B]), ('\u{5B9C}', [0xA9, 0x79]), ('\u{5B9D}', [0xFB, 0xD2]), 
    ('\u{5B9E}', [0x89, 0x62]), ('\u{5B9F}', [0x89, 0x63]), ('\u{5BA2}', [0xAB, 0xC8]), 
    ('\u{5BA3}', [0xAB, 0xC5]), ('\u{5BA4}', [0xAB, 0xC7]), ('\u{5BA5}', [0xAB, 0xC9]), 
    ('\u{5BA6}', [0xAB, 0xC6]), ('\u{5BA7}', [0xD1, 0x66]), ('\u{5BA8}', [0xCE, 0x77]), 
    ('\u{5BAA}', [0xFC, 0x7D]), ('\u{5BAC}', [0xD1, 0x68]), ('\u{5BAD}', [0xD1, 0x67]), 
    ('\u{5BAE}', [0xAE, 0x63]), ('\u{5BB0}', [0xAE, 0x5F]), ('\u{5BB3}', [0xAE, 0x60]), 
    ('\u{5BB4}', [0xAE, 0x62]), ('\u{5BB5}', [0xAE, 0x64]), ('\u{5BB6}', [0xAE, 0x61]), 
    ('\u{5BB7}', [0x87, 0x73]), ('\u{5BB8}', [0xAE, 0x66]), ('\u{5BB9}', [0xAE, 0x65]), 
    ('\u{5BBF}', [0xB1, 0x4A]), ('\u{5BC0}', [0xD4, 0xF2]), ('\u{5BC1}', [0xD4, 0xF1]), 
    ('\u{5BC2}', [0xB1, 0x49]), ('\u{5BC3}', [0x9F, 0x6B]), ('\u{5BC4}', [0xB1, 0x48]), 
    ('\u{5BC5}', [0xB1, 0x47]), ('\u{5BC6}', [0xB1, 0x4B]), ('\u{5BC7}', [0xB1, 0x46]), 
    ('\u{5BCA}', [0xD8, 0xD5]), ('\u{5BCB}', [0xD8, 0xD2]), ('\u{5BCC}', [0xB4, 0x49]), 
    ('\u{5BCD}', [0xD8, 0xD1]), ('\u{5BCE}', [0xD8, 0xD6]), ('\u{5BD0}', [0xB4, 0x4B]), 
    ('\u{5BD1}', [0xD8, 0xD4]), ('\u{5BD2}', [0xB4, 0x48]), ('\u{5BD3}', [0xB4, 0x4A]), 
    ('\u{5BD4}', [0xD8, 0xD3]), ('\u{5BD5}', [0xFB, 0xCC]), ('\u{5BD6}', [0xDD, 0x48]), 
    ('\u{5BD7}', [0xFE, 0xAE]), ('\u{5BD8}', [0xDD, 0x49]), ('\u{5BD9}', [0xDD, 0x4A]), 
    ('\u{5BDB}', [0x87, 0x6D]), ('\u{5BDE}', [0xB9, 0xE6]), ('\u{5BDF}', [0xB9, 0xEE]), 
    ('\u{5BE0}', [0xE1, 0x7E]), ('\u{5BE1}', [0xB9, 0xE8]), ('\u{5BE2}', [0xB9, 0xEC]), 
    ('\u{5BE3}', [0xE1, 0xA1]), ('\u{5BE4}', [0xB9, 0xED]), ('\u{5BE5}', [0xB9, 0xE9]), 
    ('\u{5BE6}', [0xB9, 0xEA]), ('\u{5BE7}', [0xB9, 0xE7]), ('\u{5BE8}', [0xB9, 0xEB]), 
    ('\u{5BE9}', [0xBC, 0x66]), ('\u{5BEA}', [0xD8, 0xD0]), ('\u{5BEB}', [0xBC, 0x67]), 
    ('\u{5BEC}', [0xBC, 0x65]), ('\u{5BEE}', [0xBC, 0x64]), ('\u{5BEF}', [0xE9, 0x5D]), 
    ('\u{5BF0}', [0xBE, 0xC8]), ('\u{5BF1}', [0xEC, 0xD8]), ('\u{5BF2}', [0xEC, 0xD9]), 
    ('\u{5BF3}', [0xFB, 0xD1]), ('\u{5BF5}', [0xC3, 0x64]), ('\u{5BF6}', [0xC4, 0x5F]), 
    ('\u{5BF8}', [0xA4, 0x6F]), ('\u{5BFA}', [0xA6, 0x78]), ('\u{5BFF}', [0xFB, 0x75]), 
    ('\u{5C01}', [0xAB, 0xCA]), ('\u{5C03}', [0xD1, 0x69]), ('\u{5C04}', [0xAE, 0x67]), 
    ('\u{5C05}', [0xFB, 0xD4]), ('\u{5C07}', [0xB1, 0x4E]), ('\u{5C08}', [0xB1, 0x4D]), 
    ('\u{5C09}', [0xB1, 0x4C]), ('\u{5C0A}', [0xB4, 0x4C]), ('\u{5C0B}', [0xB4, 0x4D]), 
    ('\u{5C0C}', [0xD8, 0xD7]), ('\u{5C0D}', [0xB9, 0xEF]), ('\u{5C0E}', [0xBE, 0xC9]), 
    ('\u{5C0F}', [0xA4, 0x70]), ('\u{5C10}', [0x9C, 0xBC]), ('\u{5C11}', [0xA4, 0xD6]), 
    ('\u{5C12}', [0xC9, 0x74]), ('\u{5C13}', [0xFB, 0xD6]), ('\u{5C14}', [0xFB, 0xD8]), 
    ('\u{5C15}', [0xC9, 0xD4]), ('\u{5C16}', [0xA6, 0x79]), ('\u{5C1A}', [0xA9, 0x7C]), 
    ('\u{5C1C}', [0x8B, 0x5D]), ('\u{5C1E}', [0x93, 0x4C]), ('\u{5C1F}', [0xDD, 0x4B]), 
    ('\u{5C20}', [0x9A, 0xE2]), ('\u{5C22}', [0xA4, 0x71]), ('\u{5C23}', [0x8B, 0xC9]), 
    ('\u{5C24}', [0xA4, 0xD7]), ('\u{5C25}', [0xC9, 0xD5]), ('\u{5C28}', [0xCA, 0xBE]), 
    ('\u{5C2A}', [0xCA, 0xBF]), ('\u{5C2C}', [0xA7, 0xBC]), ('\u{5C30}', [0xD8, 0xD8]), 
    ('\u{5C31}', [0xB4, 0x4E]), ('\u{5C33}', [0xDD, 0x4C]), ('\u{5C37}', [0xC0, 0xAA]), 
    ('\u{5C38}', [0xA4, 0x72]), ('\u{5C39}', [0xA4, 0xA8]), ('\u{5C3A}', [0xA4, 0xD8]), 
    ('\u{5C3B}', [0xC9, 0x75]), ('\u{5C3C}', [0xA5, 0xA7]), ('\u{5C3E}', [0xA7, 0xC0]), 
    ('\u{5C3F}', [0xA7, 0xBF]), ('\u{5C40}', [0xA7, 0xBD]), ('\u{5C41}', [0xA7, 0xBE]), 
    ('\u{5C44}', [0xCC, 0x59]), ('\u{5C45}', [0xA9, 0x7E]), ('\u{5C46}', [0xA9, 0xA1]), 
    ('\u{5C47}', [0xCC, 0x5A]), ('\u{5C48}', [0xA9, 0x7D]), ('\u{5C49}', [0xFB, 0xDB]), 
    ('\u{5C4A}', [0x9F, 0xC9]), ('\u{5C4B}', [0xAB, 0xCE]), ('\u{5C4C}', [0xCE, 0x78]), 
    ('\u{5C4D}', [0xAB, 0xCD]), ('\u{5C4E}', [0xAB, 0xCB]), ('\u{5C4F}', [0xAB, 0xCC]), 
    ('\u{5C50}', [0xAE, 0x6A]), ('\u{5C51}', [0xAE, 0x68]), ('\u{5C53}', [0x9F, 0x44]), 
    ('\u{5C54}', [0xD1, 0x6B]), ('\u{5C55}', [0xAE, 0x69]), ('\u{5C56}', [0xD1, 0x6A]), 
    ('\u{5C58}', [0xAE, 0x5E]), ('\u{5C59}', [0xD4, 0xF3]), ('\u{5C5C}', [0xB1, 0x50]), 
    ('\u{5C5D}', [0xB1, 0x51]), ('\u{5C5E}', [0x98, 0xED]), ('\u{5C60}', [0xB1, 0x4F]), 
    ('\u{5C62}', [0xB9, 0xF0]), ('\u{5C63}', [0xE1, 0xA2]), ('\u{5C64}', [0xBC, 0x68]), 
    ('\u{5C65}', [0xBC, 0x69]), ('\u{5C67}', [0xE5, 0x61]), ('\u{5C68}', [0xC0, 0xAB]), 
    ('\u{5C69}', [0xEF, 0xC2]), ('\u{5C6A}', [0xEF, 0xC3]), ('\u{5C6C}', [0xC4, 0xDD]), 
    ('\u{5C6D}', [0xF8, 0xA8]), ('\u{5C6E}', [0xC9, 0x4B]), ('\u{5C6F}', [0xA4, 0xD9]), 
    ('\u{5C71}', [0xA4, 0x73]), ('\u{5C73}', [0xC9, 0x77]), ('\u{5C74}', [0xC9, 0x76]), 
    ('\u{5C78}', [0x8C, 0xE9]), ('\u{5C79}', [0xA6, 0x7A]), ('\u{5C7A}', [0xC9, 0xD7]), 
    ('\u{5C7B}', [0xC9, 0xD8]), ('\u{5C7C}', [0xC9, 0xD6]), ('\u{5C7E}', [0xC9, 0xD9]), 
    ('\u{5C85}', [0xFB, 0xDD]), ('\u{5C86}', [0xCA, 0xC7]), ('\u{5C88}', [0xCA, 0xC2]), 
    ('\u{5C89}', [0xCA, 0xC4]), ('\u{5C8A}', [0xCA, 0xC6]), ('\u{5C8B}', [0xCA, 0xC3]), 
    ('\u{5C8C}', [0xA7, 0xC4]), ('\u{5C8D}', [0xCA, 0xC0]), ('\u{5C8F}', [0xCA, 0xC1]), 
    ('\u{5C90}', [0xA7, 0xC1]), ('\u{5C91}', [0xA7, 0xC2]), ('\u{5C92}', [0xCA, 0xC5]), 
    ('\u{5C93}', [0xCA, 0xC8]), ('\u{5C94}', [0xA7, 0xC3]), ('\u{5C95}', [0xCA, 0xC9]), 
    ('\u{5C99}', [0x8D, 0xF2]), ('\u{5C9A}', [0x89, 0x64]), ('\u{5C9C}', [0xFD, 0xF2]), 
    ('\u{5C9D}', [0xCC, 0x68]), ('\u{5C9E}', [0x93, 0x4D]), ('\u{5C9F}', [0xCC, 0x62]), 
    ('\u{5CA0}', [0xCC, 0x5D]), ('\u{5CA1}', [0xA9, 0xA3]), ('\u{5CA2}', [0xCC, 0x65]), 
    ('\u{5CA3}', [0xCC, 0x63]), ('\u{5CA4}', [0xCC, 0x5C]), ('\u{5CA5}', [0xCC, 0x69]), 
    ('\u{5CA6}', [0xCC, 0x6C]), ('\u{5CA7}', [0xCC, 0x67]), ('\u{5CA8}', [0xCC, 0x60]), 
    ('\u{5CA9}', [0xA9, 0xA5]), ('\u{5CAA}', [0xCC, 0x66]), ('\u{5CAB}', [0xA9, 0xA6]), 
    ('\u{5CAC}', [0xCC, 0x61]), ('\u{5CAD}', [0xCC, 0x64]), ('\u{5CAE}', [0xCC, 0x5B]), 
    ('\u{5CAF}', [0xCC, 0x5F]), ('\u{5CB0}', [0xCC, 0x6B]), ('\u{5CB1}', [0xA9, 0xA7]), 
    ('\u{5CB3}', [0xA9, 0xA8]), ('\u{5CB5}', [0xCC, 0x5E]), ('\u{5CB6}', [0xCC, 0x6A]), 
    ('\u{5CB7}', [0xA9, 0xA2]), ('\u{5CB8}', [0xA9, 0xA4]), ('\u{5CBA}', [0xFB, 0xE7]), 
    ('\u{5CC1}', [0xA0, 0xF2]), ('\u{5CC2}', [0x98, 0x68]), ('\u{5CC6}', [0xCE, 0xAB]), 
    ('\u{5CC7}', [0xCE, 0xA4]), ('\u{5CC8}', [0xCE, 0xAA]), ('\u{5CC9}', [0xCE, 0xA3]), 
    ('\u{5CCA}', [0xCE, 0xA5]), ('\u{5CCB}', [0xCE, 0x7D]), ('\u{5CCC}', [0xCE, 0x7B]), 
    ('\u{5CCE}', [0xCE, 0xAC]), ('\u{5CCF}', [0xCE, 0xA9]), ('\u{5CD0}', [0xCE, 0x79]), 
    ('\u{5CD1}', [0x9F, 0x58]), ('\u{5CD2}', [0xAB, 0xD0]), ('\u{5CD3}', [0xCE, 0xA7]), 
    ('\u{5CD4}', [0xCE, 0xA8]), ('\u{5CD5}', [0x8C, 0xE6]), ('\u{5CD6}', [0xCE, 0xA6]), 
    ('\u{5CD7}', [0xCE, 0x7C]), ('\u{5CD8}', [0xCE, 0x7A]), ('\u{5CD9}', [0xAB, 0xCF]), 
    ('\u{5CDA}', [0xCE, 0xA2]), ('\u{5CDB}', [0xCE, 0x7E]), ('\u{5CDE}', [0xCE, 0xA1]), 
    ('\u{5CDF}', [0xCE, 0xAD]), ('\u{5CE5}', [0x8D, 0x73]), ('\u{5CE8}', [0xAE, 0x6F]), 
    ('\u{5CE9}', [0xFB, 0xDE]), ('\u{5CEA}', [0xAE, 0x6E]), ('\u{5CEC}', [0xD1, 0x6C]), 
    ('\u{5CED}', [0xAE, 0x6B]), ('\u{5CEE}', [0xD1, 0x6E]), ('\u{5CEF}', [0xFB, 0xDF]), 
    ('\u{5CF0}', [0xAE, 0x70]), ('\u{5CF1}', [0xD1, 0x6F]), ('\u{5CF4}', [0xAE, 0x73]), 
    ('\u{5CF5}', [0x8C, 0x48]), ('\u{5CF6}', [0xAE, 0x71]), ('\u{5CF7}', [0xD1, 0x70]), 
    ('\u{5CF8}', [0xCE, 0xAE]), ('\u{5CF9}', [0xD1, 0x72]), ('\u{5CFB}', [0xAE, 0x6D]), 
    ('\u{5CFC}', [0x87, 0x74]), ('\u{5CFD}', [0xAE, 0x6C]), ('\u{5CFF}', [0xD1, 0x6D]), 
    ('\u{5D00}', [0xD1, 0x71]), ('\u{5D01}', [0xAE, 0x72]), ('\u{5D06}', [0xB1, 0x53]), 
    ('\u{5D07}', [0xB1, 0x52]), ('\u{5D0B}', [0xD4, 0xF5]), ('\u{5D0C}', [0xD4, 0xF9]), 
    ('\u{5D0D}', [0xD4, 0xFB]), ('\u{5D0E}', [0xB1, 0x54]), ('\u{5D0F}', [0xD4, 0xFE]), 
    ('\u{5D10}', [0xFB, 0xE3]), ('\u{5D11}', [0xB1, 0x58]), ('\u{5D12}', [0xD5, 0x41]), 
    ('\u{5D14}', [0xB1, 0x5A]), ('\u{5D15}', [0x8D, 0xA8]), ('\u{5D16}', [0xB1, 0x56]), 
    ('\u{5D17}', [0xB1, 0x5E]), ('\u{5D18}', [0xFB, 0xE4]), ('\u{5D19}', [0xB1, 0x5B]), 
    ('\u{5D1A}', [0xD4, 0xF7]), ('\u{5D1B}', [0xB1, 0x55]), ('\u{5D1D}', [0xD4, 0xF6]), 
    ('\u{5D1E}', [0xD4, 0xF4]), ('\u{5D1F}', [0xD5, 0x43]), ('\u{5D20}', [0xD4, 0xF8]), 
    ('\u{5D22}', [0xB1, 0x57]), ('\u{5D23}', [0xD5, 0x42]), ('\u{5D24}', [0xB1, 0x5C]), 
    ('\u{5D25}', [0xD4, 0xFD]), ('\u{5D26}', [0xD4, 0xFC]), ('\u{5D27}', [0xB1, 0x5D]), 
    ('\u{5D28}', [0xD4, 0xFA]), ('\u{5D29}', [0xB1, 0x59]), ('\u{5D2C}', [0x9C, 0x75]), 
    ('\u{5D2E}', [0xD5, 0x44]), ('\u{5D2F}', [0x98, 0x78]), ('\u{5D30}', [0xD5, 0x40]), 
    ('\u{5D31}', [0xD8, 0xE7]), ('\u{5D32}', [0xD8, 0xEE]), ('\u{5D33}', [0xD8, 0xE3]), 
    ('\u{5D34}', [0xB4, 0x51]), ('\u{5D35}', [0xD8, 0xDF]), ('\u{5D36}', [0xD8, 0xEF]), 
    ('\u{5D37}', [0xD8, 0xD9]), ('\u{5D38}', [0xD8, 0xEC]), ('\u{5D39}', [0xD8, 0xEA]), 
    ('\u{5D3A}', [0xD8, 0xE4]), ('\u{5D3C}', [0xD8, 0xED]), ('\u{5D3D}', [0xD8, 0xE6]), 
    ('\u{5D3E}', [0x8D, 0x60]), ('\u{5D3F}', [0xD8, 0xDE]), ('\u{5D40}', [0xD8, 0xF0]), 
    ('\u{5D41}', [0xD8, 0xDC]), ('\u{5D42}', [0xD8, 0xE9]), ('\u{5D43}', [0xD8, 0xDA]), 
    ('\u{5D45}', [0xD8, 0xF1]), ('\u{5D46}', [0xFB, 0xE5]), ('\u{5D47}', [0xB4, 0x52]), 
    ('\u{5D48}', [0x8D, 0x61]), ('\u{5D49}', [0xD8, 0xEB]), ('\u{5D4A}', [0xDD, 0x4F]), 
    ('\u{5D4B}', [0xD8, 0xDD]), ('\u{5D4C}', [0xB4, 0x4F]), ('\u{5D4E}', [0xD8, 0xE1]), 
    ('\u{5D50}', [0xB4, 0x50]), ('\u{5D51}', [0xD8, 0xE0]), ('\u{5D52}', [0xD8, 0xE5]), 
    ('\u{5D55}', [0xD8, 0xE2]), ('\u{5D56}', [0x8D, 0x62]), ('\u{5D57}', [0xA0, 0xA1]), 
    ('\u{5D59}', [0xD8, 0xE8]), ('\u{5D5B}', [0x9C, 0x40]), ('\u{5D5E}', [0xDD, 0x53]), 
    ('\u{5D62}', [0xDD, 0x56]), ('\u{5D63}', [0xDD, 0x4E]), ('\u{5D65}', [0xDD, 0x50]), 
    ('\u{5D67}', [0xDD, 0x55]), ('\u{5D68}', [0xDD, 0x54]), ('\u{5D69}', [0xB7, 0x43]), 
    ('\u{5D6B}', [0xD8, 0xDB]), ('\u{5D6C}', [0xDD, 0x52]), ('\u{5D6F}', [0xB7, 0x44]), 
    ('\u{5D70}', [0x98, 0xAD]), ('\u{5D71}', [0xDD, 0x4D]), ('\u{5D72}', [0xDD, 0x51]), 
    ('\u{5D74}', [0x9E, 0xEA]), ('\u{5D77}', [0xE1, 0xA9]), ('\u{5D78}', [0x8C, 0xEC]), 
    ('\u{5D79}', [0xE1, 0xB0]), ('\u{5D7A}', [0xE1, 0xA7]), ('\u{5D7B}', [0x8C, 0xD4]), 
    ('\u{5D7C}', [0xE1, 0xAE]), ('\u{5D7D}', [0xE1, 0xA5]), ('\u{5D7E}', [0xE1, 0xAD]), 
    ('\u{5D7F}', [0xE1, 0xB1]), ('\u{5D80}', [0xE1, 0xA4]), ('\u{5D81}', [0xE1, 0xA8]), 
    ('\u{5D82}', [0xE1, 0xA3]), ('\u{5D84}', [0xB9, 0xF1]), ('\u{5D85}', [0x9C, 0xEB]), 
    ('\u{5D86}', [0xE1, 0xA6]), ('\u{5D87}', [0xB9, 0xF2]), ('\u{5D88}', [0xE1, 0xAC]), 
    ('\u{5D89}', [0xE1, 0xAB]), ('\u{5D8A}', [0xE1, 0xAA]), ('\u{5D8B}', [0xFB, 0xE0]), 
    ('\u{5D8D}', [0xE1, 0xAF]), ('\u{5D8E}', [0x9F, 0x51]), ('\u{5D92}', [0xE5, 0x65]), 
    ('\u{5D93}', [0xE5, 0x67]), ('\u{5D94}', [0xBC, 0x6B]), ('\u{5D95}', [0xE5, 0x68]), 
    ('\u{5D97}', [0xE5, 0x63]), ('\u{5D99}', [0xE5, 0x62]), ('\u{5D9A}', [0xE5, 0x6C]), 
"#

/-- src/generated/whatwg/big5_whatwg_tables.rs.inc:3889-4016 -/
noncomputable def encode11 : List Text := lines! r#"    ('\u{5D9C}', [0xE5, 0x6A]), ('\u{5D9D}', [0xBC, 0x6A]), ('\u{5D9E}', [0xE5, 0x6D]), 
    ('\u{5D9F}', [0xE5, 0x64]), ('\u{5DA0}', [0xE5, 0x69]), ('\u{5DA1}', [0xE5, 0x6B]), 
    ('\u{5DA2}', [0xE5, 0x66]), ('\u{5DA4}', [0x8D, 0x65]), ('\u{5DA7}', [0xE9, 0x61]), 
    ('\u{5DA8}', [0xE9, 0x66]), ('\u{5DA9}', [0xE9, 0x60]), ('\u{5DAA}', [0xE9, 0x65]), 
    ('\u{5DAB}', [0x9C, 0xF1]), ('\u{5DAC}', [0xE9, 0x5E]), ('\u{5DAD}', [0xE9, 0x68]), 
    ('\u{5DAE}', [0xE9, 0x64]), ('\u{5DAF}', [0xE9, 0x69]), ('\u{5DB0}', [0xE9, 0x63]), 
    ('\u{5DB1}', [0xE9, 0x5F]), ('\u{5DB2}', [0xE9, 0x67]), ('\u{5DB4}', [0xE9, 0x6A]), 
    ('\u{5DB5}', [0xE9, 0x62]), ('\u{5DB6}', [0xFC, 0x58]), ('\u{5DB7}', [0xEC, 0xDA]), 
    ('\u{5DB8}', [0xC0, 0xAF]), ('\u{5DB9}', [0x8D, 0x66]), ('\u{5DBA}', [0xC0, 0xAD]), 
    ('\u{5DBC}', [0xC0, 0xAC]), ('\u{5DBD}', [0xC0, 0xAE]), ('\u{5DC0}', [0xEF, 0xC4]), 
    ('\u{5DC1}', [0x96, 0x54]), ('\u{5DC2}', [0xF1, 0x72]), ('\u{5DC3}', [0xF1, 0xFD]), 
    ('\u{5DC6}', [0xF4, 0x44]), ('\u{5DC7}', [0xF4, 0x45]), ('\u{5DC9}', [0xC4, 0x60]), 
    ('\u{5DCB}', [0xF5, 0xC9]), ('\u{5DCD}', [0xC4, 0xDE]), ('\u{5DCF}', [0xF5, 0xCA]), 
    ('\u{5DD1}', [0xF6, 0xDE]), ('\u{5DD2}', [0xC5, 0x72]), ('\u{5DD4}', [0xC5, 0x71]), 
    ('\u{5DD5}', [0xF6, 0xDD]), ('\u{5DD6}', [0xC5, 0xC9]), ('\u{5DD7}', [0xFB, 0xE8]), 
    ('\u{5DD8}', [0xF7, 0xD6]), ('\u{5DDB}', [0xC6, 0xCC]), ('\u{5DDD}', [0xA4, 0x74]), 
    ('\u{5DDE}', [0xA6, 0x7B]), ('\u{5DDF}', [0xC9, 0xDA]), ('\u{5DE0}', [0xCA, 0xCA]), 
    ('\u{5DE1}', [0xA8, 0xB5]), ('\u{5DE2}', [0xB1, 0x5F]), ('\u{5DE5}', [0xA4, 0x75]), 
    ('\u{5DE6}', [0xA5, 0xAA]), ('\u{5DE7}', [0xA5, 0xA9]), ('\u{5DE8}', [0xA5, 0xA8]), 
    ('\u{5DEB}', [0xA7, 0xC5]), ('\u{5DEE}', [0xAE, 0x74]), ('\u{5DF0}', [0xDD, 0x57]), 
    ('\u{5DF1}', [0xA4, 0x76]), ('\u{5DF2}', [0xA4, 0x77]), ('\u{5DF3}', [0xA4, 0x78]), 
    ('\u{5DF4}', [0xA4, 0xDA]), ('\u{5DF5}', [0x9F, 0xCE]), ('\u{5DF7}', [0xAB, 0xD1]), 
    ('\u{5DF9}', [0xCE, 0xAF]), ('\u{5DFD}', [0xB4, 0x53]), ('\u{5DFE}', [0xA4, 0x79]), 
    ('\u{5DFF}', [0xC9, 0x5D]), ('\u{5E02}', [0xA5, 0xAB]), ('\u{5E03}', [0xA5, 0xAC]), 
    ('\u{5E04}', [0xC9, 0x78]), ('\u{5E06}', [0xA6, 0x7C]), ('\u{5E09}', [0xFB, 0xFC]), 
    ('\u{5E0A}', [0xCA, 0xCB]), ('\u{5E0B}', [0x9A, 0xE4]), ('\u{5E0C}', [0xA7, 0xC6]), 
    ('\u{5E0E}', [0xCA, 0xCC]), ('\u{5E11}', [0xA9, 0xAE]), ('\u{5E12}', [0x9F, 0x75]), 
    ('\u{5E14}', [0xCC, 0x6E]), ('\u{5E15}', [0xA9, 0xAC]), ('\u{5E16}', [0xA9, 0xAB]), 
    ('\u{5E17}', [0xCC, 0x6D]), ('\u{5E18}', [0xA9, 0xA9]), ('\u{5E19}', [0xCC, 0x6F]), 
    ('\u{5E1A}', [0xA9, 0xAA]), ('\u{5E1B}', [0xA9, 0xAD]), ('\u{5E1D}', [0xAB, 0xD2]), 
    ('\u{5E1F}', [0xAB, 0xD4]), ('\u{5E20}', [0xCE, 0xB3]), ('\u{5E21}', [0xCE, 0xB0]), 
    ('\u{5E22}', [0xCE, 0xB1]), ('\u{5E23}', [0xCE, 0xB2]), ('\u{5E24}', [0xCE, 0xB4]), 
    ('\u{5E25}', [0xAB, 0xD3]), ('\u{5E28}', [0xD1, 0x74]), ('\u{5E29}', [0xD1, 0x73]), 
    ('\u{5E2B}', [0xAE, 0x76]), ('\u{5E2D}', [0xAE, 0x75]), ('\u{5E2E}', [0xFB, 0xF1]), 
    ('\u{5E33}', [0xB1, 0x62]), ('\u{5E34}', [0xD5, 0x46]), ('\u{5E36}', [0xB1, 0x61]), 
    ('\u{5E37}', [0xB1, 0x63]), ('\u{5E38}', [0xB1, 0x60]), ('\u{5E3D}', [0xB4, 0x55]), 
    ('\u{5E3E}', [0xD5, 0x45]), ('\u{5E40}', [0xB4, 0x56]), ('\u{5E41}', [0xD8, 0xF3]), 
    ('\u{5E42}', [0x8D, 0x69]), ('\u{5E43}', [0xB4, 0x57]), ('\u{5E44}', [0xD8, 0xF2]), 
    ('\u{5E45}', [0xB4, 0x54]), ('\u{5E48}', [0x93, 0x4F]), ('\u{5E4A}', [0xDD, 0x5A]), 
    ('\u{5E4B}', [0xDD, 0x5C]), ('\u{5E4C}', [0xB7, 0x45]), ('\u{5E4D}', [0xDD, 0x5B]), 
    ('\u{5E4E}', [0xDD, 0x59]), ('\u{5E4F}', [0xDD, 0x58]), ('\u{5E53}', [0xE1, 0xB4]), 
    ('\u{5E54}', [0xB9, 0xF7]), ('\u{5E55}', [0xB9, 0xF5]), ('\u{5E57}', [0xB9, 0xF6]), 
    ('\u{5E58}', [0xE1, 0xB2]), ('\u{5E59}', [0xE1, 0xB3]), ('\u{5E5B}', [0xB9, 0xF3]), 
    ('\u{5E5C}', [0xE5, 0x71]), ('\u{5E5D}', [0xE5, 0x6F]), ('\u{5E5E}', [0x93, 0x4E]), 
    ('\u{5E5F}', [0xBC, 0x6D]), ('\u{5E60}', [0xE5, 0x70]), ('\u{5E61}', [0xBC, 0x6E]), 
    ('\u{5E62}', [0xBC, 0x6C]), ('\u{5E63}', [0xB9, 0xF4]), ('\u{5E66}', [0xE9, 0x6D]), 
    ('\u{5E67}', [0xE9, 0x6B]), ('\u{5E68}', [0xE9, 0x6C]), ('\u{5E69}', [0xE5, 0x6E]), 
    ('\u{5E6A}', [0xEC, 0xDC]), ('\u{5E6B}', [0xC0, 0xB0]), ('\u{5E6C}', [0xEC, 0xDB]), 
    ('\u{5E6D}', [0xEF, 0xC5]), ('\u{5E6E}', [0xEF, 0xC6]), ('\u{5E6F}', [0xE9, 0x6E]), 
    ('\u{5E70}', [0xF1, 0xFE]), ('\u{5E72}', [0xA4, 0x7A]), ('\u{5E73}', [0xA5, 0xAD]), 
    ('\u{5E74}', [0xA6, 0x7E]), ('\u{5E75}', [0xC9, 0xDB]), ('\u{5E76}', [0xA6, 0x7D]), 
    ('\u{5E78}', [0xA9, 0xAF]), ('\u{5E79}', [0xB7, 0x46]), ('\u{5E7A}', [0xFB, 0xF4]), 
    ('\u{5E7B}', [0xA4, 0xDB]), ('\u{5E7C}', [0xA5, 0xAE]), ('\u{5E7D}', [0xAB, 0xD5]), 
    ('\u{5E7E}', [0xB4, 0x58]), ('\u{5E7F}', [0xC6, 0xCE]), ('\u{5E80}', [0xC9, 0x79]), 
    ('\u{5E82}', [0xC9, 0x7A]), ('\u{5E83}', [0xFB, 0xC3]), ('\u{5E84}', [0xC9, 0xDC]), 
    ('\u{5E86}', [0x89, 0x65]), ('\u{5E87}', [0xA7, 0xC8]), ('\u{5E88}', [0xCA, 0xD0]), 
    ('\u{5E89}', [0xCA, 0xCE]), ('\u{5E8A}', [0xA7, 0xC9]), ('\u{5E8B}', [0xCA, 0xCD]), 
    ('\u{5E8C}', [0xCA, 0xCF]), ('\u{5E8D}', [0xCA, 0xD1]), ('\u{5E8F}', [0xA7, 0xC7]), 
    ('\u{5E92}', [0x8C, 0x7A]), ('\u{5E95}', [0xA9, 0xB3]), ('\u{5E96}', [0xA9, 0xB4]), 
    ('\u{5E97}', [0xA9, 0xB1]), ('\u{5E99}', [0x8C, 0x7B]), ('\u{5E9A}', [0xA9, 0xB0]), 
    ('\u{5E9B}', [0xCE, 0xB8]), ('\u{5E9C}', [0xA9, 0xB2]), ('\u{5EA0}', [0xAB, 0xD6]), 
    ('\u{5EA2}', [0xCE, 0xB7]), ('\u{5EA3}', [0xCE, 0xB9]), ('\u{5EA4}', [0xCE, 0xB6]), 
    ('\u{5EA5}', [0xCE, 0xBA]), ('\u{5EA6}', [0xAB, 0xD7]), ('\u{5EA7}', [0xAE, 0x79]), 
    ('\u{5EA8}', [0xD1, 0x75]), ('\u{5EAA}', [0xD1, 0x77]), ('\u{5EAB}', [0xAE, 0x77]), 
    ('\u{5EAC}', [0xD1, 0x78]), ('\u{5EAD}', [0xAE, 0x78]), ('\u{5EAE}', [0xD1, 0x76]), 
    ('\u{5EB0}', [0xCE, 0xB5]), ('\u{5EB1}', [0xD5, 0x47]), ('\u{5EB2}', [0xD5, 0x4A]), 
    ('\u{5EB3}', [0xD5, 0x4B]), ('\u{5EB4}', [0xD5, 0x48]), ('\u{5EB5}', [0xB1, 0x67]), 
    ('\u{5EB6}', [0xB1, 0x66]), ('\u{5EB7}', [0xB1, 0x64]), ('\u{5EB8}', [0xB1, 0x65]), 
    ('\u{5EB9}', [0xD5, 0x49]), ('\u{5EBD}', [0x8D, 0x6A]), ('\u{5EBE}', [0xB1, 0x68]), 
    ('\u{5EC1}', [0xB4, 0x5A]), ('\u{5EC2}', [0xB4, 0x5B]), ('\u{5EC4}', [0xB4, 0x5C]), 
    ('\u{5EC5}', [0xDD, 0x5D]), ('\u{5EC6}', [0xDD, 0x5F]), ('\u{5EC7}', [0xDD, 0x61]), 
    ('\u{5EC8}', [0xB7, 0x48]), ('\u{5EC9}', [0xB7, 0x47]), ('\u{5ECA}', [0xB4, 0x59]), 
    ('\u{5ECB}', [0xDD, 0x60]), ('\u{5ECC}', [0xDD, 0x5E]), ('\u{5ECD}', [0x93, 0x53]), 
    ('\u{5ECE}', [0xE1, 0xB8]), ('\u{5ED0}', [0x9D, 0xFB]), ('\u{5ED1}', [0xE1, 0xB6]), 
    ('\u{5ED2}', [0xE1, 0xBC]), ('\u{5ED3}', [0xB9, 0xF8]), ('\u{5ED4}', [0xE1, 0xBD]), 
    ('\u{5ED5}', [0xE1, 0xBA]), ('\u{5ED6}', [0xB9, 0xF9]), ('\u{5ED7}', [0xE1, 0xB7]), 
    ('\u{5ED8}', [0xE1, 0xB5]), ('\u{5ED9}', [0xE1, 0xBB]), ('\u{5EDA}', [0xBC, 0x70]), 
    ('\u{5EDB}', [0xE5, 0x73]), ('\u{5EDC}', [0xE1, 0xB9]), ('\u{5EDD}', [0xBC, 0x72]), 
    ('\u{5EDE}', [0xE5, 0x74]), ('\u{5EDF}', [0xBC, 0x71]), ('\u{5EE0}', [0xBC, 0x74]), 
    ('\u{5EE1}', [0xE5, 0x75]), ('\u{5EE2}', [0xBC, 0x6F]), ('\u{5EE3}', [0xBC, 0x73]), 
    ('\u{5EE5}', [0xE9, 0x73]), ('\u{5EE6}', [0xE9, 0x71]), ('\u{5EE7}', [0xE9, 0x70]), 
    ('\u{5EE8}', [0xE9, 0x72]), ('\u{5EE9}', [0xE9, 0x6F]), ('\u{5EEC}', [0xC3, 0x66]), 
    ('\u{5EEE}', [0xF4, 0x46]), ('\u{5EEF}', [0xF4, 0x47]), ('\u{5EF1}', [0xF5, 0xCB]), 
    ('\u{5EF2}', [0xF6, 0xDF]), ('\u{5EF3}', [0xC6, 0x55]), ('\u{5EF4}', [0xC6, 0xCF]), 
    ('\u{5EF6}', [0xA9, 0xB5]), ('\u{5EF7}', [0xA7, 0xCA]), ('\u{5EF8}', [0x90, 0x59]), 
    ('\u{5EF9}', [0xFC, 0x40]), ('\u{5EFA}', [0xAB, 0xD8]), ('\u{5EFB}', [0xFC, 0x41]), 
    ('\u{5EFC}', [0xFC, 0x43]), ('\u{5EFE}', [0xA4, 0x7B]), ('\u{5EFF}', [0xA4, 0xDC]), 
    ('\u{5F01}', [0xA5, 0xAF]), ('\u{5F02}', [0xC9, 0xDD]), ('\u{5F04}', [0xA7, 0xCB]), 
    ('\u{5F05}', [0xCA, 0xD2]), ('\u{5F07}', [0xCE, 0xBB]), ('\u{5F08}', [0xAB, 0xD9]), 
    ('\u{5F0A}', [0xB9, 0xFA]), ('\u{5F0B}', [0xA4, 0x7C]), ('\u{5F0C}', [0x93, 0x61]), 
    ('\u{5F0D}', [0xFC, 0x46]), ('\u{5F0E}', [0x93, 0x62]), ('\u{5F0F}', [0xA6, 0xA1]), 
    ('\u{5F12}', [0xB7, 0x49]), ('\u{5F13}', [0xA4, 0x7D]), ('\u{5F14}', [0xA4, 0xDD]), 
    ('\u{5F15}', [0xA4, 0xDE]), ('\u{5F17}', [0xA5, 0xB1]), ('\u{5F18}', [0xA5, 0xB0]), 
    ('\u{5F1A}', [0xC9, 0xDE]), ('\u{5F1B}', [0xA6, 0xA2]), ('\u{5F1D}', [0xCA, 0xD3]), 
    ('\u{5F1F}', [0xA7, 0xCC]), ('\u{5F22}', [0xCC, 0x71]), ('\u{5F23}', [0xCC, 0x72]), 
    ('\u{5F24}', [0xCC, 0x73]), ('\u{5F25}', [0x8D, 0x6B]), ('\u{5F26}', [0xA9, 0xB6]), 
    ('\u{5F27}', [0xA9, 0xB7]), ('\u{5F28}', [0xCC, 0x70]), ('\u{5F29}', [0xA9, 0xB8]), 
    ('\u{5F2D}', [0xAB, 0xDA]), ('\u{5F2E}', [0xCE, 0xBC]), ('\u{5F30}', [0xD1, 0x7A]), 
    ('\u{5F31}', [0xAE, 0x7A]), ('\u{5F33}', [0xD1, 0x79]), ('\u{5F35}', [0xB1, 0x69]), 
    ('\u{5F36}', [0xD5, 0x4C]), ('\u{5F37}', [0xB1, 0x6A]), ('\u{5F38}', [0xD5, 0x4D]), 
    ('\u{5F3A}', [0xFC, 0x4C]), ('\u{5F3B}', [0x8C, 0xFE]), ('\u{5F3C}', [0xB4, 0x5D]), 
    ('\u{5F40}', [0xDD, 0x62]), ('\u{5F43}', [0xE1, 0xBF]), ('\u{5F44}', [0xE1, 0xBE]), 
    ('\u{5F46}', [0xB9, 0xFB]), ('\u{5F48}', [0xBC, 0x75]), ('\u{5F49}', [0xE5, 0x76]), 
    ('\u{5F4A}', [0xBE, 0xCA]), ('\u{5F4B}', [0xE9, 0x74]), ('\u{5F4C}', [0xC0, 0xB1]), 
    ('\u{5F4D}', [0x95, 0xB8]), ('\u{5F4E}', [0xC5, 0x73]), ('\u{5F4F}', [0xF7, 0xD8]), 
    ('\u{5F50}', [0xC6, 0xD0]), ('\u{5F51}', [0x8B, 0xCA]), ('\u{5F54}', [0xCC, 0x74]), 
    ('\u{5F56}', [0xCE, 0xBD]), ('\u{5F57}', [0xB1, 0x6B]), ('\u{5F58}', [0xD8, 0xF4]), 
    ('\u{5F59}', [0xB7, 0x4A]), ('\u{5F5C}', [0x98, 0x7A]), ('\u{5F5D}', [0xC2, 0x55]), 
    ('\u{5F61}', [0xC6, 0xD1]), ('\u{5F62}', [0xA7, 0xCE]), ('\u{5F63}', [0xFC, 0x51]), 
    ('\u{5F64}', [0xA7, 0xCD]), ('\u{5F65}', [0xAB, 0xDB]), ('\u{5F67}', [0xD1, 0x7B]), 
    ('\u{5F69}', [0xB1, 0x6D]), ('\u{5F6A}', [0xB3, 0x43]), ('\u{5F6B}', [0xB1, 0x6E]), 
    ('\u{5F6C}', [0xB1, 0x6C]), ('\u{5F6D}', [0xB4, 0x5E]), ('\u{5F6F}', [0xE1, 0xC0]), 
    ('\u{5F70}', [0xB9, 0xFC]), ('\u{5F71}', [0xBC, 0x76]), ('\u{5F72}', [0xFC, 0x54]), 
    ('\u{5F73}', [0xC9, 0x4C]), ('\u{5F74}', [0xC9, 0xDF]), ('\u{5F76}', [0xCA, 0xD5]), 
    ('\u{5F77}', [0xA7, 0xCF]), ('\u{5F78}', [0xCA, 0xD4]), ('\u{5F79}', [0xA7, 0xD0]), 
    ('\u{5F7B}', [0xFA, 0xAF]), ('\u{5F7C}', [0xA9, 0xBC]), ('\u{5F7D}', [0xCC, 0x77]), 
    ('\u{5F7E}', [0xCC, 0x76]), ('\u{5F7F}', [0xA9, 0xBB]), ('\u{5F80}', [0xA9, 0xB9]), 
    ('\u{5F81}', [0xA9, 0xBA]), ('\u{5F82}', [0xCC, 0x75]), ('\u{5F83}', [0x8D, 0x6C]), 
    ('\u{5F85}', [0xAB, 0xDD]), ('\u{5F86}', [0xCE, 0xBE]), ('\u{5F87}', [0xAB, 0xE0]), 
    ('\u{5F88}', [0xAB, 0xDC]), ('\u{5F89}', [0xAB, 0xE2]), ('\u{5F8A}', [0xAB, 0xDE]), 
    ('\u{5F8B}', [0xAB, 0xDF]), ('\u{5F8C}', [0xAB, 0xE1]), ('\u{5F90}', [0xAE, 0x7D]), 
    ('\u{5F91}', [0xAE, 0x7C]), ('\u{5F92}', [0xAE, 0x7B]), ('\u{5F96}', [0xD5, 0x4F]), 
    ('\u{5F97}', [0xB1, 0x6F]), ('\u{5F98}', [0xB1, 0x72]), ('\u{5F99}', [0xB1, 0x70]), 
    ('\u{5F9B}', [0xD5, 0x4E]), ('\u{5F9C}', [0xB1, 0x75]), ('\u{5F9E}', [0xB1, 0x71]), 
    ('\u{5F9F}', [0xD5, 0x50]), ('\u{5FA0}', [0xB1, 0x74]), ('\u{5FA1}', [0xB1, 0x73]), 
    ('\u{5FA4}', [0xFA, 0x61]), ('\u{5FA5}', [0xD8, 0xF6]), ('\u{5FA6}', [0xD8, 0xF5]), 
    ('\u{5FA7}', [0xFC, 0x57]), ('\u{5FA8}', [0xB4, 0x61]), ('\u{5FA9}', [0xB4, 0x5F]), 
    ('\u{5FAA}', [0xB4, 0x60]), ('\u{5FAB}', [0xD8, 0xF7]), ('\u{5FAC}', [0xB7, 0x4B]), 
"#

/-- src/generated/whatwg/big5_whatwg_tables.rs.inc:4017-4144 -/
noncomputable def encode12 : List Text := lines! r#"    ('\u{5FAD}', [0xDD, 0x64]), ('\u{5FAE}', [0xB7, 0x4C]), ('\u{5FAF}', [0xDD, 0x63]), 
    ('\u{5FB1}', [0x9B, 0x70]), ('\u{5FB2}', [0xE5, 0x77]), ('\u{5FB5}', [0xBC, 0x78]), 
    ('\u{5FB6}', [0xE1, 0xC1]), ('\u{5FB7}', [0xBC, 0x77]), ('\u{5FB9}', [0xB9, 0xFD]), 
    ('\u{5FBA}', [0xA0, 0x51]), ('\u{5FBB}', [0xEC, 0xDE]), ('\u{5FBC}', [0xE9, 0x75]), 
    ('\u{5FBD}', [0xC0, 0xB2]), ('\u{5FBE}', [0xEC, 0xDD]), ('\u{5FBF}', [0xF2, 0x40]), 
    ('\u{5FC0}', [0xF4, 0x48]), ('\u{5FC1}', [0xF4, 0x49]), ('\u{5FC2}', [0x8C, 0x7C]), 
    ('\u{5FC3}', [0xA4, 0xDF]), ('\u{5FC4}', [0x8B, 0xCB]), ('\u{5FC5}', [0xA5, 0xB2]), 
    ('\u{5FC9}', [0xC9, 0x7B]), ('\u{5FCC}', [0xA7, 0xD2]), ('\u{5FCD}', [0xA7, 0xD4]), 
    ('\u{5FCF}', [0xC9, 0xE2]), ('\u{5FD0}', [0xCA, 0xD8]), ('\u{5FD1}', [0xCA, 0xD7]), 
    ('\u{5FD2}', [0xCA, 0xD6]), ('\u{5FD4}', [0xC9, 0xE1]), ('\u{5FD5}', [0xC9, 0xE0]), 
    ('\u{5FD6}', [0xA6, 0xA4]), ('\u{5FD7}', [0xA7, 0xD3]), ('\u{5FD8}', [0xA7, 0xD1]), 
    ('\u{5FD9}', [0xA6, 0xA3]), ('\u{5FDB}', [0x93, 0x6E]), ('\u{5FDD}', [0xA9, 0xBD]), 
    ('\u{5FDE}', [0xCC, 0x78]), ('\u{5FDF}', [0xFC, 0xD5]), ('\u{5FE0}', [0xA9, 0xBE]), 
    ('\u{5FE1}', [0xCA, 0xDD]), ('\u{5FE3}', [0xCA, 0xDF]), ('\u{5FE4}', [0xCA, 0xDE]), 
    ('\u{5FE5}', [0xCC, 0x79]), ('\u{5FE8}', [0xCA, 0xDA]), ('\u{5FEA}', [0xA7, 0xD8]), 
    ('\u{5FEB}', [0xA7, 0xD6]), ('\u{5FED}', [0xCA, 0xD9]), ('\u{5FEE}', [0xCA, 0xDB]), 
    ('\u{5FEF}', [0xCA, 0xE1]), ('\u{5FF1}', [0xA7, 0xD5]), ('\u{5FF3}', [0xCA, 0xDC]), 
    ('\u{5FF4}', [0xCA, 0xE5]), ('\u{5FF5}', [0xA9, 0xC0]), ('\u{5FF7}', [0xCA, 0xE2]), 
    ('\u{5FF8}', [0xA7, 0xD7]), ('\u{5FFA}', [0xCA, 0xE0]), ('\u{5FFB}', [0xCA, 0xE3]), 
    ('\u{5FFD}', [0xA9, 0xBF]), ('\u{5FFF}', [0xA9, 0xC1]), ('\u{6000}', [0xCA, 0xE4]), 
    ('\u{6009}', [0xCC, 0xAF]), ('\u{600A}', [0xCC, 0xA2]), ('\u{600B}', [0xCC, 0x7E]), 
    ('\u{600C}', [0xCC, 0xAE]), ('\u{600D}', [0xCC, 0xA9]), ('\u{600E}', [0xAB, 0xE7]), 
    ('\u{600F}', [0xA9, 0xC2]), ('\u{6010}', [0xCC, 0xAA]), ('\u{6011}', [0xCC, 0xAD]), 
    ('\u{6012}', [0xAB, 0xE3]), ('\u{6013}', [0xCC, 0xAC]), ('\u{6014}', [0xA9, 0xC3]), 
    ('\u{6015}', [0xA9, 0xC8]), ('\u{6016}', [0xA9, 0xC6]), ('\u{6017}', [0xCC, 0xA3]), 
    ('\u{6019}', [0xCC, 0x7C]), ('\u{601A}', [0xCC, 0xA5]), ('\u{601B}', [0xA9, 0xCD]), 
    ('\u{601C}', [0xCC, 0xB0]), ('\u{601D}', [0xAB, 0xE4]), ('\u{601E}', [0xCC, 0xA6]), 
    ('\u{6020}', [0xAB, 0xE5]), ('\u{6021}', [0xA9, 0xC9]), ('\u{6022}', [0xCC, 0xA8]), 
    ('\u{6023}', [0xFC, 0xA9]), ('\u{6024}', [0xCE, 0xCD]), ('\u{6025}', [0xAB, 0xE6]), 
    ('\u{6026}', [0xCC, 0x7B]), ('\u{6027}', [0xA9, 0xCA]), ('\u{6028}', [0xAB, 0xE8]), 
    ('\u{6029}', [0xA9, 0xCB]), ('\u{602A}', [0xA9, 0xC7]), ('\u{602B}', [0xA9, 0xCC]), 
    ('\u{602C}', [0xCC, 0xA7]), ('\u{602D}', [0xCC, 0x7A]), ('\u{602E}', [0xCC, 0xAB]), 
    ('\u{602F}', [0xA9, 0xC4]), ('\u{6031}', [0xFC, 0x61]), ('\u{6032}', [0xCC, 0x7D]), 
    ('\u{6033}', [0xCC, 0xA4]), ('\u{6034}', [0xCC, 0xA1]), ('\u{6035}', [0xA9, 0xC5]), 
    ('\u{6037}', [0xCE, 0xBF]), ('\u{6039}', [0xCE, 0xC0]), ('\u{603B}', [0x89, 0x66]), 
    ('\u{6040}', [0xCE, 0xCA]), ('\u{6041}', [0xD1, 0xA1]), ('\u{6042}', [0xCE, 0xCB]), 
    ('\u{6043}', [0xAB, 0xEE]), ('\u{6044}', [0xCE, 0xCE]), ('\u{6045}', [0xCE, 0xC4]), 
    ('\u{6046}', [0xAB, 0xED]), ('\u{6047}', [0xCE, 0xC6]), ('\u{6049}', [0xCE, 0xC7]), 
    ('\u{604A}', [0xFA, 0xCB]), ('\u{604C}', [0xCE, 0xC9]), ('\u{604D}', [0xAB, 0xE9]), 
    ('\u{6050}', [0xAE, 0xA3]), ('\u{6052}', [0xF9, 0xDA]), ('\u{6053}', [0xCE, 0xC5]), 
    ('\u{6054}', [0xCE, 0xC1]), ('\u{6055}', [0xAE, 0xA4]), ('\u{6058}', [0xCE, 0xCF]), 
    ('\u{6059}', [0xAE, 0x7E]), ('\u{605A}', [0xD1, 0x7D]), ('\u{605B}', [0xCE, 0xC8]), 
    ('\u{605D}', [0xD1, 0x7C]), ('\u{605E}', [0xCE, 0xC3]), ('\u{605F}', [0xCE, 0xCC]), 
    ('\u{6062}', [0x9E, 0xA9]), ('\u{6063}', [0xAE, 0xA1]), ('\u{6064}', [0xAB, 0xF2]), 
    ('\u{6065}', [0xAE, 0xA2]), ('\u{6066}', [0xCE, 0xD0]), ('\u{6067}', [0xD1, 0x7E]), 
    ('\u{6068}', [0xAB, 0xEB]), ('\u{6069}', [0xAE, 0xA6]), ('\u{606A}', [0xAB, 0xF1]), 
    ('\u{606B}', [0xAB, 0xF0]), ('\u{606C}', [0xAB, 0xEF]), ('\u{606D}', [0xAE, 0xA5]), 
    ('\u{606E}', [0xCE, 0xD1]), ('\u{606F}', [0xAE, 0xA7]), ('\u{6070}', [0xAB, 0xEA]), 
    ('\u{6072}', [0xCE, 0xC2]), ('\u{6075}', [0x93, 0x7A]), ('\u{6077}', [0xA0, 0xE0]), 
    ('\u{607E}', [0x93, 0x6B]), ('\u{607F}', [0xB1, 0x76]), ('\u{6080}', [0xD1, 0xA4]), 
    ('\u{6081}', [0xD1, 0xA6]), ('\u{6083}', [0xD1, 0xA8]), ('\u{6084}', [0xAE, 0xA8]), 
    ('\u{6085}', [0xAE, 0xAE]), ('\u{6086}', [0xD5, 0x53]), ('\u{6087}', [0xD1, 0xAC]), 
    ('\u{6088}', [0xD1, 0xA3]), ('\u{6089}', [0xB1, 0x78]), ('\u{608A}', [0xD5, 0x51]), 
    ('\u{608C}', [0xAE, 0xAD]), ('\u{608D}', [0xAE, 0xAB]), ('\u{608E}', [0xD1, 0xAE]), 
    ('\u{6090}', [0xD5, 0x52]), ('\u{6092}', [0xD1, 0xA5]), ('\u{6094}', [0xAE, 0xAC]), 
    ('\u{6095}', [0xD1, 0xA9]), ('\u{6096}', [0xAE, 0xAF]), ('\u{6097}', [0xD1, 0xAB]), 
    ('\u{609A}', [0xAE, 0xAA]), ('\u{609B}', [0xD1, 0xAA]), ('\u{609C}', [0xD1, 0xAD]), 
    ('\u{609D}', [0xD1, 0xA7]), ('\u{609E}', [0xFC, 0x6B]), ('\u{609F}', [0xAE, 0xA9]), 
    ('\u{60A0}', [0xB1, 0x79]), ('\u{60A2}', [0xD1, 0xA2]), ('\u{60A3}', [0xB1, 0x77]), 
    ('\u{60A4}', [0xA0, 0xDC]), ('\u{60A7}', [0x94, 0x68]), ('\u{60A8}', [0xB1, 0x7A]), 
    ('\u{60B0}', [0xD5, 0x55]), ('\u{60B1}', [0xD5, 0x5E]), ('\u{60B2}', [0xB4, 0x64]), 
    ('\u{60B3}', [0xFC, 0x6D]), ('\u{60B4}', [0xB1, 0x7C]), ('\u{60B5}', [0xB1, 0xA3]), 
    ('\u{60B6}', [0xB4, 0x65]), ('\u{60B7}', [0xD5, 0x60]), ('\u{60B8}', [0xB1, 0xAA]), 
    ('\u{60B9}', [0xD8, 0xF9]), ('\u{60BA}', [0xD5, 0x56]), ('\u{60BB}', [0xB1, 0xA2]), 
    ('\u{60BC}', [0xB1, 0xA5]), ('\u{60BD}', [0xB1, 0x7E]), ('\u{60BE}', [0xD5, 0x54]), 
    ('\u{60BF}', [0xD5, 0x62]), ('\u{60C0}', [0xD5, 0x65]), ('\u{60C1}', [0xD9, 0x49]), 
    ('\u{60C3}', [0xD5, 0x63]), ('\u{60C4}', [0xD8, 0xFD]), ('\u{60C5}', [0xB1, 0xA1]), 
    ('\u{60C6}', [0xB1, 0xA8]), ('\u{60C7}', [0xB1, 0xAC]), ('\u{60C8}', [0xD5, 0x5D]), 
    ('\u{60C9}', [0xD8, 0xF8]), ('\u{60CA}', [0xD5, 0x61]), ('\u{60CB}', [0xB1, 0x7B]), 
    ('\u{60CC}', [0xD8, 0xFA]), ('\u{60CD}', [0xD5, 0x64]), ('\u{60CE}', [0xD8, 0xFC]), 
    ('\u{60CF}', [0xD5, 0x59]), ('\u{60D1}', [0xB4, 0x62]), ('\u{60D3}', [0xD5, 0x57]), 
    ('\u{60D4}', [0xD5, 0x58]), ('\u{60D5}', [0xB1, 0xA7]), ('\u{60D7}', [0x8D, 0x71]), 
    ('\u{60D8}', [0xB1, 0xA6]), ('\u{60D9}', [0xD5, 0x5B]), ('\u{60DA}', [0xB1, 0xAB]), 
    ('\u{60DB}', [0xD5, 0x5F]), ('\u{60DC}', [0xB1, 0xA4]), ('\u{60DD}', [0xD5, 0x5C]), 
    ('\u{60DE}', [0x9B, 0xEC]), ('\u{60DF}', [0xB1, 0xA9]), ('\u{60E0}', [0xB4, 0x66]), 
    ('\u{60E1}', [0xB4, 0x63]), ('\u{60E2}', [0xD8, 0xFB]), ('\u{60E3}', [0x99, 0xBA]), 
    ('\u{60E4}', [0xD5, 0x5A]), ('\u{60E6}', [0xB1, 0x7D]), ('\u{60E7}', [0x9A, 0xD0]), 
    ('\u{60E8}', [0x9A, 0x61]), ('\u{60E9}', [0xA0, 0xE5]), ('\u{60F0}', [0xB4, 0x6B]), 
    ('\u{60F1}', [0xB4, 0x6F]), ('\u{60F2}', [0xD9, 0x40]), ('\u{60F3}', [0xB7, 0x51]), 
    ('\u{60F4}', [0xB4, 0x6D]), ('\u{60F5}', [0xD9, 0x44]), ('\u{60F6}', [0xB4, 0x71]), 
    ('\u{60F7}', [0xDD, 0x65]), ('\u{60F8}', [0xD9, 0x46]), ('\u{60F9}', [0xB7, 0x53]), 
    ('\u{60FA}', [0xB4, 0x69]), ('\u{60FB}', [0xB4, 0x6C]), ('\u{60FC}', [0xD9, 0x47]), 
    ('\u{60FD}', [0xA0, 0x5B]), ('\u{60FE}', [0xD9, 0x48]), ('\u{60FF}', [0xD9, 0x4E]), 
    ('\u{6100}', [0xB4, 0x73]), ('\u{6101}', [0xB7, 0x54]), ('\u{6103}', [0xD9, 0x4A]), 
    ('\u{6104}', [0xD9, 0x4F]), ('\u{6105}', [0xD9, 0x43]), ('\u{6106}', [0xB7, 0x5E]), 
    ('\u{6107}', [0x96, 0xAC]), ('\u{6108}', [0xB7, 0x55]), ('\u{6109}', [0xB4, 0x72]), 
    ('\u{610A}', [0xD9, 0x41]), ('\u{610B}', [0xD9, 0x50]), ('\u{610C}', [0x97, 0x40]), 
    ('\u{610D}', [0xB7, 0x5D]), ('\u{610E}', [0xB4, 0x70]), ('\u{610F}', [0xB7, 0x4E]), 
    ('\u{6110}', [0xD9, 0x4D]), ('\u{6112}', [0xB4, 0x74]), ('\u{6113}', [0xD9, 0x45]), 
    ('\u{6114}', [0xD8, 0xFE]), ('\u{6115}', [0xB4, 0x6A]), ('\u{6116}', [0xD9, 0x42]), 
    ('\u{6118}', [0xD9, 0x4B]), ('\u{6119}', [0x9E, 0xF1]), ('\u{611A}', [0xB7, 0x4D]), 
    ('\u{611B}', [0xB7, 0x52]), ('\u{611C}', [0xB4, 0x67]), ('\u{611D}', [0xD9, 0x4C]), 
    ('\u{611F}', [0xB7, 0x50]), ('\u{6122}', [0x8C, 0x4D]), ('\u{6123}', [0xB4, 0x68]), 
    ('\u{6127}', [0xB7, 0x5C]), ('\u{6128}', [0xE1, 0xC3]), ('\u{6129}', [0xDD, 0x70]), 
    ('\u{612B}', [0xDD, 0x68]), ('\u{612C}', [0xE1, 0xC2]), ('\u{612E}', [0xDD, 0x6C]), 
    ('\u{612F}', [0xDD, 0x6E]), ('\u{6130}', [0x9F, 0x7E]), ('\u{6132}', [0xDD, 0x6B]), 
    ('\u{6134}', [0xB7, 0x5B]), ('\u{6136}', [0xDD, 0x6A]), ('\u{6137}', [0xB7, 0x5F]), 
    ('\u{613B}', [0xE1, 0xD2]), ('\u{613D}', [0x8D, 0x72]), ('\u{613E}', [0xB7, 0x5A]), 
    ('\u{613F}', [0xBA, 0x40]), ('\u{6140}', [0xDD, 0x71]), ('\u{6141}', [0xE1, 0xC4]), 
    ('\u{6142}', [0xFC, 0x76]), ('\u{6144}', [0xB7, 0x58]), ('\u{6145}', [0xDD, 0x69]), 
    ('\u{6146}', [0xDD, 0x6D]), ('\u{6147}', [0xB9, 0xFE]), ('\u{6148}', [0xB7, 0x4F]), 
    ('\u{6149}', [0xDD, 0x66]), ('\u{614A}', [0xDD, 0x67]), ('\u{614B}', [0xBA, 0x41]), 
    ('\u{614C}', [0xB7, 0x57]), ('\u{614D}', [0xB7, 0x59]), ('\u{614E}', [0xB7, 0x56]), 
    ('\u{614F}', [0xDD, 0x6F]), ('\u{6150}', [0x96, 0xA9]), ('\u{6152}', [0xE1, 0xC8]), 
    ('\u{6153}', [0xE1, 0xC9]), ('\u{6154}', [0xE1, 0xCE]), ('\u{6155}', [0xBC, 0x7D]), 
    ('\u{6156}', [0xE1, 0xD5]), ('\u{6158}', [0xBA, 0x47]), ('\u{6159}', [0xA0, 0x6E]), 
    ('\u{615A}', [0xBA, 0x46]), ('\u{615B}', [0xE1, 0xD0]), ('\u{615C}', [0xFC, 0xAA]), 
    ('\u{615D}', [0xBC, 0x7C]), ('\u{615E}', [0xE1, 0xC5]), ('\u{615F}', [0xBA, 0x45]), 
    ('\u{6160}', [0xFB, 0xCD]), ('\u{6161}', [0xE1, 0xD4]), ('\u{6162}', [0xBA, 0x43]), 
    ('\u{6163}', [0xBA, 0x44]), ('\u{6164}', [0xFC, 0x74]), ('\u{6165}', [0xE1, 0xD1]), 
    ('\u{6166}', [0xE5, 0xAA]), ('\u{6167}', [0xBC, 0x7A]), ('\u{6168}', [0xB4, 0x6E]), 
    ('\u{616A}', [0xE1, 0xD3]), ('\u{616B}', [0xBC, 0xA3]), ('\u{616C}', [0xE1, 0xCB]), 
    ('\u{616E}', [0xBC, 0x7B]), ('\u{616F}', [0xA0, 0x74]), ('\u{6170}', [0xBC, 0xA2]), 
    ('\u{6171}', [0xE1, 0xC6]), ('\u{6172}', [0xE1, 0xCA]), ('\u{6173}', [0xE1, 0xC7]), 
    ('\u{6174}', [0xE1, 0xCD]), ('\u{6175}', [0xBA, 0x48]), ('\u{6176}', [0xBC, 0x79]), 
    ('\u{6177}', [0xBA, 0x42]), ('\u{6179}', [0xE5, 0x7A]), ('\u{617A}', [0xE1, 0xCF]), 
    ('\u{617C}', [0xBC, 0xA1]), ('\u{617D}', [0xA0, 0x71]), ('\u{617E}', [0xBC, 0xA4]), 
    ('\u{6180}', [0xE1, 0xCC]), ('\u{6181}', [0xFC, 0x79]), ('\u{6182}', [0xBC, 0x7E]), 
    ('\u{6183}', [0xE5, 0x79]), ('\u{6187}', [0xFC, 0x7C]), ('\u{6189}', [0xE5, 0x7E]), 
    ('\u{618A}', [0xBE, 0xCE]), ('\u{618B}', [0xE5, 0x78]), ('\u{618C}', [0xE9, 0xA3]), 
    ('\u{618D}', [0xE5, 0xA9]), ('\u{618E}', [0xBC, 0xA8]), ('\u{6190}', [0xBC, 0xA6]), 
    ('\u{6191}', [0xBE, 0xCC]), ('\u{6192}', [0xE5, 0xA6]), ('\u{6193}', [0xE5, 0xA2]), 
    ('\u{6194}', [0xBC, 0xAC]), ('\u{6195}', [0x9C, 0x50]), ('\u{6196}', [0xE9, 0x78]), 
    ('\u{6198}', [0x93, 0x79]), ('\u{6199}', [0x93, 0x78]), ('\u{619A}', [0xBC, 0xAA]), 
    ('\u{619B}', [0xE5, 0xA1]), ('\u{619C}', [0xA0, 0xDD]), ('\u{619D}', [0xE9, 0x76]), 
    ('\u{619F}', [0xE5, 0xA5]), ('\u{61A1}', [0xE5, 0xA8]), ('\u{61A2}', [0xE5, 0x7D]), 
    ('\u{61A4}', [0xBC, 0xAB]), ('\u{61A7}', [0xBC, 0xA5]), ('\u{61A8}', [0xE9, 0x77]), 
    ('\u{61A9}', [0xBE, 0xCD]), ('\u{61AA}', [0xE5, 0xA7]), ('\u{61AB}', [0xBC, 0xA7]), 
"#

/-- src/generated/whatwg/big5_whatwg_tables.rs.inc:4145-4272 -/
noncomputable def encode13 : List Text := lines! r#"    ('\u{61AC}', [0xBC, 0xA9]), ('\u{61AD}', [0xE5, 0xA4]), ('\u{61AE}', [0xBC, 0xAD]), 
    ('\u{61AF}', [0xE5, 0xA3]), ('\u{61B0}', [0xE5, 0x7C]), ('\u{61B1}', [0xE5, 0x7B]), 
    ('\u{61B2}', [0xBE, 0xCB]), ('\u{61B3}', [0xE5, 0xAB]), ('\u{61B4}', [0xE9, 0x7A]), 
    ('\u{61B5}', [0xEC, 0xE0]), ('\u{61B6}', [0xBE, 0xD0]), ('\u{61B7}', [0x8D, 0x75]), 
    ('\u{61B8}', [0xE9, 0xA2]), ('\u{61B9}', [0x8D, 0x76]), ('\u{61BA}', [0xE9, 0x7E]), 
    ('\u{61BC}', [0xEC, 0xE1]), ('\u{61BE}', [0xBE, 0xD1]), ('\u{61BF}', [0xE9, 0xA1]), 
    ('\u{61C0}', [0x93, 0x74]), ('\u{61C1}', [0xE9, 0x7C]), ('\u{61C2}', [0xC0, 0xB4]), 
    ('\u{61C3}', [0xEC, 0xDF]), ('\u{61C5}', [0xE9, 0x79]), ('\u{61C6}', [0xE9, 0x7B]), 
    ('\u{61C7}', [0xC0, 0xB5]), ('\u{61C8}', [0xBE, 0xD3]), ('\u{61C9}', [0xC0, 0xB3]), 
    ('\u{61CA}', [0xBE, 0xD2]), ('\u{61CB}', [0xC0, 0xB7]), ('\u{61CC}', [0xE9, 0x7D]), 
    ('\u{61CD}', [0xBE, 0xCF]), ('\u{61CF}', [0x8D, 0x77]), ('\u{61D0}', [0xFC, 0xA5]), 
    ('\u{61D3}', [0xFC, 0xA2]), ('\u{61D6}', [0xEF, 0xCF]), ('\u{61D8}', [0xEF, 0xC7]), 
    ('\u{61DA}', [0x90, 0xC3]), ('\u{61DE}', [0xEC, 0xE7]), ('\u{61DF}', [0xEF, 0xC8]), 
    ('\u{61E0}', [0xEC, 0xE3]), ('\u{61E2}', [0xA0, 0x79]), ('\u{61E3}', [0xC2, 0x56]), 
    ('\u{61E4}', [0xEC, 0xE5]), ('\u{61E5}', [0xEC, 0xE4]), ('\u{61E6}', [0xC0, 0xB6]), 
    ('\u{61E7}', [0xEC, 0xE2]), ('\u{61E8}', [0xEC, 0xE6]), ('\u{61E9}', [0xEF, 0xD0]), 
    ('\u{61EA}', [0xEF, 0xCC]), ('\u{61EB}', [0xEF, 0xCE]), ('\u{61ED}', [0xEF, 0xC9]), 
    ('\u{61EE}', [0xEF, 0xCA]), ('\u{61F0}', [0xEF, 0xCD]), ('\u{61F1}', [0xEF, 0xCB]), 
    ('\u{61F2}', [0xC3, 0x67]), ('\u{61F5}', [0xC3, 0x6A]), ('\u{61F6}', [0xC3, 0x69]), 
    ('\u{61F7}', [0xC3, 0x68]), ('\u{61F8}', [0xC4, 0x61]), ('\u{61F9}', [0xF4, 0x4A]), 
    ('\u{61FA}', [0xC4, 0x62]), ('\u{61FB}', [0xF2, 0x41]), ('\u{61FC}', [0xC4, 0xDF]), 
    ('\u{61FD}', [0xF5, 0xCC]), ('\u{61FE}', [0xC4, 0xE0]), ('\u{61FF}', [0xC5, 0x74]), 
    ('\u{6200}', [0xC5, 0xCA]), ('\u{6201}', [0xF7, 0xD9]), ('\u{6203}', [0xF7, 0xDA]), 
    ('\u{6204}', [0xF7, 0xDB]), ('\u{6207}', [0xF9, 0xBA]), ('\u{6208}', [0xA4, 0xE0]), 
    ('\u{6209}', [0xC9, 0x7C]), ('\u{620A}', [0xA5, 0xB3]), ('\u{620C}', [0xA6, 0xA6]), 
    ('\u{620D}', [0xA6, 0xA7]), ('\u{620E}', [0xA6, 0xA5]), ('\u{6210}', [0xA6, 0xA8]), 
    ('\u{6211}', [0xA7, 0xDA]), ('\u{6212}', [0xA7, 0xD9]), ('\u{6214}', [0xCC, 0xB1]), 
    ('\u{6215}', [0xA9, 0xCF]), ('\u{6216}', [0xA9, 0xCE]), ('\u{6219}', [0xD1, 0xAF]), 
    ('\u{621A}', [0xB1, 0xAD]), ('\u{621B}', [0xB1, 0xAE]), ('\u{621F}', [0xB4, 0x75]), 
    ('\u{6220}', [0xDD, 0x72]), ('\u{6221}', [0xB7, 0x60]), ('\u{6222}', [0xB7, 0x61]), 
    ('\u{6223}', [0xDD, 0x74]), ('\u{6224}', [0xDD, 0x76]), ('\u{6225}', [0xDD, 0x75]), 
    ('\u{6227}', [0xE1, 0xD7]), ('\u{6229}', [0xE1, 0xD6]), ('\u{622A}', [0xBA, 0x49]), 
    ('\u{622B}', [0xE1, 0xD8]), ('\u{622C}', [0x8D, 0x79]), ('\u{622D}', [0xE5, 0xAC]), 
    ('\u{622E}', [0xBC, 0xAE]), ('\u{6230}', [0xBE, 0xD4]), ('\u{6232}', [0xC0, 0xB8]), 
    ('\u{6233}', [0xC2, 0x57]), ('\u{6234}', [0xC0, 0xB9]), ('\u{6236}', [0xA4, 0xE1]), 
    ('\u{6237}', [0x8B, 0xFC]), ('\u{6239}', [0xA0, 0x76]), ('\u{623A}', [0xCA, 0xE6]), 
    ('\u{623D}', [0xCC, 0xB2]), ('\u{623E}', [0xA9, 0xD1]), ('\u{623F}', [0xA9, 0xD0]), 
    ('\u{6240}', [0xA9, 0xD2]), ('\u{6241}', [0xAB, 0xF3]), ('\u{6242}', [0xCE, 0xD2]), 
    ('\u{6243}', [0xCE, 0xD3]), ('\u{6246}', [0xD1, 0xB0]), ('\u{6247}', [0xAE, 0xB0]), 
    ('\u{6248}', [0xB1, 0xAF]), ('\u{6249}', [0xB4, 0x76]), ('\u{624A}', [0xD9, 0x51]), 
    ('\u{624B}', [0xA4, 0xE2]), ('\u{624C}', [0x8B, 0xCD]), ('\u{624D}', [0xA4, 0x7E]), 
    ('\u{624E}', [0xA4, 0xE3]), ('\u{6250}', [0xC9, 0x7D]), ('\u{6251}', [0xA5, 0xB7]), 
    ('\u{6252}', [0xA5, 0xB6]), ('\u{6253}', [0xA5, 0xB4]), ('\u{6254}', [0xA5, 0xB5]), 
    ('\u{6258}', [0xA6, 0xAB]), ('\u{6259}', [0xC9, 0xE9]), ('\u{625A}', [0xC9, 0xEB]), 
    ('\u{625B}', [0xA6, 0xAA]), ('\u{625C}', [0xC9, 0xE3]), ('\u{625E}', [0xC9, 0xE4]), 
    ('\u{6260}', [0xC9, 0xEA]), ('\u{6261}', [0xC9, 0xE6]), ('\u{6262}', [0xC9, 0xE8]), 
    ('\u{6263}', [0xA6, 0xA9]), ('\u{6264}', [0xC9, 0xE5]), ('\u{6265}', [0xC9, 0xEC]), 
    ('\u{6266}', [0xC9, 0xE7]), ('\u{6268}', [0x9F, 0x5A]), ('\u{626D}', [0xA7, 0xE1]), 
    ('\u{626E}', [0xA7, 0xEA]), ('\u{626F}', [0xA7, 0xE8]), ('\u{6270}', [0xCA, 0xF0]), 
    ('\u{6271}', [0xCA, 0xED]), ('\u{6272}', [0xCA, 0xF5]), ('\u{6273}', [0xA7, 0xE6]), 
    ('\u{6274}', [0xCA, 0xF6]), ('\u{6276}', [0xA7, 0xDF]), ('\u{6277}', [0xCA, 0xF3]), 
    ('\u{6279}', [0xA7, 0xE5]), ('\u{627A}', [0xCA, 0xEF]), ('\u{627B}', [0xCA, 0xEE]), 
    ('\u{627C}', [0xA7, 0xE3]), ('\u{627D}', [0xCA, 0xF4]), ('\u{627E}', [0xA7, 0xE4]), 
    ('\u{627F}', [0xA9, 0xD3]), ('\u{6280}', [0xA7, 0xDE]), ('\u{6281}', [0xCA, 0xF1]), 
    ('\u{6282}', [0x9F, 0xF4]), ('\u{6283}', [0xCA, 0xE7]), ('\u{6284}', [0xA7, 0xDB]), 
    ('\u{6285}', [0x9F, 0xBA]), ('\u{6286}', [0xA7, 0xEE]), ('\u{6287}', [0xCA, 0xEC]), 
    ('\u{6288}', [0xCA, 0xF2]), ('\u{6289}', [0xA7, 0xE0]), ('\u{628A}', [0xA7, 0xE2]), 
    ('\u{628C}', [0xCA, 0xE8]), ('\u{628E}', [0xCA, 0xE9]), ('\u{628F}', [0xCA, 0xEA]), 
    ('\u{6290}', [0x8D, 0x7A]), ('\u{6291}', [0xA7, 0xED]), ('\u{6292}', [0xA7, 0xE7]), 
    ('\u{6293}', [0xA7, 0xEC]), ('\u{6294}', [0xCA, 0xEB]), ('\u{6295}', [0xA7, 0xEB]), 
    ('\u{6296}', [0xA7, 0xDD]), ('\u{6297}', [0xA7, 0xDC]), ('\u{6298}', [0xA7, 0xE9]), 
    ('\u{629D}', [0x9E, 0x45]), ('\u{62A4}', [0x93, 0xB0]), ('\u{62A6}', [0xA0, 0x75]), 
    ('\u{62A8}', [0xA9, 0xE1]), ('\u{62A9}', [0xCC, 0xBE]), ('\u{62AA}', [0xCC, 0xB7]), 
    ('\u{62AB}', [0xA9, 0xDC]), ('\u{62AC}', [0xA9, 0xEF]), ('\u{62AD}', [0xCC, 0xB3]), 
    ('\u{62AE}', [0xCC, 0xBA]), ('\u{62AF}', [0xCC, 0xBC]), ('\u{62B0}', [0xCC, 0xBF]), 
    ('\u{62B1}', [0xA9, 0xEA]), ('\u{62B3}', [0xCC, 0xBB]), ('\u{62B4}', [0xCC, 0xB4]), 
    ('\u{62B5}', [0xA9, 0xE8]), ('\u{62B6}', [0xCC, 0xB8]), ('\u{62B8}', [0xCC, 0xC0]), 
    ('\u{62B9}', [0xA9, 0xD9]), ('\u{62BB}', [0xCC, 0xBD]), ('\u{62BC}', [0xA9, 0xE3]), 
    ('\u{62BD}', [0xA9, 0xE2]), ('\u{62BE}', [0xCC, 0xB6]), ('\u{62BF}', [0xA9, 0xD7]), 
    ('\u{62C1}', [0x87, 0xDD]), ('\u{62C2}', [0xA9, 0xD8]), ('\u{62C3}', [0x9B, 0x46]), 
    ('\u{62C4}', [0xA9, 0xD6]), ('\u{62C5}', [0xFC, 0xAE]), ('\u{62C6}', [0xA9, 0xEE]), 
    ('\u{62C7}', [0xA9, 0xE6]), ('\u{62C8}', [0xA9, 0xE0]), ('\u{62C9}', [0xA9, 0xD4]), 
    ('\u{62CA}', [0xCC, 0xB9]), ('\u{62CB}', [0xA9, 0xDF]), ('\u{62CC}', [0xA9, 0xD5]), 
    ('\u{62CD}', [0xA9, 0xE7]), ('\u{62CE}', [0xA0, 0x77]), ('\u{62CF}', [0xCE, 0xD4]), 
    ('\u{62D0}', [0x9D, 0xC4]), ('\u{62D1}', [0xCC, 0xB5]), ('\u{62D2}', [0xA9, 0xDA]), 
    ('\u{62D3}', [0xA9, 0xDD]), ('\u{62D4}', [0xA9, 0xDE]), ('\u{62D5}', [0xFC, 0xB0]), 
    ('\u{62D6}', [0xA9, 0xEC]), ('\u{62D7}', [0xA9, 0xED]), ('\u{62D8}', [0xA9, 0xEB]), 
    ('\u{62D9}', [0xA9, 0xE5]), ('\u{62DA}', [0xA9, 0xE9]), ('\u{62DB}', [0xA9, 0xDB]), 
    ('\u{62DC}', [0xAB, 0xF4]), ('\u{62DF}', [0xFA, 0x51]), ('\u{62E5}', [0x8D, 0x7B]), 
    ('\u{62EB}', [0xCE, 0xDA]), ('\u{62EC}', [0xAC, 0x41]), ('\u{62ED}', [0xAB, 0xF8]), 
    ('\u{62EE}', [0xAB, 0xFA]), ('\u{62EF}', [0xAC, 0x40]), ('\u{62F0}', [0xCE, 0xE6]), 
    ('\u{62F1}', [0xAB, 0xFD]), ('\u{62F2}', [0xD1, 0xB1]), ('\u{62F3}', [0xAE, 0xB1]), 
    ('\u{62F4}', [0xAC, 0x43]), ('\u{62F5}', [0xCE, 0xD7]), ('\u{62F6}', [0xCE, 0xDF]), 
    ('\u{62F7}', [0xAB, 0xFE]), ('\u{62F8}', [0xCE, 0xDE]), ('\u{62F9}', [0xCE, 0xDB]), 
    ('\u{62FA}', [0xCE, 0xE3]), ('\u{62FB}', [0xCE, 0xE5]), ('\u{62FC}', [0xAB, 0xF7]), 
    ('\u{62FD}', [0xAB, 0xFB]), ('\u{62FE}', [0xAC, 0x42]), ('\u{62FF}', [0xAE, 0xB3]), 
    ('\u{6300}', [0xCE, 0xE0]), ('\u{6301}', [0xAB, 0xF9]), ('\u{6302}', [0xAC, 0x45]), 
    ('\u{6303}', [0xCE, 0xD9]), ('\u{6307}', [0xAB, 0xFC]), ('\u{6308}', [0xAE, 0xB2]), 
    ('\u{6309}', [0xAB, 0xF6]), ('\u{630B}', [0xCE, 0xD6]), ('\u{630C}', [0xCE, 0xDD]), 
    ('\u{630D}', [0xCE, 0xD5]), ('\u{630E}', [0xCE, 0xD8]), ('\u{630F}', [0xCE, 0xDC]), 
    ('\u{6310}', [0xD1, 0xB2]), ('\u{6311}', [0xAC, 0x44]), ('\u{6313}', [0xCE, 0xE1]), 
    ('\u{6314}', [0xCE, 0xE2]), ('\u{6315}', [0xCE, 0xE4]), ('\u{6316}', [0xAB, 0xF5]), 
    ('\u{6318}', [0x8D, 0x7C]), ('\u{6328}', [0xAE, 0xC1]), ('\u{6329}', [0xD1, 0xBE]), 
    ('\u{632A}', [0xAE, 0xBF]), ('\u{632B}', [0xAE, 0xC0]), ('\u{632C}', [0xD1, 0xB4]), 
    ('\u{632D}', [0xD1, 0xC4]), ('\u{632E}', [0x9E, 0xD6]), ('\u{632F}', [0xAE, 0xB6]), 
    ('\u{6331}', [0x93, 0xAC]), ('\u{6332}', [0xD5, 0x66]), ('\u{6333}', [0xD1, 0xC6]), 
    ('\u{6334}', [0xD1, 0xC0]), ('\u{6335}', [0x9F, 0x5B]), ('\u{6336}', [0xD1, 0xB7]), 
    ('\u{6337}', [0x93, 0xA9]), ('\u{6338}', [0xD1, 0xC9]), ('\u{6339}', [0xD1, 0xBA]), 
    ('\u{633A}', [0xAE, 0xBC]), ('\u{633B}', [0xD5, 0x7D]), ('\u{633C}', [0xD1, 0xBD]), 
    ('\u{633D}', [0xAE, 0xBE]), ('\u{633E}', [0xAE, 0xB5]), ('\u{6340}', [0xD1, 0xCB]), 
    ('\u{6341}', [0xD1, 0xBF]), ('\u{6342}', [0xAE, 0xB8]), ('\u{6343}', [0xD1, 0xB8]), 
    ('\u{6344}', [0xD1, 0xB5]), ('\u{6345}', [0xD1, 0xB6]), ('\u{6346}', [0xAE, 0xB9]), 
    ('\u{6347}', [0xD1, 0xC5]), ('\u{6348}', [0xD1, 0xCC]), ('\u{6349}', [0xAE, 0xBB]), 
    ('\u{634A}', [0xD1, 0xBC]), ('\u{634B}', [0xD1, 0xBB]), ('\u{634C}', [0xAE, 0xC3]), 
    ('\u{634D}', [0xAE, 0xC2]), ('\u{634E}', [0xAE, 0xB4]), ('\u{634F}', [0xAE, 0xBA]), 
    ('\u{6350}', [0xAE, 0xBD]), ('\u{6351}', [0xD1, 0xC8]), ('\u{6354}', [0xD1, 0xC2]), 
    ('\u{6355}', [0xAE, 0xB7]), ('\u{6356}', [0xD1, 0xB3]), ('\u{6357}', [0xD1, 0xCA]), 
    ('\u{6358}', [0xD1, 0xC1]), ('\u{6359}', [0xD1, 0xC3]), ('\u{635A}', [0xD1, 0xC7]), 
    ('\u{6364}', [0xA0, 0x7C]), ('\u{6365}', [0xD5, 0x67]), ('\u{6367}', [0xB1, 0xB7]), 
    ('\u{6368}', [0xB1, 0xCB]), ('\u{6369}', [0xB1, 0xCA]), ('\u{636B}', [0xB1, 0xBF]), 
    ('\u{636C}', [0xFC, 0xB2]), ('\u{636D}', [0xD5, 0x79]), ('\u{636E}', [0xD5, 0x75]), 
    ('\u{636F}', [0xD5, 0x72]), ('\u{6370}', [0xD5, 0xA6]), ('\u{6371}', [0xB1, 0xBA]), 
    ('\u{6372}', [0xB1, 0xB2]), ('\u{6375}', [0xD5, 0x77]), ('\u{6376}', [0xB4, 0xA8]), 
    ('\u{6377}', [0xB1, 0xB6]), ('\u{6378}', [0xD5, 0xA1]), ('\u{6379}', [0x8A, 0xC1]), 
    ('\u{637A}', [0xB1, 0xCC]), ('\u{637B}', [0xB1, 0xC9]), ('\u{637C}', [0xD5, 0x7B]), 
    ('\u{637D}', [0xD5, 0x6A]), ('\u{637F}', [0x9F, 0xB4]), ('\u{6380}', [0xB1, 0xC8]), 
    ('\u{6381}', [0xD5, 0xA3]), ('\u{6382}', [0xD5, 0x69]), ('\u{6383}', [0xB1, 0xBD]), 
    ('\u{6384}', [0xB1, 0xC1]), ('\u{6385}', [0xD5, 0xA2]), ('\u{6387}', [0xD5, 0x73]), 
    ('\u{6388}', [0xB1, 0xC2]), ('\u{6389}', [0xB1, 0xBC]), ('\u{638A}', [0xD5, 0x68]), 
    ('\u{638B}', [0xFC, 0xAC]), ('\u{638C}', [0xB4, 0x78]), ('\u{638D}', [0xD5, 0xA5]), 
    ('\u{638E}', [0xD5, 0x71]), ('\u{638F}', [0xB1, 0xC7]), ('\u{6390}', [0xD5, 0x74]), 
    ('\u{6391}', [0xD5, 0xA4]), ('\u{6392}', [0xB1, 0xC6]), ('\u{6394}', [0xD9, 0x52]), 
    ('\u{6396}', [0xB1, 0xB3]), ('\u{6397}', [0xD5, 0x6F]), ('\u{6398}', [0xB1, 0xB8]), 
    ('\u{6399}', [0xB1, 0xC3]), ('\u{639B}', [0xB1, 0xBE]), ('\u{639C}', [0xD5, 0x78]), 
    ('\u{639D}', [0xD5, 0x6E]), ('\u{639E}', [0xD5, 0x6C]), ('\u{639F}', [0xD5, 0x7E]), 
    ('\u{63A0}', [0xB1, 0xB0]), ('\u{63A1}', [0xB1, 0xC4]), ('\u{63A2}', [0xB1, 0xB4]), 
    ('\u{63A3}', [0xB4, 0x77]), ('\u{63A4}', [0xD5, 0x7C]), ('\u{63A5}', [0xB1, 0xB5]), 
    ('\u{63A7}', [0xB1, 0xB1]), ('\u{63A8}', [0xB1, 0xC0]), ('\u{63A9}', [0xB1, 0xBB]), 
"#

/-- src/generated/whatwg/big5_whatwg_tables.rs.inc:4273-4400 -/
noncomputable def encode14 : List Text := lines! r#"    ('\u{63AA}', [0xB1, 0xB9]), ('\u{63AB}', [0xD5, 0x70]), ('\u{63AC}', [0xB1, 0xC5]), 
    ('\u{63AD}', [0xD5, 0x6D]), ('\u{63AE}', [0xD5, 0x7A]), ('\u{63AF}', [0xD5, 0x76]), 
    ('\u{63B0}', [0xD9, 0x54]), ('\u{63B1}', [0xD9, 0x53]), ('\u{63B9}', [0x9E, 0x4C]), 
    ('\u{63BD}', [0xD5, 0x6B]), ('\u{63BE}', [0xD9, 0x64]), ('\u{63C0}', [0xB4, 0x7A]), 
    ('\u{63C1}', [0x8F, 0xC5]), ('\u{63C2}', [0xD9, 0x6A]), ('\u{63C3}', [0xD9, 0x59]), 
    ('\u{63C4}', [0xD9, 0x67]), ('\u{63C5}', [0xDD, 0x77]), ('\u{63C6}', [0xB4, 0x7D]), 
    ('\u{63C7}', [0xD9, 0x6B]), ('\u{63C8}', [0xD9, 0x6E]), ('\u{63C9}', [0xB4, 0x7C]), 
    ('\u{63CA}', [0xD9, 0x5C]), ('\u{63CB}', [0xD9, 0x6D]), ('\u{63CC}', [0xD9, 0x6C]), 
    ('\u{63CD}', [0xB4, 0x7E]), ('\u{63CE}', [0xD9, 0x55]), ('\u{63CF}', [0xB4, 0x79]), 
    ('\u{63D0}', [0xB4, 0xA3]), ('\u{63D1}', [0x93, 0xAD]), ('\u{63D2}', [0xB4, 0xA1]), 
    ('\u{63D3}', [0xD9, 0x69]), ('\u{63D5}', [0xD9, 0x5F]), ('\u{63D6}', [0xB4, 0xA5]), 
    ('\u{63D7}', [0xD9, 0x70]), ('\u{63D8}', [0xD9, 0x68]), ('\u{63D9}', [0xD9, 0x71]), 
    ('\u{63DA}', [0xB4, 0xAD]), ('\u{63DB}', [0xB4, 0xAB]), ('\u{63DC}', [0xD9, 0x66]), 
    ('\u{63DD}', [0xD9, 0x65]), ('\u{63DE}', [0x9D, 0xC3]), ('\u{63DF}', [0xD9, 0x63]), 
    ('\u{63E0}', [0xD9, 0x5D]), ('\u{63E1}', [0xB4, 0xA4]), ('\u{63E2}', [0x8D, 0xA2]), 
    ('\u{63E3}', [0xB4, 0xA2]), ('\u{63E4}', [0xD1, 0xB9]), ('\u{63E5}', [0xD9, 0x56]), 
    ('\u{63E6}', [0x9D, 0x4A]), ('\u{63E7}', [0xDD, 0xB7]), ('\u{63E8}', [0xD9, 0x57]), 
    ('\u{63E9}', [0xB4, 0x7B]), ('\u{63EA}', [0xB4, 0xAA]), ('\u{63EB}', [0xDD, 0x79]), 
    ('\u{63ED}', [0xB4, 0xA6]), ('\u{63EE}', [0xB4, 0xA7]), ('\u{63EF}', [0xD9, 0x58]), 
    ('\u{63F0}', [0xD9, 0x6F]), ('\u{63F1}', [0xDD, 0x78]), ('\u{63F2}', [0xD9, 0x60]), 
    ('\u{63F3}', [0xD9, 0x5B]), ('\u{63F4}', [0xB4, 0xA9]), ('\u{63F5}', [0xD9, 0x61]), 
    ('\u{63F6}', [0xD9, 0x5E]), ('\u{63F8}', [0xFC, 0xB6]), ('\u{63F9}', [0xB4, 0xAE]), 
    ('\u{63FB}', [0x8D, 0xA3]), ('\u{63FC}', [0x9E, 0x4B]), ('\u{63FE}', [0x9E, 0x4D]), 
    ('\u{6406}', [0xB7, 0x70]), ('\u{6407}', [0x8D, 0xA4]), ('\u{6409}', [0xDD, 0x7C]), 
    ('\u{640A}', [0xDD, 0xB1]), ('\u{640B}', [0xDD, 0xB6]), ('\u{640C}', [0xDD, 0xAA]), 
    ('\u{640D}', [0xB7, 0x6C]), ('\u{640E}', [0xDD, 0xBB]), ('\u{640F}', [0xB7, 0x69]), 
    ('\u{6410}', [0xDD, 0x7A]), ('\u{6412}', [0xDD, 0x7B]), ('\u{6413}', [0xB7, 0x62]), 
    ('\u{6414}', [0xB7, 0x6B]), ('\u{6415}', [0xDD, 0xA4]), ('\u{6416}', [0xB7, 0x6E]), 
    ('\u{6417}', [0xB7, 0x6F]), ('\u{6418}', [0xDD, 0xA5]), ('\u{641A}', [0xDD, 0xB2]), 
    ('\u{641B}', [0xDD, 0xB8]), ('\u{641C}', [0xB7, 0x6A]), ('\u{641E}', [0xB7, 0x64]), 
    ('\u{641F}', [0xDD, 0xA3]), ('\u{6420}', [0xDD, 0x7D]), ('\u{6421}', [0xDD, 0xBA]), 
    ('\u{6422}', [0xDD, 0xA8]), ('\u{6423}', [0xDD, 0xA9]), ('\u{6424}', [0xDD, 0x7E]), 
    ('\u{6425}', [0xDD, 0xB4]), ('\u{6426}', [0xDD, 0xAB]), ('\u{6427}', [0xDD, 0xB5]), 
    ('\u{6428}', [0xDD, 0xAD]), ('\u{642A}', [0xB7, 0x65]), ('\u{642B}', [0xE1, 0xD9]), 
    ('\u{642C}', [0xB7, 0x68]), ('\u{642D}', [0xB7, 0x66]), ('\u{642E}', [0xDD, 0xB9]), 
    ('\u{642F}', [0xDD, 0xB0]), ('\u{6430}', [0xDD, 0xAC]), ('\u{6432}', [0x8A, 0xFD]), 
    ('\u{6433}', [0xDD, 0xA1]), ('\u{6434}', [0xBA, 0x53]), ('\u{6435}', [0xDD, 0xAF]), 
    ('\u{6436}', [0xB7, 0x6D]), ('\u{6437}', [0xDD, 0xA7]), ('\u{6438}', [0xFC, 0xB5]), 
    ('\u{6439}', [0xDD, 0xA6]), ('\u{643A}', [0xFC, 0xC3]), ('\u{643B}', [0x93, 0xB2]), 
    ('\u{643D}', [0xB7, 0x67]), ('\u{643E}', [0xB7, 0x63]), ('\u{643F}', [0xE1, 0xEE]), 
    ('\u{6440}', [0xDD, 0xB3]), ('\u{6441}', [0xDD, 0xAE]), ('\u{6443}', [0xDD, 0xA2]), 
    ('\u{644B}', [0xE1, 0xE9]), ('\u{644D}', [0xE1, 0xDA]), ('\u{644E}', [0xE1, 0xE5]), 
    ('\u{6450}', [0xE1, 0xEC]), ('\u{6451}', [0xBA, 0x51]), ('\u{6452}', [0xB4, 0xAC]), 
    ('\u{6453}', [0xE1, 0xEA]), ('\u{6454}', [0xBA, 0x4C]), ('\u{6458}', [0xBA, 0x4B]), 
    ('\u{6459}', [0xE1, 0xF1]), ('\u{645A}', [0x8D, 0xA5]), ('\u{645B}', [0xE1, 0xDB]), 
    ('\u{645C}', [0xE1, 0xE8]), ('\u{645D}', [0xE1, 0xDC]), ('\u{645E}', [0xE1, 0xE7]), 
    ('\u{645F}', [0xBA, 0x4F]), ('\u{6460}', [0xE1, 0xEB]), ('\u{6461}', [0xD9, 0x62]), 
    ('\u{6465}', [0xE1, 0xF2]), ('\u{6466}', [0xE1, 0xE3]), ('\u{6467}', [0xBA, 0x52]), 
    ('\u{6468}', [0xE5, 0xBA]), ('\u{6469}', [0xBC, 0xAF]), ('\u{646B}', [0xE1, 0xF0]), 
    ('\u{646C}', [0xE1, 0xEF]), ('\u{646D}', [0xBA, 0x54]), ('\u{646E}', [0xE5, 0xAD]), 
    ('\u{646F}', [0xBC, 0xB0]), ('\u{6470}', [0xE5, 0xAE]), ('\u{6471}', [0x93, 0xA1]), 
    ('\u{6472}', [0xE1, 0xDF]), ('\u{6473}', [0xE1, 0xE0]), ('\u{6474}', [0xE1, 0xDD]), 
    ('\u{6475}', [0xE1, 0xE2]), ('\u{6476}', [0xE1, 0xDE]), ('\u{6477}', [0xE1, 0xF3]), 
    ('\u{6478}', [0xBA, 0x4E]), ('\u{6479}', [0xBC, 0xB1]), ('\u{647A}', [0xBA, 0x50]), 
    ('\u{647B}', [0xBA, 0x55]), ('\u{647C}', [0x8A, 0xC6]), ('\u{647D}', [0xE1, 0xE1]), 
    ('\u{647F}', [0xE1, 0xED]), ('\u{6482}', [0xE1, 0xE6]), ('\u{6485}', [0xE5, 0xB1]), 
    ('\u{6487}', [0xBA, 0x4A]), ('\u{6488}', [0xBC, 0xB4]), ('\u{6489}', [0xE9, 0xAA]), 
    ('\u{648A}', [0xE5, 0xB6]), ('\u{648B}', [0xE5, 0xB5]), ('\u{648C}', [0xE5, 0xB7]), 
    ('\u{648D}', [0x8A, 0x5B]), ('\u{648F}', [0xE5, 0xB4]), ('\u{6490}', [0xBC, 0xB5]), 
    ('\u{6491}', [0x89, 0x4D]), ('\u{6492}', [0xBC, 0xBB]), ('\u{6493}', [0xBC, 0xB8]), 
    ('\u{6495}', [0xBC, 0xB9]), ('\u{6496}', [0xE5, 0xAF]), ('\u{6497}', [0xE5, 0xB2]), 
    ('\u{6498}', [0xE5, 0xBC]), ('\u{6499}', [0xBC, 0xC1]), ('\u{649A}', [0xBC, 0xBF]), 
    ('\u{649C}', [0xE5, 0xB3]), ('\u{649D}', [0xD9, 0x5A]), ('\u{649E}', [0xBC, 0xB2]), 
    ('\u{649F}', [0xE5, 0xB9]), ('\u{64A0}', [0xE5, 0xB0]), ('\u{64A2}', [0xBC, 0xC2]), 
    ('\u{64A3}', [0xE5, 0xB8]), ('\u{64A4}', [0xBA, 0x4D]), ('\u{64A5}', [0xBC, 0xB7]), 
    ('\u{64A6}', [0xE1, 0xE4]), ('\u{64A9}', [0xBC, 0xBA]), ('\u{64AB}', [0xBC, 0xBE]), 
    ('\u{64AC}', [0xBC, 0xC0]), ('\u{64AD}', [0xBC, 0xBD]), ('\u{64AE}', [0xBC, 0xBC]), 
    ('\u{64AF}', [0xFE, 0xD4]), ('\u{64B0}', [0xBC, 0xB6]), ('\u{64B1}', [0xE5, 0xBB]), 
    ('\u{64B2}', [0xBC, 0xB3]), ('\u{64B3}', [0xBC, 0xC3]), ('\u{64B4}', [0x8A, 0x78]), 
    ('\u{64B6}', [0x93, 0xAB]), ('\u{64BB}', [0xBE, 0xD8]), ('\u{64BC}', [0xBE, 0xD9]), 
    ('\u{64BD}', [0xE9, 0xA9]), ('\u{64BE}', [0xBE, 0xE2]), ('\u{64BF}', [0xBE, 0xDF]), 
    ('\u{64C0}', [0x8D, 0xA7]), ('\u{64C1}', [0xBE, 0xD6]), ('\u{64C2}', [0xBE, 0xDD]), 
    ('\u{64C3}', [0xE9, 0xAB]), ('\u{64C4}', [0xBE, 0xDB]), ('\u{64C5}', [0xBE, 0xD5]), 
    ('\u{64C7}', [0xBE, 0xDC]), ('\u{64C9}', [0xE9, 0xA8]), ('\u{64CA}', [0xC0, 0xBB]), 
    ('\u{64CB}', [0xBE, 0xD7]), ('\u{64CD}', [0xBE, 0xDE]), ('\u{64CE}', [0xC0, 0xBA]), 
    ('\u{64CF}', [0xE9, 0xA7]), ('\u{64D0}', [0xE9, 0xA6]), ('\u{64D2}', [0xBE, 0xE0]), 
    ('\u{64D3}', [0x9F, 0x45]), ('\u{64D4}', [0xBE, 0xE1]), ('\u{64D6}', [0xE9, 0xA5]), 
    ('\u{64D7}', [0xE9, 0xA4]), ('\u{64D8}', [0xC0, 0xBC]), ('\u{64D9}', [0xE9, 0xAE]), 
    ('\u{64DA}', [0xBE, 0xDA]), ('\u{64DB}', [0xE9, 0xAC]), ('\u{64DD}', [0x8A, 0x56]), 
    ('\u{64E0}', [0xC0, 0xBD]), ('\u{64E1}', [0xFC, 0xBF]), ('\u{64E2}', [0xC0, 0xC2]), 
    ('\u{64E3}', [0xEC, 0xEA]), ('\u{64E4}', [0xEC, 0xEC]), ('\u{64E5}', [0xFC, 0xC0]), 
    ('\u{64E6}', [0xC0, 0xBF]), ('\u{64E7}', [0x8E, 0xE6]), ('\u{64E8}', [0xEC, 0xED]), 
    ('\u{64E9}', [0xEC, 0xE9]), ('\u{64EA}', [0x8A, 0xA4]), ('\u{64EB}', [0xEC, 0xEB]), 
    ('\u{64EC}', [0xC0, 0xC0]), ('\u{64ED}', [0xC0, 0xC3]), ('\u{64EF}', [0xEC, 0xE8]), 
    ('\u{64F0}', [0xC0, 0xBE]), ('\u{64F1}', [0xC0, 0xC1]), ('\u{64F2}', [0xC2, 0x59]), 
    ('\u{64F3}', [0xE9, 0xAD]), ('\u{64F4}', [0xC2, 0x58]), ('\u{64F7}', [0xC2, 0x5E]), 
    ('\u{64F8}', [0xEF, 0xD4]), ('\u{64FA}', [0xC2, 0x5C]), ('\u{64FB}', [0xC2, 0x5D]), 
    ('\u{64FC}', [0xEF, 0xD7]), ('\u{64FD}', [0xEF, 0xD3]), ('\u{64FE}', [0xC2, 0x5A]), 
    ('\u{64FF}', [0xEF, 0xD1]), ('\u{6500}', [0xC3, 0x6B]), ('\u{6501}', [0xEF, 0xD5]), 
    ('\u{6503}', [0xEF, 0xD6]), ('\u{6504}', [0xEF, 0xD2]), ('\u{6506}', [0xC2, 0x5B]), 
    ('\u{6507}', [0xF2, 0x42]), ('\u{6509}', [0xF2, 0x45]), ('\u{650A}', [0x89, 0x43]), 
    ('\u{650C}', [0xF2, 0x46]), ('\u{650D}', [0xF2, 0x44]), ('\u{650E}', [0xF2, 0x47]), 
    ('\u{650F}', [0xC3, 0x6C]), ('\u{6510}', [0xF2, 0x43]), ('\u{6511}', [0x93, 0xF3]), 
    ('\u{6513}', [0xF4, 0x4E]), ('\u{6514}', [0xC4, 0x64]), ('\u{6515}', [0xF4, 0x4D]), 
    ('\u{6516}', [0xF4, 0x4C]), ('\u{6517}', [0xF4, 0x4B]), ('\u{6518}', [0xC4, 0x63]), 
    ('\u{6519}', [0xC4, 0x65]), ('\u{651B}', [0xF5, 0xCD]), ('\u{651C}', [0xC4, 0xE2]), 
    ('\u{651D}', [0xC4, 0xE1]), ('\u{651E}', [0xFC, 0xAB]), ('\u{651F}', [0x9E, 0xA2]), 
    ('\u{6520}', [0xF6, 0xE1]), ('\u{6521}', [0xF6, 0xE0]), ('\u{6522}', [0xF6, 0xE3]), 
    ('\u{6523}', [0xC5, 0xCB]), ('\u{6524}', [0xC5, 0x75]), ('\u{6525}', [0xF7, 0xDD]), 
    ('\u{6526}', [0xF6, 0xE2]), ('\u{6529}', [0xF7, 0xDC]), ('\u{652A}', [0xC5, 0xCD]), 
    ('\u{652B}', [0xC5, 0xCC]), ('\u{652C}', [0xC5, 0xF3]), ('\u{652D}', [0xF8, 0xA9]), 
    ('\u{652E}', [0xF8, 0xEF]), ('\u{652F}', [0xA4, 0xE4]), ('\u{6530}', [0x9D, 0xC7]), 
    ('\u{6532}', [0xD9, 0x72]), ('\u{6533}', [0xE9, 0xAF]), ('\u{6534}', [0xC6, 0xD2]), 
    ('\u{6535}', [0x8B, 0xCE]), ('\u{6536}', [0xA6, 0xAC]), ('\u{6537}', [0xCA, 0xF7]), 
    ('\u{6538}', [0xA7, 0xF1]), ('\u{6539}', [0xA7, 0xEF]), ('\u{653B}', [0xA7, 0xF0]), 
    ('\u{653D}', [0xCC, 0xC1]), ('\u{653E}', [0xA9, 0xF1]), ('\u{653F}', [0xAC, 0x46]), 
    ('\u{6541}', [0xCE, 0xE7]), ('\u{6543}', [0xCE, 0xE8]), ('\u{6545}', [0xAC, 0x47]), 
    ('\u{6546}', [0xD1, 0xCE]), ('\u{6548}', [0xAE, 0xC4]), ('\u{6549}', [0xAE, 0xC5]), 
    ('\u{654A}', [0xD1, 0xCD]), ('\u{654D}', [0xFC, 0xC5]), ('\u{654F}', [0xB1, 0xD3]), 
    ('\u{6551}', [0xB1, 0xCF]), ('\u{6553}', [0xD5, 0xA7]), ('\u{6554}', [0xB1, 0xD6]), 
    ('\u{6555}', [0xB1, 0xD5]), ('\u{6556}', [0xB1, 0xCE]), ('\u{6557}', [0xB1, 0xD1]), 
    ('\u{6558}', [0xB1, 0xD4]), ('\u{6559}', [0xB1, 0xD0]), ('\u{655C}', [0xD9, 0x76]), 
    ('\u{655D}', [0xB1, 0xCD]), ('\u{655E}', [0xB4, 0xAF]), ('\u{655F}', [0xFC, 0xCB]), 
    ('\u{6562}', [0xB4, 0xB1]), ('\u{6563}', [0xB4, 0xB2]), ('\u{6564}', [0xD9, 0x75]), 
    ('\u{6565}', [0xD9, 0x78]), ('\u{6566}', [0xB4, 0xB0]), ('\u{6567}', [0xD9, 0x73]), 
    ('\u{6568}', [0xD9, 0x77]), ('\u{656A}', [0xD9, 0x74]), ('\u{656B}', [0x93, 0xB3]), 
    ('\u{656C}', [0xB7, 0x71]), ('\u{656D}', [0xFC, 0xCA]), ('\u{656F}', [0xDD, 0xBC]), 
    ('\u{6572}', [0xBA, 0x56]), ('\u{6573}', [0xE1, 0xF4]), ('\u{6574}', [0xBE, 0xE3]), 
    ('\u{6575}', [0xBC, 0xC4]), ('\u{6576}', [0xE5, 0xBD]), ('\u{6577}', [0xBC, 0xC5]), 
    ('\u{6578}', [0xBC, 0xC6]), ('\u{6579}', [0xE5, 0xBF]), ('\u{657A}', [0xE5, 0xBE]), 
    ('\u{657B}', [0xE5, 0xC0]), ('\u{657C}', [0xE9, 0xB1]), ('\u{657F}', [0xE9, 0xB0]), 
    ('\u{6580}', [0xEC, 0xEF]), ('\u{6581}', [0xEC, 0xEE]), ('\u{6582}', [0xC0, 0xC4]), 
    ('\u{6583}', [0xC0, 0xC5]), ('\u{6584}', [0xF2, 0x48]), ('\u{6585}', [0xFC, 0xC9]), 
    ('\u{6586}', [0x8D, 0xAC]), ('\u{6587}', [0xA4, 0xE5]), ('\u{6588}', [0xFB, 0xC6]), 
    ('\u{6589}', [0x89, 0x67]), ('\u{658B}', [0x8C, 0x7E]), ('\u{658C}', [0xD9, 0x79]), 
    ('\u{6590}', [0xB4, 0xB4]), ('\u{6591}', [0xB4, 0xB3]), ('\u{6592}', [0xDD, 0xBD]), 
    ('\u{6594}', [0xEF, 0xD8]), ('\u{6595}', [0xC4, 0xE3]), ('\u{6596}', [0xF7, 0xDE]), 
    ('\u{6597}', [0xA4, 0xE6]), ('\u{6599}', [0xAE, 0xC6]), ('\u{659B}', [0xB1, 0xD8]), 
"#

/-- src/generated/whatwg/big5_whatwg_tables.rs.inc:4401-4528 -/
noncomputable def encode15 : List Text := lines! r#"    ('\u{659C}', [0xB1, 0xD7]), ('\u{659D}', [0xD9, 0x7A]), ('\u{659E}', [0xD9, 0x7B]), 
    ('\u{659F}', [0xB7, 0x72]), ('\u{65A0}', [0xE1, 0xF5]), ('\u{65A1}', [0xBA, 0x57]), 
    ('\u{65A2}', [0xE9, 0xB2]), ('\u{65A4}', [0xA4, 0xE7]), ('\u{65A5}', [0xA5, 0xB8]), 
    ('\u{65A7}', [0xA9, 0xF2]), ('\u{65A8}', [0xCC, 0xC2]), ('\u{65AA}', [0xCE, 0xE9]), 
    ('\u{65AB}', [0xAC, 0x48]), ('\u{65AC}', [0xB1, 0xD9]), ('\u{65AE}', [0xD9, 0x7C]), 
    ('\u{65AF}', [0xB4, 0xB5]), ('\u{65B0}', [0xB7, 0x73]), ('\u{65B2}', [0xE5, 0xC1]), 
    ('\u{65B3}', [0xE5, 0xC2]), ('\u{65B5}', [0xFC, 0xCD]), ('\u{65B6}', [0xEC, 0xF0]), 
    ('\u{65B7}', [0xC2, 0x5F]), ('\u{65B8}', [0xF8, 0xF0]), ('\u{65B9}', [0xA4, 0xE8]), 
    ('\u{65BB}', [0xCC, 0xC3]), ('\u{65BC}', [0xA9, 0xF3]), ('\u{65BD}', [0xAC, 0x49]), 
    ('\u{65BE}', [0x9C, 0xF3]), ('\u{65BF}', [0xCE, 0xEA]), ('\u{65C1}', [0xAE, 0xC7]), 
    ('\u{65C2}', [0xD1, 0xD2]), ('\u{65C3}', [0xD1, 0xD0]), ('\u{65C4}', [0xD1, 0xD1]), 
    ('\u{65C5}', [0xAE, 0xC8]), ('\u{65C6}', [0xD1, 0xCF]), ('\u{65CB}', [0xB1, 0xDB]), 
    ('\u{65CC}', [0xB1, 0xDC]), ('\u{65CD}', [0xD5, 0xA8]), ('\u{65CE}', [0xB1, 0xDD]), 
    ('\u{65CF}', [0xB1, 0xDA]), ('\u{65D0}', [0xD9, 0x7D]), ('\u{65D1}', [0xFC, 0xD0]), 
    ('\u{65D2}', [0xD9, 0x7E]), ('\u{65D3}', [0xDD, 0xBE]), ('\u{65D4}', [0x95, 0xBB]), 
    ('\u{65D6}', [0xBA, 0x59]), ('\u{65D7}', [0xBA, 0x58]), ('\u{65DA}', [0xEC, 0xF1]), 
    ('\u{65DB}', [0xEF, 0xD9]), ('\u{65DD}', [0xF2, 0x4A]), ('\u{65DE}', [0xF2, 0x49]), 
    ('\u{65DF}', [0xF4, 0x4F]), ('\u{65E0}', [0xC6, 0xD3]), ('\u{65E1}', [0xC9, 0x5E]), 
    ('\u{65E2}', [0xAC, 0x4A]), ('\u{65E3}', [0xFC, 0xD4]), ('\u{65E5}', [0xA4, 0xE9]), 
    ('\u{65E6}', [0xA5, 0xB9]), ('\u{65E8}', [0xA6, 0xAE]), ('\u{65E9}', [0xA6, 0xAD]), 
    ('\u{65EC}', [0xA6, 0xAF]), ('\u{65ED}', [0xA6, 0xB0]), ('\u{65EE}', [0xC9, 0xEE]), 
    ('\u{65EF}', [0xC9, 0xED]), ('\u{65F0}', [0xCA, 0xF8]), ('\u{65F1}', [0xA7, 0xF2]), 
    ('\u{65F2}', [0xCA, 0xFB]), ('\u{65F3}', [0xCA, 0xFA]), ('\u{65F4}', [0xCA, 0xF9]), 
    ('\u{65F5}', [0xCA, 0xFC]), ('\u{65FA}', [0xA9, 0xF4]), ('\u{65FB}', [0xCC, 0xC9]), 
    ('\u{65FC}', [0xCC, 0xC5]), ('\u{65FD}', [0xCC, 0xCE]), ('\u{65FF}', [0x8D, 0xAE]), 
    ('\u{6600}', [0xA9, 0xFB]), ('\u{6602}', [0xA9, 0xF9]), ('\u{6603}', [0xCC, 0xCA]), 
    ('\u{6604}', [0xCC, 0xC6]), ('\u{6605}', [0xCC, 0xCD]), ('\u{6606}', [0xA9, 0xF8]), 
    ('\u{6607}', [0xAA, 0x40]), ('\u{6608}', [0xCC, 0xC8]), ('\u{6609}', [0xCC, 0xC4]), 
    ('\u{660A}', [0xA9, 0xFE]), ('\u{660B}', [0xCC, 0xCB]), ('\u{660C}', [0xA9, 0xF7]), 
    ('\u{660D}', [0xCC, 0xCC]), ('\u{660E}', [0xA9, 0xFA]), ('\u{660F}', [0xA9, 0xFC]), 
    ('\u{6610}', [0xCC, 0xD0]), ('\u{6611}', [0xCC, 0xCF]), ('\u{6612}', [0xCC, 0xC7]), 
    ('\u{6613}', [0xA9, 0xF6]), ('\u{6614}', [0xA9, 0xF5]), ('\u{6615}', [0xA9, 0xFD]), 
    ('\u{6618}', [0xFC, 0xD7]), ('\u{661C}', [0xCE, 0xEF]), ('\u{661D}', [0xCE, 0xF5]), 
    ('\u{661E}', [0x93, 0xDB]), ('\u{661F}', [0xAC, 0x50]), ('\u{6620}', [0xAC, 0x4D]), 
    ('\u{6621}', [0xCE, 0xEC]), ('\u{6622}', [0xCE, 0xF1]), ('\u{6623}', [0xFE, 0x63]), 
    ('\u{6624}', [0xAC, 0x53]), ('\u{6625}', [0xAC, 0x4B]), ('\u{6626}', [0xCE, 0xF0]), 
    ('\u{6627}', [0xAC, 0x4E]), ('\u{6628}', [0xAC, 0x51]), ('\u{662B}', [0xCE, 0xF3]), 
    ('\u{662D}', [0xAC, 0x4C]), ('\u{662E}', [0xCE, 0xF8]), ('\u{662F}', [0xAC, 0x4F]), 
    ('\u{6630}', [0x93, 0xD5]), ('\u{6631}', [0xAC, 0x52]), ('\u{6632}', [0xCE, 0xED]), 
    ('\u{6633}', [0xCE, 0xF2]), ('\u{6634}', [0xCE, 0xF6]), ('\u{6635}', [0xCE, 0xEE]), 
    ('\u{6636}', [0xCE, 0xEB]), ('\u{6639}', [0xCE, 0xF7]), ('\u{663A}', [0xCE, 0xF4]), 
    ('\u{6641}', [0xAE, 0xD0]), ('\u{6642}', [0xAE, 0xC9]), ('\u{6643}', [0xAE, 0xCC]), 
    ('\u{6644}', [0xFC, 0xDA]), ('\u{6645}', [0xAE, 0xCF]), ('\u{6647}', [0xD1, 0xD5]), 
    ('\u{6648}', [0x9B, 0x71]), ('\u{6649}', [0xAE, 0xCA]), ('\u{664A}', [0xD1, 0xD3]), 
    ('\u{664B}', [0xFC, 0xDD]), ('\u{664C}', [0xAE, 0xCE]), ('\u{664D}', [0x87, 0x64]), 
    ('\u{664F}', [0xAE, 0xCB]), ('\u{6651}', [0xD1, 0xD6]), ('\u{6652}', [0xAE, 0xCD]), 
    ('\u{6653}', [0x8D, 0xAF]), ('\u{6657}', [0xFA, 0xF2]), ('\u{6659}', [0xD5, 0xAC]), 
    ('\u{665A}', [0xB1, 0xDF]), ('\u{665B}', [0xD5, 0xAB]), ('\u{665C}', [0xD5, 0xAD]), 
    ('\u{665D}', [0xB1, 0xDE]), ('\u{665E}', [0xB1, 0xE3]), ('\u{665F}', [0xD1, 0xD4]), 
    ('\u{6660}', [0x87, 0xB5]), ('\u{6661}', [0xD5, 0xAA]), ('\u{6662}', [0xD5, 0xAE]), 
    ('\u{6663}', [0x93, 0xD8]), ('\u{6664}', [0xB1, 0xE0]), ('\u{6665}', [0xD5, 0xA9]), 
    ('\u{6666}', [0xB1, 0xE2]), ('\u{6667}', [0xFC, 0xDF]), ('\u{6668}', [0xB1, 0xE1]), 
    ('\u{666A}', [0xD9, 0xA7]), ('\u{666B}', [0x93, 0xD3]), ('\u{666C}', [0xD9, 0xA2]), 
    ('\u{666E}', [0xB4, 0xB6]), ('\u{666F}', [0xB4, 0xBA]), ('\u{6670}', [0xB4, 0xB7]), 
    ('\u{6671}', [0xD9, 0xA5]), ('\u{6672}', [0xD9, 0xA8]), ('\u{6673}', [0xFC, 0xE1]), 
    ('\u{6674}', [0xB4, 0xB8]), ('\u{6676}', [0xB4, 0xB9]), ('\u{6677}', [0xB4, 0xBE]), 
    ('\u{6678}', [0xDD, 0xC7]), ('\u{6679}', [0xD9, 0xA6]), ('\u{667A}', [0xB4, 0xBC]), 
    ('\u{667B}', [0xD9, 0xA3]), ('\u{667C}', [0xD9, 0xA1]), ('\u{667D}', [0x8E, 0x76]), 
    ('\u{667E}', [0xB4, 0xBD]), ('\u{6680}', [0xD9, 0xA4]), ('\u{6684}', [0xB7, 0x79]), 
    ('\u{6685}', [0xFC, 0x62]), ('\u{6686}', [0xDD, 0xBF]), ('\u{6687}', [0xB7, 0x76]), 
    ('\u{6688}', [0xB7, 0x77]), ('\u{6689}', [0xB7, 0x75]), ('\u{668A}', [0xDD, 0xC4]), 
    ('\u{668B}', [0xDD, 0xC3]), ('\u{668C}', [0xDD, 0xC0]), ('\u{668D}', [0xB7, 0x7B]), 
    ('\u{668E}', [0x93, 0xD1]), ('\u{6690}', [0xDD, 0xC2]), ('\u{6691}', [0xB4, 0xBB]), 
    ('\u{6692}', [0x8D, 0xB1]), ('\u{6694}', [0xDD, 0xC6]), ('\u{6695}', [0xDD, 0xC1]), 
    ('\u{6696}', [0xB7, 0x78]), ('\u{6697}', [0xB7, 0x74]), ('\u{6698}', [0xB7, 0x7A]), 
    ('\u{6699}', [0xDD, 0xC5]), ('\u{669A}', [0x98, 0x59]), ('\u{669D}', [0xBA, 0x5C]), 
    ('\u{669F}', [0xE1, 0xF8]), ('\u{66A0}', [0xE1, 0xF7]), ('\u{66A1}', [0xE1, 0xF6]), 
    ('\u{66A2}', [0xBA, 0x5A]), ('\u{66A4}', [0xFB, 0x52]), ('\u{66A8}', [0xBA, 0x5B]), 
    ('\u{66A9}', [0xE5, 0xC5]), ('\u{66AA}', [0xE5, 0xC8]), ('\u{66AB}', [0xBC, 0xC8]), 
    ('\u{66AD}', [0xFB, 0x53]), ('\u{66AE}', [0xBC, 0xC7]), ('\u{66AF}', [0xE5, 0xC9]), 
    ('\u{66B0}', [0xE5, 0xC4]), ('\u{66B1}', [0xBC, 0xCA]), ('\u{66B2}', [0xE5, 0xC6]), 
    ('\u{66B3}', [0xFB, 0x4D]), ('\u{66B4}', [0xBC, 0xC9]), ('\u{66B5}', [0xE5, 0xC3]), 
    ('\u{66B6}', [0x9C, 0xBF]), ('\u{66B7}', [0xE5, 0xC7]), ('\u{66B8}', [0xBE, 0xE9]), 
    ('\u{66B9}', [0xBE, 0xE6]), ('\u{66BA}', [0xE9, 0xBB]), ('\u{66BB}', [0xE9, 0xBA]), 
    ('\u{66BD}', [0xE9, 0xB9]), ('\u{66BE}', [0xE9, 0xB4]), ('\u{66BF}', [0x9B, 0x72]), 
    ('\u{66C0}', [0xE9, 0xB5]), ('\u{66C4}', [0xBE, 0xE7]), ('\u{66C6}', [0xBE, 0xE4]), 
    ('\u{66C7}', [0xBE, 0xE8]), ('\u{66C8}', [0xE9, 0xB3]), ('\u{66C9}', [0xBE, 0xE5]), 
    ('\u{66CA}', [0xE9, 0xB6]), ('\u{66CB}', [0xE9, 0xB7]), ('\u{66CC}', [0xE9, 0xBC]), 
    ('\u{66CD}', [0xFB, 0x50]), ('\u{66CE}', [0x93, 0xBE]), ('\u{66CF}', [0xE9, 0xB8]), 
    ('\u{66D2}', [0xEC, 0xF2]), ('\u{66D6}', [0xC0, 0xC7]), ('\u{66D8}', [0xEF, 0xDC]), 
    ('\u{66D9}', [0xC0, 0xC6]), ('\u{66DA}', [0xEF, 0xDA]), ('\u{66DB}', [0xEF, 0xDB]), 
    ('\u{66DC}', [0xC2, 0x60]), ('\u{66DD}', [0xC3, 0x6E]), ('\u{66DE}', [0xF2, 0x4B]), 
    ('\u{66E0}', [0xC3, 0x6D]), ('\u{66E3}', [0xF4, 0x51]), ('\u{66E4}', [0xF4, 0x52]), 
    ('\u{66E6}', [0xC4, 0x66]), ('\u{66E7}', [0x8C, 0xDB]), ('\u{66E8}', [0xF4, 0x50]), 
    ('\u{66E9}', [0xC4, 0xE4]), ('\u{66EB}', [0xF7, 0xDF]), ('\u{66EC}', [0xC5, 0xCE]), 
    ('\u{66ED}', [0xF8, 0xAA]), ('\u{66EE}', [0xF8, 0xAB]), ('\u{66F0}', [0xA4, 0xEA]), 
    ('\u{66F1}', [0x9D, 0xF1]), ('\u{66F2}', [0xA6, 0xB1]), ('\u{66F3}', [0xA6, 0xB2]), 
    ('\u{66F4}', [0xA7, 0xF3]), ('\u{66F6}', [0xCC, 0xD1]), ('\u{66F7}', [0xAC, 0x54]), 
    ('\u{66F8}', [0xAE, 0xD1]), ('\u{66F9}', [0xB1, 0xE4]), ('\u{66FC}', [0xB0, 0xD2]), 
    ('\u{66FE}', [0xB4, 0xBF]), ('\u{66FF}', [0xB4, 0xC0]), ('\u{6700}', [0xB3, 0xCC]), 
    ('\u{6701}', [0xD9, 0xA9]), ('\u{6702}', [0xFC, 0xEB]), ('\u{6703}', [0xB7, 0x7C]), 
    ('\u{6704}', [0xE1, 0xFA]), ('\u{6705}', [0xE1, 0xF9]), ('\u{6708}', [0xA4, 0xEB]), 
    ('\u{6709}', [0xA6, 0xB3]), ('\u{670A}', [0xCC, 0xD2]), ('\u{670B}', [0xAA, 0x42]), 
    ('\u{670C}', [0xA0, 0xBB]), ('\u{670D}', [0xAA, 0x41]), ('\u{670E}', [0x9B, 0x7E]), 
    ('\u{670F}', [0xCE, 0xF9]), ('\u{6710}', [0xCE, 0xFA]), ('\u{6712}', [0xD1, 0xD7]), 
    ('\u{6713}', [0xD1, 0xD8]), ('\u{6714}', [0xAE, 0xD2]), ('\u{6715}', [0xAE, 0xD3]), 
    ('\u{6716}', [0x8D, 0xB3]), ('\u{6717}', [0xAE, 0xD4]), ('\u{6718}', [0xD5, 0xAF]), 
    ('\u{6719}', [0x8C, 0x52]), ('\u{671B}', [0xB1, 0xE6]), ('\u{671D}', [0xB4, 0xC2]), 
    ('\u{671E}', [0x9A, 0xE8]), ('\u{671F}', [0xB4, 0xC1]), ('\u{6720}', [0xDD, 0xC8]), 
    ('\u{6721}', [0xDF, 0x7A]), ('\u{6722}', [0xE1, 0xFB]), ('\u{6723}', [0xE9, 0xBD]), 
    ('\u{6725}', [0x8E, 0xDC]), ('\u{6726}', [0xC2, 0x61]), ('\u{6727}', [0xC4, 0x67]), 
    ('\u{6728}', [0xA4, 0xEC]), ('\u{672A}', [0xA5, 0xBC]), ('\u{672B}', [0xA5, 0xBD]), 
    ('\u{672C}', [0xA5, 0xBB]), ('\u{672D}', [0xA5, 0xBE]), ('\u{672E}', [0xA5, 0xBA]), 
    ('\u{6731}', [0xA6, 0xB6]), ('\u{6733}', [0xC9, 0xF6]), ('\u{6734}', [0xA6, 0xB5]), 
    ('\u{6735}', [0xA6, 0xB7]), ('\u{6736}', [0x9C, 0xF9]), ('\u{6738}', [0xC9, 0xF1]), 
    ('\u{6739}', [0xC9, 0xF0]), ('\u{673A}', [0xC9, 0xF3]), ('\u{673B}', [0xC9, 0xF2]), 
    ('\u{673C}', [0xC9, 0xF5]), ('\u{673D}', [0xA6, 0xB4]), ('\u{673E}', [0xC9, 0xEF]), 
    ('\u{673F}', [0xC9, 0xF4]), ('\u{6744}', [0xFA, 0x50]), ('\u{6745}', [0xCA, 0xFD]), 
    ('\u{6746}', [0xA7, 0xFD]), ('\u{6747}', [0xCA, 0xFE]), ('\u{6748}', [0xCB, 0x43]), 
    ('\u{6749}', [0xA7, 0xFC]), ('\u{674B}', [0xCB, 0x47]), ('\u{674C}', [0xCB, 0x42]), 
    ('\u{674D}', [0xCB, 0x45]), ('\u{674E}', [0xA7, 0xF5]), ('\u{674F}', [0xA7, 0xF6]), 
    ('\u{6750}', [0xA7, 0xF7]), ('\u{6751}', [0xA7, 0xF8]), ('\u{6753}', [0xA8, 0x40]), 
    ('\u{6755}', [0xCB, 0x41]), ('\u{6756}', [0xA7, 0xFA]), ('\u{6757}', [0xA8, 0x41]), 
    ('\u{6759}', [0xCB, 0x40]), ('\u{675A}', [0xCB, 0x46]), ('\u{675C}', [0xA7, 0xF9]), 
    ('\u{675D}', [0xCB, 0x44]), ('\u{675E}', [0xA7, 0xFB]), ('\u{675F}', [0xA7, 0xF4]), 
    ('\u{6760}', [0xA7, 0xFE]), ('\u{6761}', [0x98, 0xE7]), ('\u{6762}', [0xFC, 0xF3]), 
    ('\u{6767}', [0xFC, 0xF2]), ('\u{676A}', [0xAA, 0x57]), ('\u{676B}', [0x8C, 0xCA]), 
    ('\u{676C}', [0xCC, 0xD4]), ('\u{676D}', [0xAA, 0x43]), ('\u{676E}', [0x87, 0x75]), 
    ('\u{676F}', [0xAA, 0x4D]), ('\u{6770}', [0xAA, 0x4E]), ('\u{6771}', [0xAA, 0x46]), 
    ('\u{6772}', [0xAA, 0x58]), ('\u{6773}', [0xAA, 0x48]), ('\u{6774}', [0xCC, 0xDC]), 
    ('\u{6775}', [0xAA, 0x53]), ('\u{6776}', [0xCC, 0xD7]), ('\u{6777}', [0xAA, 0x49]), 
    ('\u{6778}', [0xCC, 0xE6]), ('\u{6779}', [0xCC, 0xE7]), ('\u{677A}', [0xCC, 0xDF]), 
    ('\u{677B}', [0xCC, 0xD8]), ('\u{677C}', [0xAA, 0x56]), ('\u{677D}', [0xCC, 0xE4]), 
    ('\u{677E}', [0xAA, 0x51]), ('\u{677F}', [0xAA, 0x4F]), ('\u{6781}', [0xCC, 0xE5]), 
    ('\u{6782}', [0x87, 0xBA]), ('\u{6783}', [0xCC, 0xE3]), ('\u{6784}', [0xCC, 0xDB]), 
    ('\u{6785}', [0xCC, 0xD3]), ('\u{6786}', [0xCC, 0xDA]), ('\u{6787}', [0xAA, 0x4A]), 
    ('\u{6789}', [0xAA, 0x50]), ('\u{678B}', [0xAA, 0x44]), ('\u{678C}', [0xCC, 0xDE]), 
    ('\u{678D}', [0xCC, 0xDD]), ('\u{678E}', [0xCC, 0xD5]), ('\u{678F}', [0x93, 0xE5]), 
"#

/-- src/generated/whatwg/big5_whatwg_tables.rs.inc:4529-4656 -/
noncomputable def encode16 : List Text := lines! r#"    ('\u{6790}', [0xAA, 0x52]), ('\u{6791}', [0xCC, 0xE1]), ('\u{6792}', [0xCC, 0xD6]), 
    ('\u{6793}', [0xAA, 0x55]), ('\u{6794}', [0xCC, 0xE8]), ('\u{6795}', [0xAA, 0x45]), 
    ('\u{6797}', [0xAA, 0x4C]), ('\u{6798}', [0xCC, 0xD9]), ('\u{6799}', [0xCC, 0xE2]), 
    ('\u{679A}', [0xAA, 0x54]), ('\u{679C}', [0xAA, 0x47]), ('\u{679D}', [0xAA, 0x4B]), 
    ('\u{679F}', [0xCC, 0xE0]), ('\u{67A0}', [0x9A, 0x59]), ('\u{67A4}', [0x8D, 0xB5]), 
    ('\u{67AC}', [0xFD, 0x4D]), ('\u{67AE}', [0xCF, 0x5B]), ('\u{67AF}', [0xAC, 0x5C]), 
    ('\u{67B0}', [0xAC, 0x69]), ('\u{67B1}', [0xFD, 0x5E]), ('\u{67B2}', [0xCF, 0x56]), 
    ('\u{67B3}', [0xCF, 0x4C]), ('\u{67B4}', [0xAC, 0x62]), ('\u{67B5}', [0xCF, 0x4A]), 
    ('\u{67B6}', [0xAC, 0x5B]), ('\u{67B7}', [0xCF, 0x45]), ('\u{67B8}', [0xAC, 0x65]), 
    ('\u{67B9}', [0xCF, 0x52]), ('\u{67BA}', [0xCE, 0xFE]), ('\u{67BB}', [0xCF, 0x41]), 
    ('\u{67BF}', [0x8F, 0x7D]), ('\u{67C0}', [0xCF, 0x44]), ('\u{67C1}', [0xCE, 0xFB]), 
    ('\u{67C2}', [0xCF, 0x51]), ('\u{67C3}', [0xCF, 0x61]), ('\u{67C4}', [0xAC, 0x60]), 
    ('\u{67C5}', [0xCF, 0x46]), ('\u{67C6}', [0xCF, 0x58]), ('\u{67C8}', [0xCE, 0xFD]), 
    ('\u{67C9}', [0xCF, 0x5F]), ('\u{67CA}', [0xCF, 0x60]), ('\u{67CB}', [0xCF, 0x63]), 
    ('\u{67CC}', [0xCF, 0x5A]), ('\u{67CD}', [0xCF, 0x4B]), ('\u{67CE}', [0xCF, 0x53]), 
    ('\u{67CF}', [0xAC, 0x66]), ('\u{67D0}', [0xAC, 0x59]), ('\u{67D1}', [0xAC, 0x61]), 
    ('\u{67D2}', [0xAC, 0x6D]), ('\u{67D3}', [0xAC, 0x56]), ('\u{67D4}', [0xAC, 0x58]), 
    ('\u{67D6}', [0x95, 0x47]), ('\u{67D7}', [0xFC, 0xF6]), ('\u{67D8}', [0xCF, 0x43]), 
    ('\u{67D9}', [0xAC, 0x6A]), ('\u{67DA}', [0xAC, 0x63]), ('\u{67DB}', [0xCF, 0x5D]), 
    ('\u{67DC}', [0xCF, 0x40]), ('\u{67DD}', [0xAC, 0x6C]), ('\u{67DE}', [0xAC, 0x67]), 
    ('\u{67DF}', [0xCF, 0x49]), ('\u{67E2}', [0xAC, 0x6B]), ('\u{67E3}', [0xCF, 0x50]), 
    ('\u{67E4}', [0xCF, 0x48]), ('\u{67E5}', [0xAC, 0x64]), ('\u{67E6}', [0xCF, 0x5C]), 
    ('\u{67E7}', [0xCF, 0x54]), ('\u{67E9}', [0xAC, 0x5E]), ('\u{67EA}', [0xCF, 0x62]), 
    ('\u{67EB}', [0xCF, 0x47]), ('\u{67EC}', [0xAC, 0x5A]), ('\u{67ED}', [0xCF, 0x59]), 
    ('\u{67EE}', [0xCF, 0x4F]), ('\u{67EF}', [0xAC, 0x5F]), ('\u{67F0}', [0xCF, 0x55]), 
    ('\u{67F1}', [0xAC, 0x57]), ('\u{67F2}', [0xCE, 0xFC]), ('\u{67F3}', [0xAC, 0x68]), 
    ('\u{67F4}', [0xAE, 0xE3]), ('\u{67F5}', [0xAC, 0x5D]), ('\u{67F6}', [0xCF, 0x4E]), 
    ('\u{67F7}', [0xCF, 0x4D]), ('\u{67F8}', [0xCF, 0x42]), ('\u{67F9}', [0x92, 0x50]), 
    ('\u{67FA}', [0xCF, 0x5E]), ('\u{67FC}', [0xCF, 0x57]), ('\u{67FE}', [0x89, 0x68]), 
    ('\u{67FF}', [0xAC, 0x55]), ('\u{6800}', [0x8D, 0xB6]), ('\u{6801}', [0xFC, 0xFB]), 
    ('\u{6802}', [0xA0, 0x7D]), ('\u{6803}', [0x98, 0xFC]), ('\u{6804}', [0x89, 0x69]), 
    ('\u{680D}', [0xFE, 0x4F]), ('\u{6810}', [0x92, 0x56]), ('\u{6812}', [0xD1, 0xEC]), 
    ('\u{6813}', [0xAE, 0xEA]), ('\u{6814}', [0xD1, 0xED]), ('\u{6816}', [0xD1, 0xE1]), 
    ('\u{6817}', [0xAE, 0xDF]), ('\u{6818}', [0xAE, 0xEB]), ('\u{681A}', [0xD1, 0xDA]), 
    ('\u{681B}', [0xFA, 0xC9]), ('\u{681C}', [0xD1, 0xE3]), ('\u{681D}', [0xD1, 0xEB]), 
    ('\u{681E}', [0x93, 0xE8]), ('\u{681F}', [0xD1, 0xD9]), ('\u{6820}', [0xD1, 0xF4]), 
    ('\u{6821}', [0xAE, 0xD5]), ('\u{6822}', [0xFC, 0xF8]), ('\u{6825}', [0xD1, 0xF3]), 
    ('\u{6826}', [0xD1, 0xEE]), ('\u{6828}', [0xD1, 0xEF]), ('\u{6829}', [0xAE, 0xDD]), 
    ('\u{682A}', [0xAE, 0xE8]), ('\u{682B}', [0xD1, 0xE5]), ('\u{682D}', [0xD1, 0xE6]), 
    ('\u{682E}', [0xD1, 0xF0]), ('\u{682F}', [0xD1, 0xE7]), ('\u{6831}', [0xD1, 0xE2]), 
    ('\u{6832}', [0xD1, 0xDC]), ('\u{6833}', [0xD1, 0xDD]), ('\u{6834}', [0xD1, 0xEA]), 
    ('\u{6835}', [0xD1, 0xE4]), ('\u{6836}', [0x9C, 0xE3]), ('\u{6837}', [0xFD, 0xA9]), 
    ('\u{6838}', [0xAE, 0xD6]), ('\u{6839}', [0xAE, 0xDA]), ('\u{683A}', [0xD1, 0xF2]), 
    ('\u{683B}', [0xD1, 0xDE]), ('\u{683C}', [0xAE, 0xE6]), ('\u{683D}', [0xAE, 0xE2]), 
    ('\u{683E}', [0xFC, 0x44]), ('\u{6840}', [0xAE, 0xE5]), ('\u{6841}', [0xAE, 0xEC]), 
    ('\u{6842}', [0xAE, 0xDB]), ('\u{6843}', [0xAE, 0xE7]), ('\u{6844}', [0xD1, 0xE9]), 
    ('\u{6845}', [0xAE, 0xE9]), ('\u{6846}', [0xAE, 0xD8]), ('\u{6847}', [0x96, 0x40]), 
    ('\u{6848}', [0xAE, 0xD7]), ('\u{6849}', [0xD1, 0xDB]), ('\u{684A}', [0x8D, 0xB8]), 
    ('\u{684B}', [0xD1, 0xDF]), ('\u{684C}', [0xAE, 0xE0]), ('\u{684D}', [0xD1, 0xF1]), 
    ('\u{684E}', [0xD1, 0xE8]), ('\u{684F}', [0xD1, 0xE0]), ('\u{6850}', [0xAE, 0xE4]), 
    ('\u{6851}', [0xAE, 0xE1]), ('\u{6853}', [0xAE, 0xD9]), ('\u{6854}', [0xAE, 0xDC]), 
    ('\u{6855}', [0x9B, 0x4A]), ('\u{6856}', [0x8F, 0xB9]), ('\u{685D}', [0xFC, 0xFE]), 
    ('\u{6865}', [0x89, 0x6A]), ('\u{686B}', [0xD5, 0xC4]), ('\u{686D}', [0xD5, 0xB4]), 
    ('\u{686E}', [0xD5, 0xB5]), ('\u{686F}', [0xD5, 0xB9]), ('\u{6871}', [0xD5, 0xC8]), 
    ('\u{6872}', [0xD5, 0xC5]), ('\u{6874}', [0xD5, 0xBE]), ('\u{6875}', [0xD5, 0xBD]), 
    ('\u{6876}', [0xB1, 0xED]), ('\u{6877}', [0xD5, 0xC1]), ('\u{6878}', [0xD5, 0xD0]), 
    ('\u{6879}', [0xD5, 0xB0]), ('\u{687B}', [0xD5, 0xD1]), ('\u{687C}', [0xD5, 0xC3]), 
    ('\u{687D}', [0xD5, 0xD5]), ('\u{687E}', [0xD5, 0xC9]), ('\u{687F}', [0xB1, 0xEC]), 
    ('\u{6880}', [0xD5, 0xC7]), ('\u{6881}', [0xB1, 0xE7]), ('\u{6882}', [0xB1, 0xFC]), 
    ('\u{6883}', [0xB1, 0xF2]), ('\u{6884}', [0x8D, 0xB9]), ('\u{6885}', [0xB1, 0xF6]), 
    ('\u{6886}', [0xB1, 0xF5]), ('\u{6887}', [0xD5, 0xB1]), ('\u{6888}', [0x91, 0x7E]), 
    ('\u{6889}', [0xD5, 0xCE]), ('\u{688A}', [0xD5, 0xD4]), ('\u{688B}', [0xD5, 0xCC]), 
    ('\u{688C}', [0xD5, 0xD3]), ('\u{688F}', [0xD5, 0xC0]), ('\u{6890}', [0xD5, 0xB2]), 
    ('\u{6891}', [0xD5, 0xD2]), ('\u{6892}', [0xD5, 0xC2]), ('\u{6893}', [0xB1, 0xEA]), 
    ('\u{6894}', [0xB1, 0xF7]), ('\u{6896}', [0xD5, 0xCB]), ('\u{6897}', [0xB1, 0xF0]), 
    ('\u{6898}', [0x93, 0xF4]), ('\u{689B}', [0xD5, 0xCA]), ('\u{689C}', [0xD5, 0xB3]), 
    ('\u{689D}', [0xB1, 0xF8]), ('\u{689F}', [0xB1, 0xFA]), ('\u{68A0}', [0xD5, 0xCD]), 
    ('\u{68A1}', [0xB1, 0xFB]), ('\u{68A2}', [0xB1, 0xE9]), ('\u{68A3}', [0xD5, 0xBA]), 
    ('\u{68A4}', [0xD5, 0xCF]), ('\u{68A6}', [0xFB, 0x7C]), ('\u{68A7}', [0xB1, 0xEF]), 
    ('\u{68A8}', [0xB1, 0xF9]), ('\u{68A9}', [0xD5, 0xBC]), ('\u{68AA}', [0xD5, 0xC6]), 
    ('\u{68AB}', [0xD5, 0xB7]), ('\u{68AC}', [0xD5, 0xBB]), ('\u{68AD}', [0xB1, 0xF4]), 
    ('\u{68AE}', [0xD5, 0xB6]), ('\u{68AF}', [0xB1, 0xE8]), ('\u{68B0}', [0xB1, 0xF1]), 
    ('\u{68B1}', [0xB1, 0xEE]), ('\u{68B2}', [0xD5, 0xBF]), ('\u{68B3}', [0xAE, 0xDE]), 
    ('\u{68B4}', [0xD9, 0xC0]), ('\u{68B5}', [0xB1, 0xEB]), ('\u{68B6}', [0x93, 0xE7]), 
    ('\u{68B9}', [0x97, 0xEF]), ('\u{68BD}', [0xFE, 0x4A]), ('\u{68C3}', [0xFD, 0x45]), 
    ('\u{68C4}', [0xB1, 0xF3]), ('\u{68C5}', [0x96, 0xA5]), ('\u{68C6}', [0xD9, 0xC3]), 
    ('\u{68C7}', [0xD9, 0xD9]), ('\u{68C8}', [0xD9, 0xCE]), ('\u{68C9}', [0xB4, 0xD6]), 
    ('\u{68CA}', [0xFE, 0xE0]), ('\u{68CB}', [0xB4, 0xD1]), ('\u{68CC}', [0xD9, 0xBD]), 
    ('\u{68CD}', [0xB4, 0xD2]), ('\u{68CE}', [0xD9, 0xCD]), ('\u{68D0}', [0xD9, 0xC6]), 
    ('\u{68D1}', [0xD9, 0xD3]), ('\u{68D2}', [0xB4, 0xCE]), ('\u{68D3}', [0xD9, 0xAB]), 
    ('\u{68D4}', [0xD9, 0xD5]), ('\u{68D5}', [0xB4, 0xC4]), ('\u{68D6}', [0xD9, 0xB3]), 
    ('\u{68D7}', [0xB4, 0xC7]), ('\u{68D8}', [0xB4, 0xC6]), ('\u{68DA}', [0xB4, 0xD7]), 
    ('\u{68DC}', [0xD9, 0xAD]), ('\u{68DD}', [0xD9, 0xCF]), ('\u{68DE}', [0xD9, 0xD0]), 
    ('\u{68DF}', [0xB4, 0xC9]), ('\u{68E0}', [0xB4, 0xC5]), ('\u{68E1}', [0xD9, 0xBB]), 
    ('\u{68E3}', [0xB4, 0xD0]), ('\u{68E4}', [0xD9, 0xB6]), ('\u{68E6}', [0xD9, 0xD1]), 
    ('\u{68E7}', [0xB4, 0xCC]), ('\u{68E8}', [0xD9, 0xC9]), ('\u{68E9}', [0xD9, 0xD6]), 
    ('\u{68EA}', [0xD9, 0xB0]), ('\u{68EB}', [0xD9, 0xB5]), ('\u{68EC}', [0xD9, 0xAF]), 
    ('\u{68EE}', [0xB4, 0xCB]), ('\u{68EF}', [0xD9, 0xC2]), ('\u{68F0}', [0xDD, 0xDE]), 
    ('\u{68F1}', [0xD9, 0xB1]), ('\u{68F2}', [0xB4, 0xCF]), ('\u{68F3}', [0xD9, 0xBA]), 
    ('\u{68F4}', [0xD9, 0xD2]), ('\u{68F5}', [0xB4, 0xCA]), ('\u{68F6}', [0xD9, 0xB7]), 
    ('\u{68F7}', [0xD9, 0xB4]), ('\u{68F8}', [0xD9, 0xC5]), ('\u{68F9}', [0xB4, 0xCD]), 
    ('\u{68FA}', [0xB4, 0xC3]), ('\u{68FB}', [0xB4, 0xD9]), ('\u{68FC}', [0xD9, 0xC8]), 
    ('\u{68FD}', [0xD9, 0xC7]), ('\u{6900}', [0xFD, 0x48]), ('\u{6901}', [0xFD, 0x47]), 
    ('\u{6902}', [0xFE, 0xF2]), ('\u{6903}', [0xFE, 0x6A]), ('\u{6904}', [0xD9, 0xAC]), 
    ('\u{6905}', [0xB4, 0xC8]), ('\u{6906}', [0xD9, 0xD4]), ('\u{6907}', [0xD9, 0xBC]), 
    ('\u{6908}', [0xD9, 0xBE]), ('\u{6909}', [0x8D, 0xBD]), ('\u{690A}', [0xD9, 0xCB]), 
    ('\u{690B}', [0xD9, 0xCA]), ('\u{690C}', [0xD9, 0xAA]), ('\u{690D}', [0xB4, 0xD3]), 
    ('\u{690E}', [0xB4, 0xD5]), ('\u{690F}', [0xD9, 0xB2]), ('\u{6910}', [0xD9, 0xB9]), 
    ('\u{6911}', [0xD9, 0xC1]), ('\u{6912}', [0xB4, 0xD4]), ('\u{6913}', [0xD9, 0xB8]), 
    ('\u{6914}', [0xD9, 0xC4]), ('\u{6915}', [0xD9, 0xD7]), ('\u{6917}', [0xD9, 0xCC]), 
    ('\u{6918}', [0x9B, 0xA1]), ('\u{6919}', [0x8C, 0xA2]), ('\u{691A}', [0x9A, 0xB7]), 
    ('\u{691B}', [0x8E, 0xFC]), ('\u{6925}', [0xD9, 0xD8]), ('\u{692A}', [0xD9, 0xAE]), 
    ('\u{692C}', [0x9F, 0xA1]), ('\u{692F}', [0xDD, 0xF2]), ('\u{6930}', [0xB7, 0xA6]), 
    ('\u{6932}', [0xDD, 0xF0]), ('\u{6933}', [0xDD, 0xDB]), ('\u{6934}', [0xDD, 0xE0]), 
    ('\u{6935}', [0xDD, 0xD9]), ('\u{6936}', [0xFD, 0x51]), ('\u{6937}', [0xDD, 0xEC]), 
    ('\u{6938}', [0xDD, 0xCB]), ('\u{6939}', [0xDD, 0xD2]), ('\u{693B}', [0xDD, 0xEA]), 
    ('\u{693C}', [0xDD, 0xF4]), ('\u{693D}', [0xDD, 0xDC]), ('\u{693E}', [0xFA, 0xAD]), 
    ('\u{693F}', [0xDD, 0xCF]), ('\u{6940}', [0xDD, 0xE2]), ('\u{6941}', [0xDD, 0xE7]), 
    ('\u{6942}', [0xDD, 0xD3]), ('\u{6943}', [0x8D, 0xBE]), ('\u{6944}', [0xDD, 0xE4]), 
    ('\u{6945}', [0xDD, 0xD0]), ('\u{6946}', [0x89, 0xA4]), ('\u{6948}', [0xDD, 0xD7]), 
    ('\u{6949}', [0xDD, 0xD8]), ('\u{694A}', [0xB7, 0xA8]), ('\u{694B}', [0xDD, 0xEB]), 
    ('\u{694C}', [0xDD, 0xE9]), ('\u{694E}', [0xDD, 0xCC]), ('\u{694F}', [0xDD, 0xEE]), 
    ('\u{6951}', [0xDD, 0xEF]), ('\u{6952}', [0xDD, 0xF1]), ('\u{6953}', [0xB7, 0xAC]), 
    ('\u{6954}', [0xB7, 0xA4]), ('\u{6955}', [0x9A, 0xD9]), ('\u{6956}', [0xD5, 0xB8]), 
    ('\u{6957}', [0xDD, 0xD4]), ('\u{6958}', [0xDD, 0xE6]), ('\u{6959}', [0xDD, 0xD5]), 
    ('\u{695A}', [0xB7, 0xA1]), ('\u{695B}', [0xB7, 0xB1]), ('\u{695C}', [0xDD, 0xED]), 
    ('\u{695D}', [0xB7, 0xAF]), ('\u{695E}', [0xB7, 0xAB]), ('\u{695F}', [0xDD, 0xCA]), 
    ('\u{6960}', [0xB7, 0xA3]), ('\u{6961}', [0xFD, 0x4E]), ('\u{6962}', [0xDD, 0xCD]), 
    ('\u{6963}', [0xB7, 0xB0]), ('\u{6964}', [0x8D, 0xC0]), ('\u{6965}', [0xDD, 0xDD]), 
    ('\u{6966}', [0xDD, 0xC9]), ('\u{6967}', [0x97, 0xF0]), ('\u{6968}', [0xB7, 0xA9]), 
    ('\u{6969}', [0xDD, 0xE1]), ('\u{696A}', [0xDD, 0xD1]), ('\u{696B}', [0xB7, 0xAA]), 
    ('\u{696C}', [0xDD, 0xDA]), ('\u{696D}', [0xB7, 0x7E]), ('\u{696E}', [0xB4, 0xD8]), 
    ('\u{696F}', [0xDD, 0xE3]), ('\u{6970}', [0xD9, 0xBF]), ('\u{6971}', [0xDD, 0xCE]), 
    ('\u{6972}', [0x93, 0xB4]), ('\u{6973}', [0xFD, 0x44]), ('\u{6974}', [0xDD, 0xE8]), 
    ('\u{6975}', [0xB7, 0xA5]), ('\u{6976}', [0xDD, 0xE5]), ('\u{6977}', [0xB7, 0xA2]), 
    ('\u{6978}', [0xDD, 0xDF]), ('\u{6979}', [0xB7, 0xAD]), ('\u{697A}', [0xDD, 0xD6]), 
    ('\u{697B}', [0xDD, 0xF3]), ('\u{6980}', [0x9F, 0xA7]), ('\u{6982}', [0xB7, 0xA7]), 
    ('\u{6983}', [0xDE, 0xC6]), ('\u{6985}', [0x8D, 0xC2]), ('\u{6986}', [0xB7, 0xAE]), 
"#

/-- src/generated/whatwg/big5_whatwg_tables.rs.inc:4657-4784 -/
noncomputable def encode17 : List Text := lines! r#"    ('\u{698A}', [0x99, 0xB6]), ('\u{698D}', [0xE2, 0x4A]), ('\u{698E}', [0xE2, 0x48]), 
    ('\u{6990}', [0xE2, 0x5E]), ('\u{6991}', [0xE2, 0x46]), ('\u{6993}', [0xE2, 0x58]), 
    ('\u{6994}', [0xB7, 0x7D]), ('\u{6995}', [0xBA, 0x5F]), ('\u{6996}', [0xE2, 0x42]), 
    ('\u{6997}', [0xE2, 0x5D]), ('\u{6998}', [0xFD, 0x52]), ('\u{6999}', [0xE2, 0x47]), 
    ('\u{699A}', [0xE2, 0x55]), ('\u{699B}', [0xBA, 0x64]), ('\u{699C}', [0xBA, 0x5D]), 
    ('\u{699E}', [0xE2, 0x5B]), ('\u{699F}', [0x8D, 0xC1]), ('\u{69A0}', [0xE2, 0x40]), 
    ('\u{69A1}', [0xE2, 0x5A]), ('\u{69A2}', [0x8E, 0x46]), ('\u{69A3}', [0xBA, 0x6F]), 
    ('\u{69A4}', [0xE2, 0x51]), ('\u{69A5}', [0xE2, 0x61]), ('\u{69A6}', [0xBA, 0x6D]), 
    ('\u{69A7}', [0xE2, 0x49]), ('\u{69A8}', [0xBA, 0x5E]), ('\u{69A9}', [0xE2, 0x4B]), 
    ('\u{69AA}', [0xE2, 0x59]), ('\u{69AB}', [0xBA, 0x67]), ('\u{69AC}', [0xE2, 0x44]), 
    ('\u{69AD}', [0xBA, 0x6B]), ('\u{69AE}', [0xBA, 0x61]), ('\u{69AF}', [0xE2, 0x4D]), 
    ('\u{69B0}', [0xE2, 0x43]), ('\u{69B1}', [0xE1, 0xFC]), ('\u{69B2}', [0xA0, 0xD1]), 
    ('\u{69B3}', [0xE2, 0x57]), ('\u{69B4}', [0xBA, 0x68]), ('\u{69B5}', [0xE2, 0x60]), 
    ('\u{69B6}', [0xE1, 0xFD]), ('\u{69B7}', [0xBA, 0x65]), ('\u{69B9}', [0xE2, 0x53]), 
    ('\u{69BB}', [0xBA, 0x66]), ('\u{69BC}', [0xE2, 0x45]), ('\u{69BD}', [0xE2, 0x50]), 
    ('\u{69BE}', [0xE2, 0x4C]), ('\u{69BF}', [0xE2, 0x4E]), ('\u{69C0}', [0x9F, 0xCA]), 
    ('\u{69C1}', [0xBA, 0x60]), ('\u{69C2}', [0xE2, 0x5F]), ('\u{69C3}', [0xBA, 0x6E]), 
    ('\u{69C4}', [0xE2, 0x4F]), ('\u{69C6}', [0xE2, 0x62]), ('\u{69C9}', [0xE1, 0xFE]), 
    ('\u{69CA}', [0xE2, 0x54]), ('\u{69CB}', [0xBA, 0x63]), ('\u{69CC}', [0xBA, 0x6C]), 
    ('\u{69CD}', [0xBA, 0x6A]), ('\u{69CE}', [0xE2, 0x41]), ('\u{69CF}', [0xE2, 0x56]), 
    ('\u{69D0}', [0xBA, 0x69]), ('\u{69D1}', [0x92, 0xCF]), ('\u{69D3}', [0xBA, 0x62]), 
    ('\u{69D4}', [0xE2, 0x52]), ('\u{69D5}', [0x9C, 0xF4]), ('\u{69D6}', [0x8D, 0xC4]), 
    ('\u{69D9}', [0xE2, 0x5C]), ('\u{69E1}', [0xFD, 0x41]), ('\u{69E2}', [0xE5, 0xD5]), 
    ('\u{69E4}', [0xE5, 0xD1]), ('\u{69E5}', [0xE5, 0xCD]), ('\u{69E6}', [0xE5, 0xE1]), 
    ('\u{69E7}', [0xE5, 0xDE]), ('\u{69E8}', [0xBC, 0xCD]), ('\u{69E9}', [0x9B, 0x4C]), 
    ('\u{69EB}', [0xE5, 0xE5]), ('\u{69EC}', [0xE5, 0xD4]), ('\u{69ED}', [0xBC, 0xD8]), 
    ('\u{69EE}', [0xE5, 0xDB]), ('\u{69F1}', [0xE5, 0xD0]), ('\u{69F2}', [0xE5, 0xDA]), 
    ('\u{69F3}', [0xBC, 0xD5]), ('\u{69F4}', [0xE5, 0xEE]), ('\u{69F6}', [0xE5, 0xEB]), 
    ('\u{69F7}', [0xE5, 0xDD]), ('\u{69F8}', [0xE5, 0xCE]), ('\u{69F9}', [0xFD, 0x57]), 
    ('\u{69FA}', [0xFC, 0xEF]), ('\u{69FB}', [0xE5, 0xE2]), ('\u{69FC}', [0xE5, 0xE4]), 
    ('\u{69FD}', [0xBC, 0xD1]), ('\u{69FE}', [0xE5, 0xD8]), ('\u{69FF}', [0xE5, 0xD3]), 
    ('\u{6A00}', [0xE5, 0xCA]), ('\u{6A01}', [0xBC, 0xCE]), ('\u{6A02}', [0xBC, 0xD6]), 
    ('\u{6A03}', [0x9C, 0xDE]), ('\u{6A04}', [0xE5, 0xE7]), ('\u{6A05}', [0xBC, 0xD7]), 
    ('\u{6A06}', [0xE5, 0xCB]), ('\u{6A07}', [0xE5, 0xED]), ('\u{6A08}', [0xE5, 0xE0]), 
    ('\u{6A09}', [0xE5, 0xE6]), ('\u{6A0A}', [0xBC, 0xD4]), ('\u{6A0B}', [0xFD, 0x42]), 
    ('\u{6A0C}', [0x98, 0x6C]), ('\u{6A0D}', [0xE5, 0xE3]), ('\u{6A0F}', [0xE5, 0xEA]), 
    ('\u{6A11}', [0xBC, 0xD9]), ('\u{6A13}', [0xBC, 0xD3]), ('\u{6A14}', [0xE5, 0xDC]), 
    ('\u{6A15}', [0xE5, 0xCF]), ('\u{6A16}', [0xE5, 0xEF]), ('\u{6A17}', [0xE5, 0xCC]), 
    ('\u{6A18}', [0xE5, 0xE8]), ('\u{6A19}', [0xBC, 0xD0]), ('\u{6A1A}', [0x97, 0xF9]), 
    ('\u{6A1B}', [0xE5, 0xD6]), ('\u{6A1C}', [0x95, 0x58]), ('\u{6A1D}', [0xE5, 0xD7]), 
    ('\u{6A1E}', [0xBC, 0xCF]), ('\u{6A1F}', [0xBC, 0xCC]), ('\u{6A20}', [0xE5, 0xD2]), 
    ('\u{6A21}', [0xBC, 0xD2]), ('\u{6A23}', [0xBC, 0xCB]), ('\u{6A25}', [0xE5, 0xE9]), 
    ('\u{6A26}', [0xE5, 0xEC]), ('\u{6A27}', [0xE5, 0xD9]), ('\u{6A28}', [0xE9, 0xCA]), 
    ('\u{6A29}', [0x87, 0xB6]), ('\u{6A2B}', [0x98, 0x5E]), ('\u{6A2C}', [0xFE, 0x7B]), 
    ('\u{6A2D}', [0x94, 0xCD]), ('\u{6A32}', [0xE9, 0xC2]), ('\u{6A33}', [0x93, 0xEE]), 
    ('\u{6A34}', [0xE9, 0xBE]), ('\u{6A35}', [0xBE, 0xF6]), ('\u{6A38}', [0xBE, 0xEB]), 
    ('\u{6A39}', [0xBE, 0xF0]), ('\u{6A3A}', [0xBE, 0xEC]), ('\u{6A3B}', [0xE9, 0xCC]), 
    ('\u{6A3C}', [0xE9, 0xD7]), ('\u{6A3D}', [0xBE, 0xEA]), ('\u{6A3E}', [0xE9, 0xC4]), 
    ('\u{6A3F}', [0xE9, 0xCD]), ('\u{6A40}', [0xE5, 0xDF]), ('\u{6A41}', [0xE9, 0xCE]), 
    ('\u{6A43}', [0x8C, 0xA3]), ('\u{6A44}', [0xBE, 0xF1]), ('\u{6A45}', [0xFD, 0x5A]), 
    ('\u{6A46}', [0xE9, 0xDD]), ('\u{6A47}', [0xBE, 0xF5]), ('\u{6A48}', [0xBE, 0xF8]), 
    ('\u{6A49}', [0xE9, 0xC0]), ('\u{6A4B}', [0xBE, 0xF4]), ('\u{6A4C}', [0x93, 0xF5]), 
    ('\u{6A4D}', [0xE9, 0xDB]), ('\u{6A4E}', [0xE9, 0xDC]), ('\u{6A4F}', [0xE9, 0xD2]), 
    ('\u{6A50}', [0xE9, 0xD1]), ('\u{6A51}', [0xE9, 0xC9]), ('\u{6A52}', [0x93, 0xEF]), 
    ('\u{6A53}', [0x8E, 0xEA]), ('\u{6A54}', [0xE9, 0xD3]), ('\u{6A55}', [0xE9, 0xDA]), 
    ('\u{6A56}', [0xE9, 0xD9]), ('\u{6A57}', [0x8F, 0x5B]), ('\u{6A58}', [0xBE, 0xEF]), 
    ('\u{6A59}', [0xBE, 0xED]), ('\u{6A5A}', [0xE9, 0xCB]), ('\u{6A5B}', [0xE9, 0xC8]), 
    ('\u{6A5D}', [0xE9, 0xC5]), ('\u{6A5E}', [0xE9, 0xD8]), ('\u{6A5F}', [0xBE, 0xF7]), 
    ('\u{6A60}', [0xE9, 0xD6]), ('\u{6A61}', [0xBE, 0xF3]), ('\u{6A62}', [0xBE, 0xF2]), 
    ('\u{6A63}', [0x8C, 0x5E]), ('\u{6A64}', [0xE9, 0xD0]), ('\u{6A65}', [0x8D, 0xC6]), 
    ('\u{6A66}', [0xE9, 0xBF]), ('\u{6A67}', [0xE9, 0xC1]), ('\u{6A68}', [0xE9, 0xC3]), 
    ('\u{6A69}', [0xE9, 0xD5]), ('\u{6A6A}', [0xE9, 0xCF]), ('\u{6A6B}', [0xBE, 0xEE]), 
    ('\u{6A6D}', [0xE9, 0xC6]), ('\u{6A6F}', [0xE9, 0xD4]), ('\u{6A71}', [0x8D, 0xC8]), 
    ('\u{6A74}', [0x8D, 0xC7]), ('\u{6A76}', [0xE9, 0xC7]), ('\u{6A7A}', [0x93, 0xF7]), 
    ('\u{6A7E}', [0xC0, 0xCF]), ('\u{6A7F}', [0xED, 0x45]), ('\u{6A80}', [0xC0, 0xC8]), 
    ('\u{6A81}', [0xEC, 0xF5]), ('\u{6A82}', [0x8D, 0xC9]), ('\u{6A83}', [0xED, 0x41]), 
    ('\u{6A84}', [0xC0, 0xCA]), ('\u{6A85}', [0xED, 0x48]), ('\u{6A87}', [0xEC, 0xFC]), 
    ('\u{6A89}', [0xEC, 0xF7]), ('\u{6A8A}', [0xFB, 0xF2]), ('\u{6A8C}', [0xED, 0x49]), 
    ('\u{6A8D}', [0xEC, 0xF3]), ('\u{6A8E}', [0xEC, 0xFE]), ('\u{6A8F}', [0x96, 0x70]), 
    ('\u{6A90}', [0xC0, 0xD1]), ('\u{6A91}', [0xED, 0x44]), ('\u{6A92}', [0xED, 0x4A]), 
    ('\u{6A93}', [0xEC, 0xFD]), ('\u{6A94}', [0xC0, 0xC9]), ('\u{6A95}', [0xED, 0x40]), 
    ('\u{6A96}', [0xEC, 0xF4]), ('\u{6A97}', [0xC0, 0xD0]), ('\u{6A99}', [0x8D, 0xCB]), 
    ('\u{6A9A}', [0xED, 0x47]), ('\u{6A9B}', [0xEC, 0xF9]), ('\u{6A9C}', [0xC0, 0xCC]), 
    ('\u{6A9D}', [0xFD, 0x5C]), ('\u{6A9E}', [0xEC, 0xFB]), ('\u{6A9F}', [0xEC, 0xF8]), 
    ('\u{6AA0}', [0xC0, 0xD2]), ('\u{6AA1}', [0xEC, 0xFA]), ('\u{6AA2}', [0xC0, 0xCB]), 
    ('\u{6AA3}', [0xC0, 0xCE]), ('\u{6AA4}', [0xED, 0x43]), ('\u{6AA5}', [0xEC, 0xF6]), 
    ('\u{6AA6}', [0xED, 0x46]), ('\u{6AA7}', [0x8F, 0x65]), ('\u{6AA8}', [0xED, 0x42]), 
    ('\u{6AAB}', [0x8D, 0xCD]), ('\u{6AAC}', [0xC2, 0x63]), ('\u{6AAD}', [0xEF, 0xE7]), 
    ('\u{6AAE}', [0xC2, 0x68]), ('\u{6AAF}', [0xC2, 0x69]), ('\u{6AB1}', [0x9D, 0xA8]), 
    ('\u{6AB2}', [0x94, 0xF9]), ('\u{6AB3}', [0xC2, 0x62]), ('\u{6AB4}', [0xEF, 0xE6]), 
    ('\u{6AB5}', [0x8D, 0xCE]), ('\u{6AB6}', [0xEF, 0xE3]), ('\u{6AB7}', [0xEF, 0xE4]), 
    ('\u{6AB8}', [0xC2, 0x66]), ('\u{6AB9}', [0xEF, 0xDE]), ('\u{6ABA}', [0xEF, 0xE2]), 
    ('\u{6ABB}', [0xC2, 0x65]), ('\u{6ABD}', [0xEF, 0xDF]), ('\u{6ABE}', [0x93, 0xEA]), 
    ('\u{6AC2}', [0xC2, 0x67]), ('\u{6AC3}', [0xC2, 0x64]), ('\u{6AC5}', [0xEF, 0xDD]), 
    ('\u{6AC6}', [0xEF, 0xE1]), ('\u{6AC7}', [0xEF, 0xE5]), ('\u{6AC8}', [0xFD, 0x5F]), 
    ('\u{6AC9}', [0x93, 0xF0]), ('\u{6ACA}', [0x9F, 0xB6]), ('\u{6ACB}', [0xF2, 0x51]), 
    ('\u{6ACC}', [0xF2, 0x4E]), ('\u{6ACD}', [0xF2, 0x57]), ('\u{6ACF}', [0xF2, 0x56]), 
    ('\u{6AD0}', [0xF2, 0x54]), ('\u{6AD1}', [0xF2, 0x4F]), ('\u{6AD3}', [0xC3, 0x72]), 
    ('\u{6AD4}', [0x8D, 0xCF]), ('\u{6AD8}', [0x97, 0x63]), ('\u{6AD9}', [0xF2, 0x50]), 
    ('\u{6ADA}', [0xC3, 0x71]), ('\u{6ADB}', [0xC0, 0xCD]), ('\u{6ADC}', [0xF2, 0x53]), 
    ('\u{6ADD}', [0xC3, 0x70]), ('\u{6ADE}', [0xF2, 0x58]), ('\u{6ADF}', [0xF2, 0x52]), 
    ('\u{6AE0}', [0xF2, 0x4D]), ('\u{6AE1}', [0xEF, 0xE0]), ('\u{6AE5}', [0xC3, 0x6F]), 
    ('\u{6AE7}', [0xF2, 0x4C]), ('\u{6AE8}', [0xF4, 0x56]), ('\u{6AEA}', [0xF4, 0x55]), 
    ('\u{6AEB}', [0xF2, 0x55]), ('\u{6AEC}', [0xC4, 0x68]), ('\u{6AEE}', [0xF4, 0x59]), 
    ('\u{6AEF}', [0xF4, 0x5A]), ('\u{6AF0}', [0xF4, 0x54]), ('\u{6AF1}', [0xF4, 0x58]), 
    ('\u{6AF3}', [0xF4, 0x53]), ('\u{6AF6}', [0x8D, 0xD0]), ('\u{6AF8}', [0xF5, 0xD1]), 
    ('\u{6AF9}', [0xF4, 0x57]), ('\u{6AFA}', [0xC4, 0xE7]), ('\u{6AFB}', [0xC4, 0xE5]), 
    ('\u{6AFC}', [0xF5, 0xCF]), ('\u{6B00}', [0xF5, 0xD2]), ('\u{6B02}', [0xF5, 0xCE]), 
    ('\u{6B03}', [0xF5, 0xD0]), ('\u{6B04}', [0xC4, 0xE6]), ('\u{6B05}', [0x93, 0xF1]), 
    ('\u{6B08}', [0xF6, 0xE5]), ('\u{6B09}', [0xF6, 0xE6]), ('\u{6B0A}', [0xC5, 0x76]), 
    ('\u{6B0B}', [0xF6, 0xE4]), ('\u{6B0F}', [0xF7, 0xE2]), ('\u{6B10}', [0xC5, 0xCF]), 
    ('\u{6B11}', [0xF7, 0xE0]), ('\u{6B12}', [0xF7, 0xE1]), ('\u{6B13}', [0xF8, 0xAC]), 
    ('\u{6B16}', [0xC6, 0x56]), ('\u{6B17}', [0xF8, 0xF3]), ('\u{6B18}', [0xF8, 0xF1]), 
    ('\u{6B19}', [0xF8, 0xF2]), ('\u{6B1A}', [0xF8, 0xF4]), ('\u{6B1D}', [0xFD, 0x62]), 
    ('\u{6B1E}', [0xF9, 0xBB]), ('\u{6B20}', [0xA4, 0xED]), ('\u{6B21}', [0xA6, 0xB8]), 
    ('\u{6B23}', [0xAA, 0x59]), ('\u{6B25}', [0xCC, 0xE9]), ('\u{6B28}', [0xCF, 0x64]), 
    ('\u{6B2C}', [0xD1, 0xF5]), ('\u{6B2D}', [0xD1, 0xF7]), ('\u{6B2F}', [0xD1, 0xF6]), 
    ('\u{6B31}', [0xD1, 0xF8]), ('\u{6B32}', [0xB1, 0xFD]), ('\u{6B33}', [0xD5, 0xD7]), 
    ('\u{6B34}', [0xD1, 0xF9]), ('\u{6B35}', [0xFD, 0x65]), ('\u{6B36}', [0xD5, 0xD6]), 
    ('\u{6B37}', [0xD5, 0xD8]), ('\u{6B38}', [0xD5, 0xD9]), ('\u{6B39}', [0xD9, 0xDA]), 
    ('\u{6B3A}', [0xB4, 0xDB]), ('\u{6B3B}', [0xD9, 0xDB]), ('\u{6B3C}', [0xD9, 0xDD]), 
    ('\u{6B3D}', [0xB4, 0xDC]), ('\u{6B3E}', [0xB4, 0xDA]), ('\u{6B3F}', [0xD9, 0xDC]), 
    ('\u{6B41}', [0xDD, 0xFA]), ('\u{6B42}', [0xDD, 0xF8]), ('\u{6B43}', [0xDD, 0xF7]), 
    ('\u{6B45}', [0xDD, 0xF6]), ('\u{6B46}', [0xDD, 0xF5]), ('\u{6B47}', [0xB7, 0xB2]), 
    ('\u{6B48}', [0xDD, 0xF9]), ('\u{6B49}', [0xBA, 0x70]), ('\u{6B4A}', [0xE2, 0x63]), 
    ('\u{6B4B}', [0xE2, 0x65]), ('\u{6B4C}', [0xBA, 0x71]), ('\u{6B4D}', [0xE2, 0x64]), 
    ('\u{6B4E}', [0xBC, 0xDB]), ('\u{6B50}', [0xBC, 0xDA]), ('\u{6B51}', [0xE5, 0xF0]), 
    ('\u{6B52}', [0x9F, 0xDB]), ('\u{6B54}', [0xE9, 0xDF]), ('\u{6B55}', [0xE9, 0xDE]), 
    ('\u{6B56}', [0xE9, 0xE0]), ('\u{6B57}', [0x93, 0xF8]), ('\u{6B59}', [0xBE, 0xF9]), 
    ('\u{6B5B}', [0xED, 0x4B]), ('\u{6B5C}', [0xC0, 0xD3]), ('\u{6B5E}', [0xEF, 0xE8]), 
    ('\u{6B5F}', [0xC2, 0x6A]), ('\u{6B60}', [0xF2, 0x59]), ('\u{6B61}', [0xC5, 0x77]), 
    ('\u{6B62}', [0xA4, 0xEE]), ('\u{6B63}', [0xA5, 0xBF]), ('\u{6B64}', [0xA6, 0xB9]), 
    ('\u{6B65}', [0xA8, 0x42]), ('\u{6B66}', [0xAA, 0x5A]), ('\u{6B67}', [0xAA, 0x5B]), 
    ('\u{6B6A}', [0xAC, 0x6E]), ('\u{6B6D}', [0xD1, 0xFA]), ('\u{6B6F}', [0x8B, 0xF7]), 
    ('\u{6B72}', [0xB7, 0xB3]), ('\u{6B74}', [0xFD, 0x66]), ('\u{6B76}', [0xE6, 0xD1]), 
    ('\u{6B77}', [0xBE, 0xFA]), ('\u{6B78}', [0xC2, 0x6B]), ('\u{6B79}', [0xA4, 0xEF]), 
    ('\u{6B7A}', [0x8B, 0xCF]), ('\u{6B7B}', [0xA6, 0xBA]), ('\u{6B7E}', [0xCC, 0xEB]), 
    ('\u{6B7F}', [0xAA, 0x5C]), ('\u{6B80}', [0xCC, 0xEA]), ('\u{6B81}', [0x8D, 0xD1]), 
"#

/-- src/generated/whatwg/big5_whatwg_tables.rs.inc:4785-4912 -/
noncomputable def encode18 : List Text := lines! r#"    ('\u{6B82}', [0xCF, 0x65]), ('\u{6B83}', [0xAC, 0x6F]), ('\u{6B84}', [0xCF, 0x66]), 
    ('\u{6B86}', [0xAC, 0x70]), ('\u{6B88}', [0xD1, 0xFC]), ('\u{6B89}', [0xAE, 0xEE]), 
    ('\u{6B8A}', [0xAE, 0xED]), ('\u{6B8C}', [0xD5, 0xDE]), ('\u{6B8D}', [0xD5, 0xDC]), 
    ('\u{6B8E}', [0xD5, 0xDD]), ('\u{6B8F}', [0xD5, 0xDB]), ('\u{6B91}', [0xD5, 0xDA]), 
    ('\u{6B94}', [0xD9, 0xDE]), ('\u{6B95}', [0xD9, 0xE1]), ('\u{6B96}', [0xB4, 0xDE]), 
    ('\u{6B97}', [0xD9, 0xDF]), ('\u{6B98}', [0xB4, 0xDD]), ('\u{6B99}', [0xD9, 0xE0]), 
    ('\u{6B9B}', [0xDD, 0xFB]), ('\u{6B9E}', [0xE2, 0x66]), ('\u{6B9F}', [0xE2, 0x67]), 
    ('\u{6BA0}', [0xE2, 0x68]), ('\u{6BA2}', [0xE5, 0xF3]), ('\u{6BA3}', [0xE5, 0xF2]), 
    ('\u{6BA4}', [0xBC, 0xDC]), ('\u{6BA5}', [0xE5, 0xF1]), ('\u{6BA6}', [0xE5, 0xF4]), 
    ('\u{6BA7}', [0xE9, 0xE1]), ('\u{6BAA}', [0xE9, 0xE2]), ('\u{6BAB}', [0xE9, 0xE3]), 
    ('\u{6BAD}', [0xED, 0x4C]), ('\u{6BAE}', [0xC0, 0xD4]), ('\u{6BAF}', [0xC2, 0x6C]), 
    ('\u{6BB0}', [0xF2, 0x5A]), ('\u{6BB2}', [0xC4, 0xE8]), ('\u{6BB3}', [0xC9, 0x5F]), 
    ('\u{6BB5}', [0xAC, 0x71]), ('\u{6BB6}', [0xCF, 0x67]), ('\u{6BB7}', [0xAE, 0xEF]), 
    ('\u{6BBA}', [0xB1, 0xFE]), ('\u{6BBC}', [0xB4, 0xDF]), ('\u{6BBD}', [0xD9, 0xE2]), 
    ('\u{6BBF}', [0xB7, 0xB5]), ('\u{6BC0}', [0xB7, 0xB4]), ('\u{6BC1}', [0x8D, 0xD2]), 
    ('\u{6BC3}', [0xE2, 0x69]), ('\u{6BC4}', [0xE2, 0x6A]), ('\u{6BC5}', [0xBC, 0xDD]), 
    ('\u{6BC6}', [0xBC, 0xDE]), ('\u{6BC7}', [0xE9, 0xE5]), ('\u{6BC8}', [0xE9, 0xE4]), 
    ('\u{6BC9}', [0xEF, 0xE9]), ('\u{6BCA}', [0xF7, 0xE3]), ('\u{6BCB}', [0xA4, 0xF0]), 
    ('\u{6BCC}', [0xC9, 0x60]), ('\u{6BCD}', [0xA5, 0xC0]), ('\u{6BCF}', [0xA8, 0x43]), 
    ('\u{6BD0}', [0xCB, 0x48]), ('\u{6BD2}', [0xAC, 0x72]), ('\u{6BD3}', [0xB7, 0xB6]), 
    ('\u{6BD4}', [0xA4, 0xF1]), ('\u{6BD6}', [0xCF, 0x68]), ('\u{6BD7}', [0xAC, 0x73]), 
    ('\u{6BD8}', [0xCF, 0x69]), ('\u{6BDA}', [0xC0, 0xD5]), ('\u{6BDB}', [0xA4, 0xF2]), 
    ('\u{6BDC}', [0xFD, 0x71]), ('\u{6BDE}', [0xCC, 0xEC]), ('\u{6BE0}', [0xCF, 0x6A]), 
    ('\u{6BE1}', [0xFD, 0x6F]), ('\u{6BE2}', [0xD2, 0x42]), ('\u{6BE3}', [0xD2, 0x41]), 
    ('\u{6BE4}', [0xD1, 0xFE]), ('\u{6BE6}', [0xD1, 0xFD]), ('\u{6BE7}', [0xD2, 0x43]), 
    ('\u{6BE8}', [0xD2, 0x40]), ('\u{6BEA}', [0x8D, 0xD3]), ('\u{6BEB}', [0xB2, 0x40]), 
    ('\u{6BEC}', [0xB2, 0x41]), ('\u{6BEF}', [0xB4, 0xE0]), ('\u{6BF0}', [0xD9, 0xE3]), 
    ('\u{6BF2}', [0xD9, 0xE4]), ('\u{6BF3}', [0xD9, 0xE5]), ('\u{6BF7}', [0xDE, 0x41]), 
    ('\u{6BF8}', [0xDE, 0x42]), ('\u{6BF9}', [0xDE, 0x40]), ('\u{6BFA}', [0x9F, 0xE7]), 
    ('\u{6BFB}', [0xDD, 0xFD]), ('\u{6BFC}', [0xDD, 0xFE]), ('\u{6BFD}', [0xB7, 0xB7]), 
    ('\u{6BFE}', [0xE2, 0x6B]), ('\u{6BFF}', [0xE5, 0xF7]), ('\u{6C00}', [0xE5, 0xF6]), 
    ('\u{6C01}', [0xE5, 0xF5]), ('\u{6C02}', [0xE5, 0xF8]), ('\u{6C03}', [0xE9, 0xE7]), 
    ('\u{6C04}', [0xE9, 0xE6]), ('\u{6C05}', [0xBE, 0xFB]), ('\u{6C06}', [0xE9, 0xE8]), 
    ('\u{6C08}', [0xC0, 0xD6]), ('\u{6C09}', [0xED, 0x4D]), ('\u{6C0B}', [0xEF, 0xEA]), 
    ('\u{6C0C}', [0xF2, 0x5B]), ('\u{6C0D}', [0xF6, 0xE7]), ('\u{6C0F}', [0xA4, 0xF3]), 
    ('\u{6C10}', [0xA5, 0xC2]), ('\u{6C11}', [0xA5, 0xC1]), ('\u{6C13}', [0xAA, 0x5D]), 
    ('\u{6C14}', [0xC9, 0x61]), ('\u{6C15}', [0xC9, 0x7E]), ('\u{6C16}', [0xA6, 0xBB]), 
    ('\u{6C18}', [0xC9, 0xF7]), ('\u{6C19}', [0xCB, 0x49]), ('\u{6C1A}', [0xCB, 0x4A]), 
    ('\u{6C1B}', [0xAA, 0x5E]), ('\u{6C1C}', [0x90, 0xBD]), ('\u{6C1D}', [0xCC, 0xED]), 
    ('\u{6C1F}', [0xAC, 0x74]), ('\u{6C20}', [0xCF, 0x6B]), ('\u{6C21}', [0xCF, 0x6C]), 
    ('\u{6C23}', [0xAE, 0xF0]), ('\u{6C24}', [0xAE, 0xF4]), ('\u{6C25}', [0xD2, 0x44]), 
    ('\u{6C26}', [0xAE, 0xF3]), ('\u{6C27}', [0xAE, 0xF1]), ('\u{6C28}', [0xAE, 0xF2]), 
    ('\u{6C2A}', [0xD5, 0xDF]), ('\u{6C2B}', [0xB2, 0x42]), ('\u{6C2C}', [0xB4, 0xE3]), 
    ('\u{6C2E}', [0xB4, 0xE1]), ('\u{6C2F}', [0xB4, 0xE2]), ('\u{6C30}', [0xD9, 0xE6]), 
    ('\u{6C31}', [0x9F, 0xD0]), ('\u{6C33}', [0xBA, 0x72]), ('\u{6C34}', [0xA4, 0xF4]), 
    ('\u{6C35}', [0x8B, 0xD0]), ('\u{6C36}', [0xC9, 0xA1]), ('\u{6C37}', [0xFD, 0x72]), 
    ('\u{6C38}', [0xA5, 0xC3]), ('\u{6C39}', [0x9C, 0xAE]), ('\u{6C3A}', [0x8B, 0xD1]), 
    ('\u{6C3B}', [0xC9, 0xA4]), ('\u{6C3D}', [0x8A, 0xDB]), ('\u{6C3E}', [0xA5, 0xC6]), 
    ('\u{6C3F}', [0xC9, 0xA3]), ('\u{6C40}', [0xA5, 0xC5]), ('\u{6C41}', [0xA5, 0xC4]), 
    ('\u{6C42}', [0xA8, 0x44]), ('\u{6C43}', [0xC9, 0xA2]), ('\u{6C46}', [0xC9, 0xF8]), 
    ('\u{6C49}', [0xFA, 0xE4]), ('\u{6C4A}', [0x9E, 0xFD]), ('\u{6C4B}', [0xC9, 0xFE]), 
    ('\u{6C4C}', [0xCA, 0x40]), ('\u{6C4D}', [0xA6, 0xC5]), ('\u{6C4E}', [0xA6, 0xC6]), 
    ('\u{6C4F}', [0xC9, 0xFB]), ('\u{6C50}', [0xA6, 0xC1]), ('\u{6C52}', [0xC9, 0xF9]), 
    ('\u{6C54}', [0xC9, 0xFD]), ('\u{6C55}', [0xA6, 0xC2]), ('\u{6C57}', [0xA6, 0xBD]), 
    ('\u{6C58}', [0x95, 0xCE]), ('\u{6C59}', [0xA6, 0xBE]), ('\u{6C5A}', [0xFD, 0x76]), 
    ('\u{6C5B}', [0xA6, 0xC4]), ('\u{6C5C}', [0xC9, 0xFA]), ('\u{6C5D}', [0xA6, 0xBC]), 
    ('\u{6C5E}', [0xA8, 0x45]), ('\u{6C5F}', [0xA6, 0xBF]), ('\u{6C60}', [0xA6, 0xC0]), 
    ('\u{6C61}', [0xA6, 0xC3]), ('\u{6C65}', [0xCB, 0x5B]), ('\u{6C66}', [0xCB, 0x59]), 
    ('\u{6C67}', [0xCB, 0x4C]), ('\u{6C68}', [0xA8, 0x51]), ('\u{6C69}', [0xCB, 0x53]), 
    ('\u{6C6A}', [0xA8, 0x4C]), ('\u{6C6B}', [0xCB, 0x4D]), ('\u{6C6D}', [0xCB, 0x55]), 
    ('\u{6C6E}', [0xFB, 0x62]), ('\u{6C6F}', [0xCB, 0x52]), ('\u{6C70}', [0xA8, 0x4F]), 
    ('\u{6C71}', [0xCB, 0x51]), ('\u{6C72}', [0xA8, 0x56]), ('\u{6C73}', [0xCB, 0x5A]), 
    ('\u{6C74}', [0xA8, 0x58]), ('\u{6C75}', [0x8D, 0xD4]), ('\u{6C76}', [0xA8, 0x5A]), 
    ('\u{6C78}', [0xCB, 0x4B]), ('\u{6C79}', [0xFD, 0x78]), ('\u{6C7A}', [0xA8, 0x4D]), 
    ('\u{6C7B}', [0xCB, 0x5C]), ('\u{6C7D}', [0xA8, 0x54]), ('\u{6C7E}', [0xA8, 0x57]), 
    ('\u{6C7F}', [0x8E, 0xE3]), ('\u{6C80}', [0xCD, 0x45]), ('\u{6C81}', [0xA8, 0x47]), 
    ('\u{6C82}', [0xA8, 0x5E]), ('\u{6C83}', [0xA8, 0x55]), ('\u{6C84}', [0xCB, 0x4E]), 
    ('\u{6C85}', [0xA8, 0x4A]), ('\u{6C86}', [0xA8, 0x59]), ('\u{6C87}', [0xCB, 0x56]), 
    ('\u{6C88}', [0xA8, 0x48]), ('\u{6C89}', [0xA8, 0x49]), ('\u{6C8A}', [0xCD, 0x43]), 
    ('\u{6C8B}', [0xCB, 0x4F]), ('\u{6C8C}', [0xA8, 0x50]), ('\u{6C8D}', [0xA8, 0x5B]), 
    ('\u{6C8E}', [0xCB, 0x5D]), ('\u{6C8F}', [0xCB, 0x50]), ('\u{6C90}', [0xA8, 0x4E]), 
    ('\u{6C92}', [0xA8, 0x53]), ('\u{6C93}', [0xCC, 0xEE]), ('\u{6C94}', [0xA8, 0x5C]), 
    ('\u{6C95}', [0xCB, 0x57]), ('\u{6C96}', [0xA8, 0x52]), ('\u{6C98}', [0xA8, 0x5D]), 
    ('\u{6C99}', [0xA8, 0x46]), ('\u{6C9A}', [0xCB, 0x54]), ('\u{6C9B}', [0xA8, 0x4B]), 
    ('\u{6C9C}', [0xCB, 0x58]), ('\u{6C9D}', [0xCD, 0x44]), ('\u{6C9F}', [0x90, 0x76]), 
    ('\u{6CA2}', [0x98, 0xC6]), ('\u{6CAA}', [0x8D, 0xD5]), ('\u{6CAB}', [0xAA, 0x6A]), 
    ('\u{6CAC}', [0xAA, 0x7A]), ('\u{6CAD}', [0xCC, 0xF5]), ('\u{6CAE}', [0xAA, 0x71]), 
    ('\u{6CAF}', [0x97, 0xD1]), ('\u{6CB0}', [0xCD, 0x4B]), ('\u{6CB1}', [0xAA, 0x62]), 
    ('\u{6CB2}', [0x9E, 0xB6]), ('\u{6CB3}', [0xAA, 0x65]), ('\u{6CB4}', [0xCD, 0x42]), 
    ('\u{6CB6}', [0xCC, 0xF3]), ('\u{6CB7}', [0xCC, 0xF7]), ('\u{6CB8}', [0xAA, 0x6D]), 
    ('\u{6CB9}', [0xAA, 0x6F]), ('\u{6CBA}', [0xCC, 0xFA]), ('\u{6CBB}', [0xAA, 0x76]), 
    ('\u{6CBC}', [0xAA, 0x68]), ('\u{6CBD}', [0xAA, 0x66]), ('\u{6CBE}', [0xAA, 0x67]), 
    ('\u{6CBF}', [0xAA, 0x75]), ('\u{6CC0}', [0xCD, 0x47]), ('\u{6CC1}', [0xAA, 0x70]), 
    ('\u{6CC2}', [0xCC, 0xF9]), ('\u{6CC3}', [0xCC, 0xFB]), ('\u{6CC4}', [0xAA, 0x6E]), 
    ('\u{6CC5}', [0xAA, 0x73]), ('\u{6CC6}', [0xCC, 0xFC]), ('\u{6CC7}', [0xCD, 0x4A]), 
    ('\u{6CC9}', [0xAC, 0x75]), ('\u{6CCA}', [0xAA, 0x79]), ('\u{6CCB}', [0xFA, 0xC7]), 
    ('\u{6CCC}', [0xAA, 0x63]), ('\u{6CCD}', [0xCD, 0x49]), ('\u{6CCE}', [0xA0, 0x42]), 
    ('\u{6CCF}', [0xCD, 0x4D]), ('\u{6CD0}', [0xCC, 0xF8]), ('\u{6CD1}', [0xCD, 0x4F]), 
    ('\u{6CD2}', [0xCD, 0x40]), ('\u{6CD3}', [0xAA, 0x6C]), ('\u{6CD4}', [0xCC, 0xF4]), 
    ('\u{6CD5}', [0xAA, 0x6B]), ('\u{6CD6}', [0xAA, 0x7D]), ('\u{6CD7}', [0xAA, 0x72]), 
    ('\u{6CD9}', [0xCC, 0xF2]), ('\u{6CDA}', [0xCF, 0x75]), ('\u{6CDB}', [0xAA, 0x78]), 
    ('\u{6CDC}', [0xAA, 0x7C]), ('\u{6CDD}', [0xCD, 0x41]), ('\u{6CDE}', [0xCD, 0x46]), 
    ('\u{6CDF}', [0x98, 0x73]), ('\u{6CE0}', [0xAA, 0x7E]), ('\u{6CE1}', [0xAA, 0x77]), 
    ('\u{6CE2}', [0xAA, 0x69]), ('\u{6CE3}', [0xAA, 0x5F]), ('\u{6CE5}', [0xAA, 0x64]), 
    ('\u{6CE7}', [0xCC, 0xF6]), ('\u{6CE8}', [0xAA, 0x60]), ('\u{6CE9}', [0xCD, 0x4E]), 
    ('\u{6CEA}', [0x9F, 0xFC]), ('\u{6CEB}', [0xCC, 0xF0]), ('\u{6CEC}', [0xCC, 0xEF]), 
    ('\u{6CED}', [0xCC, 0xFD]), ('\u{6CEE}', [0xCC, 0xF1]), ('\u{6CEF}', [0xAA, 0x7B]), 
    ('\u{6CF0}', [0xAE, 0xF5]), ('\u{6CF1}', [0xAA, 0x74]), ('\u{6CF2}', [0xCC, 0xFE]), 
    ('\u{6CF3}', [0xAA, 0x61]), ('\u{6CF5}', [0xAC, 0xA6]), ('\u{6CF9}', [0xCD, 0x4C]), 
    ('\u{6CFF}', [0x8C, 0xA5]), ('\u{6D00}', [0xCF, 0x7C]), ('\u{6D01}', [0xCF, 0xA1]), 
    ('\u{6D02}', [0x8D, 0xD7]), ('\u{6D03}', [0xCF, 0xA4]), ('\u{6D04}', [0xCF, 0x77]), 
    ('\u{6D05}', [0x92, 0xFB]), ('\u{6D06}', [0x8D, 0xD8]), ('\u{6D07}', [0xCF, 0xA7]), 
    ('\u{6D08}', [0xCF, 0xAA]), ('\u{6D09}', [0xCF, 0xAC]), ('\u{6D0A}', [0xCF, 0x74]), 
    ('\u{6D0B}', [0xAC, 0x76]), ('\u{6D0C}', [0xAC, 0x7B]), ('\u{6D0D}', [0xD2, 0x49]), 
    ('\u{6D0E}', [0xAC, 0xAD]), ('\u{6D0F}', [0xCF, 0xA5]), ('\u{6D10}', [0xCF, 0xAD]), 
    ('\u{6D11}', [0xCF, 0x7B]), ('\u{6D12}', [0xCF, 0x73]), ('\u{6D16}', [0xD2, 0x64]), 
    ('\u{6D17}', [0xAC, 0x7E]), ('\u{6D18}', [0xCF, 0xA2]), ('\u{6D19}', [0xCF, 0x78]), 
    ('\u{6D1A}', [0xCF, 0x7A]), ('\u{6D1B}', [0xAC, 0xA5]), ('\u{6D1D}', [0xCF, 0x7D]), 
    ('\u{6D1E}', [0xAC, 0x7D]), ('\u{6D1F}', [0xCF, 0x70]), ('\u{6D20}', [0xCF, 0xA8]), 
    ('\u{6D22}', [0xCF, 0xAB]), ('\u{6D24}', [0x94, 0x4F]), ('\u{6D25}', [0xAC, 0x7A]), 
    ('\u{6D26}', [0x8D, 0xD9]), ('\u{6D27}', [0xAC, 0xA8]), ('\u{6D28}', [0xCF, 0x6D]), 
    ('\u{6D29}', [0xAC, 0xAA]), ('\u{6D2A}', [0xAC, 0x78]), ('\u{6D2B}', [0xAC, 0xAE]), 
    ('\u{6D2C}', [0xCF, 0xA9]), ('\u{6D2D}', [0xCF, 0x6F]), ('\u{6D2E}', [0xAC, 0xAB]), 
    ('\u{6D2F}', [0xD2, 0x5E]), ('\u{6D30}', [0xCD, 0x48]), ('\u{6D31}', [0xAC, 0x7C]), 
    ('\u{6D32}', [0xAC, 0x77]), ('\u{6D33}', [0xCF, 0x76]), ('\u{6D34}', [0xCF, 0x6E]), 
    ('\u{6D35}', [0xAC, 0xAC]), ('\u{6D36}', [0xAC, 0xA4]), ('\u{6D37}', [0xCF, 0xA3]), 
    ('\u{6D38}', [0xAC, 0xA9]), ('\u{6D39}', [0xAC, 0xA7]), ('\u{6D3A}', [0xCF, 0x79]), 
    ('\u{6D3B}', [0xAC, 0xA1]), ('\u{6D3C}', [0xCF, 0x71]), ('\u{6D3D}', [0xAC, 0xA2]), 
    ('\u{6D3E}', [0xAC, 0xA3]), ('\u{6D3F}', [0xCF, 0x72]), ('\u{6D40}', [0xCF, 0xA6]), 
    ('\u{6D41}', [0xAC, 0x79]), ('\u{6D42}', [0xCF, 0x7E]), ('\u{6D4E}', [0x89, 0x6B]), 
    ('\u{6D57}', [0x97, 0xCE]), ('\u{6D58}', [0xD2, 0x4C]), ('\u{6D59}', [0xAE, 0xFD]), 
    ('\u{6D5A}', [0xAF, 0x43]), ('\u{6D5B}', [0xFA, 0xF3]), ('\u{6D5C}', [0xFD, 0xAE]), 
    ('\u{6D5E}', [0xD2, 0x55]), ('\u{6D5F}', [0xD2, 0x5B]), ('\u{6D60}', [0xD2, 0x57]), 
    ('\u{6D61}', [0xD2, 0x4A]), ('\u{6D62}', [0xD2, 0x4D]), ('\u{6D63}', [0xD2, 0x46]), 
    ('\u{6D64}', [0xD2, 0x47]), ('\u{6D65}', [0xAF, 0x4A]), ('\u{6D66}', [0xAE, 0xFA]), 
    ('\u{6D67}', [0x94, 0x47]), ('\u{6D68}', [0xD2, 0x5F]), ('\u{6D69}', [0xAF, 0x45]), 
    ('\u{6D6A}', [0xAE, 0xF6]), ('\u{6D6C}', [0xAF, 0x40]), ('\u{6D6D}', [0xD2, 0x4E]), 
    ('\u{6D6E}', [0xAF, 0x42]), ('\u{6D6F}', [0xD2, 0x4F]), ('\u{6D70}', [0xD2, 0x59]), 
"#

/-- src/generated/whatwg/big5_whatwg_tables.rs.inc:4913-5040 -/
noncomputable def encode19 : List Text := lines! r#"    ('\u{6D71}', [0xFB, 0xAF]), ('\u{6D72}', [0x92, 0xB7]), ('\u{6D74}', [0xAF, 0x44]), 
    ('\u{6D75}', [0xD2, 0x68]), ('\u{6D76}', [0xD2, 0x48]), ('\u{6D77}', [0xAE, 0xFC]), 
    ('\u{6D78}', [0xAE, 0xFB]), ('\u{6D79}', [0xAF, 0x48]), ('\u{6D7A}', [0xD2, 0x45]), 
    ('\u{6D7B}', [0xD2, 0x66]), ('\u{6D7C}', [0xD2, 0x5A]), ('\u{6D7D}', [0xD2, 0x67]), 
    ('\u{6D7E}', [0xD2, 0x61]), ('\u{6D7F}', [0xD2, 0x53]), ('\u{6D80}', [0xD2, 0x62]), 
    ('\u{6D81}', [0x8D, 0xDA]), ('\u{6D82}', [0xD2, 0x5C]), ('\u{6D83}', [0xD2, 0x65]), 
    ('\u{6D84}', [0xD2, 0x63]), ('\u{6D85}', [0xAF, 0x49]), ('\u{6D86}', [0xD2, 0x54]), 
    ('\u{6D87}', [0xAE, 0xF9]), ('\u{6D88}', [0xAE, 0xF8]), ('\u{6D89}', [0xAF, 0x41]), 
    ('\u{6D8A}', [0xAF, 0x47]), ('\u{6D8B}', [0xD2, 0x60]), ('\u{6D8C}', [0xAF, 0x46]), 
    ('\u{6D8D}', [0xD2, 0x51]), ('\u{6D8E}', [0xB2, 0x43]), ('\u{6D8F}', [0x9C, 0x5A]), 
    ('\u{6D90}', [0xD2, 0x69]), ('\u{6D91}', [0xD2, 0x50]), ('\u{6D92}', [0xD2, 0x4B]), 
    ('\u{6D93}', [0xAE, 0xFE]), ('\u{6D94}', [0xAF, 0x4B]), ('\u{6D95}', [0xAE, 0xF7]), 
    ('\u{6D96}', [0xFD, 0xAD]), ('\u{6D97}', [0xD2, 0x58]), ('\u{6D98}', [0xD2, 0x5D]), 
    ('\u{6DA4}', [0x8D, 0xDC]), ('\u{6DA5}', [0x94, 0x44]), ('\u{6DAA}', [0xB2, 0x65]), 
    ('\u{6DAB}', [0xD5, 0xE1]), ('\u{6DAC}', [0xD5, 0xE5]), ('\u{6DAE}', [0xB2, 0x52]), 
    ('\u{6DAF}', [0xB2, 0x50]), ('\u{6DB1}', [0x8D, 0xDD]), ('\u{6DB2}', [0xB2, 0x47]), 
    ('\u{6DB3}', [0xD5, 0xE3]), ('\u{6DB4}', [0xD5, 0xE2]), ('\u{6DB5}', [0xB2, 0x5B]), 
    ('\u{6DB7}', [0xD5, 0xE8]), ('\u{6DB8}', [0xB2, 0x55]), ('\u{6DB9}', [0xA0, 0xD6]), 
    ('\u{6DBA}', [0xD5, 0xFA]), ('\u{6DBB}', [0xD6, 0x47]), ('\u{6DBC}', [0xB2, 0x44]), 
    ('\u{6DBD}', [0xD5, 0xF7]), ('\u{6DBE}', [0xD5, 0xF0]), ('\u{6DBF}', [0xB2, 0x67]), 
    ('\u{6DC0}', [0xD5, 0xE0]), ('\u{6DC2}', [0xD5, 0xFC]), ('\u{6DC4}', [0xB2, 0x64]), 
    ('\u{6DC5}', [0xB2, 0x58]), ('\u{6DC6}', [0xB2, 0x63]), ('\u{6DC7}', [0xB2, 0x4E]), 
    ('\u{6DC8}', [0xD5, 0xEC]), ('\u{6DC9}', [0xD5, 0xFE]), ('\u{6DCA}', [0xD5, 0xF6]), 
    ('\u{6DCB}', [0xB2, 0x4F]), ('\u{6DCC}', [0xB2, 0x49]), ('\u{6DCD}', [0xD6, 0x45]), 
    ('\u{6DCF}', [0xD5, 0xFD]), ('\u{6DD0}', [0xD6, 0x40]), ('\u{6DD1}', [0xB2, 0x51]), 
    ('\u{6DD2}', [0xB2, 0x59]), ('\u{6DD3}', [0xD6, 0x42]), ('\u{6DD4}', [0xD5, 0xEA]), 
    ('\u{6DD5}', [0xD5, 0xFB]), ('\u{6DD6}', [0xD5, 0xEF]), ('\u{6DD7}', [0xD6, 0x44]), 
    ('\u{6DD8}', [0xB2, 0x5E]), ('\u{6DD9}', [0xB2, 0x46]), ('\u{6DDA}', [0xB2, 0x5C]), 
    ('\u{6DDB}', [0xD5, 0xF4]), ('\u{6DDC}', [0xD5, 0xF2]), ('\u{6DDD}', [0xD5, 0xF3]), 
    ('\u{6DDE}', [0xB2, 0x53]), ('\u{6DDF}', [0xD5, 0xEE]), ('\u{6DE0}', [0xD5, 0xED]), 
    ('\u{6DE1}', [0xB2, 0x48]), ('\u{6DE2}', [0xD5, 0xE7]), ('\u{6DE3}', [0xD6, 0x46]), 
    ('\u{6DE4}', [0xB2, 0x4A]), ('\u{6DE5}', [0xD5, 0xF1]), ('\u{6DE6}', [0xB2, 0x68]), 
    ('\u{6DE8}', [0xB2, 0x62]), ('\u{6DE9}', [0xD5, 0xE6]), ('\u{6DEA}', [0xB2, 0x5F]), 
    ('\u{6DEB}', [0xB2, 0x5D]), ('\u{6DEC}', [0xB2, 0x66]), ('\u{6DED}', [0xD5, 0xF8]), 
    ('\u{6DEE}', [0xB2, 0x61]), ('\u{6DEF}', [0xD2, 0x52]), ('\u{6DF0}', [0xD5, 0xF9]), 
    ('\u{6DF1}', [0xB2, 0x60]), ('\u{6DF2}', [0xD6, 0x41]), ('\u{6DF3}', [0xB2, 0x45]), 
    ('\u{6DF4}', [0xD5, 0xF5]), ('\u{6DF5}', [0xB2, 0x57]), ('\u{6DF6}', [0xD5, 0xE9]), 
    ('\u{6DF7}', [0xB2, 0x56]), ('\u{6DF9}', [0xB2, 0x54]), ('\u{6DFA}', [0xB2, 0x4C]), 
    ('\u{6DFB}', [0xB2, 0x4B]), ('\u{6DFC}', [0xD9, 0xE7]), ('\u{6DFD}', [0xD6, 0x43]), 
    ('\u{6DFE}', [0x8C, 0x41]), ('\u{6E00}', [0xD5, 0xEB]), ('\u{6E02}', [0x97, 0xD5]), 
    ('\u{6E03}', [0xD9, 0xFC]), ('\u{6E04}', [0x94, 0x4A]), ('\u{6E05}', [0xB2, 0x4D]), 
    ('\u{6E0A}', [0x94, 0x4D]), ('\u{6E0F}', [0x97, 0xCB]), ('\u{6E15}', [0x8D, 0xDE]), 
    ('\u{6E18}', [0x8D, 0xDF]), ('\u{6E19}', [0xB5, 0x41]), ('\u{6E1A}', [0xB2, 0x5A]), 
    ('\u{6E1B}', [0xB4, 0xEE]), ('\u{6E1C}', [0xD9, 0xF6]), ('\u{6E1D}', [0xB4, 0xFC]), 
    ('\u{6E1F}', [0xD9, 0xEA]), ('\u{6E20}', [0xB4, 0xEB]), ('\u{6E21}', [0xB4, 0xE7]), 
    ('\u{6E22}', [0xDA, 0x49]), ('\u{6E23}', [0xB4, 0xED]), ('\u{6E24}', [0xB4, 0xF1]), 
    ('\u{6E25}', [0xB4, 0xEC]), ('\u{6E26}', [0xB4, 0xF5]), ('\u{6E27}', [0xDA, 0x4D]), 
    ('\u{6E28}', [0xDA, 0x44]), ('\u{6E29}', [0x8D, 0xE0]), ('\u{6E2A}', [0xFE, 0xF9]), 
    ('\u{6E2B}', [0xD9, 0xF1]), ('\u{6E2C}', [0xB4, 0xFA]), ('\u{6E2D}', [0xB4, 0xF4]), 
    ('\u{6E2E}', [0xD9, 0xFD]), ('\u{6E2F}', [0xB4, 0xE4]), ('\u{6E30}', [0xDA, 0x4A]), 
    ('\u{6E31}', [0xDA, 0x43]), ('\u{6E32}', [0xB4, 0xE8]), ('\u{6E33}', [0xD9, 0xF7]), 
    ('\u{6E34}', [0xB4, 0xF7]), ('\u{6E35}', [0xDA, 0x55]), ('\u{6E36}', [0xDA, 0x56]), 
    ('\u{6E38}', [0xB4, 0xE5]), ('\u{6E39}', [0xDA, 0x48]), ('\u{6E3A}', [0xB4, 0xF9]), 
    ('\u{6E3B}', [0xD9, 0xFB]), ('\u{6E3C}', [0xD9, 0xED]), ('\u{6E3D}', [0xD9, 0xEE]), 
    ('\u{6E3E}', [0xB4, 0xFD]), ('\u{6E3F}', [0xD9, 0xF2]), ('\u{6E40}', [0xD9, 0xF9]), 
    ('\u{6E41}', [0xD9, 0xF3]), ('\u{6E43}', [0xB4, 0xFB]), ('\u{6E44}', [0xB5, 0x44]), 
    ('\u{6E45}', [0xD9, 0xEF]), ('\u{6E46}', [0xD9, 0xE8]), ('\u{6E47}', [0xD9, 0xE9]), 
    ('\u{6E49}', [0xD9, 0xEB]), ('\u{6E4A}', [0xB4, 0xEA]), ('\u{6E4B}', [0xD9, 0xF8]), 
    ('\u{6E4D}', [0xB4, 0xF8]), ('\u{6E4E}', [0xB5, 0x42]), ('\u{6E4F}', [0xFD, 0xC0]), 
    ('\u{6E50}', [0xFC, 0xF9]), ('\u{6E51}', [0xD9, 0xFA]), ('\u{6E52}', [0xDA, 0x53]), 
    ('\u{6E53}', [0xDA, 0x4B]), ('\u{6E54}', [0xB4, 0xE6]), ('\u{6E55}', [0xDA, 0x51]), 
    ('\u{6E56}', [0xB4, 0xF2]), ('\u{6E57}', [0x8C, 0xDD]), ('\u{6E58}', [0xB4, 0xF0]), 
    ('\u{6E59}', [0xFB, 0x7E]), ('\u{6E5A}', [0xDA, 0x57]), ('\u{6E5B}', [0xB4, 0xEF]), 
    ('\u{6E5C}', [0xDA, 0x41]), ('\u{6E5D}', [0xD9, 0xF4]), ('\u{6E5E}', [0xD9, 0xFE]), 
    ('\u{6E5F}', [0xB5, 0x47]), ('\u{6E60}', [0xDA, 0x45]), ('\u{6E61}', [0xDA, 0x42]), 
    ('\u{6E62}', [0xD9, 0xF0]), ('\u{6E63}', [0xB5, 0x43]), ('\u{6E64}', [0xDA, 0x4F]), 
    ('\u{6E65}', [0xDA, 0x4C]), ('\u{6E66}', [0xDA, 0x54]), ('\u{6E67}', [0xB4, 0xE9]), 
    ('\u{6E68}', [0xDA, 0x40]), ('\u{6E69}', [0xB5, 0x46]), ('\u{6E6B}', [0xDA, 0x47]), 
    ('\u{6E6E}', [0xB4, 0xF3]), ('\u{6E6F}', [0xB4, 0xF6]), ('\u{6E71}', [0xDA, 0x46]), 
    ('\u{6E72}', [0xB5, 0x45]), ('\u{6E73}', [0xD9, 0xF5]), ('\u{6E74}', [0xD5, 0xE4]), 
    ('\u{6E76}', [0x92, 0xB3]), ('\u{6E77}', [0xDA, 0x50]), ('\u{6E78}', [0xDA, 0x4E]), 
    ('\u{6E79}', [0xDA, 0x52]), ('\u{6E7C}', [0xFD, 0xAF]), ('\u{6E86}', [0x8D, 0xE1]), 
    ('\u{6E88}', [0xD9, 0xEC]), ('\u{6E89}', [0xB5, 0x40]), ('\u{6E8B}', [0x95, 0xD3]), 
    ('\u{6E8D}', [0xDE, 0x61]), ('\u{6E8E}', [0xDE, 0x60]), ('\u{6E8F}', [0xDE, 0x46]), 
    ('\u{6E90}', [0xB7, 0xBD]), ('\u{6E92}', [0xDE, 0x5F]), ('\u{6E93}', [0xDE, 0x49]), 
    ('\u{6E94}', [0xDE, 0x4A]), ('\u{6E96}', [0xB7, 0xC7]), ('\u{6E97}', [0xDE, 0x68]), 
    ('\u{6E98}', [0xB7, 0xC2]), ('\u{6E99}', [0xDE, 0x5E]), ('\u{6E9A}', [0x89, 0xC1]), 
    ('\u{6E9B}', [0xDE, 0x43]), ('\u{6E9C}', [0xB7, 0xC8]), ('\u{6E9D}', [0xB7, 0xBE]), 
    ('\u{6E9E}', [0xDE, 0x52]), ('\u{6E9F}', [0xDE, 0x48]), ('\u{6EA0}', [0xDE, 0x4B]), 
    ('\u{6EA1}', [0xDE, 0x63]), ('\u{6EA2}', [0xB7, 0xB8]), ('\u{6EA3}', [0xDE, 0x6A]), 
    ('\u{6EA4}', [0xDE, 0x62]), ('\u{6EA5}', [0xB7, 0xC1]), ('\u{6EA6}', [0xDE, 0x57]), 
    ('\u{6EA7}', [0xB7, 0xCC]), ('\u{6EAA}', [0xB7, 0xCB]), ('\u{6EAB}', [0xB7, 0xC5]), 
    ('\u{6EAE}', [0xDE, 0x69]), ('\u{6EAF}', [0xB7, 0xB9]), ('\u{6EB0}', [0xDE, 0x55]), 
    ('\u{6EB1}', [0xDE, 0x4C]), ('\u{6EB2}', [0xDE, 0x59]), ('\u{6EB3}', [0xDE, 0x65]), 
    ('\u{6EB4}', [0xB7, 0xCD]), ('\u{6EB5}', [0xFD, 0x68]), ('\u{6EB6}', [0xB7, 0xBB]), 
    ('\u{6EB7}', [0xDE, 0x54]), ('\u{6EB8}', [0x9C, 0xB7]), ('\u{6EB9}', [0xDE, 0x4D]), 
    ('\u{6EBA}', [0xB7, 0xC4]), ('\u{6EBB}', [0x8D, 0xE3]), ('\u{6EBC}', [0xB7, 0xC3]), 
    ('\u{6EBD}', [0xDE, 0x50]), ('\u{6EBE}', [0xDE, 0x5A]), ('\u{6EBF}', [0xDE, 0x64]), 
    ('\u{6EC0}', [0xDE, 0x47]), ('\u{6EC1}', [0xDE, 0x51]), ('\u{6EC2}', [0xB7, 0xBC]), 
    ('\u{6EC3}', [0xDE, 0x5B]), ('\u{6EC4}', [0xB7, 0xC9]), ('\u{6EC5}', [0xB7, 0xC0]), 
    ('\u{6EC6}', [0xDE, 0x4E]), ('\u{6EC7}', [0xB7, 0xBF]), ('\u{6EC8}', [0xDE, 0x45]), 
    ('\u{6EC9}', [0xDE, 0x53]), ('\u{6ECA}', [0xDE, 0x67]), ('\u{6ECB}', [0xB4, 0xFE]), 
    ('\u{6ECC}', [0xBA, 0xB0]), ('\u{6ECD}', [0xDE, 0x56]), ('\u{6ECE}', [0xE2, 0x6C]), 
    ('\u{6ECF}', [0xDE, 0x58]), ('\u{6ED0}', [0xDE, 0x66]), ('\u{6ED1}', [0xB7, 0xC6]), 
    ('\u{6ED2}', [0xDE, 0x4F]), ('\u{6ED3}', [0xB7, 0xBA]), ('\u{6ED4}', [0xB7, 0xCA]), 
    ('\u{6ED5}', [0xBC, 0xF0]), ('\u{6ED6}', [0xDE, 0x44]), ('\u{6ED8}', [0xDE, 0x5D]), 
    ('\u{6ED9}', [0xFA, 0xC0]), ('\u{6EDA}', [0x8D, 0xE5]), ('\u{6EDB}', [0xFA, 0x64]), 
    ('\u{6EDC}', [0xDE, 0x5C]), ('\u{6EDD}', [0x89, 0x47]), ('\u{6EE2}', [0x8D, 0xE4]), 
    ('\u{6EE8}', [0x8D, 0xE7]), ('\u{6EE9}', [0x8D, 0xE8]), ('\u{6EEB}', [0xE2, 0xAA]), 
    ('\u{6EEC}', [0xBA, 0xAD]), ('\u{6EED}', [0xE2, 0x7D]), ('\u{6EEE}', [0xE2, 0xA4]), 
    ('\u{6EEF}', [0xBA, 0xA2]), ('\u{6EF1}', [0xE2, 0x6E]), ('\u{6EF2}', [0xBA, 0xAF]), 
    ('\u{6EF4}', [0xBA, 0x77]), ('\u{6EF5}', [0xE2, 0x6D]), ('\u{6EF6}', [0xE2, 0xB0]), 
    ('\u{6EF7}', [0xBA, 0xB1]), ('\u{6EF8}', [0xE2, 0x71]), ('\u{6EF9}', [0xE2, 0xA3]), 
    ('\u{6EFA}', [0xFD, 0xC7]), ('\u{6EFB}', [0xE2, 0x73]), ('\u{6EFC}', [0xE2, 0xB3]), 
    ('\u{6EFD}', [0xE2, 0xAF]), ('\u{6EFE}', [0xBA, 0x75]), ('\u{6EFF}', [0xBA, 0xA1]), 
    ('\u{6F00}', [0xE6, 0x53]), ('\u{6F01}', [0xBA, 0xAE]), ('\u{6F02}', [0xBA, 0x7D]), 
    ('\u{6F03}', [0xE2, 0x6F]), ('\u{6F04}', [0xFD, 0xB0]), ('\u{6F05}', [0xE2, 0xAE]), 
    ('\u{6F06}', [0xBA, 0xA3]), ('\u{6F07}', [0xE2, 0xAB]), ('\u{6F08}', [0xE2, 0xB8]), 
    ('\u{6F09}', [0xE2, 0x75]), ('\u{6F0A}', [0xE2, 0x7E]), ('\u{6F0B}', [0x94, 0x45]), 
    ('\u{6F0C}', [0x97, 0xD6]), ('\u{6F0D}', [0xE2, 0xB6]), ('\u{6F0E}', [0xE2, 0xAC]), 
    ('\u{6F0F}', [0xBA, 0x7C]), ('\u{6F12}', [0xE2, 0x7C]), ('\u{6F13}', [0xBA, 0x76]), 
    ('\u{6F14}', [0xBA, 0x74]), ('\u{6F15}', [0xBA, 0xA8]), ('\u{6F16}', [0xFC, 0xC6]), 
    ('\u{6F17}', [0x98, 0x44]), ('\u{6F18}', [0xE2, 0x7A]), ('\u{6F19}', [0xE2, 0x77]), 
    ('\u{6F1A}', [0xE2, 0x78]), ('\u{6F1C}', [0xE2, 0xB2]), ('\u{6F1E}', [0xE2, 0xB7]), 
    ('\u{6F1F}', [0xE2, 0xB5]), ('\u{6F20}', [0xBA, 0x7A]), ('\u{6F21}', [0xE2, 0xB9]), 
    ('\u{6F22}', [0xBA, 0x7E]), ('\u{6F23}', [0xBA, 0xA7]), ('\u{6F24}', [0x8D, 0xE9]), 
    ('\u{6F25}', [0xE2, 0x70]), ('\u{6F26}', [0xE5, 0xFA]), ('\u{6F27}', [0xE2, 0x79]), 
    ('\u{6F29}', [0xBA, 0x78]), ('\u{6F2A}', [0xBA, 0xAC]), ('\u{6F2B}', [0xBA, 0xA9]), 
    ('\u{6F2C}', [0xBA, 0x7B]), ('\u{6F2D}', [0xE2, 0xA5]), ('\u{6F2E}', [0xE2, 0x74]), 
    ('\u{6F2F}', [0xBA, 0xAA]), ('\u{6F30}', [0xE2, 0xA7]), ('\u{6F31}', [0xBA, 0xA4]), 
    ('\u{6F32}', [0xBA, 0xA6]), ('\u{6F33}', [0xBA, 0x73]), ('\u{6F34}', [0x8D, 0xEA]), 
    ('\u{6F35}', [0xE2, 0xA9]), ('\u{6F36}', [0xE2, 0xA1]), ('\u{6F37}', [0xE2, 0x72]), 
    ('\u{6F38}', [0xBA, 0xA5]), ('\u{6F39}', [0xE2, 0xB1]), ('\u{6F3A}', [0xE2, 0xB4]), 
    ('\u{6F3B}', [0xE2, 0x7B]), ('\u{6F3C}', [0xE2, 0xA8]), ('\u{6F3D}', [0xFE, 0x50]), 
    ('\u{6F3E}', [0xBA, 0x79]), ('\u{6F3F}', [0xBC, 0xDF]), ('\u{6F40}', [0xE2, 0xA6]), 
    ('\u{6F41}', [0xE5, 0xF9]), ('\u{6F43}', [0xE2, 0xAD]), ('\u{6F44}', [0xFD, 0xCC]), 
    ('\u{6F4E}', [0xE2, 0x76]), ('\u{6F4F}', [0xE6, 0x44]), ('\u{6F50}', [0xE6, 0x4E]), 
    ('\u{6F51}', [0xBC, 0xE2]), ('\u{6F52}', [0xE6, 0x4D]), ('\u{6F53}', [0xE6, 0x59]), 
"#

/-- src/generated/whatwg/big5_whatwg_tables.rs.inc:5041-5168 -/
noncomputable def encode20 : List Text := lines! r#"    ('\u{6F54}', [0xBC, 0xE4]), ('\u{6F55}', [0xE6, 0x4B]), ('\u{6F56}', [0x9D, 0xA7]), 
    ('\u{6F57}', [0xE6, 0x4F]), ('\u{6F58}', [0xBC, 0xEF]), ('\u{6F5A}', [0xE6, 0x46]), 
    ('\u{6F5B}', [0xBC, 0xE7]), ('\u{6F5C}', [0xFD, 0xCD]), ('\u{6F5D}', [0xE6, 0x52]), 
    ('\u{6F5E}', [0xE9, 0xF0]), ('\u{6F5F}', [0xBC, 0xF3]), ('\u{6F60}', [0xBC, 0xF2]), 
    ('\u{6F61}', [0xE6, 0x54]), ('\u{6F62}', [0xE6, 0x43]), ('\u{6F63}', [0xE6, 0x5E]), 
    ('\u{6F64}', [0xBC, 0xED]), ('\u{6F66}', [0xBC, 0xE3]), ('\u{6F67}', [0xE6, 0x57]), 
    ('\u{6F69}', [0xE6, 0x5B]), ('\u{6F6A}', [0xE6, 0x60]), ('\u{6F6B}', [0xE6, 0x55]), 
    ('\u{6F6C}', [0xE6, 0x49]), ('\u{6F6D}', [0xBC, 0xE6]), ('\u{6F6E}', [0xBC, 0xE9]), 
    ('\u{6F6F}', [0xBC, 0xF1]), ('\u{6F70}', [0xBC, 0xEC]), ('\u{6F72}', [0xE6, 0x4C]), 
    ('\u{6F73}', [0xE2, 0xA2]), ('\u{6F74}', [0xFD, 0xCF]), ('\u{6F76}', [0xE6, 0x48]), 
    ('\u{6F77}', [0xE6, 0x5F]), ('\u{6F78}', [0xBC, 0xE8]), ('\u{6F79}', [0x95, 0xD2]), 
    ('\u{6F7A}', [0xBC, 0xEB]), ('\u{6F7B}', [0xE6, 0x61]), ('\u{6F7C}', [0xBC, 0xE0]), 
    ('\u{6F7D}', [0xE6, 0x56]), ('\u{6F7E}', [0xE5, 0xFB]), ('\u{6F7F}', [0xE6, 0x5C]), 
    ('\u{6F80}', [0xC0, 0xDF]), ('\u{6F81}', [0x8D, 0xED]), ('\u{6F82}', [0xE6, 0x4A]), 
    ('\u{6F84}', [0xBC, 0xE1]), ('\u{6F85}', [0xE6, 0x45]), ('\u{6F86}', [0xBC, 0xE5]), 
    ('\u{6F87}', [0xE5, 0xFC]), ('\u{6F88}', [0xBA, 0xAB]), ('\u{6F89}', [0xE6, 0x41]), 
    ('\u{6F8A}', [0xFC, 0xBA]), ('\u{6F8B}', [0xE6, 0x5A]), ('\u{6F8C}', [0xE6, 0x42]), 
    ('\u{6F8D}', [0xE6, 0x40]), ('\u{6F8E}', [0xBC, 0xEA]), ('\u{6F90}', [0xE6, 0x58]), 
    ('\u{6F92}', [0xE5, 0xFE]), ('\u{6F93}', [0xE6, 0x51]), ('\u{6F94}', [0xE6, 0x50]), 
    ('\u{6F95}', [0xE6, 0x5D]), ('\u{6F96}', [0xE6, 0x47]), ('\u{6F97}', [0xBC, 0xEE]), 
    ('\u{6F9D}', [0xFD, 0xC5]), ('\u{6F9E}', [0xE9, 0xF3]), ('\u{6F9F}', [0xFD, 0xD2]), 
    ('\u{6FA0}', [0xBF, 0x49]), ('\u{6FA1}', [0xBE, 0xFE]), ('\u{6FA2}', [0xEA, 0x40]), 
    ('\u{6FA3}', [0xE9, 0xEB]), ('\u{6FA4}', [0xBF, 0x41]), ('\u{6FA5}', [0xE9, 0xF7]), 
    ('\u{6FA6}', [0xBF, 0x48]), ('\u{6FA7}', [0xBF, 0x43]), ('\u{6FA8}', [0xE9, 0xF5]), 
    ('\u{6FA9}', [0xED, 0x4F]), ('\u{6FAA}', [0xE9, 0xFB]), ('\u{6FAB}', [0xEA, 0x42]), 
    ('\u{6FAC}', [0xE9, 0xFA]), ('\u{6FAD}', [0xE9, 0xE9]), ('\u{6FAE}', [0xE9, 0xF8]), 
    ('\u{6FAF}', [0xEA, 0x44]), ('\u{6FB0}', [0xEA, 0x46]), ('\u{6FB1}', [0xBE, 0xFD]), 
    ('\u{6FB2}', [0xEA, 0x45]), ('\u{6FB3}', [0xBF, 0x44]), ('\u{6FB4}', [0xBF, 0x4A]), 
    ('\u{6FB5}', [0x9C, 0xDC]), ('\u{6FB6}', [0x9B, 0xF6]), ('\u{6FB8}', [0xE9, 0xFE]), 
    ('\u{6FB9}', [0xBF, 0x46]), ('\u{6FBA}', [0xE9, 0xF9]), ('\u{6FBB}', [0x95, 0xCF]), 
    ('\u{6FBC}', [0xE9, 0xED]), ('\u{6FBD}', [0xE9, 0xF2]), ('\u{6FBE}', [0x8D, 0xEE]), 
    ('\u{6FBF}', [0xE9, 0xFD]), ('\u{6FC0}', [0xBF, 0x45]), ('\u{6FC1}', [0xBF, 0x42]), 
    ('\u{6FC2}', [0xBE, 0xFC]), ('\u{6FC3}', [0xBF, 0x40]), ('\u{6FC4}', [0xE9, 0xF1]), 
    ('\u{6FC6}', [0xE5, 0xFD]), ('\u{6FC7}', [0xE9, 0xEC]), ('\u{6FC8}', [0xE9, 0xEF]), 
    ('\u{6FC9}', [0xEA, 0x41]), ('\u{6FCA}', [0xE9, 0xF4]), ('\u{6FCB}', [0xE9, 0xEA]), 
    ('\u{6FCC}', [0xED, 0x4E]), ('\u{6FCD}', [0xEA, 0x43]), ('\u{6FCE}', [0xE9, 0xEE]), 
    ('\u{6FCF}', [0xE9, 0xFC]), ('\u{6FD3}', [0xFD, 0xD4]), ('\u{6FD4}', [0xED, 0x51]), 
    ('\u{6FD5}', [0xC0, 0xE3]), ('\u{6FD8}', [0xC0, 0xD7]), ('\u{6FD9}', [0x96, 0xEC]), 
    ('\u{6FDA}', [0x96, 0xEB]), ('\u{6FDB}', [0xC0, 0xDB]), ('\u{6FDC}', [0xED, 0x53]), 
    ('\u{6FDD}', [0xED, 0x59]), ('\u{6FDE}', [0xED, 0x57]), ('\u{6FDF}', [0xC0, 0xD9]), 
    ('\u{6FE0}', [0xC0, 0xDA]), ('\u{6FE1}', [0xC0, 0xE1]), ('\u{6FE2}', [0xED, 0x5A]), 
    ('\u{6FE3}', [0xED, 0x52]), ('\u{6FE4}', [0xC0, 0xDC]), ('\u{6FE6}', [0xED, 0x56]), 
    ('\u{6FE7}', [0xED, 0x55]), ('\u{6FE8}', [0xED, 0x5B]), ('\u{6FE9}', [0xC0, 0xE2]), 
    ('\u{6FEB}', [0xC0, 0xDD]), ('\u{6FEC}', [0xC0, 0xE0]), ('\u{6FED}', [0xED, 0x54]), 
    ('\u{6FEE}', [0xC0, 0xE4]), ('\u{6FEF}', [0xC0, 0xDE]), ('\u{6FF0}', [0xC0, 0xE5]), 
    ('\u{6FF1}', [0xC0, 0xD8]), ('\u{6FF2}', [0xED, 0x58]), ('\u{6FF4}', [0xED, 0x50]), 
    ('\u{6FF6}', [0x90, 0xB6]), ('\u{6FF7}', [0xEF, 0xF7]), ('\u{6FF8}', [0xFD, 0xC3]), 
    ('\u{6FFA}', [0xC2, 0x71]), ('\u{6FFB}', [0xEF, 0xF4]), ('\u{6FFC}', [0xEF, 0xF6]), 
    ('\u{6FFE}', [0xC2, 0x6F]), ('\u{6FFF}', [0xEF, 0xF2]), ('\u{7000}', [0xEF, 0xF3]), 
    ('\u{7001}', [0xEF, 0xEE]), ('\u{7003}', [0x98, 0xAB]), ('\u{7004}', [0xE9, 0xF6]), 
    ('\u{7005}', [0xEF, 0xEF]), ('\u{7006}', [0xC2, 0x70]), ('\u{7007}', [0xEF, 0xEB]), 
    ('\u{7009}', [0xC2, 0x6D]), ('\u{700A}', [0xEF, 0xF8]), ('\u{700B}', [0xC2, 0x6E]), 
    ('\u{700C}', [0xEF, 0xEC]), ('\u{700D}', [0xEF, 0xED]), ('\u{700E}', [0xEF, 0xF1]), 
    ('\u{700F}', [0xC2, 0x73]), ('\u{7011}', [0xC2, 0x72]), ('\u{7014}', [0xEF, 0xF0]), 
    ('\u{7015}', [0xC3, 0x78]), ('\u{7016}', [0xF2, 0x5F]), ('\u{7017}', [0xF2, 0x65]), 
    ('\u{7018}', [0xC3, 0x79]), ('\u{7019}', [0xF2, 0x5C]), ('\u{701A}', [0xC3, 0x76]), 
    ('\u{701B}', [0xC3, 0x73]), ('\u{701C}', [0xF2, 0x67]), ('\u{701D}', [0xC3, 0x77]), 
    ('\u{701E}', [0x96, 0xED]), ('\u{701F}', [0xC3, 0x74]), ('\u{7020}', [0xF2, 0x5E]), 
    ('\u{7021}', [0xF2, 0x61]), ('\u{7022}', [0xF2, 0x62]), ('\u{7023}', [0xF2, 0x63]), 
    ('\u{7024}', [0xF2, 0x66]), ('\u{7026}', [0xEF, 0xF5]), ('\u{7027}', [0xF2, 0x5D]), 
    ('\u{7028}', [0xC3, 0x75]), ('\u{7029}', [0xF2, 0x64]), ('\u{702A}', [0xF2, 0x68]), 
    ('\u{702B}', [0xF2, 0x60]), ('\u{702C}', [0x8D, 0xF4]), ('\u{702F}', [0xF4, 0x5D]), 
    ('\u{7030}', [0xC4, 0x6A]), ('\u{7031}', [0xF4, 0x60]), ('\u{7032}', [0xC4, 0x6B]), 
    ('\u{7033}', [0xF4, 0x68]), ('\u{7034}', [0xF4, 0x5F]), ('\u{7035}', [0xF4, 0x5C]), 
    ('\u{7037}', [0xF4, 0x5E]), ('\u{7038}', [0xF4, 0x62]), ('\u{7039}', [0xF4, 0x65]), 
    ('\u{703A}', [0xF4, 0x64]), ('\u{703B}', [0xF4, 0x67]), ('\u{703C}', [0xF4, 0x5B]), 
    ('\u{703E}', [0xC4, 0x69]), ('\u{703F}', [0xF4, 0x63]), ('\u{7040}', [0xF4, 0x66]), 
    ('\u{7041}', [0xF4, 0x69]), ('\u{7042}', [0xF4, 0x61]), ('\u{7043}', [0xF5, 0xD3]), 
    ('\u{7044}', [0xF5, 0xD4]), ('\u{7045}', [0xF5, 0xD8]), ('\u{7046}', [0xF5, 0xD9]), 
    ('\u{7048}', [0xF5, 0xD6]), ('\u{7049}', [0xF5, 0xD7]), ('\u{704A}', [0xF5, 0xD5]), 
    ('\u{704B}', [0xFD, 0xE0]), ('\u{704C}', [0xC4, 0xE9]), ('\u{704D}', [0x8C, 0x67]), 
    ('\u{7050}', [0x8D, 0xF6]), ('\u{7051}', [0xC5, 0x78]), ('\u{7052}', [0xF6, 0xEB]), 
    ('\u{7054}', [0x8D, 0xF7]), ('\u{7055}', [0xF6, 0xE8]), ('\u{7056}', [0xF6, 0xE9]), 
    ('\u{7057}', [0xF6, 0xEA]), ('\u{7058}', [0xC5, 0x79]), ('\u{705A}', [0xF7, 0xE5]), 
    ('\u{705B}', [0xF7, 0xE4]), ('\u{705C}', [0x8F, 0xFA]), ('\u{705D}', [0xF8, 0xAF]), 
    ('\u{705E}', [0xC5, 0xF4]), ('\u{705F}', [0xF8, 0xAD]), ('\u{7060}', [0xF8, 0xB0]), 
    ('\u{7061}', [0xF8, 0xAE]), ('\u{7062}', [0xF8, 0xF5]), ('\u{7063}', [0xC6, 0x57]), 
    ('\u{7064}', [0xC6, 0x65]), ('\u{7065}', [0xF9, 0xA3]), ('\u{7066}', [0xF9, 0x6C]), 
    ('\u{7067}', [0x97, 0xD0]), ('\u{7068}', [0xF9, 0xA2]), ('\u{7069}', [0xF9, 0xD0]), 
    ('\u{706A}', [0xF9, 0xD1]), ('\u{706B}', [0xA4, 0xF5]), ('\u{706C}', [0x8B, 0xD2]), 
    ('\u{706E}', [0x87, 0xDE]), ('\u{706F}', [0x8D, 0xF8]), ('\u{7070}', [0xA6, 0xC7]), 
    ('\u{7071}', [0xCA, 0x41]), ('\u{7074}', [0xCB, 0x5E]), ('\u{7075}', [0x90, 0xD9]), 
    ('\u{7076}', [0xA8, 0x5F]), ('\u{7077}', [0x8C, 0x47]), ('\u{7078}', [0xA8, 0x62]), 
    ('\u{7079}', [0xFA, 0xF0]), ('\u{707A}', [0xCB, 0x5F]), ('\u{707C}', [0xA8, 0x60]), 
    ('\u{707D}', [0xA8, 0x61]), ('\u{707E}', [0xFD, 0xE1]), ('\u{707F}', [0x8D, 0xF9]), 
    ('\u{7081}', [0xFD, 0xE3]), ('\u{7082}', [0xCD, 0x58]), ('\u{7083}', [0xCD, 0x5A]), 
    ('\u{7084}', [0xCD, 0x55]), ('\u{7085}', [0xCD, 0x52]), ('\u{7086}', [0xCD, 0x54]), 
    ('\u{7089}', [0x8D, 0xFA]), ('\u{708A}', [0xAA, 0xA4]), ('\u{708B}', [0xFB, 0x63]), 
    ('\u{708E}', [0xAA, 0xA2]), ('\u{708F}', [0x90, 0xA6]), ('\u{7091}', [0xCD, 0x56]), 
    ('\u{7092}', [0xAA, 0xA3]), ('\u{7093}', [0xCD, 0x53]), ('\u{7094}', [0xCD, 0x50]), 
    ('\u{7095}', [0xAA, 0xA1]), ('\u{7096}', [0xCD, 0x57]), ('\u{7098}', [0xCD, 0x51]), 
    ('\u{7099}', [0xAA, 0xA5]), ('\u{709A}', [0xCD, 0x59]), ('\u{709F}', [0xCF, 0xAF]), 
    ('\u{70A0}', [0x99, 0x70]), ('\u{70A1}', [0xCF, 0xB3]), ('\u{70A3}', [0x91, 0xEB]), 
    ('\u{70A4}', [0xAC, 0xB7]), ('\u{70A5}', [0x97, 0x70]), ('\u{70A6}', [0x98, 0x6F]), 
    ('\u{70A7}', [0xFD, 0xE2]), ('\u{70A9}', [0xCF, 0xB6]), ('\u{70AB}', [0xAC, 0xAF]), 
    ('\u{70AC}', [0xAC, 0xB2]), ('\u{70AD}', [0xAC, 0xB4]), ('\u{70AE}', [0xAC, 0xB6]), 
    ('\u{70AF}', [0xAC, 0xB3]), ('\u{70B0}', [0xCF, 0xB2]), ('\u{70B1}', [0xCF, 0xB1]), 
    ('\u{70B3}', [0xAC, 0xB1]), ('\u{70B4}', [0xCF, 0xB4]), ('\u{70B5}', [0xCF, 0xB5]), 
    ('\u{70B7}', [0xCF, 0xAE]), ('\u{70B8}', [0xAC, 0xB5]), ('\u{70B9}', [0x98, 0xF2]), 
    ('\u{70BA}', [0xAC, 0xB0]), ('\u{70BB}', [0x9A, 0xFC]), ('\u{70BC}', [0x89, 0x6C]), 
    ('\u{70BD}', [0xFD, 0xFD]), ('\u{70BE}', [0xCF, 0xB0]), ('\u{70C0}', [0x99, 0x5E]), 
    ('\u{70C4}', [0x95, 0xBD]), ('\u{70C5}', [0xD2, 0x77]), ('\u{70C6}', [0xD2, 0x78]), 
    ('\u{70C7}', [0xD2, 0x79]), ('\u{70C8}', [0xAF, 0x50]), ('\u{70CA}', [0xAF, 0x4C]), 
    ('\u{70CB}', [0xD2, 0x6E]), ('\u{70CC}', [0xFD, 0xE4]), ('\u{70CD}', [0xD2, 0x76]), 
    ('\u{70CE}', [0xD2, 0x7B]), ('\u{70CF}', [0xAF, 0x51]), ('\u{70D0}', [0x91, 0xE6]), 
    ('\u{70D1}', [0xD2, 0x6C]), ('\u{70D2}', [0xD2, 0x72]), ('\u{70D3}', [0xD2, 0x6B]), 
    ('\u{70D4}', [0xD2, 0x75]), ('\u{70D5}', [0xFD, 0xE5]), ('\u{70D6}', [0xFD, 0xE6]), 
    ('\u{70D7}', [0xD2, 0x71]), ('\u{70D8}', [0xAF, 0x4D]), ('\u{70D9}', [0xAF, 0x4F]), 
    ('\u{70DA}', [0xD2, 0x7A]), ('\u{70DC}', [0xD2, 0x6A]), ('\u{70DD}', [0xD2, 0x6D]), 
    ('\u{70DE}', [0xD2, 0x73]), ('\u{70DF}', [0xFD, 0xE7]), ('\u{70E0}', [0xD2, 0x74]), 
    ('\u{70E1}', [0xD2, 0x7C]), ('\u{70E2}', [0xD2, 0x70]), ('\u{70E4}', [0xAF, 0x4E]), 
    ('\u{70EF}', [0xB2, 0x6D]), ('\u{70F0}', [0xD6, 0x4E]), ('\u{70F1}', [0x94, 0x54]), 
    ('\u{70F3}', [0xD6, 0x50]), ('\u{70F4}', [0xD6, 0x4C]), ('\u{70F5}', [0x99, 0xB8]), 
    ('\u{70F6}', [0xD6, 0x58]), ('\u{70F7}', [0xD6, 0x4A]), ('\u{70F8}', [0xD6, 0x57]), 
    ('\u{70F9}', [0xB2, 0x69]), ('\u{70FA}', [0xD6, 0x48]), ('\u{70FB}', [0xDA, 0x5B]), 
    ('\u{70FC}', [0xD6, 0x52]), ('\u{70FD}', [0xB2, 0x6C]), ('\u{70FE}', [0x97, 0xE9]), 
    ('\u{70FF}', [0xD6, 0x53]), ('\u{7100}', [0xD6, 0x56]), ('\u{7102}', [0xD6, 0x5A]), 
    ('\u{7104}', [0xD6, 0x4F]), ('\u{7105}', [0x93, 0x46]), ('\u{7106}', [0xD6, 0x54]), 
    ('\u{7109}', [0xB2, 0x6A]), ('\u{710A}', [0xB2, 0x6B]), ('\u{710B}', [0xD6, 0x59]), 
    ('\u{710C}', [0xD6, 0x4D]), ('\u{710D}', [0xD6, 0x49]), ('\u{710E}', [0xD6, 0x5B]), 
    ('\u{7110}', [0xD6, 0x51]), ('\u{7113}', [0xD6, 0x55]), ('\u{7117}', [0xD6, 0x4B]), 
    ('\u{7119}', [0xB5, 0x48]), ('\u{711A}', [0xB5, 0x49]), ('\u{711B}', [0xDA, 0x65]), 
    ('\u{711C}', [0xB5, 0x4F]), ('\u{711D}', [0x98, 0x63]), ('\u{711E}', [0xDA, 0x59]), 
    ('\u{711F}', [0xDA, 0x62]), ('\u{7120}', [0xDA, 0x58]), ('\u{7121}', [0xB5, 0x4C]), 
    ('\u{7122}', [0xDA, 0x60]), ('\u{7123}', [0xDA, 0x5E]), ('\u{7125}', [0xDA, 0x5F]), 
    ('\u{7126}', [0xB5, 0x4A]), ('\u{7128}', [0xDA, 0x63]), ('\u{7129}', [0x95, 0xBC]), 
    ('\u{712B}', [0xFD, 0xED]), ('\u{712C}', [0xFD, 0xF7]), ('\u{712E}', [0xDA, 0x5C]), 
    ('\u{712F}', [0xDA, 0x5A]), ('\u{7130}', [0xB5, 0x4B]), ('\u{7131}', [0xDA, 0x5D]), 
"#

/-- src/generated/whatwg/big5_whatwg_tables.rs.inc:5169-5296 -/
noncomputable def encode21 : List Text := lines! r#"    ('\u{7132}', [0xDA, 0x61]), ('\u{7133}', [0x98, 0x70]), ('\u{7134}', [0x96, 0xF6]), 
    ('\u{7135}', [0x8E, 0xA9]), ('\u{7136}', [0xB5, 0x4D]), ('\u{713A}', [0xDA, 0x64]), 
    ('\u{713B}', [0x94, 0x51]), ('\u{713E}', [0x8E, 0x43]), ('\u{7140}', [0x8B, 0x5A]), 
    ('\u{7141}', [0xDE, 0x70]), ('\u{7142}', [0xDE, 0x77]), ('\u{7143}', [0xDE, 0x79]), 
    ('\u{7144}', [0xDE, 0xA1]), ('\u{7145}', [0xFD, 0xEE]), ('\u{7146}', [0xB7, 0xDA]), 
    ('\u{7147}', [0xDE, 0x6B]), ('\u{7149}', [0xB7, 0xD2]), ('\u{714A}', [0xFD, 0xF0]), 
    ('\u{714B}', [0xDE, 0x7A]), ('\u{714C}', [0xB7, 0xD7]), ('\u{714D}', [0xDE, 0xA2]), 
    ('\u{714E}', [0xB7, 0xCE]), ('\u{714F}', [0xFD, 0xF4]), ('\u{7150}', [0xDE, 0x7D]), 
    ('\u{7151}', [0x9B, 0xF5]), ('\u{7152}', [0xDE, 0x6D]), ('\u{7153}', [0xDE, 0x7E]), 
    ('\u{7154}', [0xDE, 0x6C]), ('\u{7156}', [0xB7, 0xDC]), ('\u{7157}', [0x8C, 0xEE]), 
    ('\u{7158}', [0xDE, 0x78]), ('\u{7159}', [0xB7, 0xCF]), ('\u{715A}', [0xDE, 0xA3]), 
    ('\u{715C}', [0xB7, 0xD4]), ('\u{715D}', [0xDE, 0x71]), ('\u{715E}', [0xB7, 0xD9]), 
    ('\u{715F}', [0xDE, 0x7C]), ('\u{7160}', [0xDE, 0x6F]), ('\u{7161}', [0xDE, 0x76]), 
    ('\u{7162}', [0xA0, 0xDF]), ('\u{7163}', [0xDE, 0x6E]), ('\u{7164}', [0xB7, 0xD1]), 
    ('\u{7165}', [0xB7, 0xD8]), ('\u{7166}', [0xB7, 0xD6]), ('\u{7167}', [0xB7, 0xD3]), 
    ('\u{7168}', [0xB7, 0xDB]), ('\u{7169}', [0xB7, 0xD0]), ('\u{716A}', [0xDE, 0x75]), 
    ('\u{716B}', [0x97, 0x7E]), ('\u{716C}', [0xB7, 0xD5]), ('\u{716E}', [0xB5, 0x4E]), 
    ('\u{7170}', [0xDE, 0x7B]), ('\u{7171}', [0x9B, 0xD5]), ('\u{7172}', [0xDE, 0x73]), 
    ('\u{7173}', [0x9A, 0xC3]), ('\u{7175}', [0x97, 0xC8]), ('\u{7176}', [0xA0, 0xDB]), 
    ('\u{7177}', [0x91, 0xD0]), ('\u{7178}', [0xDE, 0x74]), ('\u{717A}', [0x9F, 0xE4]), 
    ('\u{717B}', [0xE2, 0xC1]), ('\u{717C}', [0x8F, 0xDD]), ('\u{717D}', [0xBA, 0xB4]), 
    ('\u{717E}', [0x91, 0xE9]), ('\u{7180}', [0xE2, 0xBD]), ('\u{7181}', [0xE2, 0xC3]), 
    ('\u{7182}', [0xE2, 0xBF]), ('\u{7184}', [0xBA, 0xB6]), ('\u{7185}', [0xE2, 0xBE]), 
    ('\u{7186}', [0xE2, 0xC2]), ('\u{7187}', [0xE2, 0xBA]), ('\u{7188}', [0x98, 0xE0]), 
    ('\u{7189}', [0xE2, 0xBC]), ('\u{718A}', [0xBA, 0xB5]), ('\u{718C}', [0x92, 0xCA]), 
    ('\u{718E}', [0x98, 0x57]), ('\u{718F}', [0xE2, 0xC0]), ('\u{7190}', [0xE2, 0xBB]), 
    ('\u{7191}', [0x8C, 0x51]), ('\u{7192}', [0xBA, 0xB7]), ('\u{7194}', [0xBA, 0xB2]), 
    ('\u{7196}', [0xFD, 0xEB]), ('\u{7197}', [0xE2, 0xC4]), ('\u{7198}', [0x9B, 0x49]), 
    ('\u{7199}', [0xBA, 0xB3]), ('\u{719A}', [0xE6, 0x67]), ('\u{719B}', [0xE6, 0x64]), 
    ('\u{719C}', [0xE6, 0x70]), ('\u{719D}', [0xE6, 0x6A]), ('\u{719E}', [0xE6, 0x6C]), 
    ('\u{719F}', [0xBC, 0xF4]), ('\u{71A0}', [0xE6, 0x66]), ('\u{71A1}', [0xE6, 0x6E]), 
    ('\u{71A2}', [0x9D, 0x76]), ('\u{71A3}', [0x9E, 0xAF]), ('\u{71A4}', [0xE6, 0x6D]), 
    ('\u{71A5}', [0xE6, 0x6B]), ('\u{71A7}', [0xE6, 0x71]), ('\u{71A8}', [0xBC, 0xF7]), 
    ('\u{71A9}', [0xE6, 0x68]), ('\u{71AA}', [0xE6, 0x6F]), ('\u{71AC}', [0xBC, 0xF5]), 
    ('\u{71AD}', [0x9C, 0xCC]), ('\u{71AF}', [0xE6, 0x63]), ('\u{71B0}', [0xE6, 0x65]), 
    ('\u{71B1}', [0xBC, 0xF6]), ('\u{71B2}', [0xE6, 0x62]), ('\u{71B3}', [0xE6, 0x72]), 
    ('\u{71B4}', [0xFD, 0xEA]), ('\u{71B5}', [0xE6, 0x69]), ('\u{71B7}', [0x8D, 0xF1]), 
    ('\u{71B8}', [0xEA, 0x4A]), ('\u{71B9}', [0xBF, 0x51]), ('\u{71BA}', [0xFD, 0xFB]), 
    ('\u{71BC}', [0xEA, 0x55]), ('\u{71BD}', [0xEA, 0x53]), ('\u{71BE}', [0xBF, 0x4B]), 
    ('\u{71BF}', [0xEA, 0x49]), ('\u{71C0}', [0xEA, 0x4C]), ('\u{71C1}', [0xEA, 0x4D]), 
    ('\u{71C2}', [0xEA, 0x48]), ('\u{71C3}', [0xBF, 0x55]), ('\u{71C4}', [0xBF, 0x56]), 
    ('\u{71C5}', [0xEA, 0x47]), ('\u{71C6}', [0xEA, 0x56]), ('\u{71C7}', [0xEA, 0x51]), 
    ('\u{71C8}', [0xBF, 0x4F]), ('\u{71C9}', [0xBF, 0x4C]), ('\u{71CA}', [0xEA, 0x50]), 
    ('\u{71CB}', [0xEA, 0x4E]), ('\u{71CE}', [0xBF, 0x52]), ('\u{71CF}', [0xEA, 0x52]), 
    ('\u{71D0}', [0xBF, 0x4D]), ('\u{71D1}', [0x8E, 0x53]), ('\u{71D2}', [0xBF, 0x4E]), 
    ('\u{71D4}', [0xEA, 0x4F]), ('\u{71D5}', [0xBF, 0x50]), ('\u{71D6}', [0xEA, 0x4B]), 
    ('\u{71D8}', [0xEA, 0x54]), ('\u{71D9}', [0xBF, 0x53]), ('\u{71DA}', [0xEA, 0x57]), 
    ('\u{71DB}', [0xEA, 0x58]), ('\u{71DC}', [0xBF, 0x54]), ('\u{71DD}', [0xFA, 0xCF]), 
    ('\u{71DF}', [0x9C, 0x62]), ('\u{71E0}', [0xC0, 0xEE]), ('\u{71E1}', [0xED, 0x5C]), 
    ('\u{71E2}', [0xED, 0x62]), ('\u{71E4}', [0xED, 0x60]), ('\u{71E5}', [0xC0, 0xEA]), 
    ('\u{71E6}', [0xC0, 0xE9]), ('\u{71E7}', [0xC0, 0xE6]), ('\u{71E8}', [0xED, 0x5E]), 
    ('\u{71EB}', [0x96, 0xF9]), ('\u{71EC}', [0xC0, 0xEC]), ('\u{71ED}', [0xC0, 0xEB]), 
    ('\u{71EE}', [0xC0, 0xE8]), ('\u{71F0}', [0xED, 0x61]), ('\u{71F1}', [0xED, 0x5D]), 
    ('\u{71F2}', [0xED, 0x5F]), ('\u{71F4}', [0xC0, 0xED]), ('\u{71F5}', [0x98, 0xBF]), 
    ('\u{71F6}', [0x9E, 0x49]), ('\u{71F8}', [0xC2, 0x77]), ('\u{71F9}', [0xEF, 0xFB]), 
    ('\u{71FB}', [0xC2, 0x74]), ('\u{71FC}', [0xC2, 0x75]), ('\u{71FD}', [0xEF, 0xFD]), 
    ('\u{71FE}', [0xC2, 0x76]), ('\u{71FF}', [0xEF, 0xFA]), ('\u{7200}', [0x8C, 0xA7]), 
    ('\u{7201}', [0x9B, 0x76]), ('\u{7202}', [0xF2, 0x6C]), ('\u{7203}', [0xEF, 0xFC]), 
    ('\u{7205}', [0xF2, 0x6D]), ('\u{7206}', [0xC3, 0x7A]), ('\u{7207}', [0xF2, 0x6B]), 
    ('\u{7209}', [0x9B, 0xCA]), ('\u{720A}', [0xF2, 0x6A]), ('\u{720C}', [0xF2, 0x69]), 
    ('\u{720D}', [0xC3, 0x7B]), ('\u{720E}', [0xFD, 0xFE]), ('\u{720F}', [0x92, 0xDC]), 
    ('\u{7210}', [0xC4, 0x6C]), ('\u{7213}', [0xF4, 0x6A]), ('\u{7214}', [0xF4, 0x6B]), 
    ('\u{7215}', [0xFE, 0x41]), ('\u{7216}', [0x91, 0xCC]), ('\u{7217}', [0x91, 0xE2]), 
    ('\u{7219}', [0xF5, 0xDC]), ('\u{721A}', [0xF5, 0xDB]), ('\u{721B}', [0xC4, 0xEA]), 
    ('\u{721D}', [0xF5, 0xDA]), ('\u{721E}', [0xF6, 0xEC]), ('\u{721F}', [0xF6, 0xED]), 
    ('\u{7222}', [0xF7, 0xE6]), ('\u{7223}', [0xF8, 0xB1]), ('\u{7224}', [0xFE, 0x44]), 
    ('\u{7225}', [0x87, 0x5F]), ('\u{7226}', [0xF8, 0xF6]), ('\u{7227}', [0xF9, 0xBC]), 
    ('\u{7228}', [0xC6, 0x79]), ('\u{7229}', [0xF9, 0xC6]), ('\u{722A}', [0xA4, 0xF6]), 
    ('\u{722B}', [0x8B, 0xD3]), ('\u{722C}', [0xAA, 0xA6]), ('\u{722D}', [0xAA, 0xA7]), 
    ('\u{722E}', [0xFE, 0x47]), ('\u{7230}', [0xAC, 0xB8]), ('\u{7235}', [0xC0, 0xEF]), 
    ('\u{7236}', [0xA4, 0xF7]), ('\u{7238}', [0xAA, 0xA8]), ('\u{7239}', [0xAF, 0x52]), 
    ('\u{723A}', [0xB7, 0xDD]), ('\u{723B}', [0xA4, 0xF8]), ('\u{723D}', [0xB2, 0x6E]), 
    ('\u{723E}', [0xBA, 0xB8]), ('\u{723F}', [0xC9, 0x62]), ('\u{7240}', [0xFE, 0x48]), 
    ('\u{7241}', [0xCF, 0xB7]), ('\u{7242}', [0xD2, 0x7D]), ('\u{7244}', [0xE2, 0xC5]), 
    ('\u{7246}', [0xC0, 0xF0]), ('\u{7247}', [0xA4, 0xF9]), ('\u{7248}', [0xAA, 0xA9]), 
    ('\u{7249}', [0xCF, 0xB8]), ('\u{724A}', [0xCF, 0xB9]), ('\u{724B}', [0xDA, 0x66]), 
    ('\u{724C}', [0xB5, 0x50]), ('\u{724F}', [0xDE, 0xA4]), ('\u{7250}', [0x94, 0x55]), 
    ('\u{7252}', [0xB7, 0xDE]), ('\u{7253}', [0xE2, 0xC6]), ('\u{7255}', [0xFE, 0x4B]), 
    ('\u{7256}', [0xBC, 0xF8]), ('\u{7257}', [0xFE, 0x4C]), ('\u{7258}', [0xC3, 0x7C]), 
    ('\u{7259}', [0xA4, 0xFA]), ('\u{725A}', [0xDA, 0x67]), ('\u{725B}', [0xA4, 0xFB]), 
    ('\u{725C}', [0x8D, 0xBF]), ('\u{725D}', [0xA6, 0xC9]), ('\u{725E}', [0xCA, 0x42]), 
    ('\u{725F}', [0xA6, 0xC8]), ('\u{7260}', [0xA8, 0x65]), ('\u{7261}', [0xA8, 0x64]), 
    ('\u{7262}', [0xA8, 0x63]), ('\u{7263}', [0xCB, 0x60]), ('\u{7266}', [0x9E, 0x78]), 
    ('\u{7267}', [0xAA, 0xAA]), ('\u{7269}', [0xAA, 0xAB]), ('\u{726A}', [0xCD, 0x5B]), 
    ('\u{726C}', [0xCF, 0xBA]), ('\u{726E}', [0xCF, 0xBD]), ('\u{726F}', [0xAC, 0xBA]), 
    ('\u{7270}', [0xCF, 0xBB]), ('\u{7272}', [0xAC, 0xB9]), ('\u{7273}', [0xCF, 0xBC]), 
    ('\u{7274}', [0xAC, 0xBB]), ('\u{7276}', [0xD2, 0xA2]), ('\u{7277}', [0xD2, 0xA1]), 
    ('\u{7278}', [0xD2, 0x7E]), ('\u{7279}', [0xAF, 0x53]), ('\u{727B}', [0xD6, 0x5D]), 
    ('\u{727C}', [0xD6, 0x5E]), ('\u{727D}', [0xB2, 0x6F]), ('\u{727E}', [0xD6, 0x5C]), 
    ('\u{727F}', [0xD6, 0x5F]), ('\u{7280}', [0xB5, 0x52]), ('\u{7281}', [0xB2, 0x70]), 
    ('\u{7282}', [0xFE, 0x51]), ('\u{7284}', [0xB5, 0x51]), ('\u{7285}', [0xDA, 0x6B]), 
    ('\u{7286}', [0xDA, 0x6A]), ('\u{7287}', [0x94, 0x56]), ('\u{7288}', [0xDA, 0x68]), 
    ('\u{7289}', [0xDA, 0x69]), ('\u{728B}', [0xDA, 0x6C]), ('\u{728C}', [0xDE, 0xA6]), 
    ('\u{728D}', [0xDE, 0xA5]), ('\u{728E}', [0xDE, 0xA9]), ('\u{728F}', [0x9D, 0x61]), 
    ('\u{7290}', [0xDE, 0xA8]), ('\u{7291}', [0xDE, 0xA7]), ('\u{7292}', [0xBA, 0xB9]), 
    ('\u{7293}', [0xE2, 0xC9]), ('\u{7294}', [0x94, 0x57]), ('\u{7295}', [0xE2, 0xC8]), 
    ('\u{7296}', [0xBA, 0xBA]), ('\u{7297}', [0xE2, 0xC7]), ('\u{7298}', [0xE6, 0x73]), 
    ('\u{729A}', [0xE6, 0x74]), ('\u{729B}', [0xBC, 0xF9]), ('\u{729D}', [0xEA, 0x59]), 
    ('\u{729E}', [0xEA, 0x5A]), ('\u{729F}', [0x99, 0x66]), ('\u{72A1}', [0xF2, 0x72]), 
    ('\u{72A2}', [0xC3, 0x7D]), ('\u{72A3}', [0xF2, 0x71]), ('\u{72A4}', [0xF2, 0x70]), 
    ('\u{72A5}', [0xF2, 0x6E]), ('\u{72A6}', [0xF2, 0x6F]), ('\u{72A7}', [0xC4, 0xEB]), 
    ('\u{72A8}', [0xF4, 0x6C]), ('\u{72A9}', [0xF6, 0xEE]), ('\u{72AA}', [0xF8, 0xF7]), 
    ('\u{72AC}', [0xA4, 0xFC]), ('\u{72AD}', [0x8B, 0xD5]), ('\u{72AE}', [0xC9, 0xA5]), 
    ('\u{72AF}', [0xA5, 0xC7]), ('\u{72B0}', [0xC9, 0xA6]), ('\u{72B2}', [0xA0, 0x69]), 
    ('\u{72B4}', [0xCA, 0x43]), ('\u{72B5}', [0xCA, 0x44]), ('\u{72BA}', [0xCB, 0x66]), 
    ('\u{72BD}', [0xCB, 0x62]), ('\u{72BF}', [0xCB, 0x61]), ('\u{72C0}', [0xAA, 0xAC]), 
    ('\u{72C1}', [0xCB, 0x65]), ('\u{72C2}', [0xA8, 0x67]), ('\u{72C3}', [0xCB, 0x63]), 
    ('\u{72C4}', [0xA8, 0x66]), ('\u{72C5}', [0xCB, 0x67]), ('\u{72C6}', [0xCB, 0x64]), 
    ('\u{72C9}', [0xCD, 0x5F]), ('\u{72CA}', [0xCF, 0xBE]), ('\u{72CB}', [0xCD, 0x5D]), 
    ('\u{72CC}', [0xCD, 0x64]), ('\u{72CD}', [0x98, 0xB4]), ('\u{72CE}', [0xAA, 0xAD]), 
    ('\u{72D0}', [0xAA, 0xB0]), ('\u{72D1}', [0xCD, 0x65]), ('\u{72D2}', [0xCD, 0x61]), 
    ('\u{72D4}', [0xCD, 0x62]), ('\u{72D6}', [0xCD, 0x5C]), ('\u{72D7}', [0xAA, 0xAF]), 
    ('\u{72D8}', [0xCD, 0x5E]), ('\u{72D9}', [0xAA, 0xAE]), ('\u{72DA}', [0xCD, 0x63]), 
    ('\u{72DC}', [0xCD, 0x60]), ('\u{72DF}', [0xCF, 0xC2]), ('\u{72E0}', [0xAC, 0xBD]), 
    ('\u{72E1}', [0xAC, 0xBE]), ('\u{72E2}', [0xA0, 0x49]), ('\u{72E3}', [0xCF, 0xC5]), 
    ('\u{72E4}', [0xCF, 0xBF]), ('\u{72E6}', [0xCF, 0xC4]), ('\u{72E8}', [0xCF, 0xC0]), 
    ('\u{72E9}', [0xAC, 0xBC]), ('\u{72EA}', [0xCF, 0xC3]), ('\u{72EB}', [0xCF, 0xC1]), 
    ('\u{72F3}', [0xD2, 0xA8]), ('\u{72F4}', [0xD2, 0xA5]), ('\u{72F6}', [0xD2, 0xA7]), 
    ('\u{72F7}', [0xAF, 0x58]), ('\u{72F8}', [0xAF, 0x57]), ('\u{72F9}', [0xAF, 0x55]), 
    ('\u{72FA}', [0xD2, 0xA4]), ('\u{72FB}', [0xD2, 0xA9]), ('\u{72FC}', [0xAF, 0x54]), 
    ('\u{72FD}', [0xAF, 0x56]), ('\u{72FE}', [0xD2, 0xA6]), ('\u{72FF}', [0xD6, 0x67]), 
    ('\u{7300}', [0xD2, 0xA3]), ('\u{7301}', [0xD2, 0xAA]), ('\u{7302}', [0xA0, 0x4C]), 
    ('\u{7304}', [0x9E, 0x65]), ('\u{7307}', [0xD6, 0x62]), ('\u{7308}', [0xD6, 0x66]), 
    ('\u{730A}', [0xD6, 0x65]), ('\u{730B}', [0xDA, 0x6E]), ('\u{730C}', [0xDA, 0x79]), 
    ('\u{730F}', [0xD6, 0x68]), ('\u{7310}', [0x98, 0xB5]), ('\u{7311}', [0xD6, 0x63]), 
    ('\u{7312}', [0xDA, 0x6D]), ('\u{7313}', [0xB2, 0x74]), ('\u{7316}', [0xB2, 0x73]), 
    ('\u{7317}', [0xD6, 0x61]), ('\u{7318}', [0xD6, 0x64]), ('\u{7319}', [0xB2, 0x75]), 
    ('\u{731B}', [0xB2, 0x72]), ('\u{731C}', [0xB2, 0x71]), ('\u{731D}', [0xD6, 0x60]), 
"#

/-- src/generated/whatwg/big5_whatwg_tables.rs.inc:5297-5424 -/
noncomputable def encode22 : List Text := lines! r#"    ('\u{731E}', [0xD6, 0x69]), ('\u{7322}', [0xDA, 0x70]), ('\u{7323}', [0xDA, 0x77]), 
    ('\u{7325}', [0xB5, 0x54]), ('\u{7326}', [0xDA, 0x76]), ('\u{7327}', [0xDA, 0x73]), 
    ('\u{7328}', [0xFE, 0x58]), ('\u{7329}', [0xB5, 0x56]), ('\u{732A}', [0x99, 0x75]), 
    ('\u{732B}', [0xFE, 0x53]), ('\u{732C}', [0xA0, 0x65]), ('\u{732D}', [0xDA, 0x75]), 
    ('\u{732E}', [0xFE, 0x59]), ('\u{7330}', [0xDA, 0x6F]), ('\u{7331}', [0xDA, 0x71]), 
    ('\u{7332}', [0xDA, 0x74]), ('\u{7333}', [0xDA, 0x72]), ('\u{7334}', [0xB5, 0x55]), 
    ('\u{7335}', [0xDA, 0x78]), ('\u{7336}', [0xB5, 0x53]), ('\u{7337}', [0xB7, 0xDF]), 
    ('\u{7338}', [0x98, 0xB7]), ('\u{7339}', [0x98, 0xB8]), ('\u{733A}', [0xDE, 0xAD]), 
    ('\u{733B}', [0xDE, 0xAC]), ('\u{733C}', [0xDE, 0xAA]), ('\u{733E}', [0xB7, 0xE2]), 
    ('\u{733F}', [0xB7, 0xE1]), ('\u{7340}', [0xDE, 0xAE]), ('\u{7341}', [0x98, 0xBA]), 
    ('\u{7342}', [0xDE, 0xAB]), ('\u{7343}', [0xE2, 0xCA]), ('\u{7344}', [0xBA, 0xBB]), 
    ('\u{7345}', [0xB7, 0xE0]), ('\u{7348}', [0x98, 0xBB]), ('\u{7349}', [0xDE, 0xB0]), 
    ('\u{734A}', [0xDE, 0xAF]), ('\u{734C}', [0xE2, 0xCD]), ('\u{734D}', [0xE2, 0xCB]), 
    ('\u{734E}', [0xBC, 0xFA]), ('\u{734F}', [0x9F, 0xBC]), ('\u{7350}', [0xBA, 0xBC]), 
    ('\u{7351}', [0xE2, 0xCC]), ('\u{7352}', [0xE6, 0x76]), ('\u{7357}', [0xBC, 0xFB]), 
    ('\u{7358}', [0xE6, 0x75]), ('\u{7359}', [0xE6, 0x7E]), ('\u{735A}', [0xE6, 0x7D]), 
    ('\u{735B}', [0xE6, 0x7B]), ('\u{735D}', [0xE6, 0x7A]), ('\u{735E}', [0xE6, 0x77]), 
    ('\u{735F}', [0xE6, 0x78]), ('\u{7360}', [0xE6, 0x79]), ('\u{7361}', [0xE6, 0x7C]), 
    ('\u{7362}', [0xE6, 0xA1]), ('\u{7365}', [0xEA, 0x5F]), ('\u{7366}', [0xEA, 0x5C]), 
    ('\u{7367}', [0xEA, 0x5D]), ('\u{7368}', [0xBF, 0x57]), ('\u{7369}', [0xEA, 0x5B]), 
    ('\u{736A}', [0xEA, 0x61]), ('\u{736B}', [0xEA, 0x60]), ('\u{736C}', [0xEA, 0x5E]), 
    ('\u{736E}', [0xED, 0x64]), ('\u{736F}', [0xED, 0x65]), ('\u{7370}', [0xC0, 0xF1]), 
    ('\u{7371}', [0xA0, 0x4A]), ('\u{7372}', [0xC0, 0xF2]), ('\u{7373}', [0xED, 0x63]), 
    ('\u{7374}', [0x9E, 0xC7]), ('\u{7375}', [0xC2, 0x79]), ('\u{7376}', [0xEF, 0xFE]), 
    ('\u{7377}', [0xC2, 0x78]), ('\u{7378}', [0xC3, 0x7E]), ('\u{737A}', [0xC3, 0xA1]), 
    ('\u{737B}', [0xC4, 0x6D]), ('\u{737C}', [0xF4, 0x6E]), ('\u{737D}', [0xF4, 0x6D]), 
    ('\u{737E}', [0xF5, 0xDD]), ('\u{737F}', [0xF6, 0xEF]), ('\u{7380}', [0xC5, 0x7A]), 
    ('\u{7381}', [0xF7, 0xE8]), ('\u{7382}', [0xF7, 0xE7]), ('\u{7383}', [0xF7, 0xE9]), 
    ('\u{7384}', [0xA5, 0xC8]), ('\u{7385}', [0xCF, 0xC6]), ('\u{7386}', [0xAF, 0x59]), 
    ('\u{7387}', [0xB2, 0x76]), ('\u{7388}', [0xD6, 0x6A]), ('\u{7389}', [0xA5, 0xC9]), 
    ('\u{738A}', [0xC9, 0xA7]), ('\u{738B}', [0xA4, 0xFD]), ('\u{738C}', [0x8C, 0xA9]), 
    ('\u{738E}', [0xCA, 0x45]), ('\u{738F}', [0x98, 0xAE]), ('\u{7392}', [0xCB, 0x6C]), 
    ('\u{7393}', [0xCB, 0x6A]), ('\u{7394}', [0xCB, 0x6B]), ('\u{7395}', [0xCB, 0x68]), 
    ('\u{7396}', [0xA8, 0x68]), ('\u{7397}', [0xCB, 0x69]), ('\u{7398}', [0x92, 0xD6]), 
    ('\u{739C}', [0xFA, 0xE1]), ('\u{739D}', [0xCD, 0x6D]), ('\u{739E}', [0x91, 0xD4]), 
    ('\u{739F}', [0xAA, 0xB3]), ('\u{73A0}', [0xCD, 0x6B]), ('\u{73A1}', [0xCD, 0x67]), 
    ('\u{73A2}', [0xCD, 0x6A]), ('\u{73A4}', [0xCD, 0x66]), ('\u{73A5}', [0xAA, 0xB5]), 
    ('\u{73A6}', [0xCD, 0x69]), ('\u{73A7}', [0xFA, 0xDE]), ('\u{73A8}', [0xAA, 0xB2]), 
    ('\u{73A9}', [0xAA, 0xB1]), ('\u{73AA}', [0xFE, 0x5B]), ('\u{73AB}', [0xAA, 0xB4]), 
    ('\u{73AC}', [0xCD, 0x6C]), ('\u{73AD}', [0xCD, 0x68]), ('\u{73B2}', [0xAC, 0xC2]), 
    ('\u{73B3}', [0xAC, 0xC5]), ('\u{73B4}', [0xCF, 0xCE]), ('\u{73B5}', [0xCF, 0xCD]), 
    ('\u{73B6}', [0xCF, 0xCC]), ('\u{73B7}', [0xAC, 0xBF]), ('\u{73B8}', [0xCF, 0xD5]), 
    ('\u{73B9}', [0xCF, 0xCB]), ('\u{73BA}', [0x8C, 0x53]), ('\u{73BB}', [0xAC, 0xC1]), 
    ('\u{73BC}', [0xD2, 0xAF]), ('\u{73BE}', [0xCF, 0xD2]), ('\u{73BF}', [0xCF, 0xD0]), 
    ('\u{73C0}', [0xAC, 0xC4]), ('\u{73C2}', [0xCF, 0xC8]), ('\u{73C3}', [0xCF, 0xD3]), 
    ('\u{73C4}', [0x87, 0xBF]), ('\u{73C5}', [0xCF, 0xCA]), ('\u{73C6}', [0xCF, 0xD4]), 
    ('\u{73C7}', [0xCF, 0xD1]), ('\u{73C8}', [0xCF, 0xC9]), ('\u{73C9}', [0xFE, 0x5E]), 
    ('\u{73CA}', [0xAC, 0xC0]), ('\u{73CB}', [0xCF, 0xD6]), ('\u{73CC}', [0xCF, 0xC7]), 
    ('\u{73CD}', [0xAC, 0xC3]), ('\u{73CE}', [0xFB, 0xD7]), ('\u{73CF}', [0xFE, 0x5A]), 
    ('\u{73D0}', [0x94, 0xC5]), ('\u{73D2}', [0xD2, 0xB4]), ('\u{73D3}', [0xD2, 0xAB]), 
    ('\u{73D4}', [0xD2, 0xB6]), ('\u{73D5}', [0xFA, 0xCA]), ('\u{73D6}', [0xD2, 0xAE]), 
    ('\u{73D7}', [0xD2, 0xB9]), ('\u{73D8}', [0xD2, 0xBA]), ('\u{73D9}', [0xD2, 0xAC]), 
    ('\u{73DA}', [0xD2, 0xB8]), ('\u{73DB}', [0xD2, 0xB5]), ('\u{73DC}', [0xD2, 0xB3]), 
    ('\u{73DD}', [0xD2, 0xB7]), ('\u{73DE}', [0xAF, 0x5F]), ('\u{73E0}', [0xAF, 0x5D]), 
    ('\u{73E1}', [0x98, 0xC1]), ('\u{73E2}', [0x97, 0x5C]), ('\u{73E3}', [0xD2, 0xB1]), 
    ('\u{73E4}', [0xFE, 0x74]), ('\u{73E5}', [0xD2, 0xAD]), ('\u{73E6}', [0x97, 0x73]), 
    ('\u{73E7}', [0xD2, 0xB0]), ('\u{73E8}', [0xD2, 0xBB]), ('\u{73E9}', [0xD2, 0xB2]), 
    ('\u{73EA}', [0xAF, 0x5E]), ('\u{73EB}', [0xCF, 0xCF]), ('\u{73ED}', [0xAF, 0x5A]), 
    ('\u{73EE}', [0xAF, 0x5C]), ('\u{73EF}', [0xFA, 0x46]), ('\u{73F3}', [0x97, 0x64]), 
    ('\u{73F4}', [0xD6, 0x78]), ('\u{73F5}', [0xD6, 0x6D]), ('\u{73F6}', [0xD6, 0x6B]), 
    ('\u{73F7}', [0xFE, 0x68]), ('\u{73F8}', [0xD6, 0x6C]), ('\u{73F9}', [0x96, 0x4E]), 
    ('\u{73FA}', [0xD6, 0x73]), ('\u{73FB}', [0x97, 0x65]), ('\u{73FC}', [0xD6, 0x74]), 
    ('\u{73FD}', [0xD6, 0x70]), ('\u{73FE}', [0xB2, 0x7B]), ('\u{73FF}', [0xD6, 0x75]), 
    ('\u{7400}', [0xD6, 0x72]), ('\u{7401}', [0xD6, 0x6F]), ('\u{7402}', [0x8C, 0x5A]), 
    ('\u{7403}', [0xB2, 0x79]), ('\u{7404}', [0xD6, 0x6E]), ('\u{7405}', [0xB2, 0x77]), 
    ('\u{7406}', [0xB2, 0x7A]), ('\u{7407}', [0xD6, 0x71]), ('\u{7408}', [0xD6, 0x79]), 
    ('\u{7409}', [0xAF, 0x5B]), ('\u{740A}', [0xB2, 0x78]), ('\u{740B}', [0xD6, 0x77]), 
    ('\u{740C}', [0xD6, 0x76]), ('\u{740D}', [0xB2, 0x7C]), ('\u{7411}', [0x89, 0xA1]), 
    ('\u{7412}', [0x95, 0xFA]), ('\u{7414}', [0x92, 0xD4]), ('\u{7415}', [0xFE, 0x69]), 
    ('\u{7416}', [0xDA, 0x7E]), ('\u{7417}', [0xFB, 0x45]), ('\u{7419}', [0x98, 0xC8]), 
    ('\u{741A}', [0xDA, 0xA1]), ('\u{741B}', [0xB5, 0x60]), ('\u{741C}', [0x90, 0xEF]), 
    ('\u{741D}', [0xDA, 0xA7]), ('\u{741E}', [0x98, 0xC9]), ('\u{741F}', [0x98, 0xCA]), 
    ('\u{7420}', [0xDA, 0xA9]), ('\u{7421}', [0xDA, 0xA2]), ('\u{7422}', [0xB5, 0x5A]), 
    ('\u{7423}', [0xDA, 0xA6]), ('\u{7424}', [0xDA, 0xA5]), ('\u{7425}', [0xB5, 0x5B]), 
    ('\u{7426}', [0xB5, 0x61]), ('\u{7428}', [0xB5, 0x62]), ('\u{7429}', [0xDA, 0xA8]), 
    ('\u{742A}', [0xB5, 0x58]), ('\u{742B}', [0xDA, 0x7D]), ('\u{742C}', [0xDA, 0x7B]), 
    ('\u{742D}', [0xDA, 0xA3]), ('\u{742E}', [0xDA, 0x7A]), ('\u{742F}', [0xB5, 0x5F]), 
    ('\u{7430}', [0xDA, 0x7C]), ('\u{7431}', [0xDA, 0xA4]), ('\u{7432}', [0xDA, 0xAA]), 
    ('\u{7433}', [0xB5, 0x59]), ('\u{7434}', [0xB5, 0x5E]), ('\u{7435}', [0xB5, 0x5C]), 
    ('\u{7436}', [0xB5, 0x5D]), ('\u{7437}', [0x94, 0x6D]), ('\u{7438}', [0x94, 0xB7]), 
    ('\u{7439}', [0xFE, 0x6C]), ('\u{743A}', [0xB5, 0x57]), ('\u{743C}', [0x94, 0x6B]), 
    ('\u{743F}', [0xB7, 0xE9]), ('\u{7440}', [0xDE, 0xB7]), ('\u{7441}', [0xB7, 0xE8]), 
    ('\u{7442}', [0xDE, 0xBB]), ('\u{7443}', [0x92, 0xFC]), ('\u{7444}', [0xDE, 0xB1]), 
    ('\u{7445}', [0x95, 0xEB]), ('\u{7446}', [0xDE, 0xBC]), ('\u{7447}', [0xFE, 0x73]), 
    ('\u{7448}', [0x97, 0x6E]), ('\u{7449}', [0xFE, 0x5F]), ('\u{744A}', [0xDE, 0xB2]), 
    ('\u{744B}', [0xDE, 0xB3]), ('\u{744C}', [0x87, 0xB8]), ('\u{744D}', [0xDE, 0xBD]), 
    ('\u{744E}', [0xDE, 0xBA]), ('\u{744F}', [0xDE, 0xB8]), ('\u{7450}', [0xDE, 0xB9]), 
    ('\u{7451}', [0xDE, 0xB5]), ('\u{7452}', [0xDE, 0xB4]), ('\u{7453}', [0xFD, 0xBD]), 
    ('\u{7454}', [0xDE, 0xBE]), ('\u{7455}', [0xB7, 0xE5]), ('\u{7456}', [0x92, 0xD5]), 
    ('\u{7457}', [0xDE, 0xB6]), ('\u{7459}', [0xB7, 0xEA]), ('\u{745A}', [0xB7, 0xE4]), 
    ('\u{745B}', [0xB7, 0xEB]), ('\u{745C}', [0xB7, 0xEC]), ('\u{745D}', [0xFE, 0xB9]), 
    ('\u{745E}', [0xB7, 0xE7]), ('\u{745F}', [0xB7, 0xE6]), ('\u{7460}', [0xFE, 0x71]), 
    ('\u{7461}', [0x87, 0x78]), ('\u{7462}', [0xE2, 0xCE]), ('\u{7463}', [0xBA, 0xBE]), 
    ('\u{7464}', [0xBA, 0xBD]), ('\u{7465}', [0xFB, 0xBB]), ('\u{7467}', [0xE2, 0xD3]), 
    ('\u{7468}', [0x94, 0x7A]), ('\u{7469}', [0xBC, 0xFC]), ('\u{746A}', [0xBA, 0xBF]), 
    ('\u{746B}', [0x95, 0xFB]), ('\u{746C}', [0xFE, 0x77]), ('\u{746D}', [0xBA, 0xC1]), 
    ('\u{746E}', [0xE2, 0xD4]), ('\u{746F}', [0xB7, 0xE3]), ('\u{7470}', [0xBA, 0xC0]), 
    ('\u{7471}', [0xE2, 0xD0]), ('\u{7472}', [0xE2, 0xD2]), ('\u{7473}', [0xE2, 0xCF]), 
    ('\u{7474}', [0xFE, 0x79]), ('\u{7475}', [0xE2, 0xD1]), ('\u{7476}', [0xFE, 0x75]), 
    ('\u{7479}', [0x92, 0xD1]), ('\u{747A}', [0x94, 0x5D]), ('\u{747C}', [0xE6, 0xAA]), 
    ('\u{747D}', [0xE6, 0xA7]), ('\u{747E}', [0xBD, 0x40]), ('\u{747F}', [0xEA, 0x62]), 
    ('\u{7480}', [0xBD, 0x41]), ('\u{7481}', [0xE6, 0xA6]), ('\u{7482}', [0xFE, 0x7C]), 
    ('\u{7483}', [0xBC, 0xFE]), ('\u{7485}', [0xE6, 0xA8]), ('\u{7486}', [0xE6, 0xA5]), 
    ('\u{7487}', [0xE6, 0xA2]), ('\u{7488}', [0xE6, 0xA9]), ('\u{7489}', [0xE6, 0xA3]), 
    ('\u{748A}', [0xE6, 0xA4]), ('\u{748B}', [0xBC, 0xFD]), ('\u{748C}', [0x93, 0x44]), 
    ('\u{748D}', [0x8E, 0xA6]), ('\u{7490}', [0xED, 0x69]), ('\u{7492}', [0xEA, 0x66]), 
    ('\u{7494}', [0xEA, 0x65]), ('\u{7495}', [0xEA, 0x67]), ('\u{7497}', [0xED, 0x66]), 
    ('\u{7498}', [0xBF, 0x5A]), ('\u{7499}', [0x92, 0xD3]), ('\u{749A}', [0xEA, 0x63]), 
    ('\u{749B}', [0x94, 0xB8]), ('\u{749C}', [0xBF, 0x58]), ('\u{749D}', [0x87, 0x79]), 
    ('\u{749E}', [0xBF, 0x5C]), ('\u{749F}', [0xBF, 0x5B]), ('\u{74A0}', [0xEA, 0x64]), 
    ('\u{74A1}', [0xEA, 0x68]), ('\u{74A3}', [0xBF, 0x59]), ('\u{74A4}', [0xFC, 0x71]), 
    ('\u{74A5}', [0xED, 0x6D]), ('\u{74A6}', [0xC0, 0xF5]), ('\u{74A7}', [0xC2, 0x7A]), 
    ('\u{74A8}', [0xC0, 0xF6]), ('\u{74A9}', [0xC0, 0xF3]), ('\u{74AA}', [0xED, 0x6A]), 
    ('\u{74AB}', [0xED, 0x68]), ('\u{74AD}', [0xED, 0x6B]), ('\u{74AF}', [0xED, 0x6E]), 
    ('\u{74B0}', [0xC0, 0xF4]), ('\u{74B1}', [0xED, 0x6C]), ('\u{74B2}', [0xED, 0x67]), 
    ('\u{74B4}', [0x97, 0x5E]), ('\u{74B5}', [0xF0, 0x42]), ('\u{74B6}', [0xF0, 0x45]), 
    ('\u{74B7}', [0xF2, 0x75]), ('\u{74B8}', [0xF0, 0x40]), ('\u{74B9}', [0x8C, 0xAD]), 
    ('\u{74BA}', [0xF4, 0x6F]), ('\u{74BB}', [0xF0, 0x46]), ('\u{74BD}', [0xC3, 0xA2]), 
    ('\u{74BE}', [0xF0, 0x44]), ('\u{74BF}', [0xC2, 0x7B]), ('\u{74C0}', [0xF0, 0x41]), 
    ('\u{74C1}', [0xF0, 0x43]), ('\u{74C2}', [0xF0, 0x47]), ('\u{74C3}', [0xF2, 0x76]), 
    ('\u{74C5}', [0xF2, 0x74]), ('\u{74C6}', [0x87, 0xC1]), ('\u{74C8}', [0xFE, 0xA7]), 
    ('\u{74CA}', [0xC3, 0xA3]), ('\u{74CB}', [0xF2, 0x73]), ('\u{74CC}', [0x94, 0x6A]), 
    ('\u{74CF}', [0xC4, 0x6E]), ('\u{74D0}', [0x93, 0xE3]), ('\u{74D3}', [0x98, 0xCF]), 
    ('\u{74D4}', [0xC4, 0xED]), ('\u{74D5}', [0xF6, 0xF1]), ('\u{74D6}', [0xC4, 0xEC]), 
    ('\u{74D7}', [0xF6, 0xF3]), ('\u{74D8}', [0xF6, 0xF0]), ('\u{74D9}', [0xF6, 0xF2]), 
    ('\u{74DA}', [0xC5, 0xD0]), ('\u{74DB}', [0xF8, 0xB2]), ('\u{74DC}', [0xA5, 0xCA]), 
    ('\u{74DD}', [0xCD, 0x6E]), ('\u{74DE}', [0xD2, 0xBC]), ('\u{74DF}', [0xD2, 0xBD]), 
    ('\u{74E0}', [0xB2, 0x7D]), ('\u{74E1}', [0xDE, 0xBF]), ('\u{74E2}', [0xBF, 0x5D]), 
"#

/-- src/generated/whatwg/big5_whatwg_tables.rs.inc:5425-5552 -/
noncomputable def encode23 : List Text := lines! r#"    ('\u{74E3}', [0xC3, 0xA4]), ('\u{74E4}', [0xC5, 0x7B]), ('\u{74E5}', [0xF8, 0xB3]), 
    ('\u{74E6}', [0xA5, 0xCB]), ('\u{74E7}', [0xA0, 0xD9]), ('\u{74E8}', [0xCD, 0x6F]), 
    ('\u{74E9}', [0xA2, 0x60]), ('\u{74EC}', [0xCF, 0xD7]), ('\u{74EE}', [0xCF, 0xD8]), 
    ('\u{74F0}', [0xA0, 0xBF]), ('\u{74F1}', [0xA0, 0x4D]), ('\u{74F2}', [0xA0, 0xB8]), 
    ('\u{74F4}', [0xD2, 0xBE]), ('\u{74F5}', [0xD2, 0xBF]), ('\u{74F6}', [0xB2, 0x7E]), 
    ('\u{74F7}', [0xB2, 0xA1]), ('\u{74F8}', [0xA0, 0xCE]), ('\u{74FB}', [0xDA, 0xAB]), 
    ('\u{74FD}', [0xDE, 0xC2]), ('\u{74FE}', [0xDE, 0xC1]), ('\u{74FF}', [0xDE, 0xC0]), 
    ('\u{7500}', [0xE2, 0xD5]), ('\u{7502}', [0xE2, 0xD6]), ('\u{7503}', [0xE2, 0xD7]), 
    ('\u{7504}', [0xBA, 0xC2]), ('\u{7505}', [0xA0, 0xB7]), ('\u{7507}', [0xE6, 0xAD]), 
    ('\u{7508}', [0xE6, 0xAC]), ('\u{750B}', [0xEA, 0x69]), ('\u{750C}', [0xBF, 0x5E]), 
    ('\u{750D}', [0xBF, 0x5F]), ('\u{750E}', [0xFE, 0xA9]), ('\u{750F}', [0xED, 0x72]), 
    ('\u{7510}', [0xED, 0x6F]), ('\u{7511}', [0xED, 0x70]), ('\u{7512}', [0xED, 0x71]), 
    ('\u{7513}', [0xF0, 0x49]), ('\u{7514}', [0xF0, 0x48]), ('\u{7515}', [0xC2, 0x7C]), 
    ('\u{7516}', [0xF2, 0x77]), ('\u{7517}', [0xF5, 0xDE]), ('\u{7518}', [0xA5, 0xCC]), 
    ('\u{7519}', [0x89, 0xC3]), ('\u{751A}', [0xAC, 0xC6]), ('\u{751C}', [0xB2, 0xA2]), 
    ('\u{751D}', [0xDE, 0xC3]), ('\u{751E}', [0xFE, 0xAB]), ('\u{751F}', [0xA5, 0xCD]), 
    ('\u{7521}', [0xD2, 0xC0]), ('\u{7522}', [0xB2, 0xA3]), ('\u{7525}', [0xB5, 0x63]), 
    ('\u{7526}', [0xB5, 0x64]), ('\u{7528}', [0xA5, 0xCE]), ('\u{7529}', [0xA5, 0xCF]), 
    ('\u{752A}', [0xCA, 0x46]), ('\u{752B}', [0xA8, 0x6A]), ('\u{752C}', [0xA8, 0x69]), 
    ('\u{752D}', [0xAC, 0xC7]), ('\u{752E}', [0xCF, 0xD9]), ('\u{752F}', [0xDA, 0xAC]), 
    ('\u{7530}', [0xA5, 0xD0]), ('\u{7531}', [0xA5, 0xD1]), ('\u{7532}', [0xA5, 0xD2]), 
    ('\u{7533}', [0xA5, 0xD3]), ('\u{7534}', [0x9D, 0xF4]), ('\u{7535}', [0x89, 0x6D]), 
    ('\u{7537}', [0xA8, 0x6B]), ('\u{7538}', [0xA8, 0x6C]), ('\u{7539}', [0xCB, 0x6E]), 
    ('\u{753A}', [0xCB, 0x6D]), ('\u{753B}', [0x9C, 0x7B]), ('\u{753D}', [0xAA, 0xB6]), 
    ('\u{753E}', [0xCD, 0x72]), ('\u{753F}', [0xCD, 0x70]), ('\u{7540}', [0xCD, 0x71]), 
    ('\u{7542}', [0x98, 0xD2]), ('\u{7546}', [0x9F, 0xA9]), ('\u{7547}', [0xCF, 0xDA]), 
    ('\u{7548}', [0xCF, 0xDB]), ('\u{754A}', [0xFE, 0xB2]), ('\u{754B}', [0xAC, 0xCB]), 
    ('\u{754C}', [0xAC, 0xC9]), ('\u{754D}', [0xFE, 0xB1]), ('\u{754E}', [0xAC, 0xCA]), 
    ('\u{754F}', [0xAC, 0xC8]), ('\u{7551}', [0x97, 0xD9]), ('\u{7553}', [0xA0, 0xC4]), 
    ('\u{7554}', [0xAF, 0x60]), ('\u{7555}', [0x94, 0x76]), ('\u{7559}', [0xAF, 0x64]), 
    ('\u{755A}', [0xAF, 0x63]), ('\u{755B}', [0xD2, 0xC1]), ('\u{755C}', [0xAF, 0x62]), 
    ('\u{755D}', [0xAF, 0x61]), ('\u{755F}', [0xD2, 0xC2]), ('\u{7560}', [0x99, 0x78]), 
    ('\u{7562}', [0xB2, 0xA6]), ('\u{7563}', [0xD6, 0x7B]), ('\u{7564}', [0xD6, 0x7A]), 
    ('\u{7565}', [0xB2, 0xA4]), ('\u{7566}', [0xB2, 0xA5]), ('\u{7567}', [0xFE, 0xB3]), 
    ('\u{756A}', [0xB5, 0x66]), ('\u{756B}', [0xB5, 0x65]), ('\u{756C}', [0xDA, 0xAE]), 
    ('\u{756D}', [0x98, 0xD3]), ('\u{756E}', [0xFE, 0xB4]), ('\u{756F}', [0xDA, 0xAD]), 
    ('\u{7570}', [0xB2, 0xA7]), ('\u{7572}', [0x98, 0xD4]), ('\u{7576}', [0xB7, 0xED]), 
    ('\u{7577}', [0xDE, 0xC5]), ('\u{7578}', [0xB7, 0xEE]), ('\u{7579}', [0xDE, 0xC4]), 
    ('\u{757A}', [0x9F, 0xB9]), ('\u{757D}', [0xE2, 0xD8]), ('\u{757E}', [0xE6, 0xAE]), 
    ('\u{757F}', [0xBD, 0x42]), ('\u{7580}', [0xEA, 0x6A]), ('\u{7583}', [0x94, 0x71]), 
    ('\u{7584}', [0xED, 0x73]), ('\u{7586}', [0xC3, 0xA6]), ('\u{7587}', [0xC3, 0xA5]), 
    ('\u{758A}', [0xC5, 0x7C]), ('\u{758B}', [0xA5, 0xD4]), ('\u{758C}', [0xCD, 0x73]), 
    ('\u{758D}', [0x98, 0xD5]), ('\u{758E}', [0xFE, 0xB8]), ('\u{758F}', [0xB2, 0xA8]), 
    ('\u{7590}', [0xE2, 0xD9]), ('\u{7591}', [0xBA, 0xC3]), ('\u{7592}', [0xC6, 0xD4]), 
    ('\u{7594}', [0xCB, 0x6F]), ('\u{7595}', [0xCB, 0x70]), ('\u{7598}', [0xCD, 0x74]), 
    ('\u{7599}', [0xAA, 0xB8]), ('\u{759A}', [0xAA, 0xB9]), ('\u{759D}', [0xAA, 0xB7]), 
    ('\u{759E}', [0xFE, 0xBA]), ('\u{75A2}', [0xAC, 0xCF]), ('\u{75A3}', [0xAC, 0xD0]), 
    ('\u{75A4}', [0xAC, 0xCD]), ('\u{75A5}', [0xAC, 0xCE]), ('\u{75A7}', [0xCF, 0xDC]), 
    ('\u{75AA}', [0xCF, 0xDD]), ('\u{75AB}', [0xAC, 0xCC]), ('\u{75B0}', [0xD2, 0xC3]), 
    ('\u{75B1}', [0x9E, 0x5C]), ('\u{75B2}', [0xAF, 0x68]), ('\u{75B3}', [0xAF, 0x69]), 
    ('\u{75B4}', [0xFE, 0xBB]), ('\u{75B5}', [0xB2, 0xAB]), ('\u{75B6}', [0xD2, 0xC9]), 
    ('\u{75B8}', [0xAF, 0x6E]), ('\u{75B9}', [0xAF, 0x6C]), ('\u{75BA}', [0xD2, 0xCA]), 
    ('\u{75BB}', [0xD2, 0xC5]), ('\u{75BC}', [0xAF, 0x6B]), ('\u{75BD}', [0xAF, 0x6A]), 
    ('\u{75BE}', [0xAF, 0x65]), ('\u{75BF}', [0xD2, 0xC8]), ('\u{75C0}', [0xD2, 0xC7]), 
    ('\u{75C1}', [0xD2, 0xC4]), ('\u{75C2}', [0xAF, 0x6D]), ('\u{75C3}', [0xA0, 0x44]), 
    ('\u{75C4}', [0xD2, 0xC6]), ('\u{75C5}', [0xAF, 0x66]), ('\u{75C7}', [0xAF, 0x67]), 
    ('\u{75C8}', [0x98, 0xD7]), ('\u{75CA}', [0xB2, 0xAC]), ('\u{75CB}', [0xD6, 0xA1]), 
    ('\u{75CC}', [0xD6, 0xA2]), ('\u{75CD}', [0xB2, 0xAD]), ('\u{75CE}', [0xD6, 0x7C]), 
    ('\u{75CF}', [0xD6, 0x7E]), ('\u{75D0}', [0xD6, 0xA4]), ('\u{75D1}', [0xD6, 0xA3]), 
    ('\u{75D2}', [0xD6, 0x7D]), ('\u{75D4}', [0xB2, 0xA9]), ('\u{75D5}', [0xB2, 0xAA]), 
    ('\u{75D7}', [0xDA, 0xB6]), ('\u{75D8}', [0xB5, 0x6B]), ('\u{75D9}', [0xB5, 0x6A]), 
    ('\u{75DA}', [0xDA, 0xB0]), ('\u{75DB}', [0xB5, 0x68]), ('\u{75DC}', [0x98, 0xD8]), 
    ('\u{75DD}', [0xDA, 0xB3]), ('\u{75DE}', [0xB5, 0x6C]), ('\u{75DF}', [0xDA, 0xB4]), 
    ('\u{75E0}', [0xB5, 0x6D]), ('\u{75E1}', [0xDA, 0xB1]), ('\u{75E2}', [0xB5, 0x67]), 
    ('\u{75E3}', [0xB5, 0x69]), ('\u{75E4}', [0xDA, 0xB5]), ('\u{75E6}', [0xDA, 0xB2]), 
    ('\u{75E7}', [0xDA, 0xAF]), ('\u{75ED}', [0xDE, 0xD2]), ('\u{75EF}', [0xDE, 0xC7]), 
    ('\u{75F0}', [0xB7, 0xF0]), ('\u{75F1}', [0xB7, 0xF3]), ('\u{75F2}', [0xB7, 0xF2]), 
    ('\u{75F3}', [0xB7, 0xF7]), ('\u{75F4}', [0xB7, 0xF6]), ('\u{75F5}', [0xDE, 0xD3]), 
    ('\u{75F6}', [0xDE, 0xD1]), ('\u{75F7}', [0xDE, 0xCA]), ('\u{75F8}', [0xDE, 0xCE]), 
    ('\u{75F9}', [0x9E, 0xEF]), ('\u{75FA}', [0xB7, 0xF4]), ('\u{75FB}', [0xDE, 0xD0]), 
    ('\u{75FC}', [0xDE, 0xCC]), ('\u{75FD}', [0xDE, 0xD4]), ('\u{75FE}', [0xDE, 0xCB]), 
    ('\u{75FF}', [0xB7, 0xF5]), ('\u{7600}', [0xB7, 0xEF]), ('\u{7601}', [0xB7, 0xF1]), 
    ('\u{7602}', [0xFE, 0xBC]), ('\u{7603}', [0xDE, 0xC9]), ('\u{7607}', [0x9F, 0xFE]), 
    ('\u{7608}', [0xE2, 0xDB]), ('\u{7609}', [0xBA, 0xC7]), ('\u{760A}', [0xE2, 0xDF]), 
    ('\u{760B}', [0xBA, 0xC6]), ('\u{760C}', [0xE2, 0xDC]), ('\u{760D}', [0xBA, 0xC5]), 
    ('\u{760F}', [0xDE, 0xC8]), ('\u{7610}', [0xDE, 0xCF]), ('\u{7611}', [0xE2, 0xDE]), 
    ('\u{7613}', [0xBA, 0xC8]), ('\u{7614}', [0xE2, 0xE0]), ('\u{7615}', [0xE2, 0xDD]), 
    ('\u{7616}', [0xE2, 0xDA]), ('\u{7619}', [0xE6, 0xB1]), ('\u{761A}', [0xE6, 0xB5]), 
    ('\u{761B}', [0xE6, 0xB7]), ('\u{761C}', [0xE6, 0xB3]), ('\u{761D}', [0xE6, 0xB2]), 
    ('\u{761E}', [0xE6, 0xB0]), ('\u{761F}', [0xBD, 0x45]), ('\u{7620}', [0xBD, 0x43]), 
    ('\u{7621}', [0xBD, 0x48]), ('\u{7622}', [0xBD, 0x49]), ('\u{7623}', [0xE6, 0xB4]), 
    ('\u{7624}', [0xBD, 0x46]), ('\u{7625}', [0xE6, 0xAF]), ('\u{7626}', [0xBD, 0x47]), 
    ('\u{7627}', [0xBA, 0xC4]), ('\u{7628}', [0xE6, 0xB6]), ('\u{7629}', [0xBD, 0x44]), 
    ('\u{762C}', [0xFE, 0xBD]), ('\u{762D}', [0xEA, 0x6C]), ('\u{762F}', [0xEA, 0x6B]), 
    ('\u{7630}', [0xEA, 0x73]), ('\u{7631}', [0xEA, 0x6D]), ('\u{7632}', [0xEA, 0x72]), 
    ('\u{7633}', [0xEA, 0x6F]), ('\u{7634}', [0xBF, 0x60]), ('\u{7635}', [0xEA, 0x71]), 
    ('\u{7638}', [0xBF, 0x61]), ('\u{763A}', [0xBF, 0x62]), ('\u{763B}', [0x9D, 0xDD]), 
    ('\u{763C}', [0xEA, 0x70]), ('\u{763D}', [0xEA, 0x6E]), ('\u{7640}', [0x9E, 0xE1]), 
    ('\u{7642}', [0xC0, 0xF8]), ('\u{7643}', [0xED, 0x74]), ('\u{7646}', [0xC0, 0xF7]), 
    ('\u{7647}', [0xED, 0x77]), ('\u{7648}', [0xED, 0x75]), ('\u{7649}', [0xED, 0x76]), 
    ('\u{764C}', [0xC0, 0xF9]), ('\u{764D}', [0x98, 0xDA]), ('\u{764E}', [0x9D, 0xDF]), 
    ('\u{764F}', [0xFE, 0xBF]), ('\u{7650}', [0xF0, 0x4D]), ('\u{7651}', [0xFE, 0xBE]), 
    ('\u{7652}', [0xC2, 0xA1]), ('\u{7653}', [0xF0, 0x4E]), ('\u{7654}', [0x9E, 0xEB]), 
    ('\u{7656}', [0xC2, 0x7D]), ('\u{7657}', [0xF0, 0x4F]), ('\u{7658}', [0xC2, 0x7E]), 
    ('\u{7659}', [0xF0, 0x4C]), ('\u{765A}', [0xF0, 0x50]), ('\u{765C}', [0xF0, 0x4A]), 
    ('\u{765F}', [0xC3, 0xA7]), ('\u{7660}', [0xF2, 0x78]), ('\u{7661}', [0xC3, 0xA8]), 
    ('\u{7662}', [0xC4, 0x6F]), ('\u{7664}', [0xF0, 0x4B]), ('\u{7665}', [0xC4, 0x70]), 
    ('\u{7666}', [0x9E, 0x59]), ('\u{7667}', [0xA0, 0x5C]), ('\u{7669}', [0xC4, 0xEE]), 
    ('\u{766A}', [0xF5, 0xDF]), ('\u{766C}', [0xC5, 0x7E]), ('\u{766D}', [0xF6, 0xF4]), 
    ('\u{766E}', [0xC5, 0x7D]), ('\u{766F}', [0xFE, 0xC0]), ('\u{7670}', [0xF7, 0xEA]), 
    ('\u{7671}', [0xC5, 0xF5]), ('\u{7672}', [0xC5, 0xF6]), ('\u{7673}', [0x94, 0x77]), 
    ('\u{7674}', [0x98, 0xDC]), ('\u{7675}', [0xF9, 0xCC]), ('\u{7676}', [0xC6, 0xD5]), 
    ('\u{7678}', [0xAC, 0xD1]), ('\u{7679}', [0xCF, 0xDE]), ('\u{767A}', [0x98, 0xDE]), 
    ('\u{767B}', [0xB5, 0x6E]), ('\u{767C}', [0xB5, 0x6F]), ('\u{767D}', [0xA5, 0xD5]), 
    ('\u{767E}', [0xA6, 0xCA]), ('\u{767F}', [0xCA, 0x47]), ('\u{7681}', [0xCB, 0x71]), 
    ('\u{7682}', [0xA8, 0x6D]), ('\u{7684}', [0xAA, 0xBA]), ('\u{7686}', [0xAC, 0xD2]), 
    ('\u{7687}', [0xAC, 0xD3]), ('\u{7688}', [0xAC, 0xD4]), ('\u{7689}', [0xD6, 0xA6]), 
    ('\u{768A}', [0xD2, 0xCB]), ('\u{768B}', [0xAF, 0x6F]), ('\u{768E}', [0xB2, 0xAE]), 
    ('\u{768F}', [0xD6, 0xA5]), ('\u{7690}', [0xFE, 0xC3]), ('\u{7692}', [0xDA, 0xB8]), 
    ('\u{7693}', [0xB5, 0x71]), ('\u{7695}', [0xDA, 0xB7]), ('\u{7696}', [0xB5, 0x70]), 
    ('\u{7699}', [0xDE, 0xD5]), ('\u{769A}', [0xBD, 0x4A]), ('\u{769B}', [0xE6, 0xBB]), 
    ('\u{769C}', [0xE6, 0xB8]), ('\u{769D}', [0xE6, 0xB9]), ('\u{769E}', [0xE6, 0xBA]), 
    ('\u{76A1}', [0xFE, 0xC8]), ('\u{76A4}', [0xED, 0x78]), ('\u{76A5}', [0xFE, 0xC9]), 
    ('\u{76A6}', [0xF0, 0x51]), ('\u{76AA}', [0xF4, 0x71]), ('\u{76AB}', [0xF4, 0x70]), 
    ('\u{76AD}', [0xF6, 0xF5]), ('\u{76AE}', [0xA5, 0xD6]), ('\u{76AF}', [0xCD, 0x75]), 
    ('\u{76B0}', [0xAF, 0x70]), ('\u{76B4}', [0xB5, 0x72]), ('\u{76B5}', [0xDE, 0xD6]), 
    ('\u{76B7}', [0xFE, 0xCA]), ('\u{76B8}', [0xE2, 0xE1]), ('\u{76BA}', [0xBD, 0x4B]), 
    ('\u{76BB}', [0xEA, 0x74]), ('\u{76BD}', [0xF0, 0x52]), ('\u{76BE}', [0xF4, 0x72]), 
    ('\u{76BF}', [0xA5, 0xD7]), ('\u{76C2}', [0xAA, 0xBB]), ('\u{76C3}', [0xAC, 0xD7]), 
    ('\u{76C4}', [0xCF, 0xDF]), ('\u{76C5}', [0xAC, 0xD8]), ('\u{76C6}', [0xAC, 0xD6]), 
    ('\u{76C8}', [0xAC, 0xD5]), ('\u{76C9}', [0xD2, 0xCC]), ('\u{76CA}', [0xAF, 0x71]), 
    ('\u{76CC}', [0xFE, 0xCB]), ('\u{76CD}', [0xAF, 0x72]), ('\u{76CE}', [0xAF, 0x73]), 
    ('\u{76D2}', [0xB2, 0xB0]), ('\u{76D3}', [0xD6, 0xA7]), ('\u{76D4}', [0xB2, 0xAF]), 
    ('\u{76D6}', [0x9F, 0xC2]), ('\u{76D9}', [0x8C, 0x6B]), ('\u{76DA}', [0xDA, 0xB9]), 
    ('\u{76DB}', [0xB2, 0xB1]), ('\u{76DC}', [0xB5, 0x73]), ('\u{76DD}', [0xDE, 0xD7]), 
    ('\u{76DE}', [0xB7, 0xF8]), ('\u{76DF}', [0xB7, 0xF9]), ('\u{76E1}', [0xBA, 0xC9]), 
    ('\u{76E3}', [0xBA, 0xCA]), ('\u{76E4}', [0xBD, 0x4C]), ('\u{76E5}', [0xBF, 0x64]), 
    ('\u{76E6}', [0xEA, 0x75]), ('\u{76E7}', [0xBF, 0x63]), ('\u{76E9}', [0xED, 0x79]), 
"#

/-- src/generated/whatwg/big5_whatwg_tables.rs.inc:5553-5680 -/
noncomputable def encode24 : List Text := lines! r#"    ('\u{76EA}', [0xC0, 0xFA]), ('\u{76EC}', [0xF0, 0x53]), ('\u{76ED}', [0xF4, 0x73]), 
    ('\u{76EE}', [0xA5, 0xD8]), ('\u{76EF}', [0xA8, 0x6E]), ('\u{76F0}', [0xCD, 0x78]), 
    ('\u{76F1}', [0xCD, 0x77]), ('\u{76F2}', [0xAA, 0xBC]), ('\u{76F3}', [0xCD, 0x76]), 
    ('\u{76F4}', [0xAA, 0xBD]), ('\u{76F5}', [0xCD, 0x79]), ('\u{76F7}', [0xCF, 0xE5]), 
    ('\u{76F8}', [0xAC, 0xDB]), ('\u{76F9}', [0xAC, 0xDA]), ('\u{76FA}', [0xCF, 0xE7]), 
    ('\u{76FB}', [0xCF, 0xE6]), ('\u{76FC}', [0xAC, 0xDF]), ('\u{76FE}', [0xAC, 0xDE]), 
    ('\u{7701}', [0xAC, 0xD9]), ('\u{7703}', [0xCF, 0xE1]), ('\u{7704}', [0xCF, 0xE2]), 
    ('\u{7705}', [0xCF, 0xE3]), ('\u{7707}', [0xAC, 0xE0]), ('\u{7708}', [0xCF, 0xE0]), 
    ('\u{7709}', [0xAC, 0xDC]), ('\u{770A}', [0xCF, 0xE4]), ('\u{770B}', [0xAC, 0xDD]), 
    ('\u{770C}', [0x98, 0xC4]), ('\u{770E}', [0x94, 0xB0]), ('\u{770F}', [0x94, 0xB1]), 
    ('\u{7710}', [0xD2, 0xCF]), ('\u{7711}', [0xD2, 0xD3]), ('\u{7712}', [0xD2, 0xD1]), 
    ('\u{7713}', [0xD2, 0xD0]), ('\u{7715}', [0xD2, 0xD4]), ('\u{7719}', [0xD2, 0xD5]), 
    ('\u{771A}', [0xD2, 0xD6]), ('\u{771B}', [0xD2, 0xCE]), ('\u{771D}', [0xD2, 0xCD]), 
    ('\u{771E}', [0xFE, 0xD1]), ('\u{771F}', [0xAF, 0x75]), ('\u{7720}', [0xAF, 0x76]), 
    ('\u{7722}', [0xD2, 0xD7]), ('\u{7723}', [0xD2, 0xD2]), ('\u{7724}', [0xA0, 0xC1]), 
    ('\u{7725}', [0xD6, 0xB0]), ('\u{7726}', [0xFE, 0xD2]), ('\u{7727}', [0xD2, 0xD8]), 
    ('\u{7728}', [0xAF, 0x77]), ('\u{7729}', [0xAF, 0x74]), ('\u{772B}', [0xA0, 0xCD]), 
    ('\u{772D}', [0xD6, 0xAA]), ('\u{772F}', [0xD6, 0xA9]), ('\u{7731}', [0xD6, 0xAB]), 
    ('\u{7732}', [0xD6, 0xAC]), ('\u{7733}', [0xD6, 0xAE]), ('\u{7734}', [0xD6, 0xAD]), 
    ('\u{7735}', [0xD6, 0xB2]), ('\u{7736}', [0xB2, 0xB5]), ('\u{7737}', [0xB2, 0xB2]), 
    ('\u{7738}', [0xB2, 0xB6]), ('\u{7739}', [0xD6, 0xA8]), ('\u{773A}', [0xB2, 0xB7]), 
    ('\u{773B}', [0xD6, 0xB1]), ('\u{773C}', [0xB2, 0xB4]), ('\u{773D}', [0xD6, 0xAF]), 
    ('\u{773E}', [0xB2, 0xB3]), ('\u{7740}', [0xFE, 0xD3]), ('\u{7743}', [0x98, 0xE5]), 
    ('\u{7744}', [0xDA, 0xBC]), ('\u{7745}', [0xDA, 0xBE]), ('\u{7746}', [0xDA, 0xBA]), 
    ('\u{7747}', [0xDA, 0xBB]), ('\u{774A}', [0xDA, 0xBF]), ('\u{774B}', [0xDA, 0xC1]), 
    ('\u{774C}', [0xDA, 0xC2]), ('\u{774D}', [0xDA, 0xBD]), ('\u{774E}', [0xDA, 0xC0]), 
    ('\u{774F}', [0xB5, 0x74]), ('\u{7752}', [0xDE, 0xDB]), ('\u{7754}', [0xDE, 0xE0]), 
    ('\u{7755}', [0xDE, 0xD8]), ('\u{7756}', [0xDE, 0xDC]), ('\u{7758}', [0xFE, 0xD6]), 
    ('\u{7759}', [0xDE, 0xE1]), ('\u{775A}', [0xDE, 0xDD]), ('\u{775B}', [0xB7, 0xFA]), 
    ('\u{775C}', [0xB8, 0x43]), ('\u{775E}', [0xB7, 0xFD]), ('\u{775F}', [0xDE, 0xD9]), 
    ('\u{7760}', [0xDE, 0xDA]), ('\u{7761}', [0xBA, 0xCE]), ('\u{7762}', [0xB8, 0x46]), 
    ('\u{7763}', [0xB7, 0xFE]), ('\u{7765}', [0xB8, 0x44]), ('\u{7766}', [0xB7, 0xFC]), 
    ('\u{7767}', [0xDE, 0xDF]), ('\u{7768}', [0xB8, 0x45]), ('\u{7769}', [0xDE, 0xDE]), 
    ('\u{776A}', [0xB8, 0x41]), ('\u{776B}', [0xB7, 0xFB]), ('\u{776C}', [0xB8, 0x42]), 
    ('\u{776D}', [0xDE, 0xE2]), ('\u{776E}', [0xE2, 0xE6]), ('\u{776F}', [0xE2, 0xE8]), 
    ('\u{7772}', [0x91, 0xE4]), ('\u{7777}', [0x8F, 0xC7]), ('\u{7778}', [0x94, 0xAE]), 
    ('\u{7779}', [0xB8, 0x40]), ('\u{777A}', [0x8A, 0x4F]), ('\u{777B}', [0x94, 0xB2]), 
    ('\u{777C}', [0xE2, 0xE3]), ('\u{777D}', [0xBA, 0xCC]), ('\u{777E}', [0xE2, 0xE9]), 
    ('\u{777F}', [0xBA, 0xCD]), ('\u{7780}', [0xE2, 0xE7]), ('\u{7781}', [0xE2, 0xE2]), 
    ('\u{7782}', [0xE2, 0xE5]), ('\u{7783}', [0xE2, 0xEA]), ('\u{7784}', [0xBA, 0xCB]), 
    ('\u{7785}', [0xE2, 0xE4]), ('\u{7787}', [0xBD, 0x4E]), ('\u{7788}', [0xE6, 0xBF]), 
    ('\u{7789}', [0xE6, 0xBE]), ('\u{778B}', [0xBD, 0x51]), ('\u{778C}', [0xBD, 0x4F]), 
    ('\u{778D}', [0xE6, 0xBC]), ('\u{778E}', [0xBD, 0x4D]), ('\u{778F}', [0xE6, 0xBD]), 
    ('\u{7791}', [0xBD, 0x50]), ('\u{7793}', [0x8F, 0xD4]), ('\u{7795}', [0xEA, 0x7D]), 
    ('\u{7797}', [0xEA, 0xA1]), ('\u{7798}', [0x98, 0xEA]), ('\u{7799}', [0xEA, 0x7E]), 
    ('\u{779A}', [0xEA, 0x76]), ('\u{779B}', [0xEA, 0x7A]), ('\u{779C}', [0xEA, 0x79]), 
    ('\u{779D}', [0xEA, 0x77]), ('\u{779E}', [0xBF, 0x66]), ('\u{779F}', [0xBF, 0x67]), 
    ('\u{77A0}', [0xBF, 0x65]), ('\u{77A1}', [0xEA, 0x78]), ('\u{77A2}', [0xEA, 0x7B]), 
    ('\u{77A3}', [0xEA, 0x7C]), ('\u{77A5}', [0xBF, 0x68]), ('\u{77A7}', [0xC1, 0x40]), 
    ('\u{77A8}', [0xED, 0xA3]), ('\u{77AA}', [0xC0, 0xFC]), ('\u{77AB}', [0xED, 0x7B]), 
    ('\u{77AC}', [0xC0, 0xFE]), ('\u{77AD}', [0xC1, 0x41]), ('\u{77AF}', [0xFE, 0xD8]), 
    ('\u{77B0}', [0xC0, 0xFD]), ('\u{77B1}', [0xED, 0xA2]), ('\u{77B2}', [0xED, 0x7C]), 
    ('\u{77B3}', [0xC0, 0xFB]), ('\u{77B4}', [0xED, 0xA1]), ('\u{77B5}', [0xED, 0x7A]), 
    ('\u{77B6}', [0xED, 0x7E]), ('\u{77B7}', [0xED, 0x7D]), ('\u{77B9}', [0x9D, 0xE0]), 
    ('\u{77BA}', [0xF0, 0x55]), ('\u{77BB}', [0xC2, 0xA4]), ('\u{77BC}', [0xC2, 0xA5]), 
    ('\u{77BD}', [0xC2, 0xA2]), ('\u{77BE}', [0x98, 0xEE]), ('\u{77BF}', [0xC2, 0xA3]), 
    ('\u{77C2}', [0xF0, 0x54]), ('\u{77C3}', [0x95, 0xC4]), ('\u{77C4}', [0xF2, 0x7B]), 
    ('\u{77C5}', [0xFC, 0xE8]), ('\u{77C7}', [0xC3, 0xA9]), ('\u{77C9}', [0xF2, 0x79]), 
    ('\u{77CA}', [0xF2, 0x7A]), ('\u{77CB}', [0x98, 0xEF]), ('\u{77CC}', [0xF4, 0x74]), 
    ('\u{77CD}', [0xF4, 0x77]), ('\u{77CE}', [0xF4, 0x75]), ('\u{77CF}', [0xF4, 0x76]), 
    ('\u{77D0}', [0xF5, 0xE0]), ('\u{77D3}', [0xC4, 0xEF]), ('\u{77D4}', [0xF7, 0xEB]), 
    ('\u{77D5}', [0xF8, 0xB4]), ('\u{77D7}', [0x9B, 0x78]), ('\u{77D8}', [0xF8, 0xF8]), 
    ('\u{77D9}', [0xF8, 0xF9]), ('\u{77DA}', [0xC6, 0x66]), ('\u{77DB}', [0xA5, 0xD9]), 
    ('\u{77DC}', [0xAC, 0xE1]), ('\u{77DD}', [0x8C, 0x6E]), ('\u{77DE}', [0xDA, 0xC3]), 
    ('\u{77E0}', [0xDE, 0xE3]), ('\u{77E2}', [0xA5, 0xDA]), ('\u{77E3}', [0xA8, 0x6F]), 
    ('\u{77E5}', [0xAA, 0xBE]), ('\u{77E6}', [0xFA, 0xD8]), ('\u{77E7}', [0xCF, 0xE8]), 
    ('\u{77E8}', [0xCF, 0xE9]), ('\u{77E9}', [0xAF, 0x78]), ('\u{77EC}', [0xDA, 0xC4]), 
    ('\u{77ED}', [0xB5, 0x75]), ('\u{77EE}', [0xB8, 0x47]), ('\u{77EF}', [0xC1, 0x42]), 
    ('\u{77F0}', [0xED, 0xA4]), ('\u{77F1}', [0xF2, 0x7C]), ('\u{77F2}', [0xF4, 0x78]), 
    ('\u{77F3}', [0xA5, 0xDB]), ('\u{77F4}', [0xFE, 0xDC]), ('\u{77F7}', [0xCD, 0xA1]), 
    ('\u{77F8}', [0xCD, 0x7A]), ('\u{77F9}', [0xCD, 0x7C]), ('\u{77FA}', [0xCD, 0x7E]), 
    ('\u{77FB}', [0xCD, 0x7D]), ('\u{77FC}', [0xCD, 0x7B]), ('\u{77FD}', [0xAA, 0xBF]), 
    ('\u{77FE}', [0xA0, 0xAE]), ('\u{7802}', [0xAC, 0xE2]), ('\u{7803}', [0xCF, 0xF2]), 
    ('\u{7805}', [0xCF, 0xED]), ('\u{7806}', [0xCF, 0xEA]), ('\u{7808}', [0x9D, 0x4C]), 
    ('\u{7809}', [0xCF, 0xF1]), ('\u{780C}', [0xAC, 0xE4]), ('\u{780D}', [0xAC, 0xE5]), 
    ('\u{780E}', [0xCF, 0xF0]), ('\u{780F}', [0xCF, 0xEF]), ('\u{7810}', [0xCF, 0xEE]), 
    ('\u{7811}', [0xCF, 0xEB]), ('\u{7812}', [0xCF, 0xEC]), ('\u{7813}', [0xCF, 0xF3]), 
    ('\u{7814}', [0xAC, 0xE3]), ('\u{7818}', [0x98, 0xF1]), ('\u{781C}', [0x98, 0xF3]), 
    ('\u{781D}', [0xAF, 0x7C]), ('\u{781E}', [0x94, 0xC1]), ('\u{781F}', [0xAF, 0xA4]), 
    ('\u{7820}', [0xAF, 0xA3]), ('\u{7821}', [0xD2, 0xE1]), ('\u{7822}', [0xD2, 0xDB]), 
    ('\u{7823}', [0xD2, 0xD9]), ('\u{7825}', [0xAF, 0xA1]), ('\u{7826}', [0xD6, 0xB9]), 
    ('\u{7827}', [0xAF, 0x7A]), ('\u{7828}', [0xD2, 0xDE]), ('\u{7829}', [0xD2, 0xE2]), 
    ('\u{782A}', [0xD2, 0xE4]), ('\u{782B}', [0xD2, 0xE0]), ('\u{782C}', [0xD2, 0xDA]), 
    ('\u{782D}', [0xAF, 0xA2]), ('\u{782E}', [0xD2, 0xDF]), ('\u{782F}', [0xD2, 0xDD]), 
    ('\u{7830}', [0xAF, 0x79]), ('\u{7831}', [0xD2, 0xE5]), ('\u{7832}', [0xAF, 0xA5]), 
    ('\u{7833}', [0xD2, 0xE3]), ('\u{7834}', [0xAF, 0x7D]), ('\u{7835}', [0xD2, 0xDC]), 
    ('\u{7837}', [0xAF, 0x7E]), ('\u{7838}', [0xAF, 0x7B]), ('\u{7839}', [0x98, 0xF5]), 
    ('\u{783C}', [0xFA, 0x4F]), ('\u{783D}', [0x96, 0xE2]), ('\u{7842}', [0x94, 0x50]), 
    ('\u{7843}', [0xB2, 0xB9]), ('\u{7844}', [0x96, 0xA2]), ('\u{7845}', [0xD6, 0xBA]), 
    ('\u{7847}', [0x98, 0xF6]), ('\u{7848}', [0xD6, 0xB3]), ('\u{7849}', [0xD6, 0xB5]), 
    ('\u{784A}', [0xD6, 0xB7]), ('\u{784B}', [0x96, 0xE5]), ('\u{784C}', [0xD6, 0xB8]), 
    ('\u{784D}', [0xD6, 0xB6]), ('\u{784E}', [0xB2, 0xBA]), ('\u{7850}', [0xD6, 0xBB]), 
    ('\u{7851}', [0x98, 0xF7]), ('\u{7852}', [0xD6, 0xB4]), ('\u{7853}', [0xA0, 0x46]), 
    ('\u{7854}', [0x96, 0xE3]), ('\u{785C}', [0xDA, 0xC8]), ('\u{785D}', [0xB5, 0x76]), 
    ('\u{785E}', [0xDA, 0xD0]), ('\u{7860}', [0xDA, 0xC5]), ('\u{7862}', [0xDA, 0xD1]), 
    ('\u{7864}', [0xDA, 0xC6]), ('\u{7865}', [0xDA, 0xC7]), ('\u{7866}', [0x98, 0xF8]), 
    ('\u{7868}', [0xDA, 0xCF]), ('\u{7869}', [0xDA, 0xCE]), ('\u{786A}', [0xDA, 0xCB]), 
    ('\u{786B}', [0xB2, 0xB8]), ('\u{786C}', [0xB5, 0x77]), ('\u{786D}', [0xDA, 0xC9]), 
    ('\u{786E}', [0xDA, 0xCC]), ('\u{786F}', [0xB5, 0x78]), ('\u{7870}', [0xDA, 0xCD]), 
    ('\u{7871}', [0xDA, 0xCA]), ('\u{7879}', [0xDE, 0xEE]), ('\u{787A}', [0x9E, 0xE4]), 
    ('\u{787B}', [0xDE, 0xF2]), ('\u{787C}', [0xB8, 0x4E]), ('\u{787E}', [0xE2, 0xF0]), 
    ('\u{787F}', [0xB8, 0x51]), ('\u{7880}', [0xDE, 0xF0]), ('\u{7881}', [0xF9, 0xD6]), 
    ('\u{7883}', [0xDE, 0xED]), ('\u{7884}', [0xDE, 0xE8]), ('\u{7885}', [0xDE, 0xEA]), 
    ('\u{7886}', [0xDE, 0xEB]), ('\u{7887}', [0xDE, 0xE4]), ('\u{7888}', [0x94, 0xC3]), 
    ('\u{7889}', [0xB8, 0x4D]), ('\u{788C}', [0xB8, 0x4C]), ('\u{788D}', [0x94, 0xC2]), 
    ('\u{788E}', [0xB8, 0x48]), ('\u{788F}', [0xDE, 0xE7]), ('\u{7891}', [0xB8, 0x4F]), 
    ('\u{7893}', [0xB8, 0x50]), ('\u{7894}', [0xDE, 0xE6]), ('\u{7895}', [0xDE, 0xE9]), 
    ('\u{7896}', [0xDE, 0xF1]), ('\u{7897}', [0xB8, 0x4A]), ('\u{7898}', [0xB8, 0x4B]), 
    ('\u{7899}', [0xDE, 0xEF]), ('\u{789A}', [0xDE, 0xE5]), ('\u{789E}', [0xE2, 0xF2]), 
    ('\u{789F}', [0xBA, 0xD0]), ('\u{78A0}', [0xE2, 0xF4]), ('\u{78A1}', [0xDE, 0xEC]), 
    ('\u{78A2}', [0xE2, 0xF6]), ('\u{78A3}', [0xBA, 0xD4]), ('\u{78A4}', [0xE2, 0xF7]), 
    ('\u{78A5}', [0xE2, 0xF3]), ('\u{78A7}', [0xBA, 0xD1]), ('\u{78A8}', [0xE2, 0xEF]), 
    ('\u{78A9}', [0xBA, 0xD3]), ('\u{78AA}', [0xE2, 0xEC]), ('\u{78AB}', [0xE2, 0xF1]), 
    ('\u{78AC}', [0xE2, 0xF5]), ('\u{78AD}', [0xE2, 0xEE]), ('\u{78AF}', [0xFE, 0xE1]), 
    ('\u{78B0}', [0xB8, 0x49]), ('\u{78B1}', [0xFE, 0xE9]), ('\u{78B2}', [0xE2, 0xEB]), 
    ('\u{78B3}', [0xBA, 0xD2]), ('\u{78B4}', [0xE2, 0xED]), ('\u{78B6}', [0x96, 0xE4]), 
    ('\u{78B8}', [0x89, 0xAC]), ('\u{78B9}', [0x96, 0xDB]), ('\u{78BA}', [0xBD, 0x54]), 
    ('\u{78BB}', [0xE6, 0xC1]), ('\u{78BC}', [0xBD, 0x58]), ('\u{78BE}', [0xBD, 0x56]), 
    ('\u{78C1}', [0xBA, 0xCF]), ('\u{78C3}', [0xE6, 0xC8]), ('\u{78C4}', [0xE6, 0xC9]), 
    ('\u{78C5}', [0xBD, 0x53]), ('\u{78C7}', [0xFE, 0xE2]), ('\u{78C8}', [0xE6, 0xC7]), 
    ('\u{78C9}', [0xE6, 0xCA]), ('\u{78CA}', [0xBD, 0x55]), ('\u{78CB}', [0xBD, 0x52]), 
    ('\u{78CC}', [0xE6, 0xC3]), ('\u{78CD}', [0xE6, 0xC0]), ('\u{78CE}', [0xE6, 0xC5]), 
    ('\u{78CF}', [0xE6, 0xC2]), ('\u{78D0}', [0xBD, 0x59]), ('\u{78D1}', [0xE6, 0xC4]), 
    ('\u{78D2}', [0x94, 0xC4]), ('\u{78D3}', [0xFE, 0xE3]), ('\u{78D4}', [0xE6, 0xC6]), 
    ('\u{78D5}', [0xBD, 0x57]), ('\u{78D7}', [0xFE, 0xE7]), ('\u{78D8}', [0x9F, 0xFB]), 
    ('\u{78DA}', [0xBF, 0x6A]), ('\u{78DB}', [0xEA, 0xA8]), ('\u{78DD}', [0xEA, 0xA2]), 
    ('\u{78DE}', [0xEA, 0xA6]), ('\u{78DF}', [0xEA, 0xAC]), ('\u{78E0}', [0xEA, 0xAD]), 
    ('\u{78E1}', [0xEA, 0xA9]), ('\u{78E2}', [0xEA, 0xAA]), ('\u{78E3}', [0xEA, 0xA7]), 
"#

end Verif.Files.Big5
