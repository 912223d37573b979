import Verif.Text

/-! Generated by tools/gen_files.py: verbatim copies of parts of files of /repo. -/

namespace Verif.Files.ShiftJis

/-- src/generated/whatwg/shiftjis_whatwg_tables.rs.inc:1396-1523 -/
noncomputable def encode0 : List Text := lines! r#"    ('\u{A7}', [0x81, 0x98]), ('\u{A8}', [0x81, 0x4E]), ('\u{B0}', [0x81, 0x8B]), 
    ('\u{B1}', [0x81, 0x7D]), ('\u{B4}', [0x81, 0x4C]), ('\u{B6}', [0x81, 0xF7]), 
    ('\u{D7}', [0x81, 0x7E]), ('\u{F7}', [0x81, 0x80]), ('\u{391}', [0x83, 0x9F]), 
    ('\u{392}', [0x83, 0xA0]), ('\u{393}', [0x83, 0xA1]), ('\u{394}', [0x83, 0xA2]), 
    ('\u{395}', [0x83, 0xA3]), ('\u{396}', [0x83, 0xA4]), ('\u{397}', [0x83, 0xA5]), 
    ('\u{398}', [0x83, 0xA6]), ('\u{399}', [0x83, 0xA7]), ('\u{39A}', [0x83, 0xA8]), 
    ('\u{39B}', [0x83, 0xA9]), ('\u{39C}', [0x83, 0xAA]), ('\u{39D}', [0x83, 0xAB]), 
    ('\u{39E}', [0x83, 0xAC]), ('\u{39F}', [0x83, 0xAD]), ('\u{3A0}', [0x83, 0xAE]), 
    ('\u{3A1}', [0x83, 0xAF]), ('\u{3A3}', [0x83, 0xB0]), ('\u{3A4}', [0x83, 0xB1]), 
    ('\u{3A5}', [0x83, 0xB2]), ('\u{3A6}', [0x83, 0xB3]), ('\u{3A7}', [0x83, 0xB4]), 
    ('\u{3A8}', [0x83, 0xB5]), ('\u{3A9}', [0x83, 0xB6]), ('\u{3B1}', [0x83, 0xBF]), 
    ('\u{3B2}', [0x83, 0xC0]), ('\u{3B3}', [0x83, 0xC1]), ('\u{3B4}', [0x83, 0xC2]), 
    ('\u{3B5}', [0x83, 0xC3]), ('\u{3B6}', [0x83, 0xC4]), ('\u{3B7}', [0x83, 0xC5]), 
    ('\u{3B8}', [0x83, 0xC6]), ('\u{3B9}', [0x83, 0xC7]), ('\u{3BA}', [0x83, 0xC8]), 
    ('\u{3BB}', [0x83, 0xC9]), ('\u{3BC}', [0x83, 0xCA]), ('\u{3BD}', [0x83, 0xCB]), 
    ('\u{3BE}', [0x83, 0xCC]), ('\u{3BF}', [0x83, 0xCD]), ('\u{3C0}', [0x83, 0xCE]), 
    ('\u{3C1}', [0x83, 0xCF]), ('\u{3C3}', [0x83, 0xD0]), ('\u{3C4}', [0x83, 0xD1]), 
    ('\u{3C5}', [0x83, 0xD2]), ('\u{3C6}', [0x83, 0xD3]), ('\u{3C7}', [0x83, 0xD4]), 
    ('\u{3C8}', [0x83, 0xD5]), ('\u{3C9}', [0x83, 0xD6]), ('\u{401}', [0x84, 0x46]), 
    ('\u{410}', [0x84, 0x40]), ('\u{411}', [0x84, 0x41]), ('\u{412}', [0x84, 0x42]), 
    ('\u{413}', [0x84, 0x43]), ('\u{414}', [0x84, 0x44]), ('\u{415}', [0x84, 0x45]), 
    ('\u{416}', [0x84, 0x47]), ('\u{417}', [0x84, 0x48]), ('\u{418}', [0x84, 0x49]), 
    ('\u{419}', [0x84, 0x4A]), ('\u{41A}', [0x84, 0x4B]), ('\u{41B}', [0x84, 0x4C]), 
    ('\u{41C}', [0x84, 0x4D]), ('\u{41D}', [0x84, 0x4E]), ('\u{41E}', [0x84, 0x4F]), 
    ('\u{41F}', [0x84, 0x50]), ('\u{420}', [0x84, 0x51]), ('\u{421}', [0x84, 0x52]), 
    ('\u{422}', [0x84, 0x53]), ('\u{423}', [0x84, 0x54]), ('\u{424}', [0x84, 0x55]), 
    ('\u{425}', [0x84, 0x56]), ('\u{426}', [0x84, 0x57]), ('\u{427}', [0x84, 0x58]), 
    ('\u{428}', [0x84, 0x59]), ('\u{429}', [0x84, 0x5A]), ('\u{42A}', [0x84, 0x5B]), 
    ('\u{42B}', [0x84, 0x5C]), ('\u{42C}', [0x84, 0x5D]), ('\u{42D}', [0x84, 0x5E]), 
    ('\u{42E}', [0x84, 0x5F]), ('\u{42F}', [0x84, 0x60]), ('\u{430}', [0x84, 0x70]), 
    ('\u{431}', [0x84, 0x71]), ('\u{432}', [0x84, 0x72]), ('\u{433}', [0x84, 0x73]), 
    ('\u{434}', [0x84, 0x74]), ('\u{435}', [0x84, 0x75]), ('\u{436}', [0x84, 0x77]), 
    ('\u{437}', [0x84, 0x78]), ('\u{438}', [0x84, 0x79]), ('\u{439}', [0x84, 0x7A]), 
    ('\u{43A}', [0x84, 0x7B]), ('\u{43B}', [0x84, 0x7C]), ('\u{43C}', [0x84, 0x7D]), 
    ('\u{43D}', [0x84, 0x7E]), ('\u{43E}', [0x84, 0x80]), ('\u{43F}', [0x84, 0x81]), 
    ('\u{440}', [0x84, 0x82]), ('\u{441}', [0x84, 0x83]), ('\u{442}', [0x84, 0x84]), 
    ('\u{443}', [0x84, 0x85]), ('\u{444}', [0x84, 0x86]), ('\u{445}', [0x84, 0x87]), 
    ('\u{446}', [0x84, 0x88]), ('\u{447}', [0x84, 0x89]), ('\u{448}', [0x84, 0x8A]), 
    ('\u{449}', [0x84, 0x8B]), ('\u{44A}', [0x84, 0x8C]), ('\u{44B}', [0x84, 0x8D]), 
    ('\u{44C}', [0x84, 0x8E]), ('\u{44D}', [0x84, 0x8F]), ('\u{44E}', [0x84, 0x90]), 
    ('\u{44F}', [0x84, 0x91]), ('\u{451}', [0x84, 0x76]), ('\u{2010}', [0x81, 0x5D]), 
    ('\u{2015}', [0x81, 0x5C]), ('\u{2018}', [0x81, 0x65]), ('\u{2019}', [0x81, 0x66]), 
    ('\u{201C}', [0x81, 0x67]), ('\u{201D}', [0x81, 0x68]), ('\u{2020}', [0x81, 0xF5]), 
    ('\u{2021}', [0x81, 0xF6]), ('\u{2025}', [0x81, 0x64]), ('\u{2026}', [0x81, 0x63]), 
    ('\u{2030}', [0x81, 0xF1]), ('\u{2032}', [0x81, 0x8C]), ('\u{2033}', [0x81, 0x8D]), 
    ('\u{203B}', [0x81, 0xA6]), ('\u{2103}', [0x81, 0x8E]), ('\u{2116}', [0x87, 0x82]), 
    ('\u{2121}', [0x87, 0x84]), ('\u{212B}', [0x81, 0xF0]), ('\u{2160}', [0x87, 0x54]), 
    ('\u{2161}', [0x87, 0x55]), ('\u{2162}', [0x87, 0x56]), ('\u{2163}', [0x87, 0x57]), 
    ('\u{2164}', [0x87, 0x58]), ('\u{2165}', [0x87, 0x59]), ('\u{2166}', [0x87, 0x5A]), 
    ('\u{2167}', [0x87, 0x5B]), ('\u{2168}', [0x87, 0x5C]), ('\u{2169}', [0x87, 0x5D]), 
    ('\u{2170}', [0xFA, 0x40]), ('\u{2171}', [0xFA, 0x41]), ('\u{2172}', [0xFA, 0x42]), 
    ('\u{2173}', [0xFA, 0x43]), ('\u{2174}', [0xFA, 0x44]), ('\u{2175}', [0xFA, 0x45]), 
    ('\u{2176}', [0xFA, 0x46]), ('\u{2177}', [0xFA, 0x47]), ('\u{2178}', [0xFA, 0x48]), 
    ('\u{2179}', [0xFA, 0x49]), ('\u{2190}', [0x81, 0xA9]), ('\u{2191}', [0x81, 0xAA]), 
    ('\u{2192}', [0x81, 0xA8]), ('\u{2193}', [0x81, 0xAB]), ('\u{21D2}', [0x81, 0xCB]), 
    ('\u{21D4}', [0x81, 0xCC]), ('\u{2200}', [0x81, 0xCD]), ('\u{2202}', [0x81, 0xDD]), 
    ('\u{2203}', [0x81, 0xCE]), ('\u{2207}', [0x81, 0xDE]), ('\u{2208}', [0x81, 0xB8]), 
    ('\u{220B}', [0x81, 0xB9]), ('\u{2211}', [0x87, 0x94]), ('\u{221A}', [0x81, 0xE3]), 
    ('\u{221D}', [0x81, 0xE5]), ('\u{221E}', [0x81, 0x87]), ('\u{221F}', [0x87, 0x98]), 
    ('\u{2220}', [0x81, 0xDA]), ('\u{2225}', [0x81, 0x61]), ('\u{2227}', [0x81, 0xC8]), 
    ('\u{2228}', [0x81, 0xC9]), ('\u{2229}', [0x81, 0xBF]), ('\u{222A}', [0x81, 0xBE]), 
    ('\u{222B}', [0x81, 0xE7]), ('\u{222C}', [0x81, 0xE8]), ('\u{222E}', [0x87, 0x93]), 
    ('\u{2234}', [0x81, 0x88]), ('\u{2235}', [0x81, 0xE6]), ('\u{223D}', [0x81, 0xE4]), 
    ('\u{2252}', [0x81, 0xE0]), ('\u{2260}', [0x81, 0x82]), ('\u{2261}', [0x81, 0xDF]), 
    ('\u{2266}', [0x81, 0x85]), ('\u{2267}', [0x81, 0x86]), ('\u{226A}', [0x81, 0xE1]), 
    ('\u{226B}', [0x81, 0xE2]), ('\u{2282}', [0x81, 0xBC]), ('\u{2283}', [0x81, 0xBD]), 
    ('\u{2286}', [0x81, 0xBA]), ('\u{2287}', [0x81, 0xBB]), ('\u{22A5}', [0x81, 0xDB]), 
    ('\u{22BF}', [0x87, 0x99]), ('\u{2312}', [0x81, 0xDC]), ('\u{2460}', [0x87, 0x40]), 
    ('\u{2461}', [0x87, 0x41]), ('\u{2462}', [0x87, 0x42]), ('\u{2463}', [0x87, 0x43]), 
    ('\u{2464}', [0x87, 0x44]), ('\u{2465}', [0x87, 0x45]), ('\u{2466}', [0x87, 0x46]), 
    ('\u{2467}', [0x87, 0x47]), ('\u{2468}', [0x87, 0x48]), ('\u{2469}', [0x87, 0x49]), 
    ('\u{246A}', [0x87, 0x4A]), ('\u{246B}', [0x87, 0x4B]), ('\u{246C}', [0x87, 0x4C]), 
    ('\u{246D}', [0x87, 0x4D]), ('\u{246E}', [0x87, 0x4E]), ('\u{246F}', [0x87, 0x4F]), 
    ('\u{2470}', [0x87, 0x50]), ('\u{2471}', [0x87, 0x51]), ('\u{2472}', [0x87, 0x52]), 
    ('\u{2473}', [0x87, 0x53]), ('\u{2500}', [0x84, 0x9F]), ('\u{2501}', [0x84, 0xAA]), 
    ('\u{2502}', [0x84, 0xA0]), ('\u{2503}', [0x84, 0xAB]), ('\u{250C}', [0x84, 0xA1]), 
    ('\u{250F}', [0x84, 0xAC]), ('\u{2510}', [0x84, 0xA2]), ('\u{2513}', [0x84, 0xAD]), 
    ('\u{2514}', [0x84, 0xA4]), ('\u{2517}', [0x84, 0xAF]), ('\u{2518}', [0x84, 0xA3]), 
    ('\u{251B}', [0x84, 0xAE]), ('\u{251C}', [0x84, 0xA5]), ('\u{251D}', [0x84, 0xBA]), 
    ('\u{2520}', [0x84, 0xB5]), ('\u{2523}', [0x84, 0xB0]), ('\u{2524}', [0x84, 0xA7]), 
    ('\u{2525}', [0x84, 0xBC]), ('\u{2528}', [0x84, 0xB7]), ('\u{252B}', [0x84, 0xB2]), 
    ('\u{252C}', [0x84, 0xA6]), ('\u{252F}', [0x84, 0xB6]), ('\u{2530}', [0x84, 0xBB]), 
    ('\u{2533}', [0x84, 0xB1]), ('\u{2534}', [0x84, 0xA8]), ('\u{2537}', [0x84, 0xB8]), 
    ('\u{2538}', [0x84, 0xBD]), ('\u{253B}', [0x84, 0xB3]), ('\u{253C}', [0x84, 0xA9]), 
    ('\u{253F}', [0x84, 0xB9]), ('\u{2542}', [0x84, 0xBE]), ('\u{254B}', [0x84, 0xB4]), 
    ('\u{25A0}', [0x81, 0xA1]), ('\u{25A1}', [0x81, 0xA0]), ('\u{25B2}', [0x81, 0xA3]), 
    ('\u{25B3}', [0x81, 0xA2]), ('\u{25BC}', [0x81, 0xA5]), ('\u{25BD}', [0x81, 0xA4]), 
    ('\u{25C6}', [0x81, 0x9F]), ('\u{25C7}', [0x81, 0x9E]), ('\u{25CB}', [0x81, 0x9B]), 
    ('\u{25CE}', [0x81, 0x9D]), ('\u{25CF}', [0x81, 0x9C]), ('\u{25EF}', [0x81, 0xFC]), 
    ('\u{2605}', [0x81, 0x9A]), ('\u{2606}', [0x81, 0x99]), ('\u{2640}', [0x81, 0x8A]), 
    ('\u{2642}', [0x81, 0x89]), ('\u{266A}', [0x81, 0xF4]), ('\u{266D}', [0x81, 0xF3]), 
    ('\u{266F}', [0x81, 0xF2]), ('\u{3000}', [0x81, 0x40]), ('\u{3001}', [0x81, 0x41]), 
    ('\u{3002}', [0x81, 0x42]), ('\u{3003}', [0x81, 0x56]), ('\u{3005}', [0x81, 0x58]), 
    ('\u{3006}', [0x81, 0x59]), ('\u{3007}', [0x81, 0x5A]), ('\u{3008}', [0x81, 0x71]), 
    ('\u{3009}', [0x81, 0x72]), ('\u{300A}', [0x81, 0x73]), ('\u{300B}', [0x81, 0x74]), 
    ('\u{300C}', [0x81, 0x75]), ('\u{300D}', [0x81, 0x76]), ('\u{300E}', [0x81, 0x77]), 
    ('\u{300F}', [0x81, 0x78]), ('\u{3010}', [0x81, 0x79]), ('\u{3011}', [0x81, 0x7A]), 
    ('\u{3012}', [0x81, 0xA7]), ('\u{3013}', [0x81, 0xAC]), ('\u{3014}', [0x81, 0x6B]), 
    ('\u{3015}', [0x81, 0x6C]), ('\u{301D}', [0x87, 0x80]), ('\u{301F}', [0x87, 0x81]), 
    ('\u{3041}', [0x82, 0x9F]), ('\u{3042}', [0x82, 0xA0]), ('\u{3043}', [0x82, 0xA1]), 
    ('\u{3044}', [0x82, 0xA2]), ('\u{3045}', [0x82, 0xA3]), ('\u{3046}', [0x82, 0xA4]), 
    ('\u{3047}', [0x82, 0xA5]), ('\u{3048}', [0x82, 0xA6]), ('\u{3049}', [0x82, 0xA7]), 
    ('\u{304A}', [0x82, 0xA8]), ('\u{304B}', [0x82, 0xA9]), ('\u{304C}', [0x82, 0xAA]), 
    ('\u{304D}', [0x82, 0xAB]), ('\u{304E}', [0x82, 0xAC]), ('\u{304F}', [0x82, 0xAD]), 
    ('\u{3050}', [0x82, 0xAE]), ('\u{3051}', [0x82, 0xAF]), ('\u{3052}', [0x82, 0xB0]), 
    ('\u{3053}', [0x82, 0xB1]), ('\u{3054}', [0x82, 0xB2]), ('\u{3055}', [0x82, 0xB3]), 
    ('\u{3056}', [0x82, 0xB4]), ('\u{3057}', [0x82, 0xB5]), ('\u{3058}', [0x82, 0xB6]), 
    ('\u{3059}', [0x82, 0xB7]), ('\u{305A}', [0x82, 0xB8]), ('\u{305B}', [0x82, 0xB9]), 
    ('\u{305C}', [0x82, 0xBA]), ('\u{305D}', [0x82, 0xBB]), ('\u{305E}', [0x82, 0xBC]), 
    ('\u{305F}', [0x82, 0xBD]), ('\u{3060}', [0x82, 0xBE]), ('\u{3061}', [0x82, 0xBF]), 
    ('\u{3062}', [0x82, 0xC0]), ('\u{3063}', [0x82, 0xC1]), ('\u{3064}', [0x82, 0xC2]), 
    ('\u{3065}', [0x82, 0xC3]), ('\u{3066}', [0x82, 0xC4]), ('\u{3067}', [0x82, 0xC5]), 
    ('\u{3068}', [0x82, 0xC6]), ('\u{3069}', [0x82, 0xC7]), ('\u{306A}', [0x82, 0xC8]), 
    ('\u{306B}', [0x82, 0xC9]), ('\u{306C}', [0x82, 0xCA]), ('\u{306D}', [0x82, 0xCB]), 
    ('\u{306E}', [0x82, 0xCC]), ('\u{306F}', [0x82, 0xCD]), ('\u{3070}', [0x82, 0xCE]), 
    ('\u{3071}', [0x82, 0xCF]), ('\u{3072}', [0x82, 0xD0]), ('\u{3073}', [0x82, 0xD1]), 
    ('\u{3074}', [0x82, 0xD2]), ('\u{3075}', [0x82, 0xD3]), ('\u{3076}', [0x82, 0xD4]), 
    ('\u{3077}', [0x82, 0xD5]), ('\u{3078}', [0x82, 0xD6]), ('\u{3079}', [0x82, 0xD7]), 
    ('\u{307A}', [0x82, 0xD8]), ('\u{307B}', [0x82, 0xD9]), ('\u{307C}', [0x82, 0xDA]), 
    ('\u{307D}', [0x82, 0xDB]), ('\u{307E}', [0x82, 0xDC]), ('\u{307F}', [0x82, 0xDD]), 
    ('\u{3080}', [0x82, 0xDE]), ('\u{3081}', [0x82, 0xDF]), ('\u{3082}', [0x82, 0xE0]), 
    ('\u{3083}', [0x82, 0xE1]), ('\u{3084}', [0x82, 0xE2]), ('\u{3085}', [0x82, 0xE3]), 
    ('\u{3086}', [0x82, 0xE4]), ('\u{3087}', [0x82, 0xE5]), ('\u{3088}', [0x82, 0xE6]), 
    ('\u{3089}', [0x82, 0xE7]), ('\u{308A}', [0x82, 0xE8]), ('\u{308B}', [0x82, 0xE9]), 
    ('\u{308C}', [0x82, 0xEA]), ('\u{308D}', [0x82, 0xEB]), ('\u{308E}', [0x82, 0xEC]), 
    ('\u{308F}', [0x82, 0xED]), ('\u{3090}', [0x82, 0xEE]), ('\u{3091}', [0x82, 0xEF]), 
    ('\u{3092}', [0x82, 0xF0]), ('\u{3093}', [0x82, 0xF1]), ('\u{309B}', [0x81, 0x4A]), 
    ('\u{309C}', [0x81, 0x4B]), ('\u{309D}', [0x81, 0x54]), ('\u{309E}', [0x81, 0x55]), 
"#

/-- src/generated/whatwg/shiftjis_whatwg_tables.rs.inc:1524-1651 -/
noncomputable def encode1 : List Text := lines! r#"    ('\u{30A1}', [0x83, 0x40]), ('\u{30A2}', [0x83, 0x41]), ('\u{30A3}', [0x83, 0x42]), 
    ('\u{30A4}', [0x83, 0x43]), ('\u{30A5}', [0x83, 0x44]), ('\u{30A6}', [0x83, 0x45]), 
    ('\u{30A7}', [0x83, 0x46]), ('\u{30A8}', [0x83, 0x47]), ('\u{30A9}', [0x83, 0x48]), 
    ('\u{30AA}', [0x83, 0x49]), ('\u{30AB}', [0x83, 0x4A]), ('\u{30AC}', [0x83, 0x4B]), 
    ('\u{30AD}', [0x83, 0x4C]), ('\u{30AE}', [0x83, 0x4D]), ('\u{30AF}', [0x83, 0x4E]), 
    ('\u{30B0}', [0x83, 0x4F]), ('\u{30B1}', [0x83, 0x50]), ('\u{30B2}', [0x83, 0x51]), 
    ('\u{30B3}', [0x83, 0x52]), ('\u{30B4}', [0x83, 0x53]), ('\u{30B5}', [0x83, 0x54]), 
    ('\u{30B6}', [0x83, 0x55]), ('\u{30B7}', [0x83, 0x56]), ('\u{30B8}', [0x83, 0x57]), 
    ('\u{30B9}', [0x83, 0x58]), ('\u{30BA}', [0x83, 0x59]), ('\u{30BB}', [0x83, 0x5A]), 
    ('\u{30BC}', [0x83, 0x5B]), ('\u{30BD}', [0x83, 0x5C]), ('\u{30BE}', [0x83, 0x5D]), 
    ('\u{30BF}', [0x83, 0x5E]), ('\u{30C0}', [0x83, 0x5F]), ('\u{30C1}', [0x83, 0x60]), 
    ('\u{30C2}', [0x83, 0x61]), ('\u{30C3}', [0x83, 0x62]), ('\u{30C4}', [0x83, 0x63]), 
    ('\u{30C5}', [0x83, 0x64]), ('\u{30C6}', [0x83, 0x65]), ('\u{30C7}', [0x83, 0x66]), 
    ('\u{30C8}', [0x83, 0x67]), ('\u{30C9}', [0x83, 0x68]), ('\u{30CA}', [0x83, 0x69]), 
    ('\u{30CB}', [0x83, 0x6A]), ('\u{30CC}', [0x83, 0x6B]), ('\u{30CD}', [0x83, 0x6C]), 
    ('\u{30CE}', [0x83, 0x6D]), ('\u{30CF}', [0x83, 0x6E]), ('\u{30D0}', [0x83, 0x6F]), 
    ('\u{30D1}', [0x83, 0x70]), ('\u{30D2}', [0x83, 0x71]), ('\u{30D3}', [0x83, 0x72]), 
    ('\u{30D4}', [0x83, 0x73]), ('\u{30D5}', [0x83, 0x74]), ('\u{30D6}', [0x83, 0x75]), 
    ('\u{30D7}', [0x83, 0x76]), ('\u{30D8}', [0x83, 0x77]), ('\u{30D9}', [0x83, 0x78]), 
    ('\u{30DA}', [0x83, 0x79]), ('\u{30DB}', [0x83, 0x7A]), ('\u{30DC}', [0x83, 0x7B]), 
    ('\u{30DD}', [0x83, 0x7C]), ('\u{30DE}', [0x83, 0x7D]), ('\u{30DF}', [0x83, 0x7E]), 
    ('\u{30E0}', [0x83, 0x80]), ('\u{30E1}', [0x83, 0x81]), ('\u{30E2}', [0x83, 0x82]), 
    ('\u{30E3}', [0x83, 0x83]), ('\u{30E4}', [0x83, 0x84]), ('\u{30E5}', [0x83, 0x85]), 
    ('\u{30E6}', [0x83, 0x86]), ('\u{30E7}', [0x83, 0x87]), ('\u{30E8}', [0x83, 0x88]), 
    ('\u{30E9}', [0x83, 0x89]), ('\u{30EA}', [0x83, 0x8A]), ('\u{30EB}', [0x83, 0x8B]), 
    ('\u{30EC}', [0x83, 0x8C]), ('\u{30ED}', [0x83, 0x8D]), ('\u{30EE}', [0x83, 0x8E]), 
    ('\u{30EF}', [0x83, 0x8F]), ('\u{30F0}', [0x83, 0x90]), ('\u{30F1}', [0x83, 0x91]), 
    ('\u{30F2}', [0x83, 0x92]), ('\u{30F3}', [0x83, 0x93]), ('\u{30F4}', [0x83, 0x94]), 
    ('\u{30F5}', [0x83, 0x95]), ('\u{30F6}', [0x83, 0x96]), ('\u{30FB}', [0x81, 0x45]), 
    ('\u{30FC}', [0x81, 0x5B]), ('\u{30FD}', [0x81, 0x52]), ('\u{30FE}', [0x81, 0x53]), 
    ('\u{3231}', [0x87, 0x8A]), ('\u{3232}', [0x87, 0x8B]), ('\u{3239}', [0x87, 0x8C]), 
    ('\u{32A4}', [0x87, 0x85]), ('\u{32A5}', [0x87, 0x86]), ('\u{32A6}', [0x87, 0x87]), 
    ('\u{32A7}', [0x87, 0x88]), ('\u{32A8}', [0x87, 0x89]), ('\u{3303}', [0x87, 0x65]), 
    ('\u{330D}', [0x87, 0x69]), ('\u{3314}', [0x87, 0x60]), ('\u{3318}', [0x87, 0x63]), 
    ('\u{3322}', [0x87, 0x61]), ('\u{3323}', [0x87, 0x6B]), ('\u{3326}', [0x87, 0x6A]), 
    ('\u{3327}', [0x87, 0x64]), ('\u{332B}', [0x87, 0x6C]), ('\u{3336}', [0x87, 0x66]), 
    ('\u{333B}', [0x87, 0x6E]), ('\u{3349}', [0x87, 0x5F]), ('\u{334A}', [0x87, 0x6D]), 
    ('\u{334D}', [0x87, 0x62]), ('\u{3351}', [0x87, 0x67]), ('\u{3357}', [0x87, 0x68]), 
    ('\u{337B}', [0x87, 0x7E]), ('\u{337C}', [0x87, 0x8F]), ('\u{337D}', [0x87, 0x8E]), 
    ('\u{337E}', [0x87, 0x8D]), ('\u{338E}', [0x87, 0x72]), ('\u{338F}', [0x87, 0x73]), 
    ('\u{339C}', [0x87, 0x6F]), ('\u{339D}', [0x87, 0x70]), ('\u{339E}', [0x87, 0x71]), 
    ('\u{33A1}', [0x87, 0x75]), ('\u{33C4}', [0x87, 0x74]), ('\u{33CD}', [0x87, 0x83]), 
    ('\u{4E00}', [0x88, 0xEA]), ('\u{4E01}', [0x92, 0x9A]), ('\u{4E03}', [0x8E, 0xB5]), 
    ('\u{4E07}', [0x96, 0x9C]), ('\u{4E08}', [0x8F, 0xE4]), ('\u{4E09}', [0x8E, 0x4F]), 
    ('\u{4E0A}', [0x8F, 0xE3]), ('\u{4E0B}', [0x89, 0xBA]), ('\u{4E0D}', [0x95, 0x73]), 
    ('\u{4E0E}', [0x97, 0x5E]), ('\u{4E10}', [0x98, 0xA0]), ('\u{4E11}', [0x89, 0x4E]), 
    ('\u{4E14}', [0x8A, 0x8E]), ('\u{4E15}', [0x98, 0xA1]), ('\u{4E16}', [0x90, 0xA2]), 
    ('\u{4E17}', [0x99, 0xC0]), ('\u{4E18}', [0x8B, 0x75]), ('\u{4E19}', [0x95, 0xB8]), 
    ('\u{4E1E}', [0x8F, 0xE5]), ('\u{4E21}', [0x97, 0xBC]), ('\u{4E26}', [0x95, 0xC0]), 
    ('\u{4E28}', [0xFA, 0x68]), ('\u{4E2A}', [0x98, 0xA2]), ('\u{4E2D}', [0x92, 0x86]), 
    ('\u{4E31}', [0x98, 0xA3]), ('\u{4E32}', [0x8B, 0xF8]), ('\u{4E36}', [0x98, 0xA4]), 
    ('\u{4E38}', [0x8A, 0xDB]), ('\u{4E39}', [0x92, 0x4F]), ('\u{4E3B}', [0x8E, 0xE5]), 
    ('\u{4E3C}', [0x98, 0xA5]), ('\u{4E3F}', [0x98, 0xA6]), ('\u{4E42}', [0x98, 0xA7]), 
    ('\u{4E43}', [0x94, 0x54]), ('\u{4E45}', [0x8B, 0x76]), ('\u{4E4B}', [0x94, 0x56]), 
    ('\u{4E4D}', [0x93, 0xE1]), ('\u{4E4E}', [0x8C, 0xC1]), ('\u{4E4F}', [0x96, 0x52]), 
    ('\u{4E55}', [0xE5, 0x68]), ('\u{4E56}', [0x98, 0xA8]), ('\u{4E57}', [0x8F, 0xE6]), 
    ('\u{4E58}', [0x98, 0xA9]), ('\u{4E59}', [0x89, 0xB3]), ('\u{4E5D}', [0x8B, 0xE3]), 
    ('\u{4E5E}', [0x8C, 0xEE]), ('\u{4E5F}', [0x96, 0xE7]), ('\u{4E62}', [0x9B, 0xA4]), 
    ('\u{4E71}', [0x97, 0x90]), ('\u{4E73}', [0x93, 0xFB]), ('\u{4E7E}', [0x8A, 0xA3]), 
    ('\u{4E80}', [0x8B, 0x54]), ('\u{4E82}', [0x98, 0xAA]), ('\u{4E85}', [0x98, 0xAB]), 
    ('\u{4E86}', [0x97, 0xB9]), ('\u{4E88}', [0x97, 0x5C]), ('\u{4E89}', [0x91, 0x88]), 
    ('\u{4E8A}', [0x98, 0xAD]), ('\u{4E8B}', [0x8E, 0x96]), ('\u{4E8C}', [0x93, 0xF1]), 
    ('\u{4E8E}', [0x98, 0xB0]), ('\u{4E91}', [0x89, 0x5D]), ('\u{4E92}', [0x8C, 0xDD]), 
    ('\u{4E94}', [0x8C, 0xDC]), ('\u{4E95}', [0x88, 0xE4]), ('\u{4E98}', [0x98, 0x6A]), 
    ('\u{4E99}', [0x98, 0x69]), ('\u{4E9B}', [0x8D, 0xB1]), ('\u{4E9C}', [0x88, 0x9F]), 
    ('\u{4E9E}', [0x98, 0xB1]), ('\u{4E9F}', [0x98, 0xB2]), ('\u{4EA0}', [0x98, 0xB3]), 
    ('\u{4EA1}', [0x96, 0x53]), ('\u{4EA2}', [0x98, 0xB4]), ('\u{4EA4}', [0x8C, 0xF0]), 
    ('\u{4EA5}', [0x88, 0xE5]), ('\u{4EA6}', [0x96, 0x92]), ('\u{4EA8}', [0x8B, 0x9C]), 
    ('\u{4EAB}', [0x8B, 0x9D]), ('\u{4EAC}', [0x8B, 0x9E]), ('\u{4EAD}', [0x92, 0xE0]), 
    ('\u{4EAE}', [0x97, 0xBA]), ('\u{4EB0}', [0x98, 0xB5]), ('\u{4EB3}', [0x98, 0xB6]), 
    ('\u{4EB6}', [0x98, 0xB7]), ('\u{4EBA}', [0x90, 0x6C]), ('\u{4EC0}', [0x8F, 0x59]), 
    ('\u{4EC1}', [0x90, 0x6D]), ('\u{4EC2}', [0x98, 0xBC]), ('\u{4EC4}', [0x98, 0xBA]), 
    ('\u{4EC6}', [0x98, 0xBB]), ('\u{4EC7}', [0x8B, 0x77]), ('\u{4ECA}', [0x8D, 0xA1]), 
    ('\u{4ECB}', [0x89, 0xEE]), ('\u{4ECD}', [0x98, 0xB9]), ('\u{4ECE}', [0x98, 0xB8]), 
    ('\u{4ECF}', [0x95, 0xA7]), ('\u{4ED4}', [0x8E, 0x65]), ('\u{4ED5}', [0x8E, 0x64]), 
    ('\u{4ED6}', [0x91, 0xBC]), ('\u{4ED7}', [0x98, 0xBD]), ('\u{4ED8}', [0x95, 0x74]), 
    ('\u{4ED9}', [0x90, 0xE5]), ('\u{4EDD}', [0x81, 0x57]), ('\u{4EDE}', [0x98, 0xBE]), 
    ('\u{4EDF}', [0x98, 0xC0]), ('\u{4EE1}', [0xFA, 0x69]), ('\u{4EE3}', [0x91, 0xE3]), 
    ('\u{4EE4}', [0x97, 0xDF]), ('\u{4EE5}', [0x88, 0xC8]), ('\u{4EED}', [0x98, 0xBF]), 
    ('\u{4EEE}', [0x89, 0xBC]), ('\u{4EF0}', [0x8B, 0xC2]), ('\u{4EF2}', [0x92, 0x87]), 
    ('\u{4EF6}', [0x8C, 0x8F]), ('\u{4EF7}', [0x98, 0xC1]), ('\u{4EFB}', [0x94, 0x43]), 
    ('\u{4EFC}', [0xFA, 0x6A]), ('\u{4F00}', [0xFA, 0x6B]), ('\u{4F01}', [0x8A, 0xE9]), 
    ('\u{4F03}', [0xFA, 0x6C]), ('\u{4F09}', [0x98, 0xC2]), ('\u{4F0A}', [0x88, 0xC9]), 
    ('\u{4F0D}', [0x8C, 0xDE]), ('\u{4F0E}', [0x8A, 0xEA]), ('\u{4F0F}', [0x95, 0x9A]), 
    ('\u{4F10}', [0x94, 0xB0]), ('\u{4F11}', [0x8B, 0x78]), ('\u{4F1A}', [0x89, 0xEF]), 
    ('\u{4F1C}', [0x98, 0xE5]), ('\u{4F1D}', [0x93, 0x60]), ('\u{4F2F}', [0x94, 0x8C]), 
    ('\u{4F30}', [0x98, 0xC4]), ('\u{4F34}', [0x94, 0xBA]), ('\u{4F36}', [0x97, 0xE0]), 
    ('\u{4F38}', [0x90, 0x4C]), ('\u{4F39}', [0xFA, 0x6D]), ('\u{4F3A}', [0x8E, 0x66]), 
    ('\u{4F3C}', [0x8E, 0x97]), ('\u{4F3D}', [0x89, 0xBE]), ('\u{4F43}', [0x92, 0xCF]), 
    ('\u{4F46}', [0x92, 0x41]), ('\u{4F47}', [0x98, 0xC8]), ('\u{4F4D}', [0x88, 0xCA]), 
    ('\u{4F4E}', [0x92, 0xE1]), ('\u{4F4F}', [0x8F, 0x5A]), ('\u{4F50}', [0x8D, 0xB2]), 
    ('\u{4F51}', [0x97, 0x43]), ('\u{4F53}', [0x91, 0xCC]), ('\u{4F55}', [0x89, 0xBD]), 
    ('\u{4F56}', [0xFA, 0x6E]), ('\u{4F57}', [0x98, 0xC7]), ('\u{4F59}', [0x97, 0x5D]), 
    ('\u{4F5A}', [0x98, 0xC3]), ('\u{4F5B}', [0x98, 0xC5]), ('\u{4F5C}', [0x8D, 0xEC]), 
    ('\u{4F5D}', [0x98, 0xC6]), ('\u{4F5E}', [0x9B, 0x43]), ('\u{4F69}', [0x98, 0xCE]), 
    ('\u{4F6F}', [0x98, 0xD1]), ('\u{4F70}', [0x98, 0xCF]), ('\u{4F73}', [0x89, 0xC0]), 
    ('\u{4F75}', [0x95, 0xB9]), ('\u{4F76}', [0x98, 0xC9]), ('\u{4F7B}', [0x98, 0xCD]), 
    ('\u{4F7C}', [0x8C, 0xF1]), ('\u{4F7F}', [0x8E, 0x67]), ('\u{4F83}', [0x8A, 0xA4]), 
    ('\u{4F86}', [0x98, 0xD2]), ('\u{4F88}', [0x98, 0xCA]), ('\u{4F8A}', [0xFA, 0x70]), 
    ('\u{4F8B}', [0x97, 0xE1]), ('\u{4F8D}', [0x8E, 0x98]), ('\u{4F8F}', [0x98, 0xCB]), 
    ('\u{4F91}', [0x98, 0xD0]), ('\u{4F92}', [0xFA, 0x6F]), ('\u{4F94}', [0xFA, 0x72]), 
    ('\u{4F96}', [0x98, 0xD3]), ('\u{4F98}', [0x98, 0xCC]), ('\u{4F9A}', [0xFA, 0x71]), 
    ('\u{4F9B}', [0x8B, 0x9F]), ('\u{4F9D}', [0x88, 0xCB]), ('\u{4FA0}', [0x8B, 0xA0]), 
    ('\u{4FA1}', [0x89, 0xBF]), ('\u{4FAB}', [0x9B, 0x44]), ('\u{4FAD}', [0x96, 0x99]), 
    ('\u{4FAE}', [0x95, 0x8E]), ('\u{4FAF}', [0x8C, 0xF2]), ('\u{4FB5}', [0x90, 0x4E]), 
    ('\u{4FB6}', [0x97, 0xB5]), ('\u{4FBF}', [0x95, 0xD6]), ('\u{4FC2}', [0x8C, 0x57]), 
    ('\u{4FC3}', [0x91, 0xA3]), ('\u{4FC4}', [0x89, 0xE2]), ('\u{4FC9}', [0xFA, 0x61]), 
    ('\u{4FCA}', [0x8F, 0x72]), ('\u{4FCD}', [0xFA, 0x73]), ('\u{4FCE}', [0x98, 0xD7]), 
    ('\u{4FD0}', [0x98, 0xDC]), ('\u{4FD1}', [0x98, 0xDA]), ('\u{4FD4}', [0x98, 0xD5]), 
    ('\u{4FD7}', [0x91, 0xAD]), ('\u{4FD8}', [0x98, 0xD8]), ('\u{4FDA}', [0x98, 0xDB]), 
    ('\u{4FDB}', [0x98, 0xD9]), ('\u{4FDD}', [0x95, 0xDB]), ('\u{4FDF}', [0x98, 0xD6]), 
    ('\u{4FE1}', [0x90, 0x4D]), ('\u{4FE3}', [0x96, 0x93]), ('\u{4FE4}', [0x98, 0xDD]), 
    ('\u{4FE5}', [0x98, 0xDE]), ('\u{4FEE}', [0x8F, 0x43]), ('\u{4FEF}', [0x98, 0xEB]), 
    ('\u{4FF3}', [0x94, 0x6F]), ('\u{4FF5}', [0x95, 0x55]), ('\u{4FF6}', [0x98, 0xE6]), 
    ('\u{4FF8}', [0x95, 0xEE]), ('\u{4FFA}', [0x89, 0xB4]), ('\u{4FFE}', [0x98, 0xEA]), 
    ('\u{4FFF}', [0xFA, 0x76]), ('\u{5005}', [0x98, 0xE4]), ('\u{5006}', [0x98, 0xED]), 
    ('\u{5009}', [0x91, 0x71]), ('\u{500B}', [0x8C, 0xC2]), ('\u{500D}', [0x94, 0x7B]), 
    ('\u{500F}', [0xE0, 0xC5]), ('\u{5011}', [0x98, 0xEC]), ('\u{5012}', [0x93, 0x7C]), 
    ('\u{5014}', [0x98, 0xE1]), ('\u{5016}', [0x8C, 0xF4]), ('\u{5019}', [0x8C, 0xF3]), 
    ('\u{501A}', [0x98, 0xDF]), ('\u{501E}', [0xFA, 0x77]), ('\u{501F}', [0x8E, 0xD8]), 
    ('\u{5021}', [0x98, 0xE7]), ('\u{5022}', [0xFA, 0x75]), ('\u{5023}', [0x95, 0xED]), 
    ('\u{5024}', [0x92, 0x6C]), ('\u{5025}', [0x98, 0xE3]), ('\u{5026}', [0x8C, 0x91]), 
    ('\u{5028}', [0x98, 0xE0]), ('\u{5029}', [0x98, 0xE8]), ('\u{502A}', [0x98, 0xE2]), 
    ('\u{502B}', [0x97, 0xCF]), ('\u{502C}', [0x98, 0xE9]), ('\u{502D}', [0x98, 0x60]), 
    ('\u{5036}', [0x8B, 0xE4]), ('\u{5039}', [0x8C, 0x90]), ('\u{5040}', [0xFA, 0x74]), 
    ('\u{5042}', [0xFA, 0x7A]), ('\u{5043}', [0x98, 0xEE]), ('\u{5046}', [0xFA, 0x78]), 
    ('\u{5047}', [0x98, 0xEF]), ('\u{5048}', [0x98, 0xF3]), ('\u{5049}', [0x88, 0xCC]), 
    ('\u{504F}', [0x95, 0xCE]), ('\u{5050}', [0x98, 0xF2]), ('\u{5055}', [0x98, 0xF1]), 
"#

/-- src/generated/whatwg/shiftjis_whatwg_tables.rs.inc:1652-1779 -/
noncomputable def encode2 : List Text := lines! r#"    ('\u{5056}', [0x98, 0xF5]), ('\u{505A}', [0x98, 0xF4]), ('\u{505C}', [0x92, 0xE2]), 
    ('\u{5065}', [0x8C, 0x92]), ('\u{506C}', [0x98, 0xF6]), ('\u{5070}', [0xFA, 0x79]), 
    ('\u{5072}', [0x8E, 0xC3]), ('\u{5074}', [0x91, 0xA4]), ('\u{5075}', [0x92, 0xE3]), 
    ('\u{5076}', [0x8B, 0xF4]), ('\u{5078}', [0x98, 0xF7]), ('\u{507D}', [0x8B, 0x55]), 
    ('\u{5080}', [0x98, 0xF8]), ('\u{5085}', [0x98, 0xFA]), ('\u{508D}', [0x96, 0x54]), 
    ('\u{5091}', [0x8C, 0x86]), ('\u{5094}', [0xFA, 0x7B]), ('\u{5098}', [0x8E, 0x50]), 
    ('\u{5099}', [0x94, 0xF5]), ('\u{509A}', [0x98, 0xF9]), ('\u{50AC}', [0x8D, 0xC3]), 
    ('\u{50AD}', [0x97, 0x62]), ('\u{50B2}', [0x98, 0xFC]), ('\u{50B3}', [0x99, 0x42]), 
    ('\u{50B4}', [0x98, 0xFB]), ('\u{50B5}', [0x8D, 0xC2]), ('\u{50B7}', [0x8F, 0x9D]), 
    ('\u{50BE}', [0x8C, 0x58]), ('\u{50C2}', [0x99, 0x43]), ('\u{50C5}', [0x8B, 0xCD]), 
    ('\u{50C9}', [0x99, 0x40]), ('\u{50CA}', [0x99, 0x41]), ('\u{50CD}', [0x93, 0xAD]), 
    ('\u{50CF}', [0x91, 0x9C]), ('\u{50D1}', [0x8B, 0xA1]), ('\u{50D5}', [0x96, 0x6C]), 
    ('\u{50D6}', [0x99, 0x44]), ('\u{50D8}', [0xFA, 0x7D]), ('\u{50DA}', [0x97, 0xBB]), 
    ('\u{50DE}', [0x99, 0x45]), ('\u{50E3}', [0x99, 0x48]), ('\u{50E5}', [0x99, 0x46]), 
    ('\u{50E7}', [0x91, 0x6D]), ('\u{50ED}', [0x99, 0x47]), ('\u{50EE}', [0x99, 0x49]), 
    ('\u{50F4}', [0xFA, 0x7C]), ('\u{50F5}', [0x99, 0x4B]), ('\u{50F9}', [0x99, 0x4A]), 
    ('\u{50FB}', [0x95, 0xC6]), ('\u{5100}', [0x8B, 0x56]), ('\u{5101}', [0x99, 0x4D]), 
    ('\u{5102}', [0x99, 0x4E]), ('\u{5104}', [0x89, 0xAD]), ('\u{5109}', [0x99, 0x4C]), 
    ('\u{5112}', [0x8E, 0xF2]), ('\u{5114}', [0x99, 0x51]), ('\u{5115}', [0x99, 0x50]), 
    ('\u{5116}', [0x99, 0x4F]), ('\u{5118}', [0x98, 0xD4]), ('\u{511A}', [0x99, 0x52]), 
    ('\u{511F}', [0x8F, 0x9E]), ('\u{5121}', [0x99, 0x53]), ('\u{512A}', [0x97, 0x44]), 
    ('\u{5132}', [0x96, 0xD7]), ('\u{5137}', [0x99, 0x55]), ('\u{513A}', [0x99, 0x54]), 
    ('\u{513B}', [0x99, 0x57]), ('\u{513C}', [0x99, 0x56]), ('\u{513F}', [0x99, 0x58]), 
    ('\u{5140}', [0x99, 0x59]), ('\u{5141}', [0x88, 0xF2]), ('\u{5143}', [0x8C, 0xB3]), 
    ('\u{5144}', [0x8C, 0x5A]), ('\u{5145}', [0x8F, 0x5B]), ('\u{5146}', [0x92, 0x9B]), 
    ('\u{5147}', [0x8B, 0xA2]), ('\u{5148}', [0x90, 0xE6]), ('\u{5149}', [0x8C, 0xF5]), 
    ('\u{514A}', [0xFA, 0x7E]), ('\u{514B}', [0x8D, 0x8E]), ('\u{514C}', [0x99, 0x5B]), 
    ('\u{514D}', [0x96, 0xC6]), ('\u{514E}', [0x93, 0x65]), ('\u{5150}', [0x8E, 0x99]), 
    ('\u{5152}', [0x99, 0x5A]), ('\u{5154}', [0x99, 0x5C]), ('\u{515A}', [0x93, 0x7D]), 
    ('\u{515C}', [0x8A, 0x95]), ('\u{5162}', [0x99, 0x5D]), ('\u{5164}', [0xFA, 0x80]), 
    ('\u{5165}', [0x93, 0xFC]), ('\u{5168}', [0x91, 0x53]), ('\u{5169}', [0x99, 0x5F]), 
    ('\u{516A}', [0x99, 0x60]), ('\u{516B}', [0x94, 0xAA]), ('\u{516C}', [0x8C, 0xF6]), 
    ('\u{516D}', [0x98, 0x5A]), ('\u{516E}', [0x99, 0x61]), ('\u{5171}', [0x8B, 0xA4]), 
    ('\u{5175}', [0x95, 0xBA]), ('\u{5176}', [0x91, 0xB4]), ('\u{5177}', [0x8B, 0xEF]), 
    ('\u{5178}', [0x93, 0x54]), ('\u{517C}', [0x8C, 0x93]), ('\u{5180}', [0x99, 0x62]), 
    ('\u{5182}', [0x99, 0x63]), ('\u{5185}', [0x93, 0xE0]), ('\u{5186}', [0x89, 0x7E]), 
    ('\u{5189}', [0x99, 0x66]), ('\u{518A}', [0x8D, 0xFB]), ('\u{518C}', [0x99, 0x65]), 
    ('\u{518D}', [0x8D, 0xC4]), ('\u{518F}', [0x99, 0x67]), ('\u{5190}', [0xE3, 0xEC]), 
    ('\u{5191}', [0x99, 0x68]), ('\u{5192}', [0x96, 0x60]), ('\u{5193}', [0x99, 0x69]), 
    ('\u{5195}', [0x99, 0x6A]), ('\u{5196}', [0x99, 0x6B]), ('\u{5197}', [0x8F, 0xE7]), 
    ('\u{5199}', [0x8E, 0xCA]), ('\u{519D}', [0xFA, 0x81]), ('\u{51A0}', [0x8A, 0xA5]), 
    ('\u{51A2}', [0x99, 0x6E]), ('\u{51A4}', [0x99, 0x6C]), ('\u{51A5}', [0x96, 0xBB]), 
    ('\u{51A6}', [0x99, 0x6D]), ('\u{51A8}', [0x95, 0x79]), ('\u{51A9}', [0x99, 0x6F]), 
    ('\u{51AA}', [0x99, 0x70]), ('\u{51AB}', [0x99, 0x71]), ('\u{51AC}', [0x93, 0x7E]), 
    ('\u{51B0}', [0x99, 0x75]), ('\u{51B1}', [0x99, 0x73]), ('\u{51B2}', [0x99, 0x74]), 
    ('\u{51B3}', [0x99, 0x72]), ('\u{51B4}', [0x8D, 0xE1]), ('\u{51B5}', [0x99, 0x76]), 
    ('\u{51B6}', [0x96, 0xE8]), ('\u{51B7}', [0x97, 0xE2]), ('\u{51BD}', [0x99, 0x77]), 
    ('\u{51BE}', [0xFA, 0x82]), ('\u{51C4}', [0x90, 0xA6]), ('\u{51C5}', [0x99, 0x78]), 
    ('\u{51C6}', [0x8F, 0x79]), ('\u{51C9}', [0x99, 0x79]), ('\u{51CB}', [0x92, 0x9C]), 
    ('\u{51CC}', [0x97, 0xBD]), ('\u{51CD}', [0x93, 0x80]), ('\u{51D6}', [0x99, 0xC3]), 
    ('\u{51DB}', [0x99, 0x7A]), ('\u{51DC}', [0xEA, 0xA3]), ('\u{51DD}', [0x8B, 0xC3]), 
    ('\u{51E0}', [0x99, 0x7B]), ('\u{51E1}', [0x96, 0x7D]), ('\u{51E6}', [0x8F, 0x88]), 
    ('\u{51E7}', [0x91, 0xFA]), ('\u{51E9}', [0x99, 0x7D]), ('\u{51EA}', [0x93, 0xE2]), 
    ('\u{51EC}', [0xFA, 0x83]), ('\u{51ED}', [0x99, 0x7E]), ('\u{51F0}', [0x99, 0x80]), 
    ('\u{51F1}', [0x8A, 0x4D]), ('\u{51F5}', [0x99, 0x81]), ('\u{51F6}', [0x8B, 0xA5]), 
    ('\u{51F8}', [0x93, 0xCA]), ('\u{51F9}', [0x89, 0x9A]), ('\u{51FA}', [0x8F, 0x6F]), 
    ('\u{51FD}', [0x94, 0x9F]), ('\u{51FE}', [0x99, 0x82]), ('\u{5200}', [0x93, 0x81]), 
    ('\u{5203}', [0x90, 0x6E]), ('\u{5204}', [0x99, 0x83]), ('\u{5206}', [0x95, 0xAA]), 
    ('\u{5207}', [0x90, 0xD8]), ('\u{5208}', [0x8A, 0xA0]), ('\u{520A}', [0x8A, 0xA7]), 
    ('\u{520B}', [0x99, 0x84]), ('\u{520E}', [0x99, 0x86]), ('\u{5211}', [0x8C, 0x59]), 
    ('\u{5214}', [0x99, 0x85]), ('\u{5215}', [0xFA, 0x84]), ('\u{5217}', [0x97, 0xF1]), 
    ('\u{521D}', [0x8F, 0x89]), ('\u{5224}', [0x94, 0xBB]), ('\u{5225}', [0x95, 0xCA]), 
    ('\u{5227}', [0x99, 0x87]), ('\u{5229}', [0x97, 0x98]), ('\u{522A}', [0x99, 0x88]), 
    ('\u{522E}', [0x99, 0x89]), ('\u{5230}', [0x93, 0x9E]), ('\u{5233}', [0x99, 0x8A]), 
    ('\u{5236}', [0x90, 0xA7]), ('\u{5237}', [0x8D, 0xFC]), ('\u{5238}', [0x8C, 0x94]), 
    ('\u{5239}', [0x99, 0x8B]), ('\u{523A}', [0x8E, 0x68]), ('\u{523B}', [0x8D, 0x8F]), 
    ('\u{5243}', [0x92, 0xE4]), ('\u{5244}', [0x99, 0x8D]), ('\u{5247}', [0x91, 0xA5]), 
    ('\u{524A}', [0x8D, 0xED]), ('\u{524B}', [0x99, 0x8E]), ('\u{524C}', [0x99, 0x8F]), 
    ('\u{524D}', [0x91, 0x4F]), ('\u{524F}', [0x99, 0x8C]), ('\u{5254}', [0x99, 0x91]), 
    ('\u{5256}', [0x96, 0x55]), ('\u{525B}', [0x8D, 0x84]), ('\u{525E}', [0x99, 0x90]), 
    ('\u{5263}', [0x8C, 0x95]), ('\u{5264}', [0x8D, 0xDC]), ('\u{5265}', [0x94, 0x8D]), 
    ('\u{5269}', [0x99, 0x94]), ('\u{526A}', [0x99, 0x92]), ('\u{526F}', [0x95, 0x9B]), 
    ('\u{5270}', [0x8F, 0xE8]), ('\u{5271}', [0x99, 0x9B]), ('\u{5272}', [0x8A, 0x84]), 
    ('\u{5273}', [0x99, 0x95]), ('\u{5274}', [0x99, 0x93]), ('\u{5275}', [0x91, 0x6E]), 
    ('\u{527D}', [0x99, 0x97]), ('\u{527F}', [0x99, 0x96]), ('\u{5283}', [0x8A, 0x63]), 
    ('\u{5287}', [0x8C, 0x80]), ('\u{5288}', [0x99, 0x9C]), ('\u{5289}', [0x97, 0xAB]), 
    ('\u{528D}', [0x99, 0x98]), ('\u{5291}', [0x99, 0x9D]), ('\u{5292}', [0x99, 0x9A]), 
    ('\u{5294}', [0x99, 0x99]), ('\u{529B}', [0x97, 0xCD]), ('\u{529C}', [0xFA, 0x85]), 
    ('\u{529F}', [0x8C, 0xF7]), ('\u{52A0}', [0x89, 0xC1]), ('\u{52A3}', [0x97, 0xF2]), 
    ('\u{52A6}', [0xFA, 0x86]), ('\u{52A9}', [0x8F, 0x95]), ('\u{52AA}', [0x93, 0x77]), 
    ('\u{52AB}', [0x8D, 0x85]), ('\u{52AC}', [0x99, 0xA0]), ('\u{52AD}', [0x99, 0xA1]), 
    ('\u{52AF}', [0xFB, 0x77]), ('\u{52B1}', [0x97, 0xE3]), ('\u{52B4}', [0x98, 0x4A]), 
    ('\u{52B5}', [0x99, 0xA3]), ('\u{52B9}', [0x8C, 0xF8]), ('\u{52BC}', [0x99, 0xA2]), 
    ('\u{52BE}', [0x8A, 0x4E]), ('\u{52C0}', [0xFA, 0x87]), ('\u{52C1}', [0x99, 0xA4]), 
    ('\u{52C3}', [0x96, 0x75]), ('\u{52C5}', [0x92, 0xBA]), ('\u{52C7}', [0x97, 0x45]), 
    ('\u{52C9}', [0x95, 0xD7]), ('\u{52CD}', [0x99, 0xA5]), ('\u{52D2}', [0xE8, 0xD3]), 
    ('\u{52D5}', [0x93, 0xAE]), ('\u{52D7}', [0x99, 0xA6]), ('\u{52D8}', [0x8A, 0xA8]), 
    ('\u{52D9}', [0x96, 0xB1]), ('\u{52DB}', [0xFA, 0x88]), ('\u{52DD}', [0x8F, 0x9F]), 
    ('\u{52DE}', [0x99, 0xA7]), ('\u{52DF}', [0x95, 0xE5]), ('\u{52E0}', [0x99, 0xAB]), 
    ('\u{52E2}', [0x90, 0xA8]), ('\u{52E3}', [0x99, 0xA8]), ('\u{52E4}', [0x8B, 0xCE]), 
    ('\u{52E6}', [0x99, 0xA9]), ('\u{52E7}', [0x8A, 0xA9]), ('\u{52F2}', [0x8C, 0x4D]), 
    ('\u{52F3}', [0x99, 0xAC]), ('\u{52F5}', [0x99, 0xAD]), ('\u{52F8}', [0x99, 0xAE]), 
    ('\u{52F9}', [0x99, 0xAF]), ('\u{52FA}', [0x8E, 0xD9]), ('\u{52FE}', [0x8C, 0xF9]), 
    ('\u{52FF}', [0x96, 0xDC]), ('\u{5300}', [0xFA, 0x89]), ('\u{5301}', [0x96, 0xE6]), 
    ('\u{5302}', [0x93, 0xF5]), ('\u{5305}', [0x95, 0xEF]), ('\u{5306}', [0x99, 0xB0]), 
    ('\u{5307}', [0xFA, 0x8A]), ('\u{5308}', [0x99, 0xB1]), ('\u{530D}', [0x99, 0xB3]), 
    ('\u{530F}', [0x99, 0xB5]), ('\u{5310}', [0x99, 0xB4]), ('\u{5315}', [0x99, 0xB6]), 
    ('\u{5316}', [0x89, 0xBB]), ('\u{5317}', [0x96, 0x6B]), ('\u{5319}', [0x8D, 0xFA]), 
    ('\u{531A}', [0x99, 0xB7]), ('\u{531D}', [0x91, 0x78]), ('\u{5320}', [0x8F, 0xA0]), 
    ('\u{5321}', [0x8B, 0xA7]), ('\u{5323}', [0x99, 0xB8]), ('\u{5324}', [0xFA, 0x8B]), 
    ('\u{532A}', [0x94, 0xD9]), ('\u{532F}', [0x99, 0xB9]), ('\u{5331}', [0x99, 0xBA]), 
    ('\u{5333}', [0x99, 0xBB]), ('\u{5338}', [0x99, 0xBC]), ('\u{5339}', [0x95, 0x43]), 
    ('\u{533A}', [0x8B, 0xE6]), ('\u{533B}', [0x88, 0xE3]), ('\u{533F}', [0x93, 0xBD]), 
    ('\u{5340}', [0x99, 0xBD]), ('\u{5341}', [0x8F, 0x5C]), ('\u{5343}', [0x90, 0xE7]), 
    ('\u{5345}', [0x99, 0xBF]), ('\u{5346}', [0x99, 0xBE]), ('\u{5347}', [0x8F, 0xA1]), 
    ('\u{5348}', [0x8C, 0xDF]), ('\u{5349}', [0x99, 0xC1]), ('\u{534A}', [0x94, 0xBC]), 
    ('\u{534D}', [0x99, 0xC2]), ('\u{5351}', [0x94, 0xDA]), ('\u{5352}', [0x91, 0xB2]), 
    ('\u{5353}', [0x91, 0xEC]), ('\u{5354}', [0x8B, 0xA6]), ('\u{5357}', [0x93, 0xEC]), 
    ('\u{5358}', [0x92, 0x50]), ('\u{535A}', [0x94, 0x8E]), ('\u{535C}', [0x96, 0x6D]), 
    ('\u{535E}', [0x99, 0xC4]), ('\u{5360}', [0x90, 0xE8]), ('\u{5366}', [0x8C, 0x54]), 
    ('\u{5369}', [0x99, 0xC5]), ('\u{536E}', [0x99, 0xC6]), ('\u{536F}', [0x89, 0x4B]), 
    ('\u{5370}', [0x88, 0xF3]), ('\u{5371}', [0x8A, 0xEB]), ('\u{5372}', [0xFA, 0x8C]), 
    ('\u{5373}', [0x91, 0xA6]), ('\u{5374}', [0x8B, 0x70]), ('\u{5375}', [0x97, 0x91]), 
    ('\u{5377}', [0x99, 0xC9]), ('\u{5378}', [0x89, 0xB5]), ('\u{537B}', [0x99, 0xC8]), 
    ('\u{537F}', [0x8B, 0xA8]), ('\u{5382}', [0x99, 0xCA]), ('\u{5384}', [0x96, 0xEF]), 
    ('\u{5393}', [0xFA, 0x8D]), ('\u{5396}', [0x99, 0xCB]), ('\u{5398}', [0x97, 0xD0]), 
    ('\u{539A}', [0x8C, 0xFA]), ('\u{539F}', [0x8C, 0xB4]), ('\u{53A0}', [0x99, 0xCC]), 
    ('\u{53A5}', [0x99, 0xCE]), ('\u{53A6}', [0x99, 0xCD]), ('\u{53A8}', [0x90, 0x7E]), 
    ('\u{53A9}', [0x89, 0x58]), ('\u{53AD}', [0x89, 0x7D]), ('\u{53AE}', [0x99, 0xCF]), 
    ('\u{53B0}', [0x99, 0xD0]), ('\u{53B2}', [0xFA, 0x8E]), ('\u{53B3}', [0x8C, 0xB5]), 
    ('\u{53B6}', [0x99, 0xD1]), ('\u{53BB}', [0x8B, 0x8E]), ('\u{53C2}', [0x8E, 0x51]), 
    ('\u{53C3}', [0x99, 0xD2]), ('\u{53C8}', [0x96, 0x94]), ('\u{53C9}', [0x8D, 0xB3]), 
    ('\u{53CA}', [0x8B, 0x79]), ('\u{53CB}', [0x97, 0x46]), ('\u{53CC}', [0x91, 0x6F]), 
    ('\u{53CD}', [0x94, 0xBD]), ('\u{53CE}', [0x8E, 0xFB]), ('\u{53D4}', [0x8F, 0x66]), 
    ('\u{53D6}', [0x8E, 0xE6]), ('\u{53D7}', [0x8E, 0xF3]), ('\u{53D9}', [0x8F, 0x96]), 
    ('\u{53DB}', [0x94, 0xBE]), ('\u{53DD}', [0xFA, 0x8F]), ('\u{53DF}', [0x99, 0xD5]), 
    ('\u{53E1}', [0x89, 0x62]), ('\u{53E2}', [0x91, 0x70]), ('\u{53E3}', [0x8C, 0xFB]), 
    ('\u{53E4}', [0x8C, 0xC3]), ('\u{53E5}', [0x8B, 0xE5]), ('\u{53E8}', [0x99, 0xD9]), 
"#

/-- src/generated/whatwg/shiftjis_whatwg_tables.rs.inc:1780-1907 -/
noncomputable def encode3 : List Text := lines! r#"    ('\u{53E9}', [0x92, 0x40]), ('\u{53EA}', [0x91, 0xFC]), ('\u{53EB}', [0x8B, 0xA9]), 
    ('\u{53EC}', [0x8F, 0xA2]), ('\u{53ED}', [0x99, 0xDA]), ('\u{53EE}', [0x99, 0xD8]), 
    ('\u{53EF}', [0x89, 0xC2]), ('\u{53F0}', [0x91, 0xE4]), ('\u{53F1}', [0x8E, 0xB6]), 
    ('\u{53F2}', [0x8E, 0x6A]), ('\u{53F3}', [0x89, 0x45]), ('\u{53F6}', [0x8A, 0x90]), 
    ('\u{53F7}', [0x8D, 0x86]), ('\u{53F8}', [0x8E, 0x69]), ('\u{53FA}', [0x99, 0xDB]), 
    ('\u{5401}', [0x99, 0xDC]), ('\u{5403}', [0x8B, 0x68]), ('\u{5404}', [0x8A, 0x65]), 
    ('\u{5408}', [0x8D, 0x87]), ('\u{5409}', [0x8B, 0x67]), ('\u{540A}', [0x92, 0xDD]), 
    ('\u{540B}', [0x89, 0x44]), ('\u{540C}', [0x93, 0xAF]), ('\u{540D}', [0x96, 0xBC]), 
    ('\u{540E}', [0x8D, 0x40]), ('\u{540F}', [0x97, 0x99]), ('\u{5410}', [0x93, 0x66]), 
    ('\u{5411}', [0x8C, 0xFC]), ('\u{541B}', [0x8C, 0x4E]), ('\u{541D}', [0x99, 0xE5]), 
    ('\u{541F}', [0x8B, 0xE1]), ('\u{5420}', [0x96, 0x69]), ('\u{5426}', [0x94, 0xDB]), 
    ('\u{5429}', [0x99, 0xE4]), ('\u{542B}', [0x8A, 0xDC]), ('\u{542C}', [0x99, 0xDF]), 
    ('\u{542D}', [0x99, 0xE0]), ('\u{542E}', [0x99, 0xE2]), ('\u{5436}', [0x99, 0xE3]), 
    ('\u{5438}', [0x8B, 0x7A]), ('\u{5439}', [0x90, 0x81]), ('\u{543B}', [0x95, 0xAB]), 
    ('\u{543C}', [0x99, 0xE1]), ('\u{543D}', [0x99, 0xDD]), ('\u{543E}', [0x8C, 0xE1]), 
    ('\u{5440}', [0x99, 0xDE]), ('\u{5442}', [0x98, 0x43]), ('\u{5446}', [0x95, 0xF0]), 
    ('\u{5448}', [0x92, 0xE6]), ('\u{5449}', [0x8C, 0xE0]), ('\u{544A}', [0x8D, 0x90]), 
    ('\u{544E}', [0x99, 0xE6]), ('\u{5451}', [0x93, 0xDB]), ('\u{545F}', [0x99, 0xEA]), 
    ('\u{5468}', [0x8E, 0xFC]), ('\u{546A}', [0x8E, 0xF4]), ('\u{5470}', [0x99, 0xED]), 
    ('\u{5471}', [0x99, 0xEB]), ('\u{5473}', [0x96, 0xA1]), ('\u{5475}', [0x99, 0xE8]), 
    ('\u{5476}', [0x99, 0xF1]), ('\u{5477}', [0x99, 0xEC]), ('\u{547B}', [0x99, 0xEF]), 
    ('\u{547C}', [0x8C, 0xC4]), ('\u{547D}', [0x96, 0xBD]), ('\u{5480}', [0x99, 0xF0]), 
    ('\u{5484}', [0x99, 0xF2]), ('\u{5486}', [0x99, 0xF4]), ('\u{548A}', [0xFA, 0x92]), 
    ('\u{548B}', [0x8D, 0xEE]), ('\u{548C}', [0x98, 0x61]), ('\u{548E}', [0x99, 0xE9]), 
    ('\u{548F}', [0x99, 0xE7]), ('\u{5490}', [0x99, 0xF3]), ('\u{5492}', [0x99, 0xEE]), 
    ('\u{549C}', [0xFA, 0x91]), ('\u{54A2}', [0x99, 0xF6]), ('\u{54A4}', [0x9A, 0x42]), 
    ('\u{54A5}', [0x99, 0xF8]), ('\u{54A8}', [0x99, 0xFC]), ('\u{54A9}', [0xFA, 0x93]), 
    ('\u{54AB}', [0x9A, 0x40]), ('\u{54AC}', [0x99, 0xF9]), ('\u{54AF}', [0x9A, 0x5D]), 
    ('\u{54B2}', [0x8D, 0xE7]), ('\u{54B3}', [0x8A, 0x50]), ('\u{54B8}', [0x99, 0xF7]), 
    ('\u{54BC}', [0x9A, 0x44]), ('\u{54BD}', [0x88, 0xF4]), ('\u{54BE}', [0x9A, 0x43]), 
    ('\u{54C0}', [0x88, 0xA3]), ('\u{54C1}', [0x95, 0x69]), ('\u{54C2}', [0x9A, 0x41]), 
    ('\u{54C4}', [0x99, 0xFA]), ('\u{54C7}', [0x99, 0xF5]), ('\u{54C8}', [0x99, 0xFB]), 
    ('\u{54C9}', [0x8D, 0xC6]), ('\u{54D8}', [0x9A, 0x45]), ('\u{54E1}', [0x88, 0xF5]), 
    ('\u{54E2}', [0x9A, 0x4E]), ('\u{54E5}', [0x9A, 0x46]), ('\u{54E6}', [0x9A, 0x47]), 
    ('\u{54E8}', [0x8F, 0xA3]), ('\u{54E9}', [0x96, 0x89]), ('\u{54ED}', [0x9A, 0x4C]), 
    ('\u{54EE}', [0x9A, 0x4B]), ('\u{54F2}', [0x93, 0x4E]), ('\u{54FA}', [0x9A, 0x4D]), 
    ('\u{54FD}', [0x9A, 0x4A]), ('\u{54FF}', [0xFA, 0x94]), ('\u{5504}', [0x89, 0x53]), 
    ('\u{5506}', [0x8D, 0xB4]), ('\u{5507}', [0x90, 0x4F]), ('\u{550F}', [0x9A, 0x48]), 
    ('\u{5510}', [0x93, 0x82]), ('\u{5514}', [0x9A, 0x49]), ('\u{5516}', [0x88, 0xA0]), 
    ('\u{552E}', [0x9A, 0x53]), ('\u{552F}', [0x97, 0x42]), ('\u{5531}', [0x8F, 0xA5]), 
    ('\u{5533}', [0x9A, 0x59]), ('\u{5538}', [0x9A, 0x58]), ('\u{5539}', [0x9A, 0x4F]), 
    ('\u{553E}', [0x91, 0xC1]), ('\u{5540}', [0x9A, 0x50]), ('\u{5544}', [0x91, 0xED]), 
    ('\u{5545}', [0x9A, 0x55]), ('\u{5546}', [0x8F, 0xA4]), ('\u{554C}', [0x9A, 0x52]), 
    ('\u{554F}', [0x96, 0xE2]), ('\u{5553}', [0x8C, 0x5B]), ('\u{5556}', [0x9A, 0x56]), 
    ('\u{5557}', [0x9A, 0x57]), ('\u{555C}', [0x9A, 0x54]), ('\u{555D}', [0x9A, 0x5A]), 
    ('\u{5563}', [0x9A, 0x51]), ('\u{557B}', [0x9A, 0x60]), ('\u{557C}', [0x9A, 0x65]), 
    ('\u{557E}', [0x9A, 0x61]), ('\u{5580}', [0x9A, 0x5C]), ('\u{5583}', [0x9A, 0x66]), 
    ('\u{5584}', [0x91, 0x50]), ('\u{5586}', [0xFA, 0x95]), ('\u{5587}', [0x9A, 0x68]), 
    ('\u{5589}', [0x8D, 0x41]), ('\u{558A}', [0x9A, 0x5E]), ('\u{558B}', [0x92, 0x9D]), 
    ('\u{5598}', [0x9A, 0x62]), ('\u{5599}', [0x9A, 0x5B]), ('\u{559A}', [0x8A, 0xAB]), 
    ('\u{559C}', [0x8A, 0xEC]), ('\u{559D}', [0x8A, 0x85]), ('\u{559E}', [0x9A, 0x63]), 
    ('\u{559F}', [0x9A, 0x5F]), ('\u{55A7}', [0x8C, 0x96]), ('\u{55A8}', [0x9A, 0x69]), 
    ('\u{55A9}', [0x9A, 0x67]), ('\u{55AA}', [0x91, 0x72]), ('\u{55AB}', [0x8B, 0x69]), 
    ('\u{55AC}', [0x8B, 0xAA]), ('\u{55AE}', [0x9A, 0x64]), ('\u{55B0}', [0x8B, 0xF2]), 
    ('\u{55B6}', [0x89, 0x63]), ('\u{55C4}', [0x9A, 0x6D]), ('\u{55C5}', [0x9A, 0x6B]), 
    ('\u{55C7}', [0x9A, 0xA5]), ('\u{55D4}', [0x9A, 0x70]), ('\u{55DA}', [0x9A, 0x6A]), 
    ('\u{55DC}', [0x9A, 0x6E]), ('\u{55DF}', [0x9A, 0x6C]), ('\u{55E3}', [0x8E, 0x6B]), 
    ('\u{55E4}', [0x9A, 0x6F]), ('\u{55F7}', [0x9A, 0x72]), ('\u{55F9}', [0x9A, 0x77]), 
    ('\u{55FD}', [0x9A, 0x75]), ('\u{55FE}', [0x9A, 0x74]), ('\u{5606}', [0x92, 0x51]), 
    ('\u{5609}', [0x89, 0xC3]), ('\u{5614}', [0x9A, 0x71]), ('\u{5616}', [0x9A, 0x73]), 
    ('\u{5617}', [0x8F, 0xA6]), ('\u{5618}', [0x89, 0x52]), ('\u{561B}', [0x9A, 0x76]), 
    ('\u{5629}', [0x89, 0xDC]), ('\u{562F}', [0x9A, 0x82]), ('\u{5631}', [0x8F, 0xFA]), 
    ('\u{5632}', [0x9A, 0x7D]), ('\u{5634}', [0x9A, 0x7B]), ('\u{5636}', [0x9A, 0x7C]), 
    ('\u{5638}', [0x9A, 0x7E]), ('\u{5642}', [0x89, 0x5C]), ('\u{564C}', [0x91, 0x58]), 
    ('\u{564E}', [0x9A, 0x78]), ('\u{5650}', [0x9A, 0x79]), ('\u{565B}', [0x8A, 0x9A]), 
    ('\u{5664}', [0x9A, 0x81]), ('\u{5668}', [0x8A, 0xED]), ('\u{566A}', [0x9A, 0x84]), 
    ('\u{566B}', [0x9A, 0x80]), ('\u{566C}', [0x9A, 0x83]), ('\u{5674}', [0x95, 0xAC]), 
    ('\u{5678}', [0x93, 0xD3]), ('\u{567A}', [0x94, 0xB6]), ('\u{5680}', [0x9A, 0x86]), 
    ('\u{5686}', [0x9A, 0x85]), ('\u{5687}', [0x8A, 0x64]), ('\u{568A}', [0x9A, 0x87]), 
    ('\u{568F}', [0x9A, 0x8A]), ('\u{5694}', [0x9A, 0x89]), ('\u{56A0}', [0x9A, 0x88]), 
    ('\u{56A2}', [0x94, 0x58]), ('\u{56A5}', [0x9A, 0x8B]), ('\u{56AE}', [0x9A, 0x8C]), 
    ('\u{56B4}', [0x9A, 0x8E]), ('\u{56B6}', [0x9A, 0x8D]), ('\u{56BC}', [0x9A, 0x90]), 
    ('\u{56C0}', [0x9A, 0x93]), ('\u{56C1}', [0x9A, 0x91]), ('\u{56C2}', [0x9A, 0x8F]), 
    ('\u{56C3}', [0x9A, 0x92]), ('\u{56C8}', [0x9A, 0x94]), ('\u{56CE}', [0x9A, 0x95]), 
    ('\u{56D1}', [0x9A, 0x96]), ('\u{56D3}', [0x9A, 0x97]), ('\u{56D7}', [0x9A, 0x98]), 
    ('\u{56D8}', [0x99, 0x64]), ('\u{56DA}', [0x8E, 0xFA]), ('\u{56DB}', [0x8E, 0x6C]), 
    ('\u{56DE}', [0x89, 0xF1]), ('\u{56E0}', [0x88, 0xF6]), ('\u{56E3}', [0x92, 0x63]), 
    ('\u{56EE}', [0x9A, 0x99]), ('\u{56F0}', [0x8D, 0xA2]), ('\u{56F2}', [0x88, 0xCD]), 
    ('\u{56F3}', [0x90, 0x7D]), ('\u{56F9}', [0x9A, 0x9A]), ('\u{56FA}', [0x8C, 0xC5]), 
    ('\u{56FD}', [0x8D, 0x91]), ('\u{56FF}', [0x9A, 0x9C]), ('\u{5700}', [0x9A, 0x9B]), 
    ('\u{5703}', [0x95, 0xDE]), ('\u{5704}', [0x9A, 0x9D]), ('\u{5708}', [0x9A, 0x9F]), 
    ('\u{5709}', [0x9A, 0x9E]), ('\u{570B}', [0x9A, 0xA0]), ('\u{570D}', [0x9A, 0xA1]), 
    ('\u{570F}', [0x8C, 0x97]), ('\u{5712}', [0x89, 0x80]), ('\u{5713}', [0x9A, 0xA2]), 
    ('\u{5716}', [0x9A, 0xA4]), ('\u{5718}', [0x9A, 0xA3]), ('\u{571C}', [0x9A, 0xA6]), 
    ('\u{571F}', [0x93, 0x79]), ('\u{5726}', [0x9A, 0xA7]), ('\u{5727}', [0x88, 0xB3]), 
    ('\u{5728}', [0x8D, 0xDD]), ('\u{572D}', [0x8C, 0x5C]), ('\u{5730}', [0x92, 0x6E]), 
    ('\u{5737}', [0x9A, 0xA8]), ('\u{5738}', [0x9A, 0xA9]), ('\u{573B}', [0x9A, 0xAB]), 
    ('\u{5740}', [0x9A, 0xAC]), ('\u{5742}', [0x8D, 0xE2]), ('\u{5747}', [0x8B, 0xCF]), 
    ('\u{574A}', [0x96, 0x56]), ('\u{574E}', [0x9A, 0xAA]), ('\u{574F}', [0x9A, 0xAD]), 
    ('\u{5750}', [0x8D, 0xBF]), ('\u{5751}', [0x8D, 0x42]), ('\u{5759}', [0xFA, 0x96]), 
    ('\u{5761}', [0x9A, 0xB1]), ('\u{5764}', [0x8D, 0xA3]), ('\u{5765}', [0xFA, 0x97]), 
    ('\u{5766}', [0x92, 0x52]), ('\u{5769}', [0x9A, 0xAE]), ('\u{576A}', [0x92, 0xD8]), 
    ('\u{577F}', [0x9A, 0xB2]), ('\u{5782}', [0x90, 0x82]), ('\u{5788}', [0x9A, 0xB0]), 
    ('\u{5789}', [0x9A, 0xB3]), ('\u{578B}', [0x8C, 0x5E]), ('\u{5793}', [0x9A, 0xB4]), 
    ('\u{57A0}', [0x9A, 0xB5]), ('\u{57A2}', [0x8D, 0x43]), ('\u{57A3}', [0x8A, 0x5F]), 
    ('\u{57A4}', [0x9A, 0xB7]), ('\u{57AA}', [0x9A, 0xB8]), ('\u{57AC}', [0xFA, 0x98]), 
    ('\u{57B0}', [0x9A, 0xB9]), ('\u{57B3}', [0x9A, 0xB6]), ('\u{57C0}', [0x9A, 0xAF]), 
    ('\u{57C3}', [0x9A, 0xBA]), ('\u{57C6}', [0x9A, 0xBB]), ('\u{57C7}', [0xFA, 0x9A]), 
    ('\u{57C8}', [0xFA, 0x99]), ('\u{57CB}', [0x96, 0x84]), ('\u{57CE}', [0x8F, 0xE9]), 
    ('\u{57D2}', [0x9A, 0xBD]), ('\u{57D3}', [0x9A, 0xBE]), ('\u{57D4}', [0x9A, 0xBC]), 
    ('\u{57D6}', [0x9A, 0xC0]), ('\u{57DC}', [0x94, 0x57]), ('\u{57DF}', [0x88, 0xE6]), 
    ('\u{57E0}', [0x95, 0x75]), ('\u{57E3}', [0x9A, 0xC1]), ('\u{57F4}', [0x8F, 0xFB]), 
    ('\u{57F7}', [0x8E, 0xB7]), ('\u{57F9}', [0x94, 0x7C]), ('\u{57FA}', [0x8A, 0xEE]), 
    ('\u{57FC}', [0x8D, 0xE9]), ('\u{5800}', [0x96, 0x78]), ('\u{5802}', [0x93, 0xB0]), 
    ('\u{5805}', [0x8C, 0x98]), ('\u{5806}', [0x91, 0xCD]), ('\u{580A}', [0x9A, 0xBF]), 
    ('\u{580B}', [0x9A, 0xC2]), ('\u{5815}', [0x91, 0xC2]), ('\u{5819}', [0x9A, 0xC3]), 
    ('\u{581D}', [0x9A, 0xC4]), ('\u{5821}', [0x9A, 0xC6]), ('\u{5824}', [0x92, 0xE7]), 
    ('\u{582A}', [0x8A, 0xAC]), ('\u{582F}', [0xEA, 0x9F]), ('\u{5830}', [0x89, 0x81]), 
    ('\u{5831}', [0x95, 0xF1]), ('\u{5834}', [0x8F, 0xEA]), ('\u{5835}', [0x93, 0x67]), 
    ('\u{583A}', [0x8D, 0xE4]), ('\u{583D}', [0x9A, 0xCC]), ('\u{5840}', [0x95, 0xBB]), 
    ('\u{5841}', [0x97, 0xDB]), ('\u{584A}', [0x89, 0xF2]), ('\u{584B}', [0x9A, 0xC8]), 
    ('\u{5851}', [0x91, 0x59]), ('\u{5852}', [0x9A, 0xCB]), ('\u{5854}', [0x93, 0x83]), 
    ('\u{5857}', [0x93, 0x68]), ('\u{5858}', [0x93, 0x84]), ('\u{5859}', [0x94, 0xB7]), 
    ('\u{585A}', [0x92, 0xCB]), ('\u{585E}', [0x8D, 0xC7]), ('\u{5862}', [0x9A, 0xC7]), 
    ('\u{5869}', [0x89, 0x96]), ('\u{586B}', [0x93, 0x55]), ('\u{5870}', [0x9A, 0xC9]), 
    ('\u{5872}', [0x9A, 0xC5]), ('\u{5875}', [0x90, 0x6F]), ('\u{5879}', [0x9A, 0xCD]), 
    ('\u{587E}', [0x8F, 0x6D]), ('\u{5883}', [0x8B, 0xAB]), ('\u{5885}', [0x9A, 0xCE]), 
    ('\u{5893}', [0x95, 0xE6]), ('\u{5897}', [0x91, 0x9D]), ('\u{589C}', [0x92, 0xC4]), 
    ('\u{589E}', [0xFA, 0x9D]), ('\u{589F}', [0x9A, 0xD0]), ('\u{58A8}', [0x96, 0x6E]), 
    ('\u{58AB}', [0x9A, 0xD1]), ('\u{58AE}', [0x9A, 0xD6]), ('\u{58B2}', [0xFA, 0x9E]), 
    ('\u{58B3}', [0x95, 0xAD]), ('\u{58B8}', [0x9A, 0xD5]), ('\u{58B9}', [0x9A, 0xCF]), 
    ('\u{58BA}', [0x9A, 0xD2]), ('\u{58BB}', [0x9A, 0xD4]), ('\u{58BE}', [0x8D, 0xA4]), 
    ('\u{58C1}', [0x95, 0xC7]), ('\u{58C5}', [0x9A, 0xD7]), ('\u{58C7}', [0x92, 0x64]), 
    ('\u{58CA}', [0x89, 0xF3]), ('\u{58CC}', [0x8F, 0xEB]), ('\u{58D1}', [0x9A, 0xD9]), 
    ('\u{58D3}', [0x9A, 0xD8]), ('\u{58D5}', [0x8D, 0x88]), ('\u{58D7}', [0x9A, 0xDA]), 
    ('\u{58D8}', [0x9A, 0xDC]), ('\u{58D9}', [0x9A, 0xDB]), ('\u{58DC}', [0x9A, 0xDE]), 
    ('\u{58DE}', [0x9A, 0xD3]), ('\u{58DF}', [0x9A, 0xE0]), ('\u{58E4}', [0x9A, 0xDF]), 
    ('\u{58E5}', [0x9A, 0xDD]), ('\u{58EB}', [0x8E, 0x6D]), ('\u{58EC}', [0x90, 0x70]), 
"#

/-- src/generated/whatwg/shiftjis_whatwg_tables.rs.inc:1908-2035 -/
noncomputable def encode4 : List Text := lines! r#"    ('\u{58EE}', [0x91, 0x73]), ('\u{58EF}', [0x9A, 0xE1]), ('\u{58F0}', [0x90, 0xBA]), 
    ('\u{58F1}', [0x88, 0xEB]), ('\u{58F2}', [0x94, 0x84]), ('\u{58F7}', [0x92, 0xD9]), 
    ('\u{58F9}', [0x9A, 0xE3]), ('\u{58FA}', [0x9A, 0xE2]), ('\u{58FB}', [0x9A, 0xE4]), 
    ('\u{58FC}', [0x9A, 0xE5]), ('\u{58FD}', [0x9A, 0xE6]), ('\u{5902}', [0x9A, 0xE7]), 
    ('\u{5909}', [0x95, 0xCF]), ('\u{590A}', [0x9A, 0xE8]), ('\u{590B}', [0xFA, 0x9F]), 
    ('\u{590F}', [0x89, 0xC4]), ('\u{5910}', [0x9A, 0xE9]), ('\u{5915}', [0x97, 0x5B]), 
    ('\u{5916}', [0x8A, 0x4F]), ('\u{5918}', [0x99, 0xC7]), ('\u{5919}', [0x8F, 0x67]), 
    ('\u{591A}', [0x91, 0xBD]), ('\u{591B}', [0x9A, 0xEA]), ('\u{591C}', [0x96, 0xE9]), 
    ('\u{5922}', [0x96, 0xB2]), ('\u{5925}', [0x9A, 0xEC]), ('\u{5927}', [0x91, 0xE5]), 
    ('\u{5929}', [0x93, 0x56]), ('\u{592A}', [0x91, 0xBE]), ('\u{592B}', [0x95, 0x76]), 
    ('\u{592C}', [0x9A, 0xED]), ('\u{592D}', [0x9A, 0xEE]), ('\u{592E}', [0x89, 0x9B]), 
    ('\u{5931}', [0x8E, 0xB8]), ('\u{5932}', [0x9A, 0xEF]), ('\u{5937}', [0x88, 0xCE]), 
    ('\u{5938}', [0x9A, 0xF0]), ('\u{593E}', [0x9A, 0xF1]), ('\u{5944}', [0x89, 0x82]), 
    ('\u{5947}', [0x8A, 0xEF]), ('\u{5948}', [0x93, 0xDE]), ('\u{5949}', [0x95, 0xF2]), 
    ('\u{594E}', [0x9A, 0xF5]), ('\u{594F}', [0x91, 0x74]), ('\u{5950}', [0x9A, 0xF4]), 
    ('\u{5951}', [0x8C, 0x5F]), ('\u{5953}', [0xFA, 0xA0]), ('\u{5954}', [0x96, 0x7A]), 
    ('\u{5955}', [0x9A, 0xF3]), ('\u{5957}', [0x93, 0x85]), ('\u{5958}', [0x9A, 0xF7]), 
    ('\u{595A}', [0x9A, 0xF6]), ('\u{595B}', [0xFA, 0xA1]), ('\u{595D}', [0xFA, 0xA2]), 
    ('\u{5960}', [0x9A, 0xF9]), ('\u{5962}', [0x9A, 0xF8]), ('\u{5963}', [0xFA, 0xA3]), 
    ('\u{5965}', [0x89, 0x9C]), ('\u{5967}', [0x9A, 0xFA]), ('\u{5968}', [0x8F, 0xA7]), 
    ('\u{5969}', [0x9A, 0xFC]), ('\u{596A}', [0x92, 0x44]), ('\u{596C}', [0x9A, 0xFB]), 
    ('\u{596E}', [0x95, 0xB1]), ('\u{5973}', [0x8F, 0x97]), ('\u{5974}', [0x93, 0x7A]), 
    ('\u{5978}', [0x9B, 0x40]), ('\u{597D}', [0x8D, 0x44]), ('\u{5981}', [0x9B, 0x41]), 
    ('\u{5982}', [0x94, 0x40]), ('\u{5983}', [0x94, 0xDC]), ('\u{5984}', [0x96, 0xCF]), 
    ('\u{598A}', [0x94, 0x44]), ('\u{598D}', [0x9B, 0x4A]), ('\u{5993}', [0x8B, 0x57]), 
    ('\u{5996}', [0x97, 0x64]), ('\u{5999}', [0x96, 0xAD]), ('\u{599B}', [0x9B, 0xAA]), 
    ('\u{599D}', [0x9B, 0x42]), ('\u{59A3}', [0x9B, 0x45]), ('\u{59A4}', [0xFA, 0xA4]), 
    ('\u{59A5}', [0x91, 0xC3]), ('\u{59A8}', [0x96, 0x57]), ('\u{59AC}', [0x93, 0x69]), 
    ('\u{59B2}', [0x9B, 0x46]), ('\u{59B9}', [0x96, 0x85]), ('\u{59BA}', [0xFA, 0xA5]), 
    ('\u{59BB}', [0x8D, 0xC8]), ('\u{59BE}', [0x8F, 0xA8]), ('\u{59C6}', [0x9B, 0x47]), 
    ('\u{59C9}', [0x8E, 0x6F]), ('\u{59CB}', [0x8E, 0x6E]), ('\u{59D0}', [0x88, 0xB7]), 
    ('\u{59D1}', [0x8C, 0xC6]), ('\u{59D3}', [0x90, 0xA9]), ('\u{59D4}', [0x88, 0xCF]), 
    ('\u{59D9}', [0x9B, 0x4B]), ('\u{59DA}', [0x9B, 0x4C]), ('\u{59DC}', [0x9B, 0x49]), 
    ('\u{59E5}', [0x89, 0x57]), ('\u{59E6}', [0x8A, 0xAD]), ('\u{59E8}', [0x9B, 0x48]), 
    ('\u{59EA}', [0x96, 0xC3]), ('\u{59EB}', [0x95, 0x50]), ('\u{59F6}', [0x88, 0xA6]), 
    ('\u{59FB}', [0x88, 0xF7]), ('\u{59FF}', [0x8E, 0x70]), ('\u{5A01}', [0x88, 0xD0]), 
    ('\u{5A03}', [0x88, 0xA1]), ('\u{5A09}', [0x9B, 0x51]), ('\u{5A11}', [0x9B, 0x4F]), 
    ('\u{5A18}', [0x96, 0xBA]), ('\u{5A1A}', [0x9B, 0x52]), ('\u{5A1C}', [0x9B, 0x50]), 
    ('\u{5A1F}', [0x9B, 0x4E]), ('\u{5A20}', [0x90, 0x50]), ('\u{5A25}', [0x9B, 0x4D]), 
    ('\u{5A29}', [0x95, 0xD8]), ('\u{5A2F}', [0x8C, 0xE2]), ('\u{5A35}', [0x9B, 0x56]), 
    ('\u{5A36}', [0x9B, 0x57]), ('\u{5A3C}', [0x8F, 0xA9]), ('\u{5A40}', [0x9B, 0x53]), 
    ('\u{5A41}', [0x98, 0x4B]), ('\u{5A46}', [0x94, 0x6B]), ('\u{5A49}', [0x9B, 0x55]), 
    ('\u{5A5A}', [0x8D, 0xA5]), ('\u{5A62}', [0x9B, 0x58]), ('\u{5A66}', [0x95, 0x77]), 
    ('\u{5A6A}', [0x9B, 0x59]), ('\u{5A6C}', [0x9B, 0x54]), ('\u{5A7F}', [0x96, 0xB9]), 
    ('\u{5A92}', [0x94, 0x7D]), ('\u{5A9A}', [0x9B, 0x5A]), ('\u{5A9B}', [0x95, 0x51]), 
    ('\u{5ABC}', [0x9B, 0x5B]), ('\u{5ABD}', [0x9B, 0x5F]), ('\u{5ABE}', [0x9B, 0x5C]), 
    ('\u{5AC1}', [0x89, 0xC5]), ('\u{5AC2}', [0x9B, 0x5E]), ('\u{5AC9}', [0x8E, 0xB9]), 
    ('\u{5ACB}', [0x9B, 0x5D]), ('\u{5ACC}', [0x8C, 0x99]), ('\u{5AD0}', [0x9B, 0x6B]), 
    ('\u{5AD6}', [0x9B, 0x64]), ('\u{5AD7}', [0x9B, 0x61]), ('\u{5AE1}', [0x92, 0x84]), 
    ('\u{5AE3}', [0x9B, 0x60]), ('\u{5AE6}', [0x9B, 0x62]), ('\u{5AE9}', [0x9B, 0x63]), 
    ('\u{5AFA}', [0x9B, 0x65]), ('\u{5AFB}', [0x9B, 0x66]), ('\u{5B09}', [0x8A, 0xF0]), 
    ('\u{5B0B}', [0x9B, 0x68]), ('\u{5B0C}', [0x9B, 0x67]), ('\u{5B16}', [0x9B, 0x69]), 
    ('\u{5B22}', [0x8F, 0xEC]), ('\u{5B2A}', [0x9B, 0x6C]), ('\u{5B2C}', [0x92, 0xDA]), 
    ('\u{5B30}', [0x89, 0x64]), ('\u{5B32}', [0x9B, 0x6A]), ('\u{5B36}', [0x9B, 0x6D]), 
    ('\u{5B3E}', [0x9B, 0x6E]), ('\u{5B40}', [0x9B, 0x71]), ('\u{5B43}', [0x9B, 0x6F]), 
    ('\u{5B45}', [0x9B, 0x70]), ('\u{5B50}', [0x8E, 0x71]), ('\u{5B51}', [0x9B, 0x72]), 
    ('\u{5B54}', [0x8D, 0x45]), ('\u{5B55}', [0x9B, 0x73]), ('\u{5B56}', [0xFA, 0xA6]), 
    ('\u{5B57}', [0x8E, 0x9A]), ('\u{5B58}', [0x91, 0xB6]), ('\u{5B5A}', [0x9B, 0x74]), 
    ('\u{5B5B}', [0x9B, 0x75]), ('\u{5B5C}', [0x8E, 0x79]), ('\u{5B5D}', [0x8D, 0x46]), 
    ('\u{5B5F}', [0x96, 0xD0]), ('\u{5B63}', [0x8B, 0x47]), ('\u{5B64}', [0x8C, 0xC7]), 
    ('\u{5B65}', [0x9B, 0x76]), ('\u{5B66}', [0x8A, 0x77]), ('\u{5B69}', [0x9B, 0x77]), 
    ('\u{5B6B}', [0x91, 0xB7]), ('\u{5B70}', [0x9B, 0x78]), ('\u{5B71}', [0x9B, 0xA1]), 
    ('\u{5B73}', [0x9B, 0x79]), ('\u{5B75}', [0x9B, 0x7A]), ('\u{5B78}', [0x9B, 0x7B]), 
    ('\u{5B7A}', [0x9B, 0x7D]), ('\u{5B80}', [0x9B, 0x7E]), ('\u{5B83}', [0x9B, 0x80]), 
    ('\u{5B85}', [0x91, 0xEE]), ('\u{5B87}', [0x89, 0x46]), ('\u{5B88}', [0x8E, 0xE7]), 
    ('\u{5B89}', [0x88, 0xC0]), ('\u{5B8B}', [0x91, 0x76]), ('\u{5B8C}', [0x8A, 0xAE]), 
    ('\u{5B8D}', [0x8E, 0xB3]), ('\u{5B8F}', [0x8D, 0x47]), ('\u{5B95}', [0x93, 0x86]), 
    ('\u{5B97}', [0x8F, 0x40]), ('\u{5B98}', [0x8A, 0xAF]), ('\u{5B99}', [0x92, 0x88]), 
    ('\u{5B9A}', [0x92, 0xE8]), ('\u{5B9B}', [0x88, 0xB6]), ('\u{5B9C}', [0x8B, 0x58]), 
    ('\u{5B9D}', [0x95, 0xF3]), ('\u{5B9F}', [0x8E, 0xC0]), ('\u{5BA2}', [0x8B, 0x71]), 
    ('\u{5BA3}', [0x90, 0xE9]), ('\u{5BA4}', [0x8E, 0xBA]), ('\u{5BA5}', [0x97, 0x47]), 
    ('\u{5BA6}', [0x9B, 0x81]), ('\u{5BAE}', [0x8B, 0x7B]), ('\u{5BB0}', [0x8D, 0xC9]), 
    ('\u{5BB3}', [0x8A, 0x51]), ('\u{5BB4}', [0x89, 0x83]), ('\u{5BB5}', [0x8F, 0xAA]), 
    ('\u{5BB6}', [0x89, 0xC6]), ('\u{5BB8}', [0x9B, 0x82]), ('\u{5BB9}', [0x97, 0x65]), 
    ('\u{5BBF}', [0x8F, 0x68]), ('\u{5BC0}', [0xFA, 0xA7]), ('\u{5BC2}', [0x8E, 0xE2]), 
    ('\u{5BC3}', [0x9B, 0x83]), ('\u{5BC4}', [0x8A, 0xF1]), ('\u{5BC5}', [0x93, 0xD0]), 
    ('\u{5BC6}', [0x96, 0xA7]), ('\u{5BC7}', [0x9B, 0x84]), ('\u{5BC9}', [0x9B, 0x85]), 
    ('\u{5BCC}', [0x95, 0x78]), ('\u{5BD0}', [0x9B, 0x87]), ('\u{5BD2}', [0x8A, 0xA6]), 
    ('\u{5BD3}', [0x8B, 0xF5]), ('\u{5BD4}', [0x9B, 0x86]), ('\u{5BD8}', [0xFA, 0xA9]), 
    ('\u{5BDB}', [0x8A, 0xB0]), ('\u{5BDD}', [0x90, 0x51]), ('\u{5BDE}', [0x9B, 0x8B]), 
    ('\u{5BDF}', [0x8E, 0x40]), ('\u{5BE1}', [0x89, 0xC7]), ('\u{5BE2}', [0x9B, 0x8A]), 
    ('\u{5BE4}', [0x9B, 0x88]), ('\u{5BE5}', [0x9B, 0x8C]), ('\u{5BE6}', [0x9B, 0x89]), 
    ('\u{5BE7}', [0x94, 0x4A]), ('\u{5BE8}', [0x9E, 0xCB]), ('\u{5BE9}', [0x90, 0x52]), 
    ('\u{5BEB}', [0x9B, 0x8D]), ('\u{5BEC}', [0xFA, 0xAA]), ('\u{5BEE}', [0x97, 0xBE]), 
    ('\u{5BF0}', [0x9B, 0x8E]), ('\u{5BF3}', [0x9B, 0x90]), ('\u{5BF5}', [0x92, 0x9E]), 
    ('\u{5BF6}', [0x9B, 0x8F]), ('\u{5BF8}', [0x90, 0xA1]), ('\u{5BFA}', [0x8E, 0x9B]), 
    ('\u{5BFE}', [0x91, 0xCE]), ('\u{5BFF}', [0x8E, 0xF5]), ('\u{5C01}', [0x95, 0x95]), 
    ('\u{5C02}', [0x90, 0xEA]), ('\u{5C04}', [0x8E, 0xCB]), ('\u{5C05}', [0x9B, 0x91]), 
    ('\u{5C06}', [0x8F, 0xAB]), ('\u{5C07}', [0x9B, 0x92]), ('\u{5C08}', [0x9B, 0x93]), 
    ('\u{5C09}', [0x88, 0xD1]), ('\u{5C0A}', [0x91, 0xB8]), ('\u{5C0B}', [0x90, 0x71]), 
    ('\u{5C0D}', [0x9B, 0x94]), ('\u{5C0E}', [0x93, 0xB1]), ('\u{5C0F}', [0x8F, 0xAC]), 
    ('\u{5C11}', [0x8F, 0xAD]), ('\u{5C13}', [0x9B, 0x95]), ('\u{5C16}', [0x90, 0xEB]), 
    ('\u{5C1A}', [0x8F, 0xAE]), ('\u{5C1E}', [0xFA, 0xAB]), ('\u{5C20}', [0x9B, 0x96]), 
    ('\u{5C22}', [0x9B, 0x97]), ('\u{5C24}', [0x96, 0xDE]), ('\u{5C28}', [0x9B, 0x98]), 
    ('\u{5C2D}', [0x8B, 0xC4]), ('\u{5C31}', [0x8F, 0x41]), ('\u{5C38}', [0x9B, 0x99]), 
    ('\u{5C39}', [0x9B, 0x9A]), ('\u{5C3A}', [0x8E, 0xDA]), ('\u{5C3B}', [0x90, 0x4B]), 
    ('\u{5C3C}', [0x93, 0xF2]), ('\u{5C3D}', [0x90, 0x73]), ('\u{5C3E}', [0x94, 0xF6]), 
    ('\u{5C3F}', [0x94, 0x41]), ('\u{5C40}', [0x8B, 0xC7]), ('\u{5C41}', [0x9B, 0x9B]), 
    ('\u{5C45}', [0x8B, 0x8F]), ('\u{5C46}', [0x9B, 0x9C]), ('\u{5C48}', [0x8B, 0xFC]), 
    ('\u{5C4A}', [0x93, 0xCD]), ('\u{5C4B}', [0x89, 0xAE]), ('\u{5C4D}', [0x8E, 0x72]), 
    ('\u{5C4E}', [0x9B, 0x9D]), ('\u{5C4F}', [0x9B, 0xA0]), ('\u{5C50}', [0x9B, 0x9F]), 
    ('\u{5C51}', [0x8B, 0xFB]), ('\u{5C53}', [0x9B, 0x9E]), ('\u{5C55}', [0x93, 0x57]), 
    ('\u{5C5E}', [0x91, 0xAE]), ('\u{5C60}', [0x93, 0x6A]), ('\u{5C61}', [0x8E, 0xC6]), 
    ('\u{5C64}', [0x91, 0x77]), ('\u{5C65}', [0x97, 0x9A]), ('\u{5C6C}', [0x9B, 0xA2]), 
    ('\u{5C6E}', [0x9B, 0xA3]), ('\u{5C6F}', [0x93, 0xD4]), ('\u{5C71}', [0x8E, 0x52]), 
    ('\u{5C76}', [0x9B, 0xA5]), ('\u{5C79}', [0x9B, 0xA6]), ('\u{5C8C}', [0x9B, 0xA7]), 
    ('\u{5C90}', [0x8A, 0xF2]), ('\u{5C91}', [0x9B, 0xA8]), ('\u{5C94}', [0x9B, 0xA9]), 
    ('\u{5CA1}', [0x89, 0xAA]), ('\u{5CA6}', [0xFA, 0xAC]), ('\u{5CA8}', [0x91, 0x5A]), 
    ('\u{5CA9}', [0x8A, 0xE2]), ('\u{5CAB}', [0x9B, 0xAB]), ('\u{5CAC}', [0x96, 0xA6]), 
    ('\u{5CB1}', [0x91, 0xD0]), ('\u{5CB3}', [0x8A, 0x78]), ('\u{5CB6}', [0x9B, 0xAD]), 
    ('\u{5CB7}', [0x9B, 0xAF]), ('\u{5CB8}', [0x8A, 0xDD]), ('\u{5CBA}', [0xFA, 0xAD]), 
    ('\u{5CBB}', [0x9B, 0xAC]), ('\u{5CBC}', [0x9B, 0xAE]), ('\u{5CBE}', [0x9B, 0xB1]), 
    ('\u{5CC5}', [0x9B, 0xB0]), ('\u{5CC7}', [0x9B, 0xB2]), ('\u{5CD9}', [0x9B, 0xB3]), 
    ('\u{5CE0}', [0x93, 0xBB]), ('\u{5CE1}', [0x8B, 0xAC]), ('\u{5CE8}', [0x89, 0xE3]), 
    ('\u{5CE9}', [0x9B, 0xB4]), ('\u{5CEA}', [0x9B, 0xB9]), ('\u{5CED}', [0x9B, 0xB7]), 
    ('\u{5CEF}', [0x95, 0xF5]), ('\u{5CF0}', [0x95, 0xF4]), ('\u{5CF5}', [0xFA, 0xAE]), 
    ('\u{5CF6}', [0x93, 0x87]), ('\u{5CFA}', [0x9B, 0xB6]), ('\u{5CFB}', [0x8F, 0x73]), 
    ('\u{5CFD}', [0x9B, 0xB5]), ('\u{5D07}', [0x90, 0x92]), ('\u{5D0B}', [0x9B, 0xBA]), 
    ('\u{5D0E}', [0x8D, 0xE8]), ('\u{5D11}', [0x9B, 0xC0]), ('\u{5D14}', [0x9B, 0xC1]), 
    ('\u{5D15}', [0x9B, 0xBB]), ('\u{5D16}', [0x8A, 0x52]), ('\u{5D17}', [0x9B, 0xBC]), 
    ('\u{5D18}', [0x9B, 0xC5]), ('\u{5D19}', [0x9B, 0xC4]), ('\u{5D1A}', [0x9B, 0xC3]), 
    ('\u{5D1B}', [0x9B, 0xBF]), ('\u{5D1F}', [0x9B, 0xBE]), ('\u{5D22}', [0x9B, 0xC2]), 
    ('\u{5D27}', [0xFA, 0xAF]), ('\u{5D29}', [0x95, 0xF6]), ('\u{5D42}', [0xFA, 0xB2]), 
    ('\u{5D4B}', [0x9B, 0xC9]), ('\u{5D4C}', [0x9B, 0xC6]), ('\u{5D4E}', [0x9B, 0xC8]), 
    ('\u{5D50}', [0x97, 0x92]), ('\u{5D52}', [0x9B, 0xC7]), ('\u{5D53}', [0xFA, 0xB0]), 
    ('\u{5D5C}', [0x9B, 0xBD]), ('\u{5D69}', [0x90, 0x93]), ('\u{5D6C}', [0x9B, 0xCA]), 
    ('\u{5D6D}', [0xFA, 0xB3]), ('\u{5D6F}', [0x8D, 0xB5]), ('\u{5D73}', [0x9B, 0xCB]), 
    ('\u{5D76}', [0x9B, 0xCC]), ('\u{5D82}', [0x9B, 0xCF]), ('\u{5D84}', [0x9B, 0xCE]), 
"#

/-- src/generated/whatwg/shiftjis_whatwg_tables.rs.inc:2036-2163 -/
noncomputable def encode5 : List Text := lines! r#"    ('\u{5D87}', [0x9B, 0xCD]), ('\u{5D8B}', [0x93, 0x88]), ('\u{5D8C}', [0x9B, 0xB8]), 
    ('\u{5D90}', [0x9B, 0xD5]), ('\u{5D9D}', [0x9B, 0xD1]), ('\u{5DA2}', [0x9B, 0xD0]), 
    ('\u{5DAC}', [0x9B, 0xD2]), ('\u{5DAE}', [0x9B, 0xD3]), ('\u{5DB7}', [0x9B, 0xD6]), 
    ('\u{5DB8}', [0xFA, 0xB4]), ('\u{5DB9}', [0xFA, 0xB5]), ('\u{5DBA}', [0x97, 0xE4]), 
    ('\u{5DBC}', [0x9B, 0xD7]), ('\u{5DBD}', [0x9B, 0xD4]), ('\u{5DC9}', [0x9B, 0xD8]), 
    ('\u{5DCC}', [0x8A, 0xDE]), ('\u{5DCD}', [0x9B, 0xD9]), ('\u{5DD0}', [0xFA, 0xB6]), 
    ('\u{5DD2}', [0x9B, 0xDB]), ('\u{5DD3}', [0x9B, 0xDA]), ('\u{5DD6}', [0x9B, 0xDC]), 
    ('\u{5DDB}', [0x9B, 0xDD]), ('\u{5DDD}', [0x90, 0xEC]), ('\u{5DDE}', [0x8F, 0x42]), 
    ('\u{5DE1}', [0x8F, 0x84]), ('\u{5DE3}', [0x91, 0x83]), ('\u{5DE5}', [0x8D, 0x48]), 
    ('\u{5DE6}', [0x8D, 0xB6]), ('\u{5DE7}', [0x8D, 0x49]), ('\u{5DE8}', [0x8B, 0x90]), 
    ('\u{5DEB}', [0x9B, 0xDE]), ('\u{5DEE}', [0x8D, 0xB7]), ('\u{5DF1}', [0x8C, 0xC8]), 
    ('\u{5DF2}', [0x9B, 0xDF]), ('\u{5DF3}', [0x96, 0xA4]), ('\u{5DF4}', [0x94, 0x62]), 
    ('\u{5DF5}', [0x9B, 0xE0]), ('\u{5DF7}', [0x8D, 0x4A]), ('\u{5DFB}', [0x8A, 0xAA]), 
    ('\u{5DFD}', [0x92, 0x46]), ('\u{5DFE}', [0x8B, 0xD0]), ('\u{5E02}', [0x8E, 0x73]), 
    ('\u{5E03}', [0x95, 0x7A]), ('\u{5E06}', [0x94, 0xBF]), ('\u{5E0B}', [0x9B, 0xE1]), 
    ('\u{5E0C}', [0x8A, 0xF3]), ('\u{5E11}', [0x9B, 0xE4]), ('\u{5E16}', [0x92, 0x9F]), 
    ('\u{5E19}', [0x9B, 0xE3]), ('\u{5E1A}', [0x9B, 0xE2]), ('\u{5E1B}', [0x9B, 0xE5]), 
    ('\u{5E1D}', [0x92, 0xE9]), ('\u{5E25}', [0x90, 0x83]), ('\u{5E2B}', [0x8E, 0x74]), 
    ('\u{5E2D}', [0x90, 0xC8]), ('\u{5E2F}', [0x91, 0xD1]), ('\u{5E30}', [0x8B, 0x41]), 
    ('\u{5E33}', [0x92, 0xA0]), ('\u{5E36}', [0x9B, 0xE6]), ('\u{5E37}', [0x9B, 0xE7]), 
    ('\u{5E38}', [0x8F, 0xED]), ('\u{5E3D}', [0x96, 0x58]), ('\u{5E40}', [0x9B, 0xEA]), 
    ('\u{5E43}', [0x9B, 0xE9]), ('\u{5E44}', [0x9B, 0xE8]), ('\u{5E45}', [0x95, 0x9D]), 
    ('\u{5E47}', [0x9B, 0xF1]), ('\u{5E4C}', [0x96, 0x79]), ('\u{5E4E}', [0x9B, 0xEB]), 
    ('\u{5E54}', [0x9B, 0xED]), ('\u{5E55}', [0x96, 0x8B]), ('\u{5E57}', [0x9B, 0xEC]), 
    ('\u{5E5F}', [0x9B, 0xEE]), ('\u{5E61}', [0x94, 0xA6]), ('\u{5E62}', [0x9B, 0xEF]), 
    ('\u{5E63}', [0x95, 0xBC]), ('\u{5E64}', [0x9B, 0xF0]), ('\u{5E72}', [0x8A, 0xB1]), 
    ('\u{5E73}', [0x95, 0xBD]), ('\u{5E74}', [0x94, 0x4E]), ('\u{5E75}', [0x9B, 0xF2]), 
    ('\u{5E76}', [0x9B, 0xF3]), ('\u{5E78}', [0x8D, 0x4B]), ('\u{5E79}', [0x8A, 0xB2]), 
    ('\u{5E7A}', [0x9B, 0xF4]), ('\u{5E7B}', [0x8C, 0xB6]), ('\u{5E7C}', [0x97, 0x63]), 
    ('\u{5E7D}', [0x97, 0x48]), ('\u{5E7E}', [0x8A, 0xF4]), ('\u{5E7F}', [0x9B, 0xF6]), 
    ('\u{5E81}', [0x92, 0xA1]), ('\u{5E83}', [0x8D, 0x4C]), ('\u{5E84}', [0x8F, 0xAF]), 
    ('\u{5E87}', [0x94, 0xDD]), ('\u{5E8A}', [0x8F, 0xB0]), ('\u{5E8F}', [0x8F, 0x98]), 
    ('\u{5E95}', [0x92, 0xEA]), ('\u{5E96}', [0x95, 0xF7]), ('\u{5E97}', [0x93, 0x58]), 
    ('\u{5E9A}', [0x8D, 0x4D]), ('\u{5E9C}', [0x95, 0x7B]), ('\u{5EA0}', [0x9B, 0xF7]), 
    ('\u{5EA6}', [0x93, 0x78]), ('\u{5EA7}', [0x8D, 0xC0]), ('\u{5EAB}', [0x8C, 0xC9]), 
    ('\u{5EAD}', [0x92, 0xEB]), ('\u{5EB5}', [0x88, 0xC1]), ('\u{5EB6}', [0x8F, 0x8E]), 
    ('\u{5EB7}', [0x8D, 0x4E]), ('\u{5EB8}', [0x97, 0x66]), ('\u{5EC1}', [0x9B, 0xF8]), 
    ('\u{5EC2}', [0x9B, 0xF9]), ('\u{5EC3}', [0x94, 0x70]), ('\u{5EC8}', [0x9B, 0xFA]), 
    ('\u{5EC9}', [0x97, 0xF5]), ('\u{5ECA}', [0x98, 0x4C]), ('\u{5ECF}', [0x9B, 0xFC]), 
    ('\u{5ED0}', [0x9B, 0xFB]), ('\u{5ED3}', [0x8A, 0x66]), ('\u{5ED6}', [0x9C, 0x40]), 
    ('\u{5EDA}', [0x9C, 0x43]), ('\u{5EDB}', [0x9C, 0x44]), ('\u{5EDD}', [0x9C, 0x42]), 
    ('\u{5EDF}', [0x95, 0x5F]), ('\u{5EE0}', [0x8F, 0xB1]), ('\u{5EE1}', [0x9C, 0x46]), 
    ('\u{5EE2}', [0x9C, 0x45]), ('\u{5EE3}', [0x9C, 0x41]), ('\u{5EE8}', [0x9C, 0x47]), 
    ('\u{5EE9}', [0x9C, 0x48]), ('\u{5EEC}', [0x9C, 0x49]), ('\u{5EF0}', [0x9C, 0x4C]), 
    ('\u{5EF1}', [0x9C, 0x4A]), ('\u{5EF3}', [0x9C, 0x4B]), ('\u{5EF4}', [0x9C, 0x4D]), 
    ('\u{5EF6}', [0x89, 0x84]), ('\u{5EF7}', [0x92, 0xEC]), ('\u{5EF8}', [0x9C, 0x4E]), 
    ('\u{5EFA}', [0x8C, 0x9A]), ('\u{5EFB}', [0x89, 0xF4]), ('\u{5EFC}', [0x94, 0x55]), 
    ('\u{5EFE}', [0x9C, 0x4F]), ('\u{5EFF}', [0x93, 0xF9]), ('\u{5F01}', [0x95, 0xD9]), 
    ('\u{5F03}', [0x9C, 0x50]), ('\u{5F04}', [0x98, 0x4D]), ('\u{5F09}', [0x9C, 0x51]), 
    ('\u{5F0A}', [0x95, 0xBE]), ('\u{5F0B}', [0x9C, 0x54]), ('\u{5F0C}', [0x98, 0x9F]), 
    ('\u{5F0D}', [0x98, 0xAF]), ('\u{5F0F}', [0x8E, 0xAE]), ('\u{5F10}', [0x93, 0xF3]), 
    ('\u{5F11}', [0x9C, 0x55]), ('\u{5F13}', [0x8B, 0x7C]), ('\u{5F14}', [0x92, 0xA2]), 
    ('\u{5F15}', [0x88, 0xF8]), ('\u{5F16}', [0x9C, 0x56]), ('\u{5F17}', [0x95, 0xA4]), 
    ('\u{5F18}', [0x8D, 0x4F]), ('\u{5F1B}', [0x92, 0x6F]), ('\u{5F1F}', [0x92, 0xED]), 
    ('\u{5F21}', [0xFA, 0xB7]), ('\u{5F25}', [0x96, 0xED]), ('\u{5F26}', [0x8C, 0xB7]), 
    ('\u{5F27}', [0x8C, 0xCA]), ('\u{5F29}', [0x9C, 0x57]), ('\u{5F2D}', [0x9C, 0x58]), 
    ('\u{5F2F}', [0x9C, 0x5E]), ('\u{5F31}', [0x8E, 0xE3]), ('\u{5F34}', [0xFA, 0xB8]), 
    ('\u{5F35}', [0x92, 0xA3]), ('\u{5F37}', [0x8B, 0xAD]), ('\u{5F38}', [0x9C, 0x59]), 
    ('\u{5F3C}', [0x95, 0x4A]), ('\u{5F3E}', [0x92, 0x65]), ('\u{5F41}', [0x9C, 0x5A]), 
    ('\u{5F45}', [0xFA, 0x67]), ('\u{5F48}', [0x9C, 0x5B]), ('\u{5F4A}', [0x8B, 0xAE]), 
    ('\u{5F4C}', [0x9C, 0x5C]), ('\u{5F4E}', [0x9C, 0x5D]), ('\u{5F51}', [0x9C, 0x5F]), 
    ('\u{5F53}', [0x93, 0x96]), ('\u{5F56}', [0x9C, 0x60]), ('\u{5F57}', [0x9C, 0x61]), 
    ('\u{5F59}', [0x9C, 0x62]), ('\u{5F5C}', [0x9C, 0x53]), ('\u{5F5D}', [0x9C, 0x52]), 
    ('\u{5F61}', [0x9C, 0x63]), ('\u{5F62}', [0x8C, 0x60]), ('\u{5F66}', [0x95, 0x46]), 
    ('\u{5F67}', [0xFA, 0xB9]), ('\u{5F69}', [0x8D, 0xCA]), ('\u{5F6A}', [0x95, 0x56]), 
    ('\u{5F6B}', [0x92, 0xA4]), ('\u{5F6C}', [0x95, 0x6A]), ('\u{5F6D}', [0x9C, 0x64]), 
    ('\u{5F70}', [0x8F, 0xB2]), ('\u{5F71}', [0x89, 0x65]), ('\u{5F73}', [0x9C, 0x65]), 
    ('\u{5F77}', [0x9C, 0x66]), ('\u{5F79}', [0x96, 0xF0]), ('\u{5F7C}', [0x94, 0xDE]), 
    ('\u{5F7F}', [0x9C, 0x69]), ('\u{5F80}', [0x89, 0x9D]), ('\u{5F81}', [0x90, 0xAA]), 
    ('\u{5F82}', [0x9C, 0x68]), ('\u{5F83}', [0x9C, 0x67]), ('\u{5F84}', [0x8C, 0x61]), 
    ('\u{5F85}', [0x91, 0xD2]), ('\u{5F87}', [0x9C, 0x6D]), ('\u{5F88}', [0x9C, 0x6B]), 
    ('\u{5F8A}', [0x9C, 0x6A]), ('\u{5F8B}', [0x97, 0xA5]), ('\u{5F8C}', [0x8C, 0xE3]), 
    ('\u{5F90}', [0x8F, 0x99]), ('\u{5F91}', [0x9C, 0x6C]), ('\u{5F92}', [0x93, 0x6B]), 
    ('\u{5F93}', [0x8F, 0x5D]), ('\u{5F97}', [0x93, 0xBE]), ('\u{5F98}', [0x9C, 0x70]), 
    ('\u{5F99}', [0x9C, 0x6F]), ('\u{5F9E}', [0x9C, 0x6E]), ('\u{5FA0}', [0x9C, 0x71]), 
    ('\u{5FA1}', [0x8C, 0xE4]), ('\u{5FA8}', [0x9C, 0x72]), ('\u{5FA9}', [0x95, 0x9C]), 
    ('\u{5FAA}', [0x8F, 0x7A]), ('\u{5FAD}', [0x9C, 0x73]), ('\u{5FAE}', [0x94, 0xF7]), 
    ('\u{5FB3}', [0x93, 0xBF]), ('\u{5FB4}', [0x92, 0xA5]), ('\u{5FB7}', [0xFA, 0xBA]), 
    ('\u{5FB9}', [0x93, 0x4F]), ('\u{5FBC}', [0x9C, 0x74]), ('\u{5FBD}', [0x8B, 0x4A]), 
    ('\u{5FC3}', [0x90, 0x53]), ('\u{5FC5}', [0x95, 0x4B]), ('\u{5FCC}', [0x8A, 0xF5]), 
    ('\u{5FCD}', [0x94, 0x45]), ('\u{5FD6}', [0x9C, 0x75]), ('\u{5FD7}', [0x8E, 0x75]), 
    ('\u{5FD8}', [0x96, 0x59]), ('\u{5FD9}', [0x96, 0x5A]), ('\u{5FDC}', [0x89, 0x9E]), 
    ('\u{5FDD}', [0x9C, 0x7A]), ('\u{5FDE}', [0xFA, 0xBB]), ('\u{5FE0}', [0x92, 0x89]), 
    ('\u{5FE4}', [0x9C, 0x77]), ('\u{5FEB}', [0x89, 0xF5]), ('\u{5FF0}', [0x9C, 0xAB]), 
    ('\u{5FF1}', [0x9C, 0x79]), ('\u{5FF5}', [0x94, 0x4F]), ('\u{5FF8}', [0x9C, 0x78]), 
    ('\u{5FFB}', [0x9C, 0x76]), ('\u{5FFD}', [0x8D, 0x9A]), ('\u{5FFF}', [0x9C, 0x7C]), 
    ('\u{600E}', [0x9C, 0x83]), ('\u{600F}', [0x9C, 0x89]), ('\u{6010}', [0x9C, 0x81]), 
    ('\u{6012}', [0x93, 0x7B]), ('\u{6015}', [0x9C, 0x86]), ('\u{6016}', [0x95, 0x7C]), 
    ('\u{6019}', [0x9C, 0x80]), ('\u{601B}', [0x9C, 0x85]), ('\u{601C}', [0x97, 0xE5]), 
    ('\u{601D}', [0x8E, 0x76]), ('\u{6020}', [0x91, 0xD3]), ('\u{6021}', [0x9C, 0x7D]), 
    ('\u{6025}', [0x8B, 0x7D]), ('\u{6026}', [0x9C, 0x88]), ('\u{6027}', [0x90, 0xAB]), 
    ('\u{6028}', [0x89, 0x85]), ('\u{6029}', [0x9C, 0x82]), ('\u{602A}', [0x89, 0xF6]), 
    ('\u{602B}', [0x9C, 0x87]), ('\u{602F}', [0x8B, 0xAF]), ('\u{6031}', [0x9C, 0x84]), 
    ('\u{603A}', [0x9C, 0x8A]), ('\u{6041}', [0x9C, 0x8C]), ('\u{6042}', [0x9C, 0x96]), 
    ('\u{6043}', [0x9C, 0x94]), ('\u{6046}', [0x9C, 0x91]), ('\u{604A}', [0x9C, 0x90]), 
    ('\u{604B}', [0x97, 0xF6]), ('\u{604D}', [0x9C, 0x92]), ('\u{6050}', [0x8B, 0xB0]), 
    ('\u{6052}', [0x8D, 0x50]), ('\u{6055}', [0x8F, 0x9A]), ('\u{6059}', [0x9C, 0x99]), 
    ('\u{605A}', [0x9C, 0x8B]), ('\u{605D}', [0xFA, 0xBC]), ('\u{605F}', [0x9C, 0x8F]), 
    ('\u{6060}', [0x9C, 0x7E]), ('\u{6062}', [0x89, 0xF8]), ('\u{6063}', [0x9C, 0x93]), 
    ('\u{6064}', [0x9C, 0x95]), ('\u{6065}', [0x92, 0x70]), ('\u{6068}', [0x8D, 0xA6]), 
    ('\u{6069}', [0x89, 0xB6]), ('\u{606A}', [0x9C, 0x8D]), ('\u{606B}', [0x9C, 0x98]), 
    ('\u{606C}', [0x9C, 0x97]), ('\u{606D}', [0x8B, 0xB1]), ('\u{606F}', [0x91, 0xA7]), 
    ('\u{6070}', [0x8A, 0x86]), ('\u{6075}', [0x8C, 0x62]), ('\u{6077}', [0x9C, 0x8E]), 
    ('\u{6081}', [0x9C, 0x9A]), ('\u{6083}', [0x9C, 0x9D]), ('\u{6084}', [0x9C, 0x9F]), 
    ('\u{6085}', [0xFA, 0xBD]), ('\u{6089}', [0x8E, 0xBB]), ('\u{608A}', [0xFA, 0xBE]), 
    ('\u{608B}', [0x9C, 0xA5]), ('\u{608C}', [0x92, 0xEE]), ('\u{608D}', [0x9C, 0x9B]), 
    ('\u{6092}', [0x9C, 0xA3]), ('\u{6094}', [0x89, 0xF7]), ('\u{6096}', [0x9C, 0xA1]), 
    ('\u{6097}', [0x9C, 0xA2]), ('\u{609A}', [0x9C, 0x9E]), ('\u{609B}', [0x9C, 0xA0]), 
    ('\u{609F}', [0x8C, 0xE5]), ('\u{60A0}', [0x97, 0x49]), ('\u{60A3}', [0x8A, 0xB3]), 
    ('\u{60A6}', [0x89, 0x78]), ('\u{60A7}', [0x9C, 0xA4]), ('\u{60A9}', [0x94, 0x59]), 
    ('\u{60AA}', [0x88, 0xAB]), ('\u{60B2}', [0x94, 0xDF]), ('\u{60B3}', [0x9C, 0x7B]), 
    ('\u{60B4}', [0x9C, 0xAA]), ('\u{60B5}', [0x9C, 0xAE]), ('\u{60B6}', [0x96, 0xE3]), 
    ('\u{60B8}', [0x9C, 0xA7]), ('\u{60BC}', [0x93, 0x89]), ('\u{60BD}', [0x9C, 0xAC]), 
    ('\u{60C5}', [0x8F, 0xEE]), ('\u{60C6}', [0x9C, 0xAD]), ('\u{60C7}', [0x93, 0xD5]), 
    ('\u{60D1}', [0x98, 0x66]), ('\u{60D3}', [0x9C, 0xA9]), ('\u{60D5}', [0xFA, 0xC0]), 
    ('\u{60D8}', [0x9C, 0xAF]), ('\u{60DA}', [0x8D, 0x9B]), ('\u{60DC}', [0x90, 0xC9]), 
    ('\u{60DE}', [0xFA, 0xBF]), ('\u{60DF}', [0x88, 0xD2]), ('\u{60E0}', [0x9C, 0xA8]), 
    ('\u{60E1}', [0x9C, 0xA6]), ('\u{60E3}', [0x91, 0x79]), ('\u{60E7}', [0x9C, 0x9C]), 
    ('\u{60E8}', [0x8E, 0x53]), ('\u{60F0}', [0x91, 0xC4]), ('\u{60F1}', [0x9C, 0xBB]), 
    ('\u{60F2}', [0xFA, 0xC2]), ('\u{60F3}', [0x91, 0x7A]), ('\u{60F4}', [0x9C, 0xB6]), 
    ('\u{60F6}', [0x9C, 0xB3]), ('\u{60F7}', [0x9C, 0xB4]), ('\u{60F9}', [0x8E, 0xE4]), 
    ('\u{60FA}', [0x9C, 0xB7]), ('\u{60FB}', [0x9C, 0xBA]), ('\u{6100}', [0x9C, 0xB5]), 
    ('\u{6101}', [0x8F, 0x44]), ('\u{6103}', [0x9C, 0xB8]), ('\u{6106}', [0x9C, 0xB2]), 
    ('\u{6108}', [0x96, 0xFA]), ('\u{6109}', [0x96, 0xF9]), ('\u{610D}', [0x9C, 0xBC]), 
    ('\u{610E}', [0x9C, 0xBD]), ('\u{610F}', [0x88, 0xD3]), ('\u{6111}', [0xFA, 0xC3]), 
    ('\u{6115}', [0x9C, 0xB1]), ('\u{611A}', [0x8B, 0xF0]), ('\u{611B}', [0x88, 0xA4]), 
    ('\u{611F}', [0x8A, 0xB4]), ('\u{6120}', [0xFA, 0xC1]), ('\u{6121}', [0x9C, 0xB9]), 
    ('\u{6127}', [0x9C, 0xC1]), ('\u{6128}', [0x9C, 0xC0]), ('\u{612C}', [0x9C, 0xC5]), 
"#

/-- src/generated/whatwg/shiftjis_whatwg_tables.rs.inc:2164-2291 -/
noncomputable def encode6 : List Text := lines! r#"    ('\u{6130}', [0xFA, 0xC5]), ('\u{6134}', [0x9C, 0xC6]), ('\u{6137}', [0xFA, 0xC4]), 
    ('\u{613C}', [0x9C, 0xC4]), ('\u{613D}', [0x9C, 0xC7]), ('\u{613E}', [0x9C, 0xBF]), 
    ('\u{613F}', [0x9C, 0xC3]), ('\u{6142}', [0x9C, 0xC8]), ('\u{6144}', [0x9C, 0xC9]), 
    ('\u{6147}', [0x9C, 0xBE]), ('\u{6148}', [0x8E, 0x9C]), ('\u{614A}', [0x9C, 0xC2]), 
    ('\u{614B}', [0x91, 0xD4]), ('\u{614C}', [0x8D, 0x51]), ('\u{614D}', [0x9C, 0xB0]), 
    ('\u{614E}', [0x90, 0x54]), ('\u{6153}', [0x9C, 0xD6]), ('\u{6155}', [0x95, 0xE7]), 
    ('\u{6158}', [0x9C, 0xCC]), ('\u{6159}', [0x9C, 0xCD]), ('\u{615A}', [0x9C, 0xCE]), 
    ('\u{615D}', [0x9C, 0xD5]), ('\u{615F}', [0x9C, 0xD4]), ('\u{6162}', [0x96, 0x9D]), 
    ('\u{6163}', [0x8A, 0xB5]), ('\u{6165}', [0x9C, 0xD2]), ('\u{6167}', [0x8C, 0x64]), 
    ('\u{6168}', [0x8A, 0x53]), ('\u{616B}', [0x9C, 0xCF]), ('\u{616E}', [0x97, 0xB6]), 
    ('\u{616F}', [0x9C, 0xD1]), ('\u{6170}', [0x88, 0xD4]), ('\u{6171}', [0x9C, 0xD3]), 
    ('\u{6173}', [0x9C, 0xCA]), ('\u{6174}', [0x9C, 0xD0]), ('\u{6175}', [0x9C, 0xD7]), 
    ('\u{6176}', [0x8C, 0x63]), ('\u{6177}', [0x9C, 0xCB]), ('\u{617E}', [0x97, 0x7C]), 
    ('\u{6182}', [0x97, 0x4A]), ('\u{6187}', [0x9C, 0xDA]), ('\u{618A}', [0x9C, 0xDE]), 
    ('\u{618E}', [0x91, 0x9E]), ('\u{6190}', [0x97, 0xF7]), ('\u{6191}', [0x9C, 0xDF]), 
    ('\u{6194}', [0x9C, 0xDC]), ('\u{6196}', [0x9C, 0xD9]), ('\u{6198}', [0xFA, 0xC6]), 
    ('\u{6199}', [0x9C, 0xD8]), ('\u{619A}', [0x9C, 0xDD]), ('\u{61A4}', [0x95, 0xAE]), 
    ('\u{61A7}', [0x93, 0xB2]), ('\u{61A9}', [0x8C, 0x65]), ('\u{61AB}', [0x9C, 0xE0]), 
    ('\u{61AC}', [0x9C, 0xDB]), ('\u{61AE}', [0x9C, 0xE1]), ('\u{61B2}', [0x8C, 0x9B]), 
    ('\u{61B6}', [0x89, 0xAF]), ('\u{61BA}', [0x9C, 0xE9]), ('\u{61BE}', [0x8A, 0xB6]), 
    ('\u{61C3}', [0x9C, 0xE7]), ('\u{61C6}', [0x9C, 0xE8]), ('\u{61C7}', [0x8D, 0xA7]), 
    ('\u{61C8}', [0x9C, 0xE6]), ('\u{61C9}', [0x9C, 0xE4]), ('\u{61CA}', [0x9C, 0xE3]), 
    ('\u{61CB}', [0x9C, 0xEA]), ('\u{61CC}', [0x9C, 0xE2]), ('\u{61CD}', [0x9C, 0xEC]), 
    ('\u{61D0}', [0x89, 0xF9]), ('\u{61E3}', [0x9C, 0xEE]), ('\u{61E6}', [0x9C, 0xED]), 
    ('\u{61F2}', [0x92, 0xA6]), ('\u{61F4}', [0x9C, 0xF1]), ('\u{61F6}', [0x9C, 0xEF]), 
    ('\u{61F7}', [0x9C, 0xE5]), ('\u{61F8}', [0x8C, 0x9C]), ('\u{61FA}', [0x9C, 0xF0]), 
    ('\u{61FC}', [0x9C, 0xF4]), ('\u{61FD}', [0x9C, 0xF3]), ('\u{61FE}', [0x9C, 0xF5]), 
    ('\u{61FF}', [0x9C, 0xF2]), ('\u{6200}', [0x9C, 0xF6]), ('\u{6208}', [0x9C, 0xF7]), 
    ('\u{6209}', [0x9C, 0xF8]), ('\u{620A}', [0x95, 0xE8]), ('\u{620C}', [0x9C, 0xFA]), 
    ('\u{620D}', [0x9C, 0xF9]), ('\u{620E}', [0x8F, 0x5E]), ('\u{6210}', [0x90, 0xAC]), 
    ('\u{6211}', [0x89, 0xE4]), ('\u{6212}', [0x89, 0xFA]), ('\u{6213}', [0xFA, 0xC7]), 
    ('\u{6214}', [0x9C, 0xFB]), ('\u{6216}', [0x88, 0xBD]), ('\u{621A}', [0x90, 0xCA]), 
    ('\u{621B}', [0x9C, 0xFC]), ('\u{621D}', [0xE6, 0xC1]), ('\u{621E}', [0x9D, 0x40]), 
    ('\u{621F}', [0x8C, 0x81]), ('\u{6221}', [0x9D, 0x41]), ('\u{6226}', [0x90, 0xED]), 
    ('\u{622A}', [0x9D, 0x42]), ('\u{622E}', [0x9D, 0x43]), ('\u{622F}', [0x8B, 0x59]), 
    ('\u{6230}', [0x9D, 0x44]), ('\u{6232}', [0x9D, 0x45]), ('\u{6233}', [0x9D, 0x46]), 
    ('\u{6234}', [0x91, 0xD5]), ('\u{6238}', [0x8C, 0xCB]), ('\u{623B}', [0x96, 0xDF]), 
    ('\u{623F}', [0x96, 0x5B]), ('\u{6240}', [0x8F, 0x8A]), ('\u{6241}', [0x9D, 0x47]), 
    ('\u{6247}', [0x90, 0xEE]), ('\u{6248}', [0xE7, 0xBB]), ('\u{6249}', [0x94, 0xE0]), 
    ('\u{624B}', [0x8E, 0xE8]), ('\u{624D}', [0x8D, 0xCB]), ('\u{624E}', [0x9D, 0x48]), 
    ('\u{6253}', [0x91, 0xC5]), ('\u{6255}', [0x95, 0xA5]), ('\u{6258}', [0x91, 0xEF]), 
    ('\u{625B}', [0x9D, 0x4B]), ('\u{625E}', [0x9D, 0x49]), ('\u{6260}', [0x9D, 0x4C]), 
    ('\u{6263}', [0x9D, 0x4A]), ('\u{6268}', [0x9D, 0x4D]), ('\u{626E}', [0x95, 0xAF]), 
    ('\u{6271}', [0x88, 0xB5]), ('\u{6276}', [0x95, 0x7D]), ('\u{6279}', [0x94, 0xE1]), 
    ('\u{627C}', [0x9D, 0x4E]), ('\u{627E}', [0x9D, 0x51]), ('\u{627F}', [0x8F, 0xB3]), 
    ('\u{6280}', [0x8B, 0x5A]), ('\u{6282}', [0x9D, 0x4F]), ('\u{6283}', [0x9D, 0x56]), 
    ('\u{6284}', [0x8F, 0xB4]), ('\u{6289}', [0x9D, 0x50]), ('\u{628A}', [0x94, 0x63]), 
    ('\u{6291}', [0x97, 0x7D]), ('\u{6292}', [0x9D, 0x52]), ('\u{6293}', [0x9D, 0x53]), 
    ('\u{6294}', [0x9D, 0x57]), ('\u{6295}', [0x93, 0x8A]), ('\u{6296}', [0x9D, 0x54]), 
    ('\u{6297}', [0x8D, 0x52]), ('\u{6298}', [0x90, 0xDC]), ('\u{629B}', [0x9D, 0x65]), 
    ('\u{629C}', [0x94, 0xB2]), ('\u{629E}', [0x91, 0xF0]), ('\u{62A6}', [0xFA, 0xC8]), 
    ('\u{62AB}', [0x94, 0xE2]), ('\u{62AC}', [0x9D, 0xAB]), ('\u{62B1}', [0x95, 0xF8]), 
    ('\u{62B5}', [0x92, 0xEF]), ('\u{62B9}', [0x96, 0x95]), ('\u{62BB}', [0x9D, 0x5A]), 
    ('\u{62BC}', [0x89, 0x9F]), ('\u{62BD}', [0x92, 0x8A]), ('\u{62C2}', [0x9D, 0x63]), 
    ('\u{62C5}', [0x92, 0x53]), ('\u{62C6}', [0x9D, 0x5D]), ('\u{62C7}', [0x9D, 0x64]), 
    ('\u{62C8}', [0x9D, 0x5F]), ('\u{62C9}', [0x9D, 0x66]), ('\u{62CA}', [0x9D, 0x62]), 
    ('\u{62CC}', [0x9D, 0x61]), ('\u{62CD}', [0x94, 0x8F]), ('\u{62CF}', [0x9D, 0x5B]), 
    ('\u{62D0}', [0x89, 0xFB]), ('\u{62D1}', [0x9D, 0x59]), ('\u{62D2}', [0x8B, 0x91]), 
    ('\u{62D3}', [0x91, 0xF1]), ('\u{62D4}', [0x9D, 0x55]), ('\u{62D7}', [0x9D, 0x58]), 
    ('\u{62D8}', [0x8D, 0x53]), ('\u{62D9}', [0x90, 0xD9]), ('\u{62DB}', [0x8F, 0xB5]), 
    ('\u{62DC}', [0x9D, 0x60]), ('\u{62DD}', [0x94, 0x71]), ('\u{62E0}', [0x8B, 0x92]), 
    ('\u{62E1}', [0x8A, 0x67]), ('\u{62EC}', [0x8A, 0x87]), ('\u{62ED}', [0x90, 0x40]), 
    ('\u{62EE}', [0x9D, 0x68]), ('\u{62EF}', [0x9D, 0x6D]), ('\u{62F1}', [0x9D, 0x69]), 
    ('\u{62F3}', [0x8C, 0x9D]), ('\u{62F5}', [0x9D, 0x6E]), ('\u{62F6}', [0x8E, 0x41]), 
    ('\u{62F7}', [0x8D, 0x89]), ('\u{62FE}', [0x8F, 0x45]), ('\u{62FF}', [0x9D, 0x5C]), 
    ('\u{6301}', [0x8E, 0x9D]), ('\u{6302}', [0x9D, 0x6B]), ('\u{6307}', [0x8E, 0x77]), 
    ('\u{6308}', [0x9D, 0x6C]), ('\u{6309}', [0x88, 0xC2]), ('\u{630C}', [0x9D, 0x67]), 
    ('\u{6311}', [0x92, 0xA7]), ('\u{6319}', [0x8B, 0x93]), ('\u{631F}', [0x8B, 0xB2]), 
    ('\u{6327}', [0x9D, 0x6A]), ('\u{6328}', [0x88, 0xA5]), ('\u{632B}', [0x8D, 0xC1]), 
    ('\u{632F}', [0x90, 0x55]), ('\u{633A}', [0x92, 0xF0]), ('\u{633D}', [0x94, 0xD2]), 
    ('\u{633E}', [0x9D, 0x70]), ('\u{633F}', [0x91, 0x7D]), ('\u{6349}', [0x91, 0xA8]), 
    ('\u{634C}', [0x8E, 0x4A]), ('\u{634D}', [0x9D, 0x71]), ('\u{634F}', [0x9D, 0x73]), 
    ('\u{6350}', [0x9D, 0x6F]), ('\u{6355}', [0x95, 0xDF]), ('\u{6357}', [0x92, 0xBB]), 
    ('\u{635C}', [0x91, 0x7B]), ('\u{6367}', [0x95, 0xF9]), ('\u{6368}', [0x8E, 0xCC]), 
    ('\u{6369}', [0x9D, 0x80]), ('\u{636B}', [0x9D, 0x7E]), ('\u{636E}', [0x90, 0x98]), 
    ('\u{6372}', [0x8C, 0x9E]), ('\u{6376}', [0x9D, 0x78]), ('\u{6377}', [0x8F, 0xB7]), 
    ('\u{637A}', [0x93, 0xE6]), ('\u{637B}', [0x94, 0x50]), ('\u{6380}', [0x9D, 0x76]), 
    ('\u{6383}', [0x91, 0x7C]), ('\u{6388}', [0x8E, 0xF6]), ('\u{6389}', [0x9D, 0x7B]), 
    ('\u{638C}', [0x8F, 0xB6]), ('\u{638E}', [0x9D, 0x75]), ('\u{638F}', [0x9D, 0x7A]), 
    ('\u{6392}', [0x94, 0x72]), ('\u{6396}', [0x9D, 0x74]), ('\u{6398}', [0x8C, 0x40]), 
    ('\u{639B}', [0x8A, 0x7C]), ('\u{639F}', [0x9D, 0x7C]), ('\u{63A0}', [0x97, 0xA9]), 
    ('\u{63A1}', [0x8D, 0xCC]), ('\u{63A2}', [0x92, 0x54]), ('\u{63A3}', [0x9D, 0x79]), 
    ('\u{63A5}', [0x90, 0xDA]), ('\u{63A7}', [0x8D, 0x54]), ('\u{63A8}', [0x90, 0x84]), 
    ('\u{63A9}', [0x89, 0x86]), ('\u{63AA}', [0x91, 0x5B]), ('\u{63AB}', [0x9D, 0x77]), 
    ('\u{63AC}', [0x8B, 0x64]), ('\u{63B2}', [0x8C, 0x66]), ('\u{63B4}', [0x92, 0xCD]), 
    ('\u{63B5}', [0x9D, 0x7D]), ('\u{63BB}', [0x91, 0x7E]), ('\u{63BE}', [0x9D, 0x81]), 
    ('\u{63C0}', [0x9D, 0x83]), ('\u{63C3}', [0x91, 0xB5]), ('\u{63C4}', [0x9D, 0x89]), 
    ('\u{63C6}', [0x9D, 0x84]), ('\u{63C9}', [0x9D, 0x86]), ('\u{63CF}', [0x95, 0x60]), 
    ('\u{63D0}', [0x92, 0xF1]), ('\u{63D2}', [0x9D, 0x87]), ('\u{63D6}', [0x97, 0x4B]), 
    ('\u{63DA}', [0x97, 0x67]), ('\u{63DB}', [0x8A, 0xB7]), ('\u{63E1}', [0x88, 0xAC]), 
    ('\u{63E3}', [0x9D, 0x85]), ('\u{63E9}', [0x9D, 0x82]), ('\u{63EE}', [0x8A, 0xF6]), 
    ('\u{63F4}', [0x89, 0x87]), ('\u{63F5}', [0xFA, 0xC9]), ('\u{63F6}', [0x9D, 0x88]), 
    ('\u{63FA}', [0x97, 0x68]), ('\u{6406}', [0x9D, 0x8C]), ('\u{640D}', [0x91, 0xB9]), 
    ('\u{640F}', [0x9D, 0x93]), ('\u{6413}', [0x9D, 0x8D]), ('\u{6416}', [0x9D, 0x8A]), 
    ('\u{6417}', [0x9D, 0x91]), ('\u{641C}', [0x9D, 0x72]), ('\u{6426}', [0x9D, 0x8E]), 
    ('\u{6428}', [0x9D, 0x92]), ('\u{642C}', [0x94, 0xC0]), ('\u{642D}', [0x93, 0x8B]), 
    ('\u{6434}', [0x9D, 0x8B]), ('\u{6436}', [0x9D, 0x8F]), ('\u{643A}', [0x8C, 0x67]), 
    ('\u{643E}', [0x8D, 0xEF]), ('\u{6442}', [0x90, 0xDB]), ('\u{644E}', [0x9D, 0x97]), 
    ('\u{6458}', [0x93, 0x45]), ('\u{6460}', [0xFA, 0xCA]), ('\u{6467}', [0x9D, 0x94]), 
    ('\u{6469}', [0x96, 0x80]), ('\u{646F}', [0x9D, 0x95]), ('\u{6476}', [0x9D, 0x96]), 
    ('\u{6478}', [0x96, 0xCC]), ('\u{647A}', [0x90, 0xA0]), ('\u{6483}', [0x8C, 0x82]), 
    ('\u{6488}', [0x9D, 0x9D]), ('\u{6492}', [0x8E, 0x54]), ('\u{6493}', [0x9D, 0x9A]), 
    ('\u{6495}', [0x9D, 0x99]), ('\u{649A}', [0x94, 0x51]), ('\u{649D}', [0xFA, 0xCB]), 
    ('\u{649E}', [0x93, 0xB3]), ('\u{64A4}', [0x93, 0x50]), ('\u{64A5}', [0x9D, 0x9B]), 
    ('\u{64A9}', [0x9D, 0x9C]), ('\u{64AB}', [0x95, 0x8F]), ('\u{64AD}', [0x94, 0x64]), 
    ('\u{64AE}', [0x8E, 0x42]), ('\u{64B0}', [0x90, 0xEF]), ('\u{64B2}', [0x96, 0x6F]), 
    ('\u{64B9}', [0x8A, 0x68]), ('\u{64BB}', [0x9D, 0xA3]), ('\u{64BC}', [0x9D, 0x9E]), 
    ('\u{64C1}', [0x97, 0x69]), ('\u{64C2}', [0x9D, 0xA5]), ('\u{64C5}', [0x9D, 0xA1]), 
    ('\u{64C7}', [0x9D, 0xA2]), ('\u{64CD}', [0x91, 0x80]), ('\u{64CE}', [0xFA, 0xCC]), 
    ('\u{64D2}', [0x9D, 0xA0]), ('\u{64D4}', [0x9D, 0x5E]), ('\u{64D8}', [0x9D, 0xA4]), 
    ('\u{64DA}', [0x9D, 0x9F]), ('\u{64E0}', [0x9D, 0xA9]), ('\u{64E1}', [0x9D, 0xAA]), 
    ('\u{64E2}', [0x93, 0x46]), ('\u{64E3}', [0x9D, 0xAC]), ('\u{64E6}', [0x8E, 0x43]), 
    ('\u{64E7}', [0x9D, 0xA7]), ('\u{64EC}', [0x8B, 0x5B]), ('\u{64EF}', [0x9D, 0xAD]), 
    ('\u{64F1}', [0x9D, 0xA6]), ('\u{64F2}', [0x9D, 0xB1]), ('\u{64F4}', [0x9D, 0xB0]), 
    ('\u{64F6}', [0x9D, 0xAF]), ('\u{64FA}', [0x9D, 0xB2]), ('\u{64FD}', [0x9D, 0xB4]), 
    ('\u{64FE}', [0x8F, 0xEF]), ('\u{6500}', [0x9D, 0xB3]), ('\u{6505}', [0x9D, 0xB7]), 
    ('\u{6518}', [0x9D, 0xB5]), ('\u{651C}', [0x9D, 0xB6]), ('\u{651D}', [0x9D, 0x90]), 
    ('\u{6523}', [0x9D, 0xB9]), ('\u{6524}', [0x9D, 0xB8]), ('\u{652A}', [0x9D, 0x98]), 
    ('\u{652B}', [0x9D, 0xBA]), ('\u{652C}', [0x9D, 0xAE]), ('\u{652F}', [0x8E, 0x78]), 
    ('\u{6534}', [0x9D, 0xBB]), ('\u{6535}', [0x9D, 0xBC]), ('\u{6536}', [0x9D, 0xBE]), 
    ('\u{6537}', [0x9D, 0xBD]), ('\u{6538}', [0x9D, 0xBF]), ('\u{6539}', [0x89, 0xFC]), 
    ('\u{653B}', [0x8D, 0x55]), ('\u{653E}', [0x95, 0xFA]), ('\u{653F}', [0x90, 0xAD]), 
    ('\u{6545}', [0x8C, 0xCC]), ('\u{6548}', [0x9D, 0xC1]), ('\u{654D}', [0x9D, 0xC4]), 
    ('\u{654E}', [0xFA, 0xCD]), ('\u{654F}', [0x95, 0x71]), ('\u{6551}', [0x8B, 0x7E]), 
    ('\u{6555}', [0x9D, 0xC3]), ('\u{6556}', [0x9D, 0xC2]), ('\u{6557}', [0x94, 0x73]), 
    ('\u{6558}', [0x9D, 0xC5]), ('\u{6559}', [0x8B, 0xB3]), ('\u{655D}', [0x9D, 0xC7]), 
    ('\u{655E}', [0x9D, 0xC6]), ('\u{6562}', [0x8A, 0xB8]), ('\u{6563}', [0x8E, 0x55]), 
    ('\u{6566}', [0x93, 0xD6]), ('\u{656C}', [0x8C, 0x68]), ('\u{6570}', [0x90, 0x94]), 
"#

/-- src/generated/whatwg/shiftjis_whatwg_tables.rs.inc:2292-2419 -/
noncomputable def encode7 : List Text := lines! r#"    ('\u{6572}', [0x9D, 0xC8]), ('\u{6574}', [0x90, 0xAE]), ('\u{6575}', [0x93, 0x47]), 
    ('\u{6577}', [0x95, 0x7E]), ('\u{6578}', [0x9D, 0xC9]), ('\u{6582}', [0x9D, 0xCA]), 
    ('\u{6583}', [0x9D, 0xCB]), ('\u{6587}', [0x95, 0xB6]), ('\u{6588}', [0x9B, 0x7C]), 
    ('\u{6589}', [0x90, 0xC4]), ('\u{658C}', [0x95, 0x6B]), ('\u{658E}', [0x8D, 0xD6]), 
    ('\u{6590}', [0x94, 0xE3]), ('\u{6591}', [0x94, 0xC1]), ('\u{6597}', [0x93, 0x6C]), 
    ('\u{6599}', [0x97, 0xBF]), ('\u{659B}', [0x9D, 0xCD]), ('\u{659C}', [0x8E, 0xCE]), 
    ('\u{659F}', [0x9D, 0xCE]), ('\u{65A1}', [0x88, 0xB4]), ('\u{65A4}', [0x8B, 0xD2]), 
    ('\u{65A5}', [0x90, 0xCB]), ('\u{65A7}', [0x95, 0x80]), ('\u{65AB}', [0x9D, 0xCF]), 
    ('\u{65AC}', [0x8E, 0x61]), ('\u{65AD}', [0x92, 0x66]), ('\u{65AF}', [0x8E, 0x7A]), 
    ('\u{65B0}', [0x90, 0x56]), ('\u{65B7}', [0x9D, 0xD0]), ('\u{65B9}', [0x95, 0xFB]), 
    ('\u{65BC}', [0x89, 0x97]), ('\u{65BD}', [0x8E, 0x7B]), ('\u{65C1}', [0x9D, 0xD3]), 
    ('\u{65C3}', [0x9D, 0xD1]), ('\u{65C4}', [0x9D, 0xD4]), ('\u{65C5}', [0x97, 0xB7]), 
    ('\u{65C6}', [0x9D, 0xD2]), ('\u{65CB}', [0x90, 0xF9]), ('\u{65CC}', [0x9D, 0xD5]), 
    ('\u{65CF}', [0x91, 0xB0]), ('\u{65D2}', [0x9D, 0xD6]), ('\u{65D7}', [0x8A, 0xF8]), 
    ('\u{65D9}', [0x9D, 0xD8]), ('\u{65DB}', [0x9D, 0xD7]), ('\u{65E0}', [0x9D, 0xD9]), 
    ('\u{65E1}', [0x9D, 0xDA]), ('\u{65E2}', [0x8A, 0xF9]), ('\u{65E5}', [0x93, 0xFA]), 
    ('\u{65E6}', [0x92, 0x55]), ('\u{65E7}', [0x8B, 0x8C]), ('\u{65E8}', [0x8E, 0x7C]), 
    ('\u{65E9}', [0x91, 0x81]), ('\u{65EC}', [0x8F, 0x7B]), ('\u{65ED}', [0x88, 0xAE]), 
    ('\u{65F1}', [0x9D, 0xDB]), ('\u{65FA}', [0x89, 0xA0]), ('\u{65FB}', [0x9D, 0xDF]), 
    ('\u{6600}', [0xFA, 0xCE]), ('\u{6602}', [0x8D, 0x56]), ('\u{6603}', [0x9D, 0xDE]), 
    ('\u{6606}', [0x8D, 0xA9]), ('\u{6607}', [0x8F, 0xB8]), ('\u{6609}', [0xFA, 0xD1]), 
    ('\u{660A}', [0x9D, 0xDD]), ('\u{660C}', [0x8F, 0xB9]), ('\u{660E}', [0x96, 0xBE]), 
    ('\u{660F}', [0x8D, 0xA8]), ('\u{6613}', [0x88, 0xD5]), ('\u{6614}', [0x90, 0xCC]), 
    ('\u{6615}', [0xFA, 0xCF]), ('\u{661C}', [0x9D, 0xE4]), ('\u{661E}', [0xFA, 0xD3]), 
    ('\u{661F}', [0x90, 0xAF]), ('\u{6620}', [0x89, 0x66]), ('\u{6624}', [0xFA, 0xD4]), 
    ('\u{6625}', [0x8F, 0x74]), ('\u{6627}', [0x96, 0x86]), ('\u{6628}', [0x8D, 0xF0]), 
    ('\u{662D}', [0x8F, 0xBA]), ('\u{662E}', [0xFA, 0xD2]), ('\u{662F}', [0x90, 0xA5]), 
    ('\u{6631}', [0xFA, 0x63]), ('\u{6634}', [0x9D, 0xE3]), ('\u{6635}', [0x9D, 0xE1]), 
    ('\u{6636}', [0x9D, 0xE2]), ('\u{663B}', [0xFA, 0xD0]), ('\u{663C}', [0x92, 0x8B]), 
    ('\u{663F}', [0x9E, 0x45]), ('\u{6641}', [0x9D, 0xE8]), ('\u{6642}', [0x8E, 0x9E]), 
    ('\u{6643}', [0x8D, 0x57]), ('\u{6644}', [0x9D, 0xE6]), ('\u{6649}', [0x9D, 0xE7]), 
    ('\u{664B}', [0x90, 0x57]), ('\u{664F}', [0x9D, 0xE5]), ('\u{6652}', [0x8E, 0x4E]), 
    ('\u{6657}', [0xFA, 0xD6]), ('\u{6659}', [0xFA, 0xD7]), ('\u{665D}', [0x9D, 0xEA]), 
    ('\u{665E}', [0x9D, 0xE9]), ('\u{665F}', [0x9D, 0xEE]), ('\u{6662}', [0x9D, 0xEF]), 
    ('\u{6664}', [0x9D, 0xEB]), ('\u{6665}', [0xFA, 0xD5]), ('\u{6666}', [0x8A, 0x41]), 
    ('\u{6667}', [0x9D, 0xEC]), ('\u{6668}', [0x9D, 0xED]), ('\u{6669}', [0x94, 0xD3]), 
    ('\u{666E}', [0x95, 0x81]), ('\u{666F}', [0x8C, 0x69]), ('\u{6670}', [0x9D, 0xF0]), 
    ('\u{6673}', [0xFA, 0xD9]), ('\u{6674}', [0x90, 0xB0]), ('\u{6676}', [0x8F, 0xBB]), 
    ('\u{667A}', [0x92, 0x71]), ('\u{6681}', [0x8B, 0xC5]), ('\u{6683}', [0x9D, 0xF1]), 
    ('\u{6684}', [0x9D, 0xF5]), ('\u{6687}', [0x89, 0xC9]), ('\u{6688}', [0x9D, 0xF2]), 
    ('\u{6689}', [0x9D, 0xF4]), ('\u{668E}', [0x9D, 0xF3]), ('\u{6691}', [0x8F, 0x8B]), 
    ('\u{6696}', [0x92, 0x67]), ('\u{6697}', [0x88, 0xC3]), ('\u{6698}', [0x9D, 0xF6]), 
    ('\u{6699}', [0xFA, 0xDA]), ('\u{669D}', [0x9D, 0xF7]), ('\u{66A0}', [0xFA, 0xDB]), 
    ('\u{66A2}', [0x92, 0xA8]), ('\u{66A6}', [0x97, 0xEF]), ('\u{66AB}', [0x8E, 0x62]), 
    ('\u{66AE}', [0x95, 0xE9]), ('\u{66B2}', [0xFA, 0xDC]), ('\u{66B4}', [0x96, 0x5C]), 
    ('\u{66B8}', [0x9E, 0x41]), ('\u{66B9}', [0x9D, 0xF9]), ('\u{66BC}', [0x9D, 0xFC]), 
    ('\u{66BE}', [0x9D, 0xFB]), ('\u{66BF}', [0xFA, 0xDD]), ('\u{66C1}', [0x9D, 0xF8]), 
    ('\u{66C4}', [0x9E, 0x40]), ('\u{66C7}', [0x93, 0xDC]), ('\u{66C9}', [0x9D, 0xFA]), 
    ('\u{66D6}', [0x9E, 0x42]), ('\u{66D9}', [0x8F, 0x8C]), ('\u{66DA}', [0x9E, 0x43]), 
    ('\u{66DC}', [0x97, 0x6A]), ('\u{66DD}', [0x94, 0x98]), ('\u{66E0}', [0x9E, 0x44]), 
    ('\u{66E6}', [0x9E, 0x46]), ('\u{66E9}', [0x9E, 0x47]), ('\u{66F0}', [0x9E, 0x48]), 
    ('\u{66F2}', [0x8B, 0xC8]), ('\u{66F3}', [0x89, 0x67]), ('\u{66F4}', [0x8D, 0x58]), 
    ('\u{66F5}', [0x9E, 0x49]), ('\u{66F7}', [0x9E, 0x4A]), ('\u{66F8}', [0x8F, 0x91]), 
    ('\u{66F9}', [0x91, 0x82]), ('\u{66FA}', [0xFA, 0xDE]), ('\u{66FB}', [0xFA, 0x66]), 
    ('\u{66FC}', [0x99, 0xD6]), ('\u{66FD}', [0x91, 0x5D]), ('\u{66FE}', [0x91, 0x5C]), 
    ('\u{66FF}', [0x91, 0xD6]), ('\u{6700}', [0x8D, 0xC5]), ('\u{6703}', [0x98, 0xF0]), 
    ('\u{6708}', [0x8C, 0x8E]), ('\u{6709}', [0x97, 0x4C]), ('\u{670B}', [0x95, 0xFC]), 
    ('\u{670D}', [0x95, 0x9E]), ('\u{670E}', [0xFA, 0xDF]), ('\u{670F}', [0x9E, 0x4B]), 
    ('\u{6714}', [0x8D, 0xF1]), ('\u{6715}', [0x92, 0xBD]), ('\u{6716}', [0x9E, 0x4C]), 
    ('\u{6717}', [0x98, 0x4E]), ('\u{671B}', [0x96, 0x5D]), ('\u{671D}', [0x92, 0xA9]), 
    ('\u{671E}', [0x9E, 0x4D]), ('\u{671F}', [0x8A, 0xFA]), ('\u{6726}', [0x9E, 0x4E]), 
    ('\u{6727}', [0x9E, 0x4F]), ('\u{6728}', [0x96, 0xD8]), ('\u{672A}', [0x96, 0xA2]), 
    ('\u{672B}', [0x96, 0x96]), ('\u{672C}', [0x96, 0x7B]), ('\u{672D}', [0x8E, 0x44]), 
    ('\u{672E}', [0x9E, 0x51]), ('\u{6731}', [0x8E, 0xE9]), ('\u{6734}', [0x96, 0x70]), 
    ('\u{6736}', [0x9E, 0x53]), ('\u{6737}', [0x9E, 0x56]), ('\u{6738}', [0x9E, 0x55]), 
    ('\u{673A}', [0x8A, 0xF7]), ('\u{673D}', [0x8B, 0x80]), ('\u{673F}', [0x9E, 0x52]), 
    ('\u{6741}', [0x9E, 0x54]), ('\u{6746}', [0x9E, 0x57]), ('\u{6749}', [0x90, 0x99]), 
    ('\u{674E}', [0x97, 0x9B]), ('\u{674F}', [0x88, 0xC7]), ('\u{6750}', [0x8D, 0xDE]), 
    ('\u{6751}', [0x91, 0xBA]), ('\u{6753}', [0x8E, 0xDB]), ('\u{6756}', [0x8F, 0xF1]), 
    ('\u{6759}', [0x9E, 0x5A]), ('\u{675C}', [0x93, 0x6D]), ('\u{675E}', [0x9E, 0x58]), 
    ('\u{675F}', [0x91, 0xA9]), ('\u{6760}', [0x9E, 0x59]), ('\u{6761}', [0x8F, 0xF0]), 
    ('\u{6762}', [0x96, 0xDB]), ('\u{6763}', [0x9E, 0x5B]), ('\u{6764}', [0x9E, 0x5C]), 
    ('\u{6765}', [0x97, 0x88]), ('\u{6766}', [0xFA, 0xE1]), ('\u{676A}', [0x9E, 0x61]), 
    ('\u{676D}', [0x8D, 0x59]), ('\u{676F}', [0x94, 0x74]), ('\u{6770}', [0x9E, 0x5E]), 
    ('\u{6771}', [0x93, 0x8C]), ('\u{6772}', [0x9D, 0xDC]), ('\u{6773}', [0x9D, 0xE0]), 
    ('\u{6775}', [0x8B, 0x6E]), ('\u{6777}', [0x94, 0x66]), ('\u{677C}', [0x9E, 0x60]), 
    ('\u{677E}', [0x8F, 0xBC]), ('\u{677F}', [0x94, 0xC2]), ('\u{6785}', [0x9E, 0x66]), 
    ('\u{6787}', [0x94, 0xF8]), ('\u{6789}', [0x9E, 0x5D]), ('\u{678B}', [0x9E, 0x63]), 
    ('\u{678C}', [0x9E, 0x62]), ('\u{6790}', [0x90, 0xCD]), ('\u{6795}', [0x96, 0x8D]), 
    ('\u{6797}', [0x97, 0xD1]), ('\u{679A}', [0x96, 0x87]), ('\u{679C}', [0x89, 0xCA]), 
    ('\u{679D}', [0x8E, 0x7D]), ('\u{67A0}', [0x98, 0x67]), ('\u{67A1}', [0x9E, 0x65]), 
    ('\u{67A2}', [0x90, 0x95]), ('\u{67A6}', [0x9E, 0x64]), ('\u{67A9}', [0x9E, 0x5F]), 
    ('\u{67AF}', [0x8C, 0xCD]), ('\u{67B3}', [0x9E, 0x6B]), ('\u{67B4}', [0x9E, 0x69]), 
    ('\u{67B6}', [0x89, 0xCB]), ('\u{67B7}', [0x9E, 0x67]), ('\u{67B8}', [0x9E, 0x6D]), 
    ('\u{67B9}', [0x9E, 0x73]), ('\u{67BB}', [0xFA, 0xE2]), ('\u{67C0}', [0xFA, 0xE4]), 
    ('\u{67C1}', [0x91, 0xC6]), ('\u{67C4}', [0x95, 0xBF]), ('\u{67C6}', [0x9E, 0x75]), 
    ('\u{67CA}', [0x95, 0x41]), ('\u{67CE}', [0x9E, 0x74]), ('\u{67CF}', [0x94, 0x90]), 
    ('\u{67D0}', [0x96, 0x5E]), ('\u{67D1}', [0x8A, 0xB9]), ('\u{67D3}', [0x90, 0xF5]), 
    ('\u{67D4}', [0x8F, 0x5F]), ('\u{67D8}', [0x92, 0xD1]), ('\u{67DA}', [0x97, 0x4D]), 
    ('\u{67DD}', [0x9E, 0x70]), ('\u{67DE}', [0x9E, 0x6F]), ('\u{67E2}', [0x9E, 0x71]), 
    ('\u{67E4}', [0x9E, 0x6E]), ('\u{67E7}', [0x9E, 0x76]), ('\u{67E9}', [0x9E, 0x6C]), 
    ('\u{67EC}', [0x9E, 0x6A]), ('\u{67EE}', [0x9E, 0x72]), ('\u{67EF}', [0x9E, 0x68]), 
    ('\u{67F1}', [0x92, 0x8C]), ('\u{67F3}', [0x96, 0xF6]), ('\u{67F4}', [0x8E, 0xC4]), 
    ('\u{67F5}', [0x8D, 0xF2]), ('\u{67FB}', [0x8D, 0xB8]), ('\u{67FE}', [0x96, 0x8F]), 
    ('\u{67FF}', [0x8A, 0x60]), ('\u{6801}', [0xFA, 0xE5]), ('\u{6802}', [0x92, 0xCC]), 
    ('\u{6803}', [0x93, 0xC8]), ('\u{6804}', [0x89, 0x68]), ('\u{6813}', [0x90, 0xF0]), 
    ('\u{6816}', [0x90, 0xB2]), ('\u{6817}', [0x8C, 0x49]), ('\u{681E}', [0x9E, 0x78]), 
    ('\u{6821}', [0x8D, 0x5A]), ('\u{6822}', [0x8A, 0x9C]), ('\u{6829}', [0x9E, 0x7A]), 
    ('\u{682A}', [0x8A, 0x94]), ('\u{682B}', [0x9E, 0x81]), ('\u{6832}', [0x9E, 0x7D]), 
    ('\u{6834}', [0x90, 0xF1]), ('\u{6838}', [0x8A, 0x6A]), ('\u{6839}', [0x8D, 0xAA]), 
    ('\u{683C}', [0x8A, 0x69]), ('\u{683D}', [0x8D, 0xCD]), ('\u{6840}', [0x9E, 0x7B]), 
    ('\u{6841}', [0x8C, 0x85]), ('\u{6842}', [0x8C, 0x6A]), ('\u{6843}', [0x93, 0x8D]), 
    ('\u{6844}', [0xFA, 0xE6]), ('\u{6846}', [0x9E, 0x79]), ('\u{6848}', [0x88, 0xC4]), 
    ('\u{684D}', [0x9E, 0x7C]), ('\u{684E}', [0x9E, 0x7E]), ('\u{6850}', [0x8B, 0xCB]), 
    ('\u{6851}', [0x8C, 0x4B]), ('\u{6852}', [0xFA, 0xE3]), ('\u{6853}', [0x8A, 0xBA]), 
    ('\u{6854}', [0x8B, 0x6A]), ('\u{6859}', [0x9E, 0x82]), ('\u{685C}', [0x8D, 0xF7]), 
    ('\u{685D}', [0x96, 0x91]), ('\u{685F}', [0x8E, 0x56]), ('\u{6863}', [0x9E, 0x83]), 
    ('\u{6867}', [0x95, 0x4F]), ('\u{6874}', [0x9E, 0x8F]), ('\u{6876}', [0x89, 0xB1]), 
    ('\u{6877}', [0x9E, 0x84]), ('\u{687E}', [0x9E, 0x95]), ('\u{687F}', [0x9E, 0x85]), 
    ('\u{6881}', [0x97, 0xC0]), ('\u{6883}', [0x9E, 0x8C]), ('\u{6885}', [0x94, 0x7E]), 
    ('\u{688D}', [0x9E, 0x94]), ('\u{688F}', [0x9E, 0x87]), ('\u{6893}', [0x88, 0xB2]), 
    ('\u{6894}', [0x9E, 0x89]), ('\u{6897}', [0x8D, 0x5B]), ('\u{689B}', [0x9E, 0x8B]), 
    ('\u{689D}', [0x9E, 0x8A]), ('\u{689F}', [0x9E, 0x86]), ('\u{68A0}', [0x9E, 0x91]), 
    ('\u{68A2}', [0x8F, 0xBD]), ('\u{68A6}', [0x9A, 0xEB]), ('\u{68A7}', [0x8C, 0xE6]), 
    ('\u{68A8}', [0x97, 0x9C]), ('\u{68AD}', [0x9E, 0x88]), ('\u{68AF}', [0x92, 0xF2]), 
    ('\u{68B0}', [0x8A, 0x42]), ('\u{68B1}', [0x8D, 0xAB]), ('\u{68B3}', [0x9E, 0x80]), 
    ('\u{68B5}', [0x9E, 0x90]), ('\u{68B6}', [0x8A, 0x81]), ('\u{68B9}', [0x9E, 0x8E]), 
    ('\u{68BA}', [0x9E, 0x92]), ('\u{68BC}', [0x93, 0x8E]), ('\u{68C4}', [0x8A, 0xFC]), 
    ('\u{68C6}', [0x9E, 0xB0]), ('\u{68C8}', [0xFA, 0x64]), ('\u{68C9}', [0x96, 0xC7]), 
    ('\u{68CA}', [0x9E, 0x97]), ('\u{68CB}', [0x8A, 0xFB]), ('\u{68CD}', [0x9E, 0x9E]), 
    ('\u{68CF}', [0xFA, 0xE7]), ('\u{68D2}', [0x96, 0x5F]), ('\u{68D4}', [0x9E, 0x9F]), 
    ('\u{68D5}', [0x9E, 0xA1]), ('\u{68D7}', [0x9E, 0xA5]), ('\u{68D8}', [0x9E, 0x99]), 
    ('\u{68DA}', [0x92, 0x49]), ('\u{68DF}', [0x93, 0x8F]), ('\u{68E0}', [0x9E, 0xA9]), 
    ('\u{68E1}', [0x9E, 0x9C]), ('\u{68E3}', [0x9E, 0xA6]), ('\u{68E7}', [0x9E, 0xA0]), 
    ('\u{68EE}', [0x90, 0x58]), ('\u{68EF}', [0x9E, 0xAA]), ('\u{68F2}', [0x90, 0xB1]), 
    ('\u{68F9}', [0x9E, 0xA8]), ('\u{68FA}', [0x8A, 0xBB]), ('\u{6900}', [0x98, 0x6F]), 
    ('\u{6901}', [0x9E, 0x96]), ('\u{6904}', [0x9E, 0xA4]), ('\u{6905}', [0x88, 0xD6]), 
    ('\u{6908}', [0x9E, 0x98]), ('\u{690B}', [0x96, 0xB8]), ('\u{690C}', [0x9E, 0x9D]), 
"#

/-- src/generated/whatwg/shiftjis_whatwg_tables.rs.inc:2420-2547 -/
noncomputable def encode8 : List Text := lines! r#"    ('\u{690D}', [0x90, 0x41]), ('\u{690E}', [0x92, 0xC5]), ('\u{690F}', [0x9E, 0x93]), 
    ('\u{6912}', [0x9E, 0xA3]), ('\u{6919}', [0x90, 0x9A]), ('\u{691A}', [0x9E, 0xAD]), 
    ('\u{691B}', [0x8A, 0x91]), ('\u{691C}', [0x8C, 0x9F]), ('\u{6921}', [0x9E, 0xAF]), 
    ('\u{6922}', [0x9E, 0x9A]), ('\u{6923}', [0x9E, 0xAE]), ('\u{6925}', [0x9E, 0xA7]), 
    ('\u{6926}', [0x9E, 0x9B]), ('\u{6928}', [0x9E, 0xAB]), ('\u{692A}', [0x9E, 0xAC]), 
    ('\u{6930}', [0x9E, 0xBD]), ('\u{6934}', [0x93, 0xCC]), ('\u{6936}', [0x9E, 0xA2]), 
    ('\u{6939}', [0x9E, 0xB9]), ('\u{693D}', [0x9E, 0xBB]), ('\u{693F}', [0x92, 0xD6]), 
    ('\u{694A}', [0x97, 0x6B]), ('\u{6953}', [0x95, 0x96]), ('\u{6954}', [0x9E, 0xB6]), 
    ('\u{6955}', [0x91, 0xC8]), ('\u{6959}', [0x9E, 0xBC]), ('\u{695A}', [0x91, 0x5E]), 
    ('\u{695C}', [0x9E, 0xB3]), ('\u{695D}', [0x9E, 0xC0]), ('\u{695E}', [0x9E, 0xBF]), 
    ('\u{6960}', [0x93, 0xED]), ('\u{6961}', [0x9E, 0xBE]), ('\u{6962}', [0x93, 0xE8]), 
    ('\u{6968}', [0xFA, 0xE9]), ('\u{696A}', [0x9E, 0xC2]), ('\u{696B}', [0x9E, 0xB5]), 
    ('\u{696D}', [0x8B, 0xC6]), ('\u{696E}', [0x9E, 0xB8]), ('\u{696F}', [0x8F, 0x7C]), 
    ('\u{6973}', [0x94, 0x80]), ('\u{6974}', [0x9E, 0xBA]), ('\u{6975}', [0x8B, 0xC9]), 
    ('\u{6977}', [0x9E, 0xB2]), ('\u{6978}', [0x9E, 0xB4]), ('\u{6979}', [0x9E, 0xB1]), 
    ('\u{697C}', [0x98, 0x4F]), ('\u{697D}', [0x8A, 0x79]), ('\u{697E}', [0x9E, 0xB7]), 
    ('\u{6981}', [0x9E, 0xC1]), ('\u{6982}', [0x8A, 0x54]), ('\u{698A}', [0x8D, 0xE5]), 
    ('\u{698E}', [0x89, 0x7C]), ('\u{6991}', [0x9E, 0xD2]), ('\u{6994}', [0x98, 0x50]), 
    ('\u{6995}', [0x9E, 0xD5]), ('\u{6998}', [0xFA, 0xEB]), ('\u{699B}', [0x90, 0x59]), 
    ('\u{699C}', [0x9E, 0xD4]), ('\u{69A0}', [0x9E, 0xD3]), ('\u{69A7}', [0x9E, 0xD0]), 
    ('\u{69AE}', [0x9E, 0xC4]), ('\u{69B1}', [0x9E, 0xE1]), ('\u{69B2}', [0x9E, 0xC3]), 
    ('\u{69B4}', [0x9E, 0xD6]), ('\u{69BB}', [0x9E, 0xCE]), ('\u{69BE}', [0x9E, 0xC9]), 
    ('\u{69BF}', [0x9E, 0xC6]), ('\u{69C1}', [0x9E, 0xC7]), ('\u{69C3}', [0x9E, 0xCF]), 
    ('\u{69C7}', [0xEA, 0xA0]), ('\u{69CA}', [0x9E, 0xCC]), ('\u{69CB}', [0x8D, 0x5C]), 
    ('\u{69CC}', [0x92, 0xC6]), ('\u{69CD}', [0x91, 0x84]), ('\u{69CE}', [0x9E, 0xCA]), 
    ('\u{69D0}', [0x9E, 0xC5]), ('\u{69D3}', [0x9E, 0xC8]), ('\u{69D8}', [0x97, 0x6C]), 
    ('\u{69D9}', [0x96, 0x8A]), ('\u{69DD}', [0x9E, 0xCD]), ('\u{69DE}', [0x9E, 0xD7]), 
    ('\u{69E2}', [0xFA, 0xEC]), ('\u{69E7}', [0x9E, 0xDF]), ('\u{69E8}', [0x9E, 0xD8]), 
    ('\u{69EB}', [0x9E, 0xE5]), ('\u{69ED}', [0x9E, 0xE3]), ('\u{69F2}', [0x9E, 0xDE]), 
    ('\u{69F9}', [0x9E, 0xDD]), ('\u{69FB}', [0x92, 0xCE]), ('\u{69FD}', [0x91, 0x85]), 
    ('\u{69FF}', [0x9E, 0xDB]), ('\u{6A02}', [0x9E, 0xD9]), ('\u{6A05}', [0x9E, 0xE0]), 
    ('\u{6A0A}', [0x9E, 0xE6]), ('\u{6A0B}', [0x94, 0xF3]), ('\u{6A0C}', [0x9E, 0xEC]), 
    ('\u{6A12}', [0x9E, 0xE7]), ('\u{6A13}', [0x9E, 0xEA]), ('\u{6A14}', [0x9E, 0xE4]), 
    ('\u{6A17}', [0x92, 0x94]), ('\u{6A19}', [0x95, 0x57]), ('\u{6A1B}', [0x9E, 0xDA]), 
    ('\u{6A1E}', [0x9E, 0xE2]), ('\u{6A1F}', [0x8F, 0xBE]), ('\u{6A21}', [0x96, 0xCD]), 
    ('\u{6A22}', [0x9E, 0xF6]), ('\u{6A23}', [0x9E, 0xE9]), ('\u{6A29}', [0x8C, 0xA0]), 
    ('\u{6A2A}', [0x89, 0xA1]), ('\u{6A2B}', [0x8A, 0x7E]), ('\u{6A2E}', [0x9E, 0xD1]), 
    ('\u{6A30}', [0xFA, 0xED]), ('\u{6A35}', [0x8F, 0xBF]), ('\u{6A36}', [0x9E, 0xEE]), 
    ('\u{6A38}', [0x9E, 0xF5]), ('\u{6A39}', [0x8E, 0xF7]), ('\u{6A3A}', [0x8A, 0x92]), 
    ('\u{6A3D}', [0x92, 0x4D]), ('\u{6A44}', [0x9E, 0xEB]), ('\u{6A46}', [0xFA, 0xEF]), 
    ('\u{6A47}', [0x9E, 0xF0]), ('\u{6A48}', [0x9E, 0xF4]), ('\u{6A4B}', [0x8B, 0xB4]), 
    ('\u{6A58}', [0x8B, 0x6B]), ('\u{6A59}', [0x9E, 0xF2]), ('\u{6A5F}', [0x8B, 0x40]), 
    ('\u{6A61}', [0x93, 0xC9]), ('\u{6A62}', [0x9E, 0xF1]), ('\u{6A66}', [0x9E, 0xF3]), 
    ('\u{6A6B}', [0xFA, 0xEE]), ('\u{6A72}', [0x9E, 0xED]), ('\u{6A73}', [0xFA, 0xF0]), 
    ('\u{6A78}', [0x9E, 0xEF]), ('\u{6A7E}', [0xFA, 0xF1]), ('\u{6A7F}', [0x8A, 0x80]), 
    ('\u{6A80}', [0x92, 0x68]), ('\u{6A84}', [0x9E, 0xFA]), ('\u{6A8D}', [0x9E, 0xF8]), 
    ('\u{6A8E}', [0x8C, 0xE7]), ('\u{6A90}', [0x9E, 0xF7]), ('\u{6A97}', [0x9F, 0x40]), 
    ('\u{6A9C}', [0x9E, 0x77]), ('\u{6AA0}', [0x9E, 0xF9]), ('\u{6AA2}', [0x9E, 0xFB]), 
    ('\u{6AA3}', [0x9E, 0xFC]), ('\u{6AAA}', [0x9F, 0x4B]), ('\u{6AAC}', [0x9F, 0x47]), 
    ('\u{6AAE}', [0x9E, 0x8D]), ('\u{6AB3}', [0x9F, 0x46]), ('\u{6AB8}', [0x9F, 0x45]), 
    ('\u{6ABB}', [0x9F, 0x42]), ('\u{6AC1}', [0x9E, 0xE8]), ('\u{6AC2}', [0x9F, 0x44]), 
    ('\u{6AC3}', [0x9F, 0x43]), ('\u{6AD1}', [0x9F, 0x49]), ('\u{6AD3}', [0x98, 0x45]), 
    ('\u{6ADA}', [0x9F, 0x4C]), ('\u{6ADB}', [0x8B, 0xF9]), ('\u{6ADE}', [0x9F, 0x48]), 
    ('\u{6ADF}', [0x9F, 0x4A]), ('\u{6AE2}', [0xFA, 0xF2]), ('\u{6AE4}', [0xFA, 0xF3]), 
    ('\u{6AE8}', [0x94, 0xA5]), ('\u{6AEA}', [0x9F, 0x4D]), ('\u{6AFA}', [0x9F, 0x51]), 
    ('\u{6AFB}', [0x9F, 0x4E]), ('\u{6B04}', [0x97, 0x93]), ('\u{6B05}', [0x9F, 0x4F]), 
    ('\u{6B0A}', [0x9E, 0xDC]), ('\u{6B12}', [0x9F, 0x52]), ('\u{6B16}', [0x9F, 0x53]), 
    ('\u{6B1D}', [0x89, 0x54]), ('\u{6B1F}', [0x9F, 0x55]), ('\u{6B20}', [0x8C, 0x87]), 
    ('\u{6B21}', [0x8E, 0x9F]), ('\u{6B23}', [0x8B, 0xD3]), ('\u{6B27}', [0x89, 0xA2]), 
    ('\u{6B32}', [0x97, 0x7E]), ('\u{6B37}', [0x9F, 0x57]), ('\u{6B38}', [0x9F, 0x56]), 
    ('\u{6B39}', [0x9F, 0x59]), ('\u{6B3A}', [0x8B, 0x5C]), ('\u{6B3D}', [0x8B, 0xD4]), 
    ('\u{6B3E}', [0x8A, 0xBC]), ('\u{6B43}', [0x9F, 0x5C]), ('\u{6B47}', [0x9F, 0x5B]), 
    ('\u{6B49}', [0x9F, 0x5D]), ('\u{6B4C}', [0x89, 0xCC]), ('\u{6B4E}', [0x92, 0x56]), 
    ('\u{6B50}', [0x9F, 0x5E]), ('\u{6B53}', [0x8A, 0xBD]), ('\u{6B54}', [0x9F, 0x60]), 
    ('\u{6B59}', [0x9F, 0x5F]), ('\u{6B5B}', [0x9F, 0x61]), ('\u{6B5F}', [0x9F, 0x62]), 
    ('\u{6B61}', [0x9F, 0x63]), ('\u{6B62}', [0x8E, 0x7E]), ('\u{6B63}', [0x90, 0xB3]), 
    ('\u{6B64}', [0x8D, 0x9F]), ('\u{6B66}', [0x95, 0x90]), ('\u{6B69}', [0x95, 0xE0]), 
    ('\u{6B6A}', [0x98, 0x63]), ('\u{6B6F}', [0x8E, 0x95]), ('\u{6B73}', [0x8D, 0xCE]), 
    ('\u{6B74}', [0x97, 0xF0]), ('\u{6B78}', [0x9F, 0x64]), ('\u{6B79}', [0x9F, 0x65]), 
    ('\u{6B7B}', [0x8E, 0x80]), ('\u{6B7F}', [0x9F, 0x66]), ('\u{6B80}', [0x9F, 0x67]), 
    ('\u{6B83}', [0x9F, 0x69]), ('\u{6B84}', [0x9F, 0x68]), ('\u{6B86}', [0x96, 0x77]), 
    ('\u{6B89}', [0x8F, 0x7D]), ('\u{6B8A}', [0x8E, 0xEA]), ('\u{6B8B}', [0x8E, 0x63]), 
    ('\u{6B8D}', [0x9F, 0x6A]), ('\u{6B95}', [0x9F, 0x6C]), ('\u{6B96}', [0x90, 0x42]), 
    ('\u{6B98}', [0x9F, 0x6B]), ('\u{6B9E}', [0x9F, 0x6D]), ('\u{6BA4}', [0x9F, 0x6E]), 
    ('\u{6BAA}', [0x9F, 0x6F]), ('\u{6BAB}', [0x9F, 0x70]), ('\u{6BAF}', [0x9F, 0x71]), 
    ('\u{6BB1}', [0x9F, 0x73]), ('\u{6BB2}', [0x9F, 0x72]), ('\u{6BB3}', [0x9F, 0x74]), 
    ('\u{6BB4}', [0x89, 0xA3]), ('\u{6BB5}', [0x92, 0x69]), ('\u{6BB7}', [0x9F, 0x75]), 
    ('\u{6BBA}', [0x8E, 0x45]), ('\u{6BBB}', [0x8A, 0x6B]), ('\u{6BBC}', [0x9F, 0x76]), 
    ('\u{6BBF}', [0x93, 0x61]), ('\u{6BC0}', [0x9A, 0xCA]), ('\u{6BC5}', [0x8B, 0x42]), 
    ('\u{6BC6}', [0x9F, 0x77]), ('\u{6BCB}', [0x9F, 0x78]), ('\u{6BCD}', [0x95, 0xEA]), 
    ('\u{6BCE}', [0x96, 0x88]), ('\u{6BD2}', [0x93, 0xC5]), ('\u{6BD3}', [0x9F, 0x79]), 
    ('\u{6BD4}', [0x94, 0xE4]), ('\u{6BD6}', [0xFA, 0xF4]), ('\u{6BD8}', [0x94, 0xF9]), 
    ('\u{6BDB}', [0x96, 0xD1]), ('\u{6BDF}', [0x9F, 0x7A]), ('\u{6BEB}', [0x9F, 0x7C]), 
    ('\u{6BEC}', [0x9F, 0x7B]), ('\u{6BEF}', [0x9F, 0x7E]), ('\u{6BF3}', [0x9F, 0x7D]), 
    ('\u{6C08}', [0x9F, 0x81]), ('\u{6C0F}', [0x8E, 0x81]), ('\u{6C11}', [0x96, 0xAF]), 
    ('\u{6C13}', [0x9F, 0x82]), ('\u{6C14}', [0x9F, 0x83]), ('\u{6C17}', [0x8B, 0x43]), 
    ('\u{6C1B}', [0x9F, 0x84]), ('\u{6C23}', [0x9F, 0x86]), ('\u{6C24}', [0x9F, 0x85]), 
    ('\u{6C34}', [0x90, 0x85]), ('\u{6C37}', [0x95, 0x58]), ('\u{6C38}', [0x89, 0x69]), 
    ('\u{6C3E}', [0x94, 0xC3]), ('\u{6C3F}', [0xFA, 0xF5]), ('\u{6C40}', [0x92, 0xF3]), 
    ('\u{6C41}', [0x8F, 0x60]), ('\u{6C42}', [0x8B, 0x81]), ('\u{6C4E}', [0x94, 0xC4]), 
    ('\u{6C50}', [0x8E, 0xAC]), ('\u{6C55}', [0x9F, 0x88]), ('\u{6C57}', [0x8A, 0xBE]), 
    ('\u{6C5A}', [0x89, 0x98]), ('\u{6C5C}', [0xFA, 0xF6]), ('\u{6C5D}', [0x93, 0xF0]), 
    ('\u{6C5E}', [0x9F, 0x87]), ('\u{6C5F}', [0x8D, 0x5D]), ('\u{6C60}', [0x92, 0x72]), 
    ('\u{6C62}', [0x9F, 0x89]), ('\u{6C68}', [0x9F, 0x91]), ('\u{6C6A}', [0x9F, 0x8A]), 
    ('\u{6C6F}', [0xFA, 0xF8]), ('\u{6C70}', [0x91, 0xBF]), ('\u{6C72}', [0x8B, 0x82]), 
    ('\u{6C73}', [0x9F, 0x92]), ('\u{6C7A}', [0x8C, 0x88]), ('\u{6C7D}', [0x8B, 0x44]), 
    ('\u{6C7E}', [0x9F, 0x90]), ('\u{6C81}', [0x9F, 0x8E]), ('\u{6C82}', [0x9F, 0x8B]), 
    ('\u{6C83}', [0x97, 0x80]), ('\u{6C86}', [0xFA, 0xF7]), ('\u{6C88}', [0x92, 0xBE]), 
    ('\u{6C8C}', [0x93, 0xD7]), ('\u{6C8D}', [0x9F, 0x8C]), ('\u{6C90}', [0x9F, 0x94]), 
    ('\u{6C92}', [0x9F, 0x93]), ('\u{6C93}', [0x8C, 0x42]), ('\u{6C96}', [0x89, 0xAB]), 
    ('\u{6C99}', [0x8D, 0xB9]), ('\u{6C9A}', [0x9F, 0x8D]), ('\u{6C9B}', [0x9F, 0x8F]), 
    ('\u{6CA1}', [0x96, 0x76]), ('\u{6CA2}', [0x91, 0xF2]), ('\u{6CAB}', [0x96, 0x97]), 
    ('\u{6CAE}', [0x9F, 0x9C]), ('\u{6CB1}', [0x9F, 0x9D]), ('\u{6CB3}', [0x89, 0xCD]), 
    ('\u{6CB8}', [0x95, 0xA6]), ('\u{6CB9}', [0x96, 0xFB]), ('\u{6CBA}', [0x9F, 0x9F]), 
    ('\u{6CBB}', [0x8E, 0xA1]), ('\u{6CBC}', [0x8F, 0xC0]), ('\u{6CBD}', [0x9F, 0x98]), 
    ('\u{6CBE}', [0x9F, 0x9E]), ('\u{6CBF}', [0x89, 0x88]), ('\u{6CC1}', [0x8B, 0xB5]), 
    ('\u{6CC4}', [0x9F, 0x95]), ('\u{6CC5}', [0x9F, 0x9A]), ('\u{6CC9}', [0x90, 0xF2]), 
    ('\u{6CCA}', [0x94, 0x91]), ('\u{6CCC}', [0x94, 0xE5]), ('\u{6CD3}', [0x9F, 0x97]), 
    ('\u{6CD5}', [0x96, 0x40]), ('\u{6CD7}', [0x9F, 0x99]), ('\u{6CD9}', [0x9F, 0xA2]), 
    ('\u{6CDA}', [0xFA, 0xF9]), ('\u{6CDB}', [0x9F, 0xA0]), ('\u{6CDD}', [0x9F, 0x9B]), 
    ('\u{6CE1}', [0x96, 0x41]), ('\u{6CE2}', [0x94, 0x67]), ('\u{6CE3}', [0x8B, 0x83]), 
    ('\u{6CE5}', [0x93, 0x44]), ('\u{6CE8}', [0x92, 0x8D]), ('\u{6CEA}', [0x9F, 0xA3]), 
    ('\u{6CEF}', [0x9F, 0xA1]), ('\u{6CF0}', [0x91, 0xD7]), ('\u{6CF1}', [0x9F, 0x96]), 
    ('\u{6CF3}', [0x89, 0x6A]), ('\u{6D04}', [0xFA, 0xFA]), ('\u{6D0B}', [0x97, 0x6D]), 
    ('\u{6D0C}', [0x9F, 0xAE]), ('\u{6D12}', [0x9F, 0xAD]), ('\u{6D17}', [0x90, 0xF4]), 
    ('\u{6D19}', [0x9F, 0xAA]), ('\u{6D1B}', [0x97, 0x8C]), ('\u{6D1E}', [0x93, 0xB4]), 
    ('\u{6D1F}', [0x9F, 0xA4]), ('\u{6D25}', [0x92, 0xC3]), ('\u{6D29}', [0x89, 0x6B]), 
    ('\u{6D2A}', [0x8D, 0x5E]), ('\u{6D2B}', [0x9F, 0xA7]), ('\u{6D32}', [0x8F, 0x46]), 
    ('\u{6D33}', [0x9F, 0xAC]), ('\u{6D35}', [0x9F, 0xAB]), ('\u{6D36}', [0x9F, 0xA6]), 
    ('\u{6D38}', [0x9F, 0xA9]), ('\u{6D3B}', [0x8A, 0x88]), ('\u{6D3D}', [0x9F, 0xA8]), 
    ('\u{6D3E}', [0x94, 0x68]), ('\u{6D41}', [0x97, 0xAC]), ('\u{6D44}', [0x8F, 0xF2]), 
    ('\u{6D45}', [0x90, 0xF3]), ('\u{6D59}', [0x9F, 0xB4]), ('\u{6D5A}', [0x9F, 0xB2]), 
    ('\u{6D5C}', [0x95, 0x6C]), ('\u{6D63}', [0x9F, 0xAF]), ('\u{6D64}', [0x9F, 0xB1]), 
    ('\u{6D66}', [0x89, 0x59]), ('\u{6D69}', [0x8D, 0x5F]), ('\u{6D6A}', [0x98, 0x51]), 
    ('\u{6D6C}', [0x8A, 0x5C]), ('\u{6D6E}', [0x95, 0x82]), ('\u{6D6F}', [0xFA, 0xFC]), 
    ('\u{6D74}', [0x97, 0x81]), ('\u{6D77}', [0x8A, 0x43]), ('\u{6D78}', [0x90, 0x5A]), 
    ('\u{6D79}', [0x9F, 0xB3]), ('\u{6D85}', [0x9F, 0xB8]), ('\u{6D87}', [0xFA, 0xFB]), 
    ('\u{6D88}', [0x8F, 0xC1]), ('\u{6D8C}', [0x97, 0x4F]), ('\u{6D8E}', [0x9F, 0xB5]), 
"#

/-- src/generated/whatwg/shiftjis_whatwg_tables.rs.inc:2548-2675 -/
noncomputable def encode9 : List Text := lines! r#"    ('\u{6D93}', [0x9F, 0xB0]), ('\u{6D95}', [0x9F, 0xB6]), ('\u{6D96}', [0xFB, 0x40]), 
    ('\u{6D99}', [0x97, 0xDC]), ('\u{6D9B}', [0x93, 0x93]), ('\u{6D9C}', [0x93, 0xC0]), 
    ('\u{6DAC}', [0xFB, 0x41]), ('\u{6DAF}', [0x8A, 0x55]), ('\u{6DB2}', [0x89, 0x74]), 
    ('\u{6DB5}', [0x9F, 0xBC]), ('\u{6DB8}', [0x9F, 0xBF]), ('\u{6DBC}', [0x97, 0xC1]), 
    ('\u{6DC0}', [0x97, 0x84]), ('\u{6DC5}', [0x9F, 0xC6]), ('\u{6DC6}', [0x9F, 0xC0]), 
    ('\u{6DC7}', [0x9F, 0xBD]), ('\u{6DCB}', [0x97, 0xD2]), ('\u{6DCC}', [0x9F, 0xC3]), 
    ('\u{6DCF}', [0xFB, 0x42]), ('\u{6DD1}', [0x8F, 0x69]), ('\u{6DD2}', [0x9F, 0xC5]), 
    ('\u{6DD5}', [0x9F, 0xCA]), ('\u{6DD8}', [0x93, 0x91]), ('\u{6DD9}', [0x9F, 0xC8]), 
    ('\u{6DDE}', [0x9F, 0xC2]), ('\u{6DE1}', [0x92, 0x57]), ('\u{6DE4}', [0x9F, 0xC9]), 
    ('\u{6DE6}', [0x9F, 0xBE]), ('\u{6DE8}', [0x9F, 0xC4]), ('\u{6DEA}', [0x9F, 0xCB]), 
    ('\u{6DEB}', [0x88, 0xFA]), ('\u{6DEC}', [0x9F, 0xC1]), ('\u{6DEE}', [0x9F, 0xCC]), 
    ('\u{6DF1}', [0x90, 0x5B]), ('\u{6DF2}', [0xFB, 0x44]), ('\u{6DF3}', [0x8F, 0x7E]), 
    ('\u{6DF5}', [0x95, 0xA3]), ('\u{6DF7}', [0x8D, 0xAC]), ('\u{6DF8}', [0xFB, 0x43]), 
    ('\u{6DF9}', [0x9F, 0xB9]), ('\u{6DFA}', [0x9F, 0xC7]), ('\u{6DFB}', [0x93, 0x59]), 
    ('\u{6DFC}', [0xFB, 0x45]), ('\u{6E05}', [0x90, 0xB4]), ('\u{6E07}', [0x8A, 0x89]), 
    ('\u{6E08}', [0x8D, 0xCF]), ('\u{6E09}', [0x8F, 0xC2]), ('\u{6E0A}', [0x9F, 0xBB]), 
    ('\u{6E0B}', [0x8F, 0x61]), ('\u{6E13}', [0x8C, 0x6B]), ('\u{6E15}', [0x9F, 0xBA]), 
    ('\u{6E19}', [0x9F, 0xD0]), ('\u{6E1A}', [0x8F, 0x8D]), ('\u{6E1B}', [0x8C, 0xB8]), 
    ('\u{6E1D}', [0x9F, 0xDF]), ('\u{6E1F}', [0x9F, 0xD9]), ('\u{6E20}', [0x8B, 0x94]), 
    ('\u{6E21}', [0x93, 0x6E]), ('\u{6E23}', [0x9F, 0xD4]), ('\u{6E24}', [0x9F, 0xDD]), 
    ('\u{6E25}', [0x88, 0xAD]), ('\u{6E26}', [0x89, 0x51]), ('\u{6E27}', [0xFB, 0x48]), 
    ('\u{6E29}', [0x89, 0xB7]), ('\u{6E2B}', [0x9F, 0xD6]), ('\u{6E2C}', [0x91, 0xAA]), 
    ('\u{6E2D}', [0x9F, 0xCD]), ('\u{6E2E}', [0x9F, 0xCF]), ('\u{6E2F}', [0x8D, 0x60]), 
    ('\u{6E38}', [0x9F, 0xE0]), ('\u{6E39}', [0xFB, 0x46]), ('\u{6E3A}', [0x9F, 0xDB]), 
    ('\u{6E3C}', [0xFB, 0x49]), ('\u{6E3E}', [0x9F, 0xD3]), ('\u{6E43}', [0x9F, 0xDA]), 
    ('\u{6E4A}', [0x96, 0xA9]), ('\u{6E4D}', [0x9F, 0xD8]), ('\u{6E4E}', [0x9F, 0xDC]), 
    ('\u{6E56}', [0x8C, 0xCE]), ('\u{6E58}', [0x8F, 0xC3]), ('\u{6E5B}', [0x92, 0x58]), 
    ('\u{6E5C}', [0xFB, 0x47]), ('\u{6E5F}', [0x9F, 0xD2]), ('\u{6E67}', [0x97, 0x4E]), 
    ('\u{6E6B}', [0x9F, 0xD5]), ('\u{6E6E}', [0x9F, 0xCE]), ('\u{6E6F}', [0x93, 0x92]), 
    ('\u{6E72}', [0x9F, 0xD1]), ('\u{6E76}', [0x9F, 0xD7]), ('\u{6E7E}', [0x98, 0x70]), 
    ('\u{6E7F}', [0x8E, 0xBC]), ('\u{6E80}', [0x96, 0x9E]), ('\u{6E82}', [0x9F, 0xE1]), 
    ('\u{6E8C}', [0x94, 0xAC]), ('\u{6E8F}', [0x9F, 0xED]), ('\u{6E90}', [0x8C, 0xB9]), 
    ('\u{6E96}', [0x8F, 0x80]), ('\u{6E98}', [0x9F, 0xE3]), ('\u{6E9C}', [0x97, 0xAD]), 
    ('\u{6E9D}', [0x8D, 0x61]), ('\u{6E9F}', [0x9F, 0xF0]), ('\u{6EA2}', [0x88, 0xEC]), 
    ('\u{6EA5}', [0x9F, 0xEE]), ('\u{6EAA}', [0x9F, 0xE2]), ('\u{6EAF}', [0x9F, 0xE8]), 
    ('\u{6EB2}', [0x9F, 0xEA]), ('\u{6EB6}', [0x97, 0x6E]), ('\u{6EB7}', [0x9F, 0xE5]), 
    ('\u{6EBA}', [0x93, 0x4D]), ('\u{6EBD}', [0x9F, 0xE7]), ('\u{6EBF}', [0xFB, 0x4A]), 
    ('\u{6EC2}', [0x9F, 0xEF]), ('\u{6EC4}', [0x9F, 0xE9]), ('\u{6EC5}', [0x96, 0xC5]), 
    ('\u{6EC9}', [0x9F, 0xE4]), ('\u{6ECB}', [0x8E, 0xA0]), ('\u{6ECC}', [0x9F, 0xFC]), 
    ('\u{6ED1}', [0x8A, 0x8A]), ('\u{6ED3}', [0x9F, 0xE6]), ('\u{6ED4}', [0x9F, 0xEB]), 
    ('\u{6ED5}', [0x9F, 0xEC]), ('\u{6EDD}', [0x91, 0xEA]), ('\u{6EDE}', [0x91, 0xD8]), 
    ('\u{6EEC}', [0x9F, 0xF4]), ('\u{6EEF}', [0x9F, 0xFA]), ('\u{6EF2}', [0x9F, 0xF8]), 
    ('\u{6EF4}', [0x93, 0x48]), ('\u{6EF7}', [0xE0, 0x42]), ('\u{6EF8}', [0x9F, 0xF5]), 
    ('\u{6EFE}', [0x9F, 0xF6]), ('\u{6EFF}', [0x9F, 0xDE]), ('\u{6F01}', [0x8B, 0x99]), 
    ('\u{6F02}', [0x95, 0x59]), ('\u{6F06}', [0x8E, 0xBD]), ('\u{6F09}', [0x8D, 0x97]), 
    ('\u{6F0F}', [0x98, 0x52]), ('\u{6F11}', [0x9F, 0xF2]), ('\u{6F13}', [0xE0, 0x41]), 
    ('\u{6F14}', [0x89, 0x89]), ('\u{6F15}', [0x91, 0x86]), ('\u{6F20}', [0x94, 0x99]), 
    ('\u{6F22}', [0x8A, 0xBF]), ('\u{6F23}', [0x97, 0xF8]), ('\u{6F2B}', [0x96, 0x9F]), 
    ('\u{6F2C}', [0x92, 0xD0]), ('\u{6F31}', [0x9F, 0xF9]), ('\u{6F32}', [0x9F, 0xFB]), 
    ('\u{6F38}', [0x91, 0x51]), ('\u{6F3E}', [0xE0, 0x40]), ('\u{6F3F}', [0x9F, 0xF7]), 
    ('\u{6F41}', [0x9F, 0xF1]), ('\u{6F45}', [0x8A, 0xC1]), ('\u{6F54}', [0x8C, 0x89]), 
    ('\u{6F58}', [0xE0, 0x4E]), ('\u{6F5B}', [0xE0, 0x49]), ('\u{6F5C}', [0x90, 0xF6]), 
    ('\u{6F5F}', [0x8A, 0x83]), ('\u{6F64}', [0x8F, 0x81]), ('\u{6F66}', [0xE0, 0x52]), 
    ('\u{6F6D}', [0xE0, 0x4B]), ('\u{6F6E}', [0x92, 0xAA]), ('\u{6F6F}', [0xE0, 0x48]), 
    ('\u{6F70}', [0x92, 0xD7]), ('\u{6F74}', [0xE0, 0x6B]), ('\u{6F78}', [0xE0, 0x45]), 
    ('\u{6F7A}', [0xE0, 0x44]), ('\u{6F7C}', [0xE0, 0x4D]), ('\u{6F80}', [0xE0, 0x47]), 
    ('\u{6F81}', [0xE0, 0x46]), ('\u{6F82}', [0xE0, 0x4C]), ('\u{6F84}', [0x90, 0x9F]), 
    ('\u{6F86}', [0xE0, 0x43]), ('\u{6F88}', [0xFB, 0x4B]), ('\u{6F8E}', [0xE0, 0x4F]), 
    ('\u{6F91}', [0xE0, 0x50]), ('\u{6F97}', [0x8A, 0xC0]), ('\u{6FA1}', [0xE0, 0x55]), 
    ('\u{6FA3}', [0xE0, 0x54]), ('\u{6FA4}', [0xE0, 0x56]), ('\u{6FAA}', [0xE0, 0x59]), 
    ('\u{6FB1}', [0x93, 0x62]), ('\u{6FB3}', [0xE0, 0x53]), ('\u{6FB5}', [0xFB, 0x4C]), 
    ('\u{6FB9}', [0xE0, 0x57]), ('\u{6FC0}', [0x8C, 0x83]), ('\u{6FC1}', [0x91, 0xF7]), 
    ('\u{6FC2}', [0xE0, 0x51]), ('\u{6FC3}', [0x94, 0x5A]), ('\u{6FC6}', [0xE0, 0x58]), 
    ('\u{6FD4}', [0xE0, 0x5D]), ('\u{6FD5}', [0xE0, 0x5B]), ('\u{6FD8}', [0xE0, 0x5E]), 
    ('\u{6FDB}', [0xE0, 0x61]), ('\u{6FDF}', [0xE0, 0x5A]), ('\u{6FE0}', [0x8D, 0x8A]), 
    ('\u{6FE1}', [0x94, 0x47]), ('\u{6FE4}', [0x9F, 0xB7]), ('\u{6FEB}', [0x97, 0x94]), 
    ('\u{6FEC}', [0xE0, 0x5C]), ('\u{6FEE}', [0xE0, 0x60]), ('\u{6FEF}', [0x91, 0xF3]), 
    ('\u{6FF1}', [0xE0, 0x5F]), ('\u{6FF3}', [0xE0, 0x4A]), ('\u{6FF5}', [0xFB, 0x4D]), 
    ('\u{6FF6}', [0xE8, 0x89]), ('\u{6FFA}', [0xE0, 0x64]), ('\u{6FFE}', [0xE0, 0x68]), 
    ('\u{7001}', [0xE0, 0x66]), ('\u{7005}', [0xFB, 0x4E]), ('\u{7007}', [0xFB, 0x4F]), 
    ('\u{7009}', [0xE0, 0x62]), ('\u{700B}', [0xE0, 0x63]), ('\u{700F}', [0xE0, 0x67]), 
    ('\u{7011}', [0xE0, 0x65]), ('\u{7015}', [0x95, 0x6D]), ('\u{7018}', [0xE0, 0x6D]), 
    ('\u{701A}', [0xE0, 0x6A]), ('\u{701B}', [0xE0, 0x69]), ('\u{701D}', [0xE0, 0x6C]), 
    ('\u{701E}', [0x93, 0xD2]), ('\u{701F}', [0xE0, 0x6E]), ('\u{7026}', [0x92, 0x95]), 
    ('\u{7027}', [0x91, 0xEB]), ('\u{7028}', [0xFB, 0x50]), ('\u{702C}', [0x90, 0xA3]), 
    ('\u{7030}', [0xE0, 0x6F]), ('\u{7032}', [0xE0, 0x71]), ('\u{703E}', [0xE0, 0x70]), 
    ('\u{704C}', [0x9F, 0xF3]), ('\u{7051}', [0xE0, 0x72]), ('\u{7058}', [0x93, 0xE5]), 
    ('\u{7063}', [0xE0, 0x73]), ('\u{706B}', [0x89, 0xCE]), ('\u{706F}', [0x93, 0x94]), 
    ('\u{7070}', [0x8A, 0x44]), ('\u{7078}', [0x8B, 0x84]), ('\u{707C}', [0x8E, 0xDC]), 
    ('\u{707D}', [0x8D, 0xD0]), ('\u{7085}', [0xFB, 0x51]), ('\u{7089}', [0x98, 0x46]), 
    ('\u{708A}', [0x90, 0x86]), ('\u{708E}', [0x89, 0x8A]), ('\u{7092}', [0xE0, 0x75]), 
    ('\u{7099}', [0xE0, 0x74]), ('\u{70AB}', [0xFB, 0x52]), ('\u{70AC}', [0xE0, 0x78]), 
    ('\u{70AD}', [0x92, 0x59]), ('\u{70AE}', [0xE0, 0x7B]), ('\u{70AF}', [0xE0, 0x76]), 
    ('\u{70B3}', [0xE0, 0x7A]), ('\u{70B8}', [0xE0, 0x79]), ('\u{70B9}', [0x93, 0x5F]), 
    ('\u{70BA}', [0x88, 0xD7]), ('\u{70BB}', [0xFA, 0x62]), ('\u{70C8}', [0x97, 0xF3]), 
    ('\u{70CB}', [0xE0, 0x7D]), ('\u{70CF}', [0x89, 0x47]), ('\u{70D9}', [0xE0, 0x80]), 
    ('\u{70DD}', [0xE0, 0x7E]), ('\u{70DF}', [0xE0, 0x7C]), ('\u{70F1}', [0xE0, 0x77]), 
    ('\u{70F9}', [0x96, 0x42]), ('\u{70FD}', [0xE0, 0x82]), ('\u{7104}', [0xFB, 0x54]), 
    ('\u{7109}', [0xE0, 0x81]), ('\u{710F}', [0xFB, 0x53]), ('\u{7114}', [0x89, 0x8B]), 
    ('\u{7119}', [0xE0, 0x84]), ('\u{711A}', [0x95, 0xB0]), ('\u{711C}', [0xE0, 0x83]), 
    ('\u{7121}', [0x96, 0xB3]), ('\u{7126}', [0x8F, 0xC5]), ('\u{7136}', [0x91, 0x52]), 
    ('\u{713C}', [0x8F, 0xC4]), ('\u{7146}', [0xFB, 0x56]), ('\u{7147}', [0xFB, 0x57]), 
    ('\u{7149}', [0x97, 0xF9]), ('\u{714C}', [0xE0, 0x8A]), ('\u{714E}', [0x90, 0xF7]), 
    ('\u{7155}', [0xE0, 0x86]), ('\u{7156}', [0xE0, 0x8B]), ('\u{7159}', [0x89, 0x8C]), 
    ('\u{715C}', [0xFB, 0x55]), ('\u{7162}', [0xE0, 0x89]), ('\u{7164}', [0x94, 0x81]), 
    ('\u{7165}', [0xE0, 0x85]), ('\u{7166}', [0xE0, 0x88]), ('\u{7167}', [0x8F, 0xC6]), 
    ('\u{7169}', [0x94, 0xCF]), ('\u{716C}', [0xE0, 0x8C]), ('\u{716E}', [0x8E, 0xCF]), 
    ('\u{717D}', [0x90, 0xF8]), ('\u{7184}', [0xE0, 0x8F]), ('\u{7188}', [0xE0, 0x87]), 
    ('\u{718A}', [0x8C, 0x46]), ('\u{718F}', [0xE0, 0x8D]), ('\u{7194}', [0x97, 0x6F]), 
    ('\u{7195}', [0xE0, 0x90]), ('\u{7199}', [0xEA, 0xA4]), ('\u{719F}', [0x8F, 0x6E]), 
    ('\u{71A8}', [0xE0, 0x91]), ('\u{71AC}', [0xE0, 0x92]), ('\u{71B1}', [0x94, 0x4D]), 
    ('\u{71B9}', [0xE0, 0x94]), ('\u{71BE}', [0xE0, 0x95]), ('\u{71C1}', [0xFB, 0x59]), 
    ('\u{71C3}', [0x94, 0x52]), ('\u{71C8}', [0x93, 0x95]), ('\u{71C9}', [0xE0, 0x97]), 
    ('\u{71CE}', [0xE0, 0x99]), ('\u{71D0}', [0x97, 0xD3]), ('\u{71D2}', [0xE0, 0x96]), 
    ('\u{71D4}', [0xE0, 0x98]), ('\u{71D5}', [0x89, 0x8D]), ('\u{71D7}', [0xE0, 0x93]), 
    ('\u{71DF}', [0x9A, 0x7A]), ('\u{71E0}', [0xE0, 0x9A]), ('\u{71E5}', [0x91, 0x87]), 
    ('\u{71E6}', [0x8E, 0x57]), ('\u{71E7}', [0xE0, 0x9C]), ('\u{71EC}', [0xE0, 0x9B]), 
    ('\u{71ED}', [0x90, 0x43]), ('\u{71EE}', [0x99, 0xD7]), ('\u{71F5}', [0xE0, 0x9D]), 
    ('\u{71F9}', [0xE0, 0x9F]), ('\u{71FB}', [0xE0, 0x8E]), ('\u{71FC}', [0xE0, 0x9E]), 
    ('\u{71FE}', [0xFB, 0x5A]), ('\u{71FF}', [0xE0, 0xA0]), ('\u{7206}', [0x94, 0x9A]), 
    ('\u{720D}', [0xE0, 0xA1]), ('\u{7210}', [0xE0, 0xA2]), ('\u{721B}', [0xE0, 0xA3]), 
    ('\u{7228}', [0xE0, 0xA4]), ('\u{722A}', [0x92, 0xDC]), ('\u{722C}', [0xE0, 0xA6]), 
    ('\u{722D}', [0xE0, 0xA5]), ('\u{7230}', [0xE0, 0xA7]), ('\u{7232}', [0xE0, 0xA8]), 
    ('\u{7235}', [0x8E, 0xDD]), ('\u{7236}', [0x95, 0x83]), ('\u{723A}', [0x96, 0xEA]), 
    ('\u{723B}', [0xE0, 0xA9]), ('\u{723C}', [0xE0, 0xAA]), ('\u{723D}', [0x91, 0x75]), 
    ('\u{723E}', [0x8E, 0xA2]), ('\u{723F}', [0xE0, 0xAB]), ('\u{7240}', [0xE0, 0xAC]), 
    ('\u{7246}', [0xE0, 0xAD]), ('\u{7247}', [0x95, 0xD0]), ('\u{7248}', [0x94, 0xC5]), 
    ('\u{724B}', [0xE0, 0xAE]), ('\u{724C}', [0x94, 0x76]), ('\u{7252}', [0x92, 0xAB]), 
    ('\u{7258}', [0xE0, 0xAF]), ('\u{7259}', [0x89, 0xE5]), ('\u{725B}', [0x8B, 0x8D]), 
    ('\u{725D}', [0x96, 0xC4]), ('\u{725F}', [0x96, 0xB4]), ('\u{7261}', [0x89, 0xB2]), 
    ('\u{7262}', [0x98, 0x53]), ('\u{7267}', [0x96, 0x71]), ('\u{7269}', [0x95, 0xA8]), 
    ('\u{7272}', [0x90, 0xB5]), ('\u{7274}', [0xE0, 0xB0]), ('\u{7279}', [0x93, 0xC1]), 
    ('\u{727D}', [0x8C, 0xA1]), ('\u{727E}', [0xE0, 0xB1]), ('\u{7280}', [0x8D, 0xD2]), 
    ('\u{7281}', [0xE0, 0xB3]), ('\u{7282}', [0xE0, 0xB2]), ('\u{7287}', [0xE0, 0xB4]), 
    ('\u{7292}', [0xE0, 0xB5]), ('\u{7296}', [0xE0, 0xB6]), ('\u{72A0}', [0x8B, 0x5D]), 
    ('\u{72A2}', [0xE0, 0xB7]), ('\u{72A7}', [0xE0, 0xB8]), ('\u{72AC}', [0x8C, 0xA2]), 
    ('\u{72AF}', [0x94, 0xC6]), ('\u{72B1}', [0xFB, 0x5B]), ('\u{72B2}', [0xE0, 0xBA]), 
    ('\u{72B6}', [0x8F, 0xF3]), ('\u{72B9}', [0xE0, 0xB9]), ('\u{72BE}', [0xFB, 0x5C]), 
"#

/-- src/generated/whatwg/shiftjis_whatwg_tables.rs.inc:2676-2803 -/
noncomputable def encode10 : List Text := lines! r#"    ('\u{72C2}', [0x8B, 0xB6]), ('\u{72C3}', [0xE0, 0xBB]), ('\u{72C4}', [0xE0, 0xBD]), 
    ('\u{72C6}', [0xE0, 0xBC]), ('\u{72CE}', [0xE0, 0xBE]), ('\u{72D0}', [0x8C, 0xCF]), 
    ('\u{72D2}', [0xE0, 0xBF]), ('\u{72D7}', [0x8B, 0xE7]), ('\u{72D9}', [0x91, 0x5F]), 
    ('\u{72DB}', [0x8D, 0x9D]), ('\u{72E0}', [0xE0, 0xC1]), ('\u{72E1}', [0xE0, 0xC2]), 
    ('\u{72E2}', [0xE0, 0xC0]), ('\u{72E9}', [0x8E, 0xEB]), ('\u{72EC}', [0x93, 0xC6]), 
    ('\u{72ED}', [0x8B, 0xB7]), ('\u{72F7}', [0xE0, 0xC4]), ('\u{72F8}', [0x92, 0x4B]), 
    ('\u{72F9}', [0xE0, 0xC3]), ('\u{72FC}', [0x98, 0x54]), ('\u{72FD}', [0x94, 0x82]), 
    ('\u{730A}', [0xE0, 0xC7]), ('\u{7316}', [0xE0, 0xC9]), ('\u{7317}', [0xE0, 0xC6]), 
    ('\u{731B}', [0x96, 0xD2]), ('\u{731C}', [0xE0, 0xC8]), ('\u{731D}', [0xE0, 0xCA]), 
    ('\u{731F}', [0x97, 0xC2]), ('\u{7324}', [0xFB, 0x5D]), ('\u{7325}', [0xE0, 0xCE]), 
    ('\u{7329}', [0xE0, 0xCD]), ('\u{732A}', [0x92, 0x96]), ('\u{732B}', [0x94, 0x4C]), 
    ('\u{732E}', [0x8C, 0xA3]), ('\u{732F}', [0xE0, 0xCC]), ('\u{7334}', [0xE0, 0xCB]), 
    ('\u{7336}', [0x97, 0x50]), ('\u{7337}', [0x97, 0x51]), ('\u{733E}', [0xE0, 0xCF]), 
    ('\u{733F}', [0x89, 0x8E]), ('\u{7344}', [0x8D, 0x96]), ('\u{7345}', [0x8E, 0x82]), 
    ('\u{734E}', [0xE0, 0xD0]), ('\u{734F}', [0xE0, 0xD1]), ('\u{7357}', [0xE0, 0xD3]), 
    ('\u{7363}', [0x8F, 0x62]), ('\u{7368}', [0xE0, 0xD5]), ('\u{736A}', [0xE0, 0xD4]), 
    ('\u{7370}', [0xE0, 0xD6]), ('\u{7372}', [0x8A, 0x6C]), ('\u{7375}', [0xE0, 0xD8]), 
    ('\u{7377}', [0xFB, 0x5F]), ('\u{7378}', [0xE0, 0xD7]), ('\u{737A}', [0xE0, 0xDA]), 
    ('\u{737B}', [0xE0, 0xD9]), ('\u{7384}', [0x8C, 0xBA]), ('\u{7387}', [0x97, 0xA6]), 
    ('\u{7389}', [0x8B, 0xCA]), ('\u{738B}', [0x89, 0xA4]), ('\u{7396}', [0x8B, 0xE8]), 
    ('\u{73A9}', [0x8A, 0xDF]), ('\u{73B2}', [0x97, 0xE6]), ('\u{73B3}', [0xE0, 0xDC]), 
    ('\u{73BB}', [0xE0, 0xDE]), ('\u{73BD}', [0xFB, 0x60]), ('\u{73C0}', [0xE0, 0xDF]), 
    ('\u{73C2}', [0x89, 0xCF]), ('\u{73C8}', [0xE0, 0xDB]), ('\u{73C9}', [0xFB, 0x61]), 
    ('\u{73CA}', [0x8E, 0x58]), ('\u{73CD}', [0x92, 0xBF]), ('\u{73CE}', [0xE0, 0xDD]), 
    ('\u{73D2}', [0xFB, 0x64]), ('\u{73D6}', [0xFB, 0x62]), ('\u{73DE}', [0xE0, 0xE2]), 
    ('\u{73E0}', [0x8E, 0xEC]), ('\u{73E3}', [0xFB, 0x63]), ('\u{73E5}', [0xE0, 0xE0]), 
    ('\u{73EA}', [0x8C, 0x5D]), ('\u{73ED}', [0x94, 0xC7]), ('\u{73EE}', [0xE0, 0xE1]), 
    ('\u{73F1}', [0xE0, 0xFC]), ('\u{73F5}', [0xFB, 0x66]), ('\u{73F8}', [0xE0, 0xE7]), 
    ('\u{73FE}', [0x8C, 0xBB]), ('\u{7403}', [0x8B, 0x85]), ('\u{7405}', [0xE0, 0xE4]), 
    ('\u{7406}', [0x97, 0x9D]), ('\u{7407}', [0xFB, 0x65]), ('\u{7409}', [0x97, 0xAE]), 
    ('\u{7422}', [0x91, 0xF4]), ('\u{7425}', [0xE0, 0xE6]), ('\u{7426}', [0xFB, 0x67]), 
    ('\u{7429}', [0xFB, 0x69]), ('\u{742A}', [0xFB, 0x68]), ('\u{742E}', [0xFB, 0x6A]), 
    ('\u{7432}', [0xE0, 0xE8]), ('\u{7433}', [0x97, 0xD4]), ('\u{7434}', [0x8B, 0xD5]), 
    ('\u{7435}', [0x94, 0xFA]), ('\u{7436}', [0x94, 0x69]), ('\u{743A}', [0xE0, 0xE9]), 
    ('\u{743F}', [0xE0, 0xEB]), ('\u{7441}', [0xE0, 0xEE]), ('\u{7455}', [0xE0, 0xEA]), 
    ('\u{7459}', [0xE0, 0xED]), ('\u{745A}', [0x8C, 0xE8]), ('\u{745B}', [0x89, 0x6C]), 
    ('\u{745C}', [0xE0, 0xEF]), ('\u{745E}', [0x90, 0x90]), ('\u{745F}', [0xE0, 0xEC]), 
    ('\u{7460}', [0x97, 0xDA]), ('\u{7462}', [0xFB, 0x6B]), ('\u{7463}', [0xE0, 0xF2]), 
    ('\u{7464}', [0xEA, 0xA2]), ('\u{7469}', [0xE0, 0xF0]), ('\u{746A}', [0xE0, 0xF3]), 
    ('\u{746F}', [0xE0, 0xE5]), ('\u{7470}', [0xE0, 0xF1]), ('\u{7473}', [0x8D, 0xBA]), 
    ('\u{7476}', [0xE0, 0xF4]), ('\u{747E}', [0xE0, 0xF5]), ('\u{7483}', [0x97, 0x9E]), 
    ('\u{7489}', [0xFB, 0x6C]), ('\u{748B}', [0xE0, 0xF6]), ('\u{749E}', [0xE0, 0xF7]), 
    ('\u{749F}', [0xFB, 0x6D]), ('\u{74A2}', [0xE0, 0xE3]), ('\u{74A7}', [0xE0, 0xF8]), 
    ('\u{74B0}', [0x8A, 0xC2]), ('\u{74BD}', [0x8E, 0xA3]), ('\u{74CA}', [0xE0, 0xF9]), 
    ('\u{74CF}', [0xE0, 0xFA]), ('\u{74D4}', [0xE0, 0xFB]), ('\u{74DC}', [0x89, 0x5A]), 
    ('\u{74E0}', [0xE1, 0x40]), ('\u{74E2}', [0x95, 0x5A]), ('\u{74E3}', [0xE1, 0x41]), 
    ('\u{74E6}', [0x8A, 0xA2]), ('\u{74E7}', [0xE1, 0x42]), ('\u{74E9}', [0xE1, 0x43]), 
    ('\u{74EE}', [0xE1, 0x44]), ('\u{74F0}', [0xE1, 0x46]), ('\u{74F1}', [0xE1, 0x47]), 
    ('\u{74F2}', [0xE1, 0x45]), ('\u{74F6}', [0x95, 0x72]), ('\u{74F7}', [0xE1, 0x49]), 
    ('\u{74F8}', [0xE1, 0x48]), ('\u{7501}', [0xFB, 0x6E]), ('\u{7503}', [0xE1, 0x4B]), 
    ('\u{7504}', [0xE1, 0x4A]), ('\u{7505}', [0xE1, 0x4C]), ('\u{750C}', [0xE1, 0x4D]), 
    ('\u{750D}', [0xE1, 0x4F]), ('\u{750E}', [0xE1, 0x4E]), ('\u{7511}', [0x8D, 0x99]), 
    ('\u{7513}', [0xE1, 0x51]), ('\u{7515}', [0xE1, 0x50]), ('\u{7518}', [0x8A, 0xC3]), 
    ('\u{751A}', [0x90, 0x72]), ('\u{751C}', [0x93, 0x5B]), ('\u{751E}', [0xE1, 0x52]), 
    ('\u{751F}', [0x90, 0xB6]), ('\u{7523}', [0x8E, 0x59]), ('\u{7525}', [0x89, 0x99]), 
    ('\u{7526}', [0xE1, 0x53]), ('\u{7528}', [0x97, 0x70]), ('\u{752B}', [0x95, 0xE1]), 
    ('\u{752C}', [0xE1, 0x54]), ('\u{752F}', [0xFA, 0xA8]), ('\u{7530}', [0x93, 0x63]), 
    ('\u{7531}', [0x97, 0x52]), ('\u{7532}', [0x8D, 0x62]), ('\u{7533}', [0x90, 0x5C]), 
    ('\u{7537}', [0x92, 0x6A]), ('\u{7538}', [0x99, 0xB2]), ('\u{753A}', [0x92, 0xAC]), 
    ('\u{753B}', [0x89, 0xE6]), ('\u{753C}', [0xE1, 0x55]), ('\u{7544}', [0xE1, 0x56]), 
    ('\u{7546}', [0xE1, 0x5B]), ('\u{7549}', [0xE1, 0x59]), ('\u{754A}', [0xE1, 0x58]), 
    ('\u{754B}', [0x9D, 0xC0]), ('\u{754C}', [0x8A, 0x45]), ('\u{754D}', [0xE1, 0x57]), 
    ('\u{754F}', [0x88, 0xD8]), ('\u{7551}', [0x94, 0xA8]), ('\u{7554}', [0x94, 0xC8]), 
    ('\u{7559}', [0x97, 0xAF]), ('\u{755A}', [0xE1, 0x5C]), ('\u{755B}', [0xE1, 0x5A]), 
    ('\u{755C}', [0x92, 0x7B]), ('\u{755D}', [0x90, 0xA4]), ('\u{7560}', [0x94, 0xA9]), 
    ('\u{7562}', [0x95, 0x4C]), ('\u{7564}', [0xE1, 0x5E]), ('\u{7565}', [0x97, 0xAA]), 
    ('\u{7566}', [0x8C, 0x6C]), ('\u{7567}', [0xE1, 0x5F]), ('\u{7569}', [0xE1, 0x5D]), 
    ('\u{756A}', [0x94, 0xD4]), ('\u{756B}', [0xE1, 0x60]), ('\u{756D}', [0xE1, 0x61]), 
    ('\u{756F}', [0xFB, 0x6F]), ('\u{7570}', [0x88, 0xD9]), ('\u{7573}', [0x8F, 0xF4]), 
    ('\u{7574}', [0xE1, 0x66]), ('\u{7576}', [0xE1, 0x63]), ('\u{7577}', [0x93, 0xEB]), 
    ('\u{7578}', [0xE1, 0x62]), ('\u{757F}', [0x8B, 0x45]), ('\u{7582}', [0xE1, 0x69]), 
    ('\u{7586}', [0xE1, 0x64]), ('\u{7587}', [0xE1, 0x65]), ('\u{7589}', [0xE1, 0x68]), 
    ('\u{758A}', [0xE1, 0x67]), ('\u{758B}', [0x95, 0x44]), ('\u{758E}', [0x91, 0x61]), 
    ('\u{758F}', [0x91, 0x60]), ('\u{7591}', [0x8B, 0x5E]), ('\u{7594}', [0xE1, 0x6A]), 
    ('\u{759A}', [0xE1, 0x6B]), ('\u{759D}', [0xE1, 0x6C]), ('\u{75A3}', [0xE1, 0x6E]), 
    ('\u{75A5}', [0xE1, 0x6D]), ('\u{75AB}', [0x89, 0x75]), ('\u{75B1}', [0xE1, 0x76]), 
    ('\u{75B2}', [0x94, 0xE6]), ('\u{75B3}', [0xE1, 0x70]), ('\u{75B5}', [0xE1, 0x72]), 
    ('\u{75B8}', [0xE1, 0x74]), ('\u{75B9}', [0x90, 0x5D]), ('\u{75BC}', [0xE1, 0x75]), 
    ('\u{75BD}', [0xE1, 0x73]), ('\u{75BE}', [0x8E, 0xBE]), ('\u{75C2}', [0xE1, 0x6F]), 
    ('\u{75C3}', [0xE1, 0x71]), ('\u{75C5}', [0x95, 0x61]), ('\u{75C7}', [0x8F, 0xC7]), 
    ('\u{75CA}', [0xE1, 0x78]), ('\u{75CD}', [0xE1, 0x77]), ('\u{75D2}', [0xE1, 0x79]), 
    ('\u{75D4}', [0x8E, 0xA4]), ('\u{75D5}', [0x8D, 0xAD]), ('\u{75D8}', [0x93, 0x97]), 
    ('\u{75D9}', [0xE1, 0x7A]), ('\u{75DB}', [0x92, 0xC9]), ('\u{75DE}', [0xE1, 0x7C]), 
    ('\u{75E2}', [0x97, 0x9F]), ('\u{75E3}', [0xE1, 0x7B]), ('\u{75E9}', [0x91, 0x89]), 
    ('\u{75F0}', [0xE1, 0x82]), ('\u{75F2}', [0xE1, 0x84]), ('\u{75F3}', [0xE1, 0x85]), 
    ('\u{75F4}', [0x92, 0x73]), ('\u{75FA}', [0xE1, 0x83]), ('\u{75FC}', [0xE1, 0x80]), 
    ('\u{75FE}', [0xE1, 0x7D]), ('\u{75FF}', [0xE1, 0x7E]), ('\u{7601}', [0xE1, 0x81]), 
    ('\u{7609}', [0xE1, 0x88]), ('\u{760B}', [0xE1, 0x86]), ('\u{760D}', [0xE1, 0x87]), 
    ('\u{761F}', [0xE1, 0x89]), ('\u{7620}', [0xE1, 0x8B]), ('\u{7621}', [0xE1, 0x8C]), 
    ('\u{7622}', [0xE1, 0x8D]), ('\u{7624}', [0xE1, 0x8E]), ('\u{7627}', [0xE1, 0x8A]), 
    ('\u{7630}', [0xE1, 0x90]), ('\u{7634}', [0xE1, 0x8F]), ('\u{763B}', [0xE1, 0x91]), 
    ('\u{7642}', [0x97, 0xC3]), ('\u{7646}', [0xE1, 0x94]), ('\u{7647}', [0xE1, 0x92]), 
    ('\u{7648}', [0xE1, 0x93]), ('\u{764C}', [0x8A, 0xE0]), ('\u{7652}', [0x96, 0xFC]), 
    ('\u{7656}', [0x95, 0xC8]), ('\u{7658}', [0xE1, 0x96]), ('\u{765C}', [0xE1, 0x95]), 
    ('\u{7661}', [0xE1, 0x97]), ('\u{7662}', [0xE1, 0x98]), ('\u{7667}', [0xE1, 0x9C]), 
    ('\u{7668}', [0xE1, 0x99]), ('\u{7669}', [0xE1, 0x9A]), ('\u{766A}', [0xE1, 0x9B]), 
    ('\u{766C}', [0xE1, 0x9D]), ('\u{7670}', [0xE1, 0x9E]), ('\u{7672}', [0xE1, 0x9F]), 
    ('\u{7676}', [0xE1, 0xA0]), ('\u{7678}', [0xE1, 0xA1]), ('\u{767A}', [0x94, 0xAD]), 
    ('\u{767B}', [0x93, 0x6F]), ('\u{767C}', [0xE1, 0xA2]), ('\u{767D}', [0x94, 0x92]), 
    ('\u{767E}', [0x95, 0x53]), ('\u{7680}', [0xE1, 0xA3]), ('\u{7682}', [0xFB, 0x70]), 
    ('\u{7683}', [0xE1, 0xA4]), ('\u{7684}', [0x93, 0x49]), ('\u{7686}', [0x8A, 0x46]), 
    ('\u{7687}', [0x8D, 0x63]), ('\u{7688}', [0xE1, 0xA5]), ('\u{768B}', [0xE1, 0xA6]), 
    ('\u{768E}', [0xE1, 0xA7]), ('\u{7690}', [0x8E, 0x48]), ('\u{7693}', [0xE1, 0xA9]), 
    ('\u{7696}', [0xE1, 0xA8]), ('\u{7699}', [0xE1, 0xAA]), ('\u{769A}', [0xE1, 0xAB]), 
    ('\u{769B}', [0xFB, 0x73]), ('\u{769C}', [0xFB, 0x71]), ('\u{769E}', [0xFB, 0x72]), 
    ('\u{76A6}', [0xFB, 0x74]), ('\u{76AE}', [0x94, 0xE7]), ('\u{76B0}', [0xE1, 0xAC]), 
    ('\u{76B4}', [0xE1, 0xAD]), ('\u{76B7}', [0xEA, 0x89]), ('\u{76B8}', [0xE1, 0xAE]), 
    ('\u{76B9}', [0xE1, 0xAF]), ('\u{76BA}', [0xE1, 0xB0]), ('\u{76BF}', [0x8E, 0x4D]), 
    ('\u{76C2}', [0xE1, 0xB1]), ('\u{76C3}', [0x94, 0x75]), ('\u{76C6}', [0x96, 0x7E]), 
    ('\u{76C8}', [0x89, 0x6D]), ('\u{76CA}', [0x89, 0x76]), ('\u{76CD}', [0xE1, 0xB2]), 
    ('\u{76D2}', [0xE1, 0xB4]), ('\u{76D6}', [0xE1, 0xB3]), ('\u{76D7}', [0x93, 0x90]), 
    ('\u{76DB}', [0x90, 0xB7]), ('\u{76DC}', [0x9F, 0x58]), ('\u{76DE}', [0xE1, 0xB5]), 
    ('\u{76DF}', [0x96, 0xBF]), ('\u{76E1}', [0xE1, 0xB6]), ('\u{76E3}', [0x8A, 0xC4]), 
    ('\u{76E4}', [0x94, 0xD5]), ('\u{76E5}', [0xE1, 0xB7]), ('\u{76E7}', [0xE1, 0xB8]), 
    ('\u{76EA}', [0xE1, 0xB9]), ('\u{76EE}', [0x96, 0xDA]), ('\u{76F2}', [0x96, 0xD3]), 
    ('\u{76F4}', [0x92, 0xBC]), ('\u{76F8}', [0x91, 0x8A]), ('\u{76FB}', [0xE1, 0xBB]), 
    ('\u{76FE}', [0x8F, 0x82]), ('\u{7701}', [0x8F, 0xC8]), ('\u{7704}', [0xE1, 0xBE]), 
    ('\u{7707}', [0xE1, 0xBD]), ('\u{7708}', [0xE1, 0xBC]), ('\u{7709}', [0x94, 0xFB]), 
    ('\u{770B}', [0x8A, 0xC5]), ('\u{770C}', [0x8C, 0xA7]), ('\u{771B}', [0xE1, 0xC4]), 
    ('\u{771E}', [0xE1, 0xC1]), ('\u{771F}', [0x90, 0x5E]), ('\u{7720}', [0x96, 0xB0]), 
    ('\u{7724}', [0xE1, 0xC0]), ('\u{7725}', [0xE1, 0xC2]), ('\u{7726}', [0xE1, 0xC3]), 
    ('\u{7729}', [0xE1, 0xBF]), ('\u{7737}', [0xE1, 0xC5]), ('\u{7738}', [0xE1, 0xC6]), 
    ('\u{773A}', [0x92, 0xAD]), ('\u{773C}', [0x8A, 0xE1]), ('\u{7740}', [0x92, 0x85]), 
    ('\u{7746}', [0xFB, 0x76]), ('\u{7747}', [0xE1, 0xC7]), ('\u{775A}', [0xE1, 0xC8]), 
    ('\u{775B}', [0xE1, 0xCB]), ('\u{7761}', [0x90, 0x87]), ('\u{7763}', [0x93, 0xC2]), 
    ('\u{7765}', [0xE1, 0xCC]), ('\u{7766}', [0x96, 0x72]), ('\u{7768}', [0xE1, 0xC9]), 
    ('\u{776B}', [0xE1, 0xCA]), ('\u{7779}', [0xE1, 0xCF]), ('\u{777E}', [0xE1, 0xCE]), 
    ('\u{777F}', [0xE1, 0xCD]), ('\u{778B}', [0xE1, 0xD1]), ('\u{778E}', [0xE1, 0xD0]), 
"#

/-- src/generated/whatwg/shiftjis_whatwg_tables.rs.inc:2804-2931 -/
noncomputable def encode11 : List Text := lines! r#"    ('\u{7791}', [0xE1, 0xD2]), ('\u{779E}', [0xE1, 0xD4]), ('\u{77A0}', [0xE1, 0xD3]), 
    ('\u{77A5}', [0x95, 0xCB]), ('\u{77AC}', [0x8F, 0x75]), ('\u{77AD}', [0x97, 0xC4]), 
    ('\u{77B0}', [0xE1, 0xD5]), ('\u{77B3}', [0x93, 0xB5]), ('\u{77B6}', [0xE1, 0xD6]), 
    ('\u{77B9}', [0xE1, 0xD7]), ('\u{77BB}', [0xE1, 0xDB]), ('\u{77BC}', [0xE1, 0xD9]), 
    ('\u{77BD}', [0xE1, 0xDA]), ('\u{77BF}', [0xE1, 0xD8]), ('\u{77C7}', [0xE1, 0xDC]), 
    ('\u{77CD}', [0xE1, 0xDD]), ('\u{77D7}', [0xE1, 0xDE]), ('\u{77DA}', [0xE1, 0xDF]), 
    ('\u{77DB}', [0x96, 0xB5]), ('\u{77DC}', [0xE1, 0xE0]), ('\u{77E2}', [0x96, 0xEE]), 
    ('\u{77E3}', [0xE1, 0xE1]), ('\u{77E5}', [0x92, 0x6D]), ('\u{77E7}', [0x94, 0x8A]), 
    ('\u{77E9}', [0x8B, 0xE9]), ('\u{77ED}', [0x92, 0x5A]), ('\u{77EE}', [0xE1, 0xE2]), 
    ('\u{77EF}', [0x8B, 0xB8]), ('\u{77F3}', [0x90, 0xCE]), ('\u{77FC}', [0xE1, 0xE3]), 
    ('\u{7802}', [0x8D, 0xBB]), ('\u{780C}', [0xE1, 0xE4]), ('\u{7812}', [0xE1, 0xE5]), 
    ('\u{7814}', [0x8C, 0xA4]), ('\u{7815}', [0x8D, 0xD3]), ('\u{7820}', [0xE1, 0xE7]), 
    ('\u{7821}', [0xFB, 0x78]), ('\u{7825}', [0x93, 0x75]), ('\u{7826}', [0x8D, 0xD4]), 
    ('\u{7827}', [0x8B, 0x6D]), ('\u{7832}', [0x96, 0x43]), ('\u{7834}', [0x94, 0x6A]), 
    ('\u{783A}', [0x93, 0x76]), ('\u{783F}', [0x8D, 0x7B]), ('\u{7845}', [0xE1, 0xE9]), 
    ('\u{784E}', [0xFB, 0x79]), ('\u{785D}', [0x8F, 0xC9]), ('\u{7864}', [0xFB, 0x7A]), 
    ('\u{786B}', [0x97, 0xB0]), ('\u{786C}', [0x8D, 0x64]), ('\u{786F}', [0x8C, 0xA5]), 
    ('\u{7872}', [0x94, 0xA1]), ('\u{7874}', [0xE1, 0xEB]), ('\u{787A}', [0xFB, 0x7B]), 
    ('\u{787C}', [0xE1, 0xED]), ('\u{7881}', [0x8C, 0xE9]), ('\u{7886}', [0xE1, 0xEC]), 
    ('\u{7887}', [0x92, 0xF4]), ('\u{788C}', [0xE1, 0xEF]), ('\u{788D}', [0x8A, 0x56]), 
    ('\u{788E}', [0xE1, 0xEA]), ('\u{7891}', [0x94, 0xE8]), ('\u{7893}', [0x89, 0x4F]), 
    ('\u{7895}', [0x8D, 0xEA]), ('\u{7897}', [0x98, 0x71]), ('\u{789A}', [0xE1, 0xEE]), 
    ('\u{78A3}', [0xE1, 0xF0]), ('\u{78A7}', [0x95, 0xC9]), ('\u{78A9}', [0x90, 0xD7]), 
    ('\u{78AA}', [0xE1, 0xF2]), ('\u{78AF}', [0xE1, 0xF3]), ('\u{78B5}', [0xE1, 0xF1]), 
    ('\u{78BA}', [0x8A, 0x6D]), ('\u{78BC}', [0xE1, 0xF9]), ('\u{78BE}', [0xE1, 0xF8]), 
    ('\u{78C1}', [0x8E, 0xA5]), ('\u{78C5}', [0xE1, 0xFA]), ('\u{78C6}', [0xE1, 0xF5]), 
    ('\u{78CA}', [0xE1, 0xFB]), ('\u{78CB}', [0xE1, 0xF6]), ('\u{78D0}', [0x94, 0xD6]), 
    ('\u{78D1}', [0xE1, 0xF4]), ('\u{78D4}', [0xE1, 0xF7]), ('\u{78DA}', [0xE2, 0x41]), 
    ('\u{78E7}', [0xE2, 0x40]), ('\u{78E8}', [0x96, 0x81]), ('\u{78EC}', [0xE1, 0xFC]), 
    ('\u{78EF}', [0x88, 0xE9]), ('\u{78F4}', [0xE2, 0x43]), ('\u{78FD}', [0xE2, 0x42]), 
    ('\u{7901}', [0x8F, 0xCA]), ('\u{7907}', [0xE2, 0x44]), ('\u{790E}', [0x91, 0x62]), 
    ('\u{7911}', [0xE2, 0x46]), ('\u{7912}', [0xE2, 0x45]), ('\u{7919}', [0xE2, 0x47]), 
    ('\u{7926}', [0xE1, 0xE6]), ('\u{792A}', [0xE1, 0xE8]), ('\u{792B}', [0xE2, 0x49]), 
    ('\u{792C}', [0xE2, 0x48]), ('\u{7930}', [0xFB, 0x7C]), ('\u{793A}', [0x8E, 0xA6]), 
    ('\u{793C}', [0x97, 0xE7]), ('\u{793E}', [0x8E, 0xD0]), ('\u{7940}', [0xE2, 0x4A]), 
    ('\u{7941}', [0x8C, 0x56]), ('\u{7947}', [0x8B, 0x5F]), ('\u{7948}', [0x8B, 0x46]), 
    ('\u{7949}', [0x8E, 0x83]), ('\u{7950}', [0x97, 0x53]), ('\u{7953}', [0xE2, 0x50]), 
    ('\u{7955}', [0xE2, 0x4F]), ('\u{7956}', [0x91, 0x63]), ('\u{7957}', [0xE2, 0x4C]), 
    ('\u{795A}', [0xE2, 0x4E]), ('\u{795D}', [0x8F, 0x6A]), ('\u{795E}', [0x90, 0x5F]), 
    ('\u{795F}', [0xE2, 0x4D]), ('\u{7960}', [0xE2, 0x4B]), ('\u{7962}', [0x94, 0x49]), 
    ('\u{7965}', [0x8F, 0xCB]), ('\u{7968}', [0x95, 0x5B]), ('\u{796D}', [0x8D, 0xD5]), 
    ('\u{7977}', [0x93, 0x98]), ('\u{797A}', [0xE2, 0x51]), ('\u{797F}', [0xE2, 0x52]), 
    ('\u{7980}', [0xE2, 0x68]), ('\u{7981}', [0x8B, 0xD6]), ('\u{7984}', [0x98, 0x5C]), 
    ('\u{7985}', [0x91, 0x54]), ('\u{798A}', [0xE2, 0x53]), ('\u{798D}', [0x89, 0xD0]), 
    ('\u{798E}', [0x92, 0xF5]), ('\u{798F}', [0x95, 0x9F]), ('\u{7994}', [0xFB, 0x81]), 
    ('\u{799B}', [0xFB, 0x83]), ('\u{799D}', [0xE2, 0x54]), ('\u{79A6}', [0x8B, 0x9A]), 
    ('\u{79A7}', [0xE2, 0x55]), ('\u{79AA}', [0xE2, 0x57]), ('\u{79AE}', [0xE2, 0x58]), 
    ('\u{79B0}', [0x94, 0x48]), ('\u{79B3}', [0xE2, 0x59]), ('\u{79B9}', [0xE2, 0x5A]), 
    ('\u{79BA}', [0xE2, 0x5B]), ('\u{79BD}', [0x8B, 0xD7]), ('\u{79BE}', [0x89, 0xD1]), 
    ('\u{79BF}', [0x93, 0xC3]), ('\u{79C0}', [0x8F, 0x47]), ('\u{79C1}', [0x8E, 0x84]), 
    ('\u{79C9}', [0xE2, 0x5C]), ('\u{79CB}', [0x8F, 0x48]), ('\u{79D1}', [0x89, 0xC8]), 
    ('\u{79D2}', [0x95, 0x62]), ('\u{79D5}', [0xE2, 0x5D]), ('\u{79D8}', [0x94, 0xE9]), 
    ('\u{79DF}', [0x91, 0x64]), ('\u{79E1}', [0xE2, 0x60]), ('\u{79E3}', [0xE2, 0x61]), 
    ('\u{79E4}', [0x94, 0x89]), ('\u{79E6}', [0x90, 0x60]), ('\u{79E7}', [0xE2, 0x5E]), 
    ('\u{79E9}', [0x92, 0x81]), ('\u{79EC}', [0xE2, 0x5F]), ('\u{79F0}', [0x8F, 0xCC]), 
    ('\u{79FB}', [0x88, 0xDA]), ('\u{7A00}', [0x8B, 0x48]), ('\u{7A08}', [0xE2, 0x62]), 
    ('\u{7A0B}', [0x92, 0xF6]), ('\u{7A0D}', [0xE2, 0x63]), ('\u{7A0E}', [0x90, 0xC5]), 
    ('\u{7A14}', [0x96, 0xAB]), ('\u{7A17}', [0x95, 0x42]), ('\u{7A18}', [0xE2, 0x64]), 
    ('\u{7A19}', [0xE2, 0x65]), ('\u{7A1A}', [0x92, 0x74]), ('\u{7A1C}', [0x97, 0xC5]), 
    ('\u{7A1F}', [0xE2, 0x67]), ('\u{7A20}', [0xE2, 0x66]), ('\u{7A2E}', [0x8E, 0xED]), 
    ('\u{7A31}', [0xE2, 0x69]), ('\u{7A32}', [0x88, 0xEE]), ('\u{7A37}', [0xE2, 0x6C]), 
    ('\u{7A3B}', [0xE2, 0x6A]), ('\u{7A3C}', [0x89, 0xD2]), ('\u{7A3D}', [0x8C, 0x6D]), 
    ('\u{7A3E}', [0xE2, 0x6B]), ('\u{7A3F}', [0x8D, 0x65]), ('\u{7A40}', [0x8D, 0x92]), 
    ('\u{7A42}', [0x95, 0xE4]), ('\u{7A43}', [0xE2, 0x6D]), ('\u{7A46}', [0x96, 0x73]), 
    ('\u{7A49}', [0xE2, 0x6F]), ('\u{7A4D}', [0x90, 0xCF]), ('\u{7A4E}', [0x89, 0x6E]), 
    ('\u{7A4F}', [0x89, 0xB8]), ('\u{7A50}', [0x88, 0xAA]), ('\u{7A57}', [0xE2, 0x6E]), 
    ('\u{7A61}', [0xE2, 0x70]), ('\u{7A62}', [0xE2, 0x71]), ('\u{7A63}', [0x8F, 0xF5]), 
    ('\u{7A69}', [0xE2, 0x72]), ('\u{7A6B}', [0x8A, 0x6E]), ('\u{7A70}', [0xE2, 0x74]), 
    ('\u{7A74}', [0x8C, 0x8A]), ('\u{7A76}', [0x8B, 0x86]), ('\u{7A79}', [0xE2, 0x75]), 
    ('\u{7A7A}', [0x8B, 0xF3]), ('\u{7A7D}', [0xE2, 0x76]), ('\u{7A7F}', [0x90, 0xFA]), 
    ('\u{7A81}', [0x93, 0xCB]), ('\u{7A83}', [0x90, 0xDE]), ('\u{7A84}', [0x8D, 0xF3]), 
    ('\u{7A88}', [0xE2, 0x77]), ('\u{7A92}', [0x92, 0x82]), ('\u{7A93}', [0x91, 0x8B]), 
    ('\u{7A95}', [0xE2, 0x79]), ('\u{7A96}', [0xE2, 0x7B]), ('\u{7A97}', [0xE2, 0x78]), 
    ('\u{7A98}', [0xE2, 0x7A]), ('\u{7A9F}', [0x8C, 0x41]), ('\u{7AA9}', [0xE2, 0x7C]), 
    ('\u{7AAA}', [0x8C, 0x45]), ('\u{7AAE}', [0x8B, 0x87]), ('\u{7AAF}', [0x97, 0x71]), 
    ('\u{7AB0}', [0xE2, 0x7E]), ('\u{7AB6}', [0xE2, 0x80]), ('\u{7ABA}', [0x89, 0x4D]), 
    ('\u{7ABF}', [0xE2, 0x83]), ('\u{7AC3}', [0x8A, 0x96]), ('\u{7AC4}', [0xE2, 0x82]), 
    ('\u{7AC5}', [0xE2, 0x81]), ('\u{7AC7}', [0xE2, 0x85]), ('\u{7AC8}', [0xE2, 0x7D]), 
    ('\u{7ACA}', [0xE2, 0x86]), ('\u{7ACB}', [0x97, 0xA7]), ('\u{7ACD}', [0xE2, 0x87]), 
    ('\u{7ACF}', [0xE2, 0x88]), ('\u{7AD1}', [0xFB, 0x84]), ('\u{7AD2}', [0x9A, 0xF2]), 
    ('\u{7AD3}', [0xE2, 0x8A]), ('\u{7AD5}', [0xE2, 0x89]), ('\u{7AD9}', [0xE2, 0x8B]), 
    ('\u{7ADA}', [0xE2, 0x8C]), ('\u{7ADC}', [0x97, 0xB3]), ('\u{7ADD}', [0xE2, 0x8D]), 
    ('\u{7ADF}', [0xE8, 0xED]), ('\u{7AE0}', [0x8F, 0xCD]), ('\u{7AE1}', [0xE2, 0x8E]), 
    ('\u{7AE2}', [0xE2, 0x8F]), ('\u{7AE3}', [0x8F, 0x76]), ('\u{7AE5}', [0x93, 0xB6]), 
    ('\u{7AE6}', [0xE2, 0x90]), ('\u{7AE7}', [0xFB, 0x85]), ('\u{7AEA}', [0x92, 0x47]), 
    ('\u{7AEB}', [0xFB, 0x87]), ('\u{7AED}', [0xE2, 0x91]), ('\u{7AEF}', [0x92, 0x5B]), 
    ('\u{7AF0}', [0xE2, 0x92]), ('\u{7AF6}', [0x8B, 0xA3]), ('\u{7AF8}', [0x99, 0x5E]), 
    ('\u{7AF9}', [0x92, 0x7C]), ('\u{7AFA}', [0x8E, 0xB1]), ('\u{7AFF}', [0x8A, 0xC6]), 
    ('\u{7B02}', [0xE2, 0x93]), ('\u{7B04}', [0xE2, 0xA0]), ('\u{7B06}', [0xE2, 0x96]), 
    ('\u{7B08}', [0x8B, 0x88]), ('\u{7B0A}', [0xE2, 0x95]), ('\u{7B0B}', [0xE2, 0xA2]), 
    ('\u{7B0F}', [0xE2, 0x94]), ('\u{7B11}', [0x8F, 0xCE]), ('\u{7B18}', [0xE2, 0x98]), 
    ('\u{7B19}', [0xE2, 0x99]), ('\u{7B1B}', [0x93, 0x4A]), ('\u{7B1E}', [0xE2, 0x9A]), 
    ('\u{7B20}', [0x8A, 0x7D]), ('\u{7B25}', [0x90, 0x79]), ('\u{7B26}', [0x95, 0x84]), 
    ('\u{7B28}', [0xE2, 0x9C]), ('\u{7B2C}', [0x91, 0xE6]), ('\u{7B33}', [0xE2, 0x97]), 
    ('\u{7B35}', [0xE2, 0x9B]), ('\u{7B36}', [0xE2, 0x9D]), ('\u{7B39}', [0x8D, 0xF9]), 
    ('\u{7B45}', [0xE2, 0xA4]), ('\u{7B46}', [0x95, 0x4D]), ('\u{7B48}', [0x94, 0xA4]), 
    ('\u{7B49}', [0x93, 0x99]), ('\u{7B4B}', [0x8B, 0xD8]), ('\u{7B4C}', [0xE2, 0xA3]), 
    ('\u{7B4D}', [0xE2, 0xA1]), ('\u{7B4F}', [0x94, 0xB3]), ('\u{7B50}', [0xE2, 0x9E]), 
    ('\u{7B51}', [0x92, 0x7D]), ('\u{7B52}', [0x93, 0x9B]), ('\u{7B54}', [0x93, 0x9A]), 
    ('\u{7B56}', [0x8D, 0xF4]), ('\u{7B5D}', [0xE2, 0xB6]), ('\u{7B65}', [0xE2, 0xA6]), 
    ('\u{7B67}', [0xE2, 0xA8]), ('\u{7B6C}', [0xE2, 0xAB]), ('\u{7B6E}', [0xE2, 0xAC]), 
    ('\u{7B70}', [0xE2, 0xA9]), ('\u{7B71}', [0xE2, 0xAA]), ('\u{7B74}', [0xE2, 0xA7]), 
    ('\u{7B75}', [0xE2, 0xA5]), ('\u{7B7A}', [0xE2, 0x9F]), ('\u{7B86}', [0x95, 0xCD]), 
    ('\u{7B87}', [0x89, 0xD3]), ('\u{7B8B}', [0xE2, 0xB3]), ('\u{7B8D}', [0xE2, 0xB0]), 
    ('\u{7B8F}', [0xE2, 0xB5]), ('\u{7B92}', [0xE2, 0xB4]), ('\u{7B94}', [0x94, 0x93]), 
    ('\u{7B95}', [0x96, 0xA5]), ('\u{7B97}', [0x8E, 0x5A]), ('\u{7B98}', [0xE2, 0xAE]), 
    ('\u{7B99}', [0xE2, 0xB7]), ('\u{7B9A}', [0xE2, 0xB2]), ('\u{7B9C}', [0xE2, 0xB1]), 
    ('\u{7B9D}', [0xE2, 0xAD]), ('\u{7B9E}', [0xFB, 0x88]), ('\u{7B9F}', [0xE2, 0xAF]), 
    ('\u{7BA1}', [0x8A, 0xC7]), ('\u{7BAA}', [0x92, 0x5C]), ('\u{7BAD}', [0x90, 0xFB]), 
    ('\u{7BB1}', [0x94, 0xA0]), ('\u{7BB4}', [0xE2, 0xBC]), ('\u{7BB8}', [0x94, 0xA2]), 
    ('\u{7BC0}', [0x90, 0xDF]), ('\u{7BC1}', [0xE2, 0xB9]), ('\u{7BC4}', [0x94, 0xCD]), 
    ('\u{7BC6}', [0xE2, 0xBD]), ('\u{7BC7}', [0x95, 0xD1]), ('\u{7BC9}', [0x92, 0x7A]), 
    ('\u{7BCB}', [0xE2, 0xB8]), ('\u{7BCC}', [0xE2, 0xBA]), ('\u{7BCF}', [0xE2, 0xBB]), 
    ('\u{7BDD}', [0xE2, 0xBE]), ('\u{7BE0}', [0x8E, 0xC2]), ('\u{7BE4}', [0x93, 0xC4]), 
    ('\u{7BE5}', [0xE2, 0xC3]), ('\u{7BE6}', [0xE2, 0xC2]), ('\u{7BE9}', [0xE2, 0xBF]), 
    ('\u{7BED}', [0x98, 0x55]), ('\u{7BF3}', [0xE2, 0xC8]), ('\u{7BF6}', [0xE2, 0xCC]), 
    ('\u{7BF7}', [0xE2, 0xC9]), ('\u{7C00}', [0xE2, 0xC5]), ('\u{7C07}', [0xE2, 0xC6]), 
    ('\u{7C0D}', [0xE2, 0xCB]), ('\u{7C11}', [0xE2, 0xC0]), ('\u{7C12}', [0x99, 0xD3]), 
    ('\u{7C13}', [0xE2, 0xC7]), ('\u{7C14}', [0xE2, 0xC1]), ('\u{7C17}', [0xE2, 0xCA]), 
    ('\u{7C1F}', [0xE2, 0xD0]), ('\u{7C21}', [0x8A, 0xC8]), ('\u{7C23}', [0xE2, 0xCD]), 
    ('\u{7C27}', [0xE2, 0xCE]), ('\u{7C2A}', [0xE2, 0xCF]), ('\u{7C2B}', [0xE2, 0xD2]), 
    ('\u{7C37}', [0xE2, 0xD1]), ('\u{7C38}', [0x94, 0xF4]), ('\u{7C3D}', [0xE2, 0xD3]), 
    ('\u{7C3E}', [0x97, 0xFA]), ('\u{7C3F}', [0x95, 0xEB]), ('\u{7C40}', [0xE2, 0xD8]), 
    ('\u{7C43}', [0xE2, 0xD5]), ('\u{7C4C}', [0xE2, 0xD4]), ('\u{7C4D}', [0x90, 0xD0]), 
    ('\u{7C4F}', [0xE2, 0xD7]), ('\u{7C50}', [0xE2, 0xD9]), ('\u{7C54}', [0xE2, 0xD6]), 
    ('\u{7C56}', [0xE2, 0xDD]), ('\u{7C58}', [0xE2, 0xDA]), ('\u{7C5F}', [0xE2, 0xDB]), 
    ('\u{7C60}', [0xE2, 0xC4]), ('\u{7C64}', [0xE2, 0xDC]), ('\u{7C65}', [0xE2, 0xDE]), 
    ('\u{7C6C}', [0xE2, 0xDF]), ('\u{7C73}', [0x95, 0xC4]), ('\u{7C75}', [0xE2, 0xE0]), 
"#

/-- src/generated/whatwg/shiftjis_whatwg_tables.rs.inc:2932-3059 -/
noncomputable def encode12 : List Text := lines! r#"    ('\u{7C7E}', [0x96, 0xE0]), ('\u{7C81}', [0x8B, 0xCC]), ('\u{7C82}', [0x8C, 0x48]), 
    ('\u{7C83}', [0xE2, 0xE1]), ('\u{7C89}', [0x95, 0xB2]), ('\u{7C8B}', [0x90, 0x88]), 
    ('\u{7C8D}', [0x96, 0xAE]), ('\u{7C90}', [0xE2, 0xE2]), ('\u{7C92}', [0x97, 0xB1]), 
    ('\u{7C95}', [0x94, 0x94]), ('\u{7C97}', [0x91, 0x65]), ('\u{7C98}', [0x94, 0x53]), 
    ('\u{7C9B}', [0x8F, 0x6C]), ('\u{7C9F}', [0x88, 0xBE]), ('\u{7CA1}', [0xE2, 0xE7]), 
    ('\u{7CA2}', [0xE2, 0xE5]), ('\u{7CA4}', [0xE2, 0xE3]), ('\u{7CA5}', [0x8A, 0x9F]), 
    ('\u{7CA7}', [0x8F, 0xCF]), ('\u{7CA8}', [0xE2, 0xE8]), ('\u{7CAB}', [0xE2, 0xE6]), 
    ('\u{7CAD}', [0xE2, 0xE4]), ('\u{7CAE}', [0xE2, 0xEC]), ('\u{7CB1}', [0xE2, 0xEB]), 
    ('\u{7CB2}', [0xE2, 0xEA]), ('\u{7CB3}', [0xE2, 0xE9]), ('\u{7CB9}', [0xE2, 0xED]), 
    ('\u{7CBD}', [0xE2, 0xEE]), ('\u{7CBE}', [0x90, 0xB8]), ('\u{7CC0}', [0xE2, 0xEF]), 
    ('\u{7CC2}', [0xE2, 0xF1]), ('\u{7CC5}', [0xE2, 0xF0]), ('\u{7CCA}', [0x8C, 0xD0]), 
    ('\u{7CCE}', [0x91, 0x57]), ('\u{7CD2}', [0xE2, 0xF3]), ('\u{7CD6}', [0x93, 0x9C]), 
    ('\u{7CD8}', [0xE2, 0xF2]), ('\u{7CDC}', [0xE2, 0xF4]), ('\u{7CDE}', [0x95, 0xB3]), 
    ('\u{7CDF}', [0x91, 0x8C]), ('\u{7CE0}', [0x8D, 0x66]), ('\u{7CE2}', [0xE2, 0xF5]), 
    ('\u{7CE7}', [0x97, 0xC6]), ('\u{7CEF}', [0xE2, 0xF7]), ('\u{7CF2}', [0xE2, 0xF8]), 
    ('\u{7CF4}', [0xE2, 0xF9]), ('\u{7CF6}', [0xE2, 0xFA]), ('\u{7CF8}', [0x8E, 0x85]), 
    ('\u{7CFA}', [0xE2, 0xFB]), ('\u{7CFB}', [0x8C, 0x6E]), ('\u{7CFE}', [0x8B, 0x8A]), 
    ('\u{7D00}', [0x8B, 0x49]), ('\u{7D02}', [0xE3, 0x40]), ('\u{7D04}', [0x96, 0xF1]), 
    ('\u{7D05}', [0x8D, 0x67]), ('\u{7D06}', [0xE2, 0xFC]), ('\u{7D0A}', [0xE3, 0x43]), 
    ('\u{7D0B}', [0x96, 0xE4]), ('\u{7D0D}', [0x94, 0x5B]), ('\u{7D10}', [0x95, 0x52]), 
    ('\u{7D14}', [0x8F, 0x83]), ('\u{7D15}', [0xE3, 0x42]), ('\u{7D17}', [0x8E, 0xD1]), 
    ('\u{7D18}', [0x8D, 0x68]), ('\u{7D19}', [0x8E, 0x86]), ('\u{7D1A}', [0x8B, 0x89]), 
    ('\u{7D1B}', [0x95, 0xB4]), ('\u{7D1C}', [0xE3, 0x41]), ('\u{7D20}', [0x91, 0x66]), 
    ('\u{7D21}', [0x96, 0x61]), ('\u{7D22}', [0x8D, 0xF5]), ('\u{7D2B}', [0x8E, 0x87]), 
    ('\u{7D2C}', [0x92, 0xDB]), ('\u{7D2E}', [0xE3, 0x46]), ('\u{7D2F}', [0x97, 0xDD]), 
    ('\u{7D30}', [0x8D, 0xD7]), ('\u{7D32}', [0xE3, 0x47]), ('\u{7D33}', [0x90, 0x61]), 
    ('\u{7D35}', [0xE3, 0x49]), ('\u{7D39}', [0x8F, 0xD0]), ('\u{7D3A}', [0x8D, 0xAE]), 
    ('\u{7D3F}', [0xE3, 0x48]), ('\u{7D42}', [0x8F, 0x49]), ('\u{7D43}', [0x8C, 0xBC]), 
    ('\u{7D44}', [0x91, 0x67]), ('\u{7D45}', [0xE3, 0x44]), ('\u{7D46}', [0xE3, 0x4A]), 
    ('\u{7D48}', [0xFB, 0x8A]), ('\u{7D4B}', [0xE3, 0x45]), ('\u{7D4C}', [0x8C, 0x6F]), 
    ('\u{7D4E}', [0xE3, 0x4D]), ('\u{7D4F}', [0xE3, 0x51]), ('\u{7D50}', [0x8C, 0x8B]), 
    ('\u{7D56}', [0xE3, 0x4C]), ('\u{7D5B}', [0xE3, 0x55]), ('\u{7D5C}', [0xFB, 0x8B]), 
    ('\u{7D5E}', [0x8D, 0x69]), ('\u{7D61}', [0x97, 0x8D]), ('\u{7D62}', [0x88, 0xBA]), 
    ('\u{7D63}', [0xE3, 0x52]), ('\u{7D66}', [0x8B, 0x8B]), ('\u{7D68}', [0xE3, 0x4F]), 
    ('\u{7D6E}', [0xE3, 0x50]), ('\u{7D71}', [0x93, 0x9D]), ('\u{7D72}', [0xE3, 0x4E]), 
    ('\u{7D73}', [0xE3, 0x4B]), ('\u{7D75}', [0x8A, 0x47]), ('\u{7D76}', [0x90, 0xE2]), 
    ('\u{7D79}', [0x8C, 0xA6]), ('\u{7D7D}', [0xE3, 0x57]), ('\u{7D89}', [0xE3, 0x54]), 
    ('\u{7D8F}', [0xE3, 0x56]), ('\u{7D93}', [0xE3, 0x53]), ('\u{7D99}', [0x8C, 0x70]), 
    ('\u{7D9A}', [0x91, 0xB1]), ('\u{7D9B}', [0xE3, 0x58]), ('\u{7D9C}', [0x91, 0x8E]), 
    ('\u{7D9F}', [0xE3, 0x65]), ('\u{7DA0}', [0xFB, 0x8D]), ('\u{7DA2}', [0xE3, 0x61]), 
    ('\u{7DA3}', [0xE3, 0x5B]), ('\u{7DAB}', [0xE3, 0x5F]), ('\u{7DAC}', [0x8E, 0xF8]), 
    ('\u{7DAD}', [0x88, 0xDB]), ('\u{7DAE}', [0xE3, 0x5A]), ('\u{7DAF}', [0xE3, 0x62]), 
    ('\u{7DB0}', [0xE3, 0x66]), ('\u{7DB1}', [0x8D, 0x6A]), ('\u{7DB2}', [0x96, 0xD4]), 
    ('\u{7DB4}', [0x92, 0xD4]), ('\u{7DB5}', [0xE3, 0x5C]), ('\u{7DB7}', [0xFB, 0x8C]), 
    ('\u{7DB8}', [0xE3, 0x64]), ('\u{7DBA}', [0xE3, 0x59]), ('\u{7DBB}', [0x92, 0x5D]), 
    ('\u{7DBD}', [0xE3, 0x5E]), ('\u{7DBE}', [0x88, 0xBB]), ('\u{7DBF}', [0x96, 0xC8]), 
    ('\u{7DC7}', [0xE3, 0x5D]), ('\u{7DCA}', [0x8B, 0xD9]), ('\u{7DCB}', [0x94, 0xEA]), 
    ('\u{7DCF}', [0x91, 0x8D]), ('\u{7DD1}', [0x97, 0xCE]), ('\u{7DD2}', [0x8F, 0x8F]), 
    ('\u{7DD5}', [0xE3, 0x8E]), ('\u{7DD6}', [0xFB, 0x8E]), ('\u{7DD8}', [0xE3, 0x67]), 
    ('\u{7DDA}', [0x90, 0xFC]), ('\u{7DDC}', [0xE3, 0x63]), ('\u{7DDD}', [0xE3, 0x68]), 
    ('\u{7DDE}', [0xE3, 0x6A]), ('\u{7DE0}', [0x92, 0xF7]), ('\u{7DE1}', [0xE3, 0x6D]), 
    ('\u{7DE4}', [0xE3, 0x69]), ('\u{7DE8}', [0x95, 0xD2]), ('\u{7DE9}', [0x8A, 0xC9]), 
    ('\u{7DEC}', [0x96, 0xC9]), ('\u{7DEF}', [0x88, 0xDC]), ('\u{7DF2}', [0xE3, 0x6C]), 
    ('\u{7DF4}', [0x97, 0xFB]), ('\u{7DFB}', [0xE3, 0x6B]), ('\u{7E01}', [0x89, 0x8F]), 
    ('\u{7E04}', [0x93, 0xEA]), ('\u{7E05}', [0xE3, 0x6E]), ('\u{7E09}', [0xE3, 0x75]), 
    ('\u{7E0A}', [0xE3, 0x6F]), ('\u{7E0B}', [0xE3, 0x76]), ('\u{7E12}', [0xE3, 0x72]), 
    ('\u{7E1B}', [0x94, 0x9B]), ('\u{7E1E}', [0x8E, 0xC8]), ('\u{7E1F}', [0xE3, 0x74]), 
    ('\u{7E21}', [0xE3, 0x71]), ('\u{7E22}', [0xE3, 0x77]), ('\u{7E23}', [0xE3, 0x70]), 
    ('\u{7E26}', [0x8F, 0x63]), ('\u{7E2B}', [0x96, 0x44]), ('\u{7E2E}', [0x8F, 0x6B]), 
    ('\u{7E31}', [0xE3, 0x73]), ('\u{7E32}', [0xE3, 0x80]), ('\u{7E35}', [0xE3, 0x7B]), 
    ('\u{7E37}', [0xE3, 0x7E]), ('\u{7E39}', [0xE3, 0x7C]), ('\u{7E3A}', [0xE3, 0x81]), 
    ('\u{7E3B}', [0xE3, 0x7A]), ('\u{7E3D}', [0xE3, 0x60]), ('\u{7E3E}', [0x90, 0xD1]), 
    ('\u{7E41}', [0x94, 0xC9]), ('\u{7E43}', [0xE3, 0x7D]), ('\u{7E46}', [0xE3, 0x78]), 
    ('\u{7E4A}', [0x91, 0x40]), ('\u{7E4B}', [0x8C, 0x71]), ('\u{7E4D}', [0x8F, 0x4A]), 
    ('\u{7E52}', [0xFB, 0x8F]), ('\u{7E54}', [0x90, 0x44]), ('\u{7E55}', [0x91, 0x55]), 
    ('\u{7E56}', [0xE3, 0x84]), ('\u{7E59}', [0xE3, 0x86]), ('\u{7E5A}', [0xE3, 0x87]), 
    ('\u{7E5D}', [0xE3, 0x83]), ('\u{7E5E}', [0xE3, 0x85]), ('\u{7E66}', [0xE3, 0x79]), 
    ('\u{7E67}', [0xE3, 0x82]), ('\u{7E69}', [0xE3, 0x8A]), ('\u{7E6A}', [0xE3, 0x89]), 
    ('\u{7E6D}', [0x96, 0x9A]), ('\u{7E70}', [0x8C, 0x4A]), ('\u{7E79}', [0xE3, 0x88]), 
    ('\u{7E7B}', [0xE3, 0x8C]), ('\u{7E7C}', [0xE3, 0x8B]), ('\u{7E7D}', [0xE3, 0x8F]), 
    ('\u{7E7F}', [0xE3, 0x91]), ('\u{7E82}', [0x8E, 0x5B]), ('\u{7E83}', [0xE3, 0x8D]), 
    ('\u{7E88}', [0xE3, 0x92]), ('\u{7E89}', [0xE3, 0x93]), ('\u{7E8A}', [0xFA, 0x5C]), 
    ('\u{7E8C}', [0xE3, 0x94]), ('\u{7E8E}', [0xE3, 0x9A]), ('\u{7E8F}', [0x93, 0x5A]), 
    ('\u{7E90}', [0xE3, 0x96]), ('\u{7E92}', [0xE3, 0x95]), ('\u{7E93}', [0xE3, 0x97]), 
    ('\u{7E94}', [0xE3, 0x98]), ('\u{7E96}', [0xE3, 0x99]), ('\u{7E9B}', [0xE3, 0x9B]), 
    ('\u{7E9C}', [0xE3, 0x9C]), ('\u{7F36}', [0x8A, 0xCA]), ('\u{7F38}', [0xE3, 0x9D]), 
    ('\u{7F3A}', [0xE3, 0x9E]), ('\u{7F45}', [0xE3, 0x9F]), ('\u{7F47}', [0xFB, 0x90]), 
    ('\u{7F4C}', [0xE3, 0xA0]), ('\u{7F4D}', [0xE3, 0xA1]), ('\u{7F4E}', [0xE3, 0xA2]), 
    ('\u{7F50}', [0xE3, 0xA3]), ('\u{7F51}', [0xE3, 0xA4]), ('\u{7F54}', [0xE3, 0xA6]), 
    ('\u{7F55}', [0xE3, 0xA5]), ('\u{7F58}', [0xE3, 0xA7]), ('\u{7F5F}', [0xE3, 0xA8]), 
    ('\u{7F60}', [0xE3, 0xA9]), ('\u{7F67}', [0xE3, 0xAC]), ('\u{7F68}', [0xE3, 0xAA]), 
    ('\u{7F69}', [0xE3, 0xAB]), ('\u{7F6A}', [0x8D, 0xDF]), ('\u{7F6B}', [0x8C, 0x72]), 
    ('\u{7F6E}', [0x92, 0x75]), ('\u{7F70}', [0x94, 0xB1]), ('\u{7F72}', [0x8F, 0x90]), 
    ('\u{7F75}', [0x94, 0x6C]), ('\u{7F77}', [0x94, 0xEB]), ('\u{7F78}', [0xE3, 0xAD]), 
    ('\u{7F79}', [0x9C, 0xEB]), ('\u{7F82}', [0xE3, 0xAE]), ('\u{7F83}', [0xE3, 0xB0]), 
    ('\u{7F85}', [0x97, 0x85]), ('\u{7F86}', [0xE3, 0xAF]), ('\u{7F87}', [0xE3, 0xB2]), 
    ('\u{7F88}', [0xE3, 0xB1]), ('\u{7F8A}', [0x97, 0x72]), ('\u{7F8C}', [0xE3, 0xB3]), 
    ('\u{7F8E}', [0x94, 0xFC]), ('\u{7F94}', [0xE3, 0xB4]), ('\u{7F9A}', [0xE3, 0xB7]), 
    ('\u{7F9D}', [0xE3, 0xB6]), ('\u{7F9E}', [0xE3, 0xB5]), ('\u{7FA1}', [0xFB, 0x91]), 
    ('\u{7FA3}', [0xE3, 0xB8]), ('\u{7FA4}', [0x8C, 0x51]), ('\u{7FA8}', [0x91, 0x41]), 
    ('\u{7FA9}', [0x8B, 0x60]), ('\u{7FAE}', [0xE3, 0xBC]), ('\u{7FAF}', [0xE3, 0xB9]), 
    ('\u{7FB2}', [0xE3, 0xBA]), ('\u{7FB6}', [0xE3, 0xBD]), ('\u{7FB8}', [0xE3, 0xBE]), 
    ('\u{7FB9}', [0xE3, 0xBB]), ('\u{7FBD}', [0x89, 0x48]), ('\u{7FC1}', [0x89, 0xA5]), 
    ('\u{7FC5}', [0xE3, 0xC0]), ('\u{7FC6}', [0xE3, 0xC1]), ('\u{7FCA}', [0xE3, 0xC2]), 
    ('\u{7FCC}', [0x97, 0x82]), ('\u{7FD2}', [0x8F, 0x4B]), ('\u{7FD4}', [0xE3, 0xC4]), 
    ('\u{7FD5}', [0xE3, 0xC3]), ('\u{7FE0}', [0x90, 0x89]), ('\u{7FE1}', [0xE3, 0xC5]), 
    ('\u{7FE6}', [0xE3, 0xC6]), ('\u{7FE9}', [0xE3, 0xC7]), ('\u{7FEB}', [0x8A, 0xE3]), 
    ('\u{7FF0}', [0x8A, 0xCB]), ('\u{7FF3}', [0xE3, 0xC8]), ('\u{7FF9}', [0xE3, 0xC9]), 
    ('\u{7FFB}', [0x96, 0x7C]), ('\u{7FFC}', [0x97, 0x83]), ('\u{8000}', [0x97, 0x73]), 
    ('\u{8001}', [0x98, 0x56]), ('\u{8003}', [0x8D, 0x6C]), ('\u{8004}', [0xE3, 0xCC]), 
    ('\u{8005}', [0x8E, 0xD2]), ('\u{8006}', [0xE3, 0xCB]), ('\u{800B}', [0xE3, 0xCD]), 
    ('\u{800C}', [0x8E, 0xA7]), ('\u{8010}', [0x91, 0xCF]), ('\u{8012}', [0xE3, 0xCE]), 
    ('\u{8015}', [0x8D, 0x6B]), ('\u{8017}', [0x96, 0xD5]), ('\u{8018}', [0xE3, 0xCF]), 
    ('\u{8019}', [0xE3, 0xD0]), ('\u{801C}', [0xE3, 0xD1]), ('\u{8021}', [0xE3, 0xD2]), 
    ('\u{8028}', [0xE3, 0xD3]), ('\u{8033}', [0x8E, 0xA8]), ('\u{8036}', [0x96, 0xEB]), 
    ('\u{803B}', [0xE3, 0xD5]), ('\u{803D}', [0x92, 0x5E]), ('\u{803F}', [0xE3, 0xD4]), 
    ('\u{8046}', [0xE3, 0xD7]), ('\u{804A}', [0xE3, 0xD6]), ('\u{8052}', [0xE3, 0xD8]), 
    ('\u{8056}', [0x90, 0xB9]), ('\u{8058}', [0xE3, 0xD9]), ('\u{805A}', [0xE3, 0xDA]), 
    ('\u{805E}', [0x95, 0xB7]), ('\u{805F}', [0xE3, 0xDB]), ('\u{8061}', [0x91, 0x8F]), 
    ('\u{8062}', [0xE3, 0xDC]), ('\u{8068}', [0xE3, 0xDD]), ('\u{806F}', [0x97, 0xFC]), 
    ('\u{8070}', [0xE3, 0xE0]), ('\u{8072}', [0xE3, 0xDF]), ('\u{8073}', [0xE3, 0xDE]), 
    ('\u{8074}', [0x92, 0xAE]), ('\u{8076}', [0xE3, 0xE1]), ('\u{8077}', [0x90, 0x45]), 
    ('\u{8079}', [0xE3, 0xE2]), ('\u{807D}', [0xE3, 0xE3]), ('\u{807E}', [0x98, 0x57]), 
    ('\u{807F}', [0xE3, 0xE4]), ('\u{8084}', [0xE3, 0xE5]), ('\u{8085}', [0xE3, 0xE7]), 
    ('\u{8086}', [0xE3, 0xE6]), ('\u{8087}', [0x94, 0xA3]), ('\u{8089}', [0x93, 0xF7]), 
    ('\u{808B}', [0x98, 0x5D]), ('\u{808C}', [0x94, 0xA7]), ('\u{8093}', [0xE3, 0xE9]), 
    ('\u{8096}', [0x8F, 0xD1]), ('\u{8098}', [0x95, 0x49]), ('\u{809A}', [0xE3, 0xEA]), 
    ('\u{809B}', [0xE3, 0xE8]), ('\u{809D}', [0x8A, 0xCC]), ('\u{80A1}', [0x8C, 0xD2]), 
    ('\u{80A2}', [0x8E, 0x88]), ('\u{80A5}', [0x94, 0xEC]), ('\u{80A9}', [0x8C, 0xA8]), 
    ('\u{80AA}', [0x96, 0x62]), ('\u{80AC}', [0xE3, 0xED]), ('\u{80AD}', [0xE3, 0xEB]), 
    ('\u{80AF}', [0x8D, 0x6D]), ('\u{80B1}', [0x8D, 0x6E]), ('\u{80B2}', [0x88, 0xE7]), 
    ('\u{80B4}', [0x8D, 0xE6]), ('\u{80BA}', [0x94, 0x78]), ('\u{80C3}', [0x88, 0xDD]), 
    ('\u{80C4}', [0xE3, 0xF2]), ('\u{80C6}', [0x92, 0x5F]), ('\u{80CC}', [0x94, 0x77]), 
    ('\u{80CE}', [0x91, 0xD9]), ('\u{80D6}', [0xE3, 0xF4]), ('\u{80D9}', [0xE3, 0xF0]), 
    ('\u{80DA}', [0xE3, 0xF3]), ('\u{80DB}', [0xE3, 0xEE]), ('\u{80DD}', [0xE3, 0xF1]), 
    ('\u{80DE}', [0x96, 0x45]), ('\u{80E1}', [0x8C, 0xD3]), ('\u{80E4}', [0x88, 0xFB]), 
    ('\u{80E5}', [0xE3, 0xEF]), ('\u{80EF}', [0xE3, 0xF6]), ('\u{80F1}', [0xE3, 0xF7]), 
    ('\u{80F4}', [0x93, 0xB7]), ('\u{80F8}', [0x8B, 0xB9]), ('\u{80FC}', [0xE4, 0x45]), 
"#

/-- src/generated/whatwg/shiftjis_whatwg_tables.rs.inc:3060-3187 -/
noncomputable def encode13 : List Text := lines! r#"    ('\u{80FD}', [0x94, 0x5C]), ('\u{8102}', [0x8E, 0x89]), ('\u{8105}', [0x8B, 0xBA]), 
    ('\u{8106}', [0x90, 0xC6]), ('\u{8107}', [0x98, 0x65]), ('\u{8108}', [0x96, 0xAC]), 
    ('\u{8109}', [0xE3, 0xF5]), ('\u{810A}', [0x90, 0xD2]), ('\u{811A}', [0x8B, 0x72]), 
    ('\u{811B}', [0xE3, 0xF8]), ('\u{8123}', [0xE3, 0xFA]), ('\u{8129}', [0xE3, 0xF9]), 
    ('\u{812F}', [0xE3, 0xFB]), ('\u{8131}', [0x92, 0x45]), ('\u{8133}', [0x94, 0x5D]), 
    ('\u{8139}', [0x92, 0xAF]), ('\u{813E}', [0xE4, 0x42]), ('\u{8146}', [0xE4, 0x41]), 
    ('\u{814B}', [0xE3, 0xFC]), ('\u{814E}', [0x90, 0x74]), ('\u{8150}', [0x95, 0x85]), 
    ('\u{8151}', [0xE4, 0x44]), ('\u{8153}', [0xE4, 0x43]), ('\u{8154}', [0x8D, 0x6F]), 
    ('\u{8155}', [0x98, 0x72]), ('\u{815F}', [0xE4, 0x54]), ('\u{8165}', [0xE4, 0x48]), 
    ('\u{8166}', [0xE4, 0x49]), ('\u{816B}', [0x8E, 0xEE]), ('\u{816E}', [0xE4, 0x47]), 
    ('\u{8170}', [0x8D, 0x98]), ('\u{8171}', [0xE4, 0x46]), ('\u{8174}', [0xE4, 0x4A]), 
    ('\u{8178}', [0x92, 0xB0]), ('\u{8179}', [0x95, 0xA0]), ('\u{817A}', [0x91, 0x42]), 
    ('\u{817F}', [0x91, 0xDA]), ('\u{8180}', [0xE4, 0x4E]), ('\u{8182}', [0xE4, 0x4F]), 
    ('\u{8183}', [0xE4, 0x4B]), ('\u{8188}', [0xE4, 0x4C]), ('\u{818A}', [0xE4, 0x4D]), 
    ('\u{818F}', [0x8D, 0x70]), ('\u{8193}', [0xE4, 0x55]), ('\u{8195}', [0xE4, 0x51]), 
    ('\u{819A}', [0x95, 0x86]), ('\u{819C}', [0x96, 0x8C]), ('\u{819D}', [0x95, 0x47]), 
    ('\u{81A0}', [0xE4, 0x50]), ('\u{81A3}', [0xE4, 0x53]), ('\u{81A4}', [0xE4, 0x52]), 
    ('\u{81A8}', [0x96, 0x63]), ('\u{81A9}', [0xE4, 0x56]), ('\u{81B0}', [0xE4, 0x57]), 
    ('\u{81B3}', [0x91, 0x56]), ('\u{81B5}', [0xE4, 0x58]), ('\u{81B8}', [0xE4, 0x5A]), 
    ('\u{81BA}', [0xE4, 0x5E]), ('\u{81BD}', [0xE4, 0x5B]), ('\u{81BE}', [0xE4, 0x59]), 
    ('\u{81BF}', [0x94, 0x5E]), ('\u{81C0}', [0xE4, 0x5C]), ('\u{81C2}', [0xE4, 0x5D]), 
    ('\u{81C6}', [0x89, 0xB0]), ('\u{81C8}', [0xE4, 0x64]), ('\u{81C9}', [0xE4, 0x5F]), 
    ('\u{81CD}', [0xE4, 0x60]), ('\u{81D1}', [0xE4, 0x61]), ('\u{81D3}', [0x91, 0x9F]), 
    ('\u{81D8}', [0xE4, 0x63]), ('\u{81D9}', [0xE4, 0x62]), ('\u{81DA}', [0xE4, 0x65]), 
    ('\u{81DF}', [0xE4, 0x66]), ('\u{81E0}', [0xE4, 0x67]), ('\u{81E3}', [0x90, 0x62]), 
    ('\u{81E5}', [0x89, 0xE7]), ('\u{81E7}', [0xE4, 0x68]), ('\u{81E8}', [0x97, 0xD5]), 
    ('\u{81EA}', [0x8E, 0xA9]), ('\u{81ED}', [0x8F, 0x4C]), ('\u{81F3}', [0x8E, 0x8A]), 
    ('\u{81F4}', [0x92, 0x76]), ('\u{81FA}', [0xE4, 0x69]), ('\u{81FB}', [0xE4, 0x6A]), 
    ('\u{81FC}', [0x89, 0x50]), ('\u{81FE}', [0xE4, 0x6B]), ('\u{8201}', [0xE4, 0x6C]), 
    ('\u{8202}', [0xE4, 0x6D]), ('\u{8205}', [0xE4, 0x6E]), ('\u{8207}', [0xE4, 0x6F]), 
    ('\u{8208}', [0x8B, 0xBB]), ('\u{8209}', [0x9D, 0xA8]), ('\u{820A}', [0xE4, 0x70]), 
    ('\u{820C}', [0x90, 0xE3]), ('\u{820D}', [0xE4, 0x71]), ('\u{820E}', [0x8E, 0xC9]), 
    ('\u{8210}', [0xE4, 0x72]), ('\u{8212}', [0x98, 0xAE]), ('\u{8216}', [0xE4, 0x73]), 
    ('\u{8217}', [0x95, 0xDC]), ('\u{8218}', [0x8A, 0xDA]), ('\u{821B}', [0x91, 0x43]), 
    ('\u{821C}', [0x8F, 0x77]), ('\u{821E}', [0x95, 0x91]), ('\u{821F}', [0x8F, 0x4D]), 
    ('\u{8229}', [0xE4, 0x74]), ('\u{822A}', [0x8D, 0x71]), ('\u{822B}', [0xE4, 0x75]), 
    ('\u{822C}', [0x94, 0xCA]), ('\u{822E}', [0xE4, 0x84]), ('\u{8233}', [0xE4, 0x77]), 
    ('\u{8235}', [0x91, 0xC7]), ('\u{8236}', [0x94, 0x95]), ('\u{8237}', [0x8C, 0xBD]), 
    ('\u{8238}', [0xE4, 0x76]), ('\u{8239}', [0x91, 0x44]), ('\u{8240}', [0xE4, 0x78]), 
    ('\u{8247}', [0x92, 0xF8]), ('\u{8258}', [0xE4, 0x7A]), ('\u{8259}', [0xE4, 0x79]), 
    ('\u{825A}', [0xE4, 0x7C]), ('\u{825D}', [0xE4, 0x7B]), ('\u{825F}', [0xE4, 0x7D]), 
    ('\u{8262}', [0xE4, 0x80]), ('\u{8264}', [0xE4, 0x7E]), ('\u{8266}', [0x8A, 0xCD]), 
    ('\u{8268}', [0xE4, 0x81]), ('\u{826A}', [0xE4, 0x82]), ('\u{826B}', [0xE4, 0x83]), 
    ('\u{826E}', [0x8D, 0xAF]), ('\u{826F}', [0x97, 0xC7]), ('\u{8271}', [0xE4, 0x85]), 
    ('\u{8272}', [0x90, 0x46]), ('\u{8276}', [0x89, 0x90]), ('\u{8277}', [0xE4, 0x86]), 
    ('\u{8278}', [0xE4, 0x87]), ('\u{827E}', [0xE4, 0x88]), ('\u{828B}', [0x88, 0xF0]), 
    ('\u{828D}', [0xE4, 0x89]), ('\u{8292}', [0xE4, 0x8A]), ('\u{8299}', [0x95, 0x87]), 
    ('\u{829D}', [0x8E, 0xC5]), ('\u{829F}', [0xE4, 0x8C]), ('\u{82A5}', [0x8A, 0x48]), 
    ('\u{82A6}', [0x88, 0xB0]), ('\u{82AB}', [0xE4, 0x8B]), ('\u{82AC}', [0xE4, 0x8E]), 
    ('\u{82AD}', [0x94, 0x6D]), ('\u{82AF}', [0x90, 0x63]), ('\u{82B1}', [0x89, 0xD4]), 
    ('\u{82B3}', [0x96, 0x46]), ('\u{82B8}', [0x8C, 0x7C]), ('\u{82B9}', [0x8B, 0xDA]), 
    ('\u{82BB}', [0xE4, 0x8D]), ('\u{82BD}', [0x89, 0xE8]), ('\u{82C5}', [0x8A, 0xA1]), 
    ('\u{82D1}', [0x89, 0x91]), ('\u{82D2}', [0xE4, 0x92]), ('\u{82D3}', [0x97, 0xE8]), 
    ('\u{82D4}', [0x91, 0xDB]), ('\u{82D7}', [0x95, 0x63]), ('\u{82D9}', [0xE4, 0x9E]), 
    ('\u{82DB}', [0x89, 0xD5]), ('\u{82DC}', [0xE4, 0x9C]), ('\u{82DE}', [0xE4, 0x9A]), 
    ('\u{82DF}', [0xE4, 0x91]), ('\u{82E1}', [0xE4, 0x8F]), ('\u{82E3}', [0xE4, 0x90]), 
    ('\u{82E5}', [0x8E, 0xE1]), ('\u{82E6}', [0x8B, 0xEA]), ('\u{82E7}', [0x92, 0x97]), 
    ('\u{82EB}', [0x93, 0xCF]), ('\u{82F1}', [0x89, 0x70]), ('\u{82F3}', [0xE4, 0x94]), 
    ('\u{82F4}', [0xE4, 0x93]), ('\u{82F9}', [0xE4, 0x99]), ('\u{82FA}', [0xE4, 0x95]), 
    ('\u{82FB}', [0xE4, 0x98]), ('\u{8301}', [0xFB, 0x93]), ('\u{8302}', [0x96, 0xCE]), 
    ('\u{8303}', [0xE4, 0x97]), ('\u{8304}', [0x89, 0xD6]), ('\u{8305}', [0x8A, 0x9D]), 
    ('\u{8306}', [0xE4, 0x9B]), ('\u{8309}', [0xE4, 0x9D]), ('\u{830E}', [0x8C, 0x73]), 
    ('\u{8316}', [0xE4, 0xA1]), ('\u{8317}', [0xE4, 0xAA]), ('\u{8318}', [0xE4, 0xAB]), 
    ('\u{831C}', [0x88, 0xA9]), ('\u{8323}', [0xE4, 0xB2]), ('\u{8328}', [0x88, 0xEF]), 
    ('\u{832B}', [0xE4, 0xA9]), ('\u{832F}', [0xE4, 0xA8]), ('\u{8331}', [0xE4, 0xA3]), 
    ('\u{8332}', [0xE4, 0xA2]), ('\u{8334}', [0xE4, 0xA0]), ('\u{8335}', [0xE4, 0x9F]), 
    ('\u{8336}', [0x92, 0x83]), ('\u{8338}', [0x91, 0xF9]), ('\u{8339}', [0xE4, 0xA5]), 
    ('\u{8340}', [0xE4, 0xA4]), ('\u{8345}', [0xE4, 0xA7]), ('\u{8349}', [0x91, 0x90]), 
    ('\u{834A}', [0x8C, 0x74]), ('\u{834F}', [0x89, 0x60]), ('\u{8350}', [0xE4, 0xA6]), 
    ('\u{8352}', [0x8D, 0x72]), ('\u{8358}', [0x91, 0x91]), ('\u{8362}', [0xFB, 0x94]), 
    ('\u{8373}', [0xE4, 0xB8]), ('\u{8375}', [0xE4, 0xB9]), ('\u{8377}', [0x89, 0xD7]), 
    ('\u{837B}', [0x89, 0xAC]), ('\u{837C}', [0xE4, 0xB6]), ('\u{837F}', [0xFB, 0x95]), 
    ('\u{8385}', [0xE4, 0xAC]), ('\u{8387}', [0xE4, 0xB4]), ('\u{8389}', [0xE4, 0xBB]), 
    ('\u{838A}', [0xE4, 0xB5]), ('\u{838E}', [0xE4, 0xB3]), ('\u{8393}', [0xE4, 0x96]), 
    ('\u{8396}', [0xE4, 0xB1]), ('\u{839A}', [0xE4, 0xAD]), ('\u{839E}', [0x8A, 0xCE]), 
    ('\u{839F}', [0xE4, 0xAF]), ('\u{83A0}', [0xE4, 0xBA]), ('\u{83A2}', [0xE4, 0xB0]), 
    ('\u{83A8}', [0xE4, 0xBC]), ('\u{83AA}', [0xE4, 0xAE]), ('\u{83AB}', [0x94, 0x9C]), 
    ('\u{83B1}', [0x97, 0x89]), ('\u{83B5}', [0xE4, 0xB7]), ('\u{83BD}', [0xE4, 0xCD]), 
    ('\u{83C1}', [0xE4, 0xC5]), ('\u{83C5}', [0x90, 0x9B]), ('\u{83C7}', [0xFB, 0x96]), 
    ('\u{83CA}', [0x8B, 0x65]), ('\u{83CC}', [0x8B, 0xDB]), ('\u{83CE}', [0xE4, 0xC0]), 
    ('\u{83D3}', [0x89, 0xD9]), ('\u{83D6}', [0x8F, 0xD2]), ('\u{83D8}', [0xE4, 0xC3]), 
    ('\u{83DC}', [0x8D, 0xD8]), ('\u{83DF}', [0x93, 0x70]), ('\u{83E0}', [0xE4, 0xC8]), 
    ('\u{83E9}', [0x95, 0xEC]), ('\u{83EB}', [0xE4, 0xBF]), ('\u{83EF}', [0x89, 0xD8]), 
    ('\u{83F0}', [0x8C, 0xD4]), ('\u{83F1}', [0x95, 0x48]), ('\u{83F2}', [0xE4, 0xC9]), 
    ('\u{83F4}', [0xE4, 0xBD]), ('\u{83F6}', [0xFB, 0x97]), ('\u{83F7}', [0xE4, 0xC6]), 
    ('\u{83FB}', [0xE4, 0xD0]), ('\u{83FD}', [0xE4, 0xC1]), ('\u{8403}', [0xE4, 0xC2]), 
    ('\u{8404}', [0x93, 0xB8]), ('\u{8407}', [0xE4, 0xC7]), ('\u{840B}', [0xE4, 0xC4]), 
    ('\u{840C}', [0x96, 0x47]), ('\u{840D}', [0xE4, 0xCA]), ('\u{840E}', [0x88, 0xDE]), 
    ('\u{8413}', [0xE4, 0xBE]), ('\u{8420}', [0xE4, 0xCC]), ('\u{8422}', [0xE4, 0xCB]), 
    ('\u{8429}', [0x94, 0x8B]), ('\u{842A}', [0xE4, 0xD2]), ('\u{842C}', [0xE4, 0xDD]), 
    ('\u{8431}', [0x8A, 0x9E]), ('\u{8435}', [0xE4, 0xE0]), ('\u{8438}', [0xE4, 0xCE]), 
    ('\u{843C}', [0xE4, 0xD3]), ('\u{843D}', [0x97, 0x8E]), ('\u{8446}', [0xE4, 0xDC]), 
    ('\u{8448}', [0xFB, 0x98]), ('\u{8449}', [0x97, 0x74]), ('\u{844E}', [0x97, 0xA8]), 
    ('\u{8457}', [0x92, 0x98]), ('\u{845B}', [0x8A, 0x8B]), ('\u{8461}', [0x95, 0x92]), 
    ('\u{8462}', [0xE4, 0xE2]), ('\u{8463}', [0x93, 0x9F]), ('\u{8466}', [0x88, 0xAF]), 
    ('\u{8469}', [0xE4, 0xDB]), ('\u{846B}', [0xE4, 0xD7]), ('\u{846C}', [0x91, 0x92]), 
    ('\u{846D}', [0xE4, 0xD1]), ('\u{846E}', [0xE4, 0xD9]), ('\u{846F}', [0xE4, 0xDE]), 
    ('\u{8471}', [0x94, 0x4B]), ('\u{8475}', [0x88, 0xA8]), ('\u{8477}', [0xE4, 0xD6]), 
    ('\u{8479}', [0xE4, 0xDF]), ('\u{847A}', [0x95, 0x98]), ('\u{8482}', [0xE4, 0xDA]), 
    ('\u{8484}', [0xE4, 0xD5]), ('\u{848B}', [0x8F, 0xD3]), ('\u{8490}', [0x8F, 0x4E]), 
    ('\u{8494}', [0x8E, 0xAA]), ('\u{8499}', [0x96, 0xD6]), ('\u{849C}', [0x95, 0x66]), 
    ('\u{849F}', [0xE4, 0xE5]), ('\u{84A1}', [0xE4, 0xEE]), ('\u{84AD}', [0xE4, 0xD8]), 
    ('\u{84B2}', [0x8A, 0x97]), ('\u{84B4}', [0xFB, 0x99]), ('\u{84B8}', [0x8F, 0xF6]), 
    ('\u{84B9}', [0xE4, 0xE3]), ('\u{84BB}', [0xE4, 0xE8]), ('\u{84BC}', [0x91, 0x93]), 
    ('\u{84BF}', [0xE4, 0xE4]), ('\u{84C1}', [0xE4, 0xEB]), ('\u{84C4}', [0x92, 0x7E]), 
    ('\u{84C6}', [0xE4, 0xEC]), ('\u{84C9}', [0x97, 0x75]), ('\u{84CA}', [0xE4, 0xE1]), 
    ('\u{84CB}', [0x8A, 0x57]), ('\u{84CD}', [0xE4, 0xE7]), ('\u{84D0}', [0xE4, 0xEA]), 
    ('\u{84D1}', [0x96, 0xAA]), ('\u{84D6}', [0xE4, 0xED]), ('\u{84D9}', [0xE4, 0xE6]), 
    ('\u{84DA}', [0xE4, 0xE9]), ('\u{84DC}', [0xFA, 0x60]), ('\u{84EC}', [0x96, 0x48]), 
    ('\u{84EE}', [0x98, 0x40]), ('\u{84F4}', [0xE4, 0xF1]), ('\u{84FC}', [0xE4, 0xF8]), 
    ('\u{84FF}', [0xE4, 0xF0]), ('\u{8500}', [0x8E, 0xC1]), ('\u{8506}', [0xE4, 0xCF]), 
    ('\u{8511}', [0x95, 0xCC]), ('\u{8513}', [0x96, 0xA0]), ('\u{8514}', [0xE4, 0xF7]), 
    ('\u{8515}', [0xE4, 0xF6]), ('\u{8517}', [0xE4, 0xF2]), ('\u{8518}', [0xE4, 0xF3]), 
    ('\u{851A}', [0x89, 0x55]), ('\u{851F}', [0xE4, 0xF5]), ('\u{8521}', [0xE4, 0xEF]), 
    ('\u{8526}', [0x92, 0xD3]), ('\u{852C}', [0xE4, 0xF4]), ('\u{852D}', [0x88, 0xFC]), 
    ('\u{8535}', [0x91, 0xA0]), ('\u{853D}', [0x95, 0xC1]), ('\u{8540}', [0xE4, 0xF9]), 
    ('\u{8541}', [0xE5, 0x40]), ('\u{8543}', [0x94, 0xD7]), ('\u{8548}', [0xE4, 0xFC]), 
    ('\u{8549}', [0x8F, 0xD4]), ('\u{854A}', [0x8E, 0xC7]), ('\u{854B}', [0xE5, 0x42]), 
    ('\u{854E}', [0x8B, 0xBC]), ('\u{8553}', [0xFB, 0x9A]), ('\u{8555}', [0xE5, 0x43]), 
    ('\u{8557}', [0x95, 0x99]), ('\u{8558}', [0xE4, 0xFB]), ('\u{8559}', [0xFB, 0x9B]), 
    ('\u{855A}', [0xE4, 0xD4]), ('\u{8563}', [0xE4, 0xFA]), ('\u{8568}', [0x98, 0x6E]), 
    ('\u{8569}', [0x93, 0xA0]), ('\u{856A}', [0x95, 0x93]), ('\u{856B}', [0xFB, 0x9C]), 
    ('\u{856D}', [0xE5, 0x4A]), ('\u{8577}', [0xE5, 0x50]), ('\u{857E}', [0xE5, 0x51]), 
    ('\u{8580}', [0xE5, 0x44]), ('\u{8584}', [0x94, 0x96]), ('\u{8587}', [0xE5, 0x4E]), 
    ('\u{8588}', [0xE5, 0x46]), ('\u{858A}', [0xE5, 0x48]), ('\u{8590}', [0xE5, 0x52]), 
    ('\u{8591}', [0xE5, 0x47]), ('\u{8594}', [0xE5, 0x4B]), ('\u{8597}', [0x89, 0x92]), 
    ('\u{8599}', [0x93, 0xE3]), ('\u{859B}', [0xE5, 0x4C]), ('\u{859C}', [0xE5, 0x4F]), 
    ('\u{85A4}', [0xE5, 0x45]), ('\u{85A6}', [0x91, 0x45]), ('\u{85A8}', [0xE5, 0x49]), 
"#

/-- src/generated/whatwg/shiftjis_whatwg_tables.rs.inc:3188-3315 -/
noncomputable def encode14 : List Text := lines! r#"    ('\u{85A9}', [0x8E, 0x46]), ('\u{85AA}', [0x90, 0x64]), ('\u{85AB}', [0x8C, 0x4F]), 
    ('\u{85AC}', [0x96, 0xF2]), ('\u{85AE}', [0x96, 0xF7]), ('\u{85AF}', [0x8F, 0x92]), 
    ('\u{85B0}', [0xFB, 0x9E]), ('\u{85B9}', [0xE5, 0x56]), ('\u{85BA}', [0xE5, 0x54]), 
    ('\u{85C1}', [0x98, 0x6D]), ('\u{85C9}', [0xE5, 0x53]), ('\u{85CD}', [0x97, 0x95]), 
    ('\u{85CF}', [0xE5, 0x55]), ('\u{85D0}', [0xE5, 0x57]), ('\u{85D5}', [0xE5, 0x58]), 
    ('\u{85DC}', [0xE5, 0x5B]), ('\u{85DD}', [0xE5, 0x59]), ('\u{85E4}', [0x93, 0xA1]), 
    ('\u{85E5}', [0xE5, 0x5A]), ('\u{85E9}', [0x94, 0xCB]), ('\u{85EA}', [0xE5, 0x4D]), 
    ('\u{85F7}', [0x8F, 0x93]), ('\u{85F9}', [0xE5, 0x5C]), ('\u{85FA}', [0xE5, 0x61]), 
    ('\u{85FB}', [0x91, 0x94]), ('\u{85FE}', [0xE5, 0x60]), ('\u{8602}', [0xE5, 0x41]), 
    ('\u{8606}', [0xE5, 0x62]), ('\u{8607}', [0x91, 0x68]), ('\u{860A}', [0xE5, 0x5D]), 
    ('\u{860B}', [0xE5, 0x5F]), ('\u{8613}', [0xE5, 0x5E]), ('\u{8616}', [0x9F, 0x50]), 
    ('\u{8617}', [0x9F, 0x41]), ('\u{861A}', [0xE5, 0x64]), ('\u{8622}', [0xE5, 0x63]), 
    ('\u{862D}', [0x97, 0x96]), ('\u{862F}', [0xE1, 0xBA]), ('\u{8630}', [0xE5, 0x65]), 
    ('\u{863F}', [0xE5, 0x66]), ('\u{864D}', [0xE5, 0x67]), ('\u{864E}', [0x8C, 0xD5]), 
    ('\u{8650}', [0x8B, 0x73]), ('\u{8654}', [0xE5, 0x69]), ('\u{8655}', [0x99, 0x7C]), 
    ('\u{865A}', [0x8B, 0x95]), ('\u{865C}', [0x97, 0xB8]), ('\u{865E}', [0x8B, 0xF1]), 
    ('\u{865F}', [0xE5, 0x6A]), ('\u{8667}', [0xE5, 0x6B]), ('\u{866B}', [0x92, 0x8E]), 
    ('\u{8671}', [0xE5, 0x6C]), ('\u{8679}', [0x93, 0xF8]), ('\u{867B}', [0x88, 0xB8]), 
    ('\u{868A}', [0x89, 0xE1]), ('\u{868B}', [0xE5, 0x71]), ('\u{868C}', [0xE5, 0x72]), 
    ('\u{8693}', [0xE5, 0x6D]), ('\u{8695}', [0x8E, 0x5C]), ('\u{86A3}', [0xE5, 0x6E]), 
    ('\u{86A4}', [0x94, 0x61]), ('\u{86A9}', [0xE5, 0x6F]), ('\u{86AA}', [0xE5, 0x70]), 
    ('\u{86AB}', [0xE5, 0x7A]), ('\u{86AF}', [0xE5, 0x74]), ('\u{86B0}', [0xE5, 0x77]), 
    ('\u{86B6}', [0xE5, 0x73]), ('\u{86C4}', [0xE5, 0x75]), ('\u{86C6}', [0xE5, 0x76]), 
    ('\u{86C7}', [0x8E, 0xD6]), ('\u{86C9}', [0xE5, 0x78]), ('\u{86CB}', [0x92, 0x60]), 
    ('\u{86CD}', [0x8C, 0x75]), ('\u{86CE}', [0x8A, 0x61]), ('\u{86D4}', [0xE5, 0x7B]), 
    ('\u{86D9}', [0x8A, 0x5E]), ('\u{86DB}', [0xE5, 0x81]), ('\u{86DE}', [0xE5, 0x7C]), 
    ('\u{86DF}', [0xE5, 0x80]), ('\u{86E4}', [0x94, 0xB8]), ('\u{86E9}', [0xE5, 0x7D]), 
    ('\u{86EC}', [0xE5, 0x7E]), ('\u{86ED}', [0x95, 0x67]), ('\u{86EE}', [0x94, 0xD8]), 
    ('\u{86EF}', [0xE5, 0x82]), ('\u{86F8}', [0x91, 0xFB]), ('\u{86F9}', [0xE5, 0x8C]), 
    ('\u{86FB}', [0xE5, 0x88]), ('\u{86FE}', [0x89, 0xE9]), ('\u{8700}', [0xE5, 0x86]), 
    ('\u{8702}', [0x96, 0x49]), ('\u{8703}', [0xE5, 0x87]), ('\u{8706}', [0xE5, 0x84]), 
    ('\u{8708}', [0xE5, 0x85]), ('\u{8709}', [0xE5, 0x8A]), ('\u{870A}', [0xE5, 0x8D]), 
    ('\u{870D}', [0xE5, 0x8B]), ('\u{8711}', [0xE5, 0x89]), ('\u{8712}', [0xE5, 0x83]), 
    ('\u{8718}', [0x92, 0x77]), ('\u{871A}', [0xE5, 0x94]), ('\u{871C}', [0x96, 0xA8]), 
    ('\u{8725}', [0xE5, 0x92]), ('\u{8729}', [0xE5, 0x93]), ('\u{8734}', [0xE5, 0x8E]), 
    ('\u{8737}', [0xE5, 0x90]), ('\u{873B}', [0xE5, 0x91]), ('\u{873F}', [0xE5, 0x8F]), 
    ('\u{8749}', [0x90, 0xE4]), ('\u{874B}', [0x98, 0x58]), ('\u{874C}', [0xE5, 0x98]), 
    ('\u{874E}', [0xE5, 0x99]), ('\u{8753}', [0xE5, 0x9F]), ('\u{8755}', [0x90, 0x49]), 
    ('\u{8757}', [0xE5, 0x9B]), ('\u{8759}', [0xE5, 0x9E]), ('\u{875F}', [0xE5, 0x96]), 
    ('\u{8760}', [0xE5, 0x95]), ('\u{8763}', [0xE5, 0xA0]), ('\u{8766}', [0x89, 0xDA]), 
    ('\u{8768}', [0xE5, 0x9C]), ('\u{876A}', [0xE5, 0xA1]), ('\u{876E}', [0xE5, 0x9D]), 
    ('\u{8774}', [0xE5, 0x9A]), ('\u{8776}', [0x92, 0xB1]), ('\u{8778}', [0xE5, 0x97]), 
    ('\u{877F}', [0x94, 0x88]), ('\u{8782}', [0xE5, 0xA5]), ('\u{878D}', [0x97, 0x5A]), 
    ('\u{879F}', [0xE5, 0xA4]), ('\u{87A2}', [0xE5, 0xA3]), ('\u{87AB}', [0xE5, 0xAC]), 
    ('\u{87AF}', [0xE5, 0xA6]), ('\u{87B3}', [0xE5, 0xAE]), ('\u{87BA}', [0x97, 0x86]), 
    ('\u{87BB}', [0xE5, 0xB1]), ('\u{87BD}', [0xE5, 0xA8]), ('\u{87C0}', [0xE5, 0xA9]), 
    ('\u{87C4}', [0xE5, 0xAD]), ('\u{87C6}', [0xE5, 0xB0]), ('\u{87C7}', [0xE5, 0xAF]), 
    ('\u{87CB}', [0xE5, 0xA7]), ('\u{87D0}', [0xE5, 0xAA]), ('\u{87D2}', [0xE5, 0xBB]), 
    ('\u{87E0}', [0xE5, 0xB4]), ('\u{87EF}', [0xE5, 0xB2]), ('\u{87F2}', [0xE5, 0xB3]), 
    ('\u{87F6}', [0xE5, 0xB8]), ('\u{87F7}', [0xE5, 0xB9]), ('\u{87F9}', [0x8A, 0x49]), 
    ('\u{87FB}', [0x8B, 0x61]), ('\u{87FE}', [0xE5, 0xB7]), ('\u{8805}', [0xE5, 0xA2]), 
    ('\u{8807}', [0xFB, 0xA1]), ('\u{880D}', [0xE5, 0xB6]), ('\u{880E}', [0xE5, 0xBA]), 
    ('\u{880F}', [0xE5, 0xB5]), ('\u{8811}', [0xE5, 0xBC]), ('\u{8815}', [0xE5, 0xBE]), 
    ('\u{8816}', [0xE5, 0xBD]), ('\u{8821}', [0xE5, 0xC0]), ('\u{8822}', [0xE5, 0xBF]), 
    ('\u{8823}', [0xE5, 0x79]), ('\u{8827}', [0xE5, 0xC4]), ('\u{8831}', [0xE5, 0xC1]), 
    ('\u{8836}', [0xE5, 0xC2]), ('\u{8839}', [0xE5, 0xC3]), ('\u{883B}', [0xE5, 0xC5]), 
    ('\u{8840}', [0x8C, 0x8C]), ('\u{8842}', [0xE5, 0xC7]), ('\u{8844}', [0xE5, 0xC6]), 
    ('\u{8846}', [0x8F, 0x4F]), ('\u{884C}', [0x8D, 0x73]), ('\u{884D}', [0x9F, 0xA5]), 
    ('\u{8852}', [0xE5, 0xC8]), ('\u{8853}', [0x8F, 0x70]), ('\u{8857}', [0x8A, 0x58]), 
    ('\u{8859}', [0xE5, 0xC9]), ('\u{885B}', [0x89, 0x71]), ('\u{885D}', [0x8F, 0xD5]), 
    ('\u{885E}', [0xE5, 0xCA]), ('\u{8861}', [0x8D, 0x74]), ('\u{8862}', [0xE5, 0xCB]), 
    ('\u{8863}', [0x88, 0xDF]), ('\u{8868}', [0x95, 0x5C]), ('\u{886B}', [0xE5, 0xCC]), 
    ('\u{8870}', [0x90, 0x8A]), ('\u{8872}', [0xE5, 0xD3]), ('\u{8875}', [0xE5, 0xD0]), 
    ('\u{8877}', [0x92, 0x8F]), ('\u{887D}', [0xE5, 0xD1]), ('\u{887E}', [0xE5, 0xCE]), 
    ('\u{887F}', [0x8B, 0xDC]), ('\u{8881}', [0xE5, 0xCD]), ('\u{8882}', [0xE5, 0xD4]), 
    ('\u{8888}', [0x8C, 0x55]), ('\u{888B}', [0x91, 0xDC]), ('\u{888D}', [0xE5, 0xDA]), 
    ('\u{8892}', [0xE5, 0xD6]), ('\u{8896}', [0x91, 0xB3]), ('\u{8897}', [0xE5, 0xD5]), 
    ('\u{8899}', [0xE5, 0xD8]), ('\u{889E}', [0xE5, 0xCF]), ('\u{88A2}', [0xE5, 0xD9]), 
    ('\u{88A4}', [0xE5, 0xDB]), ('\u{88AB}', [0x94, 0xED]), ('\u{88AE}', [0xE5, 0xD7]), 
    ('\u{88B0}', [0xE5, 0xDC]), ('\u{88B1}', [0xE5, 0xDE]), ('\u{88B4}', [0x8C, 0xD1]), 
    ('\u{88B5}', [0xE5, 0xD2]), ('\u{88B7}', [0x88, 0xBF]), ('\u{88BF}', [0xE5, 0xDD]), 
    ('\u{88C1}', [0x8D, 0xD9]), ('\u{88C2}', [0x97, 0xF4]), ('\u{88C3}', [0xE5, 0xDF]), 
    ('\u{88C4}', [0xE5, 0xE0]), ('\u{88C5}', [0x91, 0x95]), ('\u{88CF}', [0x97, 0xA0]), 
    ('\u{88D4}', [0xE5, 0xE1]), ('\u{88D5}', [0x97, 0x54]), ('\u{88D8}', [0xE5, 0xE2]), 
    ('\u{88D9}', [0xE5, 0xE3]), ('\u{88DC}', [0x95, 0xE2]), ('\u{88DD}', [0xE5, 0xE4]), 
    ('\u{88DF}', [0x8D, 0xBE]), ('\u{88E1}', [0x97, 0xA1]), ('\u{88E8}', [0xE5, 0xE9]), 
    ('\u{88F2}', [0xE5, 0xEA]), ('\u{88F3}', [0x8F, 0xD6]), ('\u{88F4}', [0xE5, 0xE8]), 
    ('\u{88F5}', [0xFB, 0xA2]), ('\u{88F8}', [0x97, 0x87]), ('\u{88F9}', [0xE5, 0xE5]), 
    ('\u{88FC}', [0xE5, 0xE7]), ('\u{88FD}', [0x90, 0xBB]), ('\u{88FE}', [0x90, 0x9E]), 
    ('\u{8902}', [0xE5, 0xE6]), ('\u{8904}', [0xE5, 0xEB]), ('\u{8907}', [0x95, 0xA1]), 
    ('\u{890A}', [0xE5, 0xED]), ('\u{890C}', [0xE5, 0xEC]), ('\u{8910}', [0x8A, 0x8C]), 
    ('\u{8912}', [0x96, 0x4A]), ('\u{8913}', [0xE5, 0xEE]), ('\u{891C}', [0xFA, 0x5D]), 
    ('\u{891D}', [0xE5, 0xFA]), ('\u{891E}', [0xE5, 0xF0]), ('\u{8925}', [0xE5, 0xF1]), 
    ('\u{892A}', [0xE5, 0xF2]), ('\u{892B}', [0xE5, 0xF3]), ('\u{8936}', [0xE5, 0xF7]), 
    ('\u{8938}', [0xE5, 0xF8]), ('\u{893B}', [0xE5, 0xF6]), ('\u{8941}', [0xE5, 0xF4]), 
    ('\u{8943}', [0xE5, 0xEF]), ('\u{8944}', [0xE5, 0xF5]), ('\u{894C}', [0xE5, 0xF9]), 
    ('\u{894D}', [0xE8, 0xB5]), ('\u{8956}', [0x89, 0xA6]), ('\u{895E}', [0xE5, 0xFC]), 
    ('\u{895F}', [0x8B, 0xDD]), ('\u{8960}', [0xE5, 0xFB]), ('\u{8964}', [0xE6, 0x41]), 
    ('\u{8966}', [0xE6, 0x40]), ('\u{896A}', [0xE6, 0x43]), ('\u{896D}', [0xE6, 0x42]), 
    ('\u{896F}', [0xE6, 0x44]), ('\u{8972}', [0x8F, 0x50]), ('\u{8974}', [0xE6, 0x45]), 
    ('\u{8977}', [0xE6, 0x46]), ('\u{897E}', [0xE6, 0x47]), ('\u{897F}', [0x90, 0xBC]), 
    ('\u{8981}', [0x97, 0x76]), ('\u{8983}', [0xE6, 0x48]), ('\u{8986}', [0x95, 0xA2]), 
    ('\u{8987}', [0x94, 0x65]), ('\u{8988}', [0xE6, 0x49]), ('\u{898A}', [0xE6, 0x4A]), 
    ('\u{898B}', [0x8C, 0xA9]), ('\u{898F}', [0x8B, 0x4B]), ('\u{8993}', [0xE6, 0x4B]), 
    ('\u{8996}', [0x8E, 0x8B]), ('\u{8997}', [0x94, 0x60]), ('\u{8998}', [0xE6, 0x4C]), 
    ('\u{899A}', [0x8A, 0x6F]), ('\u{89A1}', [0xE6, 0x4D]), ('\u{89A6}', [0xE6, 0x4F]), 
    ('\u{89A7}', [0x97, 0x97]), ('\u{89A9}', [0xE6, 0x4E]), ('\u{89AA}', [0x90, 0x65]), 
    ('\u{89AC}', [0xE6, 0x50]), ('\u{89AF}', [0xE6, 0x51]), ('\u{89B2}', [0xE6, 0x52]), 
    ('\u{89B3}', [0x8A, 0xCF]), ('\u{89BA}', [0xE6, 0x53]), ('\u{89BD}', [0xE6, 0x54]), 
    ('\u{89BF}', [0xE6, 0x55]), ('\u{89C0}', [0xE6, 0x56]), ('\u{89D2}', [0x8A, 0x70]), 
    ('\u{89DA}', [0xE6, 0x57]), ('\u{89DC}', [0xE6, 0x58]), ('\u{89DD}', [0xE6, 0x59]), 
    ('\u{89E3}', [0x89, 0xF0]), ('\u{89E6}', [0x90, 0x47]), ('\u{89E7}', [0xE6, 0x5A]), 
    ('\u{89F4}', [0xE6, 0x5B]), ('\u{89F8}', [0xE6, 0x5C]), ('\u{8A00}', [0x8C, 0xBE]), 
    ('\u{8A02}', [0x92, 0xF9]), ('\u{8A03}', [0xE6, 0x5D]), ('\u{8A08}', [0x8C, 0x76]), 
    ('\u{8A0A}', [0x90, 0x75]), ('\u{8A0C}', [0xE6, 0x60]), ('\u{8A0E}', [0x93, 0xA2]), 
    ('\u{8A10}', [0xE6, 0x5F]), ('\u{8A12}', [0xFB, 0xA3]), ('\u{8A13}', [0x8C, 0x50]), 
    ('\u{8A16}', [0xE6, 0x5E]), ('\u{8A17}', [0x91, 0xF5]), ('\u{8A18}', [0x8B, 0x4C]), 
    ('\u{8A1B}', [0xE6, 0x61]), ('\u{8A1D}', [0xE6, 0x62]), ('\u{8A1F}', [0x8F, 0xD7]), 
    ('\u{8A23}', [0x8C, 0x8D]), ('\u{8A25}', [0xE6, 0x63]), ('\u{8A2A}', [0x96, 0x4B]), 
    ('\u{8A2D}', [0x90, 0xDD]), ('\u{8A31}', [0x8B, 0x96]), ('\u{8A33}', [0x96, 0xF3]), 
    ('\u{8A34}', [0x91, 0x69]), ('\u{8A36}', [0xE6, 0x64]), ('\u{8A37}', [0xFB, 0xA4]), 
    ('\u{8A3A}', [0x90, 0x66]), ('\u{8A3B}', [0x92, 0x90]), ('\u{8A3C}', [0x8F, 0xD8]), 
    ('\u{8A41}', [0xE6, 0x65]), ('\u{8A46}', [0xE6, 0x68]), ('\u{8A48}', [0xE6, 0x69]), 
    ('\u{8A50}', [0x8D, 0xBC]), ('\u{8A51}', [0x91, 0xC0]), ('\u{8A52}', [0xE6, 0x67]), 
    ('\u{8A54}', [0x8F, 0xD9]), ('\u{8A55}', [0x95, 0x5D]), ('\u{8A5B}', [0xE6, 0x66]), 
    ('\u{8A5E}', [0x8E, 0x8C]), ('\u{8A60}', [0x89, 0x72]), ('\u{8A62}', [0xE6, 0x6D]), 
    ('\u{8A63}', [0x8C, 0x77]), ('\u{8A66}', [0x8E, 0x8E]), ('\u{8A69}', [0x8E, 0x8D]), 
    ('\u{8A6B}', [0x98, 0x6C]), ('\u{8A6C}', [0xE6, 0x6C]), ('\u{8A6D}', [0xE6, 0x6B]), 
    ('\u{8A6E}', [0x91, 0x46]), ('\u{8A70}', [0x8B, 0x6C]), ('\u{8A71}', [0x98, 0x62]), 
    ('\u{8A72}', [0x8A, 0x59]), ('\u{8A73}', [0x8F, 0xDA]), ('\u{8A79}', [0xFB, 0xA5]), 
    ('\u{8A7C}', [0xE6, 0x6A]), ('\u{8A82}', [0xE6, 0x6F]), ('\u{8A84}', [0xE6, 0x70]), 
    ('\u{8A85}', [0xE6, 0x6E]), ('\u{8A87}', [0x8C, 0xD6]), ('\u{8A89}', [0x97, 0x5F]), 
    ('\u{8A8C}', [0x8E, 0x8F]), ('\u{8A8D}', [0x94, 0x46]), ('\u{8A91}', [0xE6, 0x73]), 
    ('\u{8A93}', [0x90, 0xBE]), ('\u{8A95}', [0x92, 0x61]), ('\u{8A98}', [0x97, 0x55]), 
    ('\u{8A9A}', [0xE6, 0x76]), ('\u{8A9E}', [0x8C, 0xEA]), ('\u{8AA0}', [0x90, 0xBD]), 
    ('\u{8AA1}', [0xE6, 0x72]), ('\u{8AA3}', [0xE6, 0x77]), ('\u{8AA4}', [0x8C, 0xEB]), 
    ('\u{8AA5}', [0xE6, 0x74]), ('\u{8AA6}', [0xE6, 0x75]), ('\u{8AA7}', [0xFB, 0xA6]), 
    ('\u{8AA8}', [0xE6, 0x71]), ('\u{8AAC}', [0x90, 0xE0]), ('\u{8AAD}', [0x93, 0xC7]), 
"#

/-- src/generated/whatwg/shiftjis_whatwg_tables.rs.inc:3316-3443 -/
noncomputable def encode15 : List Text := lines! r#"    ('\u{8AB0}', [0x92, 0x4E]), ('\u{8AB2}', [0x89, 0xDB]), ('\u{8AB9}', [0x94, 0xEE]), 
    ('\u{8ABC}', [0x8B, 0x62]), ('\u{8ABE}', [0xFB, 0xA7]), ('\u{8ABF}', [0x92, 0xB2]), 
    ('\u{8AC2}', [0xE6, 0x7A]), ('\u{8AC4}', [0xE6, 0x78]), ('\u{8AC7}', [0x92, 0x6B]), 
    ('\u{8ACB}', [0x90, 0xBF]), ('\u{8ACC}', [0x8A, 0xD0]), ('\u{8ACD}', [0xE6, 0x79]), 
    ('\u{8ACF}', [0x90, 0x7A]), ('\u{8AD2}', [0x97, 0xC8]), ('\u{8AD6}', [0x98, 0x5F]), 
    ('\u{8ADA}', [0xE6, 0x7B]), ('\u{8ADB}', [0xE6, 0x87]), ('\u{8ADC}', [0x92, 0xB3]), 
    ('\u{8ADE}', [0xE6, 0x86]), ('\u{8ADF}', [0xFB, 0xA8]), ('\u{8AE0}', [0xE6, 0x83]), 
    ('\u{8AE1}', [0xE6, 0x8B]), ('\u{8AE2}', [0xE6, 0x84]), ('\u{8AE4}', [0xE6, 0x80]), 
    ('\u{8AE6}', [0x92, 0xFA]), ('\u{8AE7}', [0xE6, 0x7E]), ('\u{8AEB}', [0xE6, 0x7C]), 
    ('\u{8AED}', [0x97, 0x40]), ('\u{8AEE}', [0x8E, 0x90]), ('\u{8AF1}', [0xE6, 0x81]), 
    ('\u{8AF3}', [0xE6, 0x7D]), ('\u{8AF6}', [0xFB, 0xAA]), ('\u{8AF7}', [0xE6, 0x85]), 
    ('\u{8AF8}', [0x8F, 0x94]), ('\u{8AFA}', [0x8C, 0xBF]), ('\u{8AFE}', [0x91, 0xF8]), 
    ('\u{8B00}', [0x96, 0x64]), ('\u{8B01}', [0x89, 0x79]), ('\u{8B02}', [0x88, 0xE0]), 
    ('\u{8B04}', [0x93, 0xA3]), ('\u{8B07}', [0xE6, 0x89]), ('\u{8B0C}', [0xE6, 0x88]), 
    ('\u{8B0E}', [0x93, 0xE4]), ('\u{8B10}', [0xE6, 0x8D]), ('\u{8B14}', [0xE6, 0x82]), 
    ('\u{8B16}', [0xE6, 0x8C]), ('\u{8B17}', [0xE6, 0x8E]), ('\u{8B19}', [0x8C, 0xAA]), 
    ('\u{8B1A}', [0xE6, 0x8A]), ('\u{8B1B}', [0x8D, 0x75]), ('\u{8B1D}', [0x8E, 0xD3]), 
    ('\u{8B20}', [0xE6, 0x8F]), ('\u{8B21}', [0x97, 0x77]), ('\u{8B26}', [0xE6, 0x92]), 
    ('\u{8B28}', [0xE6, 0x95]), ('\u{8B2B}', [0xE6, 0x93]), ('\u{8B2C}', [0x95, 0x54]), 
    ('\u{8B33}', [0xE6, 0x90]), ('\u{8B39}', [0x8B, 0xDE]), ('\u{8B3E}', [0xE6, 0x94]), 
    ('\u{8B41}', [0xE6, 0x96]), ('\u{8B49}', [0xE6, 0x9A]), ('\u{8B4C}', [0xE6, 0x97]), 
    ('\u{8B4E}', [0xE6, 0x99]), ('\u{8B4F}', [0xE6, 0x98]), ('\u{8B53}', [0xFB, 0xAB]), 
    ('\u{8B56}', [0xE6, 0x9B]), ('\u{8B58}', [0x8E, 0xAF]), ('\u{8B5A}', [0xE6, 0x9D]), 
    ('\u{8B5B}', [0xE6, 0x9C]), ('\u{8B5C}', [0x95, 0x88]), ('\u{8B5F}', [0xE6, 0x9F]), 
    ('\u{8B66}', [0x8C, 0x78]), ('\u{8B6B}', [0xE6, 0x9E]), ('\u{8B6C}', [0xE6, 0xA0]), 
    ('\u{8B6F}', [0xE6, 0xA1]), ('\u{8B70}', [0x8B, 0x63]), ('\u{8B71}', [0xE3, 0xBF]), 
    ('\u{8B72}', [0x8F, 0xF7]), ('\u{8B74}', [0xE6, 0xA2]), ('\u{8B77}', [0x8C, 0xEC]), 
    ('\u{8B7D}', [0xE6, 0xA3]), ('\u{8B7F}', [0xFB, 0xAC]), ('\u{8B80}', [0xE6, 0xA4]), 
    ('\u{8B83}', [0x8E, 0x5D]), ('\u{8B8A}', [0x9D, 0xCC]), ('\u{8B8C}', [0xE6, 0xA5]), 
    ('\u{8B8E}', [0xE6, 0xA6]), ('\u{8B90}', [0x8F, 0x51]), ('\u{8B92}', [0xE6, 0xA7]), 
    ('\u{8B93}', [0xE6, 0xA8]), ('\u{8B96}', [0xE6, 0xA9]), ('\u{8B99}', [0xE6, 0xAA]), 
    ('\u{8B9A}', [0xE6, 0xAB]), ('\u{8C37}', [0x92, 0x4A]), ('\u{8C3A}', [0xE6, 0xAC]), 
    ('\u{8C3F}', [0xE6, 0xAE]), ('\u{8C41}', [0xE6, 0xAD]), ('\u{8C46}', [0x93, 0xA4]), 
    ('\u{8C48}', [0xE6, 0xAF]), ('\u{8C4A}', [0x96, 0x4C]), ('\u{8C4C}', [0xE6, 0xB0]), 
    ('\u{8C4E}', [0xE6, 0xB1]), ('\u{8C50}', [0xE6, 0xB2]), ('\u{8C55}', [0xE6, 0xB3]), 
    ('\u{8C5A}', [0x93, 0xD8]), ('\u{8C61}', [0x8F, 0xDB]), ('\u{8C62}', [0xE6, 0xB4]), 
    ('\u{8C6A}', [0x8D, 0x8B]), ('\u{8C6B}', [0x98, 0xAC]), ('\u{8C6C}', [0xE6, 0xB5]), 
    ('\u{8C78}', [0xE6, 0xB6]), ('\u{8C79}', [0x95, 0x5E]), ('\u{8C7A}', [0xE6, 0xB7]), 
    ('\u{8C7C}', [0xE6, 0xBF]), ('\u{8C82}', [0xE6, 0xB8]), ('\u{8C85}', [0xE6, 0xBA]), 
    ('\u{8C89}', [0xE6, 0xB9]), ('\u{8C8A}', [0xE6, 0xBB]), ('\u{8C8C}', [0x96, 0x65]), 
    ('\u{8C8D}', [0xE6, 0xBC]), ('\u{8C8E}', [0xE6, 0xBD]), ('\u{8C94}', [0xE6, 0xBE]), 
    ('\u{8C98}', [0xE6, 0xC0]), ('\u{8C9D}', [0x8A, 0x4C]), ('\u{8C9E}', [0x92, 0xE5]), 
    ('\u{8CA0}', [0x95, 0x89]), ('\u{8CA1}', [0x8D, 0xE0]), ('\u{8CA2}', [0x8D, 0x76]), 
    ('\u{8CA7}', [0x95, 0x6E]), ('\u{8CA8}', [0x89, 0xDD]), ('\u{8CA9}', [0x94, 0xCC]), 
    ('\u{8CAA}', [0xE6, 0xC3]), ('\u{8CAB}', [0x8A, 0xD1]), ('\u{8CAC}', [0x90, 0xD3]), 
    ('\u{8CAD}', [0xE6, 0xC2]), ('\u{8CAE}', [0xE6, 0xC7]), ('\u{8CAF}', [0x92, 0x99]), 
    ('\u{8CB0}', [0x96, 0xE1]), ('\u{8CB2}', [0xE6, 0xC5]), ('\u{8CB3}', [0xE6, 0xC6]), 
    ('\u{8CB4}', [0x8B, 0x4D]), ('\u{8CB6}', [0xE6, 0xC8]), ('\u{8CB7}', [0x94, 0x83]), 
    ('\u{8CB8}', [0x91, 0xDD]), ('\u{8CBB}', [0x94, 0xEF]), ('\u{8CBC}', [0x93, 0x5C]), 
    ('\u{8CBD}', [0xE6, 0xC4]), ('\u{8CBF}', [0x96, 0x66]), ('\u{8CC0}', [0x89, 0xEA]), 
    ('\u{8CC1}', [0xE6, 0xCA]), ('\u{8CC2}', [0x98, 0x47]), ('\u{8CC3}', [0x92, 0xC0]), 
    ('\u{8CC4}', [0x98, 0x64]), ('\u{8CC7}', [0x8E, 0x91]), ('\u{8CC8}', [0xE6, 0xC9]), 
    ('\u{8CCA}', [0x91, 0xAF]), ('\u{8CCD}', [0xE6, 0xDA]), ('\u{8CCE}', [0x91, 0x47]), 
    ('\u{8CD1}', [0x93, 0xF6]), ('\u{8CD3}', [0x95, 0x6F]), ('\u{8CDA}', [0xE6, 0xCD]), 
    ('\u{8CDB}', [0x8E, 0x5E]), ('\u{8CDC}', [0x8E, 0x92]), ('\u{8CDE}', [0x8F, 0xDC]), 
    ('\u{8CE0}', [0x94, 0x85]), ('\u{8CE2}', [0x8C, 0xAB]), ('\u{8CE3}', [0xE6, 0xCC]), 
    ('\u{8CE4}', [0xE6, 0xCB]), ('\u{8CE6}', [0x95, 0x8A]), ('\u{8CEA}', [0x8E, 0xBF]), 
    ('\u{8CED}', [0x93, 0x71]), ('\u{8CF0}', [0xFB, 0xAD]), ('\u{8CF4}', [0xFB, 0xAE]), 
    ('\u{8CFA}', [0xE6, 0xCF]), ('\u{8CFB}', [0xE6, 0xD0]), ('\u{8CFC}', [0x8D, 0x77]), 
    ('\u{8CFD}', [0xE6, 0xCE]), ('\u{8D04}', [0xE6, 0xD1]), ('\u{8D05}', [0xE6, 0xD2]), 
    ('\u{8D07}', [0xE6, 0xD4]), ('\u{8D08}', [0x91, 0xA1]), ('\u{8D0A}', [0xE6, 0xD3]), 
    ('\u{8D0B}', [0x8A, 0xE4]), ('\u{8D0D}', [0xE6, 0xD6]), ('\u{8D0F}', [0xE6, 0xD5]), 
    ('\u{8D10}', [0xE6, 0xD7]), ('\u{8D12}', [0xFB, 0xAF]), ('\u{8D13}', [0xE6, 0xD9]), 
    ('\u{8D14}', [0xE6, 0xDB]), ('\u{8D16}', [0xE6, 0xDC]), ('\u{8D64}', [0x90, 0xD4]), 
    ('\u{8D66}', [0x8E, 0xCD]), ('\u{8D67}', [0xE6, 0xDD]), ('\u{8D6B}', [0x8A, 0x71]), 
    ('\u{8D6D}', [0xE6, 0xDE]), ('\u{8D70}', [0x91, 0x96]), ('\u{8D71}', [0xE6, 0xDF]), 
    ('\u{8D73}', [0xE6, 0xE0]), ('\u{8D74}', [0x95, 0x8B]), ('\u{8D76}', [0xFB, 0xB0]), 
    ('\u{8D77}', [0x8B, 0x4E]), ('\u{8D81}', [0xE6, 0xE1]), ('\u{8D85}', [0x92, 0xB4]), 
    ('\u{8D8A}', [0x89, 0x7A]), ('\u{8D99}', [0xE6, 0xE2]), ('\u{8DA3}', [0x8E, 0xEF]), 
    ('\u{8DA8}', [0x90, 0x96]), ('\u{8DB3}', [0x91, 0xAB]), ('\u{8DBA}', [0xE6, 0xE5]), 
    ('\u{8DBE}', [0xE6, 0xE4]), ('\u{8DC2}', [0xE6, 0xE3]), ('\u{8DCB}', [0xE6, 0xEB]), 
    ('\u{8DCC}', [0xE6, 0xE9]), ('\u{8DCF}', [0xE6, 0xE6]), ('\u{8DD6}', [0xE6, 0xE8]), 
    ('\u{8DDA}', [0xE6, 0xE7]), ('\u{8DDB}', [0xE6, 0xEA]), ('\u{8DDD}', [0x8B, 0x97]), 
    ('\u{8DDF}', [0xE6, 0xEE]), ('\u{8DE1}', [0x90, 0xD5]), ('\u{8DE3}', [0xE6, 0xEF]), 
    ('\u{8DE8}', [0x8C, 0xD7]), ('\u{8DEA}', [0xE6, 0xEC]), ('\u{8DEB}', [0xE6, 0xED]), 
    ('\u{8DEF}', [0x98, 0x48]), ('\u{8DF3}', [0x92, 0xB5]), ('\u{8DF5}', [0x91, 0x48]), 
    ('\u{8DFC}', [0xE6, 0xF0]), ('\u{8DFF}', [0xE6, 0xF3]), ('\u{8E08}', [0xE6, 0xF1]), 
    ('\u{8E09}', [0xE6, 0xF2]), ('\u{8E0A}', [0x97, 0x78]), ('\u{8E0F}', [0x93, 0xA5]), 
    ('\u{8E10}', [0xE6, 0xF6]), ('\u{8E1D}', [0xE6, 0xF4]), ('\u{8E1E}', [0xE6, 0xF5]), 
    ('\u{8E1F}', [0xE6, 0xF7]), ('\u{8E2A}', [0xE7, 0x48]), ('\u{8E30}', [0xE6, 0xFA]), 
    ('\u{8E34}', [0xE6, 0xFB]), ('\u{8E35}', [0xE6, 0xF9]), ('\u{8E42}', [0xE6, 0xF8]), 
    ('\u{8E44}', [0x92, 0xFB]), ('\u{8E47}', [0xE7, 0x40]), ('\u{8E48}', [0xE7, 0x44]), 
    ('\u{8E49}', [0xE7, 0x41]), ('\u{8E4A}', [0xE6, 0xFC]), ('\u{8E4C}', [0xE7, 0x42]), 
    ('\u{8E50}', [0xE7, 0x43]), ('\u{8E55}', [0xE7, 0x4A]), ('\u{8E59}', [0xE7, 0x45]), 
    ('\u{8E5F}', [0x90, 0xD6]), ('\u{8E60}', [0xE7, 0x47]), ('\u{8E63}', [0xE7, 0x49]), 
    ('\u{8E64}', [0xE7, 0x46]), ('\u{8E72}', [0xE7, 0x4C]), ('\u{8E74}', [0x8F, 0x52]), 
    ('\u{8E76}', [0xE7, 0x4B]), ('\u{8E7C}', [0xE7, 0x4D]), ('\u{8E81}', [0xE7, 0x4E]), 
    ('\u{8E84}', [0xE7, 0x51]), ('\u{8E85}', [0xE7, 0x50]), ('\u{8E87}', [0xE7, 0x4F]), 
    ('\u{8E8A}', [0xE7, 0x53]), ('\u{8E8B}', [0xE7, 0x52]), ('\u{8E8D}', [0x96, 0xF4]), 
    ('\u{8E91}', [0xE7, 0x55]), ('\u{8E93}', [0xE7, 0x54]), ('\u{8E94}', [0xE7, 0x56]), 
    ('\u{8E99}', [0xE7, 0x57]), ('\u{8EA1}', [0xE7, 0x59]), ('\u{8EAA}', [0xE7, 0x58]), 
    ('\u{8EAB}', [0x90, 0x67]), ('\u{8EAC}', [0xE7, 0x5A]), ('\u{8EAF}', [0x8B, 0xEB]), 
    ('\u{8EB0}', [0xE7, 0x5B]), ('\u{8EB1}', [0xE7, 0x5D]), ('\u{8EBE}', [0xE7, 0x5E]), 
    ('\u{8EC5}', [0xE7, 0x5F]), ('\u{8EC6}', [0xE7, 0x5C]), ('\u{8EC8}', [0xE7, 0x60]), 
    ('\u{8ECA}', [0x8E, 0xD4]), ('\u{8ECB}', [0xE7, 0x61]), ('\u{8ECC}', [0x8B, 0x4F]), 
    ('\u{8ECD}', [0x8C, 0x52]), ('\u{8ECF}', [0xFB, 0xB2]), ('\u{8ED2}', [0x8C, 0xAC]), 
    ('\u{8EDB}', [0xE7, 0x62]), ('\u{8EDF}', [0x93, 0xEE]), ('\u{8EE2}', [0x93, 0x5D]), 
    ('\u{8EE3}', [0xE7, 0x63]), ('\u{8EEB}', [0xE7, 0x66]), ('\u{8EF8}', [0x8E, 0xB2]), 
    ('\u{8EFB}', [0xE7, 0x65]), ('\u{8EFC}', [0xE7, 0x64]), ('\u{8EFD}', [0x8C, 0x79]), 
    ('\u{8EFE}', [0xE7, 0x67]), ('\u{8F03}', [0x8A, 0x72]), ('\u{8F05}', [0xE7, 0x69]), 
    ('\u{8F09}', [0x8D, 0xDA]), ('\u{8F0A}', [0xE7, 0x68]), ('\u{8F0C}', [0xE7, 0x71]), 
    ('\u{8F12}', [0xE7, 0x6B]), ('\u{8F13}', [0xE7, 0x6D]), ('\u{8F14}', [0x95, 0xE3]), 
    ('\u{8F15}', [0xE7, 0x6A]), ('\u{8F19}', [0xE7, 0x6C]), ('\u{8F1B}', [0xE7, 0x70]), 
    ('\u{8F1C}', [0xE7, 0x6E]), ('\u{8F1D}', [0x8B, 0x50]), ('\u{8F1F}', [0xE7, 0x6F]), 
    ('\u{8F26}', [0xE7, 0x72]), ('\u{8F29}', [0x94, 0x79]), ('\u{8F2A}', [0x97, 0xD6]), 
    ('\u{8F2F}', [0x8F, 0x53]), ('\u{8F33}', [0xE7, 0x73]), ('\u{8F38}', [0x97, 0x41]), 
    ('\u{8F39}', [0xE7, 0x75]), ('\u{8F3B}', [0xE7, 0x74]), ('\u{8F3E}', [0xE7, 0x78]), 
    ('\u{8F3F}', [0x97, 0x60]), ('\u{8F42}', [0xE7, 0x77]), ('\u{8F44}', [0x8A, 0x8D]), 
    ('\u{8F45}', [0xE7, 0x76]), ('\u{8F46}', [0xE7, 0x7B]), ('\u{8F49}', [0xE7, 0x7A]), 
    ('\u{8F4C}', [0xE7, 0x79]), ('\u{8F4D}', [0x93, 0x51]), ('\u{8F4E}', [0xE7, 0x7C]), 
    ('\u{8F57}', [0xE7, 0x7D]), ('\u{8F5C}', [0xE7, 0x7E]), ('\u{8F5F}', [0x8D, 0x8C]), 
    ('\u{8F61}', [0x8C, 0x44]), ('\u{8F62}', [0xE7, 0x80]), ('\u{8F63}', [0xE7, 0x81]), 
    ('\u{8F64}', [0xE7, 0x82]), ('\u{8F9B}', [0x90, 0x68]), ('\u{8F9C}', [0xE7, 0x83]), 
    ('\u{8F9E}', [0x8E, 0xAB]), ('\u{8F9F}', [0xE7, 0x84]), ('\u{8FA3}', [0xE7, 0x85]), 
    ('\u{8FA7}', [0x99, 0x9F]), ('\u{8FA8}', [0x99, 0x9E]), ('\u{8FAD}', [0xE7, 0x86]), 
    ('\u{8FAE}', [0xE3, 0x90]), ('\u{8FAF}', [0xE7, 0x87]), ('\u{8FB0}', [0x92, 0x43]), 
    ('\u{8FB1}', [0x90, 0x4A]), ('\u{8FB2}', [0x94, 0x5F]), ('\u{8FB7}', [0xE7, 0x88]), 
    ('\u{8FBA}', [0x95, 0xD3]), ('\u{8FBB}', [0x92, 0xD2]), ('\u{8FBC}', [0x8D, 0x9E]), 
    ('\u{8FBF}', [0x92, 0x48]), ('\u{8FC2}', [0x89, 0x49]), ('\u{8FC4}', [0x96, 0x98]), 
    ('\u{8FC5}', [0x90, 0x76]), ('\u{8FCE}', [0x8C, 0x7D]), ('\u{8FD1}', [0x8B, 0xDF]), 
    ('\u{8FD4}', [0x95, 0xD4]), ('\u{8FDA}', [0xE7, 0x89]), ('\u{8FE2}', [0xE7, 0x8B]), 
    ('\u{8FE5}', [0xE7, 0x8A]), ('\u{8FE6}', [0x89, 0xDE]), ('\u{8FE9}', [0x93, 0xF4]), 
    ('\u{8FEA}', [0xE7, 0x8C]), ('\u{8FEB}', [0x94, 0x97]), ('\u{8FED}', [0x93, 0x52]), 
    ('\u{8FEF}', [0xE7, 0x8D]), ('\u{8FF0}', [0x8F, 0x71]), ('\u{8FF4}', [0xE7, 0x8F]), 
    ('\u{8FF7}', [0x96, 0xC0]), ('\u{8FF8}', [0xE7, 0x9E]), ('\u{8FF9}', [0xE7, 0x91]), 
    ('\u{8FFA}', [0xE7, 0x92]), ('\u{8FFD}', [0x92, 0xC7]), ('\u{9000}', [0x91, 0xDE]), 
    ('\u{9001}', [0x91, 0x97]), ('\u{9003}', [0x93, 0xA6]), ('\u{9005}', [0xE7, 0x90]), 
    ('\u{9006}', [0x8B, 0x74]), ('\u{900B}', [0xE7, 0x99]), ('\u{900D}', [0xE7, 0x96]), 
"#

/-- src/generated/whatwg/shiftjis_whatwg_tables.rs.inc:3444-3571 -/
noncomputable def encode16 : List Text := lines! r#"    ('\u{900E}', [0xE7, 0xA3]), ('\u{900F}', [0x93, 0xA7]), ('\u{9010}', [0x92, 0x80]), 
    ('\u{9011}', [0xE7, 0x93]), ('\u{9013}', [0x92, 0xFC]), ('\u{9014}', [0x93, 0x72]), 
    ('\u{9015}', [0xE7, 0x94]), ('\u{9016}', [0xE7, 0x98]), ('\u{9017}', [0x90, 0x80]), 
    ('\u{9019}', [0x94, 0x87]), ('\u{901A}', [0x92, 0xCA]), ('\u{901D}', [0x90, 0xC0]), 
    ('\u{901E}', [0xE7, 0x97]), ('\u{901F}', [0x91, 0xAC]), ('\u{9020}', [0x91, 0xA2]), 
    ('\u{9021}', [0xE7, 0x95]), ('\u{9022}', [0x88, 0xA7]), ('\u{9023}', [0x98, 0x41]), 
    ('\u{9027}', [0xE7, 0x9A]), ('\u{902E}', [0x91, 0xDF]), ('\u{9031}', [0x8F, 0x54]), 
    ('\u{9032}', [0x90, 0x69]), ('\u{9035}', [0xE7, 0x9C]), ('\u{9036}', [0xE7, 0x9B]), 
    ('\u{9038}', [0x88, 0xED]), ('\u{9039}', [0xE7, 0x9D]), ('\u{903C}', [0x95, 0x4E]), 
    ('\u{903E}', [0xE7, 0xA5]), ('\u{9041}', [0x93, 0xD9]), ('\u{9042}', [0x90, 0x8B]), 
    ('\u{9045}', [0x92, 0x78]), ('\u{9047}', [0x8B, 0xF6]), ('\u{9049}', [0xE7, 0xA4]), 
    ('\u{904A}', [0x97, 0x56]), ('\u{904B}', [0x89, 0x5E]), ('\u{904D}', [0x95, 0xD5]), 
    ('\u{904E}', [0x89, 0xDF]), ('\u{904F}', [0xE7, 0x9F]), ('\u{9050}', [0xE7, 0xA0]), 
    ('\u{9051}', [0xE7, 0xA1]), ('\u{9052}', [0xE7, 0xA2]), ('\u{9053}', [0x93, 0xB9]), 
    ('\u{9054}', [0x92, 0x42]), ('\u{9055}', [0x88, 0xE1]), ('\u{9056}', [0xE7, 0xA6]), 
    ('\u{9058}', [0xE7, 0xA7]), ('\u{9059}', [0xEA, 0xA1]), ('\u{905C}', [0x91, 0xBB]), 
    ('\u{905E}', [0xE7, 0xA8]), ('\u{9060}', [0x89, 0x93]), ('\u{9061}', [0x91, 0x6B]), 
    ('\u{9063}', [0x8C, 0xAD]), ('\u{9065}', [0x97, 0x79]), ('\u{9067}', [0xFB, 0xB5]), 
    ('\u{9068}', [0xE7, 0xA9]), ('\u{9069}', [0x93, 0x4B]), ('\u{906D}', [0x91, 0x98]), 
    ('\u{906E}', [0x8E, 0xD5]), ('\u{906F}', [0xE7, 0xAA]), ('\u{9072}', [0xE7, 0xAD]), 
    ('\u{9075}', [0x8F, 0x85]), ('\u{9076}', [0xE7, 0xAB]), ('\u{9077}', [0x91, 0x4A]), 
    ('\u{9078}', [0x91, 0x49]), ('\u{907A}', [0x88, 0xE2]), ('\u{907C}', [0x97, 0xC9]), 
    ('\u{907D}', [0xE7, 0xAF]), ('\u{907F}', [0x94, 0xF0]), ('\u{9080}', [0xE7, 0xB1]), 
    ('\u{9081}', [0xE7, 0xB0]), ('\u{9082}', [0xE7, 0xAE]), ('\u{9083}', [0xE2, 0x84]), 
    ('\u{9084}', [0x8A, 0xD2]), ('\u{9087}', [0xE7, 0x8E]), ('\u{9089}', [0xE7, 0xB3]), 
    ('\u{908A}', [0xE7, 0xB2]), ('\u{908F}', [0xE7, 0xB4]), ('\u{9091}', [0x97, 0x57]), 
    ('\u{90A3}', [0x93, 0xDF]), ('\u{90A6}', [0x96, 0x4D]), ('\u{90A8}', [0xE7, 0xB5]), 
    ('\u{90AA}', [0x8E, 0xD7]), ('\u{90AF}', [0xE7, 0xB6]), ('\u{90B1}', [0xE7, 0xB7]), 
    ('\u{90B5}', [0xE7, 0xB8]), ('\u{90B8}', [0x93, 0x40]), ('\u{90C1}', [0x88, 0xE8]), 
    ('\u{90CA}', [0x8D, 0x78]), ('\u{90CE}', [0x98, 0x59]), ('\u{90DB}', [0xE7, 0xBC]), 
    ('\u{90DE}', [0xFB, 0xB6]), ('\u{90E1}', [0x8C, 0x53]), ('\u{90E2}', [0xE7, 0xB9]), 
    ('\u{90E4}', [0xE7, 0xBA]), ('\u{90E8}', [0x95, 0x94]), ('\u{90ED}', [0x8A, 0x73]), 
    ('\u{90F5}', [0x97, 0x58]), ('\u{90F7}', [0x8B, 0xBD]), ('\u{90FD}', [0x93, 0x73]), 
    ('\u{9102}', [0xE7, 0xBD]), ('\u{9112}', [0xE7, 0xBE]), ('\u{9115}', [0xFB, 0xB8]), 
    ('\u{9119}', [0xE7, 0xBF]), ('\u{9127}', [0xFB, 0xB9]), ('\u{912D}', [0x93, 0x41]), 
    ('\u{9130}', [0xE7, 0xC1]), ('\u{9132}', [0xE7, 0xC0]), ('\u{9149}', [0x93, 0xD1]), 
    ('\u{914A}', [0xE7, 0xC2]), ('\u{914B}', [0x8F, 0x55]), ('\u{914C}', [0x8E, 0xDE]), 
    ('\u{914D}', [0x94, 0x7A]), ('\u{914E}', [0x92, 0x91]), ('\u{9152}', [0x8E, 0xF0]), 
    ('\u{9154}', [0x90, 0x8C]), ('\u{9156}', [0xE7, 0xC3]), ('\u{9158}', [0xE7, 0xC4]), 
    ('\u{9162}', [0x90, 0x7C]), ('\u{9163}', [0xE7, 0xC5]), ('\u{9165}', [0xE7, 0xC6]), 
    ('\u{9169}', [0xE7, 0xC7]), ('\u{916A}', [0x97, 0x8F]), ('\u{916C}', [0x8F, 0x56]), 
    ('\u{9172}', [0xE7, 0xC9]), ('\u{9173}', [0xE7, 0xC8]), ('\u{9175}', [0x8D, 0x79]), 
    ('\u{9177}', [0x8D, 0x93]), ('\u{9178}', [0x8E, 0x5F]), ('\u{9182}', [0xE7, 0xCC]), 
    ('\u{9187}', [0x8F, 0x86]), ('\u{9189}', [0xE7, 0xCB]), ('\u{918B}', [0xE7, 0xCA]), 
    ('\u{918D}', [0x91, 0xE7]), ('\u{9190}', [0x8C, 0xED]), ('\u{9192}', [0x90, 0xC1]), 
    ('\u{9197}', [0x94, 0xAE]), ('\u{919C}', [0x8F, 0x58]), ('\u{91A2}', [0xE7, 0xCD]), 
    ('\u{91A4}', [0x8F, 0xDD]), ('\u{91AA}', [0xE7, 0xD0]), ('\u{91AB}', [0xE7, 0xCE]), 
    ('\u{91AF}', [0xE7, 0xCF]), ('\u{91B4}', [0xE7, 0xD2]), ('\u{91B5}', [0xE7, 0xD1]), 
    ('\u{91B8}', [0x8F, 0xF8]), ('\u{91BA}', [0xE7, 0xD3]), ('\u{91C0}', [0xE7, 0xD4]), 
    ('\u{91C1}', [0xE7, 0xD5]), ('\u{91C6}', [0x94, 0xCE]), ('\u{91C7}', [0x8D, 0xD1]), 
    ('\u{91C8}', [0x8E, 0xDF]), ('\u{91C9}', [0xE7, 0xD6]), ('\u{91CB}', [0xE7, 0xD7]), 
    ('\u{91CC}', [0x97, 0xA2]), ('\u{91CD}', [0x8F, 0x64]), ('\u{91CE}', [0x96, 0xEC]), 
    ('\u{91CF}', [0x97, 0xCA]), ('\u{91D0}', [0xE7, 0xD8]), ('\u{91D1}', [0x8B, 0xE0]), 
    ('\u{91D6}', [0xE7, 0xD9]), ('\u{91D7}', [0xFB, 0xBB]), ('\u{91D8}', [0x93, 0x42]), 
    ('\u{91DA}', [0xFB, 0xBA]), ('\u{91DB}', [0xE7, 0xDC]), ('\u{91DC}', [0x8A, 0x98]), 
    ('\u{91DD}', [0x90, 0x6A]), ('\u{91DE}', [0xFB, 0xBC]), ('\u{91DF}', [0xE7, 0xDA]), 
    ('\u{91E1}', [0xE7, 0xDB]), ('\u{91E3}', [0x92, 0xDE]), ('\u{91E4}', [0xFB, 0xBF]), 
    ('\u{91E5}', [0xFB, 0xC0]), ('\u{91E6}', [0x96, 0x74]), ('\u{91E7}', [0x8B, 0xFA]), 
    ('\u{91ED}', [0xFB, 0xBD]), ('\u{91EE}', [0xFB, 0xBE]), ('\u{91F5}', [0xE7, 0xDE]), 
    ('\u{91F6}', [0xE7, 0xDF]), ('\u{91FC}', [0xE7, 0xDD]), ('\u{91FF}', [0xE7, 0xE1]), 
    ('\u{9206}', [0xFB, 0xC1]), ('\u{920A}', [0xFB, 0xC3]), ('\u{920D}', [0x93, 0xDD]), 
    ('\u{920E}', [0x8A, 0x62]), ('\u{9210}', [0xFB, 0xC2]), ('\u{9211}', [0xE7, 0xE5]), 
    ('\u{9214}', [0xE7, 0xE2]), ('\u{9215}', [0xE7, 0xE4]), ('\u{921E}', [0xE7, 0xE0]), 
    ('\u{9229}', [0xE8, 0x6E]), ('\u{922C}', [0xE7, 0xE3]), ('\u{9234}', [0x97, 0xE9]), 
    ('\u{9237}', [0x8C, 0xD8]), ('\u{9239}', [0xFB, 0xCA]), ('\u{923A}', [0xFB, 0xC4]), 
    ('\u{923C}', [0xFB, 0xC6]), ('\u{923F}', [0xE7, 0xED]), ('\u{9240}', [0xFB, 0xC5]), 
    ('\u{9244}', [0x93, 0x53]), ('\u{9245}', [0xE7, 0xE8]), ('\u{9248}', [0xE7, 0xEB]), 
    ('\u{9249}', [0xE7, 0xE9]), ('\u{924B}', [0xE7, 0xEE]), ('\u{924E}', [0xFB, 0xC7]), 
    ('\u{9250}', [0xE7, 0xEF]), ('\u{9251}', [0xFB, 0xC9]), ('\u{9257}', [0xE7, 0xE7]), 
    ('\u{9259}', [0xFB, 0xC8]), ('\u{925A}', [0xE7, 0xF4]), ('\u{925B}', [0x89, 0x94]), 
    ('\u{925E}', [0xE7, 0xE6]), ('\u{9262}', [0x94, 0xAB]), ('\u{9264}', [0xE7, 0xEA]), 
    ('\u{9266}', [0x8F, 0xDE]), ('\u{9267}', [0xFB, 0xCB]), ('\u{9271}', [0x8D, 0x7A]), 
    ('\u{9277}', [0xFB, 0xCD]), ('\u{9278}', [0xFB, 0xCE]), ('\u{927E}', [0x96, 0x67]), 
    ('\u{9280}', [0x8B, 0xE2]), ('\u{9283}', [0x8F, 0x65]), ('\u{9285}', [0x93, 0xBA]), 
    ('\u{9288}', [0xFA, 0x5F]), ('\u{9291}', [0x91, 0x4C]), ('\u{9293}', [0xE7, 0xF2]), 
    ('\u{9295}', [0xE7, 0xEC]), ('\u{9296}', [0xE7, 0xF1]), ('\u{9298}', [0x96, 0xC1]), 
    ('\u{929A}', [0x92, 0xB6]), ('\u{929B}', [0xE7, 0xF3]), ('\u{929C}', [0xE7, 0xF0]), 
    ('\u{92A7}', [0xFB, 0xCC]), ('\u{92AD}', [0x91, 0x4B]), ('\u{92B7}', [0xE7, 0xF7]), 
    ('\u{92B9}', [0xE7, 0xF6]), ('\u{92CF}', [0xE7, 0xF5]), ('\u{92D0}', [0xFB, 0xD2]), 
    ('\u{92D2}', [0x96, 0x4E]), ('\u{92D3}', [0xFB, 0xD6]), ('\u{92D5}', [0xFB, 0xD4]), 
    ('\u{92D7}', [0xFB, 0xD0]), ('\u{92D9}', [0xFB, 0xD1]), ('\u{92E0}', [0xFB, 0xD5]), 
    ('\u{92E4}', [0x8F, 0x9B]), ('\u{92E7}', [0xFB, 0xCF]), ('\u{92E9}', [0xE7, 0xF8]), 
    ('\u{92EA}', [0x95, 0xDD]), ('\u{92ED}', [0x89, 0x73]), ('\u{92F2}', [0x95, 0x65]), 
    ('\u{92F3}', [0x92, 0x92]), ('\u{92F8}', [0x8B, 0x98]), ('\u{92F9}', [0xFA, 0x65]), 
    ('\u{92FA}', [0xE7, 0xFA]), ('\u{92FB}', [0xFB, 0xD9]), ('\u{92FC}', [0x8D, 0x7C]), 
    ('\u{92FF}', [0xFB, 0xDC]), ('\u{9302}', [0xFB, 0xDE]), ('\u{9306}', [0x8E, 0x4B]), 
    ('\u{930F}', [0xE7, 0xF9]), ('\u{9310}', [0x90, 0x8D]), ('\u{9318}', [0x90, 0x8E]), 
    ('\u{9319}', [0xE8, 0x40]), ('\u{931A}', [0xE8, 0x42]), ('\u{931D}', [0xFB, 0xDD]), 
    ('\u{931E}', [0xFB, 0xDB]), ('\u{9320}', [0x8F, 0xF9]), ('\u{9321}', [0xFB, 0xD8]), 
    ('\u{9322}', [0xE8, 0x41]), ('\u{9323}', [0xE8, 0x43]), ('\u{9325}', [0xFB, 0xD7]), 
    ('\u{9326}', [0x8B, 0xD1]), ('\u{9328}', [0x95, 0x64]), ('\u{932B}', [0x8E, 0xE0]), 
    ('\u{932C}', [0x98, 0x42]), ('\u{932E}', [0xE7, 0xFC]), ('\u{932F}', [0x8D, 0xF6]), 
    ('\u{9332}', [0x98, 0x5E]), ('\u{9335}', [0xE8, 0x45]), ('\u{933A}', [0xE8, 0x44]), 
    ('\u{933B}', [0xE8, 0x46]), ('\u{9344}', [0xE7, 0xFB]), ('\u{9348}', [0xFA, 0x5E]), 
    ('\u{934B}', [0x93, 0xE7]), ('\u{934D}', [0x93, 0x74]), ('\u{9354}', [0x92, 0xD5]), 
    ('\u{9356}', [0xE8, 0x4B]), ('\u{9357}', [0xFB, 0xE0]), ('\u{935B}', [0x92, 0x62]), 
    ('\u{935C}', [0xE8, 0x47]), ('\u{9360}', [0xE8, 0x48]), ('\u{936C}', [0x8C, 0x4C]), 
    ('\u{936E}', [0xE8, 0x4A]), ('\u{9370}', [0xFB, 0xDF]), ('\u{9375}', [0x8C, 0xAE]), 
    ('\u{937C}', [0xE8, 0x49]), ('\u{937E}', [0x8F, 0xDF]), ('\u{938C}', [0x8A, 0x99]), 
    ('\u{9394}', [0xE8, 0x4F]), ('\u{9396}', [0x8D, 0xBD]), ('\u{9397}', [0x91, 0x99]), 
    ('\u{939A}', [0x92, 0xC8]), ('\u{93A4}', [0xFB, 0xE1]), ('\u{93A7}', [0x8A, 0x5A]), 
    ('\u{93AC}', [0xE8, 0x4D]), ('\u{93AD}', [0xE8, 0x4E]), ('\u{93AE}', [0x92, 0xC1]), 
    ('\u{93B0}', [0xE8, 0x4C]), ('\u{93B9}', [0xE8, 0x50]), ('\u{93C3}', [0xE8, 0x56]), 
    ('\u{93C6}', [0xFB, 0xE2]), ('\u{93C8}', [0xE8, 0x59]), ('\u{93D0}', [0xE8, 0x58]), 
    ('\u{93D1}', [0x93, 0x4C]), ('\u{93D6}', [0xE8, 0x51]), ('\u{93D7}', [0xE8, 0x52]), 
    ('\u{93D8}', [0xE8, 0x55]), ('\u{93DD}', [0xE8, 0x57]), ('\u{93DE}', [0xFB, 0xE3]), 
    ('\u{93E1}', [0x8B, 0xBE]), ('\u{93E4}', [0xE8, 0x5A]), ('\u{93E5}', [0xE8, 0x54]), 
    ('\u{93E8}', [0xE8, 0x53]), ('\u{93F8}', [0xFB, 0xE4]), ('\u{9403}', [0xE8, 0x5E]), 
    ('\u{9407}', [0xE8, 0x5F]), ('\u{9410}', [0xE8, 0x60]), ('\u{9413}', [0xE8, 0x5D]), 
    ('\u{9414}', [0xE8, 0x5C]), ('\u{9418}', [0x8F, 0xE0]), ('\u{9419}', [0x93, 0xA8]), 
    ('\u{941A}', [0xE8, 0x5B]), ('\u{9421}', [0xE8, 0x64]), ('\u{942B}', [0xE8, 0x62]), 
    ('\u{9431}', [0xFB, 0xE5]), ('\u{9435}', [0xE8, 0x63]), ('\u{9436}', [0xE8, 0x61]), 
    ('\u{9438}', [0x91, 0xF6]), ('\u{943A}', [0xE8, 0x65]), ('\u{9441}', [0xE8, 0x66]), 
    ('\u{9444}', [0xE8, 0x68]), ('\u{9445}', [0xFB, 0xE6]), ('\u{9448}', [0xFB, 0xE7]), 
    ('\u{9451}', [0x8A, 0xD3]), ('\u{9452}', [0xE8, 0x67]), ('\u{9453}', [0x96, 0xF8]), 
    ('\u{945A}', [0xE8, 0x73]), ('\u{945B}', [0xE8, 0x69]), ('\u{945E}', [0xE8, 0x6C]), 
    ('\u{9460}', [0xE8, 0x6A]), ('\u{9462}', [0xE8, 0x6B]), ('\u{946A}', [0xE8, 0x6D]), 
    ('\u{9470}', [0xE8, 0x6F]), ('\u{9475}', [0xE8, 0x70]), ('\u{9477}', [0xE8, 0x71]), 
    ('\u{947C}', [0xE8, 0x74]), ('\u{947D}', [0xE8, 0x72]), ('\u{947E}', [0xE8, 0x75]), 
    ('\u{947F}', [0xE8, 0x77]), ('\u{9481}', [0xE8, 0x76]), ('\u{9577}', [0x92, 0xB7]), 
    ('\u{9580}', [0x96, 0xE5]), ('\u{9582}', [0xE8, 0x78]), ('\u{9583}', [0x91, 0x4D]), 
    ('\u{9587}', [0xE8, 0x79]), ('\u{9589}', [0x95, 0xC2]), ('\u{958A}', [0xE8, 0x7A]), 
    ('\u{958B}', [0x8A, 0x4A]), ('\u{958F}', [0x89, 0x5B]), ('\u{9591}', [0x8A, 0xD5]), 
    ('\u{9592}', [0xFB, 0xE8]), ('\u{9593}', [0x8A, 0xD4]), ('\u{9594}', [0xE8, 0x7B]), 
    ('\u{9596}', [0xE8, 0x7C]), ('\u{9598}', [0xE8, 0x7D]), ('\u{9599}', [0xE8, 0x7E]), 
    ('\u{95A0}', [0xE8, 0x80]), ('\u{95A2}', [0x8A, 0xD6]), ('\u{95A3}', [0x8A, 0x74]), 
    ('\u{95A4}', [0x8D, 0x7D]), ('\u{95A5}', [0x94, 0xB4]), ('\u{95A7}', [0xE8, 0x82]), 
    ('\u{95A8}', [0xE8, 0x81]), ('\u{95AD}', [0xE8, 0x83]), ('\u{95B2}', [0x89, 0x7B]), 
"#

/-- src/generated/whatwg/shiftjis_whatwg_tables.rs.inc:3572-3699 -/
noncomputable def encode17 : List Text := lines! r#"    ('\u{95B9}', [0xE8, 0x86]), ('\u{95BB}', [0xE8, 0x85]), ('\u{95BC}', [0xE8, 0x84]), 
    ('\u{95BE}', [0xE8, 0x87]), ('\u{95C3}', [0xE8, 0x8A]), ('\u{95C7}', [0x88, 0xC5]), 
    ('\u{95CA}', [0xE8, 0x88]), ('\u{95CC}', [0xE8, 0x8C]), ('\u{95CD}', [0xE8, 0x8B]), 
    ('\u{95D4}', [0xE8, 0x8E]), ('\u{95D5}', [0xE8, 0x8D]), ('\u{95D6}', [0xE8, 0x8F]), 
    ('\u{95D8}', [0x93, 0xAC]), ('\u{95DC}', [0xE8, 0x90]), ('\u{95E1}', [0xE8, 0x91]), 
    ('\u{95E2}', [0xE8, 0x93]), ('\u{95E5}', [0xE8, 0x92]), ('\u{961C}', [0x95, 0x8C]), 
    ('\u{9621}', [0xE8, 0x94]), ('\u{9628}', [0xE8, 0x95]), ('\u{962A}', [0x8D, 0xE3]), 
    ('\u{962E}', [0xE8, 0x96]), ('\u{962F}', [0xE8, 0x97]), ('\u{9632}', [0x96, 0x68]), 
    ('\u{963B}', [0x91, 0x6A]), ('\u{963F}', [0x88, 0xA2]), ('\u{9640}', [0x91, 0xC9]), 
    ('\u{9642}', [0xE8, 0x98]), ('\u{9644}', [0x95, 0x8D]), ('\u{964B}', [0xE8, 0x9B]), 
    ('\u{964C}', [0xE8, 0x99]), ('\u{964D}', [0x8D, 0x7E]), ('\u{964F}', [0xE8, 0x9A]), 
    ('\u{9650}', [0x8C, 0xC0]), ('\u{965B}', [0x95, 0xC3]), ('\u{965C}', [0xE8, 0x9D]), 
    ('\u{965D}', [0xE8, 0x9F]), ('\u{965E}', [0xE8, 0x9E]), ('\u{965F}', [0xE8, 0xA0]), 
    ('\u{9662}', [0x89, 0x40]), ('\u{9663}', [0x90, 0x77]), ('\u{9664}', [0x8F, 0x9C]), 
    ('\u{9665}', [0x8A, 0xD7]), ('\u{9666}', [0xE8, 0xA1]), ('\u{966A}', [0x94, 0x86]), 
    ('\u{966C}', [0xE8, 0xA3]), ('\u{9670}', [0x89, 0x41]), ('\u{9672}', [0xE8, 0xA2]), 
    ('\u{9673}', [0x92, 0xC2]), ('\u{9675}', [0x97, 0xCB]), ('\u{9676}', [0x93, 0xA9]), 
    ('\u{9677}', [0xE8, 0x9C]), ('\u{9678}', [0x97, 0xA4]), ('\u{967A}', [0x8C, 0xAF]), 
    ('\u{967D}', [0x97, 0x7A]), ('\u{9685}', [0x8B, 0xF7]), ('\u{9686}', [0x97, 0xB2]), 
    ('\u{9688}', [0x8C, 0x47]), ('\u{968A}', [0x91, 0xE0]), ('\u{968B}', [0xE4, 0x40]), 
    ('\u{968D}', [0xE8, 0xA4]), ('\u{968E}', [0x8A, 0x4B]), ('\u{968F}', [0x90, 0x8F]), 
    ('\u{9694}', [0x8A, 0x75]), ('\u{9695}', [0xE8, 0xA6]), ('\u{9697}', [0xE8, 0xA7]), 
    ('\u{9698}', [0xE8, 0xA5]), ('\u{9699}', [0x8C, 0x84]), ('\u{969B}', [0x8D, 0xDB]), 
    ('\u{969C}', [0x8F, 0xE1]), ('\u{969D}', [0xFB, 0xEB]), ('\u{96A0}', [0x89, 0x42]), 
    ('\u{96A3}', [0x97, 0xD7]), ('\u{96A7}', [0xE8, 0xA9]), ('\u{96A8}', [0xE7, 0xAC]), 
    ('\u{96AA}', [0xE8, 0xA8]), ('\u{96AF}', [0xFB, 0xEC]), ('\u{96B0}', [0xE8, 0xAC]), 
    ('\u{96B1}', [0xE8, 0xAA]), ('\u{96B2}', [0xE8, 0xAB]), ('\u{96B4}', [0xE8, 0xAD]), 
    ('\u{96B6}', [0xE8, 0xAE]), ('\u{96B7}', [0x97, 0xEA]), ('\u{96B8}', [0xE8, 0xAF]), 
    ('\u{96B9}', [0xE8, 0xB0]), ('\u{96BB}', [0x90, 0xC7]), ('\u{96BC}', [0x94, 0xB9]), 
    ('\u{96C0}', [0x90, 0x9D]), ('\u{96C1}', [0x8A, 0xE5]), ('\u{96C4}', [0x97, 0x59]), 
    ('\u{96C5}', [0x89, 0xEB]), ('\u{96C6}', [0x8F, 0x57]), ('\u{96C7}', [0x8C, 0xD9]), 
    ('\u{96C9}', [0xE8, 0xB3]), ('\u{96CB}', [0xE8, 0xB2]), ('\u{96CC}', [0x8E, 0x93]), 
    ('\u{96CD}', [0xE8, 0xB4]), ('\u{96CE}', [0xE8, 0xB1]), ('\u{96D1}', [0x8E, 0x47]), 
    ('\u{96D5}', [0xE8, 0xB8]), ('\u{96D6}', [0xE5, 0xAB]), ('\u{96D9}', [0x99, 0xD4]), 
    ('\u{96DB}', [0x90, 0x97]), ('\u{96DC}', [0xE8, 0xB6]), ('\u{96E2}', [0x97, 0xA3]), 
    ('\u{96E3}', [0x93, 0xEF]), ('\u{96E8}', [0x89, 0x4A]), ('\u{96EA}', [0x90, 0xE1]), 
    ('\u{96EB}', [0x8E, 0xB4]), ('\u{96F0}', [0x95, 0xB5]), ('\u{96F2}', [0x89, 0x5F]), 
    ('\u{96F6}', [0x97, 0xEB]), ('\u{96F7}', [0x97, 0x8B]), ('\u{96F9}', [0xE8, 0xB9]), 
    ('\u{96FB}', [0x93, 0x64]), ('\u{9700}', [0x8E, 0xF9]), ('\u{9704}', [0xE8, 0xBA]), 
    ('\u{9706}', [0xE8, 0xBB]), ('\u{9707}', [0x90, 0x6B]), ('\u{9708}', [0xE8, 0xBC]), 
    ('\u{970A}', [0x97, 0xEC]), ('\u{970D}', [0xE8, 0xB7]), ('\u{970E}', [0xE8, 0xBE]), 
    ('\u{970F}', [0xE8, 0xC0]), ('\u{9711}', [0xE8, 0xBF]), ('\u{9713}', [0xE8, 0xBD]), 
    ('\u{9716}', [0xE8, 0xC1]), ('\u{9719}', [0xE8, 0xC2]), ('\u{971C}', [0x91, 0x9A]), 
    ('\u{971E}', [0x89, 0xE0]), ('\u{9724}', [0xE8, 0xC3]), ('\u{9727}', [0x96, 0xB6]), 
    ('\u{972A}', [0xE8, 0xC4]), ('\u{9730}', [0xE8, 0xC5]), ('\u{9732}', [0x98, 0x49]), 
    ('\u{9733}', [0xFB, 0xED]), ('\u{9738}', [0x9E, 0x50]), ('\u{9739}', [0xE8, 0xC6]), 
    ('\u{973B}', [0xFB, 0xEE]), ('\u{973D}', [0xE8, 0xC7]), ('\u{973E}', [0xE8, 0xC8]), 
    ('\u{9742}', [0xE8, 0xCC]), ('\u{9743}', [0xFB, 0xEF]), ('\u{9744}', [0xE8, 0xC9]), 
    ('\u{9746}', [0xE8, 0xCA]), ('\u{9748}', [0xE8, 0xCB]), ('\u{9749}', [0xE8, 0xCD]), 
    ('\u{974D}', [0xFB, 0xF0]), ('\u{974F}', [0xFB, 0xF1]), ('\u{9751}', [0xFB, 0xF2]), 
    ('\u{9752}', [0x90, 0xC2]), ('\u{9755}', [0xFB, 0xF3]), ('\u{9756}', [0x96, 0xF5]), 
    ('\u{9759}', [0x90, 0xC3]), ('\u{975C}', [0xE8, 0xCE]), ('\u{975E}', [0x94, 0xF1]), 
    ('\u{9760}', [0xE8, 0xCF]), ('\u{9761}', [0xEA, 0x72]), ('\u{9762}', [0x96, 0xCA]), 
    ('\u{9764}', [0xE8, 0xD0]), ('\u{9766}', [0xE8, 0xD1]), ('\u{9768}', [0xE8, 0xD2]), 
    ('\u{9769}', [0x8A, 0x76]), ('\u{976B}', [0xE8, 0xD4]), ('\u{976D}', [0x90, 0x78]), 
    ('\u{9771}', [0xE8, 0xD5]), ('\u{9774}', [0x8C, 0x43]), ('\u{9779}', [0xE8, 0xD6]), 
    ('\u{977A}', [0xE8, 0xDA]), ('\u{977C}', [0xE8, 0xD8]), ('\u{9781}', [0xE8, 0xD9]), 
    ('\u{9784}', [0x8A, 0x93]), ('\u{9785}', [0xE8, 0xD7]), ('\u{9786}', [0xE8, 0xDB]), 
    ('\u{978B}', [0xE8, 0xDC]), ('\u{978D}', [0x88, 0xC6]), ('\u{978F}', [0xE8, 0xDD]), 
    ('\u{9790}', [0xE8, 0xDE]), ('\u{9798}', [0x8F, 0xE2]), ('\u{979C}', [0xE8, 0xDF]), 
    ('\u{97A0}', [0x8B, 0x66]), ('\u{97A3}', [0xE8, 0xE2]), ('\u{97A6}', [0xE8, 0xE1]), 
    ('\u{97A8}', [0xE8, 0xE0]), ('\u{97AB}', [0xE6, 0x91]), ('\u{97AD}', [0x95, 0xDA]), 
    ('\u{97B3}', [0xE8, 0xE3]), ('\u{97B4}', [0xE8, 0xE4]), ('\u{97C3}', [0xE8, 0xE5]), 
    ('\u{97C6}', [0xE8, 0xE6]), ('\u{97C8}', [0xE8, 0xE7]), ('\u{97CB}', [0xE8, 0xE8]), 
    ('\u{97D3}', [0x8A, 0xD8]), ('\u{97DC}', [0xE8, 0xE9]), ('\u{97ED}', [0xE8, 0xEA]), 
    ('\u{97EE}', [0x94, 0x42]), ('\u{97F2}', [0xE8, 0xEC]), ('\u{97F3}', [0x89, 0xB9]), 
    ('\u{97F5}', [0xE8, 0xEF]), ('\u{97F6}', [0xE8, 0xEE]), ('\u{97FB}', [0x89, 0x43]), 
    ('\u{97FF}', [0x8B, 0xBF]), ('\u{9801}', [0x95, 0xC5]), ('\u{9802}', [0x92, 0xB8]), 
    ('\u{9803}', [0x8D, 0xA0]), ('\u{9805}', [0x8D, 0x80]), ('\u{9806}', [0x8F, 0x87]), 
    ('\u{9808}', [0x90, 0x7B]), ('\u{980C}', [0xE8, 0xF1]), ('\u{980F}', [0xE8, 0xF0]), 
    ('\u{9810}', [0x97, 0x61]), ('\u{9811}', [0x8A, 0xE6]), ('\u{9812}', [0x94, 0xD0]), 
    ('\u{9813}', [0x93, 0xDA]), ('\u{9817}', [0x90, 0x9C]), ('\u{9818}', [0x97, 0xCC]), 
    ('\u{981A}', [0x8C, 0x7A]), ('\u{9821}', [0xE8, 0xF4]), ('\u{9824}', [0xE8, 0xF3]), 
    ('\u{982C}', [0x96, 0x6A]), ('\u{982D}', [0x93, 0xAA]), ('\u{9834}', [0x89, 0x6F]), 
    ('\u{9837}', [0xE8, 0xF5]), ('\u{9838}', [0xE8, 0xF2]), ('\u{983B}', [0x95, 0x70]), 
    ('\u{983C}', [0x97, 0x8A]), ('\u{983D}', [0xE8, 0xF6]), ('\u{9846}', [0xE8, 0xF7]), 
    ('\u{984B}', [0xE8, 0xF9]), ('\u{984C}', [0x91, 0xE8]), ('\u{984D}', [0x8A, 0x7A]), 
    ('\u{984E}', [0x8A, 0x7B]), ('\u{984F}', [0xE8, 0xF8]), ('\u{9854}', [0x8A, 0xE7]), 
    ('\u{9855}', [0x8C, 0xB0]), ('\u{9857}', [0xFB, 0xF4]), ('\u{9858}', [0x8A, 0xE8]), 
    ('\u{985B}', [0x93, 0x5E]), ('\u{985E}', [0x97, 0xDE]), ('\u{9865}', [0xFB, 0xF5]), 
    ('\u{9867}', [0x8C, 0xDA]), ('\u{986B}', [0xE8, 0xFA]), ('\u{986F}', [0xE8, 0xFB]), 
    ('\u{9870}', [0xE8, 0xFC]), ('\u{9871}', [0xE9, 0x40]), ('\u{9873}', [0xE9, 0x42]), 
    ('\u{9874}', [0xE9, 0x41]), ('\u{98A8}', [0x95, 0x97]), ('\u{98AA}', [0xE9, 0x43]), 
    ('\u{98AF}', [0xE9, 0x44]), ('\u{98B1}', [0xE9, 0x45]), ('\u{98B6}', [0xE9, 0x46]), 
    ('\u{98C3}', [0xE9, 0x48]), ('\u{98C4}', [0xE9, 0x47]), ('\u{98C6}', [0xE9, 0x49]), 
    ('\u{98DB}', [0x94, 0xF2]), ('\u{98DC}', [0xE3, 0xCA]), ('\u{98DF}', [0x90, 0x48]), 
    ('\u{98E2}', [0x8B, 0x51]), ('\u{98E9}', [0xE9, 0x4A]), ('\u{98EB}', [0xE9, 0x4B]), 
    ('\u{98ED}', [0x99, 0xAA]), ('\u{98EE}', [0x9F, 0x5A]), ('\u{98EF}', [0x94, 0xD1]), 
    ('\u{98F2}', [0x88, 0xF9]), ('\u{98F4}', [0x88, 0xB9]), ('\u{98FC}', [0x8E, 0x94]), 
    ('\u{98FD}', [0x96, 0x4F]), ('\u{98FE}', [0x8F, 0xFC]), ('\u{9903}', [0xE9, 0x4C]), 
    ('\u{9905}', [0x96, 0xDD]), ('\u{9909}', [0xE9, 0x4D]), ('\u{990A}', [0x97, 0x7B]), 
    ('\u{990C}', [0x89, 0x61]), ('\u{9910}', [0x8E, 0x60]), ('\u{9912}', [0xE9, 0x4E]), 
    ('\u{9913}', [0x89, 0xEC]), ('\u{9914}', [0xE9, 0x4F]), ('\u{9918}', [0xE9, 0x50]), 
    ('\u{991D}', [0xE9, 0x52]), ('\u{991E}', [0xE9, 0x53]), ('\u{9920}', [0xE9, 0x55]), 
    ('\u{9921}', [0xE9, 0x51]), ('\u{9924}', [0xE9, 0x54]), ('\u{9927}', [0xFB, 0xF8]), 
    ('\u{9928}', [0x8A, 0xD9]), ('\u{992C}', [0xE9, 0x56]), ('\u{992E}', [0xE9, 0x57]), 
    ('\u{993D}', [0xE9, 0x58]), ('\u{993E}', [0xE9, 0x59]), ('\u{9942}', [0xE9, 0x5A]), 
    ('\u{9945}', [0xE9, 0x5C]), ('\u{9949}', [0xE9, 0x5B]), ('\u{994B}', [0xE9, 0x5E]), 
    ('\u{994C}', [0xE9, 0x61]), ('\u{9950}', [0xE9, 0x5D]), ('\u{9951}', [0xE9, 0x5F]), 
    ('\u{9952}', [0xE9, 0x60]), ('\u{9955}', [0xE9, 0x62]), ('\u{9957}', [0x8B, 0xC0]), 
    ('\u{9996}', [0x8E, 0xF1]), ('\u{9997}', [0xE9, 0x63]), ('\u{9998}', [0xE9, 0x64]), 
    ('\u{9999}', [0x8D, 0x81]), ('\u{999E}', [0xFB, 0xFA]), ('\u{99A5}', [0xE9, 0x65]), 
    ('\u{99A8}', [0x8A, 0x5D]), ('\u{99AC}', [0x94, 0x6E]), ('\u{99AD}', [0xE9, 0x66]), 
    ('\u{99AE}', [0xE9, 0x67]), ('\u{99B3}', [0x92, 0x79]), ('\u{99B4}', [0x93, 0xE9]), 
    ('\u{99BC}', [0xE9, 0x68]), ('\u{99C1}', [0x94, 0x9D]), ('\u{99C4}', [0x91, 0xCA]), 
    ('\u{99C5}', [0x89, 0x77]), ('\u{99C6}', [0x8B, 0xEC]), ('\u{99C8}', [0x8B, 0xED]), 
    ('\u{99D0}', [0x92, 0x93]), ('\u{99D1}', [0xE9, 0x6D]), ('\u{99D2}', [0x8B, 0xEE]), 
    ('\u{99D5}', [0x89, 0xED]), ('\u{99D8}', [0xE9, 0x6C]), ('\u{99DB}', [0xE9, 0x6A]), 
    ('\u{99DD}', [0xE9, 0x6B]), ('\u{99DF}', [0xE9, 0x69]), ('\u{99E2}', [0xE9, 0x77]), 
    ('\u{99ED}', [0xE9, 0x6E]), ('\u{99EE}', [0xE9, 0x6F]), ('\u{99F1}', [0xE9, 0x70]), 
    ('\u{99F2}', [0xE9, 0x71]), ('\u{99F8}', [0xE9, 0x73]), ('\u{99FB}', [0xE9, 0x72]), 
    ('\u{99FF}', [0x8F, 0x78]), ('\u{9A01}', [0xE9, 0x74]), ('\u{9A05}', [0xE9, 0x76]), 
    ('\u{9A0E}', [0x8B, 0x52]), ('\u{9A0F}', [0xE9, 0x75]), ('\u{9A12}', [0x91, 0x9B]), 
    ('\u{9A13}', [0x8C, 0xB1]), ('\u{9A19}', [0xE9, 0x78]), ('\u{9A28}', [0x91, 0xCB]), 
    ('\u{9A2B}', [0xE9, 0x79]), ('\u{9A30}', [0x93, 0xAB]), ('\u{9A37}', [0xE9, 0x7A]), 
    ('\u{9A3E}', [0xE9, 0x80]), ('\u{9A40}', [0xE9, 0x7D]), ('\u{9A42}', [0xE9, 0x7C]), 
    ('\u{9A43}', [0xE9, 0x7E]), ('\u{9A45}', [0xE9, 0x7B]), ('\u{9A4D}', [0xE9, 0x82]), 
    ('\u{9A4E}', [0xFB, 0xFB]), ('\u{9A55}', [0xE9, 0x81]), ('\u{9A57}', [0xE9, 0x84]), 
    ('\u{9A5A}', [0x8B, 0xC1]), ('\u{9A5B}', [0xE9, 0x83]), ('\u{9A5F}', [0xE9, 0x85]), 
    ('\u{9A62}', [0xE9, 0x86]), ('\u{9A64}', [0xE9, 0x88]), ('\u{9A65}', [0xE9, 0x87]), 
    ('\u{9A69}', [0xE9, 0x89]), ('\u{9A6A}', [0xE9, 0x8B]), ('\u{9A6B}', [0xE9, 0x8A]), 
    ('\u{9AA8}', [0x8D, 0x9C]), ('\u{9AAD}', [0xE9, 0x8C]), ('\u{9AB0}', [0xE9, 0x8D]), 
    ('\u{9AB8}', [0x8A, 0x5B]), ('\u{9ABC}', [0xE9, 0x8E]), ('\u{9AC0}', [0xE9, 0x8F]), 
    ('\u{9AC4}', [0x90, 0x91]), ('\u{9ACF}', [0xE9, 0x90]), ('\u{9AD1}', [0xE9, 0x91]), 
    ('\u{9AD3}', [0xE9, 0x92]), ('\u{9AD4}', [0xE9, 0x93]), ('\u{9AD8}', [0x8D, 0x82]), 
    ('\u{9AD9}', [0xFB, 0xFC]), ('\u{9ADC}', [0xFC, 0x40]), ('\u{9ADE}', [0xE9, 0x94]), 
    ('\u{9ADF}', [0xE9, 0x95]), ('\u{9AE2}', [0xE9, 0x96]), ('\u{9AE3}', [0xE9, 0x97]), 
    ('\u{9AE6}', [0xE9, 0x98]), ('\u{9AEA}', [0x94, 0xAF]), ('\u{9AEB}', [0xE9, 0x9A]), 
"#

/-- src/generated/whatwg/shiftjis_whatwg_tables.rs.inc:3700-3827 -/
noncomputable def encode18 : List Text := lines! r#"    ('\u{9AED}', [0x95, 0x45]), ('\u{9AEE}', [0xE9, 0x9B]), ('\u{9AEF}', [0xE9, 0x99]), 
    ('\u{9AF1}', [0xE9, 0x9D]), ('\u{9AF4}', [0xE9, 0x9C]), ('\u{9AF7}', [0xE9, 0x9E]), 
    ('\u{9AFB}', [0xE9, 0x9F]), ('\u{9B06}', [0xE9, 0xA0]), ('\u{9B18}', [0xE9, 0xA1]), 
    ('\u{9B1A}', [0xE9, 0xA2]), ('\u{9B1F}', [0xE9, 0xA3]), ('\u{9B22}', [0xE9, 0xA4]), 
    ('\u{9B23}', [0xE9, 0xA5]), ('\u{9B25}', [0xE9, 0xA6]), ('\u{9B27}', [0xE9, 0xA7]), 
    ('\u{9B28}', [0xE9, 0xA8]), ('\u{9B29}', [0xE9, 0xA9]), ('\u{9B2A}', [0xE9, 0xAA]), 
    ('\u{9B2E}', [0xE9, 0xAB]), ('\u{9B2F}', [0xE9, 0xAC]), ('\u{9B31}', [0x9F, 0x54]), 
    ('\u{9B32}', [0xE9, 0xAD]), ('\u{9B3B}', [0xE2, 0xF6]), ('\u{9B3C}', [0x8B, 0x53]), 
    ('\u{9B41}', [0x8A, 0x40]), ('\u{9B42}', [0x8D, 0xB0]), ('\u{9B43}', [0xE9, 0xAF]), 
    ('\u{9B44}', [0xE9, 0xAE]), ('\u{9B45}', [0x96, 0xA3]), ('\u{9B4D}', [0xE9, 0xB1]), 
    ('\u{9B4E}', [0xE9, 0xB2]), ('\u{9B4F}', [0xE9, 0xB0]), ('\u{9B51}', [0xE9, 0xB3]), 
    ('\u{9B54}', [0x96, 0x82]), ('\u{9B58}', [0xE9, 0xB4]), ('\u{9B5A}', [0x8B, 0x9B]), 
    ('\u{9B6F}', [0x98, 0x44]), ('\u{9B72}', [0xFC, 0x42]), ('\u{9B74}', [0xE9, 0xB5]), 
    ('\u{9B75}', [0xFC, 0x41]), ('\u{9B83}', [0xE9, 0xB7]), ('\u{9B8E}', [0x88, 0xBC]), 
    ('\u{9B8F}', [0xFC, 0x43]), ('\u{9B91}', [0xE9, 0xB8]), ('\u{9B92}', [0x95, 0xA9]), 
    ('\u{9B93}', [0xE9, 0xB6]), ('\u{9B96}', [0xE9, 0xB9]), ('\u{9B97}', [0xE9, 0xBA]), 
    ('\u{9B9F}', [0xE9, 0xBB]), ('\u{9BA0}', [0xE9, 0xBC]), ('\u{9BA8}', [0xE9, 0xBD]), 
    ('\u{9BAA}', [0x96, 0x8E]), ('\u{9BAB}', [0x8E, 0x4C]), ('\u{9BAD}', [0x8D, 0xF8]), 
    ('\u{9BAE}', [0x91, 0x4E]), ('\u{9BB1}', [0xFC, 0x44]), ('\u{9BB4}', [0xE9, 0xBE]), 
    ('\u{9BB9}', [0xE9, 0xC1]), ('\u{9BBB}', [0xFC, 0x45]), ('\u{9BC0}', [0xE9, 0xBF]), 
    ('\u{9BC6}', [0xE9, 0xC2]), ('\u{9BC9}', [0x8C, 0xEF]), ('\u{9BCA}', [0xE9, 0xC0]), 
    ('\u{9BCF}', [0xE9, 0xC3]), ('\u{9BD1}', [0xE9, 0xC4]), ('\u{9BD2}', [0xE9, 0xC5]), 
    ('\u{9BD4}', [0xE9, 0xC9]), ('\u{9BD6}', [0x8E, 0x49]), ('\u{9BDB}', [0x91, 0xE2]), 
    ('\u{9BE1}', [0xE9, 0xCA]), ('\u{9BE2}', [0xE9, 0xC7]), ('\u{9BE3}', [0xE9, 0xC6]), 
    ('\u{9BE4}', [0xE9, 0xC8]), ('\u{9BE8}', [0x8C, 0x7E]), ('\u{9BF0}', [0xE9, 0xCE]), 
    ('\u{9BF1}', [0xE9, 0xCD]), ('\u{9BF2}', [0xE9, 0xCC]), ('\u{9BF5}', [0x88, 0xB1]), 
    ('\u{9C00}', [0xFC, 0x46]), ('\u{9C04}', [0xE9, 0xD8]), ('\u{9C06}', [0xE9, 0xD4]), 
    ('\u{9C08}', [0xE9, 0xD5]), ('\u{9C09}', [0xE9, 0xD1]), ('\u{9C0A}', [0xE9, 0xD7]), 
    ('\u{9C0C}', [0xE9, 0xD3]), ('\u{9C0D}', [0x8A, 0x82]), ('\u{9C10}', [0x98, 0x6B]), 
    ('\u{9C12}', [0xE9, 0xD6]), ('\u{9C13}', [0xE9, 0xD2]), ('\u{9C14}', [0xE9, 0xD0]), 
    ('\u{9C15}', [0xE9, 0xCF]), ('\u{9C1B}', [0xE9, 0xDA]), ('\u{9C21}', [0xE9, 0xDD]), 
    ('\u{9C24}', [0xE9, 0xDC]), ('\u{9C25}', [0xE9, 0xDB]), ('\u{9C2D}', [0x95, 0x68]), 
    ('\u{9C2E}', [0xE9, 0xD9]), ('\u{9C2F}', [0x88, 0xF1]), ('\u{9C30}', [0xE9, 0xDE]), 
    ('\u{9C32}', [0xE9, 0xE0]), ('\u{9C39}', [0x8A, 0x8F]), ('\u{9C3A}', [0xE9, 0xCB]), 
    ('\u{9C3B}', [0x89, 0x56]), ('\u{9C3E}', [0xE9, 0xE2]), ('\u{9C46}', [0xE9, 0xE1]), 
    ('\u{9C47}', [0xE9, 0xDF]), ('\u{9C48}', [0x92, 0x4C]), ('\u{9C52}', [0x96, 0x90]), 
    ('\u{9C57}', [0x97, 0xD8]), ('\u{9C5A}', [0xE9, 0xE3]), ('\u{9C60}', [0xE9, 0xE4]), 
    ('\u{9C67}', [0xE9, 0xE5]), ('\u{9C76}', [0xE9, 0xE6]), ('\u{9C78}', [0xE9, 0xE7]), 
    ('\u{9CE5}', [0x92, 0xB9]), ('\u{9CE7}', [0xE9, 0xE8]), ('\u{9CE9}', [0x94, 0xB5]), 
    ('\u{9CEB}', [0xE9, 0xED]), ('\u{9CEC}', [0xE9, 0xE9]), ('\u{9CF0}', [0xE9, 0xEA]), 
    ('\u{9CF3}', [0x96, 0x50]), ('\u{9CF4}', [0x96, 0xC2]), ('\u{9CF6}', [0x93, 0xCE]), 
    ('\u{9D03}', [0xE9, 0xEE]), ('\u{9D06}', [0xE9, 0xEF]), ('\u{9D07}', [0x93, 0xBC]), 
    ('\u{9D08}', [0xE9, 0xEC]), ('\u{9D09}', [0xE9, 0xEB]), ('\u{9D0E}', [0x89, 0xA8]), 
    ('\u{9D12}', [0xE9, 0xF7]), ('\u{9D15}', [0xE9, 0xF6]), ('\u{9D1B}', [0x89, 0x95]), 
    ('\u{9D1F}', [0xE9, 0xF4]), ('\u{9D23}', [0xE9, 0xF3]), ('\u{9D26}', [0xE9, 0xF1]), 
    ('\u{9D28}', [0x8A, 0x9B]), ('\u{9D2A}', [0xE9, 0xF0]), ('\u{9D2B}', [0x8E, 0xB0]), 
    ('\u{9D2C}', [0x89, 0xA7]), ('\u{9D3B}', [0x8D, 0x83]), ('\u{9D3E}', [0xE9, 0xFA]), 
    ('\u{9D3F}', [0xE9, 0xF9]), ('\u{9D41}', [0xE9, 0xF8]), ('\u{9D44}', [0xE9, 0xF5]), 
    ('\u{9D46}', [0xE9, 0xFB]), ('\u{9D48}', [0xE9, 0xFC]), ('\u{9D50}', [0xEA, 0x44]), 
    ('\u{9D51}', [0xEA, 0x43]), ('\u{9D59}', [0xEA, 0x45]), ('\u{9D5C}', [0x89, 0x4C]), 
    ('\u{9D5D}', [0xEA, 0x40]), ('\u{9D5E}', [0xEA, 0x41]), ('\u{9D60}', [0x8D, 0x94]), 
    ('\u{9D61}', [0x96, 0xB7]), ('\u{9D64}', [0xEA, 0x42]), ('\u{9D6B}', [0xFC, 0x48]), 
    ('\u{9D6C}', [0x96, 0x51]), ('\u{9D6F}', [0xEA, 0x4A]), ('\u{9D70}', [0xFC, 0x47]), 
    ('\u{9D72}', [0xEA, 0x46]), ('\u{9D7A}', [0xEA, 0x4B]), ('\u{9D87}', [0xEA, 0x48]), 
    ('\u{9D89}', [0xEA, 0x47]), ('\u{9D8F}', [0x8C, 0x7B]), ('\u{9D9A}', [0xEA, 0x4C]), 
    ('\u{9DA4}', [0xEA, 0x4D]), ('\u{9DA9}', [0xEA, 0x4E]), ('\u{9DAB}', [0xEA, 0x49]), 
    ('\u{9DAF}', [0xE9, 0xF2]), ('\u{9DB2}', [0xEA, 0x4F]), ('\u{9DB4}', [0x92, 0xDF]), 
    ('\u{9DB8}', [0xEA, 0x53]), ('\u{9DBA}', [0xEA, 0x54]), ('\u{9DBB}', [0xEA, 0x52]), 
    ('\u{9DC1}', [0xEA, 0x51]), ('\u{9DC2}', [0xEA, 0x57]), ('\u{9DC4}', [0xEA, 0x50]), 
    ('\u{9DC6}', [0xEA, 0x55]), ('\u{9DCF}', [0xEA, 0x56]), ('\u{9DD3}', [0xEA, 0x59]), 
    ('\u{9DD9}', [0xEA, 0x58]), ('\u{9DE6}', [0xEA, 0x5B]), ('\u{9DED}', [0xEA, 0x5C]), 
    ('\u{9DEF}', [0xEA, 0x5D]), ('\u{9DF2}', [0x98, 0x68]), ('\u{9DF8}', [0xEA, 0x5A]), 
    ('\u{9DF9}', [0x91, 0xE9]), ('\u{9DFA}', [0x8D, 0xEB]), ('\u{9DFD}', [0xEA, 0x5E]), 
    ('\u{9E19}', [0xFC, 0x4A]), ('\u{9E1A}', [0xEA, 0x5F]), ('\u{9E1B}', [0xEA, 0x60]), 
    ('\u{9E1E}', [0xEA, 0x61]), ('\u{9E75}', [0xEA, 0x62]), ('\u{9E78}', [0x8C, 0xB2]), 
    ('\u{9E79}', [0xEA, 0x63]), ('\u{9E7D}', [0xEA, 0x64]), ('\u{9E7F}', [0x8E, 0xAD]), 
    ('\u{9E81}', [0xEA, 0x65]), ('\u{9E88}', [0xEA, 0x66]), ('\u{9E8B}', [0xEA, 0x67]), 
    ('\u{9E8C}', [0xEA, 0x68]), ('\u{9E91}', [0xEA, 0x6B]), ('\u{9E92}', [0xEA, 0x69]), 
    ('\u{9E93}', [0x98, 0x5B]), ('\u{9E95}', [0xEA, 0x6A]), ('\u{9E97}', [0x97, 0xED]), 
    ('\u{9E9D}', [0xEA, 0x6C]), ('\u{9E9F}', [0x97, 0xD9]), ('\u{9EA5}', [0xEA, 0x6D]), 
    ('\u{9EA6}', [0x94, 0x9E]), ('\u{9EA9}', [0xEA, 0x6E]), ('\u{9EAA}', [0xEA, 0x70]), 
    ('\u{9EAD}', [0xEA, 0x71]), ('\u{9EB8}', [0xEA, 0x6F]), ('\u{9EB9}', [0x8D, 0x8D]), 
    ('\u{9EBA}', [0x96, 0xCB]), ('\u{9EBB}', [0x96, 0x83]), ('\u{9EBC}', [0x9B, 0xF5]), 
    ('\u{9EBE}', [0x9F, 0x80]), ('\u{9EBF}', [0x96, 0x9B]), ('\u{9EC4}', [0x89, 0xA9]), 
    ('\u{9ECC}', [0xEA, 0x73]), ('\u{9ECD}', [0x8B, 0x6F]), ('\u{9ECE}', [0xEA, 0x74]), 
    ('\u{9ECF}', [0xEA, 0x75]), ('\u{9ED0}', [0xEA, 0x76]), ('\u{9ED1}', [0xFC, 0x4B]), 
    ('\u{9ED2}', [0x8D, 0x95]), ('\u{9ED4}', [0xEA, 0x77]), ('\u{9ED8}', [0xE0, 0xD2]), 
    ('\u{9ED9}', [0x96, 0xD9]), ('\u{9EDB}', [0x91, 0xE1]), ('\u{9EDC}', [0xEA, 0x78]), 
    ('\u{9EDD}', [0xEA, 0x7A]), ('\u{9EDE}', [0xEA, 0x79]), ('\u{9EE0}', [0xEA, 0x7B]), 
    ('\u{9EE5}', [0xEA, 0x7C]), ('\u{9EE8}', [0xEA, 0x7D]), ('\u{9EEF}', [0xEA, 0x7E]), 
    ('\u{9EF4}', [0xEA, 0x80]), ('\u{9EF6}', [0xEA, 0x81]), ('\u{9EF7}', [0xEA, 0x82]), 
    ('\u{9EF9}', [0xEA, 0x83]), ('\u{9EFB}', [0xEA, 0x84]), ('\u{9EFC}', [0xEA, 0x85]), 
    ('\u{9EFD}', [0xEA, 0x86]), ('\u{9F07}', [0xEA, 0x87]), ('\u{9F08}', [0xEA, 0x88]), 
    ('\u{9F0E}', [0x93, 0x43]), ('\u{9F13}', [0x8C, 0xDB]), ('\u{9F15}', [0xEA, 0x8A]), 
    ('\u{9F20}', [0x91, 0x6C]), ('\u{9F21}', [0xEA, 0x8B]), ('\u{9F2C}', [0xEA, 0x8C]), 
    ('\u{9F3B}', [0x95, 0x40]), ('\u{9F3E}', [0xEA, 0x8D]), ('\u{9F4A}', [0xEA, 0x8E]), 
    ('\u{9F4B}', [0xE2, 0x56]), ('\u{9F4E}', [0xE6, 0xD8]), ('\u{9F4F}', [0xE8, 0xEB]), 
    ('\u{9F52}', [0xEA, 0x8F]), ('\u{9F54}', [0xEA, 0x90]), ('\u{9F5F}', [0xEA, 0x92]), 
    ('\u{9F60}', [0xEA, 0x93]), ('\u{9F61}', [0xEA, 0x94]), ('\u{9F62}', [0x97, 0xEE]), 
    ('\u{9F63}', [0xEA, 0x91]), ('\u{9F66}', [0xEA, 0x95]), ('\u{9F67}', [0xEA, 0x96]), 
    ('\u{9F6A}', [0xEA, 0x98]), ('\u{9F6C}', [0xEA, 0x97]), ('\u{9F72}', [0xEA, 0x9A]), 
    ('\u{9F76}', [0xEA, 0x9B]), ('\u{9F77}', [0xEA, 0x99]), ('\u{9F8D}', [0x97, 0xB4]), 
    ('\u{9F95}', [0xEA, 0x9C]), ('\u{9F9C}', [0xEA, 0x9D]), ('\u{9F9D}', [0xE2, 0x73]), 
    ('\u{9FA0}', [0xEA, 0x9E]), ('\u{F929}', [0xFA, 0xE0]), ('\u{F9DC}', [0xFB, 0xE9]), 
    ('\u{FA0E}', [0xFA, 0x90]), ('\u{FA0F}', [0xFA, 0x9B]), ('\u{FA10}', [0xFA, 0x9C]), 
    ('\u{FA11}', [0xFA, 0xB1]), ('\u{FA12}', [0xFA, 0xD8]), ('\u{FA13}', [0xFA, 0xE8]), 
    ('\u{FA14}', [0xFA, 0xEA]), ('\u{FA15}', [0xFB, 0x58]), ('\u{FA16}', [0xFB, 0x5E]), 
    ('\u{FA17}', [0xFB, 0x75]), ('\u{FA18}', [0xFB, 0x7D]), ('\u{FA19}', [0xFB, 0x7E]), 
    ('\u{FA1A}', [0xFB, 0x80]), ('\u{FA1B}', [0xFB, 0x82]), ('\u{FA1C}', [0xFB, 0x86]), 
    ('\u{FA1D}', [0xFB, 0x89]), ('\u{FA1E}', [0xFB, 0x92]), ('\u{FA1F}', [0xFB, 0x9D]), 
    ('\u{FA20}', [0xFB, 0x9F]), ('\u{FA21}', [0xFB, 0xA0]), ('\u{FA22}', [0xFB, 0xA9]), 
    ('\u{FA23}', [0xFB, 0xB1]), ('\u{FA24}', [0xFB, 0xB3]), ('\u{FA25}', [0xFB, 0xB4]), 
    ('\u{FA26}', [0xFB, 0xB7]), ('\u{FA27}', [0xFB, 0xD3]), ('\u{FA28}', [0xFB, 0xDA]), 
    ('\u{FA29}', [0xFB, 0xEA]), ('\u{FA2A}', [0xFB, 0xF6]), ('\u{FA2B}', [0xFB, 0xF7]), 
    ('\u{FA2C}', [0xFB, 0xF9]), ('\u{FA2D}', [0xFC, 0x49]), ('\u{FF01}', [0x81, 0x49]), 
    ('\u{FF02}', [0xFA, 0x57]), ('\u{FF03}', [0x81, 0x94]), ('\u{FF04}', [0x81, 0x90]), 
    ('\u{FF05}', [0x81, 0x93]), ('\u{FF06}', [0x81, 0x95]), ('\u{FF07}', [0xFA, 0x56]), 
    ('\u{FF08}', [0x81, 0x69]), ('\u{FF09}', [0x81, 0x6A]), ('\u{FF0A}', [0x81, 0x96]), 
    ('\u{FF0B}', [0x81, 0x7B]), ('\u{FF0C}', [0x81, 0x43]), ('\u{FF0D}', [0x81, 0x7C]), 
    ('\u{FF0E}', [0x81, 0x44]), ('\u{FF0F}', [0x81, 0x5E]), ('\u{FF10}', [0x82, 0x4F]), 
    ('\u{FF11}', [0x82, 0x50]), ('\u{FF12}', [0x82, 0x51]), ('\u{FF13}', [0x82, 0x52]), 
    ('\u{FF14}', [0x82, 0x53]), ('\u{FF15}', [0x82, 0x54]), ('\u{FF16}', [0x82, 0x55]), 
    ('\u{FF17}', [0x82, 0x56]), ('\u{FF18}', [0x82, 0x57]), ('\u{FF19}', [0x82, 0x58]), 
    ('\u{FF1A}', [0x81, 0x46]), ('\u{FF1B}', [0x81, 0x47]), ('\u{FF1C}', [0x81, 0x83]), 
    ('\u{FF1D}', [0x81, 0x81]), ('\u{FF1E}', [0x81, 0x84]), ('\u{FF1F}', [0x81, 0x48]), 
    ('\u{FF20}', [0x81, 0x97]), ('\u{FF21}', [0x82, 0x60]), ('\u{FF22}', [0x82, 0x61]), 
    ('\u{FF23}', [0x82, 0x62]), ('\u{FF24}', [0x82, 0x63]), ('\u{FF25}', [0x82, 0x64]), 
    ('\u{FF26}', [0x82, 0x65]), ('\u{FF27}', [0x82, 0x66]), ('\u{FF28}', [0x82, 0x67]), 
    ('\u{FF29}', [0x82, 0x68]), ('\u{FF2A}', [0x82, 0x69]), ('\u{FF2B}', [0x82, 0x6A]), 
    ('\u{FF2C}', [0x82, 0x6B]), ('\u{FF2D}', [0x82, 0x6C]), ('\u{FF2E}', [0x82, 0x6D]), 
    ('\u{FF2F}', [0x82, 0x6E]), ('\u{FF30}', [0x82, 0x6F]), ('\u{FF31}', [0x82, 0x70]), 
    ('\u{FF32}', [0x82, 0x71]), ('\u{FF33}', [0x82, 0x72]), ('\u{FF34}', [0x82, 0x73]), 
    ('\u{FF35}', [0x82, 0x74]), ('\u{FF36}', [0x82, 0x75]), ('\u{FF37}', [0x82, 0x76]), 
    ('\u{FF38}', [0x82, 0x77]), ('\u{FF39}', [0x82, 0x78]), ('\u{FF3A}', [0x82, 0x79]), 
    ('\u{FF3B}', [0x81, 0x6D]), ('\u{FF3C}', [0x81, 0x5F]), ('\u{FF3D}', [0x81, 0x6E]), 
    ('\u{FF3E}', [0x81, 0x4F]), ('\u{FF3F}', [0x81, 0x51]), ('\u{FF40}', [0x81, 0x4D]), 
    ('\u{FF41}', [0x82, 0x81]), ('\u{FF42}', [0x82, 0x82]), ('\u{FF43}', [0x82, 0x83]), 
    ('\u{FF44}', [0x82, 0x84]), ('\u{FF45}', [0x82, 0x85]), ('\u{FF46}', [0x82, 0x86]), 
"#

/-- src/generated/whatwg/shiftjis_whatwg_tables.rs.inc:3828-3837 -/
noncomputable def encode19 : List Text := lines! r#"    ('\u{FF47}', [0x82, 0x87]), ('\u{FF48}', [0x82, 0x88]), ('\u{FF49}', [0x82, 0x89]), 
    ('\u{FF4A}', [0x82, 0x8A]), ('\u{FF4B}', [0x82, 0x8B]), ('\u{FF4C}', [0x82, 0x8C]), 
    ('\u{FF4D}', [0x82, 0x8D]), ('\u{FF4E}', [0x82, 0x8E]), ('\u{FF4F}', [0x82, 0x8F]), 
    ('\u{FF50}', [0x82, 0x90]), ('\u{FF51}', [0x82, 0x91]), ('\u{FF52}', [0x82, 0x92]), 
    ('\u{FF53}', [0x82, 0x93]), ('\u{FF54}', [0x82, 0x94]), ('\u{FF55}', [0x82, 0x95]), 
    ('\u{FF56}', [0x82, 0x96]), ('\u{FF57}', [0x82, 0x97]), ('\u{FF58}', [0x82, 0x98]), 
    ('\u{FF59}', [0x82, 0x99]), ('\u{FF5A}', [0x82, 0x9A]), ('\u{FF5B}', [0x81, 0x6F]), 
    ('\u{FF5C}', [0x81, 0x62]), ('\u{FF5D}', [0x81, 0x70]), ('\u{FF5E}', [0x81, 0x60]), 
    ('\u{FFE0}', [0x81, 0x91]), ('\u{FFE1}', [0x81, 0x92]), ('\u{FFE2}', [0x81, 0xCA]), 
    ('\u{FFE3}', [0x81, 0x50]), ('\u{FFE4}', [0xFA, 0x55]), ('\u{FFE5}', [0x81, 0x8F]), 
"#

end Verif.Files.ShiftJis
