import Verif.Text

/-! Generated by tools/gen_files.py: verbatim copies of parts of files of /repo. -/

namespace Verif.Files.ShiftJis

/-- src/generated/whatwg/shiftjis_whatwg_tables.rs.inc:5-51 -/
noncomputable def decode0 : List Text := lines! r#"    '\u{3000}','\u{3001}','\u{3002}','\u{FF0C}','\u{FF0E}','\u{30FB}','\u{FF1A}','\u{FF1B}',
    '\u{FF1F}','\u{FF01}','\u{309B}','\u{309C}','\u{00B4}','\u{FF40}','\u{00A8}','\u{FF3E}',
    '\u{FFE3}','\u{FF3F}','\u{30FD}','\u{30FE}','\u{309D}','\u{309E}','\u{3003}','\u{4EDD}',
    '\u{3005}','\u{3006}','\u{3007}','\u{30FC}','\u{2015}','\u{2010}','\u{FF0F}','\u{FF3C}',
    '\u{FF5E}','\u{2225}','\u{FF5C}','\u{2026}','\u{2025}','\u{2018}','\u{2019}','\u{201C}',
    '\u{201D}','\u{FF08}','\u{FF09}','\u{3014}','\u{3015}','\u{FF3B}','\u{FF3D}','\u{FF5B}',
    '\u{FF5D}','\u{3008}','\u{3009}','\u{300A}','\u{300B}','\u{300C}','\u{300D}','\u{300E}',
    '\u{300F}','\u{3010}','\u{3011}','\u{FF0B}','\u{FF0D}','\u{00B1}','\u{00D7}','\u{00F7}',
    '\u{FF1D}','\u{2260}','\u{FF1C}','\u{FF1E}','\u{2266}','\u{2267}','\u{221E}','\u{2234}',
    '\u{2642}','\u{2640}','\u{00B0}','\u{2032}','\u{2033}','\u{2103}','\u{FFE5}','\u{FF04}',
    '\u{FFE0}','\u{FFE1}','\u{FF05}','\u{FF03}','\u{FF06}','\u{FF0A}','\u{FF20}','\u{00A7}',
    '\u{2606}','\u{2605}','\u{25CB}','\u{25CF}','\u{25CE}','\u{25C7}','\u{25C6}','\u{25A1}',
    '\u{25A0}','\u{25B3}','\u{25B2}','\u{25BD}','\u{25BC}','\u{203B}','\u{3012}','\u{2192}',
    '\u{2190}','\u{2191}','\u{2193}','\u{3013}','�','�','�','�',
    '�','�','�','�','�','�','�','\u{2208}',
    '\u{220B}','\u{2286}','\u{2287}','\u{2282}','\u{2283}','\u{222A}','\u{2229}','�',
    '�','�','�','�','�','�','�','\u{2227}',
    '\u{2228}','\u{FFE2}','\u{21D2}','\u{21D4}','\u{2200}','\u{2203}','�','�',
    '�','�','�','�','�','�','�','�',
    '�','\u{2220}','\u{22A5}','\u{2312}','\u{2202}','\u{2207}','\u{2261}','\u{2252}',
    '\u{226A}','\u{226B}','\u{221A}','\u{223D}','\u{221D}','\u{2235}','\u{222B}','\u{222C}',
    '�','�','�','�','�','�','�','\u{212B}',
    '\u{2030}','\u{266F}','\u{266D}','\u{266A}','\u{2020}','\u{2021}','\u{00B6}','�',
    '�','�','�','\u{25EF}','�','�','�','�',
    '�','�','�','�','�','�','�','�',
    '�','�','�','\u{FF10}','\u{FF11}','\u{FF12}','\u{FF13}','\u{FF14}',
    '\u{FF15}','\u{FF16}','\u{FF17}','\u{FF18}','\u{FF19}','�','�','�',
    '�','�','�','�','\u{FF21}','\u{FF22}','\u{FF23}','\u{FF24}',
    '\u{FF25}','\u{FF26}','\u{FF27}','\u{FF28}','\u{FF29}','\u{FF2A}','\u{FF2B}','\u{FF2C}',
    '\u{FF2D}','\u{FF2E}','\u{FF2F}','\u{FF30}','\u{FF31}','\u{FF32}','\u{FF33}','\u{FF34}',
    '\u{FF35}','\u{FF36}','\u{FF37}','\u{FF38}','\u{FF39}','\u{FF3A}','�','�',
    '�','�','�','�','\u{FF41}','\u{FF42}','\u{FF43}','\u{FF44}',
    '\u{FF45}','\u{FF46}','\u{FF47}','\u{FF48}','\u{FF49}','\u{FF4A}','\u{FF4B}','\u{FF4C}',
    '\u{FF4D}','\u{FF4E}','\u{FF4F}','\u{FF50}','\u{FF51}','\u{FF52}','\u{FF53}','\u{FF54}',
    '\u{FF55}','\u{FF56}','\u{FF57}','\u{FF58}','\u{FF59}','\u{FF5A}','�','�',
    '�','�','\u{3041}','\u{3042}','\u{3043}','\u{3044}','\u{3045}','\u{3046}',
    '\u{3047}','\u{3048}','\u{3049}','\u{304A}','\u{304B}','\u{304C}','\u{304D}','\u{304E}',
    '\u{304F}','\u{3050}','\u{3051}','\u{3052}','\u{3053}','\u{3054}','\u{3055}','\u{3056}',
    '\u{3057}','\u{3058}','\u{3059}','\u{305A}','\u{305B}','\u{305C}','\u{305D}','\u{305E}',
    '\u{305F}','\u{3060}','\u{3061}','\u{3062}','\u{3063}','\u{3064}','\u{3065}','\u{3066}',
    '\u{3067}','\u{3068}','\u{3069}','\u{306A}','\u{306B}','\u{306C}','\u{306D}','\u{306E}',
    '\u{306F}','\u{3070}','\u{3071}','\u{3072}','\u{3073}','\u{3074}','\u{3075}','\u{3076}',
    '\u{3077}','\u{3078}','\u{3079}','\u{307A}','\u{307B}','\u{307C}','\u{307D}','\u{307E}',
    '\u{307F}','\u{3080}','\u{3081}','\u{3082}','\u{3083}','\u{3084}','\u{3085}','\u{3086}',
    '\u{3087}','\u{3088}','\u{3089}','\u{308A}','\u{308B}','\u{308C}','\u{308D}','\u{308E}',
    '\u{308F}','\u{3090}','\u{3091}','\u{3092}','\u{3093}','�','�','�',
    '�','�','�','�','�','�','�','�',
"#

/-- src/generated/whatwg/shiftjis_whatwg_tables.rs.inc:52-98 -/
noncomputable def decode1 : List Text := lines! r#"    '\u{30A1}','\u{30A2}','\u{30A3}','\u{30A4}','\u{30A5}','\u{30A6}','\u{30A7}','\u{30A8}',
    '\u{30A9}','\u{30AA}','\u{30AB}','\u{30AC}','\u{30AD}','\u{30AE}','\u{30AF}','\u{30B0}',
    '\u{30B1}','\u{30B2}','\u{30B3}','\u{30B4}','\u{30B5}','\u{30B6}','\u{30B7}','\u{30B8}',
    '\u{30B9}','\u{30BA}','\u{30BB}','\u{30BC}','\u{30BD}','\u{30BE}','\u{30BF}','\u{30C0}',
    '\u{30C1}','\u{30C2}','\u{30C3}','\u{30C4}','\u{30C5}','\u{30C6}','\u{30C7}','\u{30C8}',
    '\u{30C9}','\u{30CA}','\u{30CB}','\u{30CC}','\u{30CD}','\u{30CE}','\u{30CF}','\u{30D0}',
    '\u{30D1}','\u{30D2}','\u{30D3}','\u{30D4}','\u{30D5}','\u{30D6}','\u{30D7}','\u{30D8}',
    '\u{30D9}','\u{30DA}','\u{30DB}','\u{30DC}','\u{30DD}','\u{30DE}','\u{30DF}','\u{30E0}',
    '\u{30E1}','\u{30E2}','\u{30E3}','\u{30E4}','\u{30E5}','\u{30E6}','\u{30E7}','\u{30E8}',
    '\u{30E9}','\u{30EA}','\u{30EB}','\u{30EC}','\u{30ED}','\u{30EE}','\u{30EF}','\u{30F0}',
    '\u{30F1}','\u{30F2}','\u{30F3}','\u{30F4}','\u{30F5}','\u{30F6}','�','�',
    '�','�','�','�','�','�','\u{0391}','\u{0392}',
    '\u{0393}','\u{0394}','\u{0395}','\u{0396}','\u{0397}','\u{0398}','\u{0399}','\u{039A}',
    '\u{039B}','\u{039C}','\u{039D}','\u{039E}','\u{039F}','\u{03A0}','\u{03A1}','\u{03A3}',
    '\u{03A4}','\u{03A5}','\u{03A6}','\u{03A7}','\u{03A8}','\u{03A9}','�','�',
    '�','�','�','�','�','�','\u{03B1}','\u{03B2}',
    '\u{03B3}','\u{03B4}','\u{03B5}','\u{03B6}','\u{03B7}','\u{03B8}','\u{03B9}','\u{03BA}',
    '\u{03BB}','\u{03BC}','\u{03BD}','\u{03BE}','\u{03BF}','\u{03C0}','\u{03C1}','\u{03C3}',
    '\u{03C4}','\u{03C5}','\u{03C6}','\u{03C7}','\u{03C8}','\u{03C9}','�','�',
    '�','�','�','�','�','�','�','�',
    '�','�','�','�','�','�','�','�',
    '�','�','�','�','�','�','�','�',
    '�','�','�','�','�','�','�','�',
    '�','�','�','�','\u{0410}','\u{0411}','\u{0412}','\u{0413}',
    '\u{0414}','\u{0415}','\u{0401}','\u{0416}','\u{0417}','\u{0418}','\u{0419}','\u{041A}',
    '\u{041B}','\u{041C}','\u{041D}','\u{041E}','\u{041F}','\u{0420}','\u{0421}','\u{0422}',
    '\u{0423}','\u{0424}','\u{0425}','\u{0426}','\u{0427}','\u{0428}','\u{0429}','\u{042A}',
    '\u{042B}','\u{042C}','\u{042D}','\u{042E}','\u{042F}','�','�','�',
    '�','�','�','�','�','�','�','�',
    '�','�','�','�','\u{0430}','\u{0431}','\u{0432}','\u{0433}',
    '\u{0434}','\u{0435}','\u{0451}','\u{0436}','\u{0437}','\u{0438}','\u{0439}','\u{043A}',
    '\u{043B}','\u{043C}','\u{043D}','\u{043E}','\u{043F}','\u{0440}','\u{0441}','\u{0442}',
    '\u{0443}','\u{0444}','\u{0445}','\u{0446}','\u{0447}','\u{0448}','\u{0449}','\u{044A}',
    '\u{044B}','\u{044C}','\u{044D}','\u{044E}','\u{044F}','�','�','�',
    '�','�','�','�','�','�','�','�',
    '�','�','\u{2500}','\u{2502}','\u{250C}','\u{2510}','\u{2518}','\u{2514}',
    '\u{251C}','\u{252C}','\u{2524}','\u{2534}','\u{253C}','\u{2501}','\u{2503}','\u{250F}',
    '\u{2513}','\u{251B}','\u{2517}','\u{2523}','\u{2533}','\u{252B}','\u{253B}','\u{254B}',
    '\u{2520}','\u{252F}','\u{2528}','\u{2537}','\u{253F}','\u{251D}','\u{2530}','\u{2525}',
    '\u{2538}','\u{2542}','�','�','�','�','�','�',
    '�','�','�','�','�','�','�','�',
    '�','�','�','�','�','�','�','�',
    '�','�','�','�','�','�','�','�',
    '�','�','�','�','�','�','�','�',
    '�','�','�','�','�','�','�','�',
    '�','�','�','�','�','�','�','�',
    '�','�','�','�','�','�','�','�',
"#

/-- src/generated/whatwg/shiftjis_whatwg_tables.rs.inc:99-145 -/
noncomputable def decode2 : List Text := lines! r#"    '�','�','�','�','�','�','�','�',
    '�','�','�','�','�','�','�','�',
    '�','�','�','�','�','�','�','�',
    '�','�','�','�','�','�','�','�',
    '�','�','�','�','�','�','�','�',
    '�','�','�','�','�','�','�','�',
    '�','�','�','�','�','�','�','�',
    '�','�','�','�','�','�','�','�',
    '�','�','�','�','�','�','�','�',
    '�','�','�','�','�','�','�','�',
    '�','�','�','�','�','�','�','�',
    '�','�','�','�','�','�','�','�',
    '�','�','�','�','�','�','�','�',
    '�','�','�','�','�','�','�','�',
    '�','�','�','�','�','�','�','�',
    '�','�','�','�','�','�','�','�',
    '�','�','�','�','�','�','�','�',
    '�','�','�','�','�','�','�','�',
    '�','�','�','�','�','�','�','�',
    '�','�','�','�','�','�','�','�',
    '�','�','�','�','�','�','�','�',
    '�','�','�','�','�','�','�','�',
    '�','�','�','�','�','�','�','�',
    '�','�','�','�','�','�','�','�',
    '�','�','�','�','�','�','�','�',
    '�','�','�','�','�','�','�','�',
    '�','�','�','�','�','�','�','�',
    '�','�','�','�','�','�','�','�',
    '�','�','�','�','�','�','�','�',
    '�','�','�','�','�','�','�','�',
    '�','�','�','�','�','�','�','�',
    '�','�','�','�','�','�','�','�',
    '�','�','�','�','�','�','�','�',
    '�','�','�','�','�','�','�','�',
    '�','�','�','�','�','�','�','�',
    '�','�','�','�','�','�','�','�',
    '�','�','�','�','�','�','�','�',
    '�','�','�','�','�','�','�','�',
    '�','�','�','�','�','�','�','�',
    '�','�','�','�','�','�','�','�',
    '�','�','�','�','�','�','�','�',
    '�','�','�','�','�','�','�','�',
    '�','�','�','�','�','�','�','�',
    '�','�','�','�','�','�','�','�',
    '�','�','�','�','�','�','�','�',
    '�','�','�','�','�','�','�','�',
    '�','�','�','�','�','�','�','�',
"#

/-- src/generated/whatwg/shiftjis_whatwg_tables.rs.inc:146-192 -/
noncomputable def decode3 : List Text := lines! r#"    '\u{2460}','\u{2461}','\u{2462}','\u{2463}','\u{2464}','\u{2465}','\u{2466}','\u{2467}',
    '\u{2468}','\u{2469}','\u{246A}','\u{246B}','\u{246C}','\u{246D}','\u{246E}','\u{246F}',
    '\u{2470}','\u{2471}','\u{2472}','\u{2473}','\u{2160}','\u{2161}','\u{2162}','\u{2163}',
    '\u{2164}','\u{2165}','\u{2166}','\u{2167}','\u{2168}','\u{2169}','�','\u{3349}',
    '\u{3314}','\u{3322}','\u{334D}','\u{3318}','\u{3327}','\u{3303}','\u{3336}','\u{3351}',
    '\u{3357}','\u{330D}','\u{3326}','\u{3323}','\u{332B}','\u{334A}','\u{333B}','\u{339C}',
    '\u{339D}','\u{339E}','\u{338E}','\u{338F}','\u{33C4}','\u{33A1}','�','�',
    '�','�','�','�','�','�','\u{337B}','\u{301D}',
    '\u{301F}','\u{2116}','\u{33CD}','\u{2121}','\u{32A4}','\u{32A5}','\u{32A6}','\u{32A7}',
    '\u{32A8}','\u{3231}','\u{3232}','\u{3239}','\u{337E}','\u{337D}','\u{337C}','\u{2252}',
    '\u{2261}','\u{222B}','\u{222E}','\u{2211}','\u{221A}','\u{22A5}','\u{2220}','\u{221F}',
    '\u{22BF}','\u{2235}','\u{2229}','\u{222A}','�','�','�','�',
    '�','�','�','�','�','�','�','�',
    '�','�','�','�','�','�','�','�',
    '�','�','�','�','�','�','�','�',
    '�','�','�','�','�','�','�','�',
    '�','�','�','�','�','�','�','�',
    '�','�','�','�','�','�','�','�',
    '�','�','�','�','�','�','�','�',
    '�','�','�','�','�','�','�','�',
    '�','�','�','�','�','�','�','�',
    '�','�','�','�','�','�','�','�',
    '�','�','�','�','�','�','�','�',
    '�','�','�','�','�','�','�','�',
    '�','�','�','�','�','�','�','�',
    '�','�','�','�','�','�','�','�',
    '�','�','�','�','�','�','�','�',
    '�','�','�','�','�','�','�','�',
    '�','�','�','�','�','�','�','�',
    '�','�','�','�','�','�','�','�',
    '�','�','�','�','�','�','�','�',
    '�','�','�','�','�','�','�','�',
    '�','�','�','�','�','�','�','�',
    '�','�','�','�','�','�','�','�',
    '�','�','�','�','�','�','�','�',
    '�','�','\u{4E9C}','\u{5516}','\u{5A03}','\u{963F}','\u{54C0}','\u{611B}',
    '\u{6328}','\u{59F6}','\u{9022}','\u{8475}','\u{831C}','\u{7A50}','\u{60AA}','\u{63E1}',
    '\u{6E25}','\u{65ED}','\u{8466}','\u{82A6}','\u{9BF5}','\u{6893}','\u{5727}','\u{65A1}',
    '\u{6271}','\u{5B9B}','\u{59D0}','\u{867B}','\u{98F4}','\u{7D62}','\u{7DBE}','\u{9B8E}',
    '\u{6216}','\u{7C9F}','\u{88B7}','\u{5B89}','\u{5EB5}','\u{6309}','\u{6697}','\u{6848}',
    '\u{95C7}','\u{978D}','\u{674F}','\u{4EE5}','\u{4F0A}','\u{4F4D}','\u{4F9D}','\u{5049}',
    '\u{56F2}','\u{5937}','\u{59D4}','\u{5A01}','\u{5C09}','\u{60DF}','\u{610F}','\u{6170}',
    '\u{6613}','\u{6905}','\u{70BA}','\u{754F}','\u{7570}','\u{79FB}','\u{7DAD}','\u{7DEF}',
    '\u{80C3}','\u{840E}','\u{8863}','\u{8B02}','\u{9055}','\u{907A}','\u{533B}','\u{4E95}',
    '\u{4EA5}','\u{57DF}','\u{80B2}','\u{90C1}','\u{78EF}','\u{4E00}','\u{58F1}','\u{6EA2}',
    '\u{9038}','\u{7A32}','\u{8328}','\u{828B}','\u{9C2F}','\u{5141}','\u{5370}','\u{54BD}',
    '\u{54E1}','\u{56E0}','\u{59FB}','\u{5F15}','\u{98F2}','\u{6DEB}','\u{80E4}','\u{852D}',
"#

/-- src/generated/whatwg/shiftjis_whatwg_tables.rs.inc:193-239 -/
noncomputable def decode4 : List Text := lines! r#"    '\u{9662}','\u{9670}','\u{96A0}','\u{97FB}','\u{540B}','\u{53F3}','\u{5B87}','\u{70CF}',
    '\u{7FBD}','\u{8FC2}','\u{96E8}','\u{536F}','\u{9D5C}','\u{7ABA}','\u{4E11}','\u{7893}',
    '\u{81FC}','\u{6E26}','\u{5618}','\u{5504}','\u{6B1D}','\u{851A}','\u{9C3B}','\u{59E5}',
    '\u{53A9}','\u{6D66}','\u{74DC}','\u{958F}','\u{5642}','\u{4E91}','\u{904B}','\u{96F2}',
    '\u{834F}','\u{990C}','\u{53E1}','\u{55B6}','\u{5B30}','\u{5F71}','\u{6620}','\u{66F3}',
    '\u{6804}','\u{6C38}','\u{6CF3}','\u{6D29}','\u{745B}','\u{76C8}','\u{7A4E}','\u{9834}',
    '\u{82F1}','\u{885B}','\u{8A60}','\u{92ED}','\u{6DB2}','\u{75AB}','\u{76CA}','\u{99C5}',
    '\u{60A6}','\u{8B01}','\u{8D8A}','\u{95B2}','\u{698E}','\u{53AD}','\u{5186}','\u{5712}',
    '\u{5830}','\u{5944}','\u{5BB4}','\u{5EF6}','\u{6028}','\u{63A9}','\u{63F4}','\u{6CBF}',
    '\u{6F14}','\u{708E}','\u{7114}','\u{7159}','\u{71D5}','\u{733F}','\u{7E01}','\u{8276}',
    '\u{82D1}','\u{8597}','\u{9060}','\u{925B}','\u{9D1B}','\u{5869}','\u{65BC}','\u{6C5A}',
    '\u{7525}','\u{51F9}','\u{592E}','\u{5965}','\u{5F80}','\u{5FDC}','\u{62BC}','\u{65FA}',
    '\u{6A2A}','\u{6B27}','\u{6BB4}','\u{738B}','\u{7FC1}','\u{8956}','\u{9D2C}','\u{9D0E}',
    '\u{9EC4}','\u{5CA1}','\u{6C96}','\u{837B}','\u{5104}','\u{5C4B}','\u{61B6}','\u{81C6}',
    '\u{6876}','\u{7261}','\u{4E59}','\u{4FFA}','\u{5378}','\u{6069}','\u{6E29}','\u{7A4F}',
    '\u{97F3}','\u{4E0B}','\u{5316}','\u{4EEE}','\u{4F55}','\u{4F3D}','\u{4FA1}','\u{4F73}',
    '\u{52A0}','\u{53EF}','\u{5609}','\u{590F}','\u{5AC1}','\u{5BB6}','\u{5BE1}','\u{79D1}',
    '\u{6687}','\u{679C}','\u{67B6}','\u{6B4C}','\u{6CB3}','\u{706B}','\u{73C2}','\u{798D}',
    '\u{79BE}','\u{7A3C}','\u{7B87}','\u{82B1}','\u{82DB}','\u{8304}','\u{8377}','\u{83EF}',
    '\u{83D3}','\u{8766}','\u{8AB2}','\u{5629}','\u{8CA8}','\u{8FE6}','\u{904E}','\u{971E}',
    '\u{868A}','\u{4FC4}','\u{5CE8}','\u{6211}','\u{7259}','\u{753B}','\u{81E5}','\u{82BD}',
    '\u{86FE}','\u{8CC0}','\u{96C5}','\u{9913}','\u{99D5}','\u{4ECB}','\u{4F1A}','\u{89E3}',
    '\u{56DE}','\u{584A}','\u{58CA}','\u{5EFB}','\u{5FEB}','\u{602A}','\u{6094}','\u{6062}',
    '\u{61D0}','\u{6212}','\u{62D0}','\u{6539}','\u{9B41}','\u{6666}','\u{68B0}','\u{6D77}',
    '\u{7070}','\u{754C}','\u{7686}','\u{7D75}','\u{82A5}','\u{87F9}','\u{958B}','\u{968E}',
    '\u{8C9D}','\u{51F1}','\u{52BE}','\u{5916}','\u{54B3}','\u{5BB3}','\u{5D16}','\u{6168}',
    '\u{6982}','\u{6DAF}','\u{788D}','\u{84CB}','\u{8857}','\u{8A72}','\u{93A7}','\u{9AB8}',
    '\u{6D6C}','\u{99A8}','\u{86D9}','\u{57A3}','\u{67FF}','\u{86CE}','\u{920E}','\u{5283}',
    '\u{5687}','\u{5404}','\u{5ED3}','\u{62E1}','\u{64B9}','\u{683C}','\u{6838}','\u{6BBB}',
    '\u{7372}','\u{78BA}','\u{7A6B}','\u{899A}','\u{89D2}','\u{8D6B}','\u{8F03}','\u{90ED}',
    '\u{95A3}','\u{9694}','\u{9769}','\u{5B66}','\u{5CB3}','\u{697D}','\u{984D}','\u{984E}',
    '\u{639B}','\u{7B20}','\u{6A2B}','\u{6A7F}','\u{68B6}','\u{9C0D}','\u{6F5F}','\u{5272}',
    '\u{559D}','\u{6070}','\u{62EC}','\u{6D3B}','\u{6E07}','\u{6ED1}','\u{845B}','\u{8910}',
    '\u{8F44}','\u{4E14}','\u{9C39}','\u{53F6}','\u{691B}','\u{6A3A}','\u{9784}','\u{682A}',
    '\u{515C}','\u{7AC3}','\u{84B2}','\u{91DC}','\u{938C}','\u{565B}','\u{9D28}','\u{6822}',
    '\u{8305}','\u{8431}','\u{7CA5}','\u{5208}','\u{82C5}','\u{74E6}','\u{4E7E}','\u{4F83}',
    '\u{51A0}','\u{5BD2}','\u{520A}','\u{52D8}','\u{52E7}','\u{5DFB}','\u{559A}','\u{582A}',
    '\u{59E6}','\u{5B8C}','\u{5B98}','\u{5BDB}','\u{5E72}','\u{5E79}','\u{60A3}','\u{611F}',
    '\u{6163}','\u{61BE}','\u{63DB}','\u{6562}','\u{67D1}','\u{6853}','\u{68FA}','\u{6B3E}',
    '\u{6B53}','\u{6C57}','\u{6F22}','\u{6F97}','\u{6F45}','\u{74B0}','\u{7518}','\u{76E3}',
    '\u{770B}','\u{7AFF}','\u{7BA1}','\u{7C21}','\u{7DE9}','\u{7F36}','\u{7FF0}','\u{809D}',
    '\u{8266}','\u{839E}','\u{89B3}','\u{8ACC}','\u{8CAB}','\u{9084}','\u{9451}','\u{9593}',
    '\u{9591}','\u{95A2}','\u{9665}','\u{97D3}','\u{9928}','\u{8218}','\u{4E38}','\u{542B}',
    '\u{5CB8}','\u{5DCC}','\u{73A9}','\u{764C}','\u{773C}','\u{5CA9}','\u{7FEB}','\u{8D0B}',
    '\u{96C1}','\u{9811}','\u{9854}','\u{9858}','\u{4F01}','\u{4F0E}','\u{5371}','\u{559C}',
    '\u{5668}','\u{57FA}','\u{5947}','\u{5B09}','\u{5BC4}','\u{5C90}','\u{5E0C}','\u{5E7E}',
    '\u{5FCC}','\u{63EE}','\u{673A}','\u{65D7}','\u{65E2}','\u{671F}','\u{68CB}','\u{68C4}',
"#

/-- src/generated/whatwg/shiftjis_whatwg_tables.rs.inc:240-286 -/
noncomputable def decode5 : List Text := lines! r#"    '\u{6A5F}','\u{5E30}','\u{6BC5}','\u{6C17}','\u{6C7D}','\u{757F}','\u{7948}','\u{5B63}',
    '\u{7A00}','\u{7D00}','\u{5FBD}','\u{898F}','\u{8A18}','\u{8CB4}','\u{8D77}','\u{8ECC}',
    '\u{8F1D}','\u{98E2}','\u{9A0E}','\u{9B3C}','\u{4E80}','\u{507D}','\u{5100}','\u{5993}',
    '\u{5B9C}','\u{622F}','\u{6280}','\u{64EC}','\u{6B3A}','\u{72A0}','\u{7591}','\u{7947}',
    '\u{7FA9}','\u{87FB}','\u{8ABC}','\u{8B70}','\u{63AC}','\u{83CA}','\u{97A0}','\u{5409}',
    '\u{5403}','\u{55AB}','\u{6854}','\u{6A58}','\u{8A70}','\u{7827}','\u{6775}','\u{9ECD}',
    '\u{5374}','\u{5BA2}','\u{811A}','\u{8650}','\u{9006}','\u{4E18}','\u{4E45}','\u{4EC7}',
    '\u{4F11}','\u{53CA}','\u{5438}','\u{5BAE}','\u{5F13}','\u{6025}','\u{6551}','\u{673D}',
    '\u{6C42}','\u{6C72}','\u{6CE3}','\u{7078}','\u{7403}','\u{7A76}','\u{7AAE}','\u{7B08}',
    '\u{7D1A}','\u{7CFE}','\u{7D66}','\u{65E7}','\u{725B}','\u{53BB}','\u{5C45}','\u{5DE8}',
    '\u{62D2}','\u{62E0}','\u{6319}','\u{6E20}','\u{865A}','\u{8A31}','\u{8DDD}','\u{92F8}',
    '\u{6F01}','\u{79A6}','\u{9B5A}','\u{4EA8}','\u{4EAB}','\u{4EAC}','\u{4F9B}','\u{4FA0}',
    '\u{50D1}','\u{5147}','\u{7AF6}','\u{5171}','\u{51F6}','\u{5354}','\u{5321}','\u{537F}',
    '\u{53EB}','\u{55AC}','\u{5883}','\u{5CE1}','\u{5F37}','\u{5F4A}','\u{602F}','\u{6050}',
    '\u{606D}','\u{631F}','\u{6559}','\u{6A4B}','\u{6CC1}','\u{72C2}','\u{72ED}','\u{77EF}',
    '\u{80F8}','\u{8105}','\u{8208}','\u{854E}','\u{90F7}','\u{93E1}','\u{97FF}','\u{9957}',
    '\u{9A5A}','\u{4EF0}','\u{51DD}','\u{5C2D}','\u{6681}','\u{696D}','\u{5C40}','\u{66F2}',
    '\u{6975}','\u{7389}','\u{6850}','\u{7C81}','\u{50C5}','\u{52E4}','\u{5747}','\u{5DFE}',
    '\u{9326}','\u{65A4}','\u{6B23}','\u{6B3D}','\u{7434}','\u{7981}','\u{79BD}','\u{7B4B}',
    '\u{7DCA}','\u{82B9}','\u{83CC}','\u{887F}','\u{895F}','\u{8B39}','\u{8FD1}','\u{91D1}',
    '\u{541F}','\u{9280}','\u{4E5D}','\u{5036}','\u{53E5}','\u{533A}','\u{72D7}','\u{7396}',
    '\u{77E9}','\u{82E6}','\u{8EAF}','\u{99C6}','\u{99C8}','\u{99D2}','\u{5177}','\u{611A}',
    '\u{865E}','\u{55B0}','\u{7A7A}','\u{5076}','\u{5BD3}','\u{9047}','\u{9685}','\u{4E32}',
    '\u{6ADB}','\u{91E7}','\u{5C51}','\u{5C48}','\u{6398}','\u{7A9F}','\u{6C93}','\u{9774}',
    '\u{8F61}','\u{7AAA}','\u{718A}','\u{9688}','\u{7C82}','\u{6817}','\u{7E70}','\u{6851}',
    '\u{936C}','\u{52F2}','\u{541B}','\u{85AB}','\u{8A13}','\u{7FA4}','\u{8ECD}','\u{90E1}',
    '\u{5366}','\u{8888}','\u{7941}','\u{4FC2}','\u{50BE}','\u{5211}','\u{5144}','\u{5553}',
    '\u{572D}','\u{73EA}','\u{578B}','\u{5951}','\u{5F62}','\u{5F84}','\u{6075}','\u{6176}',
    '\u{6167}','\u{61A9}','\u{63B2}','\u{643A}','\u{656C}','\u{666F}','\u{6842}','\u{6E13}',
    '\u{7566}','\u{7A3D}','\u{7CFB}','\u{7D4C}','\u{7D99}','\u{7E4B}','\u{7F6B}','\u{830E}',
    '\u{834A}','\u{86CD}','\u{8A08}','\u{8A63}','\u{8B66}','\u{8EFD}','\u{981A}','\u{9D8F}',
    '\u{82B8}','\u{8FCE}','\u{9BE8}','\u{5287}','\u{621F}','\u{6483}','\u{6FC0}','\u{9699}',
    '\u{6841}','\u{5091}','\u{6B20}','\u{6C7A}','\u{6F54}','\u{7A74}','\u{7D50}','\u{8840}',
    '\u{8A23}','\u{6708}','\u{4EF6}','\u{5039}','\u{5026}','\u{5065}','\u{517C}','\u{5238}',
    '\u{5263}','\u{55A7}','\u{570F}','\u{5805}','\u{5ACC}','\u{5EFA}','\u{61B2}','\u{61F8}',
    '\u{62F3}','\u{6372}','\u{691C}','\u{6A29}','\u{727D}','\u{72AC}','\u{732E}','\u{7814}',
    '\u{786F}','\u{7D79}','\u{770C}','\u{80A9}','\u{898B}','\u{8B19}','\u{8CE2}','\u{8ED2}',
    '\u{9063}','\u{9375}','\u{967A}','\u{9855}','\u{9A13}','\u{9E78}','\u{5143}','\u{539F}',
    '\u{53B3}','\u{5E7B}','\u{5F26}','\u{6E1B}','\u{6E90}','\u{7384}','\u{73FE}','\u{7D43}',
    '\u{8237}','\u{8A00}','\u{8AFA}','\u{9650}','\u{4E4E}','\u{500B}','\u{53E4}','\u{547C}',
    '\u{56FA}','\u{59D1}','\u{5B64}','\u{5DF1}','\u{5EAB}','\u{5F27}','\u{6238}','\u{6545}',
    '\u{67AF}','\u{6E56}','\u{72D0}','\u{7CCA}','\u{88B4}','\u{80A1}','\u{80E1}','\u{83F0}',
    '\u{864E}','\u{8A87}','\u{8DE8}','\u{9237}','\u{96C7}','\u{9867}','\u{9F13}','\u{4E94}',
    '\u{4E92}','\u{4F0D}','\u{5348}','\u{5449}','\u{543E}','\u{5A2F}','\u{5F8C}','\u{5FA1}',
    '\u{609F}','\u{68A7}','\u{6A8E}','\u{745A}','\u{7881}','\u{8A9E}','\u{8AA4}','\u{8B77}',
    '\u{9190}','\u{4E5E}','\u{9BC9}','\u{4EA4}','\u{4F7C}','\u{4FAF}','\u{5019}','\u{5016}',
    '\u{5149}','\u{516C}','\u{529F}','\u{52B9}','\u{52FE}','\u{539A}','\u{53E3}','\u{5411}',
"#

/-- src/generated/whatwg/shiftjis_whatwg_tables.rs.inc:287-333 -/
noncomputable def decode6 : List Text := lines! r#"    '\u{540E}','\u{5589}','\u{5751}','\u{57A2}','\u{597D}','\u{5B54}','\u{5B5D}','\u{5B8F}',
    '\u{5DE5}','\u{5DE7}','\u{5DF7}','\u{5E78}','\u{5E83}','\u{5E9A}','\u{5EB7}','\u{5F18}',
    '\u{6052}','\u{614C}','\u{6297}','\u{62D8}','\u{63A7}','\u{653B}','\u{6602}','\u{6643}',
    '\u{66F4}','\u{676D}','\u{6821}','\u{6897}','\u{69CB}','\u{6C5F}','\u{6D2A}','\u{6D69}',
    '\u{6E2F}','\u{6E9D}','\u{7532}','\u{7687}','\u{786C}','\u{7A3F}','\u{7CE0}','\u{7D05}',
    '\u{7D18}','\u{7D5E}','\u{7DB1}','\u{8015}','\u{8003}','\u{80AF}','\u{80B1}','\u{8154}',
    '\u{818F}','\u{822A}','\u{8352}','\u{884C}','\u{8861}','\u{8B1B}','\u{8CA2}','\u{8CFC}',
    '\u{90CA}','\u{9175}','\u{9271}','\u{783F}','\u{92FC}','\u{95A4}','\u{964D}','\u{9805}',
    '\u{9999}','\u{9AD8}','\u{9D3B}','\u{525B}','\u{52AB}','\u{53F7}','\u{5408}','\u{58D5}',
    '\u{62F7}','\u{6FE0}','\u{8C6A}','\u{8F5F}','\u{9EB9}','\u{514B}','\u{523B}','\u{544A}',
    '\u{56FD}','\u{7A40}','\u{9177}','\u{9D60}','\u{9ED2}','\u{7344}','\u{6F09}','\u{8170}',
    '\u{7511}','\u{5FFD}','\u{60DA}','\u{9AA8}','\u{72DB}','\u{8FBC}','\u{6B64}','\u{9803}',
    '\u{4ECA}','\u{56F0}','\u{5764}','\u{58BE}','\u{5A5A}','\u{6068}','\u{61C7}','\u{660F}',
    '\u{6606}','\u{6839}','\u{68B1}','\u{6DF7}','\u{75D5}','\u{7D3A}','\u{826E}','\u{9B42}',
    '\u{4E9B}','\u{4F50}','\u{53C9}','\u{5506}','\u{5D6F}','\u{5DE6}','\u{5DEE}','\u{67FB}',
    '\u{6C99}','\u{7473}','\u{7802}','\u{8A50}','\u{9396}','\u{88DF}','\u{5750}','\u{5EA7}',
    '\u{632B}','\u{50B5}','\u{50AC}','\u{518D}','\u{6700}','\u{54C9}','\u{585E}','\u{59BB}',
    '\u{5BB0}','\u{5F69}','\u{624D}','\u{63A1}','\u{683D}','\u{6B73}','\u{6E08}','\u{707D}',
    '\u{91C7}','\u{7280}','\u{7815}','\u{7826}','\u{796D}','\u{658E}','\u{7D30}','\u{83DC}',
    '\u{88C1}','\u{8F09}','\u{969B}','\u{5264}','\u{5728}','\u{6750}','\u{7F6A}','\u{8CA1}',
    '\u{51B4}','\u{5742}','\u{962A}','\u{583A}','\u{698A}','\u{80B4}','\u{54B2}','\u{5D0E}',
    '\u{57FC}','\u{7895}','\u{9DFA}','\u{4F5C}','\u{524A}','\u{548B}','\u{643E}','\u{6628}',
    '\u{6714}','\u{67F5}','\u{7A84}','\u{7B56}','\u{7D22}','\u{932F}','\u{685C}','\u{9BAD}',
    '\u{7B39}','\u{5319}','\u{518A}','\u{5237}','\u{5BDF}','\u{62F6}','\u{64AE}','\u{64E6}',
    '\u{672D}','\u{6BBA}','\u{85A9}','\u{96D1}','\u{7690}','\u{9BD6}','\u{634C}','\u{9306}',
    '\u{9BAB}','\u{76BF}','\u{6652}','\u{4E09}','\u{5098}','\u{53C2}','\u{5C71}','\u{60E8}',
    '\u{6492}','\u{6563}','\u{685F}','\u{71E6}','\u{73CA}','\u{7523}','\u{7B97}','\u{7E82}',
    '\u{8695}','\u{8B83}','\u{8CDB}','\u{9178}','\u{9910}','\u{65AC}','\u{66AB}','\u{6B8B}',
    '\u{4ED5}','\u{4ED4}','\u{4F3A}','\u{4F7F}','\u{523A}','\u{53F8}','\u{53F2}','\u{55E3}',
    '\u{56DB}','\u{58EB}','\u{59CB}','\u{59C9}','\u{59FF}','\u{5B50}','\u{5C4D}','\u{5E02}',
    '\u{5E2B}','\u{5FD7}','\u{601D}','\u{6307}','\u{652F}','\u{5B5C}','\u{65AF}','\u{65BD}',
    '\u{65E8}','\u{679D}','\u{6B62}','\u{6B7B}','\u{6C0F}','\u{7345}','\u{7949}','\u{79C1}',
    '\u{7CF8}','\u{7D19}','\u{7D2B}','\u{80A2}','\u{8102}','\u{81F3}','\u{8996}','\u{8A5E}',
    '\u{8A69}','\u{8A66}','\u{8A8C}','\u{8AEE}','\u{8CC7}','\u{8CDC}','\u{96CC}','\u{98FC}',
    '\u{6B6F}','\u{4E8B}','\u{4F3C}','\u{4F8D}','\u{5150}','\u{5B57}','\u{5BFA}','\u{6148}',
    '\u{6301}','\u{6642}','\u{6B21}','\u{6ECB}','\u{6CBB}','\u{723E}','\u{74BD}','\u{75D4}',
    '\u{78C1}','\u{793A}','\u{800C}','\u{8033}','\u{81EA}','\u{8494}','\u{8F9E}','\u{6C50}',
    '\u{9E7F}','\u{5F0F}','\u{8B58}','\u{9D2B}','\u{7AFA}','\u{8EF8}','\u{5B8D}','\u{96EB}',
    '\u{4E03}','\u{53F1}','\u{57F7}','\u{5931}','\u{5AC9}','\u{5BA4}','\u{6089}','\u{6E7F}',
    '\u{6F06}','\u{75BE}','\u{8CEA}','\u{5B9F}','\u{8500}','\u{7BE0}','\u{5072}','\u{67F4}',
    '\u{829D}','\u{5C61}','\u{854A}','\u{7E1E}','\u{820E}','\u{5199}','\u{5C04}','\u{6368}',
    '\u{8D66}','\u{659C}','\u{716E}','\u{793E}','\u{7D17}','\u{8005}','\u{8B1D}','\u{8ECA}',
    '\u{906E}','\u{86C7}','\u{90AA}','\u{501F}','\u{52FA}','\u{5C3A}','\u{6753}','\u{707C}',
    '\u{7235}','\u{914C}','\u{91C8}','\u{932B}','\u{82E5}','\u{5BC2}','\u{5F31}','\u{60F9}',
    '\u{4E3B}','\u{53D6}','\u{5B88}','\u{624B}','\u{6731}','\u{6B8A}','\u{72E9}','\u{73E0}',
    '\u{7A2E}','\u{816B}','\u{8DA3}','\u{9152}','\u{9996}','\u{5112}','\u{53D7}','\u{546A}',
    '\u{5BFF}','\u{6388}','\u{6A39}','\u{7DAC}','\u{9700}','\u{56DA}','\u{53CE}','\u{5468}',
"#

/-- src/generated/whatwg/shiftjis_whatwg_tables.rs.inc:334-380 -/
noncomputable def decode7 : List Text := lines! r#"    '\u{5B97}','\u{5C31}','\u{5DDE}','\u{4FEE}','\u{6101}','\u{62FE}','\u{6D32}','\u{79C0}',
    '\u{79CB}','\u{7D42}','\u{7E4D}','\u{7FD2}','\u{81ED}','\u{821F}','\u{8490}','\u{8846}',
    '\u{8972}','\u{8B90}','\u{8E74}','\u{8F2F}','\u{9031}','\u{914B}','\u{916C}','\u{96C6}',
    '\u{919C}','\u{4EC0}','\u{4F4F}','\u{5145}','\u{5341}','\u{5F93}','\u{620E}','\u{67D4}',
    '\u{6C41}','\u{6E0B}','\u{7363}','\u{7E26}','\u{91CD}','\u{9283}','\u{53D4}','\u{5919}',
    '\u{5BBF}','\u{6DD1}','\u{795D}','\u{7E2E}','\u{7C9B}','\u{587E}','\u{719F}','\u{51FA}',
    '\u{8853}','\u{8FF0}','\u{4FCA}','\u{5CFB}','\u{6625}','\u{77AC}','\u{7AE3}','\u{821C}',
    '\u{99FF}','\u{51C6}','\u{5FAA}','\u{65EC}','\u{696F}','\u{6B89}','\u{6DF3}','\u{6E96}',
    '\u{6F64}','\u{76FE}','\u{7D14}','\u{5DE1}','\u{9075}','\u{9187}','\u{9806}','\u{51E6}',
    '\u{521D}','\u{6240}','\u{6691}','\u{66D9}','\u{6E1A}','\u{5EB6}','\u{7DD2}','\u{7F72}',
    '\u{66F8}','\u{85AF}','\u{85F7}','\u{8AF8}','\u{52A9}','\u{53D9}','\u{5973}','\u{5E8F}',
    '\u{5F90}','\u{6055}','\u{92E4}','\u{9664}','\u{50B7}','\u{511F}','\u{52DD}','\u{5320}',
    '\u{5347}','\u{53EC}','\u{54E8}','\u{5546}','\u{5531}','\u{5617}','\u{5968}','\u{59BE}',
    '\u{5A3C}','\u{5BB5}','\u{5C06}','\u{5C0F}','\u{5C11}','\u{5C1A}','\u{5E84}','\u{5E8A}',
    '\u{5EE0}','\u{5F70}','\u{627F}','\u{6284}','\u{62DB}','\u{638C}','\u{6377}','\u{6607}',
    '\u{660C}','\u{662D}','\u{6676}','\u{677E}','\u{68A2}','\u{6A1F}','\u{6A35}','\u{6CBC}',
    '\u{6D88}','\u{6E09}','\u{6E58}','\u{713C}','\u{7126}','\u{7167}','\u{75C7}','\u{7701}',
    '\u{785D}','\u{7901}','\u{7965}','\u{79F0}','\u{7AE0}','\u{7B11}','\u{7CA7}','\u{7D39}',
    '\u{8096}','\u{83D6}','\u{848B}','\u{8549}','\u{885D}','\u{88F3}','\u{8A1F}','\u{8A3C}',
    '\u{8A54}','\u{8A73}','\u{8C61}','\u{8CDE}','\u{91A4}','\u{9266}','\u{937E}','\u{9418}',
    '\u{969C}','\u{9798}','\u{4E0A}','\u{4E08}','\u{4E1E}','\u{4E57}','\u{5197}','\u{5270}',
    '\u{57CE}','\u{5834}','\u{58CC}','\u{5B22}','\u{5E38}','\u{60C5}','\u{64FE}','\u{6761}',
    '\u{6756}','\u{6D44}','\u{72B6}','\u{7573}','\u{7A63}','\u{84B8}','\u{8B72}','\u{91B8}',
    '\u{9320}','\u{5631}','\u{57F4}','\u{98FE}','\u{62ED}','\u{690D}','\u{6B96}','\u{71ED}',
    '\u{7E54}','\u{8077}','\u{8272}','\u{89E6}','\u{98DF}','\u{8755}','\u{8FB1}','\u{5C3B}',
    '\u{4F38}','\u{4FE1}','\u{4FB5}','\u{5507}','\u{5A20}','\u{5BDD}','\u{5BE9}','\u{5FC3}',
    '\u{614E}','\u{632F}','\u{65B0}','\u{664B}','\u{68EE}','\u{699B}','\u{6D78}','\u{6DF1}',
    '\u{7533}','\u{75B9}','\u{771F}','\u{795E}','\u{79E6}','\u{7D33}','\u{81E3}','\u{82AF}',
    '\u{85AA}','\u{89AA}','\u{8A3A}','\u{8EAB}','\u{8F9B}','\u{9032}','\u{91DD}','\u{9707}',
    '\u{4EBA}','\u{4EC1}','\u{5203}','\u{5875}','\u{58EC}','\u{5C0B}','\u{751A}','\u{5C3D}',
    '\u{814E}','\u{8A0A}','\u{8FC5}','\u{9663}','\u{976D}','\u{7B25}','\u{8ACF}','\u{9808}',
    '\u{9162}','\u{56F3}','\u{53A8}','\u{9017}','\u{5439}','\u{5782}','\u{5E25}','\u{63A8}',
    '\u{6C34}','\u{708A}','\u{7761}','\u{7C8B}','\u{7FE0}','\u{8870}','\u{9042}','\u{9154}',
    '\u{9310}','\u{9318}','\u{968F}','\u{745E}','\u{9AC4}','\u{5D07}','\u{5D69}','\u{6570}',
    '\u{67A2}','\u{8DA8}','\u{96DB}','\u{636E}','\u{6749}','\u{6919}','\u{83C5}','\u{9817}',
    '\u{96C0}','\u{88FE}','\u{6F84}','\u{647A}','\u{5BF8}','\u{4E16}','\u{702C}','\u{755D}',
    '\u{662F}','\u{51C4}','\u{5236}','\u{52E2}','\u{59D3}','\u{5F81}','\u{6027}','\u{6210}',
    '\u{653F}','\u{6574}','\u{661F}','\u{6674}','\u{68F2}','\u{6816}','\u{6B63}','\u{6E05}',
    '\u{7272}','\u{751F}','\u{76DB}','\u{7CBE}','\u{8056}','\u{58F0}','\u{88FD}','\u{897F}',
    '\u{8AA0}','\u{8A93}','\u{8ACB}','\u{901D}','\u{9192}','\u{9752}','\u{9759}','\u{6589}',
    '\u{7A0E}','\u{8106}','\u{96BB}','\u{5E2D}','\u{60DC}','\u{621A}','\u{65A5}','\u{6614}',
    '\u{6790}','\u{77F3}','\u{7A4D}','\u{7C4D}','\u{7E3E}','\u{810A}','\u{8CAC}','\u{8D64}',
    '\u{8DE1}','\u{8E5F}','\u{78A9}','\u{5207}','\u{62D9}','\u{63A5}','\u{6442}','\u{6298}',
    '\u{8A2D}','\u{7A83}','\u{7BC0}','\u{8AAC}','\u{96EA}','\u{7D76}','\u{820C}','\u{8749}',
    '\u{4ED9}','\u{5148}','\u{5343}','\u{5360}','\u{5BA3}','\u{5C02}','\u{5C16}','\u{5DDD}',
    '\u{6226}','\u{6247}','\u{64B0}','\u{6813}','\u{6834}','\u{6CC9}','\u{6D45}','\u{6D17}',
    '\u{67D3}','\u{6F5C}','\u{714E}','\u{717D}','\u{65CB}','\u{7A7F}','\u{7BAD}','\u{7DDA}',
"#

/-- src/generated/whatwg/shiftjis_whatwg_tables.rs.inc:381-427 -/
noncomputable def decode8 : List Text := lines! r#"    '\u{7E4A}','\u{7FA8}','\u{817A}','\u{821B}','\u{8239}','\u{85A6}','\u{8A6E}','\u{8CCE}',
    '\u{8DF5}','\u{9078}','\u{9077}','\u{92AD}','\u{9291}','\u{9583}','\u{9BAE}','\u{524D}',
    '\u{5584}','\u{6F38}','\u{7136}','\u{5168}','\u{7985}','\u{7E55}','\u{81B3}','\u{7CCE}',
    '\u{564C}','\u{5851}','\u{5CA8}','\u{63AA}','\u{66FE}','\u{66FD}','\u{695A}','\u{72D9}',
    '\u{758F}','\u{758E}','\u{790E}','\u{7956}','\u{79DF}','\u{7C97}','\u{7D20}','\u{7D44}',
    '\u{8607}','\u{8A34}','\u{963B}','\u{9061}','\u{9F20}','\u{50E7}','\u{5275}','\u{53CC}',
    '\u{53E2}','\u{5009}','\u{55AA}','\u{58EE}','\u{594F}','\u{723D}','\u{5B8B}','\u{5C64}',
    '\u{531D}','\u{60E3}','\u{60F3}','\u{635C}','\u{6383}','\u{633F}','\u{63BB}','\u{64CD}',
    '\u{65E9}','\u{66F9}','\u{5DE3}','\u{69CD}','\u{69FD}','\u{6F15}','\u{71E5}','\u{4E89}',
    '\u{75E9}','\u{76F8}','\u{7A93}','\u{7CDF}','\u{7DCF}','\u{7D9C}','\u{8061}','\u{8349}',
    '\u{8358}','\u{846C}','\u{84BC}','\u{85FB}','\u{88C5}','\u{8D70}','\u{9001}','\u{906D}',
    '\u{9397}','\u{971C}','\u{9A12}','\u{50CF}','\u{5897}','\u{618E}','\u{81D3}','\u{8535}',
    '\u{8D08}','\u{9020}','\u{4FC3}','\u{5074}','\u{5247}','\u{5373}','\u{606F}','\u{6349}',
    '\u{675F}','\u{6E2C}','\u{8DB3}','\u{901F}','\u{4FD7}','\u{5C5E}','\u{8CCA}','\u{65CF}',
    '\u{7D9A}','\u{5352}','\u{8896}','\u{5176}','\u{63C3}','\u{5B58}','\u{5B6B}','\u{5C0A}',
    '\u{640D}','\u{6751}','\u{905C}','\u{4ED6}','\u{591A}','\u{592A}','\u{6C70}','\u{8A51}',
    '\u{553E}','\u{5815}','\u{59A5}','\u{60F0}','\u{6253}','\u{67C1}','\u{8235}','\u{6955}',
    '\u{9640}','\u{99C4}','\u{9A28}','\u{4F53}','\u{5806}','\u{5BFE}','\u{8010}','\u{5CB1}',
    '\u{5E2F}','\u{5F85}','\u{6020}','\u{614B}','\u{6234}','\u{66FF}','\u{6CF0}','\u{6EDE}',
    '\u{80CE}','\u{817F}','\u{82D4}','\u{888B}','\u{8CB8}','\u{9000}','\u{902E}','\u{968A}',
    '\u{9EDB}','\u{9BDB}','\u{4EE3}','\u{53F0}','\u{5927}','\u{7B2C}','\u{918D}','\u{984C}',
    '\u{9DF9}','\u{6EDD}','\u{7027}','\u{5353}','\u{5544}','\u{5B85}','\u{6258}','\u{629E}',
    '\u{62D3}','\u{6CA2}','\u{6FEF}','\u{7422}','\u{8A17}','\u{9438}','\u{6FC1}','\u{8AFE}',
    '\u{8338}','\u{51E7}','\u{86F8}','\u{53EA}','\u{53E9}','\u{4F46}','\u{9054}','\u{8FB0}',
    '\u{596A}','\u{8131}','\u{5DFD}','\u{7AEA}','\u{8FBF}','\u{68DA}','\u{8C37}','\u{72F8}',
    '\u{9C48}','\u{6A3D}','\u{8AB0}','\u{4E39}','\u{5358}','\u{5606}','\u{5766}','\u{62C5}',
    '\u{63A2}','\u{65E6}','\u{6B4E}','\u{6DE1}','\u{6E5B}','\u{70AD}','\u{77ED}','\u{7AEF}',
    '\u{7BAA}','\u{7DBB}','\u{803D}','\u{80C6}','\u{86CB}','\u{8A95}','\u{935B}','\u{56E3}',
    '\u{58C7}','\u{5F3E}','\u{65AD}','\u{6696}','\u{6A80}','\u{6BB5}','\u{7537}','\u{8AC7}',
    '\u{5024}','\u{77E5}','\u{5730}','\u{5F1B}','\u{6065}','\u{667A}','\u{6C60}','\u{75F4}',
    '\u{7A1A}','\u{7F6E}','\u{81F4}','\u{8718}','\u{9045}','\u{99B3}','\u{7BC9}','\u{755C}',
    '\u{7AF9}','\u{7B51}','\u{84C4}','\u{9010}','\u{79E9}','\u{7A92}','\u{8336}','\u{5AE1}',
    '\u{7740}','\u{4E2D}','\u{4EF2}','\u{5B99}','\u{5FE0}','\u{62BD}','\u{663C}','\u{67F1}',
    '\u{6CE8}','\u{866B}','\u{8877}','\u{8A3B}','\u{914E}','\u{92F3}','\u{99D0}','\u{6A17}',
    '\u{7026}','\u{732A}','\u{82E7}','\u{8457}','\u{8CAF}','\u{4E01}','\u{5146}','\u{51CB}',
    '\u{558B}','\u{5BF5}','\u{5E16}','\u{5E33}','\u{5E81}','\u{5F14}','\u{5F35}','\u{5F6B}',
    '\u{5FB4}','\u{61F2}','\u{6311}','\u{66A2}','\u{671D}','\u{6F6E}','\u{7252}','\u{753A}',
    '\u{773A}','\u{8074}','\u{8139}','\u{8178}','\u{8776}','\u{8ABF}','\u{8ADC}','\u{8D85}',
    '\u{8DF3}','\u{929A}','\u{9577}','\u{9802}','\u{9CE5}','\u{52C5}','\u{6357}','\u{76F4}',
    '\u{6715}','\u{6C88}','\u{73CD}','\u{8CC3}','\u{93AE}','\u{9673}','\u{6D25}','\u{589C}',
    '\u{690E}','\u{69CC}','\u{8FFD}','\u{939A}','\u{75DB}','\u{901A}','\u{585A}','\u{6802}',
    '\u{63B4}','\u{69FB}','\u{4F43}','\u{6F2C}','\u{67D8}','\u{8FBB}','\u{8526}','\u{7DB4}',
    '\u{9354}','\u{693F}','\u{6F70}','\u{576A}','\u{58F7}','\u{5B2C}','\u{7D2C}','\u{722A}',
    '\u{540A}','\u{91E3}','\u{9DB4}','\u{4EAD}','\u{4F4E}','\u{505C}','\u{5075}','\u{5243}',
    '\u{8C9E}','\u{5448}','\u{5824}','\u{5B9A}','\u{5E1D}','\u{5E95}','\u{5EAD}','\u{5EF7}',
    '\u{5F1F}','\u{608C}','\u{62B5}','\u{633A}','\u{63D0}','\u{68AF}','\u{6C40}','\u{7887}',
    '\u{798E}','\u{7A0B}','\u{7DE0}','\u{8247}','\u{8A02}','\u{8AE6}','\u{8E44}','\u{9013}',
"#

/-- src/generated/whatwg/shiftjis_whatwg_tables.rs.inc:428-474 -/
noncomputable def decode9 : List Text := lines! r#"    '\u{90B8}','\u{912D}','\u{91D8}','\u{9F0E}','\u{6CE5}','\u{6458}','\u{64E2}','\u{6575}',
    '\u{6EF4}','\u{7684}','\u{7B1B}','\u{9069}','\u{93D1}','\u{6EBA}','\u{54F2}','\u{5FB9}',
    '\u{64A4}','\u{8F4D}','\u{8FED}','\u{9244}','\u{5178}','\u{586B}','\u{5929}','\u{5C55}',
    '\u{5E97}','\u{6DFB}','\u{7E8F}','\u{751C}','\u{8CBC}','\u{8EE2}','\u{985B}','\u{70B9}',
    '\u{4F1D}','\u{6BBF}','\u{6FB1}','\u{7530}','\u{96FB}','\u{514E}','\u{5410}','\u{5835}',
    '\u{5857}','\u{59AC}','\u{5C60}','\u{5F92}','\u{6597}','\u{675C}','\u{6E21}','\u{767B}',
    '\u{83DF}','\u{8CED}','\u{9014}','\u{90FD}','\u{934D}','\u{7825}','\u{783A}','\u{52AA}',
    '\u{5EA6}','\u{571F}','\u{5974}','\u{6012}','\u{5012}','\u{515A}','\u{51AC}','\u{51CD}',
    '\u{5200}','\u{5510}','\u{5854}','\u{5858}','\u{5957}','\u{5B95}','\u{5CF6}','\u{5D8B}',
    '\u{60BC}','\u{6295}','\u{642D}','\u{6771}','\u{6843}','\u{68BC}','\u{68DF}','\u{76D7}',
    '\u{6DD8}','\u{6E6F}','\u{6D9B}','\u{706F}','\u{71C8}','\u{5F53}','\u{75D8}','\u{7977}',
    '\u{7B49}','\u{7B54}','\u{7B52}','\u{7CD6}','\u{7D71}','\u{5230}','\u{8463}','\u{8569}',
    '\u{85E4}','\u{8A0E}','\u{8B04}','\u{8C46}','\u{8E0F}','\u{9003}','\u{900F}','\u{9419}',
    '\u{9676}','\u{982D}','\u{9A30}','\u{95D8}','\u{50CD}','\u{52D5}','\u{540C}','\u{5802}',
    '\u{5C0E}','\u{61A7}','\u{649E}','\u{6D1E}','\u{77B3}','\u{7AE5}','\u{80F4}','\u{8404}',
    '\u{9053}','\u{9285}','\u{5CE0}','\u{9D07}','\u{533F}','\u{5F97}','\u{5FB3}','\u{6D9C}',
    '\u{7279}','\u{7763}','\u{79BF}','\u{7BE4}','\u{6BD2}','\u{72EC}','\u{8AAD}','\u{6803}',
    '\u{6A61}','\u{51F8}','\u{7A81}','\u{6934}','\u{5C4A}','\u{9CF6}','\u{82EB}','\u{5BC5}',
    '\u{9149}','\u{701E}','\u{5678}','\u{5C6F}','\u{60C7}','\u{6566}','\u{6C8C}','\u{8C5A}',
    '\u{9041}','\u{9813}','\u{5451}','\u{66C7}','\u{920D}','\u{5948}','\u{90A3}','\u{5185}',
    '\u{4E4D}','\u{51EA}','\u{8599}','\u{8B0E}','\u{7058}','\u{637A}','\u{934B}','\u{6962}',
    '\u{99B4}','\u{7E04}','\u{7577}','\u{5357}','\u{6960}','\u{8EDF}','\u{96E3}','\u{6C5D}',
    '\u{4E8C}','\u{5C3C}','\u{5F10}','\u{8FE9}','\u{5302}','\u{8CD1}','\u{8089}','\u{8679}',
    '\u{5EFF}','\u{65E5}','\u{4E73}','\u{5165}','\u{5982}','\u{5C3F}','\u{97EE}','\u{4EFB}',
    '\u{598A}','\u{5FCD}','\u{8A8D}','\u{6FE1}','\u{79B0}','\u{7962}','\u{5BE7}','\u{8471}',
    '\u{732B}','\u{71B1}','\u{5E74}','\u{5FF5}','\u{637B}','\u{649A}','\u{71C3}','\u{7C98}',
    '\u{4E43}','\u{5EFC}','\u{4E4B}','\u{57DC}','\u{56A2}','\u{60A9}','\u{6FC3}','\u{7D0D}',
    '\u{80FD}','\u{8133}','\u{81BF}','\u{8FB2}','\u{8997}','\u{86A4}','\u{5DF4}','\u{628A}',
    '\u{64AD}','\u{8987}','\u{6777}','\u{6CE2}','\u{6D3E}','\u{7436}','\u{7834}','\u{5A46}',
    '\u{7F75}','\u{82AD}','\u{99AC}','\u{4FF3}','\u{5EC3}','\u{62DD}','\u{6392}','\u{6557}',
    '\u{676F}','\u{76C3}','\u{724C}','\u{80CC}','\u{80BA}','\u{8F29}','\u{914D}','\u{500D}',
    '\u{57F9}','\u{5A92}','\u{6885}','\u{6973}','\u{7164}','\u{72FD}','\u{8CB7}','\u{58F2}',
    '\u{8CE0}','\u{966A}','\u{9019}','\u{877F}','\u{79E4}','\u{77E7}','\u{8429}','\u{4F2F}',
    '\u{5265}','\u{535A}','\u{62CD}','\u{67CF}','\u{6CCA}','\u{767D}','\u{7B94}','\u{7C95}',
    '\u{8236}','\u{8584}','\u{8FEB}','\u{66DD}','\u{6F20}','\u{7206}','\u{7E1B}','\u{83AB}',
    '\u{99C1}','\u{9EA6}','\u{51FD}','\u{7BB1}','\u{7872}','\u{7BB8}','\u{8087}','\u{7B48}',
    '\u{6AE8}','\u{5E61}','\u{808C}','\u{7551}','\u{7560}','\u{516B}','\u{9262}','\u{6E8C}',
    '\u{767A}','\u{9197}','\u{9AEA}','\u{4F10}','\u{7F70}','\u{629C}','\u{7B4F}','\u{95A5}',
    '\u{9CE9}','\u{567A}','\u{5859}','\u{86E4}','\u{96BC}','\u{4F34}','\u{5224}','\u{534A}',
    '\u{53CD}','\u{53DB}','\u{5E06}','\u{642C}','\u{6591}','\u{677F}','\u{6C3E}','\u{6C4E}',
    '\u{7248}','\u{72AF}','\u{73ED}','\u{7554}','\u{7E41}','\u{822C}','\u{85E9}','\u{8CA9}',
    '\u{7BC4}','\u{91C6}','\u{7169}','\u{9812}','\u{98EF}','\u{633D}','\u{6669}','\u{756A}',
    '\u{76E4}','\u{78D0}','\u{8543}','\u{86EE}','\u{532A}','\u{5351}','\u{5426}','\u{5983}',
    '\u{5E87}','\u{5F7C}','\u{60B2}','\u{6249}','\u{6279}','\u{62AB}','\u{6590}','\u{6BD4}',
    '\u{6CCC}','\u{75B2}','\u{76AE}','\u{7891}','\u{79D8}','\u{7DCB}','\u{7F77}','\u{80A5}',
    '\u{88AB}','\u{8AB9}','\u{8CBB}','\u{907F}','\u{975E}','\u{98DB}','\u{6A0B}','\u{7C38}',
    '\u{5099}','\u{5C3E}','\u{5FAE}','\u{6787}','\u{6BD8}','\u{7435}','\u{7709}','\u{7F8E}',
"#

/-- src/generated/whatwg/shiftjis_whatwg_tables.rs.inc:475-521 -/
noncomputable def decode10 : List Text := lines! r#"    '\u{9F3B}','\u{67CA}','\u{7A17}','\u{5339}','\u{758B}','\u{9AED}','\u{5F66}','\u{819D}',
    '\u{83F1}','\u{8098}','\u{5F3C}','\u{5FC5}','\u{7562}','\u{7B46}','\u{903C}','\u{6867}',
    '\u{59EB}','\u{5A9B}','\u{7D10}','\u{767E}','\u{8B2C}','\u{4FF5}','\u{5F6A}','\u{6A19}',
    '\u{6C37}','\u{6F02}','\u{74E2}','\u{7968}','\u{8868}','\u{8A55}','\u{8C79}','\u{5EDF}',
    '\u{63CF}','\u{75C5}','\u{79D2}','\u{82D7}','\u{9328}','\u{92F2}','\u{849C}','\u{86ED}',
    '\u{9C2D}','\u{54C1}','\u{5F6C}','\u{658C}','\u{6D5C}','\u{7015}','\u{8CA7}','\u{8CD3}',
    '\u{983B}','\u{654F}','\u{74F6}','\u{4E0D}','\u{4ED8}','\u{57E0}','\u{592B}','\u{5A66}',
    '\u{5BCC}','\u{51A8}','\u{5E03}','\u{5E9C}','\u{6016}','\u{6276}','\u{6577}','\u{65A7}',
    '\u{666E}','\u{6D6E}','\u{7236}','\u{7B26}','\u{8150}','\u{819A}','\u{8299}','\u{8B5C}',
    '\u{8CA0}','\u{8CE6}','\u{8D74}','\u{961C}','\u{9644}','\u{4FAE}','\u{64AB}','\u{6B66}',
    '\u{821E}','\u{8461}','\u{856A}','\u{90E8}','\u{5C01}','\u{6953}','\u{98A8}','\u{847A}',
    '\u{8557}','\u{4F0F}','\u{526F}','\u{5FA9}','\u{5E45}','\u{670D}','\u{798F}','\u{8179}',
    '\u{8907}','\u{8986}','\u{6DF5}','\u{5F17}','\u{6255}','\u{6CB8}','\u{4ECF}','\u{7269}',
    '\u{9B92}','\u{5206}','\u{543B}','\u{5674}','\u{58B3}','\u{61A4}','\u{626E}','\u{711A}',
    '\u{596E}','\u{7C89}','\u{7CDE}','\u{7D1B}','\u{96F0}','\u{6587}','\u{805E}','\u{4E19}',
    '\u{4F75}','\u{5175}','\u{5840}','\u{5E63}','\u{5E73}','\u{5F0A}','\u{67C4}','\u{4E26}',
    '\u{853D}','\u{9589}','\u{965B}','\u{7C73}','\u{9801}','\u{50FB}','\u{58C1}','\u{7656}',
    '\u{78A7}','\u{5225}','\u{77A5}','\u{8511}','\u{7B86}','\u{504F}','\u{5909}','\u{7247}',
    '\u{7BC7}','\u{7DE8}','\u{8FBA}','\u{8FD4}','\u{904D}','\u{4FBF}','\u{52C9}','\u{5A29}',
    '\u{5F01}','\u{97AD}','\u{4FDD}','\u{8217}','\u{92EA}','\u{5703}','\u{6355}','\u{6B69}',
    '\u{752B}','\u{88DC}','\u{8F14}','\u{7A42}','\u{52DF}','\u{5893}','\u{6155}','\u{620A}',
    '\u{66AE}','\u{6BCD}','\u{7C3F}','\u{83E9}','\u{5023}','\u{4FF8}','\u{5305}','\u{5446}',
    '\u{5831}','\u{5949}','\u{5B9D}','\u{5CF0}','\u{5CEF}','\u{5D29}','\u{5E96}','\u{62B1}',
    '\u{6367}','\u{653E}','\u{65B9}','\u{670B}','\u{6CD5}','\u{6CE1}','\u{70F9}','\u{7832}',
    '\u{7E2B}','\u{80DE}','\u{82B3}','\u{840C}','\u{84EC}','\u{8702}','\u{8912}','\u{8A2A}',
    '\u{8C4A}','\u{90A6}','\u{92D2}','\u{98FD}','\u{9CF3}','\u{9D6C}','\u{4E4F}','\u{4EA1}',
    '\u{508D}','\u{5256}','\u{574A}','\u{59A8}','\u{5E3D}','\u{5FD8}','\u{5FD9}','\u{623F}',
    '\u{66B4}','\u{671B}','\u{67D0}','\u{68D2}','\u{5192}','\u{7D21}','\u{80AA}','\u{81A8}',
    '\u{8B00}','\u{8C8C}','\u{8CBF}','\u{927E}','\u{9632}','\u{5420}','\u{982C}','\u{5317}',
    '\u{50D5}','\u{535C}','\u{58A8}','\u{64B2}','\u{6734}','\u{7267}','\u{7766}','\u{7A46}',
    '\u{91E6}','\u{52C3}','\u{6CA1}','\u{6B86}','\u{5800}','\u{5E4C}','\u{5954}','\u{672C}',
    '\u{7FFB}','\u{51E1}','\u{76C6}','\u{6469}','\u{78E8}','\u{9B54}','\u{9EBB}','\u{57CB}',
    '\u{59B9}','\u{6627}','\u{679A}','\u{6BCE}','\u{54E9}','\u{69D9}','\u{5E55}','\u{819C}',
    '\u{6795}','\u{9BAA}','\u{67FE}','\u{9C52}','\u{685D}','\u{4EA6}','\u{4FE3}','\u{53C8}',
    '\u{62B9}','\u{672B}','\u{6CAB}','\u{8FC4}','\u{4FAD}','\u{7E6D}','\u{9EBF}','\u{4E07}',
    '\u{6162}','\u{6E80}','\u{6F2B}','\u{8513}','\u{5473}','\u{672A}','\u{9B45}','\u{5DF3}',
    '\u{7B95}','\u{5CAC}','\u{5BC6}','\u{871C}','\u{6E4A}','\u{84D1}','\u{7A14}','\u{8108}',
    '\u{5999}','\u{7C8D}','\u{6C11}','\u{7720}','\u{52D9}','\u{5922}','\u{7121}','\u{725F}',
    '\u{77DB}','\u{9727}','\u{9D61}','\u{690B}','\u{5A7F}','\u{5A18}','\u{51A5}','\u{540D}',
    '\u{547D}','\u{660E}','\u{76DF}','\u{8FF7}','\u{9298}','\u{9CF4}','\u{59EA}','\u{725D}',
    '\u{6EC5}','\u{514D}','\u{68C9}','\u{7DBF}','\u{7DEC}','\u{9762}','\u{9EBA}','\u{6478}',
    '\u{6A21}','\u{8302}','\u{5984}','\u{5B5F}','\u{6BDB}','\u{731B}','\u{76F2}','\u{7DB2}',
    '\u{8017}','\u{8499}','\u{5132}','\u{6728}','\u{9ED9}','\u{76EE}','\u{6762}','\u{52FF}',
    '\u{9905}','\u{5C24}','\u{623B}','\u{7C7E}','\u{8CB0}','\u{554F}','\u{60B6}','\u{7D0B}',
    '\u{9580}','\u{5301}','\u{4E5F}','\u{51B6}','\u{591C}','\u{723A}','\u{8036}','\u{91CE}',
    '\u{5F25}','\u{77E2}','\u{5384}','\u{5F79}','\u{7D04}','\u{85AC}','\u{8A33}','\u{8E8D}',
    '\u{9756}','\u{67F3}','\u{85AE}','\u{9453}','\u{6109}','\u{6108}','\u{6CB9}','\u{7652}',
"#

/-- src/generated/whatwg/shiftjis_whatwg_tables.rs.inc:522-568 -/
noncomputable def decode11 : List Text := lines! r#"    '\u{8AED}','\u{8F38}','\u{552F}','\u{4F51}','\u{512A}','\u{52C7}','\u{53CB}','\u{5BA5}',
    '\u{5E7D}','\u{60A0}','\u{6182}','\u{63D6}','\u{6709}','\u{67DA}','\u{6E67}','\u{6D8C}',
    '\u{7336}','\u{7337}','\u{7531}','\u{7950}','\u{88D5}','\u{8A98}','\u{904A}','\u{9091}',
    '\u{90F5}','\u{96C4}','\u{878D}','\u{5915}','\u{4E88}','\u{4F59}','\u{4E0E}','\u{8A89}',
    '\u{8F3F}','\u{9810}','\u{50AD}','\u{5E7C}','\u{5996}','\u{5BB9}','\u{5EB8}','\u{63DA}',
    '\u{63FA}','\u{64C1}','\u{66DC}','\u{694A}','\u{69D8}','\u{6D0B}','\u{6EB6}','\u{7194}',
    '\u{7528}','\u{7AAF}','\u{7F8A}','\u{8000}','\u{8449}','\u{84C9}','\u{8981}','\u{8B21}',
    '\u{8E0A}','\u{9065}','\u{967D}','\u{990A}','\u{617E}','\u{6291}','\u{6B32}','\u{6C83}',
    '\u{6D74}','\u{7FCC}','\u{7FFC}','\u{6DC0}','\u{7F85}','\u{87BA}','\u{88F8}','\u{6765}',
    '\u{83B1}','\u{983C}','\u{96F7}','\u{6D1B}','\u{7D61}','\u{843D}','\u{916A}','\u{4E71}',
    '\u{5375}','\u{5D50}','\u{6B04}','\u{6FEB}','\u{85CD}','\u{862D}','\u{89A7}','\u{5229}',
    '\u{540F}','\u{5C65}','\u{674E}','\u{68A8}','\u{7406}','\u{7483}','\u{75E2}','\u{88CF}',
    '\u{88E1}','\u{91CC}','\u{96E2}','\u{9678}','\u{5F8B}','\u{7387}','\u{7ACB}','\u{844E}',
    '\u{63A0}','\u{7565}','\u{5289}','\u{6D41}','\u{6E9C}','\u{7409}','\u{7559}','\u{786B}',
    '\u{7C92}','\u{9686}','\u{7ADC}','\u{9F8D}','\u{4FB6}','\u{616E}','\u{65C5}','\u{865C}',
    '\u{4E86}','\u{4EAE}','\u{50DA}','\u{4E21}','\u{51CC}','\u{5BEE}','\u{6599}','\u{6881}',
    '\u{6DBC}','\u{731F}','\u{7642}','\u{77AD}','\u{7A1C}','\u{7CE7}','\u{826F}','\u{8AD2}',
    '\u{907C}','\u{91CF}','\u{9675}','\u{9818}','\u{529B}','\u{7DD1}','\u{502B}','\u{5398}',
    '\u{6797}','\u{6DCB}','\u{71D0}','\u{7433}','\u{81E8}','\u{8F2A}','\u{96A3}','\u{9C57}',
    '\u{9E9F}','\u{7460}','\u{5841}','\u{6D99}','\u{7D2F}','\u{985E}','\u{4EE4}','\u{4F36}',
    '\u{4F8B}','\u{51B7}','\u{52B1}','\u{5DBA}','\u{601C}','\u{73B2}','\u{793C}','\u{82D3}',
    '\u{9234}','\u{96B7}','\u{96F6}','\u{970A}','\u{9E97}','\u{9F62}','\u{66A6}','\u{6B74}',
    '\u{5217}','\u{52A3}','\u{70C8}','\u{88C2}','\u{5EC9}','\u{604B}','\u{6190}','\u{6F23}',
    '\u{7149}','\u{7C3E}','\u{7DF4}','\u{806F}','\u{84EE}','\u{9023}','\u{932C}','\u{5442}',
    '\u{9B6F}','\u{6AD3}','\u{7089}','\u{8CC2}','\u{8DEF}','\u{9732}','\u{52B4}','\u{5A41}',
    '\u{5ECA}','\u{5F04}','\u{6717}','\u{697C}','\u{6994}','\u{6D6A}','\u{6F0F}','\u{7262}',
    '\u{72FC}','\u{7BED}','\u{8001}','\u{807E}','\u{874B}','\u{90CE}','\u{516D}','\u{9E93}',
    '\u{7984}','\u{808B}','\u{9332}','\u{8AD6}','\u{502D}','\u{548C}','\u{8A71}','\u{6B6A}',
    '\u{8CC4}','\u{8107}','\u{60D1}','\u{67A0}','\u{9DF2}','\u{4E99}','\u{4E98}','\u{9C10}',
    '\u{8A6B}','\u{85C1}','\u{8568}','\u{6900}','\u{6E7E}','\u{7897}','\u{8155}','�',
    '�','�','�','�','�','�','�','�',
    '�','�','�','�','�','�','�','�',
    '�','�','�','�','�','�','�','�',
    '�','�','�','�','�','�','�','�',
    '�','�','�','�','�','�','�','�',
    '�','�','\u{5F0C}','\u{4E10}','\u{4E15}','\u{4E2A}','\u{4E31}','\u{4E36}',
    '\u{4E3C}','\u{4E3F}','\u{4E42}','\u{4E56}','\u{4E58}','\u{4E82}','\u{4E85}','\u{8C6B}',
    '\u{4E8A}','\u{8212}','\u{5F0D}','\u{4E8E}','\u{4E9E}','\u{4E9F}','\u{4EA0}','\u{4EA2}',
    '\u{4EB0}','\u{4EB3}','\u{4EB6}','\u{4ECE}','\u{4ECD}','\u{4EC4}','\u{4EC6}','\u{4EC2}',
    '\u{4ED7}','\u{4EDE}','\u{4EED}','\u{4EDF}','\u{4EF7}','\u{4F09}','\u{4F5A}','\u{4F30}',
    '\u{4F5B}','\u{4F5D}','\u{4F57}','\u{4F47}','\u{4F76}','\u{4F88}','\u{4F8F}','\u{4F98}',
    '\u{4F7B}','\u{4F69}','\u{4F70}','\u{4F91}','\u{4F6F}','\u{4F86}','\u{4F96}','\u{5118}',
    '\u{4FD4}','\u{4FDF}','\u{4FCE}','\u{4FD8}','\u{4FDB}','\u{4FD1}','\u{4FDA}','\u{4FD0}',
    '\u{4FE4}','\u{4FE5}','\u{501A}','\u{5028}','\u{5014}','\u{502A}','\u{5025}','\u{5005}',
    '\u{4F1C}','\u{4FF6}','\u{5021}','\u{5029}','\u{502C}','\u{4FFE}','\u{4FEF}','\u{5011}',
    '\u{5006}','\u{5043}','\u{5047}','\u{6703}','\u{5055}','\u{5050}','\u{5048}','\u{505A}',
    '\u{5056}','\u{506C}','\u{5078}','\u{5080}','\u{509A}','\u{5085}','\u{50B4}','\u{50B2}',
"#

/-- src/generated/whatwg/shiftjis_whatwg_tables.rs.inc:569-615 -/
noncomputable def decode12 : List Text := lines! r#"    '\u{50C9}','\u{50CA}','\u{50B3}','\u{50C2}','\u{50D6}','\u{50DE}','\u{50E5}','\u{50ED}',
    '\u{50E3}','\u{50EE}','\u{50F9}','\u{50F5}','\u{5109}','\u{5101}','\u{5102}','\u{5116}',
    '\u{5115}','\u{5114}','\u{511A}','\u{5121}','\u{513A}','\u{5137}','\u{513C}','\u{513B}',
    '\u{513F}','\u{5140}','\u{5152}','\u{514C}','\u{5154}','\u{5162}','\u{7AF8}','\u{5169}',
    '\u{516A}','\u{516E}','\u{5180}','\u{5182}','\u{56D8}','\u{518C}','\u{5189}','\u{518F}',
    '\u{5191}','\u{5193}','\u{5195}','\u{5196}','\u{51A4}','\u{51A6}','\u{51A2}','\u{51A9}',
    '\u{51AA}','\u{51AB}','\u{51B3}','\u{51B1}','\u{51B2}','\u{51B0}','\u{51B5}','\u{51BD}',
    '\u{51C5}','\u{51C9}','\u{51DB}','\u{51E0}','\u{8655}','\u{51E9}','\u{51ED}','\u{51F0}',
    '\u{51F5}','\u{51FE}','\u{5204}','\u{520B}','\u{5214}','\u{520E}','\u{5227}','\u{522A}',
    '\u{522E}','\u{5233}','\u{5239}','\u{524F}','\u{5244}','\u{524B}','\u{524C}','\u{525E}',
    '\u{5254}','\u{526A}','\u{5274}','\u{5269}','\u{5273}','\u{527F}','\u{527D}','\u{528D}',
    '\u{5294}','\u{5292}','\u{5271}','\u{5288}','\u{5291}','\u{8FA8}','\u{8FA7}','\u{52AC}',
    '\u{52AD}','\u{52BC}','\u{52B5}','\u{52C1}','\u{52CD}','\u{52D7}','\u{52DE}','\u{52E3}',
    '\u{52E6}','\u{98ED}','\u{52E0}','\u{52F3}','\u{52F5}','\u{52F8}','\u{52F9}','\u{5306}',
    '\u{5308}','\u{7538}','\u{530D}','\u{5310}','\u{530F}','\u{5315}','\u{531A}','\u{5323}',
    '\u{532F}','\u{5331}','\u{5333}','\u{5338}','\u{5340}','\u{5346}','\u{5345}','\u{4E17}',
    '\u{5349}','\u{534D}','\u{51D6}','\u{535E}','\u{5369}','\u{536E}','\u{5918}','\u{537B}',
    '\u{5377}','\u{5382}','\u{5396}','\u{53A0}','\u{53A6}','\u{53A5}','\u{53AE}','\u{53B0}',
    '\u{53B6}','\u{53C3}','\u{7C12}','\u{96D9}','\u{53DF}','\u{66FC}','\u{71EE}','\u{53EE}',
    '\u{53E8}','\u{53ED}','\u{53FA}','\u{5401}','\u{543D}','\u{5440}','\u{542C}','\u{542D}',
    '\u{543C}','\u{542E}','\u{5436}','\u{5429}','\u{541D}','\u{544E}','\u{548F}','\u{5475}',
    '\u{548E}','\u{545F}','\u{5471}','\u{5477}','\u{5470}','\u{5492}','\u{547B}','\u{5480}',
    '\u{5476}','\u{5484}','\u{5490}','\u{5486}','\u{54C7}','\u{54A2}','\u{54B8}','\u{54A5}',
    '\u{54AC}','\u{54C4}','\u{54C8}','\u{54A8}','\u{54AB}','\u{54C2}','\u{54A4}','\u{54BE}',
    '\u{54BC}','\u{54D8}','\u{54E5}','\u{54E6}','\u{550F}','\u{5514}','\u{54FD}','\u{54EE}',
    '\u{54ED}','\u{54FA}','\u{54E2}','\u{5539}','\u{5540}','\u{5563}','\u{554C}','\u{552E}',
    '\u{555C}','\u{5545}','\u{5556}','\u{5557}','\u{5538}','\u{5533}','\u{555D}','\u{5599}',
    '\u{5580}','\u{54AF}','\u{558A}','\u{559F}','\u{557B}','\u{557E}','\u{5598}','\u{559E}',
    '\u{55AE}','\u{557C}','\u{5583}','\u{55A9}','\u{5587}','\u{55A8}','\u{55DA}','\u{55C5}',
    '\u{55DF}','\u{55C4}','\u{55DC}','\u{55E4}','\u{55D4}','\u{5614}','\u{55F7}','\u{5616}',
    '\u{55FE}','\u{55FD}','\u{561B}','\u{55F9}','\u{564E}','\u{5650}','\u{71DF}','\u{5634}',
    '\u{5636}','\u{5632}','\u{5638}','\u{566B}','\u{5664}','\u{562F}','\u{566C}','\u{566A}',
    '\u{5686}','\u{5680}','\u{568A}','\u{56A0}','\u{5694}','\u{568F}','\u{56A5}','\u{56AE}',
    '\u{56B6}','\u{56B4}','\u{56C2}','\u{56BC}','\u{56C1}','\u{56C3}','\u{56C0}','\u{56C8}',
    '\u{56CE}','\u{56D1}','\u{56D3}','\u{56D7}','\u{56EE}','\u{56F9}','\u{5700}','\u{56FF}',
    '\u{5704}','\u{5709}','\u{5708}','\u{570B}','\u{570D}','\u{5713}','\u{5718}','\u{5716}',
    '\u{55C7}','\u{571C}','\u{5726}','\u{5737}','\u{5738}','\u{574E}','\u{573B}','\u{5740}',
    '\u{574F}','\u{5769}','\u{57C0}','\u{5788}','\u{5761}','\u{577F}','\u{5789}','\u{5793}',
    '\u{57A0}','\u{57B3}','\u{57A4}','\u{57AA}','\u{57B0}','\u{57C3}','\u{57C6}','\u{57D4}',
    '\u{57D2}','\u{57D3}','\u{580A}','\u{57D6}','\u{57E3}','\u{580B}','\u{5819}','\u{581D}',
    '\u{5872}','\u{5821}','\u{5862}','\u{584B}','\u{5870}','\u{6BC0}','\u{5852}','\u{583D}',
    '\u{5879}','\u{5885}','\u{58B9}','\u{589F}','\u{58AB}','\u{58BA}','\u{58DE}','\u{58BB}',
    '\u{58B8}','\u{58AE}','\u{58C5}','\u{58D3}','\u{58D1}','\u{58D7}','\u{58D9}','\u{58D8}',
    '\u{58E5}','\u{58DC}','\u{58E4}','\u{58DF}','\u{58EF}','\u{58FA}','\u{58F9}','\u{58FB}',
    '\u{58FC}','\u{58FD}','\u{5902}','\u{590A}','\u{5910}','\u{591B}','\u{68A6}','\u{5925}',
    '\u{592C}','\u{592D}','\u{5932}','\u{5938}','\u{593E}','\u{7AD2}','\u{5955}','\u{5950}',
    '\u{594E}','\u{595A}','\u{5958}','\u{5962}','\u{5960}','\u{5967}','\u{596C}','\u{5969}',
"#

/-- src/generated/whatwg/shiftjis_whatwg_tables.rs.inc:616-662 -/
noncomputable def decode13 : List Text := lines! r#"    '\u{5978}','\u{5981}','\u{599D}','\u{4F5E}','\u{4FAB}','\u{59A3}','\u{59B2}','\u{59C6}',
    '\u{59E8}','\u{59DC}','\u{598D}','\u{59D9}','\u{59DA}','\u{5A25}','\u{5A1F}','\u{5A11}',
    '\u{5A1C}','\u{5A09}','\u{5A1A}','\u{5A40}','\u{5A6C}','\u{5A49}','\u{5A35}','\u{5A36}',
    '\u{5A62}','\u{5A6A}','\u{5A9A}','\u{5ABC}','\u{5ABE}','\u{5ACB}','\u{5AC2}','\u{5ABD}',
    '\u{5AE3}','\u{5AD7}','\u{5AE6}','\u{5AE9}','\u{5AD6}','\u{5AFA}','\u{5AFB}','\u{5B0C}',
    '\u{5B0B}','\u{5B16}','\u{5B32}','\u{5AD0}','\u{5B2A}','\u{5B36}','\u{5B3E}','\u{5B43}',
    '\u{5B45}','\u{5B40}','\u{5B51}','\u{5B55}','\u{5B5A}','\u{5B5B}','\u{5B65}','\u{5B69}',
    '\u{5B70}','\u{5B73}','\u{5B75}','\u{5B78}','\u{6588}','\u{5B7A}','\u{5B80}','\u{5B83}',
    '\u{5BA6}','\u{5BB8}','\u{5BC3}','\u{5BC7}','\u{5BC9}','\u{5BD4}','\u{5BD0}','\u{5BE4}',
    '\u{5BE6}','\u{5BE2}','\u{5BDE}','\u{5BE5}','\u{5BEB}','\u{5BF0}','\u{5BF6}','\u{5BF3}',
    '\u{5C05}','\u{5C07}','\u{5C08}','\u{5C0D}','\u{5C13}','\u{5C20}','\u{5C22}','\u{5C28}',
    '\u{5C38}','\u{5C39}','\u{5C41}','\u{5C46}','\u{5C4E}','\u{5C53}','\u{5C50}','\u{5C4F}',
    '\u{5B71}','\u{5C6C}','\u{5C6E}','\u{4E62}','\u{5C76}','\u{5C79}','\u{5C8C}','\u{5C91}',
    '\u{5C94}','\u{599B}','\u{5CAB}','\u{5CBB}','\u{5CB6}','\u{5CBC}','\u{5CB7}','\u{5CC5}',
    '\u{5CBE}','\u{5CC7}','\u{5CD9}','\u{5CE9}','\u{5CFD}','\u{5CFA}','\u{5CED}','\u{5D8C}',
    '\u{5CEA}','\u{5D0B}','\u{5D15}','\u{5D17}','\u{5D5C}','\u{5D1F}','\u{5D1B}','\u{5D11}',
    '\u{5D14}','\u{5D22}','\u{5D1A}','\u{5D19}','\u{5D18}','\u{5D4C}','\u{5D52}','\u{5D4E}',
    '\u{5D4B}','\u{5D6C}','\u{5D73}','\u{5D76}','\u{5D87}','\u{5D84}','\u{5D82}','\u{5DA2}',
    '\u{5D9D}','\u{5DAC}','\u{5DAE}','\u{5DBD}','\u{5D90}','\u{5DB7}','\u{5DBC}','\u{5DC9}',
    '\u{5DCD}','\u{5DD3}','\u{5DD2}','\u{5DD6}','\u{5DDB}','\u{5DEB}','\u{5DF2}','\u{5DF5}',
    '\u{5E0B}','\u{5E1A}','\u{5E19}','\u{5E11}','\u{5E1B}','\u{5E36}','\u{5E37}','\u{5E44}',
    '\u{5E43}','\u{5E40}','\u{5E4E}','\u{5E57}','\u{5E54}','\u{5E5F}','\u{5E62}','\u{5E64}',
    '\u{5E47}','\u{5E75}','\u{5E76}','\u{5E7A}','\u{9EBC}','\u{5E7F}','\u{5EA0}','\u{5EC1}',
    '\u{5EC2}','\u{5EC8}','\u{5ED0}','\u{5ECF}','\u{5ED6}','\u{5EE3}','\u{5EDD}','\u{5EDA}',
    '\u{5EDB}','\u{5EE2}','\u{5EE1}','\u{5EE8}','\u{5EE9}','\u{5EEC}','\u{5EF1}','\u{5EF3}',
    '\u{5EF0}','\u{5EF4}','\u{5EF8}','\u{5EFE}','\u{5F03}','\u{5F09}','\u{5F5D}','\u{5F5C}',
    '\u{5F0B}','\u{5F11}','\u{5F16}','\u{5F29}','\u{5F2D}','\u{5F38}','\u{5F41}','\u{5F48}',
    '\u{5F4C}','\u{5F4E}','\u{5F2F}','\u{5F51}','\u{5F56}','\u{5F57}','\u{5F59}','\u{5F61}',
    '\u{5F6D}','\u{5F73}','\u{5F77}','\u{5F83}','\u{5F82}','\u{5F7F}','\u{5F8A}','\u{5F88}',
    '\u{5F91}','\u{5F87}','\u{5F9E}','\u{5F99}','\u{5F98}','\u{5FA0}','\u{5FA8}','\u{5FAD}',
    '\u{5FBC}','\u{5FD6}','\u{5FFB}','\u{5FE4}','\u{5FF8}','\u{5FF1}','\u{5FDD}','\u{60B3}',
    '\u{5FFF}','\u{6021}','\u{6060}','\u{6019}','\u{6010}','\u{6029}','\u{600E}','\u{6031}',
    '\u{601B}','\u{6015}','\u{602B}','\u{6026}','\u{600F}','\u{603A}','\u{605A}','\u{6041}',
    '\u{606A}','\u{6077}','\u{605F}','\u{604A}','\u{6046}','\u{604D}','\u{6063}','\u{6043}',
    '\u{6064}','\u{6042}','\u{606C}','\u{606B}','\u{6059}','\u{6081}','\u{608D}','\u{60E7}',
    '\u{6083}','\u{609A}','\u{6084}','\u{609B}','\u{6096}','\u{6097}','\u{6092}','\u{60A7}',
    '\u{608B}','\u{60E1}','\u{60B8}','\u{60E0}','\u{60D3}','\u{60B4}','\u{5FF0}','\u{60BD}',
    '\u{60C6}','\u{60B5}','\u{60D8}','\u{614D}','\u{6115}','\u{6106}','\u{60F6}','\u{60F7}',
    '\u{6100}','\u{60F4}','\u{60FA}','\u{6103}','\u{6121}','\u{60FB}','\u{60F1}','\u{610D}',
    '\u{610E}','\u{6147}','\u{613E}','\u{6128}','\u{6127}','\u{614A}','\u{613F}','\u{613C}',
    '\u{612C}','\u{6134}','\u{613D}','\u{6142}','\u{6144}','\u{6173}','\u{6177}','\u{6158}',
    '\u{6159}','\u{615A}','\u{616B}','\u{6174}','\u{616F}','\u{6165}','\u{6171}','\u{615F}',
    '\u{615D}','\u{6153}','\u{6175}','\u{6199}','\u{6196}','\u{6187}','\u{61AC}','\u{6194}',
    '\u{619A}','\u{618A}','\u{6191}','\u{61AB}','\u{61AE}','\u{61CC}','\u{61CA}','\u{61C9}',
    '\u{61F7}','\u{61C8}','\u{61C3}','\u{61C6}','\u{61BA}','\u{61CB}','\u{7F79}','\u{61CD}',
    '\u{61E6}','\u{61E3}','\u{61F6}','\u{61FA}','\u{61F4}','\u{61FF}','\u{61FD}','\u{61FC}',
    '\u{61FE}','\u{6200}','\u{6208}','\u{6209}','\u{620D}','\u{620C}','\u{6214}','\u{621B}',
"#

/-- src/generated/whatwg/shiftjis_whatwg_tables.rs.inc:663-709 -/
noncomputable def decode14 : List Text := lines! r#"    '\u{621E}','\u{6221}','\u{622A}','\u{622E}','\u{6230}','\u{6232}','\u{6233}','\u{6241}',
    '\u{624E}','\u{625E}','\u{6263}','\u{625B}','\u{6260}','\u{6268}','\u{627C}','\u{6282}',
    '\u{6289}','\u{627E}','\u{6292}','\u{6293}','\u{6296}','\u{62D4}','\u{6283}','\u{6294}',
    '\u{62D7}','\u{62D1}','\u{62BB}','\u{62CF}','\u{62FF}','\u{62C6}','\u{64D4}','\u{62C8}',
    '\u{62DC}','\u{62CC}','\u{62CA}','\u{62C2}','\u{62C7}','\u{629B}','\u{62C9}','\u{630C}',
    '\u{62EE}','\u{62F1}','\u{6327}','\u{6302}','\u{6308}','\u{62EF}','\u{62F5}','\u{6350}',
    '\u{633E}','\u{634D}','\u{641C}','\u{634F}','\u{6396}','\u{638E}','\u{6380}','\u{63AB}',
    '\u{6376}','\u{63A3}','\u{638F}','\u{6389}','\u{639F}','\u{63B5}','\u{636B}','\u{6369}',
    '\u{63BE}','\u{63E9}','\u{63C0}','\u{63C6}','\u{63E3}','\u{63C9}','\u{63D2}','\u{63F6}',
    '\u{63C4}','\u{6416}','\u{6434}','\u{6406}','\u{6413}','\u{6426}','\u{6436}','\u{651D}',
    '\u{6417}','\u{6428}','\u{640F}','\u{6467}','\u{646F}','\u{6476}','\u{644E}','\u{652A}',
    '\u{6495}','\u{6493}','\u{64A5}','\u{64A9}','\u{6488}','\u{64BC}','\u{64DA}','\u{64D2}',
    '\u{64C5}','\u{64C7}','\u{64BB}','\u{64D8}','\u{64C2}','\u{64F1}','\u{64E7}','\u{8209}',
    '\u{64E0}','\u{64E1}','\u{62AC}','\u{64E3}','\u{64EF}','\u{652C}','\u{64F6}','\u{64F4}',
    '\u{64F2}','\u{64FA}','\u{6500}','\u{64FD}','\u{6518}','\u{651C}','\u{6505}','\u{6524}',
    '\u{6523}','\u{652B}','\u{6534}','\u{6535}','\u{6537}','\u{6536}','\u{6538}','\u{754B}',
    '\u{6548}','\u{6556}','\u{6555}','\u{654D}','\u{6558}','\u{655E}','\u{655D}','\u{6572}',
    '\u{6578}','\u{6582}','\u{6583}','\u{8B8A}','\u{659B}','\u{659F}','\u{65AB}','\u{65B7}',
    '\u{65C3}','\u{65C6}','\u{65C1}','\u{65C4}','\u{65CC}','\u{65D2}','\u{65DB}','\u{65D9}',
    '\u{65E0}','\u{65E1}','\u{65F1}','\u{6772}','\u{660A}','\u{6603}','\u{65FB}','\u{6773}',
    '\u{6635}','\u{6636}','\u{6634}','\u{661C}','\u{664F}','\u{6644}','\u{6649}','\u{6641}',
    '\u{665E}','\u{665D}','\u{6664}','\u{6667}','\u{6668}','\u{665F}','\u{6662}','\u{6670}',
    '\u{6683}','\u{6688}','\u{668E}','\u{6689}','\u{6684}','\u{6698}','\u{669D}','\u{66C1}',
    '\u{66B9}','\u{66C9}','\u{66BE}','\u{66BC}','\u{66C4}','\u{66B8}','\u{66D6}','\u{66DA}',
    '\u{66E0}','\u{663F}','\u{66E6}','\u{66E9}','\u{66F0}','\u{66F5}','\u{66F7}','\u{670F}',
    '\u{6716}','\u{671E}','\u{6726}','\u{6727}','\u{9738}','\u{672E}','\u{673F}','\u{6736}',
    '\u{6741}','\u{6738}','\u{6737}','\u{6746}','\u{675E}','\u{6760}','\u{6759}','\u{6763}',
    '\u{6764}','\u{6789}','\u{6770}','\u{67A9}','\u{677C}','\u{676A}','\u{678C}','\u{678B}',
    '\u{67A6}','\u{67A1}','\u{6785}','\u{67B7}','\u{67EF}','\u{67B4}','\u{67EC}','\u{67B3}',
    '\u{67E9}','\u{67B8}','\u{67E4}','\u{67DE}','\u{67DD}','\u{67E2}','\u{67EE}','\u{67B9}',
    '\u{67CE}','\u{67C6}','\u{67E7}','\u{6A9C}','\u{681E}','\u{6846}','\u{6829}','\u{6840}',
    '\u{684D}','\u{6832}','\u{684E}','\u{68B3}','\u{682B}','\u{6859}','\u{6863}','\u{6877}',
    '\u{687F}','\u{689F}','\u{688F}','\u{68AD}','\u{6894}','\u{689D}','\u{689B}','\u{6883}',
    '\u{6AAE}','\u{68B9}','\u{6874}','\u{68B5}','\u{68A0}','\u{68BA}','\u{690F}','\u{688D}',
    '\u{687E}','\u{6901}','\u{68CA}','\u{6908}','\u{68D8}','\u{6922}','\u{6926}','\u{68E1}',
    '\u{690C}','\u{68CD}','\u{68D4}','\u{68E7}','\u{68D5}','\u{6936}','\u{6912}','\u{6904}',
    '\u{68D7}','\u{68E3}','\u{6925}','\u{68F9}','\u{68E0}','\u{68EF}','\u{6928}','\u{692A}',
    '\u{691A}','\u{6923}','\u{6921}','\u{68C6}','\u{6979}','\u{6977}','\u{695C}','\u{6978}',
    '\u{696B}','\u{6954}','\u{697E}','\u{696E}','\u{6939}','\u{6974}','\u{693D}','\u{6959}',
    '\u{6930}','\u{6961}','\u{695E}','\u{695D}','\u{6981}','\u{696A}','\u{69B2}','\u{69AE}',
    '\u{69D0}','\u{69BF}','\u{69C1}','\u{69D3}','\u{69BE}','\u{69CE}','\u{5BE8}','\u{69CA}',
    '\u{69DD}','\u{69BB}','\u{69C3}','\u{69A7}','\u{6A2E}','\u{6991}','\u{69A0}','\u{699C}',
    '\u{6995}','\u{69B4}','\u{69DE}','\u{69E8}','\u{6A02}','\u{6A1B}','\u{69FF}','\u{6B0A}',
    '\u{69F9}','\u{69F2}','\u{69E7}','\u{6A05}','\u{69B1}','\u{6A1E}','\u{69ED}','\u{6A14}',
    '\u{69EB}','\u{6A0A}','\u{6A12}','\u{6AC1}','\u{6A23}','\u{6A13}','\u{6A44}','\u{6A0C}',
    '\u{6A72}','\u{6A36}','\u{6A78}','\u{6A47}','\u{6A62}','\u{6A59}','\u{6A66}','\u{6A48}',
    '\u{6A38}','\u{6A22}','\u{6A90}','\u{6A8D}','\u{6AA0}','\u{6A84}','\u{6AA2}','\u{6AA3}',
"#

/-- src/generated/whatwg/shiftjis_whatwg_tables.rs.inc:710-756 -/
noncomputable def decode15 : List Text := lines! r#"    '\u{6A97}','\u{8617}','\u{6ABB}','\u{6AC3}','\u{6AC2}','\u{6AB8}','\u{6AB3}','\u{6AAC}',
    '\u{6ADE}','\u{6AD1}','\u{6ADF}','\u{6AAA}','\u{6ADA}','\u{6AEA}','\u{6AFB}','\u{6B05}',
    '\u{8616}','\u{6AFA}','\u{6B12}','\u{6B16}','\u{9B31}','\u{6B1F}','\u{6B38}','\u{6B37}',
    '\u{76DC}','\u{6B39}','\u{98EE}','\u{6B47}','\u{6B43}','\u{6B49}','\u{6B50}','\u{6B59}',
    '\u{6B54}','\u{6B5B}','\u{6B5F}','\u{6B61}','\u{6B78}','\u{6B79}','\u{6B7F}','\u{6B80}',
    '\u{6B84}','\u{6B83}','\u{6B8D}','\u{6B98}','\u{6B95}','\u{6B9E}','\u{6BA4}','\u{6BAA}',
    '\u{6BAB}','\u{6BAF}','\u{6BB2}','\u{6BB1}','\u{6BB3}','\u{6BB7}','\u{6BBC}','\u{6BC6}',
    '\u{6BCB}','\u{6BD3}','\u{6BDF}','\u{6BEC}','\u{6BEB}','\u{6BF3}','\u{6BEF}','\u{9EBE}',
    '\u{6C08}','\u{6C13}','\u{6C14}','\u{6C1B}','\u{6C24}','\u{6C23}','\u{6C5E}','\u{6C55}',
    '\u{6C62}','\u{6C6A}','\u{6C82}','\u{6C8D}','\u{6C9A}','\u{6C81}','\u{6C9B}','\u{6C7E}',
    '\u{6C68}','\u{6C73}','\u{6C92}','\u{6C90}','\u{6CC4}','\u{6CF1}','\u{6CD3}','\u{6CBD}',
    '\u{6CD7}','\u{6CC5}','\u{6CDD}','\u{6CAE}','\u{6CB1}','\u{6CBE}','\u{6CBA}','\u{6CDB}',
    '\u{6CEF}','\u{6CD9}','\u{6CEA}','\u{6D1F}','\u{884D}','\u{6D36}','\u{6D2B}','\u{6D3D}',
    '\u{6D38}','\u{6D19}','\u{6D35}','\u{6D33}','\u{6D12}','\u{6D0C}','\u{6D63}','\u{6D93}',
    '\u{6D64}','\u{6D5A}','\u{6D79}','\u{6D59}','\u{6D8E}','\u{6D95}','\u{6FE4}','\u{6D85}',
    '\u{6DF9}','\u{6E15}','\u{6E0A}','\u{6DB5}','\u{6DC7}','\u{6DE6}','\u{6DB8}','\u{6DC6}',
    '\u{6DEC}','\u{6DDE}','\u{6DCC}','\u{6DE8}','\u{6DD2}','\u{6DC5}','\u{6DFA}','\u{6DD9}',
    '\u{6DE4}','\u{6DD5}','\u{6DEA}','\u{6DEE}','\u{6E2D}','\u{6E6E}','\u{6E2E}','\u{6E19}',
    '\u{6E72}','\u{6E5F}','\u{6E3E}','\u{6E23}','\u{6E6B}','\u{6E2B}','\u{6E76}','\u{6E4D}',
    '\u{6E1F}','\u{6E43}','\u{6E3A}','\u{6E4E}','\u{6E24}','\u{6EFF}','\u{6E1D}','\u{6E38}',
    '\u{6E82}','\u{6EAA}','\u{6E98}','\u{6EC9}','\u{6EB7}','\u{6ED3}','\u{6EBD}','\u{6EAF}',
    '\u{6EC4}','\u{6EB2}','\u{6ED4}','\u{6ED5}','\u{6E8F}','\u{6EA5}','\u{6EC2}','\u{6E9F}',
    '\u{6F41}','\u{6F11}','\u{704C}','\u{6EEC}','\u{6EF8}','\u{6EFE}','\u{6F3F}','\u{6EF2}',
    '\u{6F31}','\u{6EEF}','\u{6F32}','\u{6ECC}','\u{6F3E}','\u{6F13}','\u{6EF7}','\u{6F86}',
    '\u{6F7A}','\u{6F78}','\u{6F81}','\u{6F80}','\u{6F6F}','\u{6F5B}','\u{6FF3}','\u{6F6D}',
    '\u{6F82}','\u{6F7C}','\u{6F58}','\u{6F8E}','\u{6F91}','\u{6FC2}','\u{6F66}','\u{6FB3}',
    '\u{6FA3}','\u{6FA1}','\u{6FA4}','\u{6FB9}','\u{6FC6}','\u{6FAA}','\u{6FDF}','\u{6FD5}',
    '\u{6FEC}','\u{6FD4}','\u{6FD8}','\u{6FF1}','\u{6FEE}','\u{6FDB}','\u{7009}','\u{700B}',
    '\u{6FFA}','\u{7011}','\u{7001}','\u{700F}','\u{6FFE}','\u{701B}','\u{701A}','\u{6F74}',
    '\u{701D}','\u{7018}','\u{701F}','\u{7030}','\u{703E}','\u{7032}','\u{7051}','\u{7063}',
    '\u{7099}','\u{7092}','\u{70AF}','\u{70F1}','\u{70AC}','\u{70B8}','\u{70B3}','\u{70AE}',
    '\u{70DF}','\u{70CB}','\u{70DD}','\u{70D9}','\u{7109}','\u{70FD}','\u{711C}','\u{7119}',
    '\u{7165}','\u{7155}','\u{7188}','\u{7166}','\u{7162}','\u{714C}','\u{7156}','\u{716C}',
    '\u{718F}','\u{71FB}','\u{7184}','\u{7195}','\u{71A8}','\u{71AC}','\u{71D7}','\u{71B9}',
    '\u{71BE}','\u{71D2}','\u{71C9}','\u{71D4}','\u{71CE}','\u{71E0}','\u{71EC}','\u{71E7}',
    '\u{71F5}','\u{71FC}','\u{71F9}','\u{71FF}','\u{720D}','\u{7210}','\u{721B}','\u{7228}',
    '\u{722D}','\u{722C}','\u{7230}','\u{7232}','\u{723B}','\u{723C}','\u{723F}','\u{7240}',
    '\u{7246}','\u{724B}','\u{7258}','\u{7274}','\u{727E}','\u{7282}','\u{7281}','\u{7287}',
    '\u{7292}','\u{7296}','\u{72A2}','\u{72A7}','\u{72B9}','\u{72B2}','\u{72C3}','\u{72C6}',
    '\u{72C4}','\u{72CE}','\u{72D2}','\u{72E2}','\u{72E0}','\u{72E1}','\u{72F9}','\u{72F7}',
    '\u{500F}','\u{7317}','\u{730A}','\u{731C}','\u{7316}','\u{731D}','\u{7334}','\u{732F}',
    '\u{7329}','\u{7325}','\u{733E}','\u{734E}','\u{734F}','\u{9ED8}','\u{7357}','\u{736A}',
    '\u{7368}','\u{7370}','\u{7378}','\u{7375}','\u{737B}','\u{737A}','\u{73C8}','\u{73B3}',
    '\u{73CE}','\u{73BB}','\u{73C0}','\u{73E5}','\u{73EE}','\u{73DE}','\u{74A2}','\u{7405}',
    '\u{746F}','\u{7425}','\u{73F8}','\u{7432}','\u{743A}','\u{7455}','\u{743F}','\u{745F}',
    '\u{7459}','\u{7441}','\u{745C}','\u{7469}','\u{7470}','\u{7463}','\u{746A}','\u{7476}',
    '\u{747E}','\u{748B}','\u{749E}','\u{74A7}','\u{74CA}','\u{74CF}','\u{74D4}','\u{73F1}',
"#

/-- src/generated/whatwg/shiftjis_whatwg_tables.rs.inc:757-803 -/
noncomputable def decode16 : List Text := lines! r#"    '\u{74E0}','\u{74E3}','\u{74E7}','\u{74E9}','\u{74EE}','\u{74F2}','\u{74F0}','\u{74F1}',
    '\u{74F8}','\u{74F7}','\u{7504}','\u{7503}','\u{7505}','\u{750C}','\u{750E}','\u{750D}',
    '\u{7515}','\u{7513}','\u{751E}','\u{7526}','\u{752C}','\u{753C}','\u{7544}','\u{754D}',
    '\u{754A}','\u{7549}','\u{755B}','\u{7546}','\u{755A}','\u{7569}','\u{7564}','\u{7567}',
    '\u{756B}','\u{756D}','\u{7578}','\u{7576}','\u{7586}','\u{7587}','\u{7574}','\u{758A}',
    '\u{7589}','\u{7582}','\u{7594}','\u{759A}','\u{759D}','\u{75A5}','\u{75A3}','\u{75C2}',
    '\u{75B3}','\u{75C3}','\u{75B5}','\u{75BD}','\u{75B8}','\u{75BC}','\u{75B1}','\u{75CD}',
    '\u{75CA}','\u{75D2}','\u{75D9}','\u{75E3}','\u{75DE}','\u{75FE}','\u{75FF}','\u{75FC}',
    '\u{7601}','\u{75F0}','\u{75FA}','\u{75F2}','\u{75F3}','\u{760B}','\u{760D}','\u{7609}',
    '\u{761F}','\u{7627}','\u{7620}','\u{7621}','\u{7622}','\u{7624}','\u{7634}','\u{7630}',
    '\u{763B}','\u{7647}','\u{7648}','\u{7646}','\u{765C}','\u{7658}','\u{7661}','\u{7662}',
    '\u{7668}','\u{7669}','\u{766A}','\u{7667}','\u{766C}','\u{7670}','\u{7672}','\u{7676}',
    '\u{7678}','\u{767C}','\u{7680}','\u{7683}','\u{7688}','\u{768B}','\u{768E}','\u{7696}',
    '\u{7693}','\u{7699}','\u{769A}','\u{76B0}','\u{76B4}','\u{76B8}','\u{76B9}','\u{76BA}',
    '\u{76C2}','\u{76CD}','\u{76D6}','\u{76D2}','\u{76DE}','\u{76E1}','\u{76E5}','\u{76E7}',
    '\u{76EA}','\u{862F}','\u{76FB}','\u{7708}','\u{7707}','\u{7704}','\u{7729}','\u{7724}',
    '\u{771E}','\u{7725}','\u{7726}','\u{771B}','\u{7737}','\u{7738}','\u{7747}','\u{775A}',
    '\u{7768}','\u{776B}','\u{775B}','\u{7765}','\u{777F}','\u{777E}','\u{7779}','\u{778E}',
    '\u{778B}','\u{7791}','\u{77A0}','\u{779E}','\u{77B0}','\u{77B6}','\u{77B9}','\u{77BF}',
    '\u{77BC}','\u{77BD}','\u{77BB}','\u{77C7}','\u{77CD}','\u{77D7}','\u{77DA}','\u{77DC}',
    '\u{77E3}','\u{77EE}','\u{77FC}','\u{780C}','\u{7812}','\u{7926}','\u{7820}','\u{792A}',
    '\u{7845}','\u{788E}','\u{7874}','\u{7886}','\u{787C}','\u{789A}','\u{788C}','\u{78A3}',
    '\u{78B5}','\u{78AA}','\u{78AF}','\u{78D1}','\u{78C6}','\u{78CB}','\u{78D4}','\u{78BE}',
    '\u{78BC}','\u{78C5}','\u{78CA}','\u{78EC}','\u{78E7}','\u{78DA}','\u{78FD}','\u{78F4}',
    '\u{7907}','\u{7912}','\u{7911}','\u{7919}','\u{792C}','\u{792B}','\u{7940}','\u{7960}',
    '\u{7957}','\u{795F}','\u{795A}','\u{7955}','\u{7953}','\u{797A}','\u{797F}','\u{798A}',
    '\u{799D}','\u{79A7}','\u{9F4B}','\u{79AA}','\u{79AE}','\u{79B3}','\u{79B9}','\u{79BA}',
    '\u{79C9}','\u{79D5}','\u{79E7}','\u{79EC}','\u{79E1}','\u{79E3}','\u{7A08}','\u{7A0D}',
    '\u{7A18}','\u{7A19}','\u{7A20}','\u{7A1F}','\u{7980}','\u{7A31}','\u{7A3B}','\u{7A3E}',
    '\u{7A37}','\u{7A43}','\u{7A57}','\u{7A49}','\u{7A61}','\u{7A62}','\u{7A69}','\u{9F9D}',
    '\u{7A70}','\u{7A79}','\u{7A7D}','\u{7A88}','\u{7A97}','\u{7A95}','\u{7A98}','\u{7A96}',
    '\u{7AA9}','\u{7AC8}','\u{7AB0}','\u{7AB6}','\u{7AC5}','\u{7AC4}','\u{7ABF}','\u{9083}',
    '\u{7AC7}','\u{7ACA}','\u{7ACD}','\u{7ACF}','\u{7AD5}','\u{7AD3}','\u{7AD9}','\u{7ADA}',
    '\u{7ADD}','\u{7AE1}','\u{7AE2}','\u{7AE6}','\u{7AED}','\u{7AF0}','\u{7B02}','\u{7B0F}',
    '\u{7B0A}','\u{7B06}','\u{7B33}','\u{7B18}','\u{7B19}','\u{7B1E}','\u{7B35}','\u{7B28}',
    '\u{7B36}','\u{7B50}','\u{7B7A}','\u{7B04}','\u{7B4D}','\u{7B0B}','\u{7B4C}','\u{7B45}',
    '\u{7B75}','\u{7B65}','\u{7B74}','\u{7B67}','\u{7B70}','\u{7B71}','\u{7B6C}','\u{7B6E}',
    '\u{7B9D}','\u{7B98}','\u{7B9F}','\u{7B8D}','\u{7B9C}','\u{7B9A}','\u{7B8B}','\u{7B92}',
    '\u{7B8F}','\u{7B5D}','\u{7B99}','\u{7BCB}','\u{7BC1}','\u{7BCC}','\u{7BCF}','\u{7BB4}',
    '\u{7BC6}','\u{7BDD}','\u{7BE9}','\u{7C11}','\u{7C14}','\u{7BE6}','\u{7BE5}','\u{7C60}',
    '\u{7C00}','\u{7C07}','\u{7C13}','\u{7BF3}','\u{7BF7}','\u{7C17}','\u{7C0D}','\u{7BF6}',
    '\u{7C23}','\u{7C27}','\u{7C2A}','\u{7C1F}','\u{7C37}','\u{7C2B}','\u{7C3D}','\u{7C4C}',
    '\u{7C43}','\u{7C54}','\u{7C4F}','\u{7C40}','\u{7C50}','\u{7C58}','\u{7C5F}','\u{7C64}',
    '\u{7C56}','\u{7C65}','\u{7C6C}','\u{7C75}','\u{7C83}','\u{7C90}','\u{7CA4}','\u{7CAD}',
    '\u{7CA2}','\u{7CAB}','\u{7CA1}','\u{7CA8}','\u{7CB3}','\u{7CB2}','\u{7CB1}','\u{7CAE}',
    '\u{7CB9}','\u{7CBD}','\u{7CC0}','\u{7CC5}','\u{7CC2}','\u{7CD8}','\u{7CD2}','\u{7CDC}',
    '\u{7CE2}','\u{9B3B}','\u{7CEF}','\u{7CF2}','\u{7CF4}','\u{7CF6}','\u{7CFA}','\u{7D06}',
"#

/-- src/generated/whatwg/shiftjis_whatwg_tables.rs.inc:804-850 -/
noncomputable def decode17 : List Text := lines! r#"    '\u{7D02}','\u{7D1C}','\u{7D15}','\u{7D0A}','\u{7D45}','\u{7D4B}','\u{7D2E}','\u{7D32}',
    '\u{7D3F}','\u{7D35}','\u{7D46}','\u{7D73}','\u{7D56}','\u{7D4E}','\u{7D72}','\u{7D68}',
    '\u{7D6E}','\u{7D4F}','\u{7D63}','\u{7D93}','\u{7D89}','\u{7D5B}','\u{7D8F}','\u{7D7D}',
    '\u{7D9B}','\u{7DBA}','\u{7DAE}','\u{7DA3}','\u{7DB5}','\u{7DC7}','\u{7DBD}','\u{7DAB}',
    '\u{7E3D}','\u{7DA2}','\u{7DAF}','\u{7DDC}','\u{7DB8}','\u{7D9F}','\u{7DB0}','\u{7DD8}',
    '\u{7DDD}','\u{7DE4}','\u{7DDE}','\u{7DFB}','\u{7DF2}','\u{7DE1}','\u{7E05}','\u{7E0A}',
    '\u{7E23}','\u{7E21}','\u{7E12}','\u{7E31}','\u{7E1F}','\u{7E09}','\u{7E0B}','\u{7E22}',
    '\u{7E46}','\u{7E66}','\u{7E3B}','\u{7E35}','\u{7E39}','\u{7E43}','\u{7E37}','\u{7E32}',
    '\u{7E3A}','\u{7E67}','\u{7E5D}','\u{7E56}','\u{7E5E}','\u{7E59}','\u{7E5A}','\u{7E79}',
    '\u{7E6A}','\u{7E69}','\u{7E7C}','\u{7E7B}','\u{7E83}','\u{7DD5}','\u{7E7D}','\u{8FAE}',
    '\u{7E7F}','\u{7E88}','\u{7E89}','\u{7E8C}','\u{7E92}','\u{7E90}','\u{7E93}','\u{7E94}',
    '\u{7E96}','\u{7E8E}','\u{7E9B}','\u{7E9C}','\u{7F38}','\u{7F3A}','\u{7F45}','\u{7F4C}',
    '\u{7F4D}','\u{7F4E}','\u{7F50}','\u{7F51}','\u{7F55}','\u{7F54}','\u{7F58}','\u{7F5F}',
    '\u{7F60}','\u{7F68}','\u{7F69}','\u{7F67}','\u{7F78}','\u{7F82}','\u{7F86}','\u{7F83}',
    '\u{7F88}','\u{7F87}','\u{7F8C}','\u{7F94}','\u{7F9E}','\u{7F9D}','\u{7F9A}','\u{7FA3}',
    '\u{7FAF}','\u{7FB2}','\u{7FB9}','\u{7FAE}','\u{7FB6}','\u{7FB8}','\u{8B71}','\u{7FC5}',
    '\u{7FC6}','\u{7FCA}','\u{7FD5}','\u{7FD4}','\u{7FE1}','\u{7FE6}','\u{7FE9}','\u{7FF3}',
    '\u{7FF9}','\u{98DC}','\u{8006}','\u{8004}','\u{800B}','\u{8012}','\u{8018}','\u{8019}',
    '\u{801C}','\u{8021}','\u{8028}','\u{803F}','\u{803B}','\u{804A}','\u{8046}','\u{8052}',
    '\u{8058}','\u{805A}','\u{805F}','\u{8062}','\u{8068}','\u{8073}','\u{8072}','\u{8070}',
    '\u{8076}','\u{8079}','\u{807D}','\u{807F}','\u{8084}','\u{8086}','\u{8085}','\u{809B}',
    '\u{8093}','\u{809A}','\u{80AD}','\u{5190}','\u{80AC}','\u{80DB}','\u{80E5}','\u{80D9}',
    '\u{80DD}','\u{80C4}','\u{80DA}','\u{80D6}','\u{8109}','\u{80EF}','\u{80F1}','\u{811B}',
    '\u{8129}','\u{8123}','\u{812F}','\u{814B}','\u{968B}','\u{8146}','\u{813E}','\u{8153}',
    '\u{8151}','\u{80FC}','\u{8171}','\u{816E}','\u{8165}','\u{8166}','\u{8174}','\u{8183}',
    '\u{8188}','\u{818A}','\u{8180}','\u{8182}','\u{81A0}','\u{8195}','\u{81A4}','\u{81A3}',
    '\u{815F}','\u{8193}','\u{81A9}','\u{81B0}','\u{81B5}','\u{81BE}','\u{81B8}','\u{81BD}',
    '\u{81C0}','\u{81C2}','\u{81BA}','\u{81C9}','\u{81CD}','\u{81D1}','\u{81D9}','\u{81D8}',
    '\u{81C8}','\u{81DA}','\u{81DF}','\u{81E0}','\u{81E7}','\u{81FA}','\u{81FB}','\u{81FE}',
    '\u{8201}','\u{8202}','\u{8205}','\u{8207}','\u{820A}','\u{820D}','\u{8210}','\u{8216}',
    '\u{8229}','\u{822B}','\u{8238}','\u{8233}','\u{8240}','\u{8259}','\u{8258}','\u{825D}',
    '\u{825A}','\u{825F}','\u{8264}','\u{8262}','\u{8268}','\u{826A}','\u{826B}','\u{822E}',
    '\u{8271}','\u{8277}','\u{8278}','\u{827E}','\u{828D}','\u{8292}','\u{82AB}','\u{829F}',
    '\u{82BB}','\u{82AC}','\u{82E1}','\u{82E3}','\u{82DF}','\u{82D2}','\u{82F4}','\u{82F3}',
    '\u{82FA}','\u{8393}','\u{8303}','\u{82FB}','\u{82F9}','\u{82DE}','\u{8306}','\u{82DC}',
    '\u{8309}','\u{82D9}','\u{8335}','\u{8334}','\u{8316}','\u{8332}','\u{8331}','\u{8340}',
    '\u{8339}','\u{8350}','\u{8345}','\u{832F}','\u{832B}','\u{8317}','\u{8318}','\u{8385}',
    '\u{839A}','\u{83AA}','\u{839F}','\u{83A2}','\u{8396}','\u{8323}','\u{838E}','\u{8387}',
    '\u{838A}','\u{837C}','\u{83B5}','\u{8373}','\u{8375}','\u{83A0}','\u{8389}','\u{83A8}',
    '\u{83F4}','\u{8413}','\u{83EB}','\u{83CE}','\u{83FD}','\u{8403}','\u{83D8}','\u{840B}',
    '\u{83C1}','\u{83F7}','\u{8407}','\u{83E0}','\u{83F2}','\u{840D}','\u{8422}','\u{8420}',
    '\u{83BD}','\u{8438}','\u{8506}','\u{83FB}','\u{846D}','\u{842A}','\u{843C}','\u{855A}',
    '\u{8484}','\u{8477}','\u{846B}','\u{84AD}','\u{846E}','\u{8482}','\u{8469}','\u{8446}',
    '\u{842C}','\u{846F}','\u{8479}','\u{8435}','\u{84CA}','\u{8462}','\u{84B9}','\u{84BF}',
    '\u{849F}','\u{84D9}','\u{84CD}','\u{84BB}','\u{84DA}','\u{84D0}','\u{84C1}','\u{84C6}',
    '\u{84D6}','\u{84A1}','\u{8521}','\u{84FF}','\u{84F4}','\u{8517}','\u{8518}','\u{852C}',
    '\u{851F}','\u{8515}','\u{8514}','\u{84FC}','\u{8540}','\u{8563}','\u{8558}','\u{8548}',
"#

/-- src/generated/whatwg/shiftjis_whatwg_tables.rs.inc:851-897 -/
noncomputable def decode18 : List Text := lines! r#"    '\u{8541}','\u{8602}','\u{854B}','\u{8555}','\u{8580}','\u{85A4}','\u{8588}','\u{8591}',
    '\u{858A}','\u{85A8}','\u{856D}','\u{8594}','\u{859B}','\u{85EA}','\u{8587}','\u{859C}',
    '\u{8577}','\u{857E}','\u{8590}','\u{85C9}','\u{85BA}','\u{85CF}','\u{85B9}','\u{85D0}',
    '\u{85D5}','\u{85DD}','\u{85E5}','\u{85DC}','\u{85F9}','\u{860A}','\u{8613}','\u{860B}',
    '\u{85FE}','\u{85FA}','\u{8606}','\u{8622}','\u{861A}','\u{8630}','\u{863F}','\u{864D}',
    '\u{4E55}','\u{8654}','\u{865F}','\u{8667}','\u{8671}','\u{8693}','\u{86A3}','\u{86A9}',
    '\u{86AA}','\u{868B}','\u{868C}','\u{86B6}','\u{86AF}','\u{86C4}','\u{86C6}','\u{86B0}',
    '\u{86C9}','\u{8823}','\u{86AB}','\u{86D4}','\u{86DE}','\u{86E9}','\u{86EC}','\u{86DF}',
    '\u{86DB}','\u{86EF}','\u{8712}','\u{8706}','\u{8708}','\u{8700}','\u{8703}','\u{86FB}',
    '\u{8711}','\u{8709}','\u{870D}','\u{86F9}','\u{870A}','\u{8734}','\u{873F}','\u{8737}',
    '\u{873B}','\u{8725}','\u{8729}','\u{871A}','\u{8760}','\u{875F}','\u{8778}','\u{874C}',
    '\u{874E}','\u{8774}','\u{8757}','\u{8768}','\u{876E}','\u{8759}','\u{8753}','\u{8763}',
    '\u{876A}','\u{8805}','\u{87A2}','\u{879F}','\u{8782}','\u{87AF}','\u{87CB}','\u{87BD}',
    '\u{87C0}','\u{87D0}','\u{96D6}','\u{87AB}','\u{87C4}','\u{87B3}','\u{87C7}','\u{87C6}',
    '\u{87BB}','\u{87EF}','\u{87F2}','\u{87E0}','\u{880F}','\u{880D}','\u{87FE}','\u{87F6}',
    '\u{87F7}','\u{880E}','\u{87D2}','\u{8811}','\u{8816}','\u{8815}','\u{8822}','\u{8821}',
    '\u{8831}','\u{8836}','\u{8839}','\u{8827}','\u{883B}','\u{8844}','\u{8842}','\u{8852}',
    '\u{8859}','\u{885E}','\u{8862}','\u{886B}','\u{8881}','\u{887E}','\u{889E}','\u{8875}',
    '\u{887D}','\u{88B5}','\u{8872}','\u{8882}','\u{8897}','\u{8892}','\u{88AE}','\u{8899}',
    '\u{88A2}','\u{888D}','\u{88A4}','\u{88B0}','\u{88BF}','\u{88B1}','\u{88C3}','\u{88C4}',
    '\u{88D4}','\u{88D8}','\u{88D9}','\u{88DD}','\u{88F9}','\u{8902}','\u{88FC}','\u{88F4}',
    '\u{88E8}','\u{88F2}','\u{8904}','\u{890C}','\u{890A}','\u{8913}','\u{8943}','\u{891E}',
    '\u{8925}','\u{892A}','\u{892B}','\u{8941}','\u{8944}','\u{893B}','\u{8936}','\u{8938}',
    '\u{894C}','\u{891D}','\u{8960}','\u{895E}','\u{8966}','\u{8964}','\u{896D}','\u{896A}',
    '\u{896F}','\u{8974}','\u{8977}','\u{897E}','\u{8983}','\u{8988}','\u{898A}','\u{8993}',
    '\u{8998}','\u{89A1}','\u{89A9}','\u{89A6}','\u{89AC}','\u{89AF}','\u{89B2}','\u{89BA}',
    '\u{89BD}','\u{89BF}','\u{89C0}','\u{89DA}','\u{89DC}','\u{89DD}','\u{89E7}','\u{89F4}',
    '\u{89F8}','\u{8A03}','\u{8A16}','\u{8A10}','\u{8A0C}','\u{8A1B}','\u{8A1D}','\u{8A25}',
    '\u{8A36}','\u{8A41}','\u{8A5B}','\u{8A52}','\u{8A46}','\u{8A48}','\u{8A7C}','\u{8A6D}',
    '\u{8A6C}','\u{8A62}','\u{8A85}','\u{8A82}','\u{8A84}','\u{8AA8}','\u{8AA1}','\u{8A91}',
    '\u{8AA5}','\u{8AA6}','\u{8A9A}','\u{8AA3}','\u{8AC4}','\u{8ACD}','\u{8AC2}','\u{8ADA}',
    '\u{8AEB}','\u{8AF3}','\u{8AE7}','\u{8AE4}','\u{8AF1}','\u{8B14}','\u{8AE0}','\u{8AE2}',
    '\u{8AF7}','\u{8ADE}','\u{8ADB}','\u{8B0C}','\u{8B07}','\u{8B1A}','\u{8AE1}','\u{8B16}',
    '\u{8B10}','\u{8B17}','\u{8B20}','\u{8B33}','\u{97AB}','\u{8B26}','\u{8B2B}','\u{8B3E}',
    '\u{8B28}','\u{8B41}','\u{8B4C}','\u{8B4F}','\u{8B4E}','\u{8B49}','\u{8B56}','\u{8B5B}',
    '\u{8B5A}','\u{8B6B}','\u{8B5F}','\u{8B6C}','\u{8B6F}','\u{8B74}','\u{8B7D}','\u{8B80}',
    '\u{8B8C}','\u{8B8E}','\u{8B92}','\u{8B93}','\u{8B96}','\u{8B99}','\u{8B9A}','\u{8C3A}',
    '\u{8C41}','\u{8C3F}','\u{8C48}','\u{8C4C}','\u{8C4E}','\u{8C50}','\u{8C55}','\u{8C62}',
    '\u{8C6C}','\u{8C78}','\u{8C7A}','\u{8C82}','\u{8C89}','\u{8C85}','\u{8C8A}','\u{8C8D}',
    '\u{8C8E}','\u{8C94}','\u{8C7C}','\u{8C98}','\u{621D}','\u{8CAD}','\u{8CAA}','\u{8CBD}',
    '\u{8CB2}','\u{8CB3}','\u{8CAE}','\u{8CB6}','\u{8CC8}','\u{8CC1}','\u{8CE4}','\u{8CE3}',
    '\u{8CDA}','\u{8CFD}','\u{8CFA}','\u{8CFB}','\u{8D04}','\u{8D05}','\u{8D0A}','\u{8D07}',
    '\u{8D0F}','\u{8D0D}','\u{8D10}','\u{9F4E}','\u{8D13}','\u{8CCD}','\u{8D14}','\u{8D16}',
    '\u{8D67}','\u{8D6D}','\u{8D71}','\u{8D73}','\u{8D81}','\u{8D99}','\u{8DC2}','\u{8DBE}',
    '\u{8DBA}','\u{8DCF}','\u{8DDA}','\u{8DD6}','\u{8DCC}','\u{8DDB}','\u{8DCB}','\u{8DEA}',
    '\u{8DEB}','\u{8DDF}','\u{8DE3}','\u{8DFC}','\u{8E08}','\u{8E09}','\u{8DFF}','\u{8E1D}',
    '\u{8E1E}','\u{8E10}','\u{8E1F}','\u{8E42}','\u{8E35}','\u{8E30}','\u{8E34}','\u{8E4A}',
"#

/-- src/generated/whatwg/shiftjis_whatwg_tables.rs.inc:898-944 -/
noncomputable def decode19 : List Text := lines! r#"    '\u{8E47}','\u{8E49}','\u{8E4C}','\u{8E50}','\u{8E48}','\u{8E59}','\u{8E64}','\u{8E60}',
    '\u{8E2A}','\u{8E63}','\u{8E55}','\u{8E76}','\u{8E72}','\u{8E7C}','\u{8E81}','\u{8E87}',
    '\u{8E85}','\u{8E84}','\u{8E8B}','\u{8E8A}','\u{8E93}','\u{8E91}','\u{8E94}','\u{8E99}',
    '\u{8EAA}','\u{8EA1}','\u{8EAC}','\u{8EB0}','\u{8EC6}','\u{8EB1}','\u{8EBE}','\u{8EC5}',
    '\u{8EC8}','\u{8ECB}','\u{8EDB}','\u{8EE3}','\u{8EFC}','\u{8EFB}','\u{8EEB}','\u{8EFE}',
    '\u{8F0A}','\u{8F05}','\u{8F15}','\u{8F12}','\u{8F19}','\u{8F13}','\u{8F1C}','\u{8F1F}',
    '\u{8F1B}','\u{8F0C}','\u{8F26}','\u{8F33}','\u{8F3B}','\u{8F39}','\u{8F45}','\u{8F42}',
    '\u{8F3E}','\u{8F4C}','\u{8F49}','\u{8F46}','\u{8F4E}','\u{8F57}','\u{8F5C}','\u{8F62}',
    '\u{8F63}','\u{8F64}','\u{8F9C}','\u{8F9F}','\u{8FA3}','\u{8FAD}','\u{8FAF}','\u{8FB7}',
    '\u{8FDA}','\u{8FE5}','\u{8FE2}','\u{8FEA}','\u{8FEF}','\u{9087}','\u{8FF4}','\u{9005}',
    '\u{8FF9}','\u{8FFA}','\u{9011}','\u{9015}','\u{9021}','\u{900D}','\u{901E}','\u{9016}',
    '\u{900B}','\u{9027}','\u{9036}','\u{9035}','\u{9039}','\u{8FF8}','\u{904F}','\u{9050}',
    '\u{9051}','\u{9052}','\u{900E}','\u{9049}','\u{903E}','\u{9056}','\u{9058}','\u{905E}',
    '\u{9068}','\u{906F}','\u{9076}','\u{96A8}','\u{9072}','\u{9082}','\u{907D}','\u{9081}',
    '\u{9080}','\u{908A}','\u{9089}','\u{908F}','\u{90A8}','\u{90AF}','\u{90B1}','\u{90B5}',
    '\u{90E2}','\u{90E4}','\u{6248}','\u{90DB}','\u{9102}','\u{9112}','\u{9119}','\u{9132}',
    '\u{9130}','\u{914A}','\u{9156}','\u{9158}','\u{9163}','\u{9165}','\u{9169}','\u{9173}',
    '\u{9172}','\u{918B}','\u{9189}','\u{9182}','\u{91A2}','\u{91AB}','\u{91AF}','\u{91AA}',
    '\u{91B5}','\u{91B4}','\u{91BA}','\u{91C0}','\u{91C1}','\u{91C9}','\u{91CB}','\u{91D0}',
    '\u{91D6}','\u{91DF}','\u{91E1}','\u{91DB}','\u{91FC}','\u{91F5}','\u{91F6}','\u{921E}',
    '\u{91FF}','\u{9214}','\u{922C}','\u{9215}','\u{9211}','\u{925E}','\u{9257}','\u{9245}',
    '\u{9249}','\u{9264}','\u{9248}','\u{9295}','\u{923F}','\u{924B}','\u{9250}','\u{929C}',
    '\u{9296}','\u{9293}','\u{929B}','\u{925A}','\u{92CF}','\u{92B9}','\u{92B7}','\u{92E9}',
    '\u{930F}','\u{92FA}','\u{9344}','\u{932E}','\u{9319}','\u{9322}','\u{931A}','\u{9323}',
    '\u{933A}','\u{9335}','\u{933B}','\u{935C}','\u{9360}','\u{937C}','\u{936E}','\u{9356}',
    '\u{93B0}','\u{93AC}','\u{93AD}','\u{9394}','\u{93B9}','\u{93D6}','\u{93D7}','\u{93E8}',
    '\u{93E5}','\u{93D8}','\u{93C3}','\u{93DD}','\u{93D0}','\u{93C8}','\u{93E4}','\u{941A}',
    '\u{9414}','\u{9413}','\u{9403}','\u{9407}','\u{9410}','\u{9436}','\u{942B}','\u{9435}',
    '\u{9421}','\u{943A}','\u{9441}','\u{9452}','\u{9444}','\u{945B}','\u{9460}','\u{9462}',
    '\u{945E}','\u{946A}','\u{9229}','\u{9470}','\u{9475}','\u{9477}','\u{947D}','\u{945A}',
    '\u{947C}','\u{947E}','\u{9481}','\u{947F}','\u{9582}','\u{9587}','\u{958A}','\u{9594}',
    '\u{9596}','\u{9598}','\u{9599}','\u{95A0}','\u{95A8}','\u{95A7}','\u{95AD}','\u{95BC}',
    '\u{95BB}','\u{95B9}','\u{95BE}','\u{95CA}','\u{6FF6}','\u{95C3}','\u{95CD}','\u{95CC}',
    '\u{95D5}','\u{95D4}','\u{95D6}','\u{95DC}','\u{95E1}','\u{95E5}','\u{95E2}','\u{9621}',
    '\u{9628}','\u{962E}','\u{962F}','\u{9642}','\u{964C}','\u{964F}','\u{964B}','\u{9677}',
    '\u{965C}','\u{965E}','\u{965D}','\u{965F}','\u{9666}','\u{9672}','\u{966C}','\u{968D}',
    '\u{9698}','\u{9695}','\u{9697}','\u{96AA}','\u{96A7}','\u{96B1}','\u{96B2}','\u{96B0}',
    '\u{96B4}','\u{96B6}','\u{96B8}','\u{96B9}','\u{96CE}','\u{96CB}','\u{96C9}','\u{96CD}',
    '\u{894D}','\u{96DC}','\u{970D}','\u{96D5}','\u{96F9}','\u{9704}','\u{9706}','\u{9708}',
    '\u{9713}','\u{970E}','\u{9711}','\u{970F}','\u{9716}','\u{9719}','\u{9724}','\u{972A}',
    '\u{9730}','\u{9739}','\u{973D}','\u{973E}','\u{9744}','\u{9746}','\u{9748}','\u{9742}',
    '\u{9749}','\u{975C}','\u{9760}','\u{9764}','\u{9766}','\u{9768}','\u{52D2}','\u{976B}',
    '\u{9771}','\u{9779}','\u{9785}','\u{977C}','\u{9781}','\u{977A}','\u{9786}','\u{978B}',
    '\u{978F}','\u{9790}','\u{979C}','\u{97A8}','\u{97A6}','\u{97A3}','\u{97B3}','\u{97B4}',
    '\u{97C3}','\u{97C6}','\u{97C8}','\u{97CB}','\u{97DC}','\u{97ED}','\u{9F4F}','\u{97F2}',
    '\u{7ADF}','\u{97F6}','\u{97F5}','\u{980F}','\u{980C}','\u{9838}','\u{9824}','\u{9821}',
    '\u{9837}','\u{983D}','\u{9846}','\u{984F}','\u{984B}','\u{986B}','\u{986F}','\u{9870}',
"#

/-- src/generated/whatwg/shiftjis_whatwg_tables.rs.inc:945-991 -/
noncomputable def decode20 : List Text := lines! r#"    '\u{9871}','\u{9874}','\u{9873}','\u{98AA}','\u{98AF}','\u{98B1}','\u{98B6}','\u{98C4}',
    '\u{98C3}','\u{98C6}','\u{98E9}','\u{98EB}','\u{9903}','\u{9909}','\u{9912}','\u{9914}',
    '\u{9918}','\u{9921}','\u{991D}','\u{991E}','\u{9924}','\u{9920}','\u{992C}','\u{992E}',
    '\u{993D}','\u{993E}','\u{9942}','\u{9949}','\u{9945}','\u{9950}','\u{994B}','\u{9951}',
    '\u{9952}','\u{994C}','\u{9955}','\u{9997}','\u{9998}','\u{99A5}','\u{99AD}','\u{99AE}',
    '\u{99BC}','\u{99DF}','\u{99DB}','\u{99DD}','\u{99D8}','\u{99D1}','\u{99ED}','\u{99EE}',
    '\u{99F1}','\u{99F2}','\u{99FB}','\u{99F8}','\u{9A01}','\u{9A0F}','\u{9A05}','\u{99E2}',
    '\u{9A19}','\u{9A2B}','\u{9A37}','\u{9A45}','\u{9A42}','\u{9A40}','\u{9A43}','\u{9A3E}',
    '\u{9A55}','\u{9A4D}','\u{9A5B}','\u{9A57}','\u{9A5F}','\u{9A62}','\u{9A65}','\u{9A64}',
    '\u{9A69}','\u{9A6B}','\u{9A6A}','\u{9AAD}','\u{9AB0}','\u{9ABC}','\u{9AC0}','\u{9ACF}',
    '\u{9AD1}','\u{9AD3}','\u{9AD4}','\u{9ADE}','\u{9ADF}','\u{9AE2}','\u{9AE3}','\u{9AE6}',
    '\u{9AEF}','\u{9AEB}','\u{9AEE}','\u{9AF4}','\u{9AF1}','\u{9AF7}','\u{9AFB}','\u{9B06}',
    '\u{9B18}','\u{9B1A}','\u{9B1F}','\u{9B22}','\u{9B23}','\u{9B25}','\u{9B27}','\u{9B28}',
    '\u{9B29}','\u{9B2A}','\u{9B2E}','\u{9B2F}','\u{9B32}','\u{9B44}','\u{9B43}','\u{9B4F}',
    '\u{9B4D}','\u{9B4E}','\u{9B51}','\u{9B58}','\u{9B74}','\u{9B93}','\u{9B83}','\u{9B91}',
    '\u{9B96}','\u{9B97}','\u{9B9F}','\u{9BA0}','\u{9BA8}','\u{9BB4}','\u{9BC0}','\u{9BCA}',
    '\u{9BB9}','\u{9BC6}','\u{9BCF}','\u{9BD1}','\u{9BD2}','\u{9BE3}','\u{9BE2}','\u{9BE4}',
    '\u{9BD4}','\u{9BE1}','\u{9C3A}','\u{9BF2}','\u{9BF1}','\u{9BF0}','\u{9C15}','\u{9C14}',
    '\u{9C09}','\u{9C13}','\u{9C0C}','\u{9C06}','\u{9C08}','\u{9C12}','\u{9C0A}','\u{9C04}',
    '\u{9C2E}','\u{9C1B}','\u{9C25}','\u{9C24}','\u{9C21}','\u{9C30}','\u{9C47}','\u{9C32}',
    '\u{9C46}','\u{9C3E}','\u{9C5A}','\u{9C60}','\u{9C67}','\u{9C76}','\u{9C78}','\u{9CE7}',
    '\u{9CEC}','\u{9CF0}','\u{9D09}','\u{9D08}','\u{9CEB}','\u{9D03}','\u{9D06}','\u{9D2A}',
    '\u{9D26}','\u{9DAF}','\u{9D23}','\u{9D1F}','\u{9D44}','\u{9D15}','\u{9D12}','\u{9D41}',
    '\u{9D3F}','\u{9D3E}','\u{9D46}','\u{9D48}','\u{9D5D}','\u{9D5E}','\u{9D64}','\u{9D51}',
    '\u{9D50}','\u{9D59}','\u{9D72}','\u{9D89}','\u{9D87}','\u{9DAB}','\u{9D6F}','\u{9D7A}',
    '\u{9D9A}','\u{9DA4}','\u{9DA9}','\u{9DB2}','\u{9DC4}','\u{9DC1}','\u{9DBB}','\u{9DB8}',
    '\u{9DBA}','\u{9DC6}','\u{9DCF}','\u{9DC2}','\u{9DD9}','\u{9DD3}','\u{9DF8}','\u{9DE6}',
    '\u{9DED}','\u{9DEF}','\u{9DFD}','\u{9E1A}','\u{9E1B}','\u{9E1E}','\u{9E75}','\u{9E79}',
    '\u{9E7D}','\u{9E81}','\u{9E88}','\u{9E8B}','\u{9E8C}','\u{9E92}','\u{9E95}','\u{9E91}',
    '\u{9E9D}','\u{9EA5}','\u{9EA9}','\u{9EB8}','\u{9EAA}','\u{9EAD}','\u{9761}','\u{9ECC}',
    '\u{9ECE}','\u{9ECF}','\u{9ED0}','\u{9ED4}','\u{9EDC}','\u{9EDE}','\u{9EDD}','\u{9EE0}',
    '\u{9EE5}','\u{9EE8}','\u{9EEF}','\u{9EF4}','\u{9EF6}','\u{9EF7}','\u{9EF9}','\u{9EFB}',
    '\u{9EFC}','\u{9EFD}','\u{9F07}','\u{9F08}','\u{76B7}','\u{9F15}','\u{9F21}','\u{9F2C}',
    '\u{9F3E}','\u{9F4A}','\u{9F52}','\u{9F54}','\u{9F63}','\u{9F5F}','\u{9F60}','\u{9F61}',
    '\u{9F66}','\u{9F67}','\u{9F6C}','\u{9F6A}','\u{9F77}','\u{9F72}','\u{9F76}','\u{9F95}',
    '\u{9F9C}','\u{9FA0}','\u{582F}','\u{69C7}','\u{9059}','\u{7464}','\u{51DC}','\u{7199}',
    '�','�','�','�','�','�','�','�',
    '�','�','�','�','�','�','�','�',
    '�','�','�','�','�','�','�','�',
    '�','�','�','�','�','�','�','�',
    '�','�','�','�','�','�','�','�',
    '�','�','�','�','�','�','�','�',
    '�','�','�','�','�','�','�','�',
    '�','�','�','�','�','�','�','�',
    '�','�','�','�','�','�','�','�',
    '�','�','�','�','�','�','�','�',
    '�','�','�','�','�','�','�','�',
"#

/-- src/generated/whatwg/shiftjis_whatwg_tables.rs.inc:992-1038 -/
noncomputable def decode21 : List Text := lines! r#"    '�','�','�','�','�','�','�','�',
    '�','�','�','�','�','�','�','�',
    '�','�','�','�','�','�','�','�',
    '�','�','�','�','�','�','�','�',
    '�','�','�','�','�','�','�','�',
    '�','�','�','�','�','�','�','�',
    '�','�','�','�','�','�','�','�',
    '�','�','�','�','�','�','�','�',
    '�','�','�','�','�','�','�','�',
    '�','�','�','�','�','�','�','�',
    '�','�','�','�','�','�','�','�',
    '�','�','�','�','�','�','�','�',
    '�','�','�','�','�','�','�','�',
    '�','�','�','�','�','�','�','�',
    '�','�','�','�','�','�','�','�',
    '�','�','�','�','�','�','�','�',
    '�','�','�','�','�','�','�','�',
    '�','�','�','�','�','�','�','�',
    '�','�','�','�','�','�','�','�',
    '�','�','�','�','�','�','�','�',
    '�','�','�','�','�','�','�','�',
    '�','�','�','�','�','�','�','�',
    '�','�','�','�','�','�','�','�',
    '�','�','�','�','�','�','�','�',
    '�','�','�','�','�','�','�','�',
    '�','�','�','�','�','�','�','�',
    '�','�','�','�','�','�','�','�',
    '�','�','�','�','�','�','�','�',
    '�','�','�','�','�','�','�','�',
    '�','�','�','�','�','�','�','�',
    '�','�','�','�','�','�','�','�',
    '�','�','�','�','�','�','�','�',
    '�','�','�','�','�','�','�','�',
    '�','�','�','�','�','�','�','�',
    '�','�','�','�','�','�','�','�',
    '�','�','�','�','�','�','�','�',
    '�','�','�','�','�','�','�','�',
    '�','�','�','�','�','�','�','�',
    '�','�','�','�','�','�','�','�',
    '�','�','�','�','�','�','�','�',
    '�','�','�','�','�','�','�','�',
    '�','�','�','�','�','�','�','�',
    '�','�','�','�','�','�','�','�',
    '�','�','�','�','�','�','�','�',
    '�','�','�','�','�','�','�','�',
    '�','�','�','�','�','�','�','�',
    '�','�','�','�','�','�','�','�',
"#

/-- src/generated/whatwg/shiftjis_whatwg_tables.rs.inc:1039-1085 -/
noncomputable def decode22 : List Text := lines! r#"    '\u{7E8A}','\u{891C}','\u{9348}','\u{9288}','\u{84DC}','\u{4FC9}','\u{70BB}','\u{6631}',
    '\u{68C8}','\u{92F9}','\u{66FB}','\u{5F45}','\u{4E28}','\u{4EE1}','\u{4EFC}','\u{4F00}',
    '\u{4F03}','\u{4F39}','\u{4F56}','\u{4F92}','\u{4F8A}','\u{4F9A}','\u{4F94}','\u{4FCD}',
    '\u{5040}','\u{5022}','\u{4FFF}','\u{501E}','\u{5046}','\u{5070}','\u{5042}','\u{5094}',
    '\u{50F4}','\u{50D8}','\u{514A}','\u{5164}','\u{519D}','\u{51BE}','\u{51EC}','\u{5215}',
    '\u{529C}','\u{52A6}','\u{52C0}','\u{52DB}','\u{5300}','\u{5307}','\u{5324}','\u{5372}',
    '\u{5393}','\u{53B2}','\u{53DD}','\u{FA0E}','\u{549C}','\u{548A}','\u{54A9}','\u{54FF}',
    '\u{5586}','\u{5759}','\u{5765}','\u{57AC}','\u{57C8}','\u{57C7}','\u{FA0F}','\u{FA10}',
    '\u{589E}','\u{58B2}','\u{590B}','\u{5953}','\u{595B}','\u{595D}','\u{5963}','\u{59A4}',
    '\u{59BA}','\u{5B56}','\u{5BC0}','\u{752F}','\u{5BD8}','\u{5BEC}','\u{5C1E}','\u{5CA6}',
    '\u{5CBA}','\u{5CF5}','\u{5D27}','\u{5D53}','\u{FA11}','\u{5D42}','\u{5D6D}','\u{5DB8}',
    '\u{5DB9}','\u{5DD0}','\u{5F21}','\u{5F34}','\u{5F67}','\u{5FB7}','\u{5FDE}','\u{605D}',
    '\u{6085}','\u{608A}','\u{60DE}','\u{60D5}','\u{6120}','\u{60F2}','\u{6111}','\u{6137}',
    '\u{6130}','\u{6198}','\u{6213}','\u{62A6}','\u{63F5}','\u{6460}','\u{649D}','\u{64CE}',
    '\u{654E}','\u{6600}','\u{6615}','\u{663B}','\u{6609}','\u{662E}','\u{661E}','\u{6624}',
    '\u{6665}','\u{6657}','\u{6659}','\u{FA12}','\u{6673}','\u{6699}','\u{66A0}','\u{66B2}',
    '\u{66BF}','\u{66FA}','\u{670E}','\u{F929}','\u{6766}','\u{67BB}','\u{6852}','\u{67C0}',
    '\u{6801}','\u{6844}','\u{68CF}','\u{FA13}','\u{6968}','\u{FA14}','\u{6998}','\u{69E2}',
    '\u{6A30}','\u{6A6B}','\u{6A46}','\u{6A73}','\u{6A7E}','\u{6AE2}','\u{6AE4}','\u{6BD6}',
    '\u{6C3F}','\u{6C5C}','\u{6C86}','\u{6C6F}','\u{6CDA}','\u{6D04}','\u{6D87}','\u{6D6F}',
    '\u{6D96}','\u{6DAC}','\u{6DCF}','\u{6DF8}','\u{6DF2}','\u{6DFC}','\u{6E39}','\u{6E5C}',
    '\u{6E27}','\u{6E3C}','\u{6EBF}','\u{6F88}','\u{6FB5}','\u{6FF5}','\u{7005}','\u{7007}',
    '\u{7028}','\u{7085}','\u{70AB}','\u{710F}','\u{7104}','\u{715C}','\u{7146}','\u{7147}',
    '\u{FA15}','\u{71C1}','\u{71FE}','\u{72B1}','\u{72BE}','\u{7324}','\u{FA16}','\u{7377}',
    '\u{73BD}','\u{73C9}','\u{73D6}','\u{73E3}','\u{73D2}','\u{7407}','\u{73F5}','\u{7426}',
    '\u{742A}','\u{7429}','\u{742E}','\u{7462}','\u{7489}','\u{749F}','\u{7501}','\u{756F}',
    '\u{7682}','\u{769C}','\u{769E}','\u{769B}','\u{76A6}','\u{FA17}','\u{7746}','\u{52AF}',
    '\u{7821}','\u{784E}','\u{7864}','\u{787A}','\u{7930}','\u{FA18}','\u{FA19}','\u{FA1A}',
    '\u{7994}','\u{FA1B}','\u{799B}','\u{7AD1}','\u{7AE7}','\u{FA1C}','\u{7AEB}','\u{7B9E}',
    '\u{FA1D}','\u{7D48}','\u{7D5C}','\u{7DB7}','\u{7DA0}','\u{7DD6}','\u{7E52}','\u{7F47}',
    '\u{7FA1}','\u{FA1E}','\u{8301}','\u{8362}','\u{837F}','\u{83C7}','\u{83F6}','\u{8448}',
    '\u{84B4}','\u{8553}','\u{8559}','\u{856B}','\u{FA1F}','\u{85B0}','\u{FA20}','\u{FA21}',
    '\u{8807}','\u{88F5}','\u{8A12}','\u{8A37}','\u{8A79}','\u{8AA7}','\u{8ABE}','\u{8ADF}',
    '\u{FA22}','\u{8AF6}','\u{8B53}','\u{8B7F}','\u{8CF0}','\u{8CF4}','\u{8D12}','\u{8D76}',
    '\u{FA23}','\u{8ECF}','\u{FA24}','\u{FA25}','\u{9067}','\u{90DE}','\u{FA26}','\u{9115}',
    '\u{9127}','\u{91DA}','\u{91D7}','\u{91DE}','\u{91ED}','\u{91EE}','\u{91E4}','\u{91E5}',
    '\u{9206}','\u{9210}','\u{920A}','\u{923A}','\u{9240}','\u{923C}','\u{924E}','\u{9259}',
    '\u{9251}','\u{9239}','\u{9267}','\u{92A7}','\u{9277}','\u{9278}','\u{92E7}','\u{92D7}',
    '\u{92D9}','\u{92D0}','\u{FA27}','\u{92D5}','\u{92E0}','\u{92D3}','\u{9325}','\u{9321}',
    '\u{92FB}','\u{FA28}','\u{931E}','\u{92FF}','\u{931D}','\u{9302}','\u{9370}','\u{9357}',
    '\u{93A4}','\u{93C6}','\u{93DE}','\u{93F8}','\u{9431}','\u{9445}','\u{9448}','\u{9592}',
    '\u{F9DC}','\u{FA29}','\u{969D}','\u{96AF}','\u{9733}','\u{973B}','\u{9743}','\u{974D}',
    '\u{974F}','\u{9751}','\u{9755}','\u{9857}','\u{9865}','\u{FA2A}','\u{FA2B}','\u{9927}',
    '\u{FA2C}','\u{999E}','\u{9A4E}','\u{9AD9}','\u{9ADC}','\u{9B75}','\u{9B72}','\u{9B8F}',
    '\u{9BB1}','\u{9BBB}','\u{9C00}','\u{9D70}','\u{9D6B}','\u{FA2D}','\u{9E19}','\u{9ED1}',
    '�','�','\u{2170}','\u{2171}','\u{2172}','\u{2173}','\u{2174}','\u{2175}',
    '\u{2176}','\u{2177}','\u{2178}','\u{2179}','\u{FFE2}','\u{FFE4}','\u{FF07}','\u{FF02}',
"#

/-- src/generated/whatwg/shiftjis_whatwg_tables.rs.inc:1086-1132 -/
noncomputable def decode23 : List Text := lines! r#"    '�','�','�','�','�','�','�','�',
    '�','�','�','�','�','�','�','�',
    '�','�','�','�','�','�','�','�',
    '�','�','�','�','�','�','�','�',
    '�','�','�','�','�','�','�','�',
    '�','�','�','�','�','�','�','�',
    '�','�','�','�','�','�','�','�',
    '�','�','�','�','�','�','�','�',
    '�','�','�','�','�','�','�','�',
    '�','�','�','�','�','�','�','�',
    '�','�','�','�','�','�','�','�',
    '�','�','�','�','�','�','�','�',
    '�','�','�','�','�','�','�','�',
    '�','�','�','�','�','�','�','�',
    '�','�','�','�','�','�','�','�',
    '�','�','�','�','�','�','�','�',
    '�','�','�','�','�','�','�','�',
    '�','�','�','�','�','�','�','�',
    '�','�','�','�','�','�','�','�',
    '�','�','�','�','�','�','�','�',
    '�','�','�','�','�','�','�','�',
    '�','�','�','�','�','�','�','�',
    '�','�','�','�','�','�','�','�',
    '�','�','�','�','�','�','�','�',
    '�','�','�','�','�','�','�','�',
    '�','�','�','�','�','�','�','�',
    '�','�','�','�','�','�','�','�',
    '�','�','�','�','�','�','�','�',
    '�','�','�','�','�','�','�','�',
    '�','�','�','�','�','�','�','�',
    '�','�','�','�','�','�','�','�',
    '�','�','�','�','�','�','�','�',
    '�','�','�','�','�','�','�','�',
    '�','�','�','�','�','�','�','�',
    '�','�','�','�','�','�','�','�',
    '�','�','�','�','�','�','�','�',
    '�','�','�','�','�','�','�','�',
    '�','�','�','�','�','�','�','�',
    '�','�','�','�','�','�','�','�',
    '�','�','�','�','�','�','�','�',
    '�','�','�','�','�','�','�','�',
    '�','�','�','�','�','�','�','�',
    '�','�','�','�','�','�','�','�',
    '�','�','�','�','�','�','�','�',
    '�','�','�','�','�','�','�','�',
    '�','�','�','�','�','�','�','�',
    '�','�','�','�','�','�','�','�',
"#

/-- src/generated/whatwg/shiftjis_whatwg_tables.rs.inc:1133-1179 -/
noncomputable def decode24 : List Text := lines! r#"    '�','�','�','�','�','�','�','�',
    '�','�','�','�','�','�','�','�',
    '�','�','�','�','�','�','�','�',
    '�','�','�','�','�','�','�','�',
    '�','�','�','�','�','�','�','�',
    '�','�','�','�','�','�','�','�',
    '�','�','�','�','�','�','�','�',
    '�','�','�','�','�','�','�','�',
    '�','�','�','�','�','�','�','�',
    '�','�','�','�','�','�','�','�',
    '�','�','�','�','�','�','�','�',
    '�','�','�','�','�','�','�','�',
    '�','�','�','�','�','�','�','�',
    '�','�','�','�','�','�','�','�',
    '�','�','�','�','�','�','�','�',
    '�','�','�','�','�','�','�','�',
    '�','�','�','�','�','�','�','�',
    '�','�','�','�','�','�','�','�',
    '�','�','�','�','�','�','�','�',
    '�','�','�','�','�','�','�','�',
    '�','�','�','�','�','�','�','�',
    '�','�','�','�','�','�','�','�',
    '�','�','�','�','�','�','�','�',
    '�','�','�','�','�','�','�','�',
    '�','�','�','�','�','�','�','�',
    '�','�','�','�','�','�','�','�',
    '�','�','�','�','�','�','�','�',
    '�','�','�','�','�','�','�','�',
    '�','�','�','�','�','�','�','�',
    '�','�','�','�','�','�','�','�',
    '�','�','�','�','�','�','�','�',
    '�','�','�','�','�','�','�','�',
    '�','�','�','�','�','�','�','�',
    '�','�','�','�','�','�','�','�',
    '�','�','�','�','�','�','�','�',
    '�','�','�','�','�','�','�','�',
    '�','�','�','�','�','�','�','�',
    '�','�','�','�','�','�','�','�',
    '�','�','�','�','�','�','�','�',
    '�','�','�','�','�','�','�','�',
    '�','�','�','�','�','�','�','�',
    '�','�','�','�','�','�','�','�',
    '�','�','�','�','�','�','�','�',
    '�','�','�','�','�','�','�','�',
    '�','�','�','�','�','�','�','�',
    '�','�','�','�','�','�','�','�',
    '�','�','�','�','�','�','�','�',
"#

/-- src/generated/whatwg/shiftjis_whatwg_tables.rs.inc:1180-1226 -/
noncomputable def decode25 : List Text := lines! r#"    '�','�','�','�','�','�','�','�',
    '�','�','�','�','�','�','�','�',
    '�','�','�','�','�','�','�','�',
    '�','�','�','�','�','�','�','�',
    '�','�','�','�','�','�','�','�',
    '�','�','�','�','�','�','�','�',
    '�','�','�','�','�','�','�','�',
    '�','�','�','�','�','�','�','�',
    '�','�','�','�','�','�','�','�',
    '�','�','�','�','�','�','�','�',
    '�','�','�','�','�','�','�','�',
    '�','�','�','�','�','�','�','�',
    '�','�','�','�','�','�','�','�',
    '�','�','�','�','�','�','�','�',
    '�','�','�','�','�','�','�','�',
    '�','�','�','�','�','�','�','�',
    '�','�','�','�','�','�','�','�',
    '�','�','�','�','�','�','�','�',
    '�','�','�','�','�','�','�','�',
    '�','�','�','�','�','�','�','�',
    '�','�','�','�','�','�','�','�',
    '�','�','�','�','�','�','�','�',
    '�','�','�','�','�','�','�','�',
    '�','�','�','�','�','�','�','�',
    '�','�','�','�','�','�','�','�',
    '�','�','�','�','�','�','�','�',
    '�','�','�','�','�','�','�','�',
    '�','�','�','�','�','�','�','�',
    '�','�','�','�','�','�','�','�',
    '�','�','�','�','�','�','�','�',
    '�','�','�','�','�','�','�','�',
    '�','�','�','�','�','�','�','�',
    '�','�','�','�','�','�','�','�',
    '�','�','�','�','�','�','�','�',
    '�','�','�','�','�','�','�','�',
    '�','�','�','�','�','�','�','�',
    '�','�','�','�','�','�','�','�',
    '�','�','�','�','�','�','�','�',
    '�','�','�','�','�','�','�','�',
    '�','�','�','�','�','�','�','�',
    '�','�','�','�','�','�','�','�',
    '�','�','�','�','�','�','�','�',
    '�','�','�','�','�','�','�','�',
    '�','�','�','�','�','�','�','�',
    '�','�','�','�','�','�','�','�',
    '�','�','�','�','�','�','�','�',
    '�','�','�','�','�','�','�','�',
"#

/-- src/generated/whatwg/shiftjis_whatwg_tables.rs.inc:1227-1273 -/
noncomputable def decode26 : List Text := lines! r#"    '�','�','�','�','�','�','�','�',
    '�','�','�','�','�','�','�','�',
    '�','�','�','�','�','�','�','�',
    '�','�','�','�','�','�','�','�',
    '�','�','�','�','�','�','�','�',
    '�','�','�','�','�','�','�','�',
    '�','�','�','�','�','�','�','�',
    '�','�','�','�','�','�','�','�',
    '�','�','�','�','�','�','�','�',
    '�','�','�','�','�','�','�','�',
    '�','�','�','�','�','�','�','�',
    '�','�','�','�','�','�','�','�',
    '�','�','�','�','�','�','�','�',
    '�','�','�','�','�','�','�','�',
    '�','�','�','�','�','�','�','�',
    '�','�','�','�','�','�','�','�',
    '�','�','�','�','�','�','�','�',
    '�','�','�','�','�','�','�','�',
    '�','�','�','�','�','�','�','�',
    '�','�','�','�','�','�','�','�',
    '�','�','�','�','�','�','�','�',
    '�','�','�','�','�','�','�','�',
    '�','�','�','�','�','�','�','�',
    '�','�','�','�','�','�','�','�',
    '�','�','�','�','�','�','�','�',
    '�','�','�','�','�','�','�','�',
    '�','�','�','�','�','�','�','�',
    '�','�','�','�','�','�','�','�',
    '�','�','�','�','�','�','�','�',
    '�','�','�','�','�','�','�','�',
    '�','�','�','�','�','�','�','�',
    '�','�','�','�','�','�','�','�',
    '�','�','�','�','�','�','�','�',
    '�','�','�','�','�','�','�','�',
    '�','�','�','�','�','�','�','�',
    '�','�','�','�','�','�','�','�',
    '�','�','�','�','�','�','�','�',
    '�','�','�','�','�','�','�','�',
    '�','�','�','�','�','�','�','�',
    '�','�','�','�','�','�','�','�',
    '�','�','�','�','�','�','�','�',
    '�','�','�','�','�','�','�','�',
    '�','�','�','�','�','�','�','�',
    '�','�','�','�','�','�','�','�',
    '�','�','�','�','�','�','�','�',
    '�','�','�','�','�','�','�','�',
    '�','�','�','�','�','�','�','�',
"#

/-- src/generated/whatwg/shiftjis_whatwg_tables.rs.inc:1274-1320 -/
noncomputable def decode27 : List Text := lines! r#"    '�','�','�','�','�','�','�','�',
    '�','�','�','�','�','�','�','�',
    '�','�','�','�','�','�','�','�',
    '�','�','�','�','�','�','�','�',
    '�','�','�','�','�','�','�','�',
    '�','�','�','�','�','�','�','�',
    '�','�','�','�','�','�','�','�',
    '�','�','�','�','�','�','�','�',
    '�','�','�','�','�','�','�','�',
    '�','�','�','�','�','�','�','�',
    '�','�','�','�','�','�','�','�',
    '�','�','�','�','�','�','�','�',
    '�','�','�','�','�','�','�','�',
    '�','�','�','�','�','�','�','�',
    '�','�','�','�','�','�','�','�',
    '�','�','�','�','�','�','�','�',
    '�','�','�','�','�','�','�','�',
    '�','�','�','�','�','�','�','�',
    '�','�','�','�','�','�','�','�',
    '�','�','�','�','�','�','�','�',
    '�','�','�','�','�','�','�','�',
    '�','�','�','�','�','�','�','�',
    '�','�','�','�','�','�','�','�',
    '�','�','�','�','�','�','�','�',
    '�','�','�','�','�','�','�','�',
    '�','�','�','�','�','�','�','�',
    '�','�','�','�','�','�','�','�',
    '�','�','�','�','�','�','�','�',
    '�','�','�','�','�','�','�','�',
    '�','�','�','�','�','�','�','�',
    '�','�','�','�','�','�','�','�',
    '�','�','�','�','�','�','�','�',
    '�','�','�','�','�','�','�','�',
    '�','�','�','�','�','�','�','�',
    '�','�','�','�','�','�','�','�',
    '�','�','�','�','�','�','�','�',
    '�','�','�','�','�','�','�','�',
    '�','�','�','�','�','�','�','�',
    '�','�','�','�','�','�','�','�',
    '�','�','�','�','�','�','�','�',
    '�','�','�','�','�','�','�','�',
    '�','�','�','�','�','�','�','�',
    '�','�','�','�','�','�','�','�',
    '�','�','�','�','�','�','�','�',
    '�','�','�','�','�','�','�','�',
    '�','�','�','�','�','�','�','�',
    '�','�','�','�','�','�','�','�',
"#

/-- src/generated/whatwg/shiftjis_whatwg_tables.rs.inc:1321-1367 -/
noncomputable def decode28 : List Text := lines! r#"    '�','�','�','�','�','�','�','�',
    '�','�','�','�','�','�','�','�',
    '�','�','�','�','�','�','�','�',
    '�','�','�','�','�','�','�','�',
    '�','�','�','�','�','�','�','�',
    '�','�','�','�','�','�','�','�',
    '�','�','�','�','�','�','�','�',
    '�','�','�','�','�','�','�','�',
    '�','�','�','�','�','�','�','�',
    '�','�','�','�','�','�','�','�',
    '�','�','�','�','�','�','�','�',
    '�','�','�','�','�','�','�','�',
    '�','�','�','�','�','�','�','�',
    '�','�','�','�','�','�','�','�',
    '�','�','�','�','�','�','�','�',
    '�','�','�','�','�','�','�','�',
    '�','�','�','�','�','�','�','�',
    '�','�','�','�','�','�','�','�',
    '�','�','�','�','�','�','�','�',
    '�','�','�','�','�','�','�','�',
    '�','�','�','�','�','�','�','�',
    '�','�','�','�','�','�','�','�',
    '�','�','�','�','�','�','�','�',
    '�','�','�','�','\u{2170}','\u{2171}','\u{2172}','\u{2173}',
    '\u{2174}','\u{2175}','\u{2176}','\u{2177}','\u{2178}','\u{2179}','\u{2160}','\u{2161}',
    '\u{2162}','\u{2163}','\u{2164}','\u{2165}','\u{2166}','\u{2167}','\u{2168}','\u{2169}',
    '\u{FFE2}','\u{FFE4}','\u{FF07}','\u{FF02}','\u{3231}','\u{2116}','\u{2121}','\u{2235}',
    '\u{7E8A}','\u{891C}','\u{9348}','\u{9288}','\u{84DC}','\u{4FC9}','\u{70BB}','\u{6631}',
    '\u{68C8}','\u{92F9}','\u{66FB}','\u{5F45}','\u{4E28}','\u{4EE1}','\u{4EFC}','\u{4F00}',
    '\u{4F03}','\u{4F39}','\u{4F56}','\u{4F92}','\u{4F8A}','\u{4F9A}','\u{4F94}','\u{4FCD}',
    '\u{5040}','\u{5022}','\u{4FFF}','\u{501E}','\u{5046}','\u{5070}','\u{5042}','\u{5094}',
    '\u{50F4}','\u{50D8}','\u{514A}','\u{5164}','\u{519D}','\u{51BE}','\u{51EC}','\u{5215}',
    '\u{529C}','\u{52A6}','\u{52C0}','\u{52DB}','\u{5300}','\u{5307}','\u{5324}','\u{5372}',
    '\u{5393}','\u{53B2}','\u{53DD}','\u{FA0E}','\u{549C}','\u{548A}','\u{54A9}','\u{54FF}',
    '\u{5586}','\u{5759}','\u{5765}','\u{57AC}','\u{57C8}','\u{57C7}','\u{FA0F}','\u{FA10}',
    '\u{589E}','\u{58B2}','\u{590B}','\u{5953}','\u{595B}','\u{595D}','\u{5963}','\u{59A4}',
    '\u{59BA}','\u{5B56}','\u{5BC0}','\u{752F}','\u{5BD8}','\u{5BEC}','\u{5C1E}','\u{5CA6}',
    '\u{5CBA}','\u{5CF5}','\u{5D27}','\u{5D53}','\u{FA11}','\u{5D42}','\u{5D6D}','\u{5DB8}',
    '\u{5DB9}','\u{5DD0}','\u{5F21}','\u{5F34}','\u{5F67}','\u{5FB7}','\u{5FDE}','\u{605D}',
    '\u{6085}','\u{608A}','\u{60DE}','\u{60D5}','\u{6120}','\u{60F2}','\u{6111}','\u{6137}',
    '\u{6130}','\u{6198}','\u{6213}','\u{62A6}','\u{63F5}','\u{6460}','\u{649D}','\u{64CE}',
    '\u{654E}','\u{6600}','\u{6615}','\u{663B}','\u{6609}','\u{662E}','\u{661E}','\u{6624}',
    '\u{6665}','\u{6657}','\u{6659}','\u{FA12}','\u{6673}','\u{6699}','\u{66A0}','\u{66B2}',
    '\u{66BF}','\u{66FA}','\u{670E}','\u{F929}','\u{6766}','\u{67BB}','\u{6852}','\u{67C0}',
    '\u{6801}','\u{6844}','\u{68CF}','\u{FA13}','\u{6968}','\u{FA14}','\u{6998}','\u{69E2}',
    '\u{6A30}','\u{6A6B}','\u{6A46}','\u{6A73}','\u{6A7E}','\u{6AE2}','\u{6AE4}','\u{6BD6}',
    '\u{6C3F}','\u{6C5C}','\u{6C86}','\u{6C6F}','\u{6CDA}','\u{6D04}','\u{6D87}','\u{6D6F}',
"#

/-- src/generated/whatwg/shiftjis_whatwg_tables.rs.inc:1368-1392 -/
noncomputable def decode29 : List Text := lines! r#"    '\u{6D96}','\u{6DAC}','\u{6DCF}','\u{6DF8}','\u{6DF2}','\u{6DFC}','\u{6E39}','\u{6E5C}',
    '\u{6E27}','\u{6E3C}','\u{6EBF}','\u{6F88}','\u{6FB5}','\u{6FF5}','\u{7005}','\u{7007}',
    '\u{7028}','\u{7085}','\u{70AB}','\u{710F}','\u{7104}','\u{715C}','\u{7146}','\u{7147}',
    '\u{FA15}','\u{71C1}','\u{71FE}','\u{72B1}','\u{72BE}','\u{7324}','\u{FA16}','\u{7377}',
    '\u{73BD}','\u{73C9}','\u{73D6}','\u{73E3}','\u{73D2}','\u{7407}','\u{73F5}','\u{7426}',
    '\u{742A}','\u{7429}','\u{742E}','\u{7462}','\u{7489}','\u{749F}','\u{7501}','\u{756F}',
    '\u{7682}','\u{769C}','\u{769E}','\u{769B}','\u{76A6}','\u{FA17}','\u{7746}','\u{52AF}',
    '\u{7821}','\u{784E}','\u{7864}','\u{787A}','\u{7930}','\u{FA18}','\u{FA19}','\u{FA1A}',
    '\u{7994}','\u{FA1B}','\u{799B}','\u{7AD1}','\u{7AE7}','\u{FA1C}','\u{7AEB}','\u{7B9E}',
    '\u{FA1D}','\u{7D48}','\u{7D5C}','\u{7DB7}','\u{7DA0}','\u{7DD6}','\u{7E52}','\u{7F47}',
    '\u{7FA1}','\u{FA1E}','\u{8301}','\u{8362}','\u{837F}','\u{83C7}','\u{83F6}','\u{8448}',
    '\u{84B4}','\u{8553}','\u{8559}','\u{856B}','\u{FA1F}','\u{85B0}','\u{FA20}','\u{FA21}',
    '\u{8807}','\u{88F5}','\u{8A12}','\u{8A37}','\u{8A79}','\u{8AA7}','\u{8ABE}','\u{8ADF}',
    '\u{FA22}','\u{8AF6}','\u{8B53}','\u{8B7F}','\u{8CF0}','\u{8CF4}','\u{8D12}','\u{8D76}',
    '\u{FA23}','\u{8ECF}','\u{FA24}','\u{FA25}','\u{9067}','\u{90DE}','\u{FA26}','\u{9115}',
    '\u{9127}','\u{91DA}','\u{91D7}','\u{91DE}','\u{91ED}','\u{91EE}','\u{91E4}','\u{91E5}',
    '\u{9206}','\u{9210}','\u{920A}','\u{923A}','\u{9240}','\u{923C}','\u{924E}','\u{9259}',
    '\u{9251}','\u{9239}','\u{9267}','\u{92A7}','\u{9277}','\u{9278}','\u{92E7}','\u{92D7}',
    '\u{92D9}','\u{92D0}','\u{FA27}','\u{92D5}','\u{92E0}','\u{92D3}','\u{9325}','\u{9321}',
    '\u{92FB}','\u{FA28}','\u{931E}','\u{92FF}','\u{931D}','\u{9302}','\u{9370}','\u{9357}',
    '\u{93A4}','\u{93C6}','\u{93DE}','\u{93F8}','\u{9431}','\u{9445}','\u{9448}','\u{9592}',
    '\u{F9DC}','\u{FA29}','\u{969D}','\u{96AF}','\u{9733}','\u{973B}','\u{9743}','\u{974D}',
    '\u{974F}','\u{9751}','\u{9755}','\u{9857}','\u{9865}','\u{FA2A}','\u{FA2B}','\u{9927}',
    '\u{FA2C}','\u{999E}','\u{9A4E}','\u{9AD9}','\u{9ADC}','\u{9B75}','\u{9B72}','\u{9B8F}',
    '\u{9BB1}','\u{9BBB}','\u{9C00}','\u{9D70}','\u{9D6B}','\u{FA2D}','\u{9E19}','\u{9ED1}',
"#

end Verif.Files.ShiftJis
