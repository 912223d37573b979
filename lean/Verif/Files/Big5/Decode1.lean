import Verif.Text

/-! Generated by tools/gen_files.py: verbatim copies of parts of files of /repo. -/

namespace Verif.Files.Big5

/-- src/generated/whatwg/big5_whatwg_tables.rs.inc:5-161 -/
noncomputable def decode0 : List Text := lines! r#"    '�','�','�','�','�','�','�','�',
    '�','�','�','�','�','�','�','�',
    '�','�','�','�','�','�','�','�',
    '�','�','�','�','�','�','�','�',
    '�','�','�','�','�','�','�','�',
    '�','�','�','�','�','�','�','�',
    '�','�','�','�','�','�','�','�',
    '�','�','�','�','�','�','�','�',
    '�','�','�','�','�','�','�','�',
    '�','�','�','�','�','�','�','�',
    '�','�','�','�','�','�','�','�',
    '�','�','�','�','�','�','�','�',
    '�','�','�','�','�','�','�','�',
    '�','�','�','�','�','�','�','�',
    '�','�','�','�','�','�','�','�',
    '�','�','�','�','�','�','�','�',
    '�','�','�','�','�','�','�','�',
    '�','�','�','�','�','�','�','�',
    '�','�','�','�','�','�','�','�',
    '�','�','�','�','�','�','�','�',
    '�','�','�','�','�','�','�','�',
    '�','�','�','�','�','�','�','�',
    '�','�','�','�','�','�','�','�',
    '�','�','�','�','�','�','�','�',
    '�','�','�','�','�','�','�','�',
    '�','�','�','�','�','�','�','�',
    '�','�','�','�','�','�','�','�',
    '�','�','�','�','�','�','�','�',
    '�','�','�','�','�','�','�','�',
    '�','�','�','�','�','�','�','�',
    '�','�','�','�','�','�','�','�',
    '�','�','�','�','�','�','�','�',
    '�','�','�','�','�','�','�','�',
    '�','�','�','�','�','�','�','�',
    '�','�','�','�','�','�','�','�',
    '�','�','�','�','�','�','�','�',
    '�','�','�','�','�','�','�','�',
    '�','�','�','�','�','�','�','�',
    '�','�','�','�','�','�','�','�',
    '�','�','�','�','�','�','�','�',
    '�','�','�','�','�','�','�','�',
    '�','�','�','�','�','�','�','�',
    '�','�','�','�','�','�','�','�',
    '�','�','�','�','�','�','�','�',
    '�','�','�','�','�','�','�','�',
    '�','�','�','�','�','�','�','�',
    '�','�','�','�','�','�','�','�',
    '�','�','�','�','�','�','�','�',
    '�','�','�','�','�','�','�','�',
    '�','�','�','�','�','�','�','�',
    '�','�','�','�','�','�','�','�',
    '�','�','�','�','�','�','�','�',
    '�','�','�','�','�','�','�','�',
    '�','�','�','�','�','�','�','�',
    '�','�','�','�','�','�','�','�',
    '�','�','�','�','�','�','�','�',
    '�','�','�','�','�','�','�','�',
    '�','�','�','�','�','�','�','�',
    '�','�','�','�','�','�','�','�',
    '�','�','�','�','�','�','�','�',
    '�','�','�','�','�','�','�','�',
    '�','�','�','�','�','�','�','�',
    '�','�','�','�','�','�','�','�',
    '�','�','�','�','�','�','�','�',
    '�','�','�','�','�','�','�','�',
    '�','�','�','�','�','�','�','�',
    '�','�','�','�','�','�','�','�',
    '�','�','�','�','�','�','�','�',
    '�','�','�','�','�','�','�','�',
    '�','�','�','�','�','�','�','�',
    '�','�','�','�','�','�','�','�',
    '�','�','�','�','�','�','�','�',
    '�','�','�','�','�','�','�','�',
    '�','�','�','�','�','�','�','�',
    '�','�','�','�','�','�','�','�',
    '�','�','�','�','�','�','�','�',
    '�','�','�','�','�','�','�','�',
    '�','�','�','�','�','�','�','�',
    '�','�','�','�','�','�','�','�',
    '�','�','�','�','�','�','�','�',
    '�','�','�','�','�','�','�','�',
    '�','�','�','�','�','�','�','�',
    '�','�','�','�','�','�','�','�',
    '�','�','�','�','�','�','�','�',
    '�','�','�','�','�','�','�','�',
    '�','�','�','�','�','�','�','�',
    '�','�','�','�','�','�','�','�',
    '�','�','�','�','�','�','�','�',
    '�','�','�','�','�','�','�','�',
    '�','�','�','�','�','�','�','�',
    '�','�','�','�','�','�','�','�',
    '�','�','�','�','�','�','�','�',
    '�','�','�','�','�','�','�','�',
    '�','�','�','�','�','�','�','�',
    '�','�','�','�','�','�','�','�',
    '�','�','�','�','�','�','�','�',
    '�','�','�','�','�','�','�','�',
    '�','�','�','�','�','�','�','�',
    '�','�','�','�','�','�','�','�',
    '�','�','�','�','�','�','�','�',
    '�','�','�','�','�','�','�','�',
    '�','�','�','�','�','�','�','�',
    '�','�','�','�','�','�','�','�',
    '�','�','�','�','�','�','�','�',
    '�','�','�','�','�','�','�','�',
    '�','�','�','�','�','�','�','�',
    '�','�','�','�','�','�','�','�',
    '�','�','�','�','�','�','�','�',
    '�','�','�','�','�','�','�','�',
    '�','�','�','�','�','�','�','�',
    '�','�','�','�','�','�','�','�',
    '�','�','�','�','�','�','�','�',
    '�','�','�','�','�','�','�','�',
    '�','�','�','�','�','�','�','�',
    '�','�','�','�','�','�','�','�',
    '�','�','�','�','�','�','�','�',
    '�','�','�','�','�','�','�','�',
    '�','�','�','�','�','�','\u{43F0}','\u{4C32}',
    '\u{4603}','\u{45A6}','\u{4578}','\u{27267}','\u{4D77}','\u{45B3}','\u{27CB1}','\u{4CE2}',
    '\u{27CC5}','\u{3B95}','\u{4736}','\u{4744}','\u{4C47}','\u{4C40}','\u{242BF}','\u{23617}',
    '\u{27352}','\u{26E8B}','\u{270D2}','\u{4C57}','\u{2A351}','\u{474F}','\u{45DA}','\u{4C85}',
    '\u{27C6C}','\u{4D07}','\u{4AA4}','\u{46A1}','\u{26B23}','\u{7225}','\u{25A54}','\u{21A63}',
    '\u{23E06}','\u{23F61}','\u{664D}','\u{56FB}','�','\u{7D95}','\u{591D}','\u{28BB9}',
    '\u{3DF4}','\u{9734}','\u{27BEF}','\u{5BDB}','\u{21D5E}','\u{5AA4}','\u{3625}','\u{29EB0}',
    '\u{5AD1}','\u{5BB7}','\u{5CFC}','\u{676E}','\u{8593}','\u{29945}','\u{7461}','\u{749D}',
    '\u{3875}','\u{21D53}','\u{2369E}','\u{26021}','\u{3EEC}','\u{258DE}','\u{3AF5}','\u{7AFC}',
    '\u{9F97}','\u{24161}','\u{2890D}','\u{231EA}','\u{20A8A}','\u{2325E}','\u{430A}','\u{8484}',
    '\u{9F96}','\u{942F}','\u{4930}','\u{8613}','\u{5896}','\u{974A}','\u{9218}','\u{79D0}',
    '\u{7A32}','\u{6660}','\u{6A29}','\u{889D}','\u{744C}','\u{7BC5}','\u{6782}','\u{7A2C}',
    '\u{524F}','\u{9046}','\u{34E6}','\u{73C4}','\u{25DB9}','\u{74C6}','\u{9FC7}','\u{57B3}',
    '\u{492F}','\u{544C}','\u{4131}','\u{2368E}','\u{5818}','\u{7A72}','\u{27B65}','\u{8B8F}',
    '\u{46AE}','\u{26E88}','\u{4181}','\u{25D99}','\u{7BAE}','\u{224BC}','\u{9FC8}','\u{224C1}',
    '\u{224C9}','\u{224CC}','\u{9FC9}','\u{8504}','\u{235BB}','\u{40B4}','\u{9FCA}','\u{44E1}',
    '\u{2ADFF}','\u{62C1}','\u{706E}','\u{9FCB}','�','�','�','�',
    '�','�','�','�','�','�','�','�',
    '�','�','�','�','�','�','�','�',
    '�','�','�','�','�','�','�','�',
    '�','�','�','\u{31C0}','\u{31C1}','\u{31C2}','\u{31C3}','\u{31C4}',
    '\u{2010C}','\u{31C5}','\u{200D1}','\u{200CD}','\u{31C6}','\u{31C7}','\u{200CB}','\u{21FE8}',
    '\u{31C8}','\u{200CA}','\u{31C9}','\u{31CA}','\u{31CB}','\u{31CC}','\u{2010E}','\u{31CD}',
    '\u{31CE}','\u{0100}','\u{00C1}','\u{01CD}','\u{00C0}','\u{0112}','\u{00C9}','\u{011A}',
    '\u{00C8}','\u{014C}','\u{00D3}','\u{01D1}','\u{00D2}','�','\u{1EBE}','�',
    '\u{1EC0}','\u{00CA}','\u{0101}','\u{00E1}','\u{01CE}','\u{00E0}','\u{0251}','\u{0113}',
    '\u{00E9}','\u{011B}','\u{00E8}','\u{012B}','\u{00ED}','\u{01D0}','\u{00EC}','\u{014D}',
    '\u{00F3}','\u{01D2}','\u{00F2}','\u{016B}','\u{00FA}','\u{01D4}','\u{00F9}','\u{01D6}',
    '\u{01D8}','\u{01DA}','\u{01DC}','\u{00FC}','�','\u{1EBF}','�','\u{1EC1}',
    '\u{00EA}','\u{0261}','\u{23DA}','\u{23DB}','�','�','�','�',
    '�','�','�','�','�','�','�','�',
    '�','�','�','�','�','�','�','�',
    '�','�','�','�','�','�','�','�',
    '�','�','�','�','�','�','�','�',
    '�','�','�','�','�','�','�','�',
    '�','�','�','�','�','�','�','�',
    '�','�','�','�','�','�','�','�',
    '�','�','�','�','�','�','�','�',
    '�','�','�','�','�','�','�','�',
    '�','�','�','�','�','�','�','�',
"#

/-- src/generated/whatwg/big5_whatwg_tables.rs.inc:162-318 -/
noncomputable def decode1 : List Text := lines! r#"    '\u{2A3A9}','\u{21145}','�','\u{650A}','�','�','\u{4E3D}','\u{6EDD}',
    '\u{9D4E}','\u{91DF}','�','�','\u{27735}','\u{6491}','\u{4F1A}','\u{4F28}',
    '\u{4FA8}','\u{5156}','\u{5174}','\u{519C}','\u{51E4}','\u{52A1}','\u{52A8}','\u{533B}',
    '\u{534E}','\u{53D1}','\u{53D8}','\u{56E2}','\u{58F0}','\u{5904}','\u{5907}','\u{5932}',
    '\u{5934}','\u{5B66}','\u{5B9E}','\u{5B9F}','\u{5C9A}','\u{5E86}','\u{603B}','\u{6589}',
    '\u{67FE}','\u{6804}','\u{6865}','\u{6D4E}','\u{70BC}','\u{7535}','\u{7EA4}','\u{7EAC}',
    '\u{7EBA}','\u{7EC7}','\u{7ECF}','\u{7EDF}','\u{7F06}','\u{7F37}','\u{827A}','\u{82CF}',
    '\u{836F}','\u{89C6}','\u{8BBE}','\u{8BE2}','\u{8F66}','\u{8F67}','\u{8F6E}','\u{7411}',
    '\u{7CFC}','\u{7DCD}','\u{6946}','\u{7AC9}','\u{5227}','�','�','�',
    '�','\u{918C}','\u{78B8}','\u{915E}','\u{80BC}','�','\u{8D0B}','\u{80F6}',
    '\u{209E7}','�','�','\u{809F}','\u{9EC7}','\u{4CCD}','\u{9DC9}','\u{9E0C}',
    '\u{4C3E}','\u{29DF6}','\u{2700E}','\u{9E0A}','\u{2A133}','\u{35C1}','�','\u{6E9A}',
    '\u{823E}','\u{7519}','�','\u{4911}','\u{9A6C}','\u{9A8F}','\u{9F99}','\u{7987}',
    '\u{2846C}','\u{21DCA}','\u{205D0}','\u{22AE6}','\u{4E24}','\u{4E81}','\u{4E80}','\u{4E87}',
    '\u{4EBF}','\u{4EEB}','\u{4F37}','\u{344C}','\u{4FBD}','\u{3E48}','\u{5003}','\u{5088}',
    '\u{347D}','\u{3493}','\u{34A5}','\u{5186}','\u{5905}','\u{51DB}','\u{51FC}','\u{5205}',
    '\u{4E89}','\u{5279}','\u{5290}','\u{5327}','\u{35C7}','\u{53A9}','\u{3551}','\u{53B0}',
    '\u{3553}','\u{53C2}','\u{5423}','\u{356D}','\u{3572}','\u{3681}','\u{5493}','\u{54A3}',
    '\u{54B4}','\u{54B9}','\u{54D0}','\u{54EF}','\u{5518}','\u{5523}','\u{5528}','\u{3598}',
    '\u{553F}','\u{35A5}','\u{35BF}','\u{55D7}','\u{35C5}','\u{27D84}','\u{5525}','�',
    '\u{20C42}','\u{20D15}','\u{2512B}','\u{5590}','\u{22CC6}','\u{39EC}','\u{20341}','\u{8E46}',
    '\u{24DB8}','\u{294E5}','\u{4053}','\u{280BE}','\u{777A}','\u{22C38}','\u{3A34}','\u{47D5}',
    '\u{2815D}','\u{269F2}','\u{24DEA}','\u{64DD}','\u{20D7C}','\u{20FB4}','\u{20CD5}','\u{210F4}',
    '\u{648D}','\u{8E7E}','\u{20E96}','\u{20C0B}','\u{20F64}','\u{22CA9}','\u{28256}','\u{244D3}',
    '�','\u{20D46}','\u{29A4D}','\u{280E9}','\u{47F4}','\u{24EA7}','\u{22CC2}','\u{9AB2}',
    '\u{3A67}','\u{295F4}','\u{3FED}','\u{3506}','\u{252C7}','\u{297D4}','\u{278C8}','\u{22D44}',
    '\u{9D6E}','\u{9815}','�','\u{43D9}','\u{260A5}','\u{64B4}','\u{54E3}','\u{22D4C}',
    '\u{22BCA}','\u{21077}','\u{39FB}','\u{2106F}','\u{266DA}','\u{26716}','\u{279A0}','\u{64EA}',
    '\u{25052}','\u{20C43}','\u{8E68}','\u{221A1}','\u{28B4C}','\u{20731}','�','\u{480B}',
    '\u{201A9}','\u{3FFA}','\u{5873}','\u{22D8D}','�','\u{245C8}','\u{204FC}','\u{26097}',
    '\u{20F4C}','\u{20D96}','\u{5579}','\u{40BB}','\u{43BA}','�','\u{4AB4}','\u{22A66}',
    '\u{2109D}','\u{81AA}','\u{98F5}','\u{20D9C}','\u{6379}','\u{39FE}','\u{22775}','\u{8DC0}',
    '\u{56A1}','\u{647C}','\u{3E43}','�','\u{2A601}','\u{20E09}','\u{22ACF}','\u{22CC9}',
    '�','\u{210C8}','\u{239C2}','\u{3992}','\u{3A06}','\u{2829B}','\u{3578}','\u{25E49}',
    '\u{220C7}','\u{5652}','\u{20F31}','\u{22CB2}','\u{29720}','\u{34BC}','\u{6C3D}','\u{24E3B}',
    '�','�','\u{27574}','\u{22E8B}','\u{22208}','\u{2A65B}','\u{28CCD}','\u{20E7A}',
    '\u{20C34}','\u{2681C}','\u{7F93}','\u{210CF}','\u{22803}','\u{22939}','\u{35FB}','\u{251E3}',
    '\u{20E8C}','\u{20F8D}','\u{20EAA}','\u{3F93}','\u{20F30}','\u{20D47}','\u{2114F}','\u{20E4C}',
    '�','\u{20EAB}','\u{20BA9}','\u{20D48}','\u{210C0}','\u{2113D}','\u{3FF9}','\u{22696}',
    '\u{6432}','\u{20FAD}','\u{233F4}','\u{27639}','\u{22BCE}','\u{20D7E}','\u{20D7F}','\u{22C51}',
    '\u{22C55}','\u{3A18}','\u{20E98}','\u{210C7}','\u{20F2E}','\u{2A632}','\u{26B50}','\u{28CD2}',
    '\u{28D99}','\u{28CCA}','\u{95AA}','\u{54CC}','\u{82C4}','\u{55B9}','�','\u{29EC3}',
    '\u{9C26}','\u{9AB6}','\u{2775E}','\u{22DEE}','\u{7140}','\u{816D}','\u{80EC}','\u{5C1C}',
    '\u{26572}','\u{8134}','\u{3797}','\u{535F}','\u{280BD}','\u{91B6}','\u{20EFA}','\u{20E0F}',
    '\u{20E77}','\u{20EFB}','\u{35DD}','\u{24DEB}','\u{3609}','\u{20CD6}','\u{56AF}','\u{227B5}',
    '\u{210C9}','\u{20E10}','\u{20E78}','\u{21078}','\u{21148}','\u{28207}','\u{21455}','\u{20E79}',
    '\u{24E50}','\u{22DA4}','\u{5A54}','\u{2101D}','\u{2101E}','\u{210F5}','\u{210F6}','\u{579C}',
    '\u{20E11}','\u{27694}','\u{282CD}','\u{20FB5}','\u{20E7B}','\u{2517E}','\u{3703}','\u{20FB6}',
    '\u{21180}','\u{252D8}','\u{2A2BD}','\u{249DA}','\u{2183A}','\u{24177}','\u{2827C}','\u{5899}',
    '\u{5268}','\u{361A}','\u{2573D}','\u{7BB2}','\u{5B68}','\u{4800}','\u{4B2C}','\u{9F27}',
    '\u{49E7}','\u{9C1F}','\u{9B8D}','\u{25B74}','\u{2313D}','\u{55FB}','\u{35F2}','\u{5689}',
    '\u{4E28}','\u{5902}','\u{21BC1}','\u{2F878}','\u{9751}','\u{20086}','\u{4E5B}','\u{4EBB}',
    '\u{353E}','\u{5C23}','\u{5F51}','\u{5FC4}','\u{38FA}','\u{624C}','\u{6535}','\u{6B7A}',
    '\u{6C35}','\u{6C3A}','\u{706C}','\u{722B}','\u{4E2C}','\u{72AD}','\u{248E9}','\u{7F52}',
    '\u{793B}','\u{7CF9}','\u{7F53}','\u{2626A}','\u{34C1}','�','\u{2634B}','\u{8002}',
    '\u{8080}','\u{26612}','\u{26951}','\u{535D}','\u{8864}','\u{89C1}','\u{278B2}','\u{8BA0}',
    '\u{8D1D}','\u{9485}','\u{9578}','\u{957F}','\u{95E8}','\u{28E0F}','\u{97E6}','\u{9875}',
    '\u{98CE}','\u{98DE}','\u{9963}','\u{29810}','\u{9C7C}','\u{9E1F}','\u{9EC4}','\u{6B6F}',
    '\u{F907}','\u{4E37}','\u{20087}','\u{961D}','\u{6237}','\u{94A2}','�','\u{503B}',
    '\u{6DFE}','\u{29C73}','\u{9FA6}','\u{3DC9}','\u{888F}','\u{2414E}','\u{7077}','\u{5CF5}',
    '\u{4B20}','\u{251CD}','\u{3559}','\u{25D30}','\u{6122}','\u{28A32}','\u{8FA7}','\u{91F6}',
    '\u{7191}','\u{6719}','\u{73BA}','\u{23281}','\u{2A107}','\u{3C8B}','\u{21980}','\u{4B10}',
    '\u{78E4}','\u{7402}','\u{51AE}','\u{2870F}','\u{4009}','\u{6A63}','\u{2A2BA}','\u{4223}',
    '\u{860F}','\u{20A6F}','\u{7A2A}','\u{29947}','\u{28AEA}','\u{9755}','\u{704D}','\u{5324}',
    '\u{2207E}','\u{93F4}','\u{76D9}','\u{289E3}','\u{9FA7}','\u{77DD}','\u{4EA3}','\u{4FF0}',
    '\u{50BC}','\u{4E2F}','\u{4F17}','\u{9FA8}','\u{5434}','\u{7D8B}','\u{5892}','\u{58D0}',
    '\u{21DB6}','\u{5E92}','\u{5E99}','\u{5FC2}','\u{22712}','\u{658B}','\u{233F9}','\u{6919}',
    '\u{6A43}','\u{23C63}','\u{6CFF}','�','\u{7200}','\u{24505}','\u{738C}','\u{3EDB}',
    '\u{24A13}','\u{5B15}','\u{74B9}','\u{8B83}','\u{25CA4}','\u{25695}','\u{7A93}','\u{7BEC}',
    '\u{7CC3}','\u{7E6C}','\u{82F8}','\u{8597}','\u{9FA9}','\u{8890}','\u{9FAA}','\u{8EB9}',
    '\u{9FAB}','\u{8FCF}','\u{855F}','\u{99E0}','\u{9221}','\u{9FAC}','\u{28DB9}','\u{2143F}',
    '\u{4071}','\u{42A2}','\u{5A1A}','�','�','�','\u{9868}','\u{676B}',
    '\u{4276}','\u{573D}','�','\u{85D6}','\u{2497B}','\u{82BF}','\u{2710D}','\u{4C81}',
    '\u{26D74}','\u{5D7B}','\u{26B15}','\u{26FBE}','\u{9FAD}','\u{9FAE}','\u{5B96}','\u{9FAF}',
    '\u{66E7}','\u{7E5B}','\u{6E57}','\u{79CA}','\u{3D88}','\u{44C3}','\u{23256}','\u{22796}',
    '\u{439A}','\u{4536}','�','\u{5CD5}','\u{23B1A}','\u{8AF9}','\u{5C78}','\u{3D12}',
    '\u{23551}','\u{5D78}','\u{9FB2}','\u{7157}','\u{4558}','\u{240EC}','\u{21E23}','\u{4C77}',
    '\u{3978}','\u{344A}','\u{201A4}','\u{26C41}','\u{8ACC}','\u{4FB4}','\u{20239}','\u{59BF}',
    '\u{816C}','\u{9856}','\u{298FA}','\u{5F3B}','\u{20B9F}','�','\u{221C1}','\u{2896D}',
    '\u{4102}','\u{46BB}','\u{29079}','\u{3F07}','\u{9FB3}','\u{2A1B5}','\u{40F8}','\u{37D6}',
    '\u{46F7}','\u{26C46}','\u{417C}','\u{286B2}','\u{273FF}','\u{456D}','\u{38D4}','\u{2549A}',
    '\u{4561}','\u{451B}','\u{4D89}','\u{4C7B}','\u{4D76}','\u{45EA}','\u{3FC8}','\u{24B0F}',
    '\u{3661}','\u{44DE}','\u{44BD}','\u{41ED}','\u{5D3E}','\u{5D48}','\u{5D56}','\u{3DFC}',
    '\u{380F}','\u{5DA4}','\u{5DB9}','\u{3820}','\u{3838}','\u{5E42}','\u{5EBD}','\u{5F25}',
    '\u{5F83}','\u{3908}','\u{3914}','\u{393F}','\u{394D}','\u{60D7}','\u{613D}','\u{5CE5}',
    '\u{3989}','\u{61B7}','\u{61B9}','\u{61CF}','\u{39B8}','\u{622C}','\u{6290}','\u{62E5}',
    '\u{6318}','\u{39F8}','\u{56B1}','\u{3A03}','\u{63E2}','\u{63FB}','\u{6407}','\u{645A}',
    '\u{3A4B}','\u{64C0}','\u{5D15}','\u{5621}','\u{9F9F}','\u{3A97}','\u{6586}','\u{3ABD}',
    '\u{65FF}','\u{6653}','\u{3AF2}','\u{6692}','\u{3B22}','\u{6716}','\u{3B42}','\u{67A4}',
    '\u{6800}','\u{3B58}','\u{684A}','\u{6884}','\u{3B72}','\u{3B71}','\u{3B7B}','\u{6909}',
    '\u{6943}','\u{725C}','\u{6964}','\u{699F}','\u{6985}','\u{3BBC}','\u{69D6}','\u{3BDD}',
    '\u{6A65}','\u{6A74}','\u{6A71}','\u{6A82}','\u{3BEC}','\u{6A99}','\u{3BF2}','\u{6AAB}',
    '\u{6AB5}','\u{6AD4}','\u{6AF6}','\u{6B81}','\u{6BC1}','\u{6BEA}','\u{6C75}','\u{6CAA}',
    '\u{3CCB}','\u{6D02}','\u{6D06}','\u{6D26}','\u{6D81}','\u{3CEF}','\u{6DA4}','\u{6DB1}',
    '\u{6E15}','\u{6E18}','\u{6E29}','\u{6E86}','\u{289C0}','\u{6EBB}','\u{6EE2}','\u{6EDA}',
    '\u{9F7F}','\u{6EE8}','\u{6EE9}','\u{6F24}','\u{6F34}','\u{3D46}','\u{23F41}','\u{6F81}',
    '\u{6FBE}','\u{3D6A}','\u{3D75}','\u{71B7}','\u{5C99}','\u{3D8A}','\u{702C}','\u{3D91}',
    '\u{7050}','\u{7054}','\u{706F}','\u{707F}','\u{7089}','\u{20325}','\u{43C1}','\u{35F1}',
    '\u{20ED8}','\u{23ED7}','\u{57BE}','\u{26ED3}','\u{713E}','\u{257E0}','\u{364E}','\u{69A2}',
    '\u{28BE9}','\u{5B74}','\u{7A49}','\u{258E1}','\u{294D9}','\u{7A65}','\u{7A7D}','\u{259AC}',
    '\u{7ABB}','\u{7AB0}','\u{7AC2}','\u{7AC3}','\u{71D1}','\u{2648D}','\u{41CA}','\u{7ADA}',
    '\u{7ADD}','\u{7AEA}','\u{41EF}','\u{54B2}','\u{25C01}','\u{7B0B}','\u{7B55}','\u{7B29}',
    '\u{2530E}','\u{25CFE}','\u{7BA2}','\u{7B6F}','\u{839C}','\u{25BB4}','\u{26C7F}','\u{7BD0}',
    '\u{8421}','\u{7B92}','\u{7BB8}','\u{25D20}','\u{3DAD}','\u{25C65}','\u{8492}','\u{7BFA}',
    '\u{7C06}','\u{7C35}','\u{25CC1}','\u{7C44}','\u{7C83}','\u{24882}','\u{7CA6}','\u{667D}',
    '\u{24578}','\u{7CC9}','\u{7CC7}','\u{7CE6}','\u{7C74}','\u{7CF3}','\u{7CF5}','\u{7CCE}',
    '\u{7E67}','\u{451D}','\u{26E44}','\u{7D5D}','\u{26ED6}','\u{748D}','\u{7D89}','\u{7DAB}',
    '\u{7135}','\u{7DB3}','\u{7DD2}','\u{24057}','\u{26029}','\u{7DE4}','\u{3D13}','\u{7DF5}',
    '\u{217F9}','\u{7DE5}','\u{2836D}','\u{7E1D}','\u{26121}','\u{2615A}','\u{7E6E}','\u{7E92}',
    '\u{432B}','\u{946C}','\u{7E27}','\u{7F40}','\u{7F41}','\u{7F47}','\u{7936}','\u{262D0}',
    '\u{99E1}','\u{7F97}','\u{26351}','\u{7FA3}','\u{21661}','\u{20068}','\u{455C}','\u{23766}',
    '\u{4503}','\u{2833A}','\u{7FFA}','\u{26489}','\u{8005}','\u{8008}','\u{801D}','\u{8028}',
    '\u{802F}','\u{2A087}','\u{26CC3}','\u{803B}','\u{803C}','\u{8061}','\u{22714}','\u{4989}',
    '\u{26626}','\u{23DE3}','\u{266E8}','\u{6725}','\u{80A7}','\u{28A48}','\u{8107}','\u{811A}',
    '\u{58B0}','\u{226F6}','\u{6C7F}','\u{26498}','\u{24FB8}','\u{64E7}','\u{2148A}','\u{8218}',
    '\u{2185E}','\u{6A53}','\u{24A65}','\u{24A95}','\u{447A}','\u{8229}','\u{20B0D}','\u{26A52}',
    '\u{23D7E}','\u{4FF9}','\u{214FD}','\u{84E2}','\u{8362}','\u{26B0A}','\u{249A7}','\u{23530}',
    '\u{21773}','\u{23DF8}','\u{82AA}','\u{691B}','\u{2F994}','\u{41DB}','\u{854B}','\u{82D0}',
    '\u{831A}','\u{20E16}','\u{217B4}','\u{36C1}','\u{2317D}','\u{2355A}','\u{827B}','\u{82E2}',
    '\u{8318}','\u{23E8B}','\u{26DA3}','\u{26B05}','\u{26B97}','\u{235CE}','\u{3DBF}','\u{831D}',
    '\u{55EC}','\u{8385}','\u{450B}','\u{26DA5}','\u{83AC}','\u{83C1}','\u{83D3}','\u{347E}',
    '\u{26ED4}','\u{6A57}','\u{855A}','\u{3496}','\u{26E42}','\u{22EEF}','\u{8458}','\u{25BE4}',
    '\u{8471}','\u{3DD3}','\u{44E4}','\u{6AA7}','\u{844A}','\u{23CB5}','\u{7958}','\u{84A8}',
    '\u{26B96}','\u{26E77}','\u{26E43}','\u{84DE}','\u{840F}','\u{8391}','\u{44A0}','\u{8493}',
    '\u{84E4}','\u{25C91}','\u{4240}','\u{25CC0}','\u{4543}','\u{8534}','\u{5AF2}','\u{26E99}',
    '\u{4527}','\u{8573}','\u{4516}','\u{67BF}','\u{8616}','\u{28625}','\u{2863B}','\u{85C1}',
    '\u{27088}','\u{8602}','\u{21582}','\u{270CD}','\u{2F9B2}','\u{456A}','\u{8628}','\u{3648}',
    '\u{218A2}','\u{53F7}','\u{2739A}','\u{867E}','\u{8771}','\u{2A0F8}','\u{87EE}','\u{22C27}',
    '\u{87B1}','\u{87DA}','\u{880F}','\u{5661}','\u{866C}','\u{6856}','\u{460F}','\u{8845}',
    '\u{8846}','\u{275E0}','\u{23DB9}','\u{275E4}','\u{885E}','\u{889C}','\u{465B}','\u{88B4}',
    '\u{88B5}','\u{63C1}','\u{88C5}','\u{7777}','\u{2770F}','\u{8987}','\u{898A}','\u{89A6}',
    '\u{89A9}','\u{89A7}','\u{89BC}','\u{28A25}','\u{89E7}','\u{27924}','\u{27ABD}','\u{8A9C}',
    '\u{7793}','\u{91FE}','\u{8A90}','\u{27A59}','\u{7AE9}','\u{27B3A}','\u{23F8F}','\u{4713}',
    '\u{27B38}','\u{717C}','\u{8B0C}','\u{8B1F}','\u{25430}','\u{25565}','\u{8B3F}','\u{8B4C}',
    '\u{8B4D}','\u{8AA9}','\u{24A7A}','\u{8B90}','\u{8B9B}','\u{8AAF}','\u{216DF}','\u{4615}',
    '\u{884F}','\u{8C9B}','\u{27D54}','\u{27D8F}','\u{2F9D4}','\u{3725}','\u{27D53}','\u{8CD6}',
    '\u{27D98}','\u{27DBD}','\u{8D12}','\u{8D03}','\u{21910}','\u{8CDB}','\u{705C}','\u{8D11}',
    '\u{24CC9}','\u{3ED0}','\u{8D77}','\u{8DA9}','\u{28002}','\u{21014}','\u{2498A}','\u{3B7C}',
    '\u{281BC}','\u{2710C}','\u{7AE7}','\u{8EAD}','\u{8EB6}','\u{8EC3}','\u{92D4}','\u{8F19}',
    '\u{8F2D}','\u{28365}','\u{28412}','\u{8FA5}','\u{9303}','\u{2A29F}','\u{20A50}','\u{8FB3}',
    '\u{492A}','\u{289DE}','\u{2853D}','\u{23DBB}','\u{5EF8}','\u{23262}','\u{8FF9}','\u{2A014}',
    '\u{286BC}','\u{28501}','\u{22325}','\u{3980}','\u{26ED7}','\u{9037}','\u{2853C}','\u{27ABE}',
    '\u{9061}','\u{2856C}','\u{2860B}','\u{90A8}','\u{28713}','\u{90C4}','\u{286E6}','\u{90AE}',
    '\u{90FD}','\u{9167}','\u{3AF0}','\u{91A9}','\u{91C4}','\u{7CAC}','\u{28933}','\u{21E89}',
    '\u{920E}','\u{6C9F}','\u{9241}','\u{9262}','\u{255B9}','\u{92B9}','\u{28AC6}','\u{23C9B}',
    '\u{28B0C}','\u{255DB}','\u{20D31}','\u{932C}','\u{936B}','\u{28AE1}','\u{28BEB}','\u{708F}',
    '\u{5AC3}','\u{28AE2}','\u{28AE5}','\u{4965}','\u{9244}','\u{28BEC}','\u{28C39}','\u{28BFF}',
    '\u{9373}','\u{945B}','\u{8EBC}','\u{9585}','\u{95A6}','\u{9426}','\u{95A0}','\u{6FF6}',
    '\u{42B9}','\u{2267A}','\u{286D8}','\u{2127C}','\u{23E2E}','\u{49DF}','\u{6C1C}','\u{967B}',
    '\u{9696}','\u{416C}','\u{96A3}','\u{26ED5}','\u{61DA}','\u{96B6}','\u{78F5}','\u{28AE0}',
    '\u{96BD}','\u{53CC}','\u{49A1}','\u{26CB8}','\u{20274}','\u{26410}','\u{290AF}','\u{290E5}',
    '\u{24AD1}','\u{21915}','\u{2330A}','\u{9731}','\u{8642}','\u{9736}','\u{4A0F}','\u{453D}',
    '\u{4585}','\u{24AE9}','\u{7075}','\u{5B41}','\u{971B}','\u{975C}','\u{291D5}','\u{9757}',
    '\u{5B4A}','\u{291EB}','\u{975F}','\u{9425}','\u{50D0}','\u{230B7}','\u{230BC}','\u{9789}',
    '\u{979F}','\u{97B1}','\u{97BE}','\u{97C0}','\u{97D2}','\u{97E0}','\u{2546C}','\u{97EE}',
    '\u{741C}','\u{29433}','\u{97FF}','\u{97F5}','\u{2941D}','\u{2797A}','\u{4AD1}','\u{9834}',
    '\u{9833}','\u{984B}','\u{9866}','\u{3B0E}','\u{27175}','\u{3D51}','\u{20630}','\u{2415C}',
"#

/-- src/generated/whatwg/big5_whatwg_tables.rs.inc:319-475 -/
noncomputable def decode2 : List Text := lines! r#"    '\u{25706}','\u{98CA}','\u{98B7}','\u{98C8}','\u{98C7}','\u{4AFF}','\u{26D27}','\u{216D3}',
    '\u{55B0}','\u{98E1}','\u{98E6}','\u{98EC}','\u{9378}','\u{9939}','\u{24A29}','\u{4B72}',
    '\u{29857}','\u{29905}','\u{99F5}','\u{9A0C}','\u{9A3B}','\u{9A10}','\u{9A58}','\u{25725}',
    '\u{36C4}','\u{290B1}','\u{29BD5}','\u{9AE0}','\u{9AE2}','\u{29B05}','\u{9AF4}','\u{4C0E}',
    '\u{9B14}','\u{9B2D}','\u{28600}','\u{5034}','\u{9B34}','\u{269A8}','\u{38C3}','\u{2307D}',
    '\u{9B50}','\u{9B40}','\u{29D3E}','\u{5A45}','\u{21863}','\u{9B8E}','\u{2424B}','\u{9C02}',
    '\u{9BFF}','\u{9C0C}','\u{29E68}','\u{9DD4}','\u{29FB7}','\u{2A192}','\u{2A1AB}','\u{2A0E1}',
    '\u{2A123}','\u{2A1DF}','\u{9D7E}','\u{9D83}','\u{2A134}','\u{9E0E}','\u{6888}','\u{9DC4}',
    '\u{2215B}','\u{2A193}','\u{2A220}','\u{2193B}','\u{2A233}','\u{9D39}','\u{2A0B9}','\u{2A2B4}',
    '\u{9E90}','\u{9E95}','\u{9E9E}','\u{9EA2}','\u{4D34}','\u{9EAA}','\u{9EAF}','\u{24364}',
    '\u{9EC1}','\u{3B60}','\u{39E5}','\u{3D1D}','\u{4F32}','\u{37BE}','\u{28C2B}','\u{9F02}',
    '\u{9F08}','\u{4B96}','\u{9424}','\u{26DA2}','\u{9F17}','\u{9F16}','\u{9F39}','\u{569F}',
    '\u{568A}','\u{9F45}','\u{99B8}','\u{2908B}','\u{97F2}','\u{847F}','\u{9F62}','\u{9F69}',
    '\u{7ADC}','\u{9F8E}','\u{7216}','\u{4BBE}','\u{24975}','\u{249BB}','\u{7177}','\u{249F8}',
    '\u{24348}','\u{24A51}','\u{739E}','\u{28BDA}','\u{218FA}','\u{799F}','\u{2897E}','\u{28E36}',
    '\u{9369}','\u{93F3}','\u{28A44}','\u{92EC}','\u{9381}','\u{93CB}','\u{2896C}','\u{244B9}',
    '\u{7217}','\u{3EEB}','\u{7772}','\u{7A43}','\u{70D0}','\u{24473}','\u{243F8}','\u{717E}',
    '\u{217EF}','\u{70A3}','\u{218BE}','\u{23599}','\u{3EC7}','\u{21885}','\u{2542F}','\u{217F8}',
    '\u{3722}','\u{216FB}','\u{21839}','\u{36E1}','\u{21774}','\u{218D1}','\u{25F4B}','\u{3723}',
    '\u{216C0}','\u{575B}','\u{24A25}','\u{213FE}','\u{212A8}','\u{213C6}','\u{214B6}','\u{8503}',
    '\u{236A6}','\u{8503}','\u{8455}','\u{24994}','\u{27165}','\u{23E31}','\u{2555C}','\u{23EFB}',
    '\u{27052}','\u{44F4}','\u{236EE}','\u{2999D}','\u{26F26}','\u{67F9}','\u{3733}','\u{3C15}',
    '\u{3DE7}','\u{586C}','\u{21922}','\u{6810}','\u{4057}','\u{2373F}','\u{240E1}','\u{2408B}',
    '\u{2410F}','\u{26C21}','\u{54CB}','\u{569E}','\u{266B1}','\u{5692}','\u{20FDF}','\u{20BA8}',
    '\u{20E0D}','\u{93C6}','\u{28B13}','\u{939C}','\u{4EF8}','\u{512B}','\u{3819}','\u{24436}',
    '\u{4EBC}','\u{20465}','\u{2037F}','\u{4F4B}','\u{4F8A}','\u{25651}','\u{5A68}','\u{201AB}',
    '\u{203CB}','\u{3999}','\u{2030A}','\u{20414}','\u{3435}','\u{4F29}','\u{202C0}','\u{28EB3}',
    '\u{20275}','\u{8ADA}','\u{2020C}','\u{4E98}','\u{50CD}','\u{510D}','\u{4FA2}','\u{4F03}',
    '\u{24A0E}','\u{23E8A}','\u{4F42}','\u{502E}','\u{506C}','\u{5081}','\u{4FCC}','\u{4FE5}',
    '\u{5058}','\u{50FC}','\u{5159}','\u{515B}','\u{515D}','\u{515E}','\u{6E76}','\u{23595}',
    '\u{23E39}','\u{23EBF}','\u{6D72}','\u{21884}','\u{23E89}','\u{51A8}','\u{51C3}','\u{205E0}',
    '\u{44DD}','\u{204A3}','\u{20492}','\u{20491}','\u{8D7A}','\u{28A9C}','\u{2070E}','\u{5259}',
    '\u{52A4}','\u{20873}','\u{52E1}','\u{936E}','\u{467A}','\u{718C}','\u{2438C}','\u{20C20}',
    '\u{249AC}','\u{210E4}','\u{69D1}','\u{20E1D}','\u{7479}','\u{3EDE}','\u{7499}','\u{7414}',
    '\u{7456}','\u{7398}','\u{4B8E}','\u{24ABC}','\u{2408D}','\u{53D0}','\u{3584}','\u{720F}',
    '\u{240C9}','\u{55B4}','\u{20345}','\u{54CD}','\u{20BC6}','\u{571D}','\u{925D}','\u{96F4}',
    '\u{9366}','\u{57DD}','\u{578D}','\u{577F}','\u{363E}','\u{58CB}','\u{5A99}','\u{28A46}',
    '\u{216FA}','\u{2176F}','\u{21710}','\u{5A2C}','\u{59B8}','\u{928F}','\u{5A7E}','\u{5ACF}',
    '\u{5A12}','\u{25946}','\u{219F3}','\u{21861}','\u{24295}','\u{36F5}','\u{6D05}','\u{7443}',
    '\u{5A21}','\u{25E83}','\u{5A81}','\u{28BD7}','\u{20413}','\u{93E0}','\u{748C}','\u{21303}',
    '\u{7105}','\u{4972}','\u{9408}','\u{289FB}','\u{93BD}','\u{37A0}','\u{5C1E}','\u{5C9E}',
    '\u{5E5E}','\u{5E48}','\u{21996}','\u{2197C}','\u{23AEE}','\u{5ECD}','\u{5B4F}','\u{21903}',
    '\u{21904}','\u{3701}','\u{218A0}','\u{36DD}','\u{216FE}','\u{36D3}','\u{812A}','\u{28A47}',
    '\u{21DBA}','\u{23472}','\u{289A8}','\u{5F0C}','\u{5F0E}','\u{21927}','\u{217AB}','\u{5A6B}',
    '\u{2173B}','\u{5B44}','\u{8614}','\u{275FD}','\u{8860}','\u{607E}','\u{22860}','\u{2262B}',
    '\u{5FDB}','\u{3EB8}','\u{225AF}','\u{225BE}','\u{29088}','\u{26F73}','\u{61C0}','\u{2003E}',
    '\u{20046}','\u{2261B}','\u{6199}','\u{6198}','\u{6075}','\u{22C9B}','\u{22D07}','\u{246D4}',
    '\u{2914D}','\u{6471}','\u{24665}','\u{22B6A}','\u{3A29}','\u{22B22}','\u{23450}','\u{298EA}',
    '\u{22E78}','\u{6337}','\u{2A45B}','\u{64B6}','\u{6331}','\u{63D1}','\u{249E3}','\u{22D67}',
    '\u{62A4}','\u{22CA1}','\u{643B}','\u{656B}','\u{6972}','\u{3BF4}','\u{2308E}','\u{232AD}',
    '\u{24989}','\u{232AB}','\u{550D}','\u{232E0}','\u{218D9}','\u{2943F}','\u{66CE}','\u{23289}',
    '\u{231B3}','\u{3AE0}','\u{4190}','\u{25584}','\u{28B22}','\u{2558F}','\u{216FC}','\u{2555B}',
    '\u{25425}','\u{78EE}','\u{23103}','\u{2182A}','\u{23234}','\u{3464}','\u{2320F}','\u{23182}',
    '\u{242C9}','\u{668E}','\u{26D24}','\u{666B}','\u{4B93}','\u{6630}','\u{27870}','\u{21DEB}',
    '\u{6663}','\u{232D2}','\u{232E1}','\u{661E}','\u{25872}','\u{38D1}','\u{2383A}','\u{237BC}',
    '\u{3B99}','\u{237A2}','\u{233FE}','\u{74D0}','\u{3B96}','\u{678F}','\u{2462A}','\u{68B6}',
    '\u{681E}','\u{3BC4}','\u{6ABE}','\u{3863}','\u{237D5}','\u{24487}','\u{6A33}','\u{6A52}',
    '\u{6AC9}','\u{6B05}','\u{21912}','\u{6511}','\u{6898}','\u{6A4C}','\u{3BD7}','\u{6A7A}',
    '\u{6B57}','\u{23FC0}','\u{23C9A}','\u{93A0}','\u{92F2}','\u{28BEA}','\u{28ACB}','\u{9289}',
    '\u{2801E}','\u{289DC}','\u{9467}','\u{6DA5}','\u{6F0B}','\u{249EC}','\u{6D67}','\u{23F7F}',
    '\u{3D8F}','\u{6E04}','\u{2403C}','\u{5A3D}','\u{6E0A}','\u{5847}','\u{6D24}','\u{7842}',
    '\u{713B}','\u{2431A}','\u{24276}','\u{70F1}','\u{7250}','\u{7287}','\u{7294}','\u{2478F}',
    '\u{24725}','\u{5179}','\u{24AA4}','\u{205EB}','\u{747A}','\u{23EF8}','\u{2365F}','\u{24A4A}',
    '\u{24917}','\u{25FE1}','\u{3F06}','\u{3EB1}','\u{24ADF}','\u{28C23}','\u{23F35}','\u{60A7}',
    '\u{3EF3}','\u{74CC}','\u{743C}','\u{9387}','\u{7437}','\u{449F}','\u{26DEA}','\u{4551}',
    '\u{7583}','\u{3F63}','\u{24CD9}','\u{24D06}','\u{3F58}','\u{7555}','\u{7673}','\u{2A5C6}',
    '\u{3B19}','\u{7468}','\u{28ACC}','\u{249AB}','\u{2498E}','\u{3AFB}','\u{3DCD}','\u{24A4E}',
    '\u{3EFF}','\u{249C5}','\u{248F3}','\u{91FA}','\u{5732}','\u{9342}','\u{28AE3}','\u{21864}',
    '\u{50DF}','\u{25221}','\u{251E7}','\u{7778}','\u{23232}','\u{770E}','\u{770F}','\u{777B}',
    '\u{24697}','\u{23781}','\u{3A5E}','\u{248F0}','\u{7438}','\u{749B}','\u{3EBF}','\u{24ABA}',
    '\u{24AC7}','\u{40C8}','\u{24A96}','\u{261AE}','\u{9307}','\u{25581}','\u{781E}','\u{788D}',
    '\u{7888}','\u{78D2}','\u{73D0}','\u{7959}','\u{27741}','\u{256E3}','\u{410E}','\u{799B}',
    '\u{8496}','\u{79A5}','\u{6A2D}','\u{23EFA}','\u{7A3A}','\u{79F4}','\u{416E}','\u{216E6}',
    '\u{4132}','\u{9235}','\u{79F1}','\u{20D4C}','\u{2498C}','\u{20299}','\u{23DBA}','\u{2176E}',
    '\u{3597}','\u{556B}','\u{3570}','\u{36AA}','\u{201D4}','\u{20C0D}','\u{7AE2}','\u{5A59}',
    '\u{226F5}','\u{25AAF}','\u{25A9C}','\u{5A0D}','\u{2025B}','\u{78F0}','\u{5A2A}','\u{25BC6}',
    '\u{7AFE}','\u{41F9}','\u{7C5D}','\u{7C6D}','\u{4211}','\u{25BB3}','\u{25EBC}','\u{25EA6}',
    '\u{7CCD}','\u{249F9}','\u{217B0}','\u{7C8E}','\u{7C7C}','\u{7CAE}','\u{6AB2}','\u{7DDC}',
    '\u{7E07}','\u{7DD3}','\u{7F4E}','\u{26261}','\u{2615C}','\u{27B48}','\u{7D97}','\u{25E82}',
    '\u{426A}','\u{26B75}','\u{20916}','\u{67D6}','\u{2004E}','\u{235CF}','\u{57C4}','\u{26412}',
    '\u{263F8}','\u{24962}','\u{7FDD}','\u{7B27}','\u{2082C}','\u{25AE9}','\u{25D43}','\u{7B0C}',
    '\u{25E0E}','\u{99E6}','\u{8645}','\u{9A63}','\u{6A1C}','\u{2343F}','\u{39E2}','\u{249F7}',
    '\u{265AD}','\u{9A1F}','\u{265A0}','\u{8480}','\u{27127}','\u{26CD1}','\u{44EA}','\u{8137}',
    '\u{4402}','\u{80C6}','\u{8109}','\u{8142}','\u{267B4}','\u{98C3}','\u{26A42}','\u{8262}',
    '\u{8265}','\u{26A51}','\u{8453}','\u{26DA7}','\u{8610}','\u{2721B}','\u{5A86}','\u{417F}',
    '\u{21840}','\u{5B2B}','\u{218A1}','\u{5AE4}','\u{218D8}','\u{86A0}','\u{2F9BC}','\u{23D8F}',
    '\u{882D}','\u{27422}','\u{5A02}','\u{886E}','\u{4F45}','\u{8887}','\u{88BF}','\u{88E6}',
    '\u{8965}','\u{894D}','\u{25683}','\u{8954}','\u{27785}','\u{27784}','\u{28BF5}','\u{28BD9}',
    '\u{28B9C}','\u{289F9}','\u{3EAD}','\u{84A3}','\u{46F5}','\u{46CF}','\u{37F2}','\u{8A3D}',
    '\u{8A1C}','\u{29448}','\u{5F4D}','\u{922B}','\u{24284}','\u{65D4}','\u{7129}','\u{70C4}',
    '\u{21845}','\u{9D6D}','\u{8C9F}','\u{8CE9}','\u{27DDC}','\u{599A}','\u{77C3}','\u{59F0}',
    '\u{436E}','\u{36D4}','\u{8E2A}','\u{8EA7}','\u{24C09}','\u{8F30}','\u{8F4A}','\u{42F4}',
    '\u{6C58}','\u{6FBB}','\u{22321}','\u{489B}','\u{6F79}','\u{6E8B}','\u{217DA}','\u{9BE9}',
    '\u{36B5}','\u{2492F}','\u{90BB}','\u{9097}','\u{5571}','\u{4906}','\u{91BB}','\u{9404}',
    '\u{28A4B}','\u{4062}','\u{28AFC}','\u{9427}','\u{28C1D}','\u{28C3B}','\u{84E5}','\u{8A2B}',
    '\u{9599}','\u{95A7}','\u{9597}','\u{9596}','\u{28D34}','\u{7445}','\u{3EC2}','\u{248FF}',
    '\u{24A42}','\u{243EA}','\u{3EE7}','\u{23225}','\u{968F}','\u{28EE7}','\u{28E66}','\u{28E65}',
    '\u{3ECC}','\u{249ED}','\u{24A78}','\u{23FEE}','\u{7412}','\u{746B}','\u{3EFC}','\u{9741}',
    '\u{290B0}','\u{6847}','\u{4A1D}','\u{29093}','\u{257DF}','\u{975D}','\u{9368}','\u{28989}',
    '\u{28C26}','\u{28B2F}','\u{263BE}','\u{92BA}','\u{5B11}','\u{8B69}','\u{493C}','\u{73F9}',
    '\u{2421B}','\u{979B}','\u{9771}','\u{9938}','\u{20F26}','\u{5DC1}','\u{28BC5}','\u{24AB2}',
    '\u{981F}','\u{294DA}','\u{92F6}','\u{295D7}','\u{91E5}','\u{44C0}','\u{28B50}','\u{24A67}',
    '\u{28B64}','\u{98DC}','\u{28A45}','\u{3F00}','\u{922A}','\u{4925}','\u{8414}','\u{993B}',
    '\u{994D}','\u{27B06}','\u{3DFD}','\u{999B}','\u{4B6F}','\u{99AA}','\u{9A5C}','\u{28B65}',
    '\u{258C8}','\u{6A8F}','\u{9A21}','\u{5AFE}','\u{9A2F}','\u{298F1}','\u{4B90}','\u{29948}',
    '\u{99BC}','\u{4BBD}','\u{4B97}','\u{937D}','\u{5872}','\u{21302}','\u{5822}','\u{249B8}',
    '\u{214E8}','\u{7844}','\u{2271F}','\u{23DB8}','\u{68C5}','\u{3D7D}','\u{9458}','\u{3927}',
    '\u{6150}','\u{22781}','\u{2296B}','\u{6107}','\u{9C4F}','\u{9C53}','\u{9C7B}','\u{9C35}',
    '\u{9C10}','\u{9B7F}','\u{9BCF}','\u{29E2D}','\u{9B9F}','\u{2A1F5}','\u{2A0FE}','\u{9D21}',
    '\u{4CAE}','\u{24104}','\u{9E18}','\u{4CB0}','\u{9D0C}','\u{2A1B4}','\u{2A0ED}','\u{2A0F3}',
    '\u{2992F}','\u{9DA5}','\u{84BD}','\u{26E12}','\u{26FDF}','\u{26B82}','\u{85FC}','\u{4533}',
    '\u{26DA4}','\u{26E84}','\u{26DF0}','\u{8420}','\u{85EE}','\u{26E00}','\u{237D7}','\u{26064}',
    '\u{79E2}','\u{2359C}','\u{23640}','\u{492D}','\u{249DE}','\u{3D62}','\u{93DB}','\u{92BE}',
    '\u{9348}','\u{202BF}','\u{78B9}','\u{9277}','\u{944D}','\u{4FE4}','\u{3440}','\u{9064}',
    '\u{2555D}','\u{783D}','\u{7854}','\u{78B6}','\u{784B}','\u{21757}','\u{231C9}','\u{24941}',
    '\u{369A}','\u{4F72}','\u{6FDA}','\u{6FD9}','\u{701E}','\u{701E}','\u{5414}','\u{241B5}',
    '\u{57BB}','\u{58F3}','\u{578A}','\u{9D16}','\u{57D7}','\u{7134}','\u{34AF}','\u{241AC}',
    '\u{71EB}','\u{26C40}','\u{24F97}','\u{5B28}','\u{217B5}','\u{28A49}','\u{610C}','\u{5ACE}',
    '\u{5A0B}','\u{42BC}','\u{24488}','\u{372C}','\u{4B7B}','\u{289FC}','\u{93BB}','\u{93B8}',
    '\u{218D6}','\u{20F1D}','\u{8472}','\u{26CC0}','\u{21413}','\u{242FA}','\u{22C26}','\u{243C1}',
    '\u{5994}','\u{23DB7}','\u{26741}','\u{7DA8}','\u{2615B}','\u{260A4}','\u{249B9}','\u{2498B}',
    '\u{289FA}','\u{92E5}','\u{73E2}','\u{3EE9}','\u{74B4}','\u{28B63}','\u{2189F}','\u{3EE1}',
    '\u{24AB3}','\u{6AD8}','\u{73F3}','\u{73FB}','\u{3ED6}','\u{24A3E}','\u{24A94}','\u{217D9}',
    '\u{24A66}','\u{203A7}','\u{21424}','\u{249E5}','\u{7448}','\u{24916}','\u{70A5}','\u{24976}',
    '\u{9284}','\u{73E6}','\u{935F}','\u{204FE}','\u{9331}','\u{28ACE}','\u{28A16}','\u{9386}',
    '\u{28BE7}','\u{255D5}','\u{4935}','\u{28A82}','\u{716B}','\u{24943}','\u{20CFF}','\u{56A4}',
    '\u{2061A}','\u{20BEB}','\u{20CB8}','\u{5502}','\u{79C4}','\u{217FA}','\u{7DFE}','\u{216C2}',
    '\u{24A50}','\u{21852}','\u{452E}','\u{9401}','\u{370A}','\u{28AC0}','\u{249AD}','\u{59B0}',
    '\u{218BF}','\u{21883}','\u{27484}','\u{5AA1}','\u{36E2}','\u{23D5B}','\u{36B0}','\u{925F}',
    '\u{5A79}','\u{28A81}','\u{21862}','\u{9374}','\u{3CCD}','\u{20AB4}','\u{4A96}','\u{398A}',
    '\u{50F4}','\u{3D69}','\u{3D4C}','\u{2139C}','\u{7175}','\u{42FB}','\u{28218}','\u{6E0F}',
    '\u{290E4}','\u{44EB}','\u{6D57}','\u{27E4F}','\u{7067}','\u{6CAF}','\u{3CD6}','\u{23FED}',
    '\u{23E2D}','\u{6E02}','\u{6F0C}','\u{3D6F}','\u{203F5}','\u{7551}','\u{36BC}','\u{34C8}',
    '\u{4680}','\u{3EDA}','\u{4871}','\u{59C4}','\u{926E}','\u{493E}','\u{8F41}','\u{28C1C}',
    '\u{26BC0}','\u{5812}','\u{57C8}','\u{36D6}','\u{21452}','\u{70FE}','\u{24362}','\u{24A71}',
    '\u{22FE3}','\u{212B0}','\u{223BD}','\u{68B9}','\u{6967}','\u{21398}','\u{234E5}','\u{27BF4}',
    '\u{236DF}','\u{28A83}','\u{237D6}','\u{233FA}','\u{24C9F}','\u{6A1A}','\u{236AD}','\u{26CB7}',
    '\u{843E}','\u{44DF}','\u{44CE}','\u{26D26}','\u{26D51}','\u{26C82}','\u{26FDE}','\u{6F17}',
    '\u{27109}','\u{833D}','\u{2173A}','\u{83ED}','\u{26C80}','\u{27053}','\u{217DB}','\u{5989}',
    '\u{5A82}','\u{217B3}','\u{5A61}','\u{5A71}','\u{21905}','\u{241FC}','\u{372D}','\u{59EF}',
    '\u{2173C}','\u{36C7}','\u{718E}','\u{9390}','\u{669A}','\u{242A5}','\u{5A6E}','\u{5A2B}',
    '\u{24293}','\u{6A2B}','\u{23EF9}','\u{27736}','\u{2445B}','\u{242CA}','\u{711D}','\u{24259}',
    '\u{289E1}','\u{4FB0}','\u{26D28}','\u{5CC2}','\u{244CE}','\u{27E4D}','\u{243BD}','\u{6A0C}',
    '\u{24256}','\u{21304}','\u{70A6}','\u{7133}','\u{243E9}','\u{3DA5}','\u{6CDF}','\u{2F825}',
    '\u{24A4F}','\u{7E65}','\u{59EB}','\u{5D2F}','\u{3DF3}','\u{5F5C}','\u{24A5D}','\u{217DF}',
    '\u{7DA4}','\u{8426}','\u{5485}','\u{23AFA}','\u{23300}','\u{20214}','\u{577E}','\u{208D5}',
    '\u{20619}','\u{3FE5}','\u{21F9E}','\u{2A2B6}','\u{7003}','\u{2915B}','\u{5D70}','\u{738F}',
    '\u{7CD3}','\u{28A59}','\u{29420}','\u{4FC8}','\u{7FE7}','\u{72CD}','\u{7310}','\u{27AF4}',
    '\u{7338}','\u{7339}','\u{256F6}','\u{7341}','\u{7348}','\u{3EA9}','\u{27B18}','\u{906C}',
    '\u{71F5}','\u{248F2}','\u{73E1}','\u{81F6}','\u{3ECA}','\u{770C}','\u{3ED1}','\u{6CA2}',
    '\u{56FD}','\u{7419}','\u{741E}','\u{741F}','\u{3EE2}','\u{3EF0}','\u{3EF4}','\u{3EFA}',
    '\u{74D3}','\u{3F0E}','\u{3F53}','\u{7542}','\u{756D}','\u{7572}','\u{758D}','\u{3F7C}',
    '\u{75C8}','\u{75DC}','\u{3FC0}','\u{764D}','\u{3FD7}','\u{7674}','\u{3FDC}','\u{767A}',
    '\u{24F5C}','\u{7188}','\u{5623}','\u{8980}','\u{5869}','\u{401D}','\u{7743}','\u{4039}',
    '\u{6761}','\u{4045}','\u{35DB}','\u{7798}','\u{406A}','\u{406F}','\u{5C5E}','\u{77BE}',
    '\u{77CB}','\u{58F2}','\u{7818}','\u{70B9}','\u{781C}','\u{40A8}','\u{7839}','\u{7847}',
    '\u{7851}','\u{7866}','\u{8448}','\u{25535}','\u{7933}','\u{6803}','\u{7932}','\u{4103}',
"#

/-- src/generated/whatwg/big5_whatwg_tables.rs.inc:476-632 -/
noncomputable def decode3 : List Text := lines! r#"    '\u{4109}','\u{7991}','\u{7999}','\u{8FBB}','\u{7A06}','\u{8FBC}','\u{4167}','\u{7A91}',
    '\u{41B2}','\u{7ABC}','\u{8279}','\u{41C4}','\u{7ACF}','\u{7ADB}','\u{41CF}','\u{4E21}',
    '\u{7B62}','\u{7B6C}','\u{7B7B}','\u{7C12}','\u{7C1B}','\u{4260}','\u{427A}','\u{7C7B}',
    '\u{7C9C}','\u{428C}','\u{7CB8}','\u{4294}','\u{7CED}','\u{8F93}','\u{70C0}','\u{20CCF}',
    '\u{7DCF}','\u{7DD4}','\u{7DD0}','\u{7DFD}','\u{7FAE}','\u{7FB4}','\u{729F}','\u{4397}',
    '\u{8020}','\u{8025}','\u{7B39}','\u{802E}','\u{8031}','\u{8054}','\u{3DCC}','\u{57B4}',
    '\u{70A0}','\u{80B7}','\u{80E9}','\u{43ED}','\u{810C}','\u{732A}','\u{810E}','\u{8112}',
    '\u{7560}','\u{8114}','\u{4401}','\u{3B39}','\u{8156}','\u{8159}','\u{815A}','\u{4413}',
    '\u{583A}','\u{817C}','\u{8184}','\u{4425}','\u{8193}','\u{442D}','\u{81A5}','\u{57EF}',
    '\u{81C1}','\u{81E4}','\u{8254}','\u{448F}','\u{82A6}','\u{8276}','\u{82CA}','\u{82D8}',
    '\u{82FF}','\u{44B0}','\u{8357}','\u{9669}','\u{698A}','\u{8405}','\u{70F5}','\u{8464}',
    '\u{60E3}','\u{8488}','\u{4504}','\u{84BE}','\u{84E1}','\u{84F8}','\u{8510}','\u{8538}',
    '\u{8552}','\u{453B}','\u{856F}','\u{8570}','\u{85E0}','\u{4577}','\u{8672}','\u{8692}',
    '\u{86B2}','\u{86EF}','\u{9645}','\u{878B}','\u{4606}','\u{4617}','\u{88AE}','\u{88FF}',
    '\u{8924}','\u{8947}','\u{8991}','\u{27967}','\u{8A29}','\u{8A38}','\u{8A94}','\u{8AB4}',
    '\u{8C51}','\u{8CD4}','\u{8CF2}','\u{8D1C}','\u{4798}','\u{585F}','\u{8DC3}','\u{47ED}',
    '\u{4EEE}','\u{8E3A}','\u{55D8}','\u{5754}','\u{8E71}','\u{55F5}','\u{8EB0}','\u{4837}',
    '\u{8ECE}','\u{8EE2}','\u{8EE4}','\u{8EED}','\u{8EF2}','\u{8FB7}','\u{8FC1}','\u{8FCA}',
    '\u{8FCC}','\u{9033}','\u{99C4}','\u{48AD}','\u{98E0}','\u{9213}','\u{491E}','\u{9228}',
    '\u{9258}','\u{926B}','\u{92B1}','\u{92AE}','\u{92BF}','\u{92E3}','\u{92EB}','\u{92F3}',
    '\u{92F4}','\u{92FD}','\u{9343}','\u{9384}','\u{93AD}','\u{4945}','\u{4951}','\u{9EBF}',
    '\u{9417}','\u{5301}','\u{941D}','\u{942D}','\u{943E}','\u{496A}','\u{9454}','\u{9479}',
    '\u{952D}','\u{95A2}','\u{49A7}','\u{95F4}','\u{9633}','\u{49E5}','\u{67A0}','\u{4A24}',
    '\u{9740}','\u{4A35}','\u{97B2}','\u{97C2}','\u{5654}','\u{4AE4}','\u{60E8}','\u{98B9}',
    '\u{4B19}','\u{98F1}','\u{5844}','\u{990E}','\u{9919}','\u{51B4}','\u{991C}','\u{9937}',
    '\u{9942}','\u{995D}','\u{9962}','\u{4B70}','\u{99C5}','\u{4B9D}','\u{9A3C}','\u{9B0F}',
    '\u{7A83}','\u{9B69}','\u{9B81}','\u{9BDD}','\u{9BF1}','\u{9BF4}','\u{4C6D}','\u{9C20}',
    '\u{376F}','\u{21BC2}','\u{9D49}','\u{9C3A}','\u{9EFE}','\u{5650}','\u{9D93}','\u{9DBD}',
    '\u{9DC0}','\u{9DFC}','\u{94F6}','\u{8FB6}','\u{9E7B}','\u{9EAC}','\u{9EB1}','\u{9EBD}',
    '\u{9EC6}','\u{94DC}','\u{9EE2}','\u{9EF1}','\u{9EF8}','\u{7AC8}','\u{9F44}','\u{20094}',
    '\u{202B7}','\u{203A0}','\u{691A}','\u{94C3}','\u{59AC}','\u{204D7}','\u{5840}','\u{94C1}',
    '\u{37B9}','\u{205D5}','\u{20615}','\u{20676}','\u{216BA}','\u{5757}','\u{7173}','\u{20AC2}',
    '\u{20ACD}','\u{20BBF}','\u{546A}','\u{2F83B}','\u{20BCB}','\u{549E}','\u{20BFB}','\u{20C3B}',
    '\u{20C53}','\u{20C65}','\u{20C7C}','\u{60E7}','\u{20C8D}','\u{567A}','\u{20CB5}','\u{20CDD}',
    '\u{20CED}','\u{20D6F}','\u{20DB2}','\u{20DC8}','\u{6955}','\u{9C2F}','\u{87A5}','\u{20E04}',
    '\u{20E0E}','\u{20ED7}','\u{20F90}','\u{20F2D}','\u{20E73}','\u{5C20}','\u{20FBC}','\u{5E0B}',
    '\u{2105C}','\u{2104F}','\u{21076}','\u{671E}','\u{2107B}','\u{21088}','\u{21096}','\u{3647}',
    '\u{210BF}','\u{210D3}','\u{2112F}','\u{2113B}','\u{5364}','\u{84AD}','\u{212E3}','\u{21375}',
    '\u{21336}','\u{8B81}','\u{21577}','\u{21619}','\u{217C3}','\u{217C7}','\u{4E78}','\u{70BB}',
    '\u{2182D}','\u{2196A}','\u{21A2D}','\u{21A45}','\u{21C2A}','\u{21C70}','\u{21CAC}','\u{21EC8}',
    '\u{62C3}','\u{21ED5}','\u{21F15}','\u{7198}','\u{6855}','\u{22045}','\u{69E9}','\u{36C8}',
    '\u{2227C}','\u{223D7}','\u{223FA}','\u{2272A}','\u{22871}','\u{2294F}','\u{82FD}','\u{22967}',
    '\u{22993}','\u{22AD5}','\u{89A5}','\u{22AE8}','\u{8FA0}','\u{22B0E}','\u{97B8}','\u{22B3F}',
    '\u{9847}','\u{9ABD}','\u{22C4C}','�','\u{22C88}','\u{22CB7}','\u{25BE8}','\u{22D08}',
    '\u{22D12}','\u{22DB7}','\u{22D95}','\u{22E42}','\u{22F74}','\u{22FCC}','\u{23033}','\u{23066}',
    '\u{2331F}','\u{233DE}','\u{5FB1}','\u{6648}','\u{66BF}','\u{27A79}','\u{23567}','\u{235F3}',
    '\u{7201}','\u{249BA}','\u{77D7}','\u{2361A}','\u{23716}','\u{7E87}','\u{20346}','\u{58B5}',
    '\u{670E}','\u{6918}','\u{23AA7}','\u{27657}','\u{25FE2}','\u{23E11}','\u{23EB9}','\u{275FE}',
    '\u{2209A}','\u{48D0}','\u{4AB8}','\u{24119}','\u{28A9A}','\u{242EE}','\u{2430D}','\u{2403B}',
    '\u{24334}','\u{24396}','\u{24A45}','\u{205CA}','\u{51D2}','\u{20611}','\u{599F}','\u{21EA8}',
    '\u{3BBE}','\u{23CFF}','\u{24404}','\u{244D6}','\u{5788}','\u{24674}','\u{399B}','\u{2472F}',
    '\u{285E8}','\u{299C9}','\u{3762}','\u{221C3}','\u{8B5E}','\u{28B4E}','\u{99D6}','\u{24812}',
    '\u{248FB}','\u{24A15}','\u{7209}','\u{24AC0}','\u{20C78}','\u{5965}','\u{24EA5}','\u{24F86}',
    '\u{20779}','\u{8EDA}','\u{2502C}','\u{528F}','\u{573F}','\u{7171}','\u{25299}','\u{25419}',
    '\u{23F4A}','\u{24AA7}','\u{55BC}','\u{25446}','\u{2546E}','\u{26B52}','\u{91D4}','\u{3473}',
    '\u{2553F}','\u{27632}','\u{2555E}','\u{4718}','\u{25562}','\u{25566}','\u{257C7}','\u{2493F}',
    '\u{2585D}','\u{5066}','\u{34FB}','\u{233CC}','\u{60DE}','\u{25903}','\u{477C}','\u{28948}',
    '\u{25AAE}','\u{25B89}','\u{25C06}','\u{21D90}','\u{57A1}','\u{7151}','\u{6FB6}','\u{26102}',
    '\u{27C12}','\u{9056}','\u{261B2}','\u{24F9A}','\u{8B62}','\u{26402}','\u{2644A}','\u{5D5B}',
    '\u{26BF7}','\u{8F36}','\u{26484}','\u{2191C}','\u{8AEA}','\u{249F6}','\u{26488}','\u{23FEF}',
    '\u{26512}','\u{4BC0}','\u{265BF}','\u{266B5}','\u{2271B}','\u{9465}','\u{257E1}','\u{6195}',
    '\u{5A27}','\u{2F8CD}','\u{4FBB}','\u{56B9}','\u{24521}','\u{266FC}','\u{4E6A}','\u{24934}',
    '\u{9656}','\u{6D8F}','\u{26CBD}','\u{3618}','\u{8977}','\u{26799}','\u{2686E}','\u{26411}',
    '\u{2685E}','\u{71DF}','\u{268C7}','\u{7B42}','\u{290C0}','\u{20A11}','\u{26926}','\u{9104}',
    '\u{26939}','\u{7A45}','\u{9DF0}','\u{269FA}','\u{9A26}','\u{26A2D}','\u{365F}','\u{26469}',
    '\u{20021}','\u{7983}','\u{26A34}','\u{26B5B}','\u{5D2C}','\u{23519}','\u{83CF}','\u{26B9D}',
    '\u{46D0}','\u{26CA4}','\u{753B}','\u{8865}','\u{26DAE}','\u{58B6}','\u{371C}','\u{2258D}',
    '\u{2704B}','\u{271CD}','\u{3C54}','\u{27280}','\u{27285}','\u{9281}','\u{2217A}','\u{2728B}',
    '\u{9330}','\u{272E6}','\u{249D0}','\u{6C39}','\u{949F}','\u{27450}','\u{20EF8}','\u{8827}',
    '\u{88F5}','\u{22926}','\u{28473}','\u{217B1}','\u{6EB8}','\u{24A2A}','\u{21820}','\u{39A4}',
    '\u{36B9}','\u{5C10}','\u{79E3}','\u{453F}','\u{66B6}','\u{29CAD}','\u{298A4}','\u{8943}',
    '\u{277CC}','\u{27858}','\u{56D6}','\u{40DF}','\u{2160A}','\u{39A1}','\u{2372F}','\u{280E8}',
    '\u{213C5}','\u{71AD}','\u{8366}','\u{279DD}','\u{291A8}','\u{5A67}','\u{4CB7}','\u{270AF}',
    '\u{289AB}','\u{279FD}','\u{27A0A}','\u{27B0B}','\u{27D66}','\u{2417A}','\u{7B43}','\u{797E}',
    '\u{28009}','\u{6FB5}','\u{2A2DF}','\u{6A03}','\u{28318}','\u{53A2}','\u{26E07}','\u{93BF}',
    '\u{6836}','\u{975D}','\u{2816F}','\u{28023}','\u{269B5}','\u{213ED}','\u{2322F}','\u{28048}',
    '\u{5D85}','\u{28C30}','\u{28083}','\u{5715}','\u{9823}','\u{28949}','\u{5DAB}','\u{24988}',
    '\u{65BE}','\u{69D5}','\u{53D2}','\u{24AA5}','\u{23F81}','\u{3C11}','\u{6736}','\u{28090}',
    '\u{280F4}','\u{2812E}','\u{21FA1}','\u{2814F}','\u{28189}','\u{281AF}','\u{2821A}','\u{28306}',
    '\u{2832F}','\u{2838A}','\u{35CA}','\u{28468}','\u{286AA}','\u{48FA}','\u{63E6}','\u{28956}',
    '\u{7808}','\u{9255}','\u{289B8}','\u{43F2}','\u{289E7}','\u{43DF}','\u{289E8}','\u{28B46}',
    '\u{28BD4}','\u{59F8}','\u{28C09}','\u{8F0B}','\u{28FC5}','\u{290EC}','\u{7B51}','\u{29110}',
    '\u{2913C}','\u{3DF7}','\u{2915E}','\u{24ACA}','\u{8FD0}','\u{728F}','\u{568B}','\u{294E7}',
    '\u{295E9}','\u{295B0}','\u{295B8}','\u{29732}','\u{298D1}','\u{29949}','\u{2996A}','\u{299C3}',
    '\u{29A28}','\u{29B0E}','\u{29D5A}','\u{29D9B}','\u{7E9F}','\u{29EF8}','\u{29F23}','\u{4CA4}',
    '\u{9547}','\u{2A293}','\u{71A2}','\u{2A2FF}','\u{4D91}','\u{9012}','\u{2A5CB}','\u{4D9C}',
    '\u{20C9C}','\u{8FBE}','\u{55C1}','\u{8FBA}','\u{224B0}','\u{8FB9}','\u{24A93}','\u{4509}',
    '\u{7E7F}','\u{6F56}','\u{6AB1}','\u{4EEA}','\u{34E4}','\u{28B2C}','\u{2789D}','\u{373A}',
    '\u{8E80}','\u{217F5}','\u{28024}','\u{28B6C}','\u{28B99}','\u{27A3E}','\u{266AF}','\u{3DEB}',
    '\u{27655}','\u{23CB7}','\u{25635}','\u{25956}','\u{4E9A}','\u{25E81}','\u{26258}','\u{56BF}',
    '\u{20E6D}','\u{8E0E}','\u{5B6D}','\u{23E88}','\u{24C9E}','\u{63DE}','\u{62D0}','\u{217F6}',
    '\u{2187B}','\u{6530}','\u{562D}','\u{25C4A}','\u{541A}','\u{25311}','\u{3DC6}','\u{29D98}',
    '\u{4C7D}','\u{5622}','\u{561E}','\u{7F49}','\u{25ED8}','\u{5975}','\u{23D40}','\u{8770}',
    '\u{4E1C}','\u{20FEA}','\u{20D49}','\u{236BA}','\u{8117}','\u{9D5E}','\u{8D18}','\u{763B}',
    '\u{9C45}','\u{764E}','\u{77B9}','\u{9345}','\u{5432}','\u{8148}','\u{82F7}','\u{5625}',
    '\u{8132}','\u{8418}','\u{80BD}','\u{55EA}','\u{7962}','\u{5643}','\u{5416}','\u{20E9D}',
    '\u{35CE}','\u{5605}','\u{55F1}','\u{66F1}','\u{282E2}','\u{362D}','\u{7534}','\u{55F0}',
    '\u{55BA}','\u{5497}','\u{5572}','\u{20C41}','\u{20C96}','\u{5ED0}','\u{25148}','\u{20E76}',
    '\u{22C62}','\u{20EA2}','\u{9EAB}','\u{7D5A}','\u{55DE}','\u{21075}','\u{629D}','\u{976D}',
    '\u{5494}','\u{8CCD}','\u{71F6}','\u{9176}','\u{63FC}','\u{63B9}','\u{63FE}','\u{5569}',
    '\u{22B43}','\u{9C72}','\u{22EB3}','\u{519A}','\u{34DF}','\u{20DA7}','\u{51A7}','\u{544D}',
    '\u{551E}','\u{5513}','\u{7666}','\u{8E2D}','\u{2688A}','\u{75B1}','\u{80B6}','\u{8804}',
    '\u{8786}','\u{88C7}','\u{81B6}','\u{841C}','\u{210C1}','\u{44EC}','\u{7304}','\u{24706}',
    '\u{5B90}','\u{830B}','\u{26893}','\u{567B}','\u{226F4}','\u{27D2F}','\u{241A3}','\u{27D73}',
    '\u{26ED0}','\u{272B6}','\u{9170}','\u{211D9}','\u{9208}','\u{23CFC}','\u{2A6A9}','\u{20EAC}',
    '\u{20EF9}','\u{7266}','\u{21CA2}','\u{474E}','\u{24FC2}','\u{27FF9}','\u{20FEB}','\u{40FA}',
    '\u{9C5D}','\u{651F}','\u{22DA0}','\u{48F3}','\u{247E0}','\u{29D7C}','\u{20FEC}','\u{20E0A}',
    '\u{6062}','\u{275A3}','\u{20FED}','�','\u{26048}','\u{21187}','\u{71A3}','\u{7E8E}',
    '\u{9D50}','\u{4E1A}','\u{4E04}','\u{3577}','\u{5B0D}','\u{6CB2}','\u{5367}','\u{36AC}',
    '\u{39DC}','\u{537D}','\u{36A5}','\u{24618}','\u{589A}','\u{24B6E}','\u{822D}','\u{544B}',
    '\u{57AA}','\u{25A95}','\u{20979}','�','\u{3A52}','\u{22465}','\u{7374}','\u{29EAC}',
    '\u{4D09}','\u{9BED}','\u{23CFE}','\u{29F30}','\u{4C5B}','\u{24FA9}','\u{2959E}','\u{29FDE}',
    '\u{845C}','\u{23DB6}','\u{272B2}','\u{267B3}','\u{23720}','\u{632E}','\u{7D25}','\u{23EF7}',
    '\u{23E2C}','\u{3A2A}','\u{9008}','\u{52CC}','\u{3E74}','\u{367A}','\u{45E9}','\u{2048E}',
    '\u{7640}','\u{5AF0}','\u{20EB6}','\u{787A}','\u{27F2E}','\u{58A7}','\u{40BF}','\u{567C}',
    '\u{9B8B}','\u{5D74}','\u{7654}','\u{2A434}','\u{9E85}','\u{4CE1}','\u{75F9}','\u{37FB}',
    '\u{6119}','\u{230DA}','\u{243F2}','�','\u{565D}','\u{212A9}','\u{57A7}','\u{24963}',
    '\u{29E06}','\u{5234}','\u{270AE}','\u{35AD}','\u{6C4A}','\u{9D7C}','\u{7C56}','\u{9B39}',
    '\u{57DE}','\u{2176C}','\u{5C53}','\u{64D3}','\u{294D0}','\u{26335}','\u{27164}','\u{86AD}',
    '\u{20D28}','\u{26D22}','\u{24AE2}','\u{20D71}','�','\u{51FE}','\u{21F0F}','\u{5D8E}',
    '\u{9703}','\u{21DD1}','\u{9E81}','\u{904C}','\u{7B1F}','\u{9B02}','\u{5CD1}','\u{7BA3}',
    '\u{6268}','\u{6335}','\u{9AFF}','\u{7BCF}','\u{9B2A}','\u{7C7E}','\u{9B2E}','\u{7C42}',
    '\u{7C86}','\u{9C15}','\u{7BFC}','\u{9B09}','\u{9F17}','\u{9C1B}','\u{2493E}','\u{9F5A}',
    '\u{5573}','\u{5BC3}','\u{4FFD}','\u{9E98}','\u{4FF2}','\u{5260}','\u{3E06}','\u{52D1}',
    '\u{5767}','\u{5056}','\u{59B7}','\u{5E12}','\u{97C8}','\u{9DAB}','\u{8F5C}','\u{5469}',
    '\u{97B4}','\u{9940}','\u{97BA}','\u{532C}','\u{6130}','\u{692C}','\u{53DA}','\u{9C0A}',
    '\u{9D02}','\u{4C3B}','\u{9641}','\u{6980}','\u{50A6}','\u{7546}','\u{2176D}','\u{99DA}',
    '\u{5273}','�','\u{9159}','\u{9681}','\u{915C}','�','\u{9151}','\u{28E97}',
    '\u{637F}','\u{26D23}','\u{6ACA}','\u{5611}','\u{918E}','\u{757A}','\u{6285}','\u{203FC}',
    '\u{734F}','\u{7C70}','\u{25C21}','\u{23CFD}','�','\u{24919}','\u{76D6}','\u{9B9D}',
    '\u{4E2A}','\u{20CD4}','\u{83BE}','\u{8842}','�','\u{5C4A}','\u{69C0}','\u{50ED}',
    '\u{577A}','\u{521F}','\u{5DF5}','\u{4ECE}','\u{6C31}','\u{201F2}','\u{4F39}','\u{549C}',
    '\u{54DA}','\u{529A}','\u{8D82}','\u{35FE}','\u{5F0C}','\u{35F3}','�','\u{6B52}',
    '\u{917C}','\u{9FA5}','\u{9B97}','\u{982E}','\u{98B4}','\u{9ABA}','\u{9EA8}','\u{9E84}',
    '\u{717A}','\u{7B14}','�','\u{6BFA}','\u{8818}','\u{7F78}','�','\u{5620}',
    '\u{2A64A}','\u{8E77}','\u{9F53}','�','\u{8DD4}','\u{8E4F}','\u{9E1C}','\u{8E01}',
    '\u{6282}','\u{2837D}','\u{8E28}','\u{8E75}','\u{7AD3}','\u{24A77}','\u{7A3E}','\u{78D8}',
    '\u{6CEA}','\u{8A67}','\u{7607}','\u{28A5A}','\u{9F26}','\u{6CCE}','\u{87D6}','\u{75C3}',
    '\u{2A2B2}','\u{7853}','\u{2F840}','\u{8D0C}','\u{72E2}','\u{7371}','\u{8B2D}','\u{7302}',
    '\u{74F1}','\u{8CEB}','\u{24ABB}','\u{862F}','\u{5FBA}','\u{88A0}','\u{44B7}','�',
    '\u{2183B}','\u{26E05}','�','\u{8A7E}','\u{2251B}','�','\u{60FD}','\u{7667}',
    '\u{9AD7}','\u{9D44}','\u{936E}','\u{9B8F}','\u{87F5}','�','\u{880F}','\u{8CF7}',
    '\u{732C}','\u{9721}','\u{9BB0}','\u{35D6}','\u{72B2}','\u{4C07}','\u{7C51}','\u{994A}',
    '\u{26159}','\u{6159}','\u{4C04}','\u{9E96}','\u{617D}','�','\u{575F}','\u{616F}',
    '\u{62A6}','\u{6239}','\u{62CE}','\u{3A5C}','\u{61E2}','\u{53AA}','\u{233F5}','\u{6364}',
    '\u{6802}','\u{35D2}','\u{5D57}','\u{28BC2}','\u{8FDA}','\u{28E39}','�','\u{50D9}',
    '\u{21D46}','\u{7906}','\u{5332}','\u{9638}','\u{20F3B}','\u{4065}','�','\u{77FE}',
    '�','\u{7CC2}','\u{25F1A}','\u{7CDA}','\u{7A2D}','\u{8066}','\u{8063}','\u{7D4D}',
    '\u{7505}','\u{74F2}','\u{8994}','\u{821A}','\u{670C}','\u{8062}','\u{27486}','\u{805B}',
    '\u{74F0}','\u{8103}','\u{7724}','\u{8989}','\u{267CC}','\u{7553}','\u{26ED1}','\u{87A9}',
    '\u{87CE}','\u{81C8}','\u{878C}','\u{8A49}','\u{8CAD}','\u{8B43}','\u{772B}','\u{74F8}',
    '\u{84DA}','\u{3635}','\u{69B2}','\u{8DA6}','�','\u{89A9}','\u{7468}','\u{6DB9}',
    '\u{87C1}','\u{24011}','\u{74E7}','\u{3DDB}','\u{7176}','\u{60A4}','\u{619C}','\u{3CD1}',
    '\u{7162}','\u{6077}','�','\u{7F71}','\u{28B2D}','\u{7250}','\u{60E9}','\u{4B7E}',
    '\u{5220}','\u{3C18}','\u{23CC7}','\u{25ED7}','\u{27656}','\u{25531}','\u{21944}','\u{212FE}',
    '\u{29903}','\u{26DDC}','\u{270AD}','\u{5CC1}','\u{261AD}','\u{28A0F}','\u{23677}','\u{200EE}',
    '\u{26846}','\u{24F0E}','\u{4562}','\u{5B1F}','\u{2634C}','\u{9F50}','\u{9EA6}','\u{2626B}',
"#

/-- src/generated/whatwg/big5_whatwg_tables.rs.inc:633-789 -/
noncomputable def decode4 : List Text := lines! r#"    '\u{3000}','\u{FF0C}','\u{3001}','\u{3002}','\u{FF0E}','\u{2027}','\u{FF1B}','\u{FF1A}',
    '\u{FF1F}','\u{FF01}','\u{FE30}','\u{2026}','\u{2025}','\u{FE50}','\u{FE51}','\u{FE52}',
    '\u{00B7}','\u{FE54}','\u{FE55}','\u{FE56}','\u{FE57}','\u{FF5C}','\u{2013}','\u{FE31}',
    '\u{2014}','\u{FE33}','\u{2574}','\u{FE34}','\u{FE4F}','\u{FF08}','\u{FF09}','\u{FE35}',
    '\u{FE36}','\u{FF5B}','\u{FF5D}','\u{FE37}','\u{FE38}','\u{3014}','\u{3015}','\u{FE39}',
    '\u{FE3A}','\u{3010}','\u{3011}','\u{FE3B}','\u{FE3C}','\u{300A}','\u{300B}','\u{FE3D}',
    '\u{FE3E}','\u{3008}','\u{3009}','\u{FE3F}','\u{FE40}','\u{300C}','\u{300D}','\u{FE41}',
    '\u{FE42}','\u{300E}','\u{300F}','\u{FE43}','\u{FE44}','\u{FE59}','\u{FE5A}','\u{FE5B}',
    '\u{FE5C}','\u{FE5D}','\u{FE5E}','\u{2018}','\u{2019}','\u{201C}','\u{201D}','\u{301D}',
    '\u{301E}','\u{2035}','\u{2032}','\u{FF03}','\u{FF06}','\u{FF0A}','\u{203B}','\u{00A7}',
    '\u{3003}','\u{25CB}','\u{25CF}','\u{25B3}','\u{25B2}','\u{25CE}','\u{2606}','\u{2605}',
    '\u{25C7}','\u{25C6}','\u{25A1}','\u{25A0}','\u{25BD}','\u{25BC}','\u{32A3}','\u{2105}',
    '\u{00AF}','\u{FFE3}','\u{FF3F}','\u{02CD}','\u{FE49}','\u{FE4A}','\u{FE4D}','\u{FE4E}',
    '\u{FE4B}','\u{FE4C}','\u{FE5F}','\u{FE60}','\u{FE61}','\u{FF0B}','\u{FF0D}','\u{00D7}',
    '\u{00F7}','\u{00B1}','\u{221A}','\u{FF1C}','\u{FF1E}','\u{FF1D}','\u{2266}','\u{2267}',
    '\u{2260}','\u{221E}','\u{2252}','\u{2261}','\u{FE62}','\u{FE63}','\u{FE64}','\u{FE65}',
    '\u{FE66}','\u{FF5E}','\u{2229}','\u{222A}','\u{22A5}','\u{2220}','\u{221F}','\u{22BF}',
    '\u{33D2}','\u{33D1}','\u{222B}','\u{222E}','\u{2235}','\u{2234}','\u{2640}','\u{2642}',
    '\u{2295}','\u{2299}','\u{2191}','\u{2193}','\u{2190}','\u{2192}','\u{2196}','\u{2197}',
    '\u{2199}','\u{2198}','\u{2225}','\u{2223}','\u{FF0F}','\u{FF3C}','\u{2215}','\u{FE68}',
    '\u{FF04}','\u{FFE5}','\u{3012}','\u{FFE0}','\u{FFE1}','\u{FF05}','\u{FF20}','\u{2103}',
    '\u{2109}','\u{FE69}','\u{FE6A}','\u{FE6B}','\u{33D5}','\u{339C}','\u{339D}','\u{339E}',
    '\u{33CE}','\u{33A1}','\u{338E}','\u{338F}','\u{33C4}','\u{00B0}','\u{5159}','\u{515B}',
    '\u{515E}','\u{515D}','\u{5161}','\u{5163}','\u{55E7}','\u{74E9}','\u{7CCE}','\u{2581}',
    '\u{2582}','\u{2583}','\u{2584}','\u{2585}','\u{2586}','\u{2587}','\u{2588}','\u{258F}',
    '\u{258E}','\u{258D}','\u{258C}','\u{258B}','\u{258A}','\u{2589}','\u{253C}','\u{2534}',
    '\u{252C}','\u{2524}','\u{251C}','\u{2594}','\u{2500}','\u{2502}','\u{2595}','\u{250C}',
    '\u{2510}','\u{2514}','\u{2518}','\u{256D}','\u{256E}','\u{2570}','\u{256F}','\u{2550}',
    '\u{255E}','\u{256A}','\u{2561}','\u{25E2}','\u{25E3}','\u{25E5}','\u{25E4}','\u{2571}',
    '\u{2572}','\u{2573}','\u{FF10}','\u{FF11}','\u{FF12}','\u{FF13}','\u{FF14}','\u{FF15}',
    '\u{FF16}','\u{FF17}','\u{FF18}','\u{FF19}','\u{2160}','\u{2161}','\u{2162}','\u{2163}',
    '\u{2164}','\u{2165}','\u{2166}','\u{2167}','\u{2168}','\u{2169}','\u{3021}','\u{3022}',
    '\u{3023}','\u{3024}','\u{3025}','\u{3026}','\u{3027}','\u{3028}','\u{3029}','\u{5341}',
    '\u{5344}','\u{5345}','\u{FF21}','\u{FF22}','\u{FF23}','\u{FF24}','\u{FF25}','\u{FF26}',
    '\u{FF27}','\u{FF28}','\u{FF29}','\u{FF2A}','\u{FF2B}','\u{FF2C}','\u{FF2D}','\u{FF2E}',
    '\u{FF2F}','\u{FF30}','\u{FF31}','\u{FF32}','\u{FF33}','\u{FF34}','\u{FF35}','\u{FF36}',
    '\u{FF37}','\u{FF38}','\u{FF39}','\u{FF3A}','\u{FF41}','\u{FF42}','\u{FF43}','\u{FF44}',
    '\u{FF45}','\u{FF46}','\u{FF47}','\u{FF48}','\u{FF49}','\u{FF4A}','\u{FF4B}','\u{FF4C}',
    '\u{FF4D}','\u{FF4E}','\u{FF4F}','\u{FF50}','\u{FF51}','\u{FF52}','\u{FF53}','\u{FF54}',
    '\u{FF55}','\u{FF56}','\u{FF57}','\u{FF58}','\u{FF59}','\u{FF5A}','\u{0391}','\u{0392}',
    '\u{0393}','\u{0394}','\u{0395}','\u{0396}','\u{0397}','\u{0398}','\u{0399}','\u{039A}',
    '\u{039B}','\u{039C}','\u{039D}','\u{039E}','\u{039F}','\u{03A0}','\u{03A1}','\u{03A3}',
    '\u{03A4}','\u{03A5}','\u{03A6}','\u{03A7}','\u{03A8}','\u{03A9}','\u{03B1}','\u{03B2}',
    '\u{03B3}','\u{03B4}','\u{03B5}','\u{03B6}','\u{03B7}','\u{03B8}','\u{03B9}','\u{03BA}',
    '\u{03BB}','\u{03BC}','\u{03BD}','\u{03BE}','\u{03BF}','\u{03C0}','\u{03C1}','\u{03C3}',
    '\u{03C4}','\u{03C5}','\u{03C6}','\u{03C7}','\u{03C8}','\u{03C9}','\u{3105}','\u{3106}',
    '\u{3107}','\u{3108}','\u{3109}','\u{310A}','\u{310B}','\u{310C}','\u{310D}','\u{310E}',
    '\u{310F}','\u{3110}','\u{3111}','\u{3112}','\u{3113}','\u{3114}','\u{3115}','\u{3116}',
    '\u{3117}','\u{3118}','\u{3119}','\u{311A}','\u{311B}','\u{311C}','\u{311D}','\u{311E}',
    '\u{311F}','\u{3120}','\u{3121}','\u{3122}','\u{3123}','\u{3124}','\u{3125}','\u{3126}',
    '\u{3127}','\u{3128}','\u{3129}','\u{02D9}','\u{02C9}','\u{02CA}','\u{02C7}','\u{02CB}',
    '\u{2400}','\u{2401}','\u{2402}','\u{2403}','\u{2404}','\u{2405}','\u{2406}','\u{2407}',
    '\u{2408}','\u{2409}','\u{240A}','\u{240B}','\u{240C}','\u{240D}','\u{240E}','\u{240F}',
    '\u{2410}','\u{2411}','\u{2412}','\u{2413}','\u{2414}','\u{2415}','\u{2416}','\u{2417}',
    '\u{2418}','\u{2419}','\u{241A}','\u{241B}','\u{241C}','\u{241D}','\u{241E}','\u{241F}',
    '\u{2421}','\u{20AC}','�','�','�','�','�','�',
    '�','�','�','�','�','�','�','�',
    '�','�','�','�','�','�','�','�',
    '�','�','�','�','�','�','�','\u{4E00}',
    '\u{4E59}','\u{4E01}','\u{4E03}','\u{4E43}','\u{4E5D}','\u{4E86}','\u{4E8C}','\u{4EBA}',
    '\u{513F}','\u{5165}','\u{516B}','\u{51E0}','\u{5200}','\u{5201}','\u{529B}','\u{5315}',
    '\u{5341}','\u{535C}','\u{53C8}','\u{4E09}','\u{4E0B}','\u{4E08}','\u{4E0A}','\u{4E2B}',
    '\u{4E38}','\u{51E1}','\u{4E45}','\u{4E48}','\u{4E5F}','\u{4E5E}','\u{4E8E}','\u{4EA1}',
    '\u{5140}','\u{5203}','\u{52FA}','\u{5343}','\u{53C9}','\u{53E3}','\u{571F}','\u{58EB}',
    '\u{5915}','\u{5927}','\u{5973}','\u{5B50}','\u{5B51}','\u{5B53}','\u{5BF8}','\u{5C0F}',
    '\u{5C22}','\u{5C38}','\u{5C71}','\u{5DDD}','\u{5DE5}','\u{5DF1}','\u{5DF2}','\u{5DF3}',
    '\u{5DFE}','\u{5E72}','\u{5EFE}','\u{5F0B}','\u{5F13}','\u{624D}','\u{4E11}','\u{4E10}',
    '\u{4E0D}','\u{4E2D}','\u{4E30}','\u{4E39}','\u{4E4B}','\u{5C39}','\u{4E88}','\u{4E91}',
    '\u{4E95}','\u{4E92}','\u{4E94}','\u{4EA2}','\u{4EC1}','\u{4EC0}','\u{4EC3}','\u{4EC6}',
    '\u{4EC7}','\u{4ECD}','\u{4ECA}','\u{4ECB}','\u{4EC4}','\u{5143}','\u{5141}','\u{5167}',
    '\u{516D}','\u{516E}','\u{516C}','\u{5197}','\u{51F6}','\u{5206}','\u{5207}','\u{5208}',
    '\u{52FB}','\u{52FE}','\u{52FF}','\u{5316}','\u{5339}','\u{5348}','\u{5347}','\u{5345}',
    '\u{535E}','\u{5384}','\u{53CB}','\u{53CA}','\u{53CD}','\u{58EC}','\u{5929}','\u{592B}',
    '\u{592A}','\u{592D}','\u{5B54}','\u{5C11}','\u{5C24}','\u{5C3A}','\u{5C6F}','\u{5DF4}',
    '\u{5E7B}','\u{5EFF}','\u{5F14}','\u{5F15}','\u{5FC3}','\u{6208}','\u{6236}','\u{624B}',
    '\u{624E}','\u{652F}','\u{6587}','\u{6597}','\u{65A4}','\u{65B9}','\u{65E5}','\u{66F0}',
    '\u{6708}','\u{6728}','\u{6B20}','\u{6B62}','\u{6B79}','\u{6BCB}','\u{6BD4}','\u{6BDB}',
    '\u{6C0F}','\u{6C34}','\u{706B}','\u{722A}','\u{7236}','\u{723B}','\u{7247}','\u{7259}',
    '\u{725B}','\u{72AC}','\u{738B}','\u{4E19}','\u{4E16}','\u{4E15}','\u{4E14}','\u{4E18}',
    '\u{4E3B}','\u{4E4D}','\u{4E4F}','\u{4E4E}','\u{4EE5}','\u{4ED8}','\u{4ED4}','\u{4ED5}',
    '\u{4ED6}','\u{4ED7}','\u{4EE3}','\u{4EE4}','\u{4ED9}','\u{4EDE}','\u{5145}','\u{5144}',
    '\u{5189}','\u{518A}','\u{51AC}','\u{51F9}','\u{51FA}','\u{51F8}','\u{520A}','\u{52A0}',
    '\u{529F}','\u{5305}','\u{5306}','\u{5317}','\u{531D}','\u{4EDF}','\u{534A}','\u{5349}',
    '\u{5361}','\u{5360}','\u{536F}','\u{536E}','\u{53BB}','\u{53EF}','\u{53E4}','\u{53F3}',
    '\u{53EC}','\u{53EE}','\u{53E9}','\u{53E8}','\u{53FC}','\u{53F8}','\u{53F5}','\u{53EB}',
    '\u{53E6}','\u{53EA}','\u{53F2}','\u{53F1}','\u{53F0}','\u{53E5}','\u{53ED}','\u{53FB}',
    '\u{56DB}','\u{56DA}','\u{5916}','\u{592E}','\u{5931}','\u{5974}','\u{5976}','\u{5B55}',
    '\u{5B83}','\u{5C3C}','\u{5DE8}','\u{5DE7}','\u{5DE6}','\u{5E02}','\u{5E03}','\u{5E73}',
    '\u{5E7C}','\u{5F01}','\u{5F18}','\u{5F17}','\u{5FC5}','\u{620A}','\u{6253}','\u{6254}',
    '\u{6252}','\u{6251}','\u{65A5}','\u{65E6}','\u{672E}','\u{672C}','\u{672A}','\u{672B}',
    '\u{672D}','\u{6B63}','\u{6BCD}','\u{6C11}','\u{6C10}','\u{6C38}','\u{6C41}','\u{6C40}',
    '\u{6C3E}','\u{72AF}','\u{7384}','\u{7389}','\u{74DC}','\u{74E6}','\u{7518}','\u{751F}',
    '\u{7528}','\u{7529}','\u{7530}','\u{7531}','\u{7532}','\u{7533}','\u{758B}','\u{767D}',
    '\u{76AE}','\u{76BF}','\u{76EE}','\u{77DB}','\u{77E2}','\u{77F3}','\u{793A}','\u{79BE}',
    '\u{7A74}','\u{7ACB}','\u{4E1E}','\u{4E1F}','\u{4E52}','\u{4E53}','\u{4E69}','\u{4E99}',
    '\u{4EA4}','\u{4EA6}','\u{4EA5}','\u{4EFF}','\u{4F09}','\u{4F19}','\u{4F0A}','\u{4F15}',
    '\u{4F0D}','\u{4F10}','\u{4F11}','\u{4F0F}','\u{4EF2}','\u{4EF6}','\u{4EFB}','\u{4EF0}',
    '\u{4EF3}','\u{4EFD}','\u{4F01}','\u{4F0B}','\u{5149}','\u{5147}','\u{5146}','\u{5148}',
    '\u{5168}','\u{5171}','\u{518D}','\u{51B0}','\u{5217}','\u{5211}','\u{5212}','\u{520E}',
    '\u{5216}','\u{52A3}','\u{5308}','\u{5321}','\u{5320}','\u{5370}','\u{5371}','\u{5409}',
    '\u{540F}','\u{540C}','\u{540A}','\u{5410}','\u{5401}','\u{540B}','\u{5404}','\u{5411}',
    '\u{540D}','\u{5408}','\u{5403}','\u{540E}','\u{5406}','\u{5412}','\u{56E0}','\u{56DE}',
    '\u{56DD}','\u{5733}','\u{5730}','\u{5728}','\u{572D}','\u{572C}','\u{572F}','\u{5729}',
    '\u{5919}','\u{591A}','\u{5937}','\u{5938}','\u{5984}','\u{5978}','\u{5983}','\u{597D}',
    '\u{5979}','\u{5982}','\u{5981}','\u{5B57}','\u{5B58}','\u{5B87}','\u{5B88}','\u{5B85}',
    '\u{5B89}','\u{5BFA}','\u{5C16}','\u{5C79}','\u{5DDE}','\u{5E06}','\u{5E76}','\u{5E74}',
    '\u{5F0F}','\u{5F1B}','\u{5FD9}','\u{5FD6}','\u{620E}','\u{620C}','\u{620D}','\u{6210}',
    '\u{6263}','\u{625B}','\u{6258}','\u{6536}','\u{65E9}','\u{65E8}','\u{65EC}','\u{65ED}',
    '\u{66F2}','\u{66F3}','\u{6709}','\u{673D}','\u{6734}','\u{6731}','\u{6735}','\u{6B21}',
    '\u{6B64}','\u{6B7B}','\u{6C16}','\u{6C5D}','\u{6C57}','\u{6C59}','\u{6C5F}','\u{6C60}',
    '\u{6C50}','\u{6C55}','\u{6C61}','\u{6C5B}','\u{6C4D}','\u{6C4E}','\u{7070}','\u{725F}',
    '\u{725D}','\u{767E}','\u{7AF9}','\u{7C73}','\u{7CF8}','\u{7F36}','\u{7F8A}','\u{7FBD}',
    '\u{8001}','\u{8003}','\u{800C}','\u{8012}','\u{8033}','\u{807F}','\u{8089}','\u{808B}',
    '\u{808C}','\u{81E3}','\u{81EA}','\u{81F3}','\u{81FC}','\u{820C}','\u{821B}','\u{821F}',
    '\u{826E}','\u{8272}','\u{827E}','\u{866B}','\u{8840}','\u{884C}','\u{8863}','\u{897F}',
    '\u{9621}','\u{4E32}','\u{4EA8}','\u{4F4D}','\u{4F4F}','\u{4F47}','\u{4F57}','\u{4F5E}',
    '\u{4F34}','\u{4F5B}','\u{4F55}','\u{4F30}','\u{4F50}','\u{4F51}','\u{4F3D}','\u{4F3A}',
    '\u{4F38}','\u{4F43}','\u{4F54}','\u{4F3C}','\u{4F46}','\u{4F63}','\u{4F5C}','\u{4F60}',
    '\u{4F2F}','\u{4F4E}','\u{4F36}','\u{4F59}','\u{4F5D}','\u{4F48}','\u{4F5A}','\u{514C}',
    '\u{514B}','\u{514D}','\u{5175}','\u{51B6}','\u{51B7}','\u{5225}','\u{5224}','\u{5229}',
    '\u{522A}','\u{5228}','\u{52AB}','\u{52A9}','\u{52AA}','\u{52AC}','\u{5323}','\u{5373}',
    '\u{5375}','\u{541D}','\u{542D}','\u{541E}','\u{543E}','\u{5426}','\u{544E}','\u{5427}',
    '\u{5446}','\u{5443}','\u{5433}','\u{5448}','\u{5442}','\u{541B}','\u{5429}','\u{544A}',
    '\u{5439}','\u{543B}','\u{5438}','\u{542E}','\u{5435}','\u{5436}','\u{5420}','\u{543C}',
    '\u{5440}','\u{5431}','\u{542B}','\u{541F}','\u{542C}','\u{56EA}','\u{56F0}','\u{56E4}',
    '\u{56EB}','\u{574A}','\u{5751}','\u{5740}','\u{574D}','\u{5747}','\u{574E}','\u{573E}',
    '\u{5750}','\u{574F}','\u{573B}','\u{58EF}','\u{593E}','\u{599D}','\u{5992}','\u{59A8}',
    '\u{599E}','\u{59A3}','\u{5999}','\u{5996}','\u{598D}','\u{59A4}','\u{5993}','\u{598A}',
    '\u{59A5}','\u{5B5D}','\u{5B5C}','\u{5B5A}','\u{5B5B}','\u{5B8C}','\u{5B8B}','\u{5B8F}',
    '\u{5C2C}','\u{5C40}','\u{5C41}','\u{5C3F}','\u{5C3E}','\u{5C90}','\u{5C91}','\u{5C94}',
    '\u{5C8C}','\u{5DEB}','\u{5E0C}','\u{5E8F}','\u{5E87}','\u{5E8A}','\u{5EF7}','\u{5F04}',
    '\u{5F1F}','\u{5F64}','\u{5F62}','\u{5F77}','\u{5F79}','\u{5FD8}','\u{5FCC}','\u{5FD7}',
    '\u{5FCD}','\u{5FF1}','\u{5FEB}','\u{5FF8}','\u{5FEA}','\u{6212}','\u{6211}','\u{6284}',
    '\u{6297}','\u{6296}','\u{6280}','\u{6276}','\u{6289}','\u{626D}','\u{628A}','\u{627C}',
    '\u{627E}','\u{6279}','\u{6273}','\u{6292}','\u{626F}','\u{6298}','\u{626E}','\u{6295}',
    '\u{6293}','\u{6291}','\u{6286}','\u{6539}','\u{653B}','\u{6538}','\u{65F1}','\u{66F4}',
    '\u{675F}','\u{674E}','\u{674F}','\u{6750}','\u{6751}','\u{675C}','\u{6756}','\u{675E}',
    '\u{6749}','\u{6746}','\u{6760}','\u{6753}','\u{6757}','\u{6B65}','\u{6BCF}','\u{6C42}',
    '\u{6C5E}','\u{6C99}','\u{6C81}','\u{6C88}','\u{6C89}','\u{6C85}','\u{6C9B}','\u{6C6A}',
    '\u{6C7A}','\u{6C90}','\u{6C70}','\u{6C8C}','\u{6C68}','\u{6C96}','\u{6C92}','\u{6C7D}',
    '\u{6C83}','\u{6C72}','\u{6C7E}','\u{6C74}','\u{6C86}','\u{6C76}','\u{6C8D}','\u{6C94}',
    '\u{6C98}','\u{6C82}','\u{7076}','\u{707C}','\u{707D}','\u{7078}','\u{7262}','\u{7261}',
    '\u{7260}','\u{72C4}','\u{72C2}','\u{7396}','\u{752C}','\u{752B}','\u{7537}','\u{7538}',
    '\u{7682}','\u{76EF}','\u{77E3}','\u{79C1}','\u{79C0}','\u{79BF}','\u{7A76}','\u{7CFB}',
    '\u{7F55}','\u{8096}','\u{8093}','\u{809D}','\u{8098}','\u{809B}','\u{809A}','\u{80B2}',
    '\u{826F}','\u{8292}','\u{828B}','\u{828D}','\u{898B}','\u{89D2}','\u{8A00}','\u{8C37}',
    '\u{8C46}','\u{8C55}','\u{8C9D}','\u{8D64}','\u{8D70}','\u{8DB3}','\u{8EAB}','\u{8ECA}',
    '\u{8F9B}','\u{8FB0}','\u{8FC2}','\u{8FC6}','\u{8FC5}','\u{8FC4}','\u{5DE1}','\u{9091}',
    '\u{90A2}','\u{90AA}','\u{90A6}','\u{90A3}','\u{9149}','\u{91C6}','\u{91CC}','\u{9632}',
    '\u{962E}','\u{9631}','\u{962A}','\u{962C}','\u{4E26}','\u{4E56}','\u{4E73}','\u{4E8B}',
    '\u{4E9B}','\u{4E9E}','\u{4EAB}','\u{4EAC}','\u{4F6F}','\u{4F9D}','\u{4F8D}','\u{4F73}',
    '\u{4F7F}','\u{4F6C}','\u{4F9B}','\u{4F8B}','\u{4F86}','\u{4F83}','\u{4F70}','\u{4F75}',
    '\u{4F88}','\u{4F69}','\u{4F7B}','\u{4F96}','\u{4F7E}','\u{4F8F}','\u{4F91}','\u{4F7A}',
    '\u{5154}','\u{5152}','\u{5155}','\u{5169}','\u{5177}','\u{5176}','\u{5178}','\u{51BD}',
    '\u{51FD}','\u{523B}','\u{5238}','\u{5237}','\u{523A}','\u{5230}','\u{522E}','\u{5236}',
    '\u{5241}','\u{52BE}','\u{52BB}','\u{5352}','\u{5354}','\u{5353}','\u{5351}','\u{5366}',
    '\u{5377}','\u{5378}','\u{5379}','\u{53D6}','\u{53D4}','\u{53D7}','\u{5473}','\u{5475}',
"#

/-- src/generated/whatwg/big5_whatwg_tables.rs.inc:790-946 -/
noncomputable def decode5 : List Text := lines! r#"    '\u{5496}','\u{5478}','\u{5495}','\u{5480}','\u{547B}','\u{5477}','\u{5484}','\u{5492}',
    '\u{5486}','\u{547C}','\u{5490}','\u{5471}','\u{5476}','\u{548C}','\u{549A}','\u{5462}',
    '\u{5468}','\u{548B}','\u{547D}','\u{548E}','\u{56FA}','\u{5783}','\u{5777}','\u{576A}',
    '\u{5769}','\u{5761}','\u{5766}','\u{5764}','\u{577C}','\u{591C}','\u{5949}','\u{5947}',
    '\u{5948}','\u{5944}','\u{5954}','\u{59BE}','\u{59BB}','\u{59D4}','\u{59B9}','\u{59AE}',
    '\u{59D1}','\u{59C6}','\u{59D0}','\u{59CD}','\u{59CB}','\u{59D3}','\u{59CA}','\u{59AF}',
    '\u{59B3}','\u{59D2}','\u{59C5}','\u{5B5F}','\u{5B64}','\u{5B63}','\u{5B97}','\u{5B9A}',
    '\u{5B98}','\u{5B9C}','\u{5B99}','\u{5B9B}','\u{5C1A}','\u{5C48}','\u{5C45}','\u{5C46}',
    '\u{5CB7}','\u{5CA1}','\u{5CB8}','\u{5CA9}','\u{5CAB}','\u{5CB1}','\u{5CB3}','\u{5E18}',
    '\u{5E1A}','\u{5E16}','\u{5E15}','\u{5E1B}','\u{5E11}','\u{5E78}','\u{5E9A}','\u{5E97}',
    '\u{5E9C}','\u{5E95}','\u{5E96}','\u{5EF6}','\u{5F26}','\u{5F27}','\u{5F29}','\u{5F80}',
    '\u{5F81}','\u{5F7F}','\u{5F7C}','\u{5FDD}','\u{5FE0}','\u{5FFD}','\u{5FF5}','\u{5FFF}',
    '\u{600F}','\u{6014}','\u{602F}','\u{6035}','\u{6016}','\u{602A}','\u{6015}','\u{6021}',
    '\u{6027}','\u{6029}','\u{602B}','\u{601B}','\u{6216}','\u{6215}','\u{623F}','\u{623E}',
    '\u{6240}','\u{627F}','\u{62C9}','\u{62CC}','\u{62C4}','\u{62BF}','\u{62C2}','\u{62B9}',
    '\u{62D2}','\u{62DB}','\u{62AB}','\u{62D3}','\u{62D4}','\u{62CB}','\u{62C8}','\u{62A8}',
    '\u{62BD}','\u{62BC}','\u{62D0}','\u{62D9}','\u{62C7}','\u{62CD}','\u{62B5}','\u{62DA}',
    '\u{62B1}','\u{62D8}','\u{62D6}','\u{62D7}','\u{62C6}','\u{62AC}','\u{62CE}','\u{653E}',
    '\u{65A7}','\u{65BC}','\u{65FA}','\u{6614}','\u{6613}','\u{660C}','\u{6606}','\u{6602}',
    '\u{660E}','\u{6600}','\u{660F}','\u{6615}','\u{660A}','\u{6607}','\u{670D}','\u{670B}',
    '\u{676D}','\u{678B}','\u{6795}','\u{6771}','\u{679C}','\u{6773}','\u{6777}','\u{6787}',
    '\u{679D}','\u{6797}','\u{676F}','\u{6770}','\u{677F}','\u{6789}','\u{677E}','\u{6790}',
    '\u{6775}','\u{679A}','\u{6793}','\u{677C}','\u{676A}','\u{6772}','\u{6B23}','\u{6B66}',
    '\u{6B67}','\u{6B7F}','\u{6C13}','\u{6C1B}','\u{6CE3}','\u{6CE8}','\u{6CF3}','\u{6CB1}',
    '\u{6CCC}','\u{6CE5}','\u{6CB3}','\u{6CBD}','\u{6CBE}','\u{6CBC}','\u{6CE2}','\u{6CAB}',
    '\u{6CD5}','\u{6CD3}','\u{6CB8}','\u{6CC4}','\u{6CB9}','\u{6CC1}','\u{6CAE}','\u{6CD7}',
    '\u{6CC5}','\u{6CF1}','\u{6CBF}','\u{6CBB}','\u{6CE1}','\u{6CDB}','\u{6CCA}','\u{6CAC}',
    '\u{6CEF}','\u{6CDC}','\u{6CD6}','\u{6CE0}','\u{7095}','\u{708E}','\u{7092}','\u{708A}',
    '\u{7099}','\u{722C}','\u{722D}','\u{7238}','\u{7248}','\u{7267}','\u{7269}','\u{72C0}',
    '\u{72CE}','\u{72D9}','\u{72D7}','\u{72D0}','\u{73A9}','\u{73A8}','\u{739F}','\u{73AB}',
    '\u{73A5}','\u{753D}','\u{759D}','\u{7599}','\u{759A}','\u{7684}','\u{76C2}','\u{76F2}',
    '\u{76F4}','\u{77E5}','\u{77FD}','\u{793E}','\u{7940}','\u{7941}','\u{79C9}','\u{79C8}',
    '\u{7A7A}','\u{7A79}','\u{7AFA}','\u{7CFE}','\u{7F54}','\u{7F8C}','\u{7F8B}','\u{8005}',
    '\u{80BA}','\u{80A5}','\u{80A2}','\u{80B1}','\u{80A1}','\u{80AB}','\u{80A9}','\u{80B4}',
    '\u{80AA}','\u{80AF}','\u{81E5}','\u{81FE}','\u{820D}','\u{82B3}','\u{829D}','\u{8299}',
    '\u{82AD}','\u{82BD}','\u{829F}','\u{82B9}','\u{82B1}','\u{82AC}','\u{82A5}','\u{82AF}',
    '\u{82B8}','\u{82A3}','\u{82B0}','\u{82BE}','\u{82B7}','\u{864E}','\u{8671}','\u{521D}',
    '\u{8868}','\u{8ECB}','\u{8FCE}','\u{8FD4}','\u{8FD1}','\u{90B5}','\u{90B8}','\u{90B1}',
    '\u{90B6}','\u{91C7}','\u{91D1}','\u{9577}','\u{9580}','\u{961C}','\u{9640}','\u{963F}',
    '\u{963B}','\u{9644}','\u{9642}','\u{96B9}','\u{96E8}','\u{9752}','\u{975E}','\u{4E9F}',
    '\u{4EAD}','\u{4EAE}','\u{4FE1}','\u{4FB5}','\u{4FAF}','\u{4FBF}','\u{4FE0}','\u{4FD1}',
    '\u{4FCF}','\u{4FDD}','\u{4FC3}','\u{4FB6}','\u{4FD8}','\u{4FDF}','\u{4FCA}','\u{4FD7}',
    '\u{4FAE}','\u{4FD0}','\u{4FC4}','\u{4FC2}','\u{4FDA}','\u{4FCE}','\u{4FDE}','\u{4FB7}',
    '\u{5157}','\u{5192}','\u{5191}','\u{51A0}','\u{524E}','\u{5243}','\u{524A}','\u{524D}',
    '\u{524C}','\u{524B}','\u{5247}','\u{52C7}','\u{52C9}','\u{52C3}','\u{52C1}','\u{530D}',
    '\u{5357}','\u{537B}','\u{539A}','\u{53DB}','\u{54AC}','\u{54C0}','\u{54A8}','\u{54CE}',
    '\u{54C9}','\u{54B8}','\u{54A6}','\u{54B3}','\u{54C7}','\u{54C2}','\u{54BD}','\u{54AA}',
    '\u{54C1}','\u{54C4}','\u{54C8}','\u{54AF}','\u{54AB}','\u{54B1}','\u{54BB}','\u{54A9}',
    '\u{54A7}','\u{54BF}','\u{56FF}','\u{5782}','\u{578B}','\u{57A0}','\u{57A3}','\u{57A2}',
    '\u{57CE}','\u{57AE}','\u{5793}','\u{5955}','\u{5951}','\u{594F}','\u{594E}','\u{5950}',
    '\u{59DC}','\u{59D8}','\u{59FF}','\u{59E3}','\u{59E8}','\u{5A03}','\u{59E5}','\u{59EA}',
    '\u{59DA}','\u{59E6}','\u{5A01}','\u{59FB}','\u{5B69}','\u{5BA3}','\u{5BA6}','\u{5BA4}',
    '\u{5BA2}','\u{5BA5}','\u{5C01}','\u{5C4E}','\u{5C4F}','\u{5C4D}','\u{5C4B}','\u{5CD9}',
    '\u{5CD2}','\u{5DF7}','\u{5E1D}','\u{5E25}','\u{5E1F}','\u{5E7D}','\u{5EA0}','\u{5EA6}',
    '\u{5EFA}','\u{5F08}','\u{5F2D}','\u{5F65}','\u{5F88}','\u{5F85}','\u{5F8A}','\u{5F8B}',
    '\u{5F87}','\u{5F8C}','\u{5F89}','\u{6012}','\u{601D}','\u{6020}','\u{6025}','\u{600E}',
    '\u{6028}','\u{604D}','\u{6070}','\u{6068}','\u{6062}','\u{6046}','\u{6043}','\u{606C}',
    '\u{606B}','\u{606A}','\u{6064}','\u{6241}','\u{62DC}','\u{6316}','\u{6309}','\u{62FC}',
    '\u{62ED}','\u{6301}','\u{62EE}','\u{62FD}','\u{6307}','\u{62F1}','\u{62F7}','\u{62EF}',
    '\u{62EC}','\u{62FE}','\u{62F4}','\u{6311}','\u{6302}','\u{653F}','\u{6545}','\u{65AB}',
    '\u{65BD}','\u{65E2}','\u{6625}','\u{662D}','\u{6620}','\u{6627}','\u{662F}','\u{661F}',
    '\u{6628}','\u{6631}','\u{6624}','\u{66F7}','\u{67FF}','\u{67D3}','\u{67F1}','\u{67D4}',
    '\u{67D0}','\u{67EC}','\u{67B6}','\u{67AF}','\u{67F5}','\u{67E9}','\u{67EF}','\u{67C4}',
    '\u{67D1}','\u{67B4}','\u{67DA}','\u{67E5}','\u{67B8}','\u{67CF}','\u{67DE}','\u{67F3}',
    '\u{67B0}','\u{67D9}','\u{67E2}','\u{67DD}','\u{67D2}','\u{6B6A}','\u{6B83}','\u{6B86}',
    '\u{6BB5}','\u{6BD2}','\u{6BD7}','\u{6C1F}','\u{6CC9}','\u{6D0B}','\u{6D32}','\u{6D2A}',
    '\u{6D41}','\u{6D25}','\u{6D0C}','\u{6D31}','\u{6D1E}','\u{6D17}','\u{6D3B}','\u{6D3D}',
    '\u{6D3E}','\u{6D36}','\u{6D1B}','\u{6CF5}','\u{6D39}','\u{6D27}','\u{6D38}','\u{6D29}',
    '\u{6D2E}','\u{6D35}','\u{6D0E}','\u{6D2B}','\u{70AB}','\u{70BA}','\u{70B3}','\u{70AC}',
    '\u{70AF}','\u{70AD}','\u{70B8}','\u{70AE}','\u{70A4}','\u{7230}','\u{7272}','\u{726F}',
    '\u{7274}','\u{72E9}','\u{72E0}','\u{72E1}','\u{73B7}','\u{73CA}','\u{73BB}','\u{73B2}',
    '\u{73CD}','\u{73C0}','\u{73B3}','\u{751A}','\u{752D}','\u{754F}','\u{754C}','\u{754E}',
    '\u{754B}','\u{75AB}','\u{75A4}','\u{75A5}','\u{75A2}','\u{75A3}','\u{7678}','\u{7686}',
    '\u{7687}','\u{7688}','\u{76C8}','\u{76C6}','\u{76C3}','\u{76C5}','\u{7701}','\u{76F9}',
    '\u{76F8}','\u{7709}','\u{770B}','\u{76FE}','\u{76FC}','\u{7707}','\u{77DC}','\u{7802}',
    '\u{7814}','\u{780C}','\u{780D}','\u{7946}','\u{7949}','\u{7948}','\u{7947}','\u{79B9}',
    '\u{79BA}','\u{79D1}','\u{79D2}','\u{79CB}','\u{7A7F}','\u{7A81}','\u{7AFF}','\u{7AFD}',
    '\u{7C7D}','\u{7D02}','\u{7D05}','\u{7D00}','\u{7D09}','\u{7D07}','\u{7D04}','\u{7D06}',
    '\u{7F38}','\u{7F8E}','\u{7FBF}','\u{8004}','\u{8010}','\u{800D}','\u{8011}','\u{8036}',
    '\u{80D6}','\u{80E5}','\u{80DA}','\u{80C3}','\u{80C4}','\u{80CC}','\u{80E1}','\u{80DB}',
    '\u{80CE}','\u{80DE}','\u{80E4}','\u{80DD}','\u{81F4}','\u{8222}','\u{82E7}','\u{8303}',
    '\u{8305}','\u{82E3}','\u{82DB}','\u{82E6}','\u{8304}','\u{82E5}','\u{8302}','\u{8309}',
    '\u{82D2}','\u{82D7}','\u{82F1}','\u{8301}','\u{82DC}','\u{82D4}','\u{82D1}','\u{82DE}',
    '\u{82D3}','\u{82DF}','\u{82EF}','\u{8306}','\u{8650}','\u{8679}','\u{867B}','\u{867A}',
    '\u{884D}','\u{886B}','\u{8981}','\u{89D4}','\u{8A08}','\u{8A02}','\u{8A03}','\u{8C9E}',
    '\u{8CA0}','\u{8D74}','\u{8D73}','\u{8DB4}','\u{8ECD}','\u{8ECC}','\u{8FF0}','\u{8FE6}',
    '\u{8FE2}','\u{8FEA}','\u{8FE5}','\u{8FED}','\u{8FEB}','\u{8FE4}','\u{8FE8}','\u{90CA}',
    '\u{90CE}','\u{90C1}','\u{90C3}','\u{914B}','\u{914A}','\u{91CD}','\u{9582}','\u{9650}',
    '\u{964B}','\u{964C}','\u{964D}','\u{9762}','\u{9769}','\u{97CB}','\u{97ED}','\u{97F3}',
    '\u{9801}','\u{98A8}','\u{98DB}','\u{98DF}','\u{9996}','\u{9999}','\u{4E58}','\u{4EB3}',
    '\u{500C}','\u{500D}','\u{5023}','\u{4FEF}','\u{5026}','\u{5025}','\u{4FF8}','\u{5029}',
    '\u{5016}','\u{5006}','\u{503C}','\u{501F}','\u{501A}','\u{5012}','\u{5011}','\u{4FFA}',
    '\u{5000}','\u{5014}','\u{5028}','\u{4FF1}','\u{5021}','\u{500B}','\u{5019}','\u{5018}',
    '\u{4FF3}','\u{4FEE}','\u{502D}','\u{502A}','\u{4FFE}','\u{502B}','\u{5009}','\u{517C}',
    '\u{51A4}','\u{51A5}','\u{51A2}','\u{51CD}','\u{51CC}','\u{51C6}','\u{51CB}','\u{5256}',
    '\u{525C}','\u{5254}','\u{525B}','\u{525D}','\u{532A}','\u{537F}','\u{539F}','\u{539D}',
    '\u{53DF}','\u{54E8}','\u{5510}','\u{5501}','\u{5537}','\u{54FC}','\u{54E5}','\u{54F2}',
    '\u{5506}','\u{54FA}','\u{5514}','\u{54E9}','\u{54ED}','\u{54E1}','\u{5509}','\u{54EE}',
    '\u{54EA}','\u{54E6}','\u{5527}','\u{5507}','\u{54FD}','\u{550F}','\u{5703}','\u{5704}',
    '\u{57C2}','\u{57D4}','\u{57CB}','\u{57C3}','\u{5809}','\u{590F}','\u{5957}','\u{5958}',
    '\u{595A}','\u{5A11}','\u{5A18}','\u{5A1C}','\u{5A1F}','\u{5A1B}','\u{5A13}','\u{59EC}',
    '\u{5A20}','\u{5A23}','\u{5A29}','\u{5A25}','\u{5A0C}','\u{5A09}','\u{5B6B}','\u{5C58}',
    '\u{5BB0}','\u{5BB3}','\u{5BB6}','\u{5BB4}','\u{5BAE}','\u{5BB5}','\u{5BB9}','\u{5BB8}',
    '\u{5C04}','\u{5C51}','\u{5C55}','\u{5C50}','\u{5CED}','\u{5CFD}','\u{5CFB}','\u{5CEA}',
    '\u{5CE8}','\u{5CF0}','\u{5CF6}','\u{5D01}','\u{5CF4}','\u{5DEE}','\u{5E2D}','\u{5E2B}',
    '\u{5EAB}','\u{5EAD}','\u{5EA7}','\u{5F31}','\u{5F92}','\u{5F91}','\u{5F90}','\u{6059}',
    '\u{6063}','\u{6065}','\u{6050}','\u{6055}','\u{606D}','\u{6069}','\u{606F}','\u{6084}',
    '\u{609F}','\u{609A}','\u{608D}','\u{6094}','\u{608C}','\u{6085}','\u{6096}','\u{6247}',
    '\u{62F3}','\u{6308}','\u{62FF}','\u{634E}','\u{633E}','\u{632F}','\u{6355}','\u{6342}',
    '\u{6346}','\u{634F}','\u{6349}','\u{633A}','\u{6350}','\u{633D}','\u{632A}','\u{632B}',
    '\u{6328}','\u{634D}','\u{634C}','\u{6548}','\u{6549}','\u{6599}','\u{65C1}','\u{65C5}',
    '\u{6642}','\u{6649}','\u{664F}','\u{6643}','\u{6652}','\u{664C}','\u{6645}','\u{6641}',
    '\u{66F8}','\u{6714}','\u{6715}','\u{6717}','\u{6821}','\u{6838}','\u{6848}','\u{6846}',
    '\u{6853}','\u{6839}','\u{6842}','\u{6854}','\u{6829}','\u{68B3}','\u{6817}','\u{684C}',
    '\u{6851}','\u{683D}','\u{67F4}','\u{6850}','\u{6840}','\u{683C}','\u{6843}','\u{682A}',
    '\u{6845}','\u{6813}','\u{6818}','\u{6841}','\u{6B8A}','\u{6B89}','\u{6BB7}','\u{6C23}',
    '\u{6C27}','\u{6C28}','\u{6C26}','\u{6C24}','\u{6CF0}','\u{6D6A}','\u{6D95}','\u{6D88}',
    '\u{6D87}','\u{6D66}','\u{6D78}','\u{6D77}','\u{6D59}','\u{6D93}','\u{6D6C}','\u{6D89}',
    '\u{6D6E}','\u{6D5A}','\u{6D74}','\u{6D69}','\u{6D8C}','\u{6D8A}','\u{6D79}','\u{6D85}',
    '\u{6D65}','\u{6D94}','\u{70CA}','\u{70D8}','\u{70E4}','\u{70D9}','\u{70C8}','\u{70CF}',
    '\u{7239}','\u{7279}','\u{72FC}','\u{72F9}','\u{72FD}','\u{72F8}','\u{72F7}','\u{7386}',
    '\u{73ED}','\u{7409}','\u{73EE}','\u{73E0}','\u{73EA}','\u{73DE}','\u{7554}','\u{755D}',
    '\u{755C}','\u{755A}','\u{7559}','\u{75BE}','\u{75C5}','\u{75C7}','\u{75B2}','\u{75B3}',
    '\u{75BD}','\u{75BC}','\u{75B9}','\u{75C2}','\u{75B8}','\u{768B}','\u{76B0}','\u{76CA}',
    '\u{76CD}','\u{76CE}','\u{7729}','\u{771F}','\u{7720}','\u{7728}','\u{77E9}','\u{7830}',
    '\u{7827}','\u{7838}','\u{781D}','\u{7834}','\u{7837}','\u{7825}','\u{782D}','\u{7820}',
    '\u{781F}','\u{7832}','\u{7955}','\u{7950}','\u{7960}','\u{795F}','\u{7956}','\u{795E}',
    '\u{795D}','\u{7957}','\u{795A}','\u{79E4}','\u{79E3}','\u{79E7}','\u{79DF}','\u{79E6}',
    '\u{79E9}','\u{79D8}','\u{7A84}','\u{7A88}','\u{7AD9}','\u{7B06}','\u{7B11}','\u{7C89}',
    '\u{7D21}','\u{7D17}','\u{7D0B}','\u{7D0A}','\u{7D20}','\u{7D22}','\u{7D14}','\u{7D10}',
    '\u{7D15}','\u{7D1A}','\u{7D1C}','\u{7D0D}','\u{7D19}','\u{7D1B}','\u{7F3A}','\u{7F5F}',
    '\u{7F94}','\u{7FC5}','\u{7FC1}','\u{8006}','\u{8018}','\u{8015}','\u{8019}','\u{8017}',
    '\u{803D}','\u{803F}','\u{80F1}','\u{8102}','\u{80F0}','\u{8105}','\u{80ED}','\u{80F4}',
    '\u{8106}','\u{80F8}','\u{80F3}','\u{8108}','\u{80FD}','\u{810A}','\u{80FC}','\u{80EF}',
    '\u{81ED}','\u{81EC}','\u{8200}','\u{8210}','\u{822A}','\u{822B}','\u{8228}','\u{822C}',
    '\u{82BB}','\u{832B}','\u{8352}','\u{8354}','\u{834A}','\u{8338}','\u{8350}','\u{8349}',
    '\u{8335}','\u{8334}','\u{834F}','\u{8332}','\u{8339}','\u{8336}','\u{8317}','\u{8340}',
    '\u{8331}','\u{8328}','\u{8343}','\u{8654}','\u{868A}','\u{86AA}','\u{8693}','\u{86A4}',
    '\u{86A9}','\u{868C}','\u{86A3}','\u{869C}','\u{8870}','\u{8877}','\u{8881}','\u{8882}',
    '\u{887D}','\u{8879}','\u{8A18}','\u{8A10}','\u{8A0E}','\u{8A0C}','\u{8A15}','\u{8A0A}',
    '\u{8A17}','\u{8A13}','\u{8A16}','\u{8A0F}','\u{8A11}','\u{8C48}','\u{8C7A}','\u{8C79}',
    '\u{8CA1}','\u{8CA2}','\u{8D77}','\u{8EAC}','\u{8ED2}','\u{8ED4}','\u{8ECF}','\u{8FB1}',
    '\u{9001}','\u{9006}','\u{8FF7}','\u{9000}','\u{8FFA}','\u{8FF4}','\u{9003}','\u{8FFD}',
    '\u{9005}','\u{8FF8}','\u{9095}','\u{90E1}','\u{90DD}','\u{90E2}','\u{9152}','\u{914D}',
    '\u{914C}','\u{91D8}','\u{91DD}','\u{91D7}','\u{91DC}','\u{91D9}','\u{9583}','\u{9662}',
    '\u{9663}','\u{9661}','\u{965B}','\u{965D}','\u{9664}','\u{9658}','\u{965E}','\u{96BB}',
    '\u{98E2}','\u{99AC}','\u{9AA8}','\u{9AD8}','\u{9B25}','\u{9B32}','\u{9B3C}','\u{4E7E}',
    '\u{507A}','\u{507D}','\u{505C}','\u{5047}','\u{5043}','\u{504C}','\u{505A}','\u{5049}',
    '\u{5065}','\u{5076}','\u{504E}','\u{5055}','\u{5075}','\u{5074}','\u{5077}','\u{504F}',
    '\u{500F}','\u{506F}','\u{506D}','\u{515C}','\u{5195}','\u{51F0}','\u{526A}','\u{526F}',
    '\u{52D2}','\u{52D9}','\u{52D8}','\u{52D5}','\u{5310}','\u{530F}','\u{5319}','\u{533F}',
    '\u{5340}','\u{533E}','\u{53C3}','\u{66FC}','\u{5546}','\u{556A}','\u{5566}','\u{5544}',
    '\u{555E}','\u{5561}','\u{5543}','\u{554A}','\u{5531}','\u{5556}','\u{554F}','\u{5555}',
    '\u{552F}','\u{5564}','\u{5538}','\u{552E}','\u{555C}','\u{552C}','\u{5563}','\u{5533}',
    '\u{5541}','\u{5557}','\u{5708}','\u{570B}','\u{5709}','\u{57DF}','\u{5805}','\u{580A}',
    '\u{5806}','\u{57E0}','\u{57E4}','\u{57FA}','\u{5802}','\u{5835}','\u{57F7}','\u{57F9}',
    '\u{5920}','\u{5962}','\u{5A36}','\u{5A41}','\u{5A49}','\u{5A66}','\u{5A6A}','\u{5A40}',
"#

/-- src/generated/whatwg/big5_whatwg_tables.rs.inc:947-1103 -/
noncomputable def decode6 : List Text := lines! r#"    '\u{5A3C}','\u{5A62}','\u{5A5A}','\u{5A46}','\u{5A4A}','\u{5B70}','\u{5BC7}','\u{5BC5}',
    '\u{5BC4}','\u{5BC2}','\u{5BBF}','\u{5BC6}','\u{5C09}','\u{5C08}','\u{5C07}','\u{5C60}',
    '\u{5C5C}','\u{5C5D}','\u{5D07}','\u{5D06}','\u{5D0E}','\u{5D1B}','\u{5D16}','\u{5D22}',
    '\u{5D11}','\u{5D29}','\u{5D14}','\u{5D19}','\u{5D24}','\u{5D27}','\u{5D17}','\u{5DE2}',
    '\u{5E38}','\u{5E36}','\u{5E33}','\u{5E37}','\u{5EB7}','\u{5EB8}','\u{5EB6}','\u{5EB5}',
    '\u{5EBE}','\u{5F35}','\u{5F37}','\u{5F57}','\u{5F6C}','\u{5F69}','\u{5F6B}','\u{5F97}',
    '\u{5F99}','\u{5F9E}','\u{5F98}','\u{5FA1}','\u{5FA0}','\u{5F9C}','\u{607F}','\u{60A3}',
    '\u{6089}','\u{60A0}','\u{60A8}','\u{60CB}','\u{60B4}','\u{60E6}','\u{60BD}','\u{60C5}',
    '\u{60BB}','\u{60B5}','\u{60DC}','\u{60BC}','\u{60D8}','\u{60D5}','\u{60C6}','\u{60DF}',
    '\u{60B8}','\u{60DA}','\u{60C7}','\u{621A}','\u{621B}','\u{6248}','\u{63A0}','\u{63A7}',
    '\u{6372}','\u{6396}','\u{63A2}','\u{63A5}','\u{6377}','\u{6367}','\u{6398}','\u{63AA}',
    '\u{6371}','\u{63A9}','\u{6389}','\u{6383}','\u{639B}','\u{636B}','\u{63A8}','\u{6384}',
    '\u{6388}','\u{6399}','\u{63A1}','\u{63AC}','\u{6392}','\u{638F}','\u{6380}','\u{637B}',
    '\u{6369}','\u{6368}','\u{637A}','\u{655D}','\u{6556}','\u{6551}','\u{6559}','\u{6557}',
    '\u{555F}','\u{654F}','\u{6558}','\u{6555}','\u{6554}','\u{659C}','\u{659B}','\u{65AC}',
    '\u{65CF}','\u{65CB}','\u{65CC}','\u{65CE}','\u{665D}','\u{665A}','\u{6664}','\u{6668}',
    '\u{6666}','\u{665E}','\u{66F9}','\u{52D7}','\u{671B}','\u{6881}','\u{68AF}','\u{68A2}',
    '\u{6893}','\u{68B5}','\u{687F}','\u{6876}','\u{68B1}','\u{68A7}','\u{6897}','\u{68B0}',
    '\u{6883}','\u{68C4}','\u{68AD}','\u{6886}','\u{6885}','\u{6894}','\u{689D}','\u{68A8}',
    '\u{689F}','\u{68A1}','\u{6882}','\u{6B32}','\u{6BBA}','\u{6BEB}','\u{6BEC}','\u{6C2B}',
    '\u{6D8E}','\u{6DBC}','\u{6DF3}','\u{6DD9}','\u{6DB2}','\u{6DE1}','\u{6DCC}','\u{6DE4}',
    '\u{6DFB}','\u{6DFA}','\u{6E05}','\u{6DC7}','\u{6DCB}','\u{6DAF}','\u{6DD1}','\u{6DAE}',
    '\u{6DDE}','\u{6DF9}','\u{6DB8}','\u{6DF7}','\u{6DF5}','\u{6DC5}','\u{6DD2}','\u{6E1A}',
    '\u{6DB5}','\u{6DDA}','\u{6DEB}','\u{6DD8}','\u{6DEA}','\u{6DF1}','\u{6DEE}','\u{6DE8}',
    '\u{6DC6}','\u{6DC4}','\u{6DAA}','\u{6DEC}','\u{6DBF}','\u{6DE6}','\u{70F9}','\u{7109}',
    '\u{710A}','\u{70FD}','\u{70EF}','\u{723D}','\u{727D}','\u{7281}','\u{731C}','\u{731B}',
    '\u{7316}','\u{7313}','\u{7319}','\u{7387}','\u{7405}','\u{740A}','\u{7403}','\u{7406}',
    '\u{73FE}','\u{740D}','\u{74E0}','\u{74F6}','\u{74F7}','\u{751C}','\u{7522}','\u{7565}',
    '\u{7566}','\u{7562}','\u{7570}','\u{758F}','\u{75D4}','\u{75D5}','\u{75B5}','\u{75CA}',
    '\u{75CD}','\u{768E}','\u{76D4}','\u{76D2}','\u{76DB}','\u{7737}','\u{773E}','\u{773C}',
    '\u{7736}','\u{7738}','\u{773A}','\u{786B}','\u{7843}','\u{784E}','\u{7965}','\u{7968}',
    '\u{796D}','\u{79FB}','\u{7A92}','\u{7A95}','\u{7B20}','\u{7B28}','\u{7B1B}','\u{7B2C}',
    '\u{7B26}','\u{7B19}','\u{7B1E}','\u{7B2E}','\u{7C92}','\u{7C97}','\u{7C95}','\u{7D46}',
    '\u{7D43}','\u{7D71}','\u{7D2E}','\u{7D39}','\u{7D3C}','\u{7D40}','\u{7D30}','\u{7D33}',
    '\u{7D44}','\u{7D2F}','\u{7D42}','\u{7D32}','\u{7D31}','\u{7F3D}','\u{7F9E}','\u{7F9A}',
    '\u{7FCC}','\u{7FCE}','\u{7FD2}','\u{801C}','\u{804A}','\u{8046}','\u{812F}','\u{8116}',
    '\u{8123}','\u{812B}','\u{8129}','\u{8130}','\u{8124}','\u{8202}','\u{8235}','\u{8237}',
    '\u{8236}','\u{8239}','\u{838E}','\u{839E}','\u{8398}','\u{8378}','\u{83A2}','\u{8396}',
    '\u{83BD}','\u{83AB}','\u{8392}','\u{838A}','\u{8393}','\u{8389}','\u{83A0}','\u{8377}',
    '\u{837B}','\u{837C}','\u{8386}','\u{83A7}','\u{8655}','\u{5F6A}','\u{86C7}','\u{86C0}',
    '\u{86B6}','\u{86C4}','\u{86B5}','\u{86C6}','\u{86CB}','\u{86B1}','\u{86AF}','\u{86C9}',
    '\u{8853}','\u{889E}','\u{8888}','\u{88AB}','\u{8892}','\u{8896}','\u{888D}','\u{888B}',
    '\u{8993}','\u{898F}','\u{8A2A}','\u{8A1D}','\u{8A23}','\u{8A25}','\u{8A31}','\u{8A2D}',
    '\u{8A1F}','\u{8A1B}','\u{8A22}','\u{8C49}','\u{8C5A}','\u{8CA9}','\u{8CAC}','\u{8CAB}',
    '\u{8CA8}','\u{8CAA}','\u{8CA7}','\u{8D67}','\u{8D66}','\u{8DBE}','\u{8DBA}','\u{8EDB}',
    '\u{8EDF}','\u{9019}','\u{900D}','\u{901A}','\u{9017}','\u{9023}','\u{901F}','\u{901D}',
    '\u{9010}','\u{9015}','\u{901E}','\u{9020}','\u{900F}','\u{9022}','\u{9016}','\u{901B}',
    '\u{9014}','\u{90E8}','\u{90ED}','\u{90FD}','\u{9157}','\u{91CE}','\u{91F5}','\u{91E6}',
    '\u{91E3}','\u{91E7}','\u{91ED}','\u{91E9}','\u{9589}','\u{966A}','\u{9675}','\u{9673}',
    '\u{9678}','\u{9670}','\u{9674}','\u{9676}','\u{9677}','\u{966C}','\u{96C0}','\u{96EA}',
    '\u{96E9}','\u{7AE0}','\u{7ADF}','\u{9802}','\u{9803}','\u{9B5A}','\u{9CE5}','\u{9E75}',
    '\u{9E7F}','\u{9EA5}','\u{9EBB}','\u{50A2}','\u{508D}','\u{5085}','\u{5099}','\u{5091}',
    '\u{5080}','\u{5096}','\u{5098}','\u{509A}','\u{6700}','\u{51F1}','\u{5272}','\u{5274}',
    '\u{5275}','\u{5269}','\u{52DE}','\u{52DD}','\u{52DB}','\u{535A}','\u{53A5}','\u{557B}',
    '\u{5580}','\u{55A7}','\u{557C}','\u{558A}','\u{559D}','\u{5598}','\u{5582}','\u{559C}',
    '\u{55AA}','\u{5594}','\u{5587}','\u{558B}','\u{5583}','\u{55B3}','\u{55AE}','\u{559F}',
    '\u{553E}','\u{55B2}','\u{559A}','\u{55BB}','\u{55AC}','\u{55B1}','\u{557E}','\u{5589}',
    '\u{55AB}','\u{5599}','\u{570D}','\u{582F}','\u{582A}','\u{5834}','\u{5824}','\u{5830}',
    '\u{5831}','\u{5821}','\u{581D}','\u{5820}','\u{58F9}','\u{58FA}','\u{5960}','\u{5A77}',
    '\u{5A9A}','\u{5A7F}','\u{5A92}','\u{5A9B}','\u{5AA7}','\u{5B73}','\u{5B71}','\u{5BD2}',
    '\u{5BCC}','\u{5BD3}','\u{5BD0}','\u{5C0A}','\u{5C0B}','\u{5C31}','\u{5D4C}','\u{5D50}',
    '\u{5D34}','\u{5D47}','\u{5DFD}','\u{5E45}','\u{5E3D}','\u{5E40}','\u{5E43}','\u{5E7E}',
    '\u{5ECA}','\u{5EC1}','\u{5EC2}','\u{5EC4}','\u{5F3C}','\u{5F6D}','\u{5FA9}','\u{5FAA}',
    '\u{5FA8}','\u{60D1}','\u{60E1}','\u{60B2}','\u{60B6}','\u{60E0}','\u{611C}','\u{6123}',
    '\u{60FA}','\u{6115}','\u{60F0}','\u{60FB}','\u{60F4}','\u{6168}','\u{60F1}','\u{610E}',
    '\u{60F6}','\u{6109}','\u{6100}','\u{6112}','\u{621F}','\u{6249}','\u{63A3}','\u{638C}',
    '\u{63CF}','\u{63C0}','\u{63E9}','\u{63C9}','\u{63C6}','\u{63CD}','\u{63D2}','\u{63E3}',
    '\u{63D0}','\u{63E1}','\u{63D6}','\u{63ED}','\u{63EE}','\u{6376}','\u{63F4}','\u{63EA}',
    '\u{63DB}','\u{6452}','\u{63DA}','\u{63F9}','\u{655E}','\u{6566}','\u{6562}','\u{6563}',
    '\u{6591}','\u{6590}','\u{65AF}','\u{666E}','\u{6670}','\u{6674}','\u{6676}','\u{666F}',
    '\u{6691}','\u{667A}','\u{667E}','\u{6677}','\u{66FE}','\u{66FF}','\u{671F}','\u{671D}',
    '\u{68FA}','\u{68D5}','\u{68E0}','\u{68D8}','\u{68D7}','\u{6905}','\u{68DF}','\u{68F5}',
    '\u{68EE}','\u{68E7}','\u{68F9}','\u{68D2}','\u{68F2}','\u{68E3}','\u{68CB}','\u{68CD}',
    '\u{690D}','\u{6912}','\u{690E}','\u{68C9}','\u{68DA}','\u{696E}','\u{68FB}','\u{6B3E}',
    '\u{6B3A}','\u{6B3D}','\u{6B98}','\u{6B96}','\u{6BBC}','\u{6BEF}','\u{6C2E}','\u{6C2F}',
    '\u{6C2C}','\u{6E2F}','\u{6E38}','\u{6E54}','\u{6E21}','\u{6E32}','\u{6E67}','\u{6E4A}',
    '\u{6E20}','\u{6E25}','\u{6E23}','\u{6E1B}','\u{6E5B}','\u{6E58}','\u{6E24}','\u{6E56}',
    '\u{6E6E}','\u{6E2D}','\u{6E26}','\u{6E6F}','\u{6E34}','\u{6E4D}','\u{6E3A}','\u{6E2C}',
    '\u{6E43}','\u{6E1D}','\u{6E3E}','\u{6ECB}','\u{6E89}','\u{6E19}','\u{6E4E}','\u{6E63}',
    '\u{6E44}','\u{6E72}','\u{6E69}','\u{6E5F}','\u{7119}','\u{711A}','\u{7126}','\u{7130}',
    '\u{7121}','\u{7136}','\u{716E}','\u{711C}','\u{724C}','\u{7284}','\u{7280}','\u{7336}',
    '\u{7325}','\u{7334}','\u{7329}','\u{743A}','\u{742A}','\u{7433}','\u{7422}','\u{7425}',
    '\u{7435}','\u{7436}','\u{7434}','\u{742F}','\u{741B}','\u{7426}','\u{7428}','\u{7525}',
    '\u{7526}','\u{756B}','\u{756A}','\u{75E2}','\u{75DB}','\u{75E3}','\u{75D9}','\u{75D8}',
    '\u{75DE}','\u{75E0}','\u{767B}','\u{767C}','\u{7696}','\u{7693}','\u{76B4}','\u{76DC}',
    '\u{774F}','\u{77ED}','\u{785D}','\u{786C}','\u{786F}','\u{7A0D}','\u{7A08}','\u{7A0B}',
    '\u{7A05}','\u{7A00}','\u{7A98}','\u{7A97}','\u{7A96}','\u{7AE5}','\u{7AE3}','\u{7B49}',
    '\u{7B56}','\u{7B46}','\u{7B50}','\u{7B52}','\u{7B54}','\u{7B4D}','\u{7B4B}','\u{7B4F}',
    '\u{7B51}','\u{7C9F}','\u{7CA5}','\u{7D5E}','\u{7D50}','\u{7D68}','\u{7D55}','\u{7D2B}',
    '\u{7D6E}','\u{7D72}','\u{7D61}','\u{7D66}','\u{7D62}','\u{7D70}','\u{7D73}','\u{5584}',
    '\u{7FD4}','\u{7FD5}','\u{800B}','\u{8052}','\u{8085}','\u{8155}','\u{8154}','\u{814B}',
    '\u{8151}','\u{814E}','\u{8139}','\u{8146}','\u{813E}','\u{814C}','\u{8153}','\u{8174}',
    '\u{8212}','\u{821C}','\u{83E9}','\u{8403}','\u{83F8}','\u{840D}','\u{83E0}','\u{83C5}',
    '\u{840B}','\u{83C1}','\u{83EF}','\u{83F1}','\u{83F4}','\u{8457}','\u{840A}','\u{83F0}',
    '\u{840C}','\u{83CC}','\u{83FD}','\u{83F2}','\u{83CA}','\u{8438}','\u{840E}','\u{8404}',
    '\u{83DC}','\u{8407}','\u{83D4}','\u{83DF}','\u{865B}','\u{86DF}','\u{86D9}','\u{86ED}',
    '\u{86D4}','\u{86DB}','\u{86E4}','\u{86D0}','\u{86DE}','\u{8857}','\u{88C1}','\u{88C2}',
    '\u{88B1}','\u{8983}','\u{8996}','\u{8A3B}','\u{8A60}','\u{8A55}','\u{8A5E}','\u{8A3C}',
    '\u{8A41}','\u{8A54}','\u{8A5B}','\u{8A50}','\u{8A46}','\u{8A34}','\u{8A3A}','\u{8A36}',
    '\u{8A56}','\u{8C61}','\u{8C82}','\u{8CAF}','\u{8CBC}','\u{8CB3}','\u{8CBD}','\u{8CC1}',
    '\u{8CBB}','\u{8CC0}','\u{8CB4}','\u{8CB7}','\u{8CB6}','\u{8CBF}','\u{8CB8}','\u{8D8A}',
    '\u{8D85}','\u{8D81}','\u{8DCE}','\u{8DDD}','\u{8DCB}','\u{8DDA}','\u{8DD1}','\u{8DCC}',
    '\u{8DDB}','\u{8DC6}','\u{8EFB}','\u{8EF8}','\u{8EFC}','\u{8F9C}','\u{902E}','\u{9035}',
    '\u{9031}','\u{9038}','\u{9032}','\u{9036}','\u{9102}','\u{90F5}','\u{9109}','\u{90FE}',
    '\u{9163}','\u{9165}','\u{91CF}','\u{9214}','\u{9215}','\u{9223}','\u{9209}','\u{921E}',
    '\u{920D}','\u{9210}','\u{9207}','\u{9211}','\u{9594}','\u{958F}','\u{958B}','\u{9591}',
    '\u{9593}','\u{9592}','\u{958E}','\u{968A}','\u{968E}','\u{968B}','\u{967D}','\u{9685}',
    '\u{9686}','\u{968D}','\u{9672}','\u{9684}','\u{96C1}','\u{96C5}','\u{96C4}','\u{96C6}',
    '\u{96C7}','\u{96EF}','\u{96F2}','\u{97CC}','\u{9805}','\u{9806}','\u{9808}','\u{98E7}',
    '\u{98EA}','\u{98EF}','\u{98E9}','\u{98F2}','\u{98ED}','\u{99AE}','\u{99AD}','\u{9EC3}',
    '\u{9ECD}','\u{9ED1}','\u{4E82}','\u{50AD}','\u{50B5}','\u{50B2}','\u{50B3}','\u{50C5}',
    '\u{50BE}','\u{50AC}','\u{50B7}','\u{50BB}','\u{50AF}','\u{50C7}','\u{527F}','\u{5277}',
    '\u{527D}','\u{52DF}','\u{52E6}','\u{52E4}','\u{52E2}','\u{52E3}','\u{532F}','\u{55DF}',
    '\u{55E8}','\u{55D3}','\u{55E6}','\u{55CE}','\u{55DC}','\u{55C7}','\u{55D1}','\u{55E3}',
    '\u{55E4}','\u{55EF}','\u{55DA}','\u{55E1}','\u{55C5}','\u{55C6}','\u{55E5}','\u{55C9}',
    '\u{5712}','\u{5713}','\u{585E}','\u{5851}','\u{5858}','\u{5857}','\u{585A}','\u{5854}',
    '\u{586B}','\u{584C}','\u{586D}','\u{584A}','\u{5862}','\u{5852}','\u{584B}','\u{5967}',
    '\u{5AC1}','\u{5AC9}','\u{5ACC}','\u{5ABE}','\u{5ABD}','\u{5ABC}','\u{5AB3}','\u{5AC2}',
    '\u{5AB2}','\u{5D69}','\u{5D6F}','\u{5E4C}','\u{5E79}','\u{5EC9}','\u{5EC8}','\u{5F12}',
    '\u{5F59}','\u{5FAC}','\u{5FAE}','\u{611A}','\u{610F}','\u{6148}','\u{611F}','\u{60F3}',
    '\u{611B}','\u{60F9}','\u{6101}','\u{6108}','\u{614E}','\u{614C}','\u{6144}','\u{614D}',
    '\u{613E}','\u{6134}','\u{6127}','\u{610D}','\u{6106}','\u{6137}','\u{6221}','\u{6222}',
    '\u{6413}','\u{643E}','\u{641E}','\u{642A}','\u{642D}','\u{643D}','\u{642C}','\u{640F}',
    '\u{641C}','\u{6414}','\u{640D}','\u{6436}','\u{6416}','\u{6417}','\u{6406}','\u{656C}',
    '\u{659F}','\u{65B0}','\u{6697}','\u{6689}','\u{6687}','\u{6688}','\u{6696}','\u{6684}',
    '\u{6698}','\u{668D}','\u{6703}','\u{6994}','\u{696D}','\u{695A}','\u{6977}','\u{6960}',
    '\u{6954}','\u{6975}','\u{6930}','\u{6982}','\u{694A}','\u{6968}','\u{696B}','\u{695E}',
    '\u{6953}','\u{6979}','\u{6986}','\u{695D}','\u{6963}','\u{695B}','\u{6B47}','\u{6B72}',
    '\u{6BC0}','\u{6BBF}','\u{6BD3}','\u{6BFD}','\u{6EA2}','\u{6EAF}','\u{6ED3}','\u{6EB6}',
    '\u{6EC2}','\u{6E90}','\u{6E9D}','\u{6EC7}','\u{6EC5}','\u{6EA5}','\u{6E98}','\u{6EBC}',
    '\u{6EBA}','\u{6EAB}','\u{6ED1}','\u{6E96}','\u{6E9C}','\u{6EC4}','\u{6ED4}','\u{6EAA}',
    '\u{6EA7}','\u{6EB4}','\u{714E}','\u{7159}','\u{7169}','\u{7164}','\u{7149}','\u{7167}',
    '\u{715C}','\u{716C}','\u{7166}','\u{714C}','\u{7165}','\u{715E}','\u{7146}','\u{7168}',
    '\u{7156}','\u{723A}','\u{7252}','\u{7337}','\u{7345}','\u{733F}','\u{733E}','\u{746F}',
    '\u{745A}','\u{7455}','\u{745F}','\u{745E}','\u{7441}','\u{743F}','\u{7459}','\u{745B}',
    '\u{745C}','\u{7576}','\u{7578}','\u{7600}','\u{75F0}','\u{7601}','\u{75F2}','\u{75F1}',
    '\u{75FA}','\u{75FF}','\u{75F4}','\u{75F3}','\u{76DE}','\u{76DF}','\u{775B}','\u{776B}',
    '\u{7766}','\u{775E}','\u{7763}','\u{7779}','\u{776A}','\u{776C}','\u{775C}','\u{7765}',
    '\u{7768}','\u{7762}','\u{77EE}','\u{788E}','\u{78B0}','\u{7897}','\u{7898}','\u{788C}',
    '\u{7889}','\u{787C}','\u{7891}','\u{7893}','\u{787F}','\u{797A}','\u{797F}','\u{7981}',
    '\u{842C}','\u{79BD}','\u{7A1C}','\u{7A1A}','\u{7A20}','\u{7A14}','\u{7A1F}','\u{7A1E}',
    '\u{7A9F}','\u{7AA0}','\u{7B77}','\u{7BC0}','\u{7B60}','\u{7B6E}','\u{7B67}','\u{7CB1}',
    '\u{7CB3}','\u{7CB5}','\u{7D93}','\u{7D79}','\u{7D91}','\u{7D81}','\u{7D8F}','\u{7D5B}',
    '\u{7F6E}','\u{7F69}','\u{7F6A}','\u{7F72}','\u{7FA9}','\u{7FA8}','\u{7FA4}','\u{8056}',
    '\u{8058}','\u{8086}','\u{8084}','\u{8171}','\u{8170}','\u{8178}','\u{8165}','\u{816E}',
    '\u{8173}','\u{816B}','\u{8179}','\u{817A}','\u{8166}','\u{8205}','\u{8247}','\u{8482}',
    '\u{8477}','\u{843D}','\u{8431}','\u{8475}','\u{8466}','\u{846B}','\u{8449}','\u{846C}',
    '\u{845B}','\u{843C}','\u{8435}','\u{8461}','\u{8463}','\u{8469}','\u{846D}','\u{8446}',
    '\u{865E}','\u{865C}','\u{865F}','\u{86F9}','\u{8713}','\u{8708}','\u{8707}','\u{8700}',
    '\u{86FE}','\u{86FB}','\u{8702}','\u{8703}','\u{8706}','\u{870A}','\u{8859}','\u{88DF}',
    '\u{88D4}','\u{88D9}','\u{88DC}','\u{88D8}','\u{88DD}','\u{88E1}','\u{88CA}','\u{88D5}',
    '\u{88D2}','\u{899C}','\u{89E3}','\u{8A6B}','\u{8A72}','\u{8A73}','\u{8A66}','\u{8A69}',
    '\u{8A70}','\u{8A87}','\u{8A7C}','\u{8A63}','\u{8AA0}','\u{8A71}','\u{8A85}','\u{8A6D}',
    '\u{8A62}','\u{8A6E}','\u{8A6C}','\u{8A79}','\u{8A7B}','\u{8A3E}','\u{8A68}','\u{8C62}',
    '\u{8C8A}','\u{8C89}','\u{8CCA}','\u{8CC7}','\u{8CC8}','\u{8CC4}','\u{8CB2}','\u{8CC3}',
    '\u{8CC2}','\u{8CC5}','\u{8DE1}','\u{8DDF}','\u{8DE8}','\u{8DEF}','\u{8DF3}','\u{8DFA}',
    '\u{8DEA}','\u{8DE4}','\u{8DE6}','\u{8EB2}','\u{8F03}','\u{8F09}','\u{8EFE}','\u{8F0A}',
"#

/-- src/generated/whatwg/big5_whatwg_tables.rs.inc:1104-1260 -/
noncomputable def decode7 : List Text := lines! r#"    '\u{8F9F}','\u{8FB2}','\u{904B}','\u{904A}','\u{9053}','\u{9042}','\u{9054}','\u{903C}',
    '\u{9055}','\u{9050}','\u{9047}','\u{904F}','\u{904E}','\u{904D}','\u{9051}','\u{903E}',
    '\u{9041}','\u{9112}','\u{9117}','\u{916C}','\u{916A}','\u{9169}','\u{91C9}','\u{9237}',
    '\u{9257}','\u{9238}','\u{923D}','\u{9240}','\u{923E}','\u{925B}','\u{924B}','\u{9264}',
    '\u{9251}','\u{9234}','\u{9249}','\u{924D}','\u{9245}','\u{9239}','\u{923F}','\u{925A}',
    '\u{9598}','\u{9698}','\u{9694}','\u{9695}','\u{96CD}','\u{96CB}','\u{96C9}','\u{96CA}',
    '\u{96F7}','\u{96FB}','\u{96F9}','\u{96F6}','\u{9756}','\u{9774}','\u{9776}','\u{9810}',
    '\u{9811}','\u{9813}','\u{980A}','\u{9812}','\u{980C}','\u{98FC}','\u{98F4}','\u{98FD}',
    '\u{98FE}','\u{99B3}','\u{99B1}','\u{99B4}','\u{9AE1}','\u{9CE9}','\u{9E82}','\u{9F0E}',
    '\u{9F13}','\u{9F20}','\u{50E7}','\u{50EE}','\u{50E5}','\u{50D6}','\u{50ED}','\u{50DA}',
    '\u{50D5}','\u{50CF}','\u{50D1}','\u{50F1}','\u{50CE}','\u{50E9}','\u{5162}','\u{51F3}',
    '\u{5283}','\u{5282}','\u{5331}','\u{53AD}','\u{55FE}','\u{5600}','\u{561B}','\u{5617}',
    '\u{55FD}','\u{5614}','\u{5606}','\u{5609}','\u{560D}','\u{560E}','\u{55F7}','\u{5616}',
    '\u{561F}','\u{5608}','\u{5610}','\u{55F6}','\u{5718}','\u{5716}','\u{5875}','\u{587E}',
    '\u{5883}','\u{5893}','\u{588A}','\u{5879}','\u{5885}','\u{587D}','\u{58FD}','\u{5925}',
    '\u{5922}','\u{5924}','\u{596A}','\u{5969}','\u{5AE1}','\u{5AE6}','\u{5AE9}','\u{5AD7}',
    '\u{5AD6}','\u{5AD8}','\u{5AE3}','\u{5B75}','\u{5BDE}','\u{5BE7}','\u{5BE1}','\u{5BE5}',
    '\u{5BE6}','\u{5BE8}','\u{5BE2}','\u{5BE4}','\u{5BDF}','\u{5C0D}','\u{5C62}','\u{5D84}',
    '\u{5D87}','\u{5E5B}','\u{5E63}','\u{5E55}','\u{5E57}','\u{5E54}','\u{5ED3}','\u{5ED6}',
    '\u{5F0A}','\u{5F46}','\u{5F70}','\u{5FB9}','\u{6147}','\u{613F}','\u{614B}','\u{6177}',
    '\u{6162}','\u{6163}','\u{615F}','\u{615A}','\u{6158}','\u{6175}','\u{622A}','\u{6487}',
    '\u{6458}','\u{6454}','\u{64A4}','\u{6478}','\u{645F}','\u{647A}','\u{6451}','\u{6467}',
    '\u{6434}','\u{646D}','\u{647B}','\u{6572}','\u{65A1}','\u{65D7}','\u{65D6}','\u{66A2}',
    '\u{66A8}','\u{669D}','\u{699C}','\u{69A8}','\u{6995}','\u{69C1}','\u{69AE}','\u{69D3}',
    '\u{69CB}','\u{699B}','\u{69B7}','\u{69BB}','\u{69AB}','\u{69B4}','\u{69D0}','\u{69CD}',
    '\u{69AD}','\u{69CC}','\u{69A6}','\u{69C3}','\u{69A3}','\u{6B49}','\u{6B4C}','\u{6C33}',
    '\u{6F33}','\u{6F14}','\u{6EFE}','\u{6F13}','\u{6EF4}','\u{6F29}','\u{6F3E}','\u{6F20}',
    '\u{6F2C}','\u{6F0F}','\u{6F02}','\u{6F22}','\u{6EFF}','\u{6EEF}','\u{6F06}','\u{6F31}',
    '\u{6F38}','\u{6F32}','\u{6F23}','\u{6F15}','\u{6F2B}','\u{6F2F}','\u{6F88}','\u{6F2A}',
    '\u{6EEC}','\u{6F01}','\u{6EF2}','\u{6ECC}','\u{6EF7}','\u{7194}','\u{7199}','\u{717D}',
    '\u{718A}','\u{7184}','\u{7192}','\u{723E}','\u{7292}','\u{7296}','\u{7344}','\u{7350}',
    '\u{7464}','\u{7463}','\u{746A}','\u{7470}','\u{746D}','\u{7504}','\u{7591}','\u{7627}',
    '\u{760D}','\u{760B}','\u{7609}','\u{7613}','\u{76E1}','\u{76E3}','\u{7784}','\u{777D}',
    '\u{777F}','\u{7761}','\u{78C1}','\u{789F}','\u{78A7}','\u{78B3}','\u{78A9}','\u{78A3}',
    '\u{798E}','\u{798F}','\u{798D}','\u{7A2E}','\u{7A31}','\u{7AAA}','\u{7AA9}','\u{7AED}',
    '\u{7AEF}','\u{7BA1}','\u{7B95}','\u{7B8B}','\u{7B75}','\u{7B97}','\u{7B9D}','\u{7B94}',
    '\u{7B8F}','\u{7BB8}','\u{7B87}','\u{7B84}','\u{7CB9}','\u{7CBD}','\u{7CBE}','\u{7DBB}',
    '\u{7DB0}','\u{7D9C}','\u{7DBD}','\u{7DBE}','\u{7DA0}','\u{7DCA}','\u{7DB4}','\u{7DB2}',
    '\u{7DB1}','\u{7DBA}','\u{7DA2}','\u{7DBF}','\u{7DB5}','\u{7DB8}','\u{7DAD}','\u{7DD2}',
    '\u{7DC7}','\u{7DAC}','\u{7F70}','\u{7FE0}','\u{7FE1}','\u{7FDF}','\u{805E}','\u{805A}',
    '\u{8087}','\u{8150}','\u{8180}','\u{818F}','\u{8188}','\u{818A}','\u{817F}','\u{8182}',
    '\u{81E7}','\u{81FA}','\u{8207}','\u{8214}','\u{821E}','\u{824B}','\u{84C9}','\u{84BF}',
    '\u{84C6}','\u{84C4}','\u{8499}','\u{849E}','\u{84B2}','\u{849C}','\u{84CB}','\u{84B8}',
    '\u{84C0}','\u{84D3}','\u{8490}','\u{84BC}','\u{84D1}','\u{84CA}','\u{873F}','\u{871C}',
    '\u{873B}','\u{8722}','\u{8725}','\u{8734}','\u{8718}','\u{8755}','\u{8737}','\u{8729}',
    '\u{88F3}','\u{8902}','\u{88F4}','\u{88F9}','\u{88F8}','\u{88FD}','\u{88E8}','\u{891A}',
    '\u{88EF}','\u{8AA6}','\u{8A8C}','\u{8A9E}','\u{8AA3}','\u{8A8D}','\u{8AA1}','\u{8A93}',
    '\u{8AA4}','\u{8AAA}','\u{8AA5}','\u{8AA8}','\u{8A98}','\u{8A91}','\u{8A9A}','\u{8AA7}',
    '\u{8C6A}','\u{8C8D}','\u{8C8C}','\u{8CD3}','\u{8CD1}','\u{8CD2}','\u{8D6B}','\u{8D99}',
    '\u{8D95}','\u{8DFC}','\u{8F14}','\u{8F12}','\u{8F15}','\u{8F13}','\u{8FA3}','\u{9060}',
    '\u{9058}','\u{905C}','\u{9063}','\u{9059}','\u{905E}','\u{9062}','\u{905D}','\u{905B}',
    '\u{9119}','\u{9118}','\u{911E}','\u{9175}','\u{9178}','\u{9177}','\u{9174}','\u{9278}',
    '\u{9280}','\u{9285}','\u{9298}','\u{9296}','\u{927B}','\u{9293}','\u{929C}','\u{92A8}',
    '\u{927C}','\u{9291}','\u{95A1}','\u{95A8}','\u{95A9}','\u{95A3}','\u{95A5}','\u{95A4}',
    '\u{9699}','\u{969C}','\u{969B}','\u{96CC}','\u{96D2}','\u{9700}','\u{977C}','\u{9785}',
    '\u{97F6}','\u{9817}','\u{9818}','\u{98AF}','\u{98B1}','\u{9903}','\u{9905}','\u{990C}',
    '\u{9909}','\u{99C1}','\u{9AAF}','\u{9AB0}','\u{9AE6}','\u{9B41}','\u{9B42}','\u{9CF4}',
    '\u{9CF6}','\u{9CF3}','\u{9EBC}','\u{9F3B}','\u{9F4A}','\u{5104}','\u{5100}','\u{50FB}',
    '\u{50F5}','\u{50F9}','\u{5102}','\u{5108}','\u{5109}','\u{5105}','\u{51DC}','\u{5287}',
    '\u{5288}','\u{5289}','\u{528D}','\u{528A}','\u{52F0}','\u{53B2}','\u{562E}','\u{563B}',
    '\u{5639}','\u{5632}','\u{563F}','\u{5634}','\u{5629}','\u{5653}','\u{564E}','\u{5657}',
    '\u{5674}','\u{5636}','\u{562F}','\u{5630}','\u{5880}','\u{589F}','\u{589E}','\u{58B3}',
    '\u{589C}','\u{58AE}','\u{58A9}','\u{58A6}','\u{596D}','\u{5B09}','\u{5AFB}','\u{5B0B}',
    '\u{5AF5}','\u{5B0C}','\u{5B08}','\u{5BEE}','\u{5BEC}','\u{5BE9}','\u{5BEB}','\u{5C64}',
    '\u{5C65}','\u{5D9D}','\u{5D94}','\u{5E62}','\u{5E5F}','\u{5E61}','\u{5EE2}','\u{5EDA}',
    '\u{5EDF}','\u{5EDD}','\u{5EE3}','\u{5EE0}','\u{5F48}','\u{5F71}','\u{5FB7}','\u{5FB5}',
    '\u{6176}','\u{6167}','\u{616E}','\u{615D}','\u{6155}','\u{6182}','\u{617C}','\u{6170}',
    '\u{616B}','\u{617E}','\u{61A7}','\u{6190}','\u{61AB}','\u{618E}','\u{61AC}','\u{619A}',
    '\u{61A4}','\u{6194}','\u{61AE}','\u{622E}','\u{6469}','\u{646F}','\u{6479}','\u{649E}',
    '\u{64B2}','\u{6488}','\u{6490}','\u{64B0}','\u{64A5}','\u{6493}','\u{6495}','\u{64A9}',
    '\u{6492}','\u{64AE}','\u{64AD}','\u{64AB}','\u{649A}','\u{64AC}','\u{6499}','\u{64A2}',
    '\u{64B3}','\u{6575}','\u{6577}','\u{6578}','\u{66AE}','\u{66AB}','\u{66B4}','\u{66B1}',
    '\u{6A23}','\u{6A1F}','\u{69E8}','\u{6A01}','\u{6A1E}','\u{6A19}','\u{69FD}','\u{6A21}',
    '\u{6A13}','\u{6A0A}','\u{69F3}','\u{6A02}','\u{6A05}','\u{69ED}','\u{6A11}','\u{6B50}',
    '\u{6B4E}','\u{6BA4}','\u{6BC5}','\u{6BC6}','\u{6F3F}','\u{6F7C}','\u{6F84}','\u{6F51}',
    '\u{6F66}','\u{6F54}','\u{6F86}','\u{6F6D}','\u{6F5B}','\u{6F78}','\u{6F6E}','\u{6F8E}',
    '\u{6F7A}','\u{6F70}','\u{6F64}','\u{6F97}','\u{6F58}','\u{6ED5}','\u{6F6F}','\u{6F60}',
    '\u{6F5F}','\u{719F}','\u{71AC}','\u{71B1}','\u{71A8}','\u{7256}','\u{729B}','\u{734E}',
    '\u{7357}','\u{7469}','\u{748B}','\u{7483}','\u{747E}','\u{7480}','\u{757F}','\u{7620}',
    '\u{7629}','\u{761F}','\u{7624}','\u{7626}','\u{7621}','\u{7622}','\u{769A}','\u{76BA}',
    '\u{76E4}','\u{778E}','\u{7787}','\u{778C}','\u{7791}','\u{778B}','\u{78CB}','\u{78C5}',
    '\u{78BA}','\u{78CA}','\u{78BE}','\u{78D5}','\u{78BC}','\u{78D0}','\u{7A3F}','\u{7A3C}',
    '\u{7A40}','\u{7A3D}','\u{7A37}','\u{7A3B}','\u{7AAF}','\u{7AAE}','\u{7BAD}','\u{7BB1}',
    '\u{7BC4}','\u{7BB4}','\u{7BC6}','\u{7BC7}','\u{7BC1}','\u{7BA0}','\u{7BCC}','\u{7CCA}',
    '\u{7DE0}','\u{7DF4}','\u{7DEF}','\u{7DFB}','\u{7DD8}','\u{7DEC}','\u{7DDD}','\u{7DE8}',
    '\u{7DE3}','\u{7DDA}','\u{7DDE}','\u{7DE9}','\u{7D9E}','\u{7DD9}','\u{7DF2}','\u{7DF9}',
    '\u{7F75}','\u{7F77}','\u{7FAF}','\u{7FE9}','\u{8026}','\u{819B}','\u{819C}','\u{819D}',
    '\u{81A0}','\u{819A}','\u{8198}','\u{8517}','\u{853D}','\u{851A}','\u{84EE}','\u{852C}',
    '\u{852D}','\u{8513}','\u{8511}','\u{8523}','\u{8521}','\u{8514}','\u{84EC}','\u{8525}',
    '\u{84FF}','\u{8506}','\u{8782}','\u{8774}','\u{8776}','\u{8760}','\u{8766}','\u{8778}',
    '\u{8768}','\u{8759}','\u{8757}','\u{874C}','\u{8753}','\u{885B}','\u{885D}','\u{8910}',
    '\u{8907}','\u{8912}','\u{8913}','\u{8915}','\u{890A}','\u{8ABC}','\u{8AD2}','\u{8AC7}',
    '\u{8AC4}','\u{8A95}','\u{8ACB}','\u{8AF8}','\u{8AB2}','\u{8AC9}','\u{8AC2}','\u{8ABF}',
    '\u{8AB0}','\u{8AD6}','\u{8ACD}','\u{8AB6}','\u{8AB9}','\u{8ADB}','\u{8C4C}','\u{8C4E}',
    '\u{8C6C}','\u{8CE0}','\u{8CDE}','\u{8CE6}','\u{8CE4}','\u{8CEC}','\u{8CED}','\u{8CE2}',
    '\u{8CE3}','\u{8CDC}','\u{8CEA}','\u{8CE1}','\u{8D6D}','\u{8D9F}','\u{8DA3}','\u{8E2B}',
    '\u{8E10}','\u{8E1D}','\u{8E22}','\u{8E0F}','\u{8E29}','\u{8E1F}','\u{8E21}','\u{8E1E}',
    '\u{8EBA}','\u{8F1D}','\u{8F1B}','\u{8F1F}','\u{8F29}','\u{8F26}','\u{8F2A}','\u{8F1C}',
    '\u{8F1E}','\u{8F25}','\u{9069}','\u{906E}','\u{9068}','\u{906D}','\u{9077}','\u{9130}',
    '\u{912D}','\u{9127}','\u{9131}','\u{9187}','\u{9189}','\u{918B}','\u{9183}','\u{92C5}',
    '\u{92BB}','\u{92B7}','\u{92EA}','\u{92AC}','\u{92E4}','\u{92C1}','\u{92B3}','\u{92BC}',
    '\u{92D2}','\u{92C7}','\u{92F0}','\u{92B2}','\u{95AD}','\u{95B1}','\u{9704}','\u{9706}',
    '\u{9707}','\u{9709}','\u{9760}','\u{978D}','\u{978B}','\u{978F}','\u{9821}','\u{982B}',
    '\u{981C}','\u{98B3}','\u{990A}','\u{9913}','\u{9912}','\u{9918}','\u{99DD}','\u{99D0}',
    '\u{99DF}','\u{99DB}','\u{99D1}','\u{99D5}','\u{99D2}','\u{99D9}','\u{9AB7}','\u{9AEE}',
    '\u{9AEF}','\u{9B27}','\u{9B45}','\u{9B44}','\u{9B77}','\u{9B6F}','\u{9D06}','\u{9D09}',
    '\u{9D03}','\u{9EA9}','\u{9EBE}','\u{9ECE}','\u{58A8}','\u{9F52}','\u{5112}','\u{5118}',
    '\u{5114}','\u{5110}','\u{5115}','\u{5180}','\u{51AA}','\u{51DD}','\u{5291}','\u{5293}',
    '\u{52F3}','\u{5659}','\u{566B}','\u{5679}','\u{5669}','\u{5664}','\u{5678}','\u{566A}',
    '\u{5668}','\u{5665}','\u{5671}','\u{566F}','\u{566C}','\u{5662}','\u{5676}','\u{58C1}',
    '\u{58BE}','\u{58C7}','\u{58C5}','\u{596E}','\u{5B1D}','\u{5B34}','\u{5B78}','\u{5BF0}',
    '\u{5C0E}','\u{5F4A}','\u{61B2}','\u{6191}','\u{61A9}','\u{618A}','\u{61CD}','\u{61B6}',
    '\u{61BE}','\u{61CA}','\u{61C8}','\u{6230}','\u{64C5}','\u{64C1}','\u{64CB}','\u{64BB}',
    '\u{64BC}','\u{64DA}','\u{64C4}','\u{64C7}','\u{64C2}','\u{64CD}','\u{64BF}','\u{64D2}',
    '\u{64D4}','\u{64BE}','\u{6574}','\u{66C6}','\u{66C9}','\u{66B9}','\u{66C4}','\u{66C7}',
    '\u{66B8}','\u{6A3D}','\u{6A38}','\u{6A3A}','\u{6A59}','\u{6A6B}','\u{6A58}','\u{6A39}',
    '\u{6A44}','\u{6A62}','\u{6A61}','\u{6A4B}','\u{6A47}','\u{6A35}','\u{6A5F}','\u{6A48}',
    '\u{6B59}','\u{6B77}','\u{6C05}','\u{6FC2}','\u{6FB1}','\u{6FA1}','\u{6FC3}','\u{6FA4}',
    '\u{6FC1}','\u{6FA7}','\u{6FB3}','\u{6FC0}','\u{6FB9}','\u{6FB6}','\u{6FA6}','\u{6FA0}',
    '\u{6FB4}','\u{71BE}','\u{71C9}','\u{71D0}','\u{71D2}','\u{71C8}','\u{71D5}','\u{71B9}',
    '\u{71CE}','\u{71D9}','\u{71DC}','\u{71C3}','\u{71C4}','\u{7368}','\u{749C}','\u{74A3}',
    '\u{7498}','\u{749F}','\u{749E}','\u{74E2}','\u{750C}','\u{750D}','\u{7634}','\u{7638}',
    '\u{763A}','\u{76E7}','\u{76E5}','\u{77A0}','\u{779E}','\u{779F}','\u{77A5}','\u{78E8}',
    '\u{78DA}','\u{78EC}','\u{78E7}','\u{79A6}','\u{7A4D}','\u{7A4E}','\u{7A46}','\u{7A4C}',
    '\u{7A4B}','\u{7ABA}','\u{7BD9}','\u{7C11}','\u{7BC9}','\u{7BE4}','\u{7BDB}','\u{7BE1}',
    '\u{7BE9}','\u{7BE6}','\u{7CD5}','\u{7CD6}','\u{7E0A}','\u{7E11}','\u{7E08}','\u{7E1B}',
    '\u{7E23}','\u{7E1E}','\u{7E1D}','\u{7E09}','\u{7E10}','\u{7F79}','\u{7FB2}','\u{7FF0}',
    '\u{7FF1}','\u{7FEE}','\u{8028}','\u{81B3}','\u{81A9}','\u{81A8}','\u{81FB}','\u{8208}',
    '\u{8258}','\u{8259}','\u{854A}','\u{8559}','\u{8548}','\u{8568}','\u{8569}','\u{8543}',
    '\u{8549}','\u{856D}','\u{856A}','\u{855E}','\u{8783}','\u{879F}','\u{879E}','\u{87A2}',
    '\u{878D}','\u{8861}','\u{892A}','\u{8932}','\u{8925}','\u{892B}','\u{8921}','\u{89AA}',
    '\u{89A6}','\u{8AE6}','\u{8AFA}','\u{8AEB}','\u{8AF1}','\u{8B00}','\u{8ADC}','\u{8AE7}',
    '\u{8AEE}','\u{8AFE}','\u{8B01}','\u{8B02}','\u{8AF7}','\u{8AED}','\u{8AF3}','\u{8AF6}',
    '\u{8AFC}','\u{8C6B}','\u{8C6D}','\u{8C93}','\u{8CF4}','\u{8E44}','\u{8E31}','\u{8E34}',
    '\u{8E42}','\u{8E39}','\u{8E35}','\u{8F3B}','\u{8F2F}','\u{8F38}','\u{8F33}','\u{8FA8}',
    '\u{8FA6}','\u{9075}','\u{9074}','\u{9078}','\u{9072}','\u{907C}','\u{907A}','\u{9134}',
    '\u{9192}','\u{9320}','\u{9336}','\u{92F8}','\u{9333}','\u{932F}','\u{9322}','\u{92FC}',
    '\u{932B}','\u{9304}','\u{931A}','\u{9310}','\u{9326}','\u{9321}','\u{9315}','\u{932E}',
    '\u{9319}','\u{95BB}','\u{96A7}','\u{96A8}','\u{96AA}','\u{96D5}','\u{970E}','\u{9711}',
    '\u{9716}','\u{970D}','\u{9713}','\u{970F}','\u{975B}','\u{975C}','\u{9766}','\u{9798}',
    '\u{9830}','\u{9838}','\u{983B}','\u{9837}','\u{982D}','\u{9839}','\u{9824}','\u{9910}',
    '\u{9928}','\u{991E}','\u{991B}','\u{9921}','\u{991A}','\u{99ED}','\u{99E2}','\u{99F1}',
    '\u{9AB8}','\u{9ABC}','\u{9AFB}','\u{9AED}','\u{9B28}','\u{9B91}','\u{9D15}','\u{9D23}',
    '\u{9D26}','\u{9D28}','\u{9D12}','\u{9D1B}','\u{9ED8}','\u{9ED4}','\u{9F8D}','\u{9F9C}',
    '\u{512A}','\u{511F}','\u{5121}','\u{5132}','\u{52F5}','\u{568E}','\u{5680}','\u{5690}',
    '\u{5685}','\u{5687}','\u{568F}','\u{58D5}','\u{58D3}','\u{58D1}','\u{58CE}','\u{5B30}',
    '\u{5B2A}','\u{5B24}','\u{5B7A}','\u{5C37}','\u{5C68}','\u{5DBC}','\u{5DBA}','\u{5DBD}',
    '\u{5DB8}','\u{5E6B}','\u{5F4C}','\u{5FBD}','\u{61C9}','\u{61C2}','\u{61C7}','\u{61E6}',
    '\u{61CB}','\u{6232}','\u{6234}','\u{64CE}','\u{64CA}','\u{64D8}','\u{64E0}','\u{64F0}',
    '\u{64E6}','\u{64EC}','\u{64F1}','\u{64E2}','\u{64ED}','\u{6582}','\u{6583}','\u{66D9}',
    '\u{66D6}','\u{6A80}','\u{6A94}','\u{6A84}','\u{6AA2}','\u{6A9C}','\u{6ADB}','\u{6AA3}',
    '\u{6A7E}','\u{6A97}','\u{6A90}','\u{6AA0}','\u{6B5C}','\u{6BAE}','\u{6BDA}','\u{6C08}',
    '\u{6FD8}','\u{6FF1}','\u{6FDF}','\u{6FE0}','\u{6FDB}','\u{6FE4}','\u{6FEB}','\u{6FEF}',
    '\u{6F80}','\u{6FEC}','\u{6FE1}','\u{6FE9}','\u{6FD5}','\u{6FEE}','\u{6FF0}','\u{71E7}',
    '\u{71DF}','\u{71EE}','\u{71E6}','\u{71E5}','\u{71ED}','\u{71EC}','\u{71F4}','\u{71E0}',
    '\u{7235}','\u{7246}','\u{7370}','\u{7372}','\u{74A9}','\u{74B0}','\u{74A6}','\u{74A8}',
    '\u{7646}','\u{7642}','\u{764C}','\u{76EA}','\u{77B3}','\u{77AA}','\u{77B0}','\u{77AC}',
"#

/-- src/generated/whatwg/big5_whatwg_tables.rs.inc:1261-1417 -/
noncomputable def decode8 : List Text := lines! r#"    '\u{77A7}','\u{77AD}','\u{77EF}','\u{78F7}','\u{78FA}','\u{78F4}','\u{78EF}','\u{7901}',
    '\u{79A7}','\u{79AA}','\u{7A57}','\u{7ABF}','\u{7C07}','\u{7C0D}','\u{7BFE}','\u{7BF7}',
    '\u{7C0C}','\u{7BE0}','\u{7CE0}','\u{7CDC}','\u{7CDE}','\u{7CE2}','\u{7CDF}','\u{7CD9}',
    '\u{7CDD}','\u{7E2E}','\u{7E3E}','\u{7E46}','\u{7E37}','\u{7E32}','\u{7E43}','\u{7E2B}',
    '\u{7E3D}','\u{7E31}','\u{7E45}','\u{7E41}','\u{7E34}','\u{7E39}','\u{7E48}','\u{7E35}',
    '\u{7E3F}','\u{7E2F}','\u{7F44}','\u{7FF3}','\u{7FFC}','\u{8071}','\u{8072}','\u{8070}',
    '\u{806F}','\u{8073}','\u{81C6}','\u{81C3}','\u{81BA}','\u{81C2}','\u{81C0}','\u{81BF}',
    '\u{81BD}','\u{81C9}','\u{81BE}','\u{81E8}','\u{8209}','\u{8271}','\u{85AA}','\u{8584}',
    '\u{857E}','\u{859C}','\u{8591}','\u{8594}','\u{85AF}','\u{859B}','\u{8587}','\u{85A8}',
    '\u{858A}','\u{8667}','\u{87C0}','\u{87D1}','\u{87B3}','\u{87D2}','\u{87C6}','\u{87AB}',
    '\u{87BB}','\u{87BA}','\u{87C8}','\u{87CB}','\u{893B}','\u{8936}','\u{8944}','\u{8938}',
    '\u{893D}','\u{89AC}','\u{8B0E}','\u{8B17}','\u{8B19}','\u{8B1B}','\u{8B0A}','\u{8B20}',
    '\u{8B1D}','\u{8B04}','\u{8B10}','\u{8C41}','\u{8C3F}','\u{8C73}','\u{8CFA}','\u{8CFD}',
    '\u{8CFC}','\u{8CF8}','\u{8CFB}','\u{8DA8}','\u{8E49}','\u{8E4B}','\u{8E48}','\u{8E4A}',
    '\u{8F44}','\u{8F3E}','\u{8F42}','\u{8F45}','\u{8F3F}','\u{907F}','\u{907D}','\u{9084}',
    '\u{9081}','\u{9082}','\u{9080}','\u{9139}','\u{91A3}','\u{919E}','\u{919C}','\u{934D}',
    '\u{9382}','\u{9328}','\u{9375}','\u{934A}','\u{9365}','\u{934B}','\u{9318}','\u{937E}',
    '\u{936C}','\u{935B}','\u{9370}','\u{935A}','\u{9354}','\u{95CA}','\u{95CB}','\u{95CC}',
    '\u{95C8}','\u{95C6}','\u{96B1}','\u{96B8}','\u{96D6}','\u{971C}','\u{971E}','\u{97A0}',
    '\u{97D3}','\u{9846}','\u{98B6}','\u{9935}','\u{9A01}','\u{99FF}','\u{9BAE}','\u{9BAB}',
    '\u{9BAA}','\u{9BAD}','\u{9D3B}','\u{9D3F}','\u{9E8B}','\u{9ECF}','\u{9EDE}','\u{9EDC}',
    '\u{9EDD}','\u{9EDB}','\u{9F3E}','\u{9F4B}','\u{53E2}','\u{5695}','\u{56AE}','\u{58D9}',
    '\u{58D8}','\u{5B38}','\u{5F5D}','\u{61E3}','\u{6233}','\u{64F4}','\u{64F2}','\u{64FE}',
    '\u{6506}','\u{64FA}','\u{64FB}','\u{64F7}','\u{65B7}','\u{66DC}','\u{6726}','\u{6AB3}',
    '\u{6AAC}','\u{6AC3}','\u{6ABB}','\u{6AB8}','\u{6AC2}','\u{6AAE}','\u{6AAF}','\u{6B5F}',
    '\u{6B78}','\u{6BAF}','\u{7009}','\u{700B}','\u{6FFE}','\u{7006}','\u{6FFA}','\u{7011}',
    '\u{700F}','\u{71FB}','\u{71FC}','\u{71FE}','\u{71F8}','\u{7377}','\u{7375}','\u{74A7}',
    '\u{74BF}','\u{7515}','\u{7656}','\u{7658}','\u{7652}','\u{77BD}','\u{77BF}','\u{77BB}',
    '\u{77BC}','\u{790E}','\u{79AE}','\u{7A61}','\u{7A62}','\u{7A60}','\u{7AC4}','\u{7AC5}',
    '\u{7C2B}','\u{7C27}','\u{7C2A}','\u{7C1E}','\u{7C23}','\u{7C21}','\u{7CE7}','\u{7E54}',
    '\u{7E55}','\u{7E5E}','\u{7E5A}','\u{7E61}','\u{7E52}','\u{7E59}','\u{7F48}','\u{7FF9}',
    '\u{7FFB}','\u{8077}','\u{8076}','\u{81CD}','\u{81CF}','\u{820A}','\u{85CF}','\u{85A9}',
    '\u{85CD}','\u{85D0}','\u{85C9}','\u{85B0}','\u{85BA}','\u{85B9}','\u{85A6}','\u{87EF}',
    '\u{87EC}','\u{87F2}','\u{87E0}','\u{8986}','\u{89B2}','\u{89F4}','\u{8B28}','\u{8B39}',
    '\u{8B2C}','\u{8B2B}','\u{8C50}','\u{8D05}','\u{8E59}','\u{8E63}','\u{8E66}','\u{8E64}',
    '\u{8E5F}','\u{8E55}','\u{8EC0}','\u{8F49}','\u{8F4D}','\u{9087}','\u{9083}','\u{9088}',
    '\u{91AB}','\u{91AC}','\u{91D0}','\u{9394}','\u{938A}','\u{9396}','\u{93A2}','\u{93B3}',
    '\u{93AE}','\u{93AC}','\u{93B0}','\u{9398}','\u{939A}','\u{9397}','\u{95D4}','\u{95D6}',
    '\u{95D0}','\u{95D5}','\u{96E2}','\u{96DC}','\u{96D9}','\u{96DB}','\u{96DE}','\u{9724}',
    '\u{97A3}','\u{97A6}','\u{97AD}','\u{97F9}','\u{984D}','\u{984F}','\u{984C}','\u{984E}',
    '\u{9853}','\u{98BA}','\u{993E}','\u{993F}','\u{993D}','\u{992E}','\u{99A5}','\u{9A0E}',
    '\u{9AC1}','\u{9B03}','\u{9B06}','\u{9B4F}','\u{9B4E}','\u{9B4D}','\u{9BCA}','\u{9BC9}',
    '\u{9BFD}','\u{9BC8}','\u{9BC0}','\u{9D51}','\u{9D5D}','\u{9D60}','\u{9EE0}','\u{9F15}',
    '\u{9F2C}','\u{5133}','\u{56A5}','\u{58DE}','\u{58DF}','\u{58E2}','\u{5BF5}','\u{9F90}',
    '\u{5EEC}','\u{61F2}','\u{61F7}','\u{61F6}','\u{61F5}','\u{6500}','\u{650F}','\u{66E0}',
    '\u{66DD}','\u{6AE5}','\u{6ADD}','\u{6ADA}','\u{6AD3}','\u{701B}','\u{701F}','\u{7028}',
    '\u{701A}','\u{701D}','\u{7015}','\u{7018}','\u{7206}','\u{720D}','\u{7258}','\u{72A2}',
    '\u{7378}','\u{737A}','\u{74BD}','\u{74CA}','\u{74E3}','\u{7587}','\u{7586}','\u{765F}',
    '\u{7661}','\u{77C7}','\u{7919}','\u{79B1}','\u{7A6B}','\u{7A69}','\u{7C3E}','\u{7C3F}',
    '\u{7C38}','\u{7C3D}','\u{7C37}','\u{7C40}','\u{7E6B}','\u{7E6D}','\u{7E79}','\u{7E69}',
    '\u{7E6A}','\u{7F85}','\u{7E73}','\u{7FB6}','\u{7FB9}','\u{7FB8}','\u{81D8}','\u{85E9}',
    '\u{85DD}','\u{85EA}','\u{85D5}','\u{85E4}','\u{85E5}','\u{85F7}','\u{87FB}','\u{8805}',
    '\u{880D}','\u{87F9}','\u{87FE}','\u{8960}','\u{895F}','\u{8956}','\u{895E}','\u{8B41}',
    '\u{8B5C}','\u{8B58}','\u{8B49}','\u{8B5A}','\u{8B4E}','\u{8B4F}','\u{8B46}','\u{8B59}',
    '\u{8D08}','\u{8D0A}','\u{8E7C}','\u{8E72}','\u{8E87}','\u{8E76}','\u{8E6C}','\u{8E7A}',
    '\u{8E74}','\u{8F54}','\u{8F4E}','\u{8FAD}','\u{908A}','\u{908B}','\u{91B1}','\u{91AE}',
    '\u{93E1}','\u{93D1}','\u{93DF}','\u{93C3}','\u{93C8}','\u{93DC}','\u{93DD}','\u{93D6}',
    '\u{93E2}','\u{93CD}','\u{93D8}','\u{93E4}','\u{93D7}','\u{93E8}','\u{95DC}','\u{96B4}',
    '\u{96E3}','\u{972A}','\u{9727}','\u{9761}','\u{97DC}','\u{97FB}','\u{985E}','\u{9858}',
    '\u{985B}','\u{98BC}','\u{9945}','\u{9949}','\u{9A16}','\u{9A19}','\u{9B0D}','\u{9BE8}',
    '\u{9BE7}','\u{9BD6}','\u{9BDB}','\u{9D89}','\u{9D61}','\u{9D72}','\u{9D6A}','\u{9D6C}',
    '\u{9E92}','\u{9E97}','\u{9E93}','\u{9EB4}','\u{52F8}','\u{56A8}','\u{56B7}','\u{56B6}',
    '\u{56B4}','\u{56BC}','\u{58E4}','\u{5B40}','\u{5B43}','\u{5B7D}','\u{5BF6}','\u{5DC9}',
    '\u{61F8}','\u{61FA}','\u{6518}','\u{6514}','\u{6519}','\u{66E6}','\u{6727}','\u{6AEC}',
    '\u{703E}','\u{7030}','\u{7032}','\u{7210}','\u{737B}','\u{74CF}','\u{7662}','\u{7665}',
    '\u{7926}','\u{792A}','\u{792C}','\u{792B}','\u{7AC7}','\u{7AF6}','\u{7C4C}','\u{7C43}',
    '\u{7C4D}','\u{7CEF}','\u{7CF0}','\u{8FAE}','\u{7E7D}','\u{7E7C}','\u{7E82}','\u{7F4C}',
    '\u{8000}','\u{81DA}','\u{8266}','\u{85FB}','\u{85F9}','\u{8611}','\u{85FA}','\u{8606}',
    '\u{860B}','\u{8607}','\u{860A}','\u{8814}','\u{8815}','\u{8964}','\u{89BA}','\u{89F8}',
    '\u{8B70}','\u{8B6C}','\u{8B66}','\u{8B6F}','\u{8B5F}','\u{8B6B}','\u{8D0F}','\u{8D0D}',
    '\u{8E89}','\u{8E81}','\u{8E85}','\u{8E82}','\u{91B4}','\u{91CB}','\u{9418}','\u{9403}',
    '\u{93FD}','\u{95E1}','\u{9730}','\u{98C4}','\u{9952}','\u{9951}','\u{99A8}','\u{9A2B}',
    '\u{9A30}','\u{9A37}','\u{9A35}','\u{9C13}','\u{9C0D}','\u{9E79}','\u{9EB5}','\u{9EE8}',
    '\u{9F2F}','\u{9F5F}','\u{9F63}','\u{9F61}','\u{5137}','\u{5138}','\u{56C1}','\u{56C0}',
    '\u{56C2}','\u{5914}','\u{5C6C}','\u{5DCD}','\u{61FC}','\u{61FE}','\u{651D}','\u{651C}',
    '\u{6595}','\u{66E9}','\u{6AFB}','\u{6B04}','\u{6AFA}','\u{6BB2}','\u{704C}','\u{721B}',
    '\u{72A7}','\u{74D6}','\u{74D4}','\u{7669}','\u{77D3}','\u{7C50}','\u{7E8F}','\u{7E8C}',
    '\u{7FBC}','\u{8617}','\u{862D}','\u{861A}','\u{8823}','\u{8822}','\u{8821}','\u{881F}',
    '\u{896A}','\u{896C}','\u{89BD}','\u{8B74}','\u{8B77}','\u{8B7D}','\u{8D13}','\u{8E8A}',
    '\u{8E8D}','\u{8E8B}','\u{8F5F}','\u{8FAF}','\u{91BA}','\u{942E}','\u{9433}','\u{9435}',
    '\u{943A}','\u{9438}','\u{9432}','\u{942B}','\u{95E2}','\u{9738}','\u{9739}','\u{9732}',
    '\u{97FF}','\u{9867}','\u{9865}','\u{9957}','\u{9A45}','\u{9A43}','\u{9A40}','\u{9A3E}',
    '\u{9ACF}','\u{9B54}','\u{9B51}','\u{9C2D}','\u{9C25}','\u{9DAF}','\u{9DB4}','\u{9DC2}',
    '\u{9DB8}','\u{9E9D}','\u{9EEF}','\u{9F19}','\u{9F5C}','\u{9F66}','\u{9F67}','\u{513C}',
    '\u{513B}','\u{56C8}','\u{56CA}','\u{56C9}','\u{5B7F}','\u{5DD4}','\u{5DD2}','\u{5F4E}',
    '\u{61FF}','\u{6524}','\u{6B0A}','\u{6B61}','\u{7051}','\u{7058}','\u{7380}','\u{74E4}',
    '\u{758A}','\u{766E}','\u{766C}','\u{79B3}','\u{7C60}','\u{7C5F}','\u{807E}','\u{807D}',
    '\u{81DF}','\u{8972}','\u{896F}','\u{89FC}','\u{8B80}','\u{8D16}','\u{8D17}','\u{8E91}',
    '\u{8E93}','\u{8F61}','\u{9148}','\u{9444}','\u{9451}','\u{9452}','\u{973D}','\u{973E}',
    '\u{97C3}','\u{97C1}','\u{986B}','\u{9955}','\u{9A55}','\u{9A4D}','\u{9AD2}','\u{9B1A}',
    '\u{9C49}','\u{9C31}','\u{9C3E}','\u{9C3B}','\u{9DD3}','\u{9DD7}','\u{9F34}','\u{9F6C}',
    '\u{9F6A}','\u{9F94}','\u{56CC}','\u{5DD6}','\u{6200}','\u{6523}','\u{652B}','\u{652A}',
    '\u{66EC}','\u{6B10}','\u{74DA}','\u{7ACA}','\u{7C64}','\u{7C63}','\u{7C65}','\u{7E93}',
    '\u{7E96}','\u{7E94}','\u{81E2}','\u{8638}','\u{863F}','\u{8831}','\u{8B8A}','\u{9090}',
    '\u{908F}','\u{9463}','\u{9460}','\u{9464}','\u{9768}','\u{986F}','\u{995C}','\u{9A5A}',
    '\u{9A5B}','\u{9A57}','\u{9AD3}','\u{9AD4}','\u{9AD1}','\u{9C54}','\u{9C57}','\u{9C56}',
    '\u{9DE5}','\u{9E9F}','\u{9EF4}','\u{56D1}','\u{58E9}','\u{652C}','\u{705E}','\u{7671}',
    '\u{7672}','\u{77D7}','\u{7F50}','\u{7F88}','\u{8836}','\u{8839}','\u{8862}','\u{8B93}',
    '\u{8B92}','\u{8B96}','\u{8277}','\u{8D1B}','\u{91C0}','\u{946A}','\u{9742}','\u{9748}',
    '\u{9744}','\u{97C6}','\u{9870}','\u{9A5F}','\u{9B22}','\u{9B58}','\u{9C5F}','\u{9DF9}',
    '\u{9DFA}','\u{9E7C}','\u{9E7D}','\u{9F07}','\u{9F77}','\u{9F72}','\u{5EF3}','\u{6B16}',
    '\u{7063}','\u{7C6C}','\u{7C6E}','\u{883B}','\u{89C0}','\u{8EA1}','\u{91C1}','\u{9472}',
    '\u{9470}','\u{9871}','\u{995E}','\u{9AD6}','\u{9B23}','\u{9ECC}','\u{7064}','\u{77DA}',
    '\u{8B9A}','\u{9477}','\u{97C9}','\u{9A62}','\u{9A65}','\u{7E9C}','\u{8B9C}','\u{8EAA}',
    '\u{91C5}','\u{947D}','\u{947E}','\u{947C}','\u{9C77}','\u{9C78}','\u{9EF7}','\u{8C54}',
    '\u{947F}','\u{9E1A}','\u{7228}','\u{9A6A}','\u{9B31}','\u{9E1B}','\u{9E1E}','\u{7C72}',
    '\u{2460}','\u{2461}','\u{2462}','\u{2463}','\u{2464}','\u{2465}','\u{2466}','\u{2467}',
    '\u{2468}','\u{2469}','\u{2474}','\u{2475}','\u{2476}','\u{2477}','\u{2478}','\u{2479}',
    '\u{247A}','\u{247B}','\u{247C}','\u{247D}','\u{2170}','\u{2171}','\u{2172}','\u{2173}',
    '\u{2174}','\u{2175}','\u{2176}','\u{2177}','\u{2178}','\u{2179}','\u{4E36}','\u{4E3F}',
    '\u{4E85}','\u{4EA0}','\u{5182}','\u{5196}','\u{51AB}','\u{52F9}','\u{5338}','\u{5369}',
    '\u{53B6}','\u{590A}','\u{5B80}','\u{5DDB}','\u{2F33}','\u{5E7F}','\u{5EF4}','\u{5F50}',
    '\u{5F61}','\u{6534}','\u{65E0}','\u{7592}','\u{7676}','\u{8FB5}','\u{96B6}','\u{00A8}',
    '\u{02C6}','\u{30FD}','\u{30FE}','\u{309D}','\u{309E}','\u{3003}','\u{4EDD}','\u{3005}',
    '\u{3006}','\u{3007}','\u{30FC}','\u{FF3B}','\u{FF3D}','\u{273D}','\u{3041}','\u{3042}',
    '\u{3043}','\u{3044}','\u{3045}','\u{3046}','\u{3047}','\u{3048}','\u{3049}','\u{304A}',
    '\u{304B}','\u{304C}','\u{304D}','\u{304E}','\u{304F}','\u{3050}','\u{3051}','\u{3052}',
    '\u{3053}','\u{3054}','\u{3055}','\u{3056}','\u{3057}','\u{3058}','\u{3059}','\u{305A}',
    '\u{305B}','\u{305C}','\u{305D}','\u{305E}','\u{305F}','\u{3060}','\u{3061}','\u{3062}',
    '\u{3063}','\u{3064}','\u{3065}','\u{3066}','\u{3067}','\u{3068}','\u{3069}','\u{306A}',
    '\u{306B}','\u{306C}','\u{306D}','\u{306E}','\u{306F}','\u{3070}','\u{3071}','\u{3072}',
    '\u{3073}','\u{3074}','\u{3075}','\u{3076}','\u{3077}','\u{3078}','\u{3079}','\u{307A}',
    '\u{307B}','\u{307C}','\u{307D}','\u{307E}','\u{307F}','\u{3080}','\u{3081}','\u{3082}',
    '\u{3083}','\u{3084}','\u{3085}','\u{3086}','\u{3087}','\u{3088}','\u{3089}','\u{308A}',
    '\u{308B}','\u{308C}','\u{308D}','\u{308E}','\u{308F}','\u{3090}','\u{3091}','\u{3092}',
    '\u{3093}','\u{30A1}','\u{30A2}','\u{30A3}','\u{30A4}','\u{30A5}','\u{30A6}','\u{30A7}',
    '\u{30A8}','\u{30A9}','\u{30AA}','\u{30AB}','\u{30AC}','\u{30AD}','\u{30AE}','\u{30AF}',
    '\u{30B0}','\u{30B1}','\u{30B2}','\u{30B3}','\u{30B4}','\u{30B5}','\u{30B6}','\u{30B7}',
    '\u{30B8}','\u{30B9}','\u{30BA}','\u{30BB}','\u{30BC}','\u{30BD}','\u{30BE}','\u{30BF}',
    '\u{30C0}','\u{30C1}','\u{30C2}','\u{30C3}','\u{30C4}','\u{30C5}','\u{30C6}','\u{30C7}',
    '\u{30C8}','\u{30C9}','\u{30CA}','\u{30CB}','\u{30CC}','\u{30CD}','\u{30CE}','\u{30CF}',
    '\u{30D0}','\u{30D1}','\u{30D2}','\u{30D3}','\u{30D4}','\u{30D5}','\u{30D6}','\u{30D7}',
    '\u{30D8}','\u{30D9}','\u{30DA}','\u{30DB}','\u{30DC}','\u{30DD}','\u{30DE}','\u{30DF}',
    '\u{30E0}','\u{30E1}','\u{30E2}','\u{30E3}','\u{30E4}','\u{30E5}','\u{30E6}','\u{30E7}',
    '\u{30E8}','\u{30E9}','\u{30EA}','\u{30EB}','\u{30EC}','\u{30ED}','\u{30EE}','\u{30EF}',
    '\u{30F0}','\u{30F1}','\u{30F2}','\u{30F3}','\u{30F4}','\u{30F5}','\u{30F6}','\u{0410}',
    '\u{0411}','\u{0412}','\u{0413}','\u{0414}','\u{0415}','\u{0401}','\u{0416}','\u{0417}',
    '\u{0418}','\u{0419}','\u{041A}','\u{041B}','\u{041C}','\u{041D}','\u{041E}','\u{041F}',
    '\u{0420}','\u{0421}','\u{0422}','\u{0423}','\u{0424}','\u{0425}','\u{0426}','\u{0427}',
    '\u{0428}','\u{0429}','\u{042A}','\u{042B}','\u{042C}','\u{042D}','\u{042E}','\u{042F}',
    '\u{0430}','\u{0431}','\u{0432}','\u{0433}','\u{0434}','\u{0435}','\u{0451}','\u{0436}',
    '\u{0437}','\u{0438}','\u{0439}','\u{043A}','\u{043B}','\u{043C}','\u{043D}','\u{043E}',
    '\u{043F}','\u{0440}','\u{0441}','\u{0442}','\u{0443}','\u{0444}','\u{0445}','\u{0446}',
    '\u{0447}','\u{0448}','\u{0449}','\u{044A}','\u{044B}','\u{044C}','\u{044D}','\u{044E}',
    '\u{044F}','\u{21E7}','\u{21B8}','\u{21B9}','\u{31CF}','\u{200CC}','\u{4E5A}','\u{2008A}',
    '\u{5202}','\u{4491}','\u{9FB0}','\u{5188}','\u{9FB1}','\u{27607}','�','�',
    '�','�','�','�','�','�','�','�',
    '�','�','�','�','�','�','�','�',
    '�','�','�','�','�','�','�','�',
    '�','�','�','�','�','�','�','�',
    '�','�','�','�','�','�','\u{FFE2}','\u{FFE4}',
    '\u{FF07}','\u{FF02}','\u{3231}','\u{2116}','\u{2121}','\u{309B}','\u{309C}','\u{2E80}',
    '\u{2E84}','\u{2E86}','\u{2E87}','\u{2E88}','\u{2E8A}','\u{2E8C}','\u{2E8D}','\u{2E95}',
    '\u{2E9C}','\u{2E9D}','\u{2EA5}','\u{2EA7}','\u{2EAA}','\u{2EAC}','\u{2EAE}','\u{2EB6}',
    '\u{2EBC}','\u{2EBE}','\u{2EC6}','\u{2ECA}','\u{2ECC}','\u{2ECD}','\u{2ECF}','\u{2ED6}',
    '\u{2ED7}','\u{2EDE}','\u{2EE3}','�','�','�','\u{0283}','\u{0250}',
    '\u{025B}','\u{0254}','\u{0275}','\u{0153}','\u{00F8}','\u{014B}','\u{028A}','\u{026A}',
"#

/-- src/generated/whatwg/big5_whatwg_tables.rs.inc:1418-1574 -/
noncomputable def decode9 : List Text := lines! r#"    '\u{4E42}','\u{4E5C}','\u{51F5}','\u{531A}','\u{5382}','\u{4E07}','\u{4E0C}','\u{4E47}',
    '\u{4E8D}','\u{56D7}','\u{FA0C}','\u{5C6E}','\u{5F73}','\u{4E0F}','\u{5187}','\u{4E0E}',
    '\u{4E2E}','\u{4E93}','\u{4EC2}','\u{4EC9}','\u{4EC8}','\u{5198}','\u{52FC}','\u{536C}',
    '\u{53B9}','\u{5720}','\u{5903}','\u{592C}','\u{5C10}','\u{5DFF}','\u{65E1}','\u{6BB3}',
    '\u{6BCC}','\u{6C14}','\u{723F}','\u{4E31}','\u{4E3C}','\u{4EE8}','\u{4EDC}','\u{4EE9}',
    '\u{4EE1}','\u{4EDD}','\u{4EDA}','\u{520C}','\u{531C}','\u{534C}','\u{5722}','\u{5723}',
    '\u{5917}','\u{592F}','\u{5B81}','\u{5B84}','\u{5C12}','\u{5C3B}','\u{5C74}','\u{5C73}',
    '\u{5E04}','\u{5E80}','\u{5E82}','\u{5FC9}','\u{6209}','\u{6250}','\u{6C15}','\u{6C36}',
    '\u{6C43}','\u{6C3F}','\u{6C3B}','\u{72AE}','\u{72B0}','\u{738A}','\u{79B8}','\u{808A}',
    '\u{961E}','\u{4F0E}','\u{4F18}','\u{4F2C}','\u{4EF5}','\u{4F14}','\u{4EF1}','\u{4F00}',
    '\u{4EF7}','\u{4F08}','\u{4F1D}','\u{4F02}','\u{4F05}','\u{4F22}','\u{4F13}','\u{4F04}',
    '\u{4EF4}','\u{4F12}','\u{51B1}','\u{5213}','\u{5209}','\u{5210}','\u{52A6}','\u{5322}',
    '\u{531F}','\u{534D}','\u{538A}','\u{5407}','\u{56E1}','\u{56DF}','\u{572E}','\u{572A}',
    '\u{5734}','\u{593C}','\u{5980}','\u{597C}','\u{5985}','\u{597B}','\u{597E}','\u{5977}',
    '\u{597F}','\u{5B56}','\u{5C15}','\u{5C25}','\u{5C7C}','\u{5C7A}','\u{5C7B}','\u{5C7E}',
    '\u{5DDF}','\u{5E75}','\u{5E84}','\u{5F02}','\u{5F1A}','\u{5F74}','\u{5FD5}','\u{5FD4}',
    '\u{5FCF}','\u{625C}','\u{625E}','\u{6264}','\u{6261}','\u{6266}','\u{6262}','\u{6259}',
    '\u{6260}','\u{625A}','\u{6265}','\u{65EF}','\u{65EE}','\u{673E}','\u{6739}','\u{6738}',
    '\u{673B}','\u{673A}','\u{673F}','\u{673C}','\u{6733}','\u{6C18}','\u{6C46}','\u{6C52}',
    '\u{6C5C}','\u{6C4F}','\u{6C4A}','\u{6C54}','\u{6C4B}','\u{6C4C}','\u{7071}','\u{725E}',
    '\u{72B4}','\u{72B5}','\u{738E}','\u{752A}','\u{767F}','\u{7A75}','\u{7F51}','\u{8278}',
    '\u{827C}','\u{8280}','\u{827D}','\u{827F}','\u{864D}','\u{897E}','\u{9099}','\u{9097}',
    '\u{9098}','\u{909B}','\u{9094}','\u{9622}','\u{9624}','\u{9620}','\u{9623}','\u{4F56}',
    '\u{4F3B}','\u{4F62}','\u{4F49}','\u{4F53}','\u{4F64}','\u{4F3E}','\u{4F67}','\u{4F52}',
    '\u{4F5F}','\u{4F41}','\u{4F58}','\u{4F2D}','\u{4F33}','\u{4F3F}','\u{4F61}','\u{518F}',
    '\u{51B9}','\u{521C}','\u{521E}','\u{5221}','\u{52AD}','\u{52AE}','\u{5309}','\u{5363}',
    '\u{5372}','\u{538E}','\u{538F}','\u{5430}','\u{5437}','\u{542A}','\u{5454}','\u{5445}',
    '\u{5419}','\u{541C}','\u{5425}','\u{5418}','\u{543D}','\u{544F}','\u{5441}','\u{5428}',
    '\u{5424}','\u{5447}','\u{56EE}','\u{56E7}','\u{56E5}','\u{5741}','\u{5745}','\u{574C}',
    '\u{5749}','\u{574B}','\u{5752}','\u{5906}','\u{5940}','\u{59A6}','\u{5998}','\u{59A0}',
    '\u{5997}','\u{598E}','\u{59A2}','\u{5990}','\u{598F}','\u{59A7}','\u{59A1}','\u{5B8E}',
    '\u{5B92}','\u{5C28}','\u{5C2A}','\u{5C8D}','\u{5C8F}','\u{5C88}','\u{5C8B}','\u{5C89}',
    '\u{5C92}','\u{5C8A}','\u{5C86}','\u{5C93}','\u{5C95}','\u{5DE0}','\u{5E0A}','\u{5E0E}',
    '\u{5E8B}','\u{5E89}','\u{5E8C}','\u{5E88}','\u{5E8D}','\u{5F05}','\u{5F1D}','\u{5F78}',
    '\u{5F76}','\u{5FD2}','\u{5FD1}','\u{5FD0}','\u{5FED}','\u{5FE8}','\u{5FEE}','\u{5FF3}',
    '\u{5FE1}','\u{5FE4}','\u{5FE3}','\u{5FFA}','\u{5FEF}','\u{5FF7}','\u{5FFB}','\u{6000}',
    '\u{5FF4}','\u{623A}','\u{6283}','\u{628C}','\u{628E}','\u{628F}','\u{6294}','\u{6287}',
    '\u{6271}','\u{627B}','\u{627A}','\u{6270}','\u{6281}','\u{6288}','\u{6277}','\u{627D}',
    '\u{6272}','\u{6274}','\u{6537}','\u{65F0}','\u{65F4}','\u{65F3}','\u{65F2}','\u{65F5}',
    '\u{6745}','\u{6747}','\u{6759}','\u{6755}','\u{674C}','\u{6748}','\u{675D}','\u{674D}',
    '\u{675A}','\u{674B}','\u{6BD0}','\u{6C19}','\u{6C1A}','\u{6C78}','\u{6C67}','\u{6C6B}',
    '\u{6C84}','\u{6C8B}','\u{6C8F}','\u{6C71}','\u{6C6F}','\u{6C69}','\u{6C9A}','\u{6C6D}',
    '\u{6C87}','\u{6C95}','\u{6C9C}','\u{6C66}','\u{6C73}','\u{6C65}','\u{6C7B}','\u{6C8E}',
    '\u{7074}','\u{707A}','\u{7263}','\u{72BF}','\u{72BD}','\u{72C3}','\u{72C6}','\u{72C1}',
    '\u{72BA}','\u{72C5}','\u{7395}','\u{7397}','\u{7393}','\u{7394}','\u{7392}','\u{753A}',
    '\u{7539}','\u{7594}','\u{7595}','\u{7681}','\u{793D}','\u{8034}','\u{8095}','\u{8099}',
    '\u{8090}','\u{8092}','\u{809C}','\u{8290}','\u{828F}','\u{8285}','\u{828E}','\u{8291}',
    '\u{8293}','\u{828A}','\u{8283}','\u{8284}','\u{8C78}','\u{8FC9}','\u{8FBF}','\u{909F}',
    '\u{90A1}','\u{90A5}','\u{909E}','\u{90A7}','\u{90A0}','\u{9630}','\u{9628}','\u{962F}',
    '\u{962D}','\u{4E33}','\u{4F98}','\u{4F7C}','\u{4F85}','\u{4F7D}','\u{4F80}','\u{4F87}',
    '\u{4F76}','\u{4F74}','\u{4F89}','\u{4F84}','\u{4F77}','\u{4F4C}','\u{4F97}','\u{4F6A}',
    '\u{4F9A}','\u{4F79}','\u{4F81}','\u{4F78}','\u{4F90}','\u{4F9C}','\u{4F94}','\u{4F9E}',
    '\u{4F92}','\u{4F82}','\u{4F95}','\u{4F6B}','\u{4F6E}','\u{519E}','\u{51BC}','\u{51BE}',
    '\u{5235}','\u{5232}','\u{5233}','\u{5246}','\u{5231}','\u{52BC}','\u{530A}','\u{530B}',
    '\u{533C}','\u{5392}','\u{5394}','\u{5487}','\u{547F}','\u{5481}','\u{5491}','\u{5482}',
    '\u{5488}','\u{546B}','\u{547A}','\u{547E}','\u{5465}','\u{546C}','\u{5474}','\u{5466}',
    '\u{548D}','\u{546F}','\u{5461}','\u{5460}','\u{5498}','\u{5463}','\u{5467}','\u{5464}',
    '\u{56F7}','\u{56F9}','\u{576F}','\u{5772}','\u{576D}','\u{576B}','\u{5771}','\u{5770}',
    '\u{5776}','\u{5780}','\u{5775}','\u{577B}','\u{5773}','\u{5774}','\u{5762}','\u{5768}',
    '\u{577D}','\u{590C}','\u{5945}','\u{59B5}','\u{59BA}','\u{59CF}','\u{59CE}','\u{59B2}',
    '\u{59CC}','\u{59C1}','\u{59B6}','\u{59BC}','\u{59C3}','\u{59D6}','\u{59B1}','\u{59BD}',
    '\u{59C0}','\u{59C8}','\u{59B4}','\u{59C7}','\u{5B62}','\u{5B65}','\u{5B93}','\u{5B95}',
    '\u{5C44}','\u{5C47}','\u{5CAE}','\u{5CA4}','\u{5CA0}','\u{5CB5}','\u{5CAF}','\u{5CA8}',
    '\u{5CAC}','\u{5C9F}','\u{5CA3}','\u{5CAD}','\u{5CA2}','\u{5CAA}','\u{5CA7}','\u{5C9D}',
    '\u{5CA5}','\u{5CB6}','\u{5CB0}','\u{5CA6}','\u{5E17}','\u{5E14}','\u{5E19}','\u{5F28}',
    '\u{5F22}','\u{5F23}','\u{5F24}','\u{5F54}','\u{5F82}','\u{5F7E}','\u{5F7D}','\u{5FDE}',
    '\u{5FE5}','\u{602D}','\u{6026}','\u{6019}','\u{6032}','\u{600B}','\u{6034}','\u{600A}',
    '\u{6017}','\u{6033}','\u{601A}','\u{601E}','\u{602C}','\u{6022}','\u{600D}','\u{6010}',
    '\u{602E}','\u{6013}','\u{6011}','\u{600C}','\u{6009}','\u{601C}','\u{6214}','\u{623D}',
    '\u{62AD}','\u{62B4}','\u{62D1}','\u{62BE}','\u{62AA}','\u{62B6}','\u{62CA}','\u{62AE}',
    '\u{62B3}','\u{62AF}','\u{62BB}','\u{62A9}','\u{62B0}','\u{62B8}','\u{653D}','\u{65A8}',
    '\u{65BB}','\u{6609}','\u{65FC}','\u{6604}','\u{6612}','\u{6608}','\u{65FB}','\u{6603}',
    '\u{660B}','\u{660D}','\u{6605}','\u{65FD}','\u{6611}','\u{6610}','\u{66F6}','\u{670A}',
    '\u{6785}','\u{676C}','\u{678E}','\u{6792}','\u{6776}','\u{677B}','\u{6798}','\u{6786}',
    '\u{6784}','\u{6774}','\u{678D}','\u{678C}','\u{677A}','\u{679F}','\u{6791}','\u{6799}',
    '\u{6783}','\u{677D}','\u{6781}','\u{6778}','\u{6779}','\u{6794}','\u{6B25}','\u{6B80}',
    '\u{6B7E}','\u{6BDE}','\u{6C1D}','\u{6C93}','\u{6CEC}','\u{6CEB}','\u{6CEE}','\u{6CD9}',
    '\u{6CB6}','\u{6CD4}','\u{6CAD}','\u{6CE7}','\u{6CB7}','\u{6CD0}','\u{6CC2}','\u{6CBA}',
    '\u{6CC3}','\u{6CC6}','\u{6CED}','\u{6CF2}','\u{6CD2}','\u{6CDD}','\u{6CB4}','\u{6C8A}',
    '\u{6C9D}','\u{6C80}','\u{6CDE}','\u{6CC0}','\u{6D30}','\u{6CCD}','\u{6CC7}','\u{6CB0}',
    '\u{6CF9}','\u{6CCF}','\u{6CE9}','\u{6CD1}','\u{7094}','\u{7098}','\u{7085}','\u{7093}',
    '\u{7086}','\u{7084}','\u{7091}','\u{7096}','\u{7082}','\u{709A}','\u{7083}','\u{726A}',
    '\u{72D6}','\u{72CB}','\u{72D8}','\u{72C9}','\u{72DC}','\u{72D2}','\u{72D4}','\u{72DA}',
    '\u{72CC}','\u{72D1}','\u{73A4}','\u{73A1}','\u{73AD}','\u{73A6}','\u{73A2}','\u{73A0}',
    '\u{73AC}','\u{739D}','\u{74DD}','\u{74E8}','\u{753F}','\u{7540}','\u{753E}','\u{758C}',
    '\u{7598}','\u{76AF}','\u{76F3}','\u{76F1}','\u{76F0}','\u{76F5}','\u{77F8}','\u{77FC}',
    '\u{77F9}','\u{77FB}','\u{77FA}','\u{77F7}','\u{7942}','\u{793F}','\u{79C5}','\u{7A78}',
    '\u{7A7B}','\u{7AFB}','\u{7C75}','\u{7CFD}','\u{8035}','\u{808F}','\u{80AE}','\u{80A3}',
    '\u{80B8}','\u{80B5}','\u{80AD}','\u{8220}','\u{82A0}','\u{82C0}','\u{82AB}','\u{829A}',
    '\u{8298}','\u{829B}','\u{82B5}','\u{82A7}','\u{82AE}','\u{82BC}','\u{829E}','\u{82BA}',
    '\u{82B4}','\u{82A8}','\u{82A1}','\u{82A9}','\u{82C2}','\u{82A4}','\u{82C3}','\u{82B6}',
    '\u{82A2}','\u{8670}','\u{866F}','\u{866D}','\u{866E}','\u{8C56}','\u{8FD2}','\u{8FCB}',
    '\u{8FD3}','\u{8FCD}','\u{8FD6}','\u{8FD5}','\u{8FD7}','\u{90B2}','\u{90B4}','\u{90AF}',
    '\u{90B3}','\u{90B0}','\u{9639}','\u{963D}','\u{963C}','\u{963A}','\u{9643}','\u{4FCD}',
    '\u{4FC5}','\u{4FD3}','\u{4FB2}','\u{4FC9}','\u{4FCB}','\u{4FC1}','\u{4FD4}','\u{4FDC}',
    '\u{4FD9}','\u{4FBB}','\u{4FB3}','\u{4FDB}','\u{4FC7}','\u{4FD6}','\u{4FBA}','\u{4FC0}',
    '\u{4FB9}','\u{4FEC}','\u{5244}','\u{5249}','\u{52C0}','\u{52C2}','\u{533D}','\u{537C}',
    '\u{5397}','\u{5396}','\u{5399}','\u{5398}','\u{54BA}','\u{54A1}','\u{54AD}','\u{54A5}',
    '\u{54CF}','\u{54C3}','\u{830D}','\u{54B7}','\u{54AE}','\u{54D6}','\u{54B6}','\u{54C5}',
    '\u{54C6}','\u{54A0}','\u{5470}','\u{54BC}','\u{54A2}','\u{54BE}','\u{5472}','\u{54DE}',
    '\u{54B0}','\u{57B5}','\u{579E}','\u{579F}','\u{57A4}','\u{578C}','\u{5797}','\u{579D}',
    '\u{579B}','\u{5794}','\u{5798}','\u{578F}','\u{5799}','\u{57A5}','\u{579A}','\u{5795}',
    '\u{58F4}','\u{590D}','\u{5953}','\u{59E1}','\u{59DE}','\u{59EE}','\u{5A00}','\u{59F1}',
    '\u{59DD}','\u{59FA}','\u{59FD}','\u{59FC}','\u{59F6}','\u{59E4}','\u{59F2}','\u{59F7}',
    '\u{59DB}','\u{59E9}','\u{59F3}','\u{59F5}','\u{59E0}','\u{59FE}','\u{59F4}','\u{59ED}',
    '\u{5BA8}','\u{5C4C}','\u{5CD0}','\u{5CD8}','\u{5CCC}','\u{5CD7}','\u{5CCB}','\u{5CDB}',
    '\u{5CDE}','\u{5CDA}','\u{5CC9}','\u{5CC7}','\u{5CCA}','\u{5CD6}','\u{5CD3}','\u{5CD4}',
    '\u{5CCF}','\u{5CC8}','\u{5CC6}','\u{5CCE}','\u{5CDF}','\u{5CF8}','\u{5DF9}','\u{5E21}',
    '\u{5E22}','\u{5E23}','\u{5E20}','\u{5E24}','\u{5EB0}','\u{5EA4}','\u{5EA2}','\u{5E9B}',
    '\u{5EA3}','\u{5EA5}','\u{5F07}','\u{5F2E}','\u{5F56}','\u{5F86}','\u{6037}','\u{6039}',
    '\u{6054}','\u{6072}','\u{605E}','\u{6045}','\u{6053}','\u{6047}','\u{6049}','\u{605B}',
    '\u{604C}','\u{6040}','\u{6042}','\u{605F}','\u{6024}','\u{6044}','\u{6058}','\u{6066}',
    '\u{606E}','\u{6242}','\u{6243}','\u{62CF}','\u{630D}','\u{630B}','\u{62F5}','\u{630E}',
    '\u{6303}','\u{62EB}','\u{62F9}','\u{630F}','\u{630C}','\u{62F8}','\u{62F6}','\u{6300}',
    '\u{6313}','\u{6314}','\u{62FA}','\u{6315}','\u{62FB}','\u{62F0}','\u{6541}','\u{6543}',
    '\u{65AA}','\u{65BF}','\u{6636}','\u{6621}','\u{6632}','\u{6635}','\u{661C}','\u{6626}',
    '\u{6622}','\u{6633}','\u{662B}','\u{663A}','\u{661D}','\u{6634}','\u{6639}','\u{662E}',
    '\u{670F}','\u{6710}','\u{67C1}','\u{67F2}','\u{67C8}','\u{67BA}','\u{67DC}','\u{67BB}',
    '\u{67F8}','\u{67D8}','\u{67C0}','\u{67B7}','\u{67C5}','\u{67EB}','\u{67E4}','\u{67DF}',
    '\u{67B5}','\u{67CD}','\u{67B3}','\u{67F7}','\u{67F6}','\u{67EE}','\u{67E3}','\u{67C2}',
    '\u{67B9}','\u{67CE}','\u{67E7}','\u{67F0}','\u{67B2}','\u{67FC}','\u{67C6}','\u{67ED}',
    '\u{67CC}','\u{67AE}','\u{67E6}','\u{67DB}','\u{67FA}','\u{67C9}','\u{67CA}','\u{67C3}',
    '\u{67EA}','\u{67CB}','\u{6B28}','\u{6B82}','\u{6B84}','\u{6BB6}','\u{6BD6}','\u{6BD8}',
    '\u{6BE0}','\u{6C20}','\u{6C21}','\u{6D28}','\u{6D34}','\u{6D2D}','\u{6D1F}','\u{6D3C}',
    '\u{6D3F}','\u{6D12}','\u{6D0A}','\u{6CDA}','\u{6D33}','\u{6D04}','\u{6D19}','\u{6D3A}',
    '\u{6D1A}','\u{6D11}','\u{6D00}','\u{6D1D}','\u{6D42}','\u{6D01}','\u{6D18}','\u{6D37}',
    '\u{6D03}','\u{6D0F}','\u{6D40}','\u{6D07}','\u{6D20}','\u{6D2C}','\u{6D08}','\u{6D22}',
    '\u{6D09}','\u{6D10}','\u{70B7}','\u{709F}','\u{70BE}','\u{70B1}','\u{70B0}','\u{70A1}',
    '\u{70B4}','\u{70B5}','\u{70A9}','\u{7241}','\u{7249}','\u{724A}','\u{726C}','\u{7270}',
    '\u{7273}','\u{726E}','\u{72CA}','\u{72E4}','\u{72E8}','\u{72EB}','\u{72DF}','\u{72EA}',
    '\u{72E6}','\u{72E3}','\u{7385}','\u{73CC}','\u{73C2}','\u{73C8}','\u{73C5}','\u{73B9}',
    '\u{73B6}','\u{73B5}','\u{73B4}','\u{73EB}','\u{73BF}','\u{73C7}','\u{73BE}','\u{73C3}',
    '\u{73C6}','\u{73B8}','\u{73CB}','\u{74EC}','\u{74EE}','\u{752E}','\u{7547}','\u{7548}',
    '\u{75A7}','\u{75AA}','\u{7679}','\u{76C4}','\u{7708}','\u{7703}','\u{7704}','\u{7705}',
    '\u{770A}','\u{76F7}','\u{76FB}','\u{76FA}','\u{77E7}','\u{77E8}','\u{7806}','\u{7811}',
    '\u{7812}','\u{7805}','\u{7810}','\u{780F}','\u{780E}','\u{7809}','\u{7803}','\u{7813}',
    '\u{794A}','\u{794C}','\u{794B}','\u{7945}','\u{7944}','\u{79D5}','\u{79CD}','\u{79CF}',
    '\u{79D6}','\u{79CE}','\u{7A80}','\u{7A7E}','\u{7AD1}','\u{7B00}','\u{7B01}','\u{7C7A}',
    '\u{7C78}','\u{7C79}','\u{7C7F}','\u{7C80}','\u{7C81}','\u{7D03}','\u{7D08}','\u{7D01}',
    '\u{7F58}','\u{7F91}','\u{7F8D}','\u{7FBE}','\u{8007}','\u{800E}','\u{800F}','\u{8014}',
    '\u{8037}','\u{80D8}','\u{80C7}','\u{80E0}','\u{80D1}','\u{80C8}','\u{80C2}','\u{80D0}',
    '\u{80C5}','\u{80E3}','\u{80D9}','\u{80DC}','\u{80CA}','\u{80D5}','\u{80C9}','\u{80CF}',
    '\u{80D7}','\u{80E6}','\u{80CD}','\u{81FF}','\u{8221}','\u{8294}','\u{82D9}','\u{82FE}',
    '\u{82F9}','\u{8307}','\u{82E8}','\u{8300}','\u{82D5}','\u{833A}','\u{82EB}','\u{82D6}',
    '\u{82F4}','\u{82EC}','\u{82E1}','\u{82F2}','\u{82F5}','\u{830C}','\u{82FB}','\u{82F6}',
    '\u{82F0}','\u{82EA}','\u{82E4}','\u{82E0}','\u{82FA}','\u{82F3}','\u{82ED}','\u{8677}',
    '\u{8674}','\u{867C}','\u{8673}','\u{8841}','\u{884E}','\u{8867}','\u{886A}','\u{8869}',
    '\u{89D3}','\u{8A04}','\u{8A07}','\u{8D72}','\u{8FE3}','\u{8FE1}','\u{8FEE}','\u{8FE0}',
    '\u{90F1}','\u{90BD}','\u{90BF}','\u{90D5}','\u{90C5}','\u{90BE}','\u{90C7}','\u{90CB}',
    '\u{90C8}','\u{91D4}','\u{91D3}','\u{9654}','\u{964F}','\u{9651}','\u{9653}','\u{964A}',
    '\u{964E}','\u{501E}','\u{5005}','\u{5007}','\u{5013}','\u{5022}','\u{5030}','\u{501B}',
    '\u{4FF5}','\u{4FF4}','\u{5033}','\u{5037}','\u{502C}','\u{4FF6}','\u{4FF7}','\u{5017}',
    '\u{501C}','\u{5020}','\u{5027}','\u{5035}','\u{502F}','\u{5031}','\u{500E}','\u{515A}',
    '\u{5194}','\u{5193}','\u{51CA}','\u{51C4}','\u{51C5}','\u{51C8}','\u{51CE}','\u{5261}',
    '\u{525A}','\u{5252}','\u{525E}','\u{525F}','\u{5255}','\u{5262}','\u{52CD}','\u{530E}',
    '\u{539E}','\u{5526}','\u{54E2}','\u{5517}','\u{5512}','\u{54E7}','\u{54F3}','\u{54E4}',
    '\u{551A}','\u{54FF}','\u{5504}','\u{5508}','\u{54EB}','\u{5511}','\u{5505}','\u{54F1}',
"#

/-- src/generated/whatwg/big5_whatwg_tables.rs.inc:1575-1731 -/
noncomputable def decode10 : List Text := lines! r#"    '\u{550A}','\u{54FB}','\u{54F7}','\u{54F8}','\u{54E0}','\u{550E}','\u{5503}','\u{550B}',
    '\u{5701}','\u{5702}','\u{57CC}','\u{5832}','\u{57D5}','\u{57D2}','\u{57BA}','\u{57C6}',
    '\u{57BD}','\u{57BC}','\u{57B8}','\u{57B6}','\u{57BF}','\u{57C7}','\u{57D0}','\u{57B9}',
    '\u{57C1}','\u{590E}','\u{594A}','\u{5A19}','\u{5A16}','\u{5A2D}','\u{5A2E}','\u{5A15}',
    '\u{5A0F}','\u{5A17}','\u{5A0A}','\u{5A1E}','\u{5A33}','\u{5B6C}','\u{5BA7}','\u{5BAD}',
    '\u{5BAC}','\u{5C03}','\u{5C56}','\u{5C54}','\u{5CEC}','\u{5CFF}','\u{5CEE}','\u{5CF1}',
    '\u{5CF7}','\u{5D00}','\u{5CF9}','\u{5E29}','\u{5E28}','\u{5EA8}','\u{5EAE}','\u{5EAA}',
    '\u{5EAC}','\u{5F33}','\u{5F30}','\u{5F67}','\u{605D}','\u{605A}','\u{6067}','\u{6041}',
    '\u{60A2}','\u{6088}','\u{6080}','\u{6092}','\u{6081}','\u{609D}','\u{6083}','\u{6095}',
    '\u{609B}','\u{6097}','\u{6087}','\u{609C}','\u{608E}','\u{6219}','\u{6246}','\u{62F2}',
    '\u{6310}','\u{6356}','\u{632C}','\u{6344}','\u{6345}','\u{6336}','\u{6343}','\u{63E4}',
    '\u{6339}','\u{634B}','\u{634A}','\u{633C}','\u{6329}','\u{6341}','\u{6334}','\u{6358}',
    '\u{6354}','\u{6359}','\u{632D}','\u{6347}','\u{6333}','\u{635A}','\u{6351}','\u{6338}',
    '\u{6357}','\u{6340}','\u{6348}','\u{654A}','\u{6546}','\u{65C6}','\u{65C3}','\u{65C4}',
    '\u{65C2}','\u{664A}','\u{665F}','\u{6647}','\u{6651}','\u{6712}','\u{6713}','\u{681F}',
    '\u{681A}','\u{6849}','\u{6832}','\u{6833}','\u{683B}','\u{684B}','\u{684F}','\u{6816}',
    '\u{6831}','\u{681C}','\u{6835}','\u{682B}','\u{682D}','\u{682F}','\u{684E}','\u{6844}',
    '\u{6834}','\u{681D}','\u{6812}','\u{6814}','\u{6826}','\u{6828}','\u{682E}','\u{684D}',
    '\u{683A}','\u{6825}','\u{6820}','\u{6B2C}','\u{6B2F}','\u{6B2D}','\u{6B31}','\u{6B34}',
    '\u{6B6D}','\u{8082}','\u{6B88}','\u{6BE6}','\u{6BE4}','\u{6BE8}','\u{6BE3}','\u{6BE2}',
    '\u{6BE7}','\u{6C25}','\u{6D7A}','\u{6D63}','\u{6D64}','\u{6D76}','\u{6D0D}','\u{6D61}',
    '\u{6D92}','\u{6D58}','\u{6D62}','\u{6D6D}','\u{6D6F}','\u{6D91}','\u{6D8D}','\u{6DEF}',
    '\u{6D7F}','\u{6D86}','\u{6D5E}','\u{6D67}','\u{6D60}','\u{6D97}','\u{6D70}','\u{6D7C}',
    '\u{6D5F}','\u{6D82}','\u{6D98}','\u{6D2F}','\u{6D68}','\u{6D8B}','\u{6D7E}','\u{6D80}',
    '\u{6D84}','\u{6D16}','\u{6D83}','\u{6D7B}','\u{6D7D}','\u{6D75}','\u{6D90}','\u{70DC}',
    '\u{70D3}','\u{70D1}','\u{70DD}','\u{70CB}','\u{7F39}','\u{70E2}','\u{70D7}','\u{70D2}',
    '\u{70DE}','\u{70E0}','\u{70D4}','\u{70CD}','\u{70C5}','\u{70C6}','\u{70C7}','\u{70DA}',
    '\u{70CE}','\u{70E1}','\u{7242}','\u{7278}','\u{7277}','\u{7276}','\u{7300}','\u{72FA}',
    '\u{72F4}','\u{72FE}','\u{72F6}','\u{72F3}','\u{72FB}','\u{7301}','\u{73D3}','\u{73D9}',
    '\u{73E5}','\u{73D6}','\u{73BC}','\u{73E7}','\u{73E3}','\u{73E9}','\u{73DC}','\u{73D2}',
    '\u{73DB}','\u{73D4}','\u{73DD}','\u{73DA}','\u{73D7}','\u{73D8}','\u{73E8}','\u{74DE}',
    '\u{74DF}','\u{74F4}','\u{74F5}','\u{7521}','\u{755B}','\u{755F}','\u{75B0}','\u{75C1}',
    '\u{75BB}','\u{75C4}','\u{75C0}','\u{75BF}','\u{75B6}','\u{75BA}','\u{768A}','\u{76C9}',
    '\u{771D}','\u{771B}','\u{7710}','\u{7713}','\u{7712}','\u{7723}','\u{7711}','\u{7715}',
    '\u{7719}','\u{771A}','\u{7722}','\u{7727}','\u{7823}','\u{782C}','\u{7822}','\u{7835}',
    '\u{782F}','\u{7828}','\u{782E}','\u{782B}','\u{7821}','\u{7829}','\u{7833}','\u{782A}',
    '\u{7831}','\u{7954}','\u{795B}','\u{794F}','\u{795C}','\u{7953}','\u{7952}','\u{7951}',
    '\u{79EB}','\u{79EC}','\u{79E0}','\u{79EE}','\u{79ED}','\u{79EA}','\u{79DC}','\u{79DE}',
    '\u{79DD}','\u{7A86}','\u{7A89}','\u{7A85}','\u{7A8B}','\u{7A8C}','\u{7A8A}','\u{7A87}',
    '\u{7AD8}','\u{7B10}','\u{7B04}','\u{7B13}','\u{7B05}','\u{7B0F}','\u{7B08}','\u{7B0A}',
    '\u{7B0E}','\u{7B09}','\u{7B12}','\u{7C84}','\u{7C91}','\u{7C8A}','\u{7C8C}','\u{7C88}',
    '\u{7C8D}','\u{7C85}','\u{7D1E}','\u{7D1D}','\u{7D11}','\u{7D0E}','\u{7D18}','\u{7D16}',
    '\u{7D13}','\u{7D1F}','\u{7D12}','\u{7D0F}','\u{7D0C}','\u{7F5C}','\u{7F61}','\u{7F5E}',
    '\u{7F60}','\u{7F5D}','\u{7F5B}','\u{7F96}','\u{7F92}','\u{7FC3}','\u{7FC2}','\u{7FC0}',
    '\u{8016}','\u{803E}','\u{8039}','\u{80FA}','\u{80F2}','\u{80F9}','\u{80F5}','\u{8101}',
    '\u{80FB}','\u{8100}','\u{8201}','\u{822F}','\u{8225}','\u{8333}','\u{832D}','\u{8344}',
    '\u{8319}','\u{8351}','\u{8325}','\u{8356}','\u{833F}','\u{8341}','\u{8326}','\u{831C}',
    '\u{8322}','\u{8342}','\u{834E}','\u{831B}','\u{832A}','\u{8308}','\u{833C}','\u{834D}',
    '\u{8316}','\u{8324}','\u{8320}','\u{8337}','\u{832F}','\u{8329}','\u{8347}','\u{8345}',
    '\u{834C}','\u{8353}','\u{831E}','\u{832C}','\u{834B}','\u{8327}','\u{8348}','\u{8653}',
    '\u{8652}','\u{86A2}','\u{86A8}','\u{8696}','\u{868D}','\u{8691}','\u{869E}','\u{8687}',
    '\u{8697}','\u{8686}','\u{868B}','\u{869A}','\u{8685}','\u{86A5}','\u{8699}','\u{86A1}',
    '\u{86A7}','\u{8695}','\u{8698}','\u{868E}','\u{869D}','\u{8690}','\u{8694}','\u{8843}',
    '\u{8844}','\u{886D}','\u{8875}','\u{8876}','\u{8872}','\u{8880}','\u{8871}','\u{887F}',
    '\u{886F}','\u{8883}','\u{887E}','\u{8874}','\u{887C}','\u{8A12}','\u{8C47}','\u{8C57}',
    '\u{8C7B}','\u{8CA4}','\u{8CA3}','\u{8D76}','\u{8D78}','\u{8DB5}','\u{8DB7}','\u{8DB6}',
    '\u{8ED1}','\u{8ED3}','\u{8FFE}','\u{8FF5}','\u{9002}','\u{8FFF}','\u{8FFB}','\u{9004}',
    '\u{8FFC}','\u{8FF6}','\u{90D6}','\u{90E0}','\u{90D9}','\u{90DA}','\u{90E3}','\u{90DF}',
    '\u{90E5}','\u{90D8}','\u{90DB}','\u{90D7}','\u{90DC}','\u{90E4}','\u{9150}','\u{914E}',
    '\u{914F}','\u{91D5}','\u{91E2}','\u{91DA}','\u{965C}','\u{965F}','\u{96BC}','\u{98E3}',
    '\u{9ADF}','\u{9B2F}','\u{4E7F}','\u{5070}','\u{506A}','\u{5061}','\u{505E}','\u{5060}',
    '\u{5053}','\u{504B}','\u{505D}','\u{5072}','\u{5048}','\u{504D}','\u{5041}','\u{505B}',
    '\u{504A}','\u{5062}','\u{5015}','\u{5045}','\u{505F}','\u{5069}','\u{506B}','\u{5063}',
    '\u{5064}','\u{5046}','\u{5040}','\u{506E}','\u{5073}','\u{5057}','\u{5051}','\u{51D0}',
    '\u{526B}','\u{526D}','\u{526C}','\u{526E}','\u{52D6}','\u{52D3}','\u{532D}','\u{539C}',
    '\u{5575}','\u{5576}','\u{553C}','\u{554D}','\u{5550}','\u{5534}','\u{552A}','\u{5551}',
    '\u{5562}','\u{5536}','\u{5535}','\u{5530}','\u{5552}','\u{5545}','\u{550C}','\u{5532}',
    '\u{5565}','\u{554E}','\u{5539}','\u{5548}','\u{552D}','\u{553B}','\u{5540}','\u{554B}',
    '\u{570A}','\u{5707}','\u{57FB}','\u{5814}','\u{57E2}','\u{57F6}','\u{57DC}','\u{57F4}',
    '\u{5800}','\u{57ED}','\u{57FD}','\u{5808}','\u{57F8}','\u{580B}','\u{57F3}','\u{57CF}',
    '\u{5807}','\u{57EE}','\u{57E3}','\u{57F2}','\u{57E5}','\u{57EC}','\u{57E1}','\u{580E}',
    '\u{57FC}','\u{5810}','\u{57E7}','\u{5801}','\u{580C}','\u{57F1}','\u{57E9}','\u{57F0}',
    '\u{580D}','\u{5804}','\u{595C}','\u{5A60}','\u{5A58}','\u{5A55}','\u{5A67}','\u{5A5E}',
    '\u{5A38}','\u{5A35}','\u{5A6D}','\u{5A50}','\u{5A5F}','\u{5A65}','\u{5A6C}','\u{5A53}',
    '\u{5A64}','\u{5A57}','\u{5A43}','\u{5A5D}','\u{5A52}','\u{5A44}','\u{5A5B}','\u{5A48}',
    '\u{5A8E}','\u{5A3E}','\u{5A4D}','\u{5A39}','\u{5A4C}','\u{5A70}','\u{5A69}','\u{5A47}',
    '\u{5A51}','\u{5A56}','\u{5A42}','\u{5A5C}','\u{5B72}','\u{5B6E}','\u{5BC1}','\u{5BC0}',
    '\u{5C59}','\u{5D1E}','\u{5D0B}','\u{5D1D}','\u{5D1A}','\u{5D20}','\u{5D0C}','\u{5D28}',
    '\u{5D0D}','\u{5D26}','\u{5D25}','\u{5D0F}','\u{5D30}','\u{5D12}','\u{5D23}','\u{5D1F}',
    '\u{5D2E}','\u{5E3E}','\u{5E34}','\u{5EB1}','\u{5EB4}','\u{5EB9}','\u{5EB2}','\u{5EB3}',
    '\u{5F36}','\u{5F38}','\u{5F9B}','\u{5F96}','\u{5F9F}','\u{608A}','\u{6090}','\u{6086}',
    '\u{60BE}','\u{60B0}','\u{60BA}','\u{60D3}','\u{60D4}','\u{60CF}','\u{60E4}','\u{60D9}',
    '\u{60DD}','\u{60C8}','\u{60B1}','\u{60DB}','\u{60B7}','\u{60CA}','\u{60BF}','\u{60C3}',
    '\u{60CD}','\u{60C0}','\u{6332}','\u{6365}','\u{638A}','\u{6382}','\u{637D}','\u{63BD}',
    '\u{639E}','\u{63AD}','\u{639D}','\u{6397}','\u{63AB}','\u{638E}','\u{636F}','\u{6387}',
    '\u{6390}','\u{636E}','\u{63AF}','\u{6375}','\u{639C}','\u{636D}','\u{63AE}','\u{637C}',
    '\u{63A4}','\u{633B}','\u{639F}','\u{6378}','\u{6385}','\u{6381}','\u{6391}','\u{638D}',
    '\u{6370}','\u{6553}','\u{65CD}','\u{6665}','\u{6661}','\u{665B}','\u{6659}','\u{665C}',
    '\u{6662}','\u{6718}','\u{6879}','\u{6887}','\u{6890}','\u{689C}','\u{686D}','\u{686E}',
    '\u{68AE}','\u{68AB}','\u{6956}','\u{686F}','\u{68A3}','\u{68AC}','\u{68A9}','\u{6875}',
    '\u{6874}','\u{68B2}','\u{688F}','\u{6877}','\u{6892}','\u{687C}','\u{686B}','\u{6872}',
    '\u{68AA}','\u{6880}','\u{6871}','\u{687E}','\u{689B}','\u{6896}','\u{688B}','\u{68A0}',
    '\u{6889}','\u{68A4}','\u{6878}','\u{687B}','\u{6891}','\u{688C}','\u{688A}','\u{687D}',
    '\u{6B36}','\u{6B33}','\u{6B37}','\u{6B38}','\u{6B91}','\u{6B8F}','\u{6B8D}','\u{6B8E}',
    '\u{6B8C}','\u{6C2A}','\u{6DC0}','\u{6DAB}','\u{6DB4}','\u{6DB3}','\u{6E74}','\u{6DAC}',
    '\u{6DE9}','\u{6DE2}','\u{6DB7}','\u{6DF6}','\u{6DD4}','\u{6E00}','\u{6DC8}','\u{6DE0}',
    '\u{6DDF}','\u{6DD6}','\u{6DBE}','\u{6DE5}','\u{6DDC}','\u{6DDD}','\u{6DDB}','\u{6DF4}',
    '\u{6DCA}','\u{6DBD}','\u{6DED}','\u{6DF0}','\u{6DBA}','\u{6DD5}','\u{6DC2}','\u{6DCF}',
    '\u{6DC9}','\u{6DD0}','\u{6DF2}','\u{6DD3}','\u{6DFD}','\u{6DD7}','\u{6DCD}','\u{6DE3}',
    '\u{6DBB}','\u{70FA}','\u{710D}','\u{70F7}','\u{7117}','\u{70F4}','\u{710C}','\u{70F0}',
    '\u{7104}','\u{70F3}','\u{7110}','\u{70FC}','\u{70FF}','\u{7106}','\u{7113}','\u{7100}',
    '\u{70F8}','\u{70F6}','\u{710B}','\u{7102}','\u{710E}','\u{727E}','\u{727B}','\u{727C}',
    '\u{727F}','\u{731D}','\u{7317}','\u{7307}','\u{7311}','\u{7318}','\u{730A}','\u{7308}',
    '\u{72FF}','\u{730F}','\u{731E}','\u{7388}','\u{73F6}','\u{73F8}','\u{73F5}','\u{7404}',
    '\u{7401}','\u{73FD}','\u{7407}','\u{7400}','\u{73FA}','\u{73FC}','\u{73FF}','\u{740C}',
    '\u{740B}','\u{73F4}','\u{7408}','\u{7564}','\u{7563}','\u{75CE}','\u{75D2}','\u{75CF}',
    '\u{75CB}','\u{75CC}','\u{75D1}','\u{75D0}','\u{768F}','\u{7689}','\u{76D3}','\u{7739}',
    '\u{772F}','\u{772D}','\u{7731}','\u{7732}','\u{7734}','\u{7733}','\u{773D}','\u{7725}',
    '\u{773B}','\u{7735}','\u{7848}','\u{7852}','\u{7849}','\u{784D}','\u{784A}','\u{784C}',
    '\u{7826}','\u{7845}','\u{7850}','\u{7964}','\u{7967}','\u{7969}','\u{796A}','\u{7963}',
    '\u{796B}','\u{7961}','\u{79BB}','\u{79FA}','\u{79F8}','\u{79F6}','\u{79F7}','\u{7A8F}',
    '\u{7A94}','\u{7A90}','\u{7B35}','\u{7B47}','\u{7B34}','\u{7B25}','\u{7B30}','\u{7B22}',
    '\u{7B24}','\u{7B33}','\u{7B18}','\u{7B2A}','\u{7B1D}','\u{7B31}','\u{7B2B}','\u{7B2D}',
    '\u{7B2F}','\u{7B32}','\u{7B38}','\u{7B1A}','\u{7B23}','\u{7C94}','\u{7C98}','\u{7C96}',
    '\u{7CA3}','\u{7D35}','\u{7D3D}','\u{7D38}','\u{7D36}','\u{7D3A}','\u{7D45}','\u{7D2C}',
    '\u{7D29}','\u{7D41}','\u{7D47}','\u{7D3E}','\u{7D3F}','\u{7D4A}','\u{7D3B}','\u{7D28}',
    '\u{7F63}','\u{7F95}','\u{7F9C}','\u{7F9D}','\u{7F9B}','\u{7FCA}','\u{7FCB}','\u{7FCD}',
    '\u{7FD0}','\u{7FD1}','\u{7FC7}','\u{7FCF}','\u{7FC9}','\u{801F}','\u{801E}','\u{801B}',
    '\u{8047}','\u{8043}','\u{8048}','\u{8118}','\u{8125}','\u{8119}','\u{811B}','\u{812D}',
    '\u{811F}','\u{812C}','\u{811E}','\u{8121}','\u{8115}','\u{8127}','\u{811D}','\u{8122}',
    '\u{8211}','\u{8238}','\u{8233}','\u{823A}','\u{8234}','\u{8232}','\u{8274}','\u{8390}',
    '\u{83A3}','\u{83A8}','\u{838D}','\u{837A}','\u{8373}','\u{83A4}','\u{8374}','\u{838F}',
    '\u{8381}','\u{8395}','\u{8399}','\u{8375}','\u{8394}','\u{83A9}','\u{837D}','\u{8383}',
    '\u{838C}','\u{839D}','\u{839B}','\u{83AA}','\u{838B}','\u{837E}','\u{83A5}','\u{83AF}',
    '\u{8388}','\u{8397}','\u{83B0}','\u{837F}','\u{83A6}','\u{8387}','\u{83AE}','\u{8376}',
    '\u{839A}','\u{8659}','\u{8656}','\u{86BF}','\u{86B7}','\u{86C2}','\u{86C1}','\u{86C5}',
    '\u{86BA}','\u{86B0}','\u{86C8}','\u{86B9}','\u{86B3}','\u{86B8}','\u{86CC}','\u{86B4}',
    '\u{86BB}','\u{86BC}','\u{86C3}','\u{86BD}','\u{86BE}','\u{8852}','\u{8889}','\u{8895}',
    '\u{88A8}','\u{88A2}','\u{88AA}','\u{889A}','\u{8891}','\u{88A1}','\u{889F}','\u{8898}',
    '\u{88A7}','\u{8899}','\u{889B}','\u{8897}','\u{88A4}','\u{88AC}','\u{888C}','\u{8893}',
    '\u{888E}','\u{8982}','\u{89D6}','\u{89D9}','\u{89D5}','\u{8A30}','\u{8A27}','\u{8A2C}',
    '\u{8A1E}','\u{8C39}','\u{8C3B}','\u{8C5C}','\u{8C5D}','\u{8C7D}','\u{8CA5}','\u{8D7D}',
    '\u{8D7B}','\u{8D79}','\u{8DBC}','\u{8DC2}','\u{8DB9}','\u{8DBF}','\u{8DC1}','\u{8ED8}',
    '\u{8EDE}','\u{8EDD}','\u{8EDC}','\u{8ED7}','\u{8EE0}','\u{8EE1}','\u{9024}','\u{900B}',
    '\u{9011}','\u{901C}','\u{900C}','\u{9021}','\u{90EF}','\u{90EA}','\u{90F0}','\u{90F4}',
    '\u{90F2}','\u{90F3}','\u{90D4}','\u{90EB}','\u{90EC}','\u{90E9}','\u{9156}','\u{9158}',
    '\u{915A}','\u{9153}','\u{9155}','\u{91EC}','\u{91F4}','\u{91F1}','\u{91F3}','\u{91F8}',
    '\u{91E4}','\u{91F9}','\u{91EA}','\u{91EB}','\u{91F7}','\u{91E8}','\u{91EE}','\u{957A}',
    '\u{9586}','\u{9588}','\u{967C}','\u{966D}','\u{966B}','\u{9671}','\u{966F}','\u{96BF}',
    '\u{976A}','\u{9804}','\u{98E5}','\u{9997}','\u{509B}','\u{5095}','\u{5094}','\u{509E}',
    '\u{508B}','\u{50A3}','\u{5083}','\u{508C}','\u{508E}','\u{509D}','\u{5068}','\u{509C}',
    '\u{5092}','\u{5082}','\u{5087}','\u{515F}','\u{51D4}','\u{5312}','\u{5311}','\u{53A4}',
    '\u{53A7}','\u{5591}','\u{55A8}','\u{55A5}','\u{55AD}','\u{5577}','\u{5645}','\u{55A2}',
    '\u{5593}','\u{5588}','\u{558F}','\u{55B5}','\u{5581}','\u{55A3}','\u{5592}','\u{55A4}',
    '\u{557D}','\u{558C}','\u{55A6}','\u{557F}','\u{5595}','\u{55A1}','\u{558E}','\u{570C}',
    '\u{5829}','\u{5837}','\u{5819}','\u{581E}','\u{5827}','\u{5823}','\u{5828}','\u{57F5}',
    '\u{5848}','\u{5825}','\u{581C}','\u{581B}','\u{5833}','\u{583F}','\u{5836}','\u{582E}',
    '\u{5839}','\u{5838}','\u{582D}','\u{582C}','\u{583B}','\u{5961}','\u{5AAF}','\u{5A94}',
    '\u{5A9F}','\u{5A7A}','\u{5AA2}','\u{5A9E}','\u{5A78}','\u{5AA6}','\u{5A7C}','\u{5AA5}',
    '\u{5AAC}','\u{5A95}','\u{5AAE}','\u{5A37}','\u{5A84}','\u{5A8A}','\u{5A97}','\u{5A83}',
    '\u{5A8B}','\u{5AA9}','\u{5A7B}','\u{5A7D}','\u{5A8C}','\u{5A9C}','\u{5A8F}','\u{5A93}',
    '\u{5A9D}','\u{5BEA}','\u{5BCD}','\u{5BCB}','\u{5BD4}','\u{5BD1}','\u{5BCA}','\u{5BCE}',
    '\u{5C0C}','\u{5C30}','\u{5D37}','\u{5D43}','\u{5D6B}','\u{5D41}','\u{5D4B}','\u{5D3F}',
    '\u{5D35}','\u{5D51}','\u{5D4E}','\u{5D55}','\u{5D33}','\u{5D3A}','\u{5D52}','\u{5D3D}',
    '\u{5D31}','\u{5D59}','\u{5D42}','\u{5D39}','\u{5D49}','\u{5D38}','\u{5D3C}','\u{5D32}',
    '\u{5D36}','\u{5D40}','\u{5D45}','\u{5E44}','\u{5E41}','\u{5F58}','\u{5FA6}','\u{5FA5}',
    '\u{5FAB}','\u{60C9}','\u{60B9}','\u{60CC}','\u{60E2}','\u{60CE}','\u{60C4}','\u{6114}',
"#

/-- src/generated/whatwg/big5_whatwg_tables.rs.inc:1732-1888 -/
noncomputable def decode11 : List Text := lines! r#"    '\u{60F2}','\u{610A}','\u{6116}','\u{6105}','\u{60F5}','\u{6113}','\u{60F8}','\u{60FC}',
    '\u{60FE}','\u{60C1}','\u{6103}','\u{6118}','\u{611D}','\u{6110}','\u{60FF}','\u{6104}',
    '\u{610B}','\u{624A}','\u{6394}','\u{63B1}','\u{63B0}','\u{63CE}','\u{63E5}','\u{63E8}',
    '\u{63EF}','\u{63C3}','\u{649D}','\u{63F3}','\u{63CA}','\u{63E0}','\u{63F6}','\u{63D5}',
    '\u{63F2}','\u{63F5}','\u{6461}','\u{63DF}','\u{63BE}','\u{63DD}','\u{63DC}','\u{63C4}',
    '\u{63D8}','\u{63D3}','\u{63C2}','\u{63C7}','\u{63CC}','\u{63CB}','\u{63C8}','\u{63F0}',
    '\u{63D7}','\u{63D9}','\u{6532}','\u{6567}','\u{656A}','\u{6564}','\u{655C}','\u{6568}',
    '\u{6565}','\u{658C}','\u{659D}','\u{659E}','\u{65AE}','\u{65D0}','\u{65D2}','\u{667C}',
    '\u{666C}','\u{667B}','\u{6680}','\u{6671}','\u{6679}','\u{666A}','\u{6672}','\u{6701}',
    '\u{690C}','\u{68D3}','\u{6904}','\u{68DC}','\u{692A}','\u{68EC}','\u{68EA}','\u{68F1}',
    '\u{690F}','\u{68D6}','\u{68F7}','\u{68EB}','\u{68E4}','\u{68F6}','\u{6913}','\u{6910}',
    '\u{68F3}','\u{68E1}','\u{6907}','\u{68CC}','\u{6908}','\u{6970}','\u{68B4}','\u{6911}',
    '\u{68EF}','\u{68C6}','\u{6914}','\u{68F8}','\u{68D0}','\u{68FD}','\u{68FC}','\u{68E8}',
    '\u{690B}','\u{690A}','\u{6917}','\u{68CE}','\u{68C8}','\u{68DD}','\u{68DE}','\u{68E6}',
    '\u{68F4}','\u{68D1}','\u{6906}','\u{68D4}','\u{68E9}','\u{6915}','\u{6925}','\u{68C7}',
    '\u{6B39}','\u{6B3B}','\u{6B3F}','\u{6B3C}','\u{6B94}','\u{6B97}','\u{6B99}','\u{6B95}',
    '\u{6BBD}','\u{6BF0}','\u{6BF2}','\u{6BF3}','\u{6C30}','\u{6DFC}','\u{6E46}','\u{6E47}',
    '\u{6E1F}','\u{6E49}','\u{6E88}','\u{6E3C}','\u{6E3D}','\u{6E45}','\u{6E62}','\u{6E2B}',
    '\u{6E3F}','\u{6E41}','\u{6E5D}','\u{6E73}','\u{6E1C}','\u{6E33}','\u{6E4B}','\u{6E40}',
    '\u{6E51}','\u{6E3B}','\u{6E03}','\u{6E2E}','\u{6E5E}','\u{6E68}','\u{6E5C}','\u{6E61}',
    '\u{6E31}','\u{6E28}','\u{6E60}','\u{6E71}','\u{6E6B}','\u{6E39}','\u{6E22}','\u{6E30}',
    '\u{6E53}','\u{6E65}','\u{6E27}','\u{6E78}','\u{6E64}','\u{6E77}','\u{6E55}','\u{6E79}',
    '\u{6E52}','\u{6E66}','\u{6E35}','\u{6E36}','\u{6E5A}','\u{7120}','\u{711E}','\u{712F}',
    '\u{70FB}','\u{712E}','\u{7131}','\u{7123}','\u{7125}','\u{7122}','\u{7132}','\u{711F}',
    '\u{7128}','\u{713A}','\u{711B}','\u{724B}','\u{725A}','\u{7288}','\u{7289}','\u{7286}',
    '\u{7285}','\u{728B}','\u{7312}','\u{730B}','\u{7330}','\u{7322}','\u{7331}','\u{7333}',
    '\u{7327}','\u{7332}','\u{732D}','\u{7326}','\u{7323}','\u{7335}','\u{730C}','\u{742E}',
    '\u{742C}','\u{7430}','\u{742B}','\u{7416}','\u{741A}','\u{7421}','\u{742D}','\u{7431}',
    '\u{7424}','\u{7423}','\u{741D}','\u{7429}','\u{7420}','\u{7432}','\u{74FB}','\u{752F}',
    '\u{756F}','\u{756C}','\u{75E7}','\u{75DA}','\u{75E1}','\u{75E6}','\u{75DD}','\u{75DF}',
    '\u{75E4}','\u{75D7}','\u{7695}','\u{7692}','\u{76DA}','\u{7746}','\u{7747}','\u{7744}',
    '\u{774D}','\u{7745}','\u{774A}','\u{774E}','\u{774B}','\u{774C}','\u{77DE}','\u{77EC}',
    '\u{7860}','\u{7864}','\u{7865}','\u{785C}','\u{786D}','\u{7871}','\u{786A}','\u{786E}',
    '\u{7870}','\u{7869}','\u{7868}','\u{785E}','\u{7862}','\u{7974}','\u{7973}','\u{7972}',
    '\u{7970}','\u{7A02}','\u{7A0A}','\u{7A03}','\u{7A0C}','\u{7A04}','\u{7A99}','\u{7AE6}',
    '\u{7AE4}','\u{7B4A}','\u{7B3B}','\u{7B44}','\u{7B48}','\u{7B4C}','\u{7B4E}','\u{7B40}',
    '\u{7B58}','\u{7B45}','\u{7CA2}','\u{7C9E}','\u{7CA8}','\u{7CA1}','\u{7D58}','\u{7D6F}',
    '\u{7D63}','\u{7D53}','\u{7D56}','\u{7D67}','\u{7D6A}','\u{7D4F}','\u{7D6D}','\u{7D5C}',
    '\u{7D6B}','\u{7D52}','\u{7D54}','\u{7D69}','\u{7D51}','\u{7D5F}','\u{7D4E}','\u{7F3E}',
    '\u{7F3F}','\u{7F65}','\u{7F66}','\u{7FA2}','\u{7FA0}','\u{7FA1}','\u{7FD7}','\u{8051}',
    '\u{804F}','\u{8050}','\u{80FE}','\u{80D4}','\u{8143}','\u{814A}','\u{8152}','\u{814F}',
    '\u{8147}','\u{813D}','\u{814D}','\u{813A}','\u{81E6}','\u{81EE}','\u{81F7}','\u{81F8}',
    '\u{81F9}','\u{8204}','\u{823C}','\u{823D}','\u{823F}','\u{8275}','\u{833B}','\u{83CF}',
    '\u{83F9}','\u{8423}','\u{83C0}','\u{83E8}','\u{8412}','\u{83E7}','\u{83E4}','\u{83FC}',
    '\u{83F6}','\u{8410}','\u{83C6}','\u{83C8}','\u{83EB}','\u{83E3}','\u{83BF}','\u{8401}',
    '\u{83DD}','\u{83E5}','\u{83D8}','\u{83FF}','\u{83E1}','\u{83CB}','\u{83CE}','\u{83D6}',
    '\u{83F5}','\u{83C9}','\u{8409}','\u{840F}','\u{83DE}','\u{8411}','\u{8406}','\u{83C2}',
    '\u{83F3}','\u{83D5}','\u{83FA}','\u{83C7}','\u{83D1}','\u{83EA}','\u{8413}','\u{83C3}',
    '\u{83EC}','\u{83EE}','\u{83C4}','\u{83FB}','\u{83D7}','\u{83E2}','\u{841B}','\u{83DB}',
    '\u{83FE}','\u{86D8}','\u{86E2}','\u{86E6}','\u{86D3}','\u{86E3}','\u{86DA}','\u{86EA}',
    '\u{86DD}','\u{86EB}','\u{86DC}','\u{86EC}','\u{86E9}','\u{86D7}','\u{86E8}','\u{86D1}',
    '\u{8848}','\u{8856}','\u{8855}','\u{88BA}','\u{88D7}','\u{88B9}','\u{88B8}','\u{88C0}',
    '\u{88BE}','\u{88B6}','\u{88BC}','\u{88B7}','\u{88BD}','\u{88B2}','\u{8901}','\u{88C9}',
    '\u{8995}','\u{8998}','\u{8997}','\u{89DD}','\u{89DA}','\u{89DB}','\u{8A4E}','\u{8A4D}',
    '\u{8A39}','\u{8A59}','\u{8A40}','\u{8A57}','\u{8A58}','\u{8A44}','\u{8A45}','\u{8A52}',
    '\u{8A48}','\u{8A51}','\u{8A4A}','\u{8A4C}','\u{8A4F}','\u{8C5F}','\u{8C81}','\u{8C80}',
    '\u{8CBA}','\u{8CBE}','\u{8CB0}','\u{8CB9}','\u{8CB5}','\u{8D84}','\u{8D80}','\u{8D89}',
    '\u{8DD8}','\u{8DD3}','\u{8DCD}','\u{8DC7}','\u{8DD6}','\u{8DDC}','\u{8DCF}','\u{8DD5}',
    '\u{8DD9}','\u{8DC8}','\u{8DD7}','\u{8DC5}','\u{8EEF}','\u{8EF7}','\u{8EFA}','\u{8EF9}',
    '\u{8EE6}','\u{8EEE}','\u{8EE5}','\u{8EF5}','\u{8EE7}','\u{8EE8}','\u{8EF6}','\u{8EEB}',
    '\u{8EF1}','\u{8EEC}','\u{8EF4}','\u{8EE9}','\u{902D}','\u{9034}','\u{902F}','\u{9106}',
    '\u{912C}','\u{9104}','\u{90FF}','\u{90FC}','\u{9108}','\u{90F9}','\u{90FB}','\u{9101}',
    '\u{9100}','\u{9107}','\u{9105}','\u{9103}','\u{9161}','\u{9164}','\u{915F}','\u{9162}',
    '\u{9160}','\u{9201}','\u{920A}','\u{9225}','\u{9203}','\u{921A}','\u{9226}','\u{920F}',
    '\u{920C}','\u{9200}','\u{9212}','\u{91FF}','\u{91FD}','\u{9206}','\u{9204}','\u{9227}',
    '\u{9202}','\u{921C}','\u{9224}','\u{9219}','\u{9217}','\u{9205}','\u{9216}','\u{957B}',
    '\u{958D}','\u{958C}','\u{9590}','\u{9687}','\u{967E}','\u{9688}','\u{9689}','\u{9683}',
    '\u{9680}','\u{96C2}','\u{96C8}','\u{96C3}','\u{96F1}','\u{96F0}','\u{976C}','\u{9770}',
    '\u{976E}','\u{9807}','\u{98A9}','\u{98EB}','\u{9CE6}','\u{9EF9}','\u{4E83}','\u{4E84}',
    '\u{4EB6}','\u{50BD}','\u{50BF}','\u{50C6}','\u{50AE}','\u{50C4}','\u{50CA}','\u{50B4}',
    '\u{50C8}','\u{50C2}','\u{50B0}','\u{50C1}','\u{50BA}','\u{50B1}','\u{50CB}','\u{50C9}',
    '\u{50B6}','\u{50B8}','\u{51D7}','\u{527A}','\u{5278}','\u{527B}','\u{527C}','\u{55C3}',
    '\u{55DB}','\u{55CC}','\u{55D0}','\u{55CB}','\u{55CA}','\u{55DD}','\u{55C0}','\u{55D4}',
    '\u{55C4}','\u{55E9}','\u{55BF}','\u{55D2}','\u{558D}','\u{55CF}','\u{55D5}','\u{55E2}',
    '\u{55D6}','\u{55C8}','\u{55F2}','\u{55CD}','\u{55D9}','\u{55C2}','\u{5714}','\u{5853}',
    '\u{5868}','\u{5864}','\u{584F}','\u{584D}','\u{5849}','\u{586F}','\u{5855}','\u{584E}',
    '\u{585D}','\u{5859}','\u{5865}','\u{585B}','\u{583D}','\u{5863}','\u{5871}','\u{58FC}',
    '\u{5AC7}','\u{5AC4}','\u{5ACB}','\u{5ABA}','\u{5AB8}','\u{5AB1}','\u{5AB5}','\u{5AB0}',
    '\u{5ABF}','\u{5AC8}','\u{5ABB}','\u{5AC6}','\u{5AB7}','\u{5AC0}','\u{5ACA}','\u{5AB4}',
    '\u{5AB6}','\u{5ACD}','\u{5AB9}','\u{5A90}','\u{5BD6}','\u{5BD8}','\u{5BD9}','\u{5C1F}',
    '\u{5C33}','\u{5D71}','\u{5D63}','\u{5D4A}','\u{5D65}','\u{5D72}','\u{5D6C}','\u{5D5E}',
    '\u{5D68}','\u{5D67}','\u{5D62}','\u{5DF0}','\u{5E4F}','\u{5E4E}','\u{5E4A}','\u{5E4D}',
    '\u{5E4B}','\u{5EC5}','\u{5ECC}','\u{5EC6}','\u{5ECB}','\u{5EC7}','\u{5F40}','\u{5FAF}',
    '\u{5FAD}','\u{60F7}','\u{6149}','\u{614A}','\u{612B}','\u{6145}','\u{6136}','\u{6132}',
    '\u{612E}','\u{6146}','\u{612F}','\u{614F}','\u{6129}','\u{6140}','\u{6220}','\u{9168}',
    '\u{6223}','\u{6225}','\u{6224}','\u{63C5}','\u{63F1}','\u{63EB}','\u{6410}','\u{6412}',
    '\u{6409}','\u{6420}','\u{6424}','\u{6433}','\u{6443}','\u{641F}','\u{6415}','\u{6418}',
    '\u{6439}','\u{6437}','\u{6422}','\u{6423}','\u{640C}','\u{6426}','\u{6430}','\u{6428}',
    '\u{6441}','\u{6435}','\u{642F}','\u{640A}','\u{641A}','\u{6440}','\u{6425}','\u{6427}',
    '\u{640B}','\u{63E7}','\u{641B}','\u{642E}','\u{6421}','\u{640E}','\u{656F}','\u{6592}',
    '\u{65D3}','\u{6686}','\u{668C}','\u{6695}','\u{6690}','\u{668B}','\u{668A}','\u{6699}',
    '\u{6694}','\u{6678}','\u{6720}','\u{6966}','\u{695F}','\u{6938}','\u{694E}','\u{6962}',
    '\u{6971}','\u{693F}','\u{6945}','\u{696A}','\u{6939}','\u{6942}','\u{6957}','\u{6959}',
    '\u{697A}','\u{6948}','\u{6949}','\u{6935}','\u{696C}','\u{6933}','\u{693D}','\u{6965}',
    '\u{68F0}','\u{6978}','\u{6934}','\u{6969}','\u{6940}','\u{696F}','\u{6944}','\u{6976}',
    '\u{6958}','\u{6941}','\u{6974}','\u{694C}','\u{693B}','\u{694B}','\u{6937}','\u{695C}',
    '\u{694F}','\u{6951}','\u{6932}','\u{6952}','\u{692F}','\u{697B}','\u{693C}','\u{6B46}',
    '\u{6B45}','\u{6B43}','\u{6B42}','\u{6B48}','\u{6B41}','\u{6B9B}','\u{FA0D}','\u{6BFB}',
    '\u{6BFC}','\u{6BF9}','\u{6BF7}','\u{6BF8}','\u{6E9B}','\u{6ED6}','\u{6EC8}','\u{6E8F}',
    '\u{6EC0}','\u{6E9F}','\u{6E93}','\u{6E94}','\u{6EA0}','\u{6EB1}','\u{6EB9}','\u{6EC6}',
    '\u{6ED2}','\u{6EBD}','\u{6EC1}','\u{6E9E}','\u{6EC9}','\u{6EB7}','\u{6EB0}','\u{6ECD}',
    '\u{6EA6}','\u{6ECF}','\u{6EB2}','\u{6EBE}','\u{6EC3}','\u{6EDC}','\u{6ED8}','\u{6E99}',
    '\u{6E92}','\u{6E8E}','\u{6E8D}','\u{6EA4}','\u{6EA1}','\u{6EBF}','\u{6EB3}','\u{6ED0}',
    '\u{6ECA}','\u{6E97}','\u{6EAE}','\u{6EA3}','\u{7147}','\u{7154}','\u{7152}','\u{7163}',
    '\u{7160}','\u{7141}','\u{715D}','\u{7162}','\u{7172}','\u{7178}','\u{716A}','\u{7161}',
    '\u{7142}','\u{7158}','\u{7143}','\u{714B}','\u{7170}','\u{715F}','\u{7150}','\u{7153}',
    '\u{7144}','\u{714D}','\u{715A}','\u{724F}','\u{728D}','\u{728C}','\u{7291}','\u{7290}',
    '\u{728E}','\u{733C}','\u{7342}','\u{733B}','\u{733A}','\u{7340}','\u{734A}','\u{7349}',
    '\u{7444}','\u{744A}','\u{744B}','\u{7452}','\u{7451}','\u{7457}','\u{7440}','\u{744F}',
    '\u{7450}','\u{744E}','\u{7442}','\u{7446}','\u{744D}','\u{7454}','\u{74E1}','\u{74FF}',
    '\u{74FE}','\u{74FD}','\u{751D}','\u{7579}','\u{7577}','\u{6983}','\u{75EF}','\u{760F}',
    '\u{7603}','\u{75F7}','\u{75FE}','\u{75FC}','\u{75F9}','\u{75F8}','\u{7610}','\u{75FB}',
    '\u{75F6}','\u{75ED}','\u{75F5}','\u{75FD}','\u{7699}','\u{76B5}','\u{76DD}','\u{7755}',
    '\u{775F}','\u{7760}','\u{7752}','\u{7756}','\u{775A}','\u{7769}','\u{7767}','\u{7754}',
    '\u{7759}','\u{776D}','\u{77E0}','\u{7887}','\u{789A}','\u{7894}','\u{788F}','\u{7884}',
    '\u{7895}','\u{7885}','\u{7886}','\u{78A1}','\u{7883}','\u{7879}','\u{7899}','\u{7880}',
    '\u{7896}','\u{787B}','\u{797C}','\u{7982}','\u{797D}','\u{7979}','\u{7A11}','\u{7A18}',
    '\u{7A19}','\u{7A12}','\u{7A17}','\u{7A15}','\u{7A22}','\u{7A13}','\u{7A1B}','\u{7A10}',
    '\u{7AA3}','\u{7AA2}','\u{7A9E}','\u{7AEB}','\u{7B66}','\u{7B64}','\u{7B6D}','\u{7B74}',
    '\u{7B69}','\u{7B72}','\u{7B65}','\u{7B73}','\u{7B71}','\u{7B70}','\u{7B61}','\u{7B78}',
    '\u{7B76}','\u{7B63}','\u{7CB2}','\u{7CB4}','\u{7CAF}','\u{7D88}','\u{7D86}','\u{7D80}',
    '\u{7D8D}','\u{7D7F}','\u{7D85}','\u{7D7A}','\u{7D8E}','\u{7D7B}','\u{7D83}','\u{7D7C}',
    '\u{7D8C}','\u{7D94}','\u{7D84}','\u{7D7D}','\u{7D92}','\u{7F6D}','\u{7F6B}','\u{7F67}',
    '\u{7F68}','\u{7F6C}','\u{7FA6}','\u{7FA5}','\u{7FA7}','\u{7FDB}','\u{7FDC}','\u{8021}',
    '\u{8164}','\u{8160}','\u{8177}','\u{815C}','\u{8169}','\u{815B}','\u{8162}','\u{8172}',
    '\u{6721}','\u{815E}','\u{8176}','\u{8167}','\u{816F}','\u{8144}','\u{8161}','\u{821D}',
    '\u{8249}','\u{8244}','\u{8240}','\u{8242}','\u{8245}','\u{84F1}','\u{843F}','\u{8456}',
    '\u{8476}','\u{8479}','\u{848F}','\u{848D}','\u{8465}','\u{8451}','\u{8440}','\u{8486}',
    '\u{8467}','\u{8430}','\u{844D}','\u{847D}','\u{845A}','\u{8459}','\u{8474}','\u{8473}',
    '\u{845D}','\u{8507}','\u{845E}','\u{8437}','\u{843A}','\u{8434}','\u{847A}','\u{8443}',
    '\u{8478}','\u{8432}','\u{8445}','\u{8429}','\u{83D9}','\u{844B}','\u{842F}','\u{8442}',
    '\u{842D}','\u{845F}','\u{8470}','\u{8439}','\u{844E}','\u{844C}','\u{8452}','\u{846F}',
    '\u{84C5}','\u{848E}','\u{843B}','\u{8447}','\u{8436}','\u{8433}','\u{8468}','\u{847E}',
    '\u{8444}','\u{842B}','\u{8460}','\u{8454}','\u{846E}','\u{8450}','\u{870B}','\u{8704}',
    '\u{86F7}','\u{870C}','\u{86FA}','\u{86D6}','\u{86F5}','\u{874D}','\u{86F8}','\u{870E}',
    '\u{8709}','\u{8701}','\u{86F6}','\u{870D}','\u{8705}','\u{88D6}','\u{88CB}','\u{88CD}',
    '\u{88CE}','\u{88DE}','\u{88DB}','\u{88DA}','\u{88CC}','\u{88D0}','\u{8985}','\u{899B}',
    '\u{89DF}','\u{89E5}','\u{89E4}','\u{89E1}','\u{89E0}','\u{89E2}','\u{89DC}','\u{89E6}',
    '\u{8A76}','\u{8A86}','\u{8A7F}','\u{8A61}','\u{8A3F}','\u{8A77}','\u{8A82}','\u{8A84}',
    '\u{8A75}','\u{8A83}','\u{8A81}','\u{8A74}','\u{8A7A}','\u{8C3C}','\u{8C4B}','\u{8C4A}',
    '\u{8C65}','\u{8C64}','\u{8C66}','\u{8C86}','\u{8C84}','\u{8C85}','\u{8CCC}','\u{8D68}',
    '\u{8D69}','\u{8D91}','\u{8D8C}','\u{8D8E}','\u{8D8F}','\u{8D8D}','\u{8D93}','\u{8D94}',
    '\u{8D90}','\u{8D92}','\u{8DF0}','\u{8DE0}','\u{8DEC}','\u{8DF1}','\u{8DEE}','\u{8DD0}',
    '\u{8DE9}','\u{8DE3}','\u{8DE2}','\u{8DE7}','\u{8DF2}','\u{8DEB}','\u{8DF4}','\u{8F06}',
    '\u{8EFF}','\u{8F01}','\u{8F00}','\u{8F05}','\u{8F07}','\u{8F08}','\u{8F02}','\u{8F0B}',
    '\u{9052}','\u{903F}','\u{9044}','\u{9049}','\u{903D}','\u{9110}','\u{910D}','\u{910F}',
    '\u{9111}','\u{9116}','\u{9114}','\u{910B}','\u{910E}','\u{916E}','\u{916F}','\u{9248}',
    '\u{9252}','\u{9230}','\u{923A}','\u{9266}','\u{9233}','\u{9265}','\u{925E}','\u{9283}',
    '\u{922E}','\u{924A}','\u{9246}','\u{926D}','\u{926C}','\u{924F}','\u{9260}','\u{9267}',
    '\u{926F}','\u{9236}','\u{9261}','\u{9270}','\u{9231}','\u{9254}','\u{9263}','\u{9250}',
    '\u{9272}','\u{924E}','\u{9253}','\u{924C}','\u{9256}','\u{9232}','\u{959F}','\u{959C}',
    '\u{959E}','\u{959B}','\u{9692}','\u{9693}','\u{9691}','\u{9697}','\u{96CE}','\u{96FA}',
    '\u{96FD}','\u{96F8}','\u{96F5}','\u{9773}','\u{9777}','\u{9778}','\u{9772}','\u{980F}',
    '\u{980D}','\u{980E}','\u{98AC}','\u{98F6}','\u{98F9}','\u{99AF}','\u{99B2}','\u{99B0}',
    '\u{99B5}','\u{9AAD}','\u{9AAB}','\u{9B5B}','\u{9CEA}','\u{9CED}','\u{9CE7}','\u{9E80}',
    '\u{9EFD}','\u{50E6}','\u{50D4}','\u{50D7}','\u{50E8}','\u{50F3}','\u{50DB}','\u{50EA}',
    '\u{50DD}','\u{50E4}','\u{50D3}','\u{50EC}','\u{50F0}','\u{50EF}','\u{50E3}','\u{50E0}',
"#

/-- src/generated/whatwg/big5_whatwg_tables.rs.inc:1889-2045 -/
noncomputable def decode12 : List Text := lines! r#"    '\u{51D8}','\u{5280}','\u{5281}','\u{52E9}','\u{52EB}','\u{5330}','\u{53AC}','\u{5627}',
    '\u{5615}','\u{560C}','\u{5612}','\u{55FC}','\u{560F}','\u{561C}','\u{5601}','\u{5613}',
    '\u{5602}','\u{55FA}','\u{561D}','\u{5604}','\u{55FF}','\u{55F9}','\u{5889}','\u{587C}',
    '\u{5890}','\u{5898}','\u{5886}','\u{5881}','\u{587F}','\u{5874}','\u{588B}','\u{587A}',
    '\u{5887}','\u{5891}','\u{588E}','\u{5876}','\u{5882}','\u{5888}','\u{587B}','\u{5894}',
    '\u{588F}','\u{58FE}','\u{596B}','\u{5ADC}','\u{5AEE}','\u{5AE5}','\u{5AD5}','\u{5AEA}',
    '\u{5ADA}','\u{5AED}','\u{5AEB}','\u{5AF3}','\u{5AE2}','\u{5AE0}','\u{5ADB}','\u{5AEC}',
    '\u{5ADE}','\u{5ADD}','\u{5AD9}','\u{5AE8}','\u{5ADF}','\u{5B77}','\u{5BE0}','\u{5BE3}',
    '\u{5C63}','\u{5D82}','\u{5D80}','\u{5D7D}','\u{5D86}','\u{5D7A}','\u{5D81}','\u{5D77}',
    '\u{5D8A}','\u{5D89}','\u{5D88}','\u{5D7E}','\u{5D7C}','\u{5D8D}','\u{5D79}','\u{5D7F}',
    '\u{5E58}','\u{5E59}','\u{5E53}','\u{5ED8}','\u{5ED1}','\u{5ED7}','\u{5ECE}','\u{5EDC}',
    '\u{5ED5}','\u{5ED9}','\u{5ED2}','\u{5ED4}','\u{5F44}','\u{5F43}','\u{5F6F}','\u{5FB6}',
    '\u{612C}','\u{6128}','\u{6141}','\u{615E}','\u{6171}','\u{6173}','\u{6152}','\u{6153}',
    '\u{6172}','\u{616C}','\u{6180}','\u{6174}','\u{6154}','\u{617A}','\u{615B}','\u{6165}',
    '\u{613B}','\u{616A}','\u{6161}','\u{6156}','\u{6229}','\u{6227}','\u{622B}','\u{642B}',
    '\u{644D}','\u{645B}','\u{645D}','\u{6474}','\u{6476}','\u{6472}','\u{6473}','\u{647D}',
    '\u{6475}','\u{6466}','\u{64A6}','\u{644E}','\u{6482}','\u{645E}','\u{645C}','\u{644B}',
    '\u{6453}','\u{6460}','\u{6450}','\u{647F}','\u{643F}','\u{646C}','\u{646B}','\u{6459}',
    '\u{6465}','\u{6477}','\u{6573}','\u{65A0}','\u{66A1}','\u{66A0}','\u{669F}','\u{6705}',
    '\u{6704}','\u{6722}','\u{69B1}','\u{69B6}','\u{69C9}','\u{69A0}','\u{69CE}','\u{6996}',
    '\u{69B0}','\u{69AC}','\u{69BC}','\u{6991}','\u{6999}','\u{698E}','\u{69A7}','\u{698D}',
    '\u{69A9}','\u{69BE}','\u{69AF}','\u{69BF}','\u{69C4}','\u{69BD}','\u{69A4}','\u{69D4}',
    '\u{69B9}','\u{69CA}','\u{699A}','\u{69CF}','\u{69B3}','\u{6993}','\u{69AA}','\u{69A1}',
    '\u{699E}','\u{69D9}','\u{6997}','\u{6990}','\u{69C2}','\u{69B5}','\u{69A5}','\u{69C6}',
    '\u{6B4A}','\u{6B4D}','\u{6B4B}','\u{6B9E}','\u{6B9F}','\u{6BA0}','\u{6BC3}','\u{6BC4}',
    '\u{6BFE}','\u{6ECE}','\u{6EF5}','\u{6EF1}','\u{6F03}','\u{6F25}','\u{6EF8}','\u{6F37}',
    '\u{6EFB}','\u{6F2E}','\u{6F09}','\u{6F4E}','\u{6F19}','\u{6F1A}','\u{6F27}','\u{6F18}',
    '\u{6F3B}','\u{6F12}','\u{6EED}','\u{6F0A}','\u{6F36}','\u{6F73}','\u{6EF9}','\u{6EEE}',
    '\u{6F2D}','\u{6F40}','\u{6F30}','\u{6F3C}','\u{6F35}','\u{6EEB}','\u{6F07}','\u{6F0E}',
    '\u{6F43}','\u{6F05}','\u{6EFD}','\u{6EF6}','\u{6F39}','\u{6F1C}','\u{6EFC}','\u{6F3A}',
    '\u{6F1F}','\u{6F0D}','\u{6F1E}','\u{6F08}','\u{6F21}','\u{7187}','\u{7190}','\u{7189}',
    '\u{7180}','\u{7185}','\u{7182}','\u{718F}','\u{717B}','\u{7186}','\u{7181}','\u{7197}',
    '\u{7244}','\u{7253}','\u{7297}','\u{7295}','\u{7293}','\u{7343}','\u{734D}','\u{7351}',
    '\u{734C}','\u{7462}','\u{7473}','\u{7471}','\u{7475}','\u{7472}','\u{7467}','\u{746E}',
    '\u{7500}','\u{7502}','\u{7503}','\u{757D}','\u{7590}','\u{7616}','\u{7608}','\u{760C}',
    '\u{7615}','\u{7611}','\u{760A}','\u{7614}','\u{76B8}','\u{7781}','\u{777C}','\u{7785}',
    '\u{7782}','\u{776E}','\u{7780}','\u{776F}','\u{777E}','\u{7783}','\u{78B2}','\u{78AA}',
    '\u{78B4}','\u{78AD}','\u{78A8}','\u{787E}','\u{78AB}','\u{789E}','\u{78A5}','\u{78A0}',
    '\u{78AC}','\u{78A2}','\u{78A4}','\u{7998}','\u{798A}','\u{798B}','\u{7996}','\u{7995}',
    '\u{7994}','\u{7993}','\u{7997}','\u{7988}','\u{7992}','\u{7990}','\u{7A2B}','\u{7A4A}',
    '\u{7A30}','\u{7A2F}','\u{7A28}','\u{7A26}','\u{7AA8}','\u{7AAB}','\u{7AAC}','\u{7AEE}',
    '\u{7B88}','\u{7B9C}','\u{7B8A}','\u{7B91}','\u{7B90}','\u{7B96}','\u{7B8D}','\u{7B8C}',
    '\u{7B9B}','\u{7B8E}','\u{7B85}','\u{7B98}','\u{5284}','\u{7B99}','\u{7BA4}','\u{7B82}',
    '\u{7CBB}','\u{7CBF}','\u{7CBC}','\u{7CBA}','\u{7DA7}','\u{7DB7}','\u{7DC2}','\u{7DA3}',
    '\u{7DAA}','\u{7DC1}','\u{7DC0}','\u{7DC5}','\u{7D9D}','\u{7DCE}','\u{7DC4}','\u{7DC6}',
    '\u{7DCB}','\u{7DCC}','\u{7DAF}','\u{7DB9}','\u{7D96}','\u{7DBC}','\u{7D9F}','\u{7DA6}',
    '\u{7DAE}','\u{7DA9}','\u{7DA1}','\u{7DC9}','\u{7F73}','\u{7FE2}','\u{7FE3}','\u{7FE5}',
    '\u{7FDE}','\u{8024}','\u{805D}','\u{805C}','\u{8189}','\u{8186}','\u{8183}','\u{8187}',
    '\u{818D}','\u{818C}','\u{818B}','\u{8215}','\u{8497}','\u{84A4}','\u{84A1}','\u{849F}',
    '\u{84BA}','\u{84CE}','\u{84C2}','\u{84AC}','\u{84AE}','\u{84AB}','\u{84B9}','\u{84B4}',
    '\u{84C1}','\u{84CD}','\u{84AA}','\u{849A}','\u{84B1}','\u{84D0}','\u{849D}','\u{84A7}',
    '\u{84BB}','\u{84A2}','\u{8494}','\u{84C7}','\u{84CC}','\u{849B}','\u{84A9}','\u{84AF}',
    '\u{84A8}','\u{84D6}','\u{8498}','\u{84B6}','\u{84CF}','\u{84A0}','\u{84D7}','\u{84D4}',
    '\u{84D2}','\u{84DB}','\u{84B0}','\u{8491}','\u{8661}','\u{8733}','\u{8723}','\u{8728}',
    '\u{876B}','\u{8740}','\u{872E}','\u{871E}','\u{8721}','\u{8719}','\u{871B}','\u{8743}',
    '\u{872C}','\u{8741}','\u{873E}','\u{8746}','\u{8720}','\u{8732}','\u{872A}','\u{872D}',
    '\u{873C}','\u{8712}','\u{873A}','\u{8731}','\u{8735}','\u{8742}','\u{8726}','\u{8727}',
    '\u{8738}','\u{8724}','\u{871A}','\u{8730}','\u{8711}','\u{88F7}','\u{88E7}','\u{88F1}',
    '\u{88F2}','\u{88FA}','\u{88FE}','\u{88EE}','\u{88FC}','\u{88F6}','\u{88FB}','\u{88F0}',
    '\u{88EC}','\u{88EB}','\u{899D}','\u{89A1}','\u{899F}','\u{899E}','\u{89E9}','\u{89EB}',
    '\u{89E8}','\u{8AAB}','\u{8A99}','\u{8A8B}','\u{8A92}','\u{8A8F}','\u{8A96}','\u{8C3D}',
    '\u{8C68}','\u{8C69}','\u{8CD5}','\u{8CCF}','\u{8CD7}','\u{8D96}','\u{8E09}','\u{8E02}',
    '\u{8DFF}','\u{8E0D}','\u{8DFD}','\u{8E0A}','\u{8E03}','\u{8E07}','\u{8E06}','\u{8E05}',
    '\u{8DFE}','\u{8E00}','\u{8E04}','\u{8F10}','\u{8F11}','\u{8F0E}','\u{8F0D}','\u{9123}',
    '\u{911C}','\u{9120}','\u{9122}','\u{911F}','\u{911D}','\u{911A}','\u{9124}','\u{9121}',
    '\u{911B}','\u{917A}','\u{9172}','\u{9179}','\u{9173}','\u{92A5}','\u{92A4}','\u{9276}',
    '\u{929B}','\u{927A}','\u{92A0}','\u{9294}','\u{92AA}','\u{928D}','\u{92A6}','\u{929A}',
    '\u{92AB}','\u{9279}','\u{9297}','\u{927F}','\u{92A3}','\u{92EE}','\u{928E}','\u{9282}',
    '\u{9295}','\u{92A2}','\u{927D}','\u{9288}','\u{92A1}','\u{928A}','\u{9286}','\u{928C}',
    '\u{9299}','\u{92A7}','\u{927E}','\u{9287}','\u{92A9}','\u{929D}','\u{928B}','\u{922D}',
    '\u{969E}','\u{96A1}','\u{96FF}','\u{9758}','\u{977D}','\u{977A}','\u{977E}','\u{9783}',
    '\u{9780}','\u{9782}','\u{977B}','\u{9784}','\u{9781}','\u{977F}','\u{97CE}','\u{97CD}',
    '\u{9816}','\u{98AD}','\u{98AE}','\u{9902}','\u{9900}','\u{9907}','\u{999D}','\u{999C}',
    '\u{99C3}','\u{99B9}','\u{99BB}','\u{99BA}','\u{99C2}','\u{99BD}','\u{99C7}','\u{9AB1}',
    '\u{9AE3}','\u{9AE7}','\u{9B3E}','\u{9B3F}','\u{9B60}','\u{9B61}','\u{9B5F}','\u{9CF1}',
    '\u{9CF2}','\u{9CF5}','\u{9EA7}','\u{50FF}','\u{5103}','\u{5130}','\u{50F8}','\u{5106}',
    '\u{5107}','\u{50F6}','\u{50FE}','\u{510B}','\u{510C}','\u{50FD}','\u{510A}','\u{528B}',
    '\u{528C}','\u{52F1}','\u{52EF}','\u{5648}','\u{5642}','\u{564C}','\u{5635}','\u{5641}',
    '\u{564A}','\u{5649}','\u{5646}','\u{5658}','\u{565A}','\u{5640}','\u{5633}','\u{563D}',
    '\u{562C}','\u{563E}','\u{5638}','\u{562A}','\u{563A}','\u{571A}','\u{58AB}','\u{589D}',
    '\u{58B1}','\u{58A0}','\u{58A3}','\u{58AF}','\u{58AC}','\u{58A5}','\u{58A1}','\u{58FF}',
    '\u{5AFF}','\u{5AF4}','\u{5AFD}','\u{5AF7}','\u{5AF6}','\u{5B03}','\u{5AF8}','\u{5B02}',
    '\u{5AF9}','\u{5B01}','\u{5B07}','\u{5B05}','\u{5B0F}','\u{5C67}','\u{5D99}','\u{5D97}',
    '\u{5D9F}','\u{5D92}','\u{5DA2}','\u{5D93}','\u{5D95}','\u{5DA0}','\u{5D9C}','\u{5DA1}',
    '\u{5D9A}','\u{5D9E}','\u{5E69}','\u{5E5D}','\u{5E60}','\u{5E5C}','\u{7DF3}','\u{5EDB}',
    '\u{5EDE}','\u{5EE1}','\u{5F49}','\u{5FB2}','\u{618B}','\u{6183}','\u{6179}','\u{61B1}',
    '\u{61B0}','\u{61A2}','\u{6189}','\u{619B}','\u{6193}','\u{61AF}','\u{61AD}','\u{619F}',
    '\u{6192}','\u{61AA}','\u{61A1}','\u{618D}','\u{6166}','\u{61B3}','\u{622D}','\u{646E}',
    '\u{6470}','\u{6496}','\u{64A0}','\u{6485}','\u{6497}','\u{649C}','\u{648F}','\u{648B}',
    '\u{648A}','\u{648C}','\u{64A3}','\u{649F}','\u{6468}','\u{64B1}','\u{6498}','\u{6576}',
    '\u{657A}','\u{6579}','\u{657B}','\u{65B2}','\u{65B3}','\u{66B5}','\u{66B0}','\u{66A9}',
    '\u{66B2}','\u{66B7}','\u{66AA}','\u{66AF}','\u{6A00}','\u{6A06}','\u{6A17}','\u{69E5}',
    '\u{69F8}','\u{6A15}','\u{69F1}','\u{69E4}','\u{6A20}','\u{69FF}','\u{69EC}','\u{69E2}',
    '\u{6A1B}','\u{6A1D}','\u{69FE}','\u{6A27}','\u{69F2}','\u{69EE}','\u{6A14}','\u{69F7}',
    '\u{69E7}','\u{6A40}','\u{6A08}','\u{69E6}','\u{69FB}','\u{6A0D}','\u{69FC}','\u{69EB}',
    '\u{6A09}','\u{6A04}','\u{6A18}','\u{6A25}','\u{6A0F}','\u{69F6}','\u{6A26}','\u{6A07}',
    '\u{69F4}','\u{6A16}','\u{6B51}','\u{6BA5}','\u{6BA3}','\u{6BA2}','\u{6BA6}','\u{6C01}',
    '\u{6C00}','\u{6BFF}','\u{6C02}','\u{6F41}','\u{6F26}','\u{6F7E}','\u{6F87}','\u{6FC6}',
    '\u{6F92}','\u{6F8D}','\u{6F89}','\u{6F8C}','\u{6F62}','\u{6F4F}','\u{6F85}','\u{6F5A}',
    '\u{6F96}','\u{6F76}','\u{6F6C}','\u{6F82}','\u{6F55}','\u{6F72}','\u{6F52}','\u{6F50}',
    '\u{6F57}','\u{6F94}','\u{6F93}','\u{6F5D}','\u{6F00}','\u{6F61}','\u{6F6B}','\u{6F7D}',
    '\u{6F67}','\u{6F90}','\u{6F53}','\u{6F8B}','\u{6F69}','\u{6F7F}','\u{6F95}','\u{6F63}',
    '\u{6F77}','\u{6F6A}','\u{6F7B}','\u{71B2}','\u{71AF}','\u{719B}','\u{71B0}','\u{71A0}',
    '\u{719A}','\u{71A9}','\u{71B5}','\u{719D}','\u{71A5}','\u{719E}','\u{71A4}','\u{71A1}',
    '\u{71AA}','\u{719C}','\u{71A7}','\u{71B3}','\u{7298}','\u{729A}','\u{7358}','\u{7352}',
    '\u{735E}','\u{735F}','\u{7360}','\u{735D}','\u{735B}','\u{7361}','\u{735A}','\u{7359}',
    '\u{7362}','\u{7487}','\u{7489}','\u{748A}','\u{7486}','\u{7481}','\u{747D}','\u{7485}',
    '\u{7488}','\u{747C}','\u{7479}','\u{7508}','\u{7507}','\u{757E}','\u{7625}','\u{761E}',
    '\u{7619}','\u{761D}','\u{761C}','\u{7623}','\u{761A}','\u{7628}','\u{761B}','\u{769C}',
    '\u{769D}','\u{769E}','\u{769B}','\u{778D}','\u{778F}','\u{7789}','\u{7788}','\u{78CD}',
    '\u{78BB}','\u{78CF}','\u{78CC}','\u{78D1}','\u{78CE}','\u{78D4}','\u{78C8}','\u{78C3}',
    '\u{78C4}','\u{78C9}','\u{799A}','\u{79A1}','\u{79A0}','\u{799C}','\u{79A2}','\u{799B}',
    '\u{6B76}','\u{7A39}','\u{7AB2}','\u{7AB4}','\u{7AB3}','\u{7BB7}','\u{7BCB}','\u{7BBE}',
    '\u{7BAC}','\u{7BCE}','\u{7BAF}','\u{7BB9}','\u{7BCA}','\u{7BB5}','\u{7CC5}','\u{7CC8}',
    '\u{7CCC}','\u{7CCB}','\u{7DF7}','\u{7DDB}','\u{7DEA}','\u{7DE7}','\u{7DD7}','\u{7DE1}',
    '\u{7E03}','\u{7DFA}','\u{7DE6}','\u{7DF6}','\u{7DF1}','\u{7DF0}','\u{7DEE}','\u{7DDF}',
    '\u{7F76}','\u{7FAC}','\u{7FB0}','\u{7FAD}','\u{7FED}','\u{7FEB}','\u{7FEA}','\u{7FEC}',
    '\u{7FE6}','\u{7FE8}','\u{8064}','\u{8067}','\u{81A3}','\u{819F}','\u{819E}','\u{8195}',
    '\u{81A2}','\u{8199}','\u{8197}','\u{8216}','\u{824F}','\u{8253}','\u{8252}','\u{8250}',
    '\u{824E}','\u{8251}','\u{8524}','\u{853B}','\u{850F}','\u{8500}','\u{8529}','\u{850E}',
    '\u{8509}','\u{850D}','\u{851F}','\u{850A}','\u{8527}','\u{851C}','\u{84FB}','\u{852B}',
    '\u{84FA}','\u{8508}','\u{850C}','\u{84F4}','\u{852A}','\u{84F2}','\u{8515}','\u{84F7}',
    '\u{84EB}','\u{84F3}','\u{84FC}','\u{8512}','\u{84EA}','\u{84E9}','\u{8516}','\u{84FE}',
    '\u{8528}','\u{851D}','\u{852E}','\u{8502}','\u{84FD}','\u{851E}','\u{84F6}','\u{8531}',
    '\u{8526}','\u{84E7}','\u{84E8}','\u{84F0}','\u{84EF}','\u{84F9}','\u{8518}','\u{8520}',
    '\u{8530}','\u{850B}','\u{8519}','\u{852F}','\u{8662}','\u{8756}','\u{8763}','\u{8764}',
    '\u{8777}','\u{87E1}','\u{8773}','\u{8758}','\u{8754}','\u{875B}','\u{8752}','\u{8761}',
    '\u{875A}','\u{8751}','\u{875E}','\u{876D}','\u{876A}','\u{8750}','\u{874E}','\u{875F}',
    '\u{875D}','\u{876F}','\u{876C}','\u{877A}','\u{876E}','\u{875C}','\u{8765}','\u{874F}',
    '\u{877B}','\u{8775}','\u{8762}','\u{8767}','\u{8769}','\u{885A}','\u{8905}','\u{890C}',
    '\u{8914}','\u{890B}','\u{8917}','\u{8918}','\u{8919}','\u{8906}','\u{8916}','\u{8911}',
    '\u{890E}','\u{8909}','\u{89A2}','\u{89A4}','\u{89A3}','\u{89ED}','\u{89F0}','\u{89EC}',
    '\u{8ACF}','\u{8AC6}','\u{8AB8}','\u{8AD3}','\u{8AD1}','\u{8AD4}','\u{8AD5}','\u{8ABB}',
    '\u{8AD7}','\u{8ABE}','\u{8AC0}','\u{8AC5}','\u{8AD8}','\u{8AC3}','\u{8ABA}','\u{8ABD}',
    '\u{8AD9}','\u{8C3E}','\u{8C4D}','\u{8C8F}','\u{8CE5}','\u{8CDF}','\u{8CD9}','\u{8CE8}',
    '\u{8CDA}','\u{8CDD}','\u{8CE7}','\u{8DA0}','\u{8D9C}','\u{8DA1}','\u{8D9B}','\u{8E20}',
    '\u{8E23}','\u{8E25}','\u{8E24}','\u{8E2E}','\u{8E15}','\u{8E1B}','\u{8E16}','\u{8E11}',
    '\u{8E19}','\u{8E26}','\u{8E27}','\u{8E14}','\u{8E12}','\u{8E18}','\u{8E13}','\u{8E1C}',
    '\u{8E17}','\u{8E1A}','\u{8F2C}','\u{8F24}','\u{8F18}','\u{8F1A}','\u{8F20}','\u{8F23}',
    '\u{8F16}','\u{8F17}','\u{9073}','\u{9070}','\u{906F}','\u{9067}','\u{906B}','\u{912F}',
    '\u{912B}','\u{9129}','\u{912A}','\u{9132}','\u{9126}','\u{912E}','\u{9185}','\u{9186}',
    '\u{918A}','\u{9181}','\u{9182}','\u{9184}','\u{9180}','\u{92D0}','\u{92C3}','\u{92C4}',
    '\u{92C0}','\u{92D9}','\u{92B6}','\u{92CF}','\u{92F1}','\u{92DF}','\u{92D8}','\u{92E9}',
    '\u{92D7}','\u{92DD}','\u{92CC}','\u{92EF}','\u{92C2}','\u{92E8}','\u{92CA}','\u{92C8}',
    '\u{92CE}','\u{92E6}','\u{92CD}','\u{92D5}','\u{92C9}','\u{92E0}','\u{92DE}','\u{92E7}',
    '\u{92D1}','\u{92D3}','\u{92B5}','\u{92E1}','\u{92C6}','\u{92B4}','\u{957C}','\u{95AC}',
    '\u{95AB}','\u{95AE}','\u{95B0}','\u{96A4}','\u{96A2}','\u{96D3}','\u{9705}','\u{9708}',
    '\u{9702}','\u{975A}','\u{978A}','\u{978E}','\u{9788}','\u{97D0}','\u{97CF}','\u{981E}',
    '\u{981D}','\u{9826}','\u{9829}','\u{9828}','\u{9820}','\u{981B}','\u{9827}','\u{98B2}',
    '\u{9908}','\u{98FA}','\u{9911}','\u{9914}','\u{9916}','\u{9917}','\u{9915}','\u{99DC}',
    '\u{99CD}','\u{99CF}','\u{99D3}','\u{99D4}','\u{99CE}','\u{99C9}','\u{99D6}','\u{99D8}',
    '\u{99CB}','\u{99D7}','\u{99CC}','\u{9AB3}','\u{9AEC}','\u{9AEB}','\u{9AF3}','\u{9AF2}',
    '\u{9AF1}','\u{9B46}','\u{9B43}','\u{9B67}','\u{9B74}','\u{9B71}','\u{9B66}','\u{9B76}',
    '\u{9B75}','\u{9B70}','\u{9B68}','\u{9B64}','\u{9B6C}','\u{9CFC}','\u{9CFA}','\u{9CFD}',
    '\u{9CFF}','\u{9CF7}','\u{9D07}','\u{9D00}','\u{9CF9}','\u{9CFB}','\u{9D08}','\u{9D05}',
    '\u{9D04}','\u{9E83}','\u{9ED3}','\u{9F0F}','\u{9F10}','\u{511C}','\u{5113}','\u{5117}',
    '\u{511A}','\u{5111}','\u{51DE}','\u{5334}','\u{53E1}','\u{5670}','\u{5660}','\u{566E}',
"#

/-- src/generated/whatwg/big5_whatwg_tables.rs.inc:2046-2202 -/
noncomputable def decode13 : List Text := lines! r#"    '\u{5673}','\u{5666}','\u{5663}','\u{566D}','\u{5672}','\u{565E}','\u{5677}','\u{571C}',
    '\u{571B}','\u{58C8}','\u{58BD}','\u{58C9}','\u{58BF}','\u{58BA}','\u{58C2}','\u{58BC}',
    '\u{58C6}','\u{5B17}','\u{5B19}','\u{5B1B}','\u{5B21}','\u{5B14}','\u{5B13}','\u{5B10}',
    '\u{5B16}','\u{5B28}','\u{5B1A}','\u{5B20}','\u{5B1E}','\u{5BEF}','\u{5DAC}','\u{5DB1}',
    '\u{5DA9}','\u{5DA7}','\u{5DB5}','\u{5DB0}','\u{5DAE}','\u{5DAA}','\u{5DA8}','\u{5DB2}',
    '\u{5DAD}','\u{5DAF}','\u{5DB4}','\u{5E67}','\u{5E68}','\u{5E66}','\u{5E6F}','\u{5EE9}',
    '\u{5EE7}','\u{5EE6}','\u{5EE8}','\u{5EE5}','\u{5F4B}','\u{5FBC}','\u{619D}','\u{61A8}',
    '\u{6196}','\u{61C5}','\u{61B4}','\u{61C6}','\u{61C1}','\u{61CC}','\u{61BA}','\u{61BF}',
    '\u{61B8}','\u{618C}','\u{64D7}','\u{64D6}','\u{64D0}','\u{64CF}','\u{64C9}','\u{64BD}',
    '\u{6489}','\u{64C3}','\u{64DB}','\u{64F3}','\u{64D9}','\u{6533}','\u{657F}','\u{657C}',
    '\u{65A2}','\u{66C8}','\u{66BE}','\u{66C0}','\u{66CA}','\u{66CB}','\u{66CF}','\u{66BD}',
    '\u{66BB}','\u{66BA}','\u{66CC}','\u{6723}','\u{6A34}','\u{6A66}','\u{6A49}','\u{6A67}',
    '\u{6A32}','\u{6A68}','\u{6A3E}','\u{6A5D}','\u{6A6D}','\u{6A76}','\u{6A5B}','\u{6A51}',
    '\u{6A28}','\u{6A5A}','\u{6A3B}','\u{6A3F}','\u{6A41}','\u{6A6A}','\u{6A64}','\u{6A50}',
    '\u{6A4F}','\u{6A54}','\u{6A6F}','\u{6A69}','\u{6A60}','\u{6A3C}','\u{6A5E}','\u{6A56}',
    '\u{6A55}','\u{6A4D}','\u{6A4E}','\u{6A46}','\u{6B55}','\u{6B54}','\u{6B56}','\u{6BA7}',
    '\u{6BAA}','\u{6BAB}','\u{6BC8}','\u{6BC7}','\u{6C04}','\u{6C03}','\u{6C06}','\u{6FAD}',
    '\u{6FCB}','\u{6FA3}','\u{6FC7}','\u{6FBC}','\u{6FCE}','\u{6FC8}','\u{6F5E}','\u{6FC4}',
    '\u{6FBD}','\u{6F9E}','\u{6FCA}','\u{6FA8}','\u{7004}','\u{6FA5}','\u{6FAE}','\u{6FBA}',
    '\u{6FAC}','\u{6FAA}','\u{6FCF}','\u{6FBF}','\u{6FB8}','\u{6FA2}','\u{6FC9}','\u{6FAB}',
    '\u{6FCD}','\u{6FAF}','\u{6FB2}','\u{6FB0}','\u{71C5}','\u{71C2}','\u{71BF}','\u{71B8}',
    '\u{71D6}','\u{71C0}','\u{71C1}','\u{71CB}','\u{71D4}','\u{71CA}','\u{71C7}','\u{71CF}',
    '\u{71BD}','\u{71D8}','\u{71BC}','\u{71C6}','\u{71DA}','\u{71DB}','\u{729D}','\u{729E}',
    '\u{7369}','\u{7366}','\u{7367}','\u{736C}','\u{7365}','\u{736B}','\u{736A}','\u{747F}',
    '\u{749A}','\u{74A0}','\u{7494}','\u{7492}','\u{7495}','\u{74A1}','\u{750B}','\u{7580}',
    '\u{762F}','\u{762D}','\u{7631}','\u{763D}','\u{7633}','\u{763C}','\u{7635}','\u{7632}',
    '\u{7630}','\u{76BB}','\u{76E6}','\u{779A}','\u{779D}','\u{77A1}','\u{779C}','\u{779B}',
    '\u{77A2}','\u{77A3}','\u{7795}','\u{7799}','\u{7797}','\u{78DD}','\u{78E9}','\u{78E5}',
    '\u{78EA}','\u{78DE}','\u{78E3}','\u{78DB}','\u{78E1}','\u{78E2}','\u{78ED}','\u{78DF}',
    '\u{78E0}','\u{79A4}','\u{7A44}','\u{7A48}','\u{7A47}','\u{7AB6}','\u{7AB8}','\u{7AB5}',
    '\u{7AB1}','\u{7AB7}','\u{7BDE}','\u{7BE3}','\u{7BE7}','\u{7BDD}','\u{7BD5}','\u{7BE5}',
    '\u{7BDA}','\u{7BE8}','\u{7BF9}','\u{7BD4}','\u{7BEA}','\u{7BE2}','\u{7BDC}','\u{7BEB}',
    '\u{7BD8}','\u{7BDF}','\u{7CD2}','\u{7CD4}','\u{7CD7}','\u{7CD0}','\u{7CD1}','\u{7E12}',
    '\u{7E21}','\u{7E17}','\u{7E0C}','\u{7E1F}','\u{7E20}','\u{7E13}','\u{7E0E}','\u{7E1C}',
    '\u{7E15}','\u{7E1A}','\u{7E22}','\u{7E0B}','\u{7E0F}','\u{7E16}','\u{7E0D}','\u{7E14}',
    '\u{7E25}','\u{7E24}','\u{7F43}','\u{7F7B}','\u{7F7C}','\u{7F7A}','\u{7FB1}','\u{7FEF}',
    '\u{802A}','\u{8029}','\u{806C}','\u{81B1}','\u{81A6}','\u{81AE}','\u{81B9}','\u{81B5}',
    '\u{81AB}','\u{81B0}','\u{81AC}','\u{81B4}','\u{81B2}','\u{81B7}','\u{81A7}','\u{81F2}',
    '\u{8255}','\u{8256}','\u{8257}','\u{8556}','\u{8545}','\u{856B}','\u{854D}','\u{8553}',
    '\u{8561}','\u{8558}','\u{8540}','\u{8546}','\u{8564}','\u{8541}','\u{8562}','\u{8544}',
    '\u{8551}','\u{8547}','\u{8563}','\u{853E}','\u{855B}','\u{8571}','\u{854E}','\u{856E}',
    '\u{8575}','\u{8555}','\u{8567}','\u{8560}','\u{858C}','\u{8566}','\u{855D}','\u{8554}',
    '\u{8565}','\u{856C}','\u{8663}','\u{8665}','\u{8664}','\u{879B}','\u{878F}','\u{8797}',
    '\u{8793}','\u{8792}','\u{8788}','\u{8781}','\u{8796}','\u{8798}','\u{8779}','\u{8787}',
    '\u{87A3}','\u{8785}','\u{8790}','\u{8791}','\u{879D}','\u{8784}','\u{8794}','\u{879C}',
    '\u{879A}','\u{8789}','\u{891E}','\u{8926}','\u{8930}','\u{892D}','\u{892E}','\u{8927}',
    '\u{8931}','\u{8922}','\u{8929}','\u{8923}','\u{892F}','\u{892C}','\u{891F}','\u{89F1}',
    '\u{8AE0}','\u{8AE2}','\u{8AF2}','\u{8AF4}','\u{8AF5}','\u{8ADD}','\u{8B14}','\u{8AE4}',
    '\u{8ADF}','\u{8AF0}','\u{8AC8}','\u{8ADE}','\u{8AE1}','\u{8AE8}','\u{8AFF}','\u{8AEF}',
    '\u{8AFB}','\u{8C91}','\u{8C92}','\u{8C90}','\u{8CF5}','\u{8CEE}','\u{8CF1}','\u{8CF0}',
    '\u{8CF3}','\u{8D6C}','\u{8D6E}','\u{8DA5}','\u{8DA7}','\u{8E33}','\u{8E3E}','\u{8E38}',
    '\u{8E40}','\u{8E45}','\u{8E36}','\u{8E3C}','\u{8E3D}','\u{8E41}','\u{8E30}','\u{8E3F}',
    '\u{8EBD}','\u{8F36}','\u{8F2E}','\u{8F35}','\u{8F32}','\u{8F39}','\u{8F37}','\u{8F34}',
    '\u{9076}','\u{9079}','\u{907B}','\u{9086}','\u{90FA}','\u{9133}','\u{9135}','\u{9136}',
    '\u{9193}','\u{9190}','\u{9191}','\u{918D}','\u{918F}','\u{9327}','\u{931E}','\u{9308}',
    '\u{931F}','\u{9306}','\u{930F}','\u{937A}','\u{9338}','\u{933C}','\u{931B}','\u{9323}',
    '\u{9312}','\u{9301}','\u{9346}','\u{932D}','\u{930E}','\u{930D}','\u{92CB}','\u{931D}',
    '\u{92FA}','\u{9325}','\u{9313}','\u{92F9}','\u{92F7}','\u{9334}','\u{9302}','\u{9324}',
    '\u{92FF}','\u{9329}','\u{9339}','\u{9335}','\u{932A}','\u{9314}','\u{930C}','\u{930B}',
    '\u{92FE}','\u{9309}','\u{9300}','\u{92FB}','\u{9316}','\u{95BC}','\u{95CD}','\u{95BE}',
    '\u{95B9}','\u{95BA}','\u{95B6}','\u{95BF}','\u{95B5}','\u{95BD}','\u{96A9}','\u{96D4}',
    '\u{970B}','\u{9712}','\u{9710}','\u{9799}','\u{9797}','\u{9794}','\u{97F0}','\u{97F8}',
    '\u{9835}','\u{982F}','\u{9832}','\u{9924}','\u{991F}','\u{9927}','\u{9929}','\u{999E}',
    '\u{99EE}','\u{99EC}','\u{99E5}','\u{99E4}','\u{99F0}','\u{99E3}','\u{99EA}','\u{99E9}',
    '\u{99E7}','\u{9AB9}','\u{9ABF}','\u{9AB4}','\u{9ABB}','\u{9AF6}','\u{9AFA}','\u{9AF9}',
    '\u{9AF7}','\u{9B33}','\u{9B80}','\u{9B85}','\u{9B87}','\u{9B7C}','\u{9B7E}','\u{9B7B}',
    '\u{9B82}','\u{9B93}','\u{9B92}','\u{9B90}','\u{9B7A}','\u{9B95}','\u{9B7D}','\u{9B88}',
    '\u{9D25}','\u{9D17}','\u{9D20}','\u{9D1E}','\u{9D14}','\u{9D29}','\u{9D1D}','\u{9D18}',
    '\u{9D22}','\u{9D10}','\u{9D19}','\u{9D1F}','\u{9E88}','\u{9E86}','\u{9E87}','\u{9EAE}',
    '\u{9EAD}','\u{9ED5}','\u{9ED6}','\u{9EFA}','\u{9F12}','\u{9F3D}','\u{5126}','\u{5125}',
    '\u{5122}','\u{5124}','\u{5120}','\u{5129}','\u{52F4}','\u{5693}','\u{568C}','\u{568D}',
    '\u{5686}','\u{5684}','\u{5683}','\u{567E}','\u{5682}','\u{567F}','\u{5681}','\u{58D6}',
    '\u{58D4}','\u{58CF}','\u{58D2}','\u{5B2D}','\u{5B25}','\u{5B32}','\u{5B23}','\u{5B2C}',
    '\u{5B27}','\u{5B26}','\u{5B2F}','\u{5B2E}','\u{5B7B}','\u{5BF1}','\u{5BF2}','\u{5DB7}',
    '\u{5E6C}','\u{5E6A}','\u{5FBE}','\u{5FBB}','\u{61C3}','\u{61B5}','\u{61BC}','\u{61E7}',
    '\u{61E0}','\u{61E5}','\u{61E4}','\u{61E8}','\u{61DE}','\u{64EF}','\u{64E9}','\u{64E3}',
    '\u{64EB}','\u{64E4}','\u{64E8}','\u{6581}','\u{6580}','\u{65B6}','\u{65DA}','\u{66D2}',
    '\u{6A8D}','\u{6A96}','\u{6A81}','\u{6AA5}','\u{6A89}','\u{6A9F}','\u{6A9B}','\u{6AA1}',
    '\u{6A9E}','\u{6A87}','\u{6A93}','\u{6A8E}','\u{6A95}','\u{6A83}','\u{6AA8}','\u{6AA4}',
    '\u{6A91}','\u{6A7F}','\u{6AA6}','\u{6A9A}','\u{6A85}','\u{6A8C}','\u{6A92}','\u{6B5B}',
    '\u{6BAD}','\u{6C09}','\u{6FCC}','\u{6FA9}','\u{6FF4}','\u{6FD4}','\u{6FE3}','\u{6FDC}',
    '\u{6FED}','\u{6FE7}','\u{6FE6}','\u{6FDE}','\u{6FF2}','\u{6FDD}','\u{6FE2}','\u{6FE8}',
    '\u{71E1}','\u{71F1}','\u{71E8}','\u{71F2}','\u{71E4}','\u{71F0}','\u{71E2}','\u{7373}',
    '\u{736E}','\u{736F}','\u{7497}','\u{74B2}','\u{74AB}','\u{7490}','\u{74AA}','\u{74AD}',
    '\u{74B1}','\u{74A5}','\u{74AF}','\u{7510}','\u{7511}','\u{7512}','\u{750F}','\u{7584}',
    '\u{7643}','\u{7648}','\u{7649}','\u{7647}','\u{76A4}','\u{76E9}','\u{77B5}','\u{77AB}',
    '\u{77B2}','\u{77B7}','\u{77B6}','\u{77B4}','\u{77B1}','\u{77A8}','\u{77F0}','\u{78F3}',
    '\u{78FD}','\u{7902}','\u{78FB}','\u{78FC}','\u{78F2}','\u{7905}','\u{78F9}','\u{78FE}',
    '\u{7904}','\u{79AB}','\u{79A8}','\u{7A5C}','\u{7A5B}','\u{7A56}','\u{7A58}','\u{7A54}',
    '\u{7A5A}','\u{7ABE}','\u{7AC0}','\u{7AC1}','\u{7C05}','\u{7C0F}','\u{7BF2}','\u{7C00}',
    '\u{7BFF}','\u{7BFB}','\u{7C0E}','\u{7BF4}','\u{7C0B}','\u{7BF3}','\u{7C02}','\u{7C09}',
    '\u{7C03}','\u{7C01}','\u{7BF8}','\u{7BFD}','\u{7C06}','\u{7BF0}','\u{7BF1}','\u{7C10}',
    '\u{7C0A}','\u{7CE8}','\u{7E2D}','\u{7E3C}','\u{7E42}','\u{7E33}','\u{9848}','\u{7E38}',
    '\u{7E2A}','\u{7E49}','\u{7E40}','\u{7E47}','\u{7E29}','\u{7E4C}','\u{7E30}','\u{7E3B}',
    '\u{7E36}','\u{7E44}','\u{7E3A}','\u{7F45}','\u{7F7F}','\u{7F7E}','\u{7F7D}','\u{7FF4}',
    '\u{7FF2}','\u{802C}','\u{81BB}','\u{81C4}','\u{81CC}','\u{81CA}','\u{81C5}','\u{81C7}',
    '\u{81BC}','\u{81E9}','\u{825B}','\u{825A}','\u{825C}','\u{8583}','\u{8580}','\u{858F}',
    '\u{85A7}','\u{8595}','\u{85A0}','\u{858B}','\u{85A3}','\u{857B}','\u{85A4}','\u{859A}',
    '\u{859E}','\u{8577}','\u{857C}','\u{8589}','\u{85A1}','\u{857A}','\u{8578}','\u{8557}',
    '\u{858E}','\u{8596}','\u{8586}','\u{858D}','\u{8599}','\u{859D}','\u{8581}','\u{85A2}',
    '\u{8582}','\u{8588}','\u{8585}','\u{8579}','\u{8576}','\u{8598}','\u{8590}','\u{859F}',
    '\u{8668}','\u{87BE}','\u{87AA}','\u{87AD}','\u{87C5}','\u{87B0}','\u{87AC}','\u{87B9}',
    '\u{87B5}','\u{87BC}','\u{87AE}','\u{87C9}','\u{87C3}','\u{87C2}','\u{87CC}','\u{87B7}',
    '\u{87AF}','\u{87C4}','\u{87CA}','\u{87B4}','\u{87B6}','\u{87BF}','\u{87B8}','\u{87BD}',
    '\u{87DE}','\u{87B2}','\u{8935}','\u{8933}','\u{893C}','\u{893E}','\u{8941}','\u{8952}',
    '\u{8937}','\u{8942}','\u{89AD}','\u{89AF}','\u{89AE}','\u{89F2}','\u{89F3}','\u{8B1E}',
    '\u{8B18}','\u{8B16}','\u{8B11}','\u{8B05}','\u{8B0B}','\u{8B22}','\u{8B0F}','\u{8B12}',
    '\u{8B15}','\u{8B07}','\u{8B0D}','\u{8B08}','\u{8B06}','\u{8B1C}','\u{8B13}','\u{8B1A}',
    '\u{8C4F}','\u{8C70}','\u{8C72}','\u{8C71}','\u{8C6F}','\u{8C95}','\u{8C94}','\u{8CF9}',
    '\u{8D6F}','\u{8E4E}','\u{8E4D}','\u{8E53}','\u{8E50}','\u{8E4C}','\u{8E47}','\u{8F43}',
    '\u{8F40}','\u{9085}','\u{907E}','\u{9138}','\u{919A}','\u{91A2}','\u{919B}','\u{9199}',
    '\u{919F}','\u{91A1}','\u{919D}','\u{91A0}','\u{93A1}','\u{9383}','\u{93AF}','\u{9364}',
    '\u{9356}','\u{9347}','\u{937C}','\u{9358}','\u{935C}','\u{9376}','\u{9349}','\u{9350}',
    '\u{9351}','\u{9360}','\u{936D}','\u{938F}','\u{934C}','\u{936A}','\u{9379}','\u{9357}',
    '\u{9355}','\u{9352}','\u{934F}','\u{9371}','\u{9377}','\u{937B}','\u{9361}','\u{935E}',
    '\u{9363}','\u{9367}','\u{9380}','\u{934E}','\u{9359}','\u{95C7}','\u{95C0}','\u{95C9}',
    '\u{95C3}','\u{95C5}','\u{95B7}','\u{96AE}','\u{96B0}','\u{96AC}','\u{9720}','\u{971F}',
    '\u{9718}','\u{971D}','\u{9719}','\u{979A}','\u{97A1}','\u{979C}','\u{979E}','\u{979D}',
    '\u{97D5}','\u{97D4}','\u{97F1}','\u{9841}','\u{9844}','\u{984A}','\u{9849}','\u{9845}',
    '\u{9843}','\u{9925}','\u{992B}','\u{992C}','\u{992A}','\u{9933}','\u{9932}','\u{992F}',
    '\u{992D}','\u{9931}','\u{9930}','\u{9998}','\u{99A3}','\u{99A1}','\u{9A02}','\u{99FA}',
    '\u{99F4}','\u{99F7}','\u{99F9}','\u{99F8}','\u{99F6}','\u{99FB}','\u{99FD}','\u{99FE}',
    '\u{99FC}','\u{9A03}','\u{9ABE}','\u{9AFE}','\u{9AFD}','\u{9B01}','\u{9AFC}','\u{9B48}',
    '\u{9B9A}','\u{9BA8}','\u{9B9E}','\u{9B9B}','\u{9BA6}','\u{9BA1}','\u{9BA5}','\u{9BA4}',
    '\u{9B86}','\u{9BA2}','\u{9BA0}','\u{9BAF}','\u{9D33}','\u{9D41}','\u{9D67}','\u{9D36}',
    '\u{9D2E}','\u{9D2F}','\u{9D31}','\u{9D38}','\u{9D30}','\u{9D45}','\u{9D42}','\u{9D43}',
    '\u{9D3E}','\u{9D37}','\u{9D40}','\u{9D3D}','\u{7FF5}','\u{9D2D}','\u{9E8A}','\u{9E89}',
    '\u{9E8D}','\u{9EB0}','\u{9EC8}','\u{9EDA}','\u{9EFB}','\u{9EFF}','\u{9F24}','\u{9F23}',
    '\u{9F22}','\u{9F54}','\u{9FA0}','\u{5131}','\u{512D}','\u{512E}','\u{5698}','\u{569C}',
    '\u{5697}','\u{569A}','\u{569D}','\u{5699}','\u{5970}','\u{5B3C}','\u{5C69}','\u{5C6A}',
    '\u{5DC0}','\u{5E6D}','\u{5E6E}','\u{61D8}','\u{61DF}','\u{61ED}','\u{61EE}','\u{61F1}',
    '\u{61EA}','\u{61F0}','\u{61EB}','\u{61D6}','\u{61E9}','\u{64FF}','\u{6504}','\u{64FD}',
    '\u{64F8}','\u{6501}','\u{6503}','\u{64FC}','\u{6594}','\u{65DB}','\u{66DA}','\u{66DB}',
    '\u{66D8}','\u{6AC5}','\u{6AB9}','\u{6ABD}','\u{6AE1}','\u{6AC6}','\u{6ABA}','\u{6AB6}',
    '\u{6AB7}','\u{6AC7}','\u{6AB4}','\u{6AAD}','\u{6B5E}','\u{6BC9}','\u{6C0B}','\u{7007}',
    '\u{700C}','\u{700D}','\u{7001}','\u{7005}','\u{7014}','\u{700E}','\u{6FFF}','\u{7000}',
    '\u{6FFB}','\u{7026}','\u{6FFC}','\u{6FF7}','\u{700A}','\u{7201}','\u{71FF}','\u{71F9}',
    '\u{7203}','\u{71FD}','\u{7376}','\u{74B8}','\u{74C0}','\u{74B5}','\u{74C1}','\u{74BE}',
    '\u{74B6}','\u{74BB}','\u{74C2}','\u{7514}','\u{7513}','\u{765C}','\u{7664}','\u{7659}',
    '\u{7650}','\u{7653}','\u{7657}','\u{765A}','\u{76A6}','\u{76BD}','\u{76EC}','\u{77C2}',
    '\u{77BA}','\u{78FF}','\u{790C}','\u{7913}','\u{7914}','\u{7909}','\u{7910}','\u{7912}',
    '\u{7911}','\u{79AD}','\u{79AC}','\u{7A5F}','\u{7C1C}','\u{7C29}','\u{7C19}','\u{7C20}',
    '\u{7C1F}','\u{7C2D}','\u{7C1D}','\u{7C26}','\u{7C28}','\u{7C22}','\u{7C25}','\u{7C30}',
    '\u{7E5C}','\u{7E50}','\u{7E56}','\u{7E63}','\u{7E58}','\u{7E62}','\u{7E5F}','\u{7E51}',
    '\u{7E60}','\u{7E57}','\u{7E53}','\u{7FB5}','\u{7FB3}','\u{7FF7}','\u{7FF8}','\u{8075}',
    '\u{81D1}','\u{81D2}','\u{81D0}','\u{825F}','\u{825E}','\u{85B4}','\u{85C6}','\u{85C0}',
    '\u{85C3}','\u{85C2}','\u{85B3}','\u{85B5}','\u{85BD}','\u{85C7}','\u{85C4}','\u{85BF}',
    '\u{85CB}','\u{85CE}','\u{85C8}','\u{85C5}','\u{85B1}','\u{85B6}','\u{85D2}','\u{8624}',
    '\u{85B8}','\u{85B7}','\u{85BE}','\u{8669}','\u{87E7}','\u{87E6}','\u{87E2}','\u{87DB}',
    '\u{87EB}','\u{87EA}','\u{87E5}','\u{87DF}','\u{87F3}','\u{87E4}','\u{87D4}','\u{87DC}',
    '\u{87D3}','\u{87ED}','\u{87D8}','\u{87E3}','\u{87A4}','\u{87D7}','\u{87D9}','\u{8801}',
    '\u{87F4}','\u{87E8}','\u{87DD}','\u{8953}','\u{894B}','\u{894F}','\u{894C}','\u{8946}',
    '\u{8950}','\u{8951}','\u{8949}','\u{8B2A}','\u{8B27}','\u{8B23}','\u{8B33}','\u{8B30}',
    '\u{8B35}','\u{8B47}','\u{8B2F}','\u{8B3C}','\u{8B3E}','\u{8B31}','\u{8B25}','\u{8B37}',
    '\u{8B26}','\u{8B36}','\u{8B2E}','\u{8B24}','\u{8B3B}','\u{8B3D}','\u{8B3A}','\u{8C42}',
    '\u{8C75}','\u{8C99}','\u{8C98}','\u{8C97}','\u{8CFE}','\u{8D04}','\u{8D02}','\u{8D00}',
    '\u{8E5C}','\u{8E62}','\u{8E60}','\u{8E57}','\u{8E56}','\u{8E5E}','\u{8E65}','\u{8E67}',
"#

/-- src/generated/whatwg/big5_whatwg_tables.rs.inc:2203-2359 -/
noncomputable def decode14 : List Text := lines! r#"    '\u{8E5B}','\u{8E5A}','\u{8E61}','\u{8E5D}','\u{8E69}','\u{8E54}','\u{8F46}','\u{8F47}',
    '\u{8F48}','\u{8F4B}','\u{9128}','\u{913A}','\u{913B}','\u{913E}','\u{91A8}','\u{91A5}',
    '\u{91A7}','\u{91AF}','\u{91AA}','\u{93B5}','\u{938C}','\u{9392}','\u{93B7}','\u{939B}',
    '\u{939D}','\u{9389}','\u{93A7}','\u{938E}','\u{93AA}','\u{939E}','\u{93A6}','\u{9395}',
    '\u{9388}','\u{9399}','\u{939F}','\u{938D}','\u{93B1}','\u{9391}','\u{93B2}','\u{93A4}',
    '\u{93A8}','\u{93B4}','\u{93A3}','\u{93A5}','\u{95D2}','\u{95D3}','\u{95D1}','\u{96B3}',
    '\u{96D7}','\u{96DA}','\u{5DC2}','\u{96DF}','\u{96D8}','\u{96DD}','\u{9723}','\u{9722}',
    '\u{9725}','\u{97AC}','\u{97AE}','\u{97A8}','\u{97AB}','\u{97A4}','\u{97AA}','\u{97A2}',
    '\u{97A5}','\u{97D7}','\u{97D9}','\u{97D6}','\u{97D8}','\u{97FA}','\u{9850}','\u{9851}',
    '\u{9852}','\u{98B8}','\u{9941}','\u{993C}','\u{993A}','\u{9A0F}','\u{9A0B}','\u{9A09}',
    '\u{9A0D}','\u{9A04}','\u{9A11}','\u{9A0A}','\u{9A05}','\u{9A07}','\u{9A06}','\u{9AC0}',
    '\u{9ADC}','\u{9B08}','\u{9B04}','\u{9B05}','\u{9B29}','\u{9B35}','\u{9B4A}','\u{9B4C}',
    '\u{9B4B}','\u{9BC7}','\u{9BC6}','\u{9BC3}','\u{9BBF}','\u{9BC1}','\u{9BB5}','\u{9BB8}',
    '\u{9BD3}','\u{9BB6}','\u{9BC4}','\u{9BB9}','\u{9BBD}','\u{9D5C}','\u{9D53}','\u{9D4F}',
    '\u{9D4A}','\u{9D5B}','\u{9D4B}','\u{9D59}','\u{9D56}','\u{9D4C}','\u{9D57}','\u{9D52}',
    '\u{9D54}','\u{9D5F}','\u{9D58}','\u{9D5A}','\u{9E8E}','\u{9E8C}','\u{9EDF}','\u{9F01}',
    '\u{9F00}','\u{9F16}','\u{9F25}','\u{9F2B}','\u{9F2A}','\u{9F29}','\u{9F28}','\u{9F4C}',
    '\u{9F55}','\u{5134}','\u{5135}','\u{5296}','\u{52F7}','\u{53B4}','\u{56AB}','\u{56AD}',
    '\u{56A6}','\u{56A7}','\u{56AA}','\u{56AC}','\u{58DA}','\u{58DD}','\u{58DB}','\u{5912}',
    '\u{5B3D}','\u{5B3E}','\u{5B3F}','\u{5DC3}','\u{5E70}','\u{5FBF}','\u{61FB}','\u{6507}',
    '\u{6510}','\u{650D}','\u{6509}','\u{650C}','\u{650E}','\u{6584}','\u{65DE}','\u{65DD}',
    '\u{66DE}','\u{6AE7}','\u{6AE0}','\u{6ACC}','\u{6AD1}','\u{6AD9}','\u{6ACB}','\u{6ADF}',
    '\u{6ADC}','\u{6AD0}','\u{6AEB}','\u{6ACF}','\u{6ACD}','\u{6ADE}','\u{6B60}','\u{6BB0}',
    '\u{6C0C}','\u{7019}','\u{7027}','\u{7020}','\u{7016}','\u{702B}','\u{7021}','\u{7022}',
    '\u{7023}','\u{7029}','\u{7017}','\u{7024}','\u{701C}','\u{702A}','\u{720C}','\u{720A}',
    '\u{7207}','\u{7202}','\u{7205}','\u{72A5}','\u{72A6}','\u{72A4}','\u{72A3}','\u{72A1}',
    '\u{74CB}','\u{74C5}','\u{74B7}','\u{74C3}','\u{7516}','\u{7660}','\u{77C9}','\u{77CA}',
    '\u{77C4}','\u{77F1}','\u{791D}','\u{791B}','\u{7921}','\u{791C}','\u{7917}','\u{791E}',
    '\u{79B0}','\u{7A67}','\u{7A68}','\u{7C33}','\u{7C3C}','\u{7C39}','\u{7C2C}','\u{7C3B}',
    '\u{7CEC}','\u{7CEA}','\u{7E76}','\u{7E75}','\u{7E78}','\u{7E70}','\u{7E77}','\u{7E6F}',
    '\u{7E7A}','\u{7E72}','\u{7E74}','\u{7E68}','\u{7F4B}','\u{7F4A}','\u{7F83}','\u{7F86}',
    '\u{7FB7}','\u{7FFD}','\u{7FFE}','\u{8078}','\u{81D7}','\u{81D5}','\u{8264}','\u{8261}',
    '\u{8263}','\u{85EB}','\u{85F1}','\u{85ED}','\u{85D9}','\u{85E1}','\u{85E8}','\u{85DA}',
    '\u{85D7}','\u{85EC}','\u{85F2}','\u{85F8}','\u{85D8}','\u{85DF}','\u{85E3}','\u{85DC}',
    '\u{85D1}','\u{85F0}','\u{85E6}','\u{85EF}','\u{85DE}','\u{85E2}','\u{8800}','\u{87FA}',
    '\u{8803}','\u{87F6}','\u{87F7}','\u{8809}','\u{880C}','\u{880B}','\u{8806}','\u{87FC}',
    '\u{8808}','\u{87FF}','\u{880A}','\u{8802}','\u{8962}','\u{895A}','\u{895B}','\u{8957}',
    '\u{8961}','\u{895C}','\u{8958}','\u{895D}','\u{8959}','\u{8988}','\u{89B7}','\u{89B6}',
    '\u{89F6}','\u{8B50}','\u{8B48}','\u{8B4A}','\u{8B40}','\u{8B53}','\u{8B56}','\u{8B54}',
    '\u{8B4B}','\u{8B55}','\u{8B51}','\u{8B42}','\u{8B52}','\u{8B57}','\u{8C43}','\u{8C77}',
    '\u{8C76}','\u{8C9A}','\u{8D06}','\u{8D07}','\u{8D09}','\u{8DAC}','\u{8DAA}','\u{8DAD}',
    '\u{8DAB}','\u{8E6D}','\u{8E78}','\u{8E73}','\u{8E6A}','\u{8E6F}','\u{8E7B}','\u{8EC2}',
    '\u{8F52}','\u{8F51}','\u{8F4F}','\u{8F50}','\u{8F53}','\u{8FB4}','\u{9140}','\u{913F}',
    '\u{91B0}','\u{91AD}','\u{93DE}','\u{93C7}','\u{93CF}','\u{93C2}','\u{93DA}','\u{93D0}',
    '\u{93F9}','\u{93EC}','\u{93CC}','\u{93D9}','\u{93A9}','\u{93E6}','\u{93CA}','\u{93D4}',
    '\u{93EE}','\u{93E3}','\u{93D5}','\u{93C4}','\u{93CE}','\u{93C0}','\u{93D2}','\u{93E7}',
    '\u{957D}','\u{95DA}','\u{95DB}','\u{96E1}','\u{9729}','\u{972B}','\u{972C}','\u{9728}',
    '\u{9726}','\u{97B3}','\u{97B7}','\u{97B6}','\u{97DD}','\u{97DE}','\u{97DF}','\u{985C}',
    '\u{9859}','\u{985D}','\u{9857}','\u{98BF}','\u{98BD}','\u{98BB}','\u{98BE}','\u{9948}',
    '\u{9947}','\u{9943}','\u{99A6}','\u{99A7}','\u{9A1A}','\u{9A15}','\u{9A25}','\u{9A1D}',
    '\u{9A24}','\u{9A1B}','\u{9A22}','\u{9A20}','\u{9A27}','\u{9A23}','\u{9A1E}','\u{9A1C}',
    '\u{9A14}','\u{9AC2}','\u{9B0B}','\u{9B0A}','\u{9B0E}','\u{9B0C}','\u{9B37}','\u{9BEA}',
    '\u{9BEB}','\u{9BE0}','\u{9BDE}','\u{9BE4}','\u{9BE6}','\u{9BE2}','\u{9BF0}','\u{9BD4}',
    '\u{9BD7}','\u{9BEC}','\u{9BDC}','\u{9BD9}','\u{9BE5}','\u{9BD5}','\u{9BE1}','\u{9BDA}',
    '\u{9D77}','\u{9D81}','\u{9D8A}','\u{9D84}','\u{9D88}','\u{9D71}','\u{9D80}','\u{9D78}',
    '\u{9D86}','\u{9D8B}','\u{9D8C}','\u{9D7D}','\u{9D6B}','\u{9D74}','\u{9D75}','\u{9D70}',
    '\u{9D69}','\u{9D85}','\u{9D73}','\u{9D7B}','\u{9D82}','\u{9D6F}','\u{9D79}','\u{9D7F}',
    '\u{9D87}','\u{9D68}','\u{9E94}','\u{9E91}','\u{9EC0}','\u{9EFC}','\u{9F2D}','\u{9F40}',
    '\u{9F41}','\u{9F4D}','\u{9F56}','\u{9F57}','\u{9F58}','\u{5337}','\u{56B2}','\u{56B5}',
    '\u{56B3}','\u{58E3}','\u{5B45}','\u{5DC6}','\u{5DC7}','\u{5EEE}','\u{5EEF}','\u{5FC0}',
    '\u{5FC1}','\u{61F9}','\u{6517}','\u{6516}','\u{6515}','\u{6513}','\u{65DF}','\u{66E8}',
    '\u{66E3}','\u{66E4}','\u{6AF3}','\u{6AF0}','\u{6AEA}','\u{6AE8}','\u{6AF9}','\u{6AF1}',
    '\u{6AEE}','\u{6AEF}','\u{703C}','\u{7035}','\u{702F}','\u{7037}','\u{7034}','\u{7031}',
    '\u{7042}','\u{7038}','\u{703F}','\u{703A}','\u{7039}','\u{7040}','\u{703B}','\u{7033}',
    '\u{7041}','\u{7213}','\u{7214}','\u{72A8}','\u{737D}','\u{737C}','\u{74BA}','\u{76AB}',
    '\u{76AA}','\u{76BE}','\u{76ED}','\u{77CC}','\u{77CE}','\u{77CF}','\u{77CD}','\u{77F2}',
    '\u{7925}','\u{7923}','\u{7927}','\u{7928}','\u{7924}','\u{7929}','\u{79B2}','\u{7A6E}',
    '\u{7A6C}','\u{7A6D}','\u{7AF7}','\u{7C49}','\u{7C48}','\u{7C4A}','\u{7C47}','\u{7C45}',
    '\u{7CEE}','\u{7E7B}','\u{7E7E}','\u{7E81}','\u{7E80}','\u{7FBA}','\u{7FFF}','\u{8079}',
    '\u{81DB}','\u{81D9}','\u{820B}','\u{8268}','\u{8269}','\u{8622}','\u{85FF}','\u{8601}',
    '\u{85FE}','\u{861B}','\u{8600}','\u{85F6}','\u{8604}','\u{8609}','\u{8605}','\u{860C}',
    '\u{85FD}','\u{8819}','\u{8810}','\u{8811}','\u{8817}','\u{8813}','\u{8816}','\u{8963}',
    '\u{8966}','\u{89B9}','\u{89F7}','\u{8B60}','\u{8B6A}','\u{8B5D}','\u{8B68}','\u{8B63}',
    '\u{8B65}','\u{8B67}','\u{8B6D}','\u{8DAE}','\u{8E86}','\u{8E88}','\u{8E84}','\u{8F59}',
    '\u{8F56}','\u{8F57}','\u{8F55}','\u{8F58}','\u{8F5A}','\u{908D}','\u{9143}','\u{9141}',
    '\u{91B7}','\u{91B5}','\u{91B2}','\u{91B3}','\u{940B}','\u{9413}','\u{93FB}','\u{9420}',
    '\u{940F}','\u{9414}','\u{93FE}','\u{9415}','\u{9410}','\u{9428}','\u{9419}','\u{940D}',
    '\u{93F5}','\u{9400}','\u{93F7}','\u{9407}','\u{940E}','\u{9416}','\u{9412}','\u{93FA}',
    '\u{9409}','\u{93F8}','\u{940A}','\u{93FF}','\u{93FC}','\u{940C}','\u{93F6}','\u{9411}',
    '\u{9406}','\u{95DE}','\u{95E0}','\u{95DF}','\u{972E}','\u{972F}','\u{97B9}','\u{97BB}',
    '\u{97FD}','\u{97FE}','\u{9860}','\u{9862}','\u{9863}','\u{985F}','\u{98C1}','\u{98C2}',
    '\u{9950}','\u{994E}','\u{9959}','\u{994C}','\u{994B}','\u{9953}','\u{9A32}','\u{9A34}',
    '\u{9A31}','\u{9A2C}','\u{9A2A}','\u{9A36}','\u{9A29}','\u{9A2E}','\u{9A38}','\u{9A2D}',
    '\u{9AC7}','\u{9ACA}','\u{9AC6}','\u{9B10}','\u{9B12}','\u{9B11}','\u{9C0B}','\u{9C08}',
    '\u{9BF7}','\u{9C05}','\u{9C12}','\u{9BF8}','\u{9C40}','\u{9C07}','\u{9C0E}','\u{9C06}',
    '\u{9C17}','\u{9C14}','\u{9C09}','\u{9D9F}','\u{9D99}','\u{9DA4}','\u{9D9D}','\u{9D92}',
    '\u{9D98}','\u{9D90}','\u{9D9B}','\u{9DA0}','\u{9D94}','\u{9D9C}','\u{9DAA}','\u{9D97}',
    '\u{9DA1}','\u{9D9A}','\u{9DA2}','\u{9DA8}','\u{9D9E}','\u{9DA3}','\u{9DBF}','\u{9DA9}',
    '\u{9D96}','\u{9DA6}','\u{9DA7}','\u{9E99}','\u{9E9B}','\u{9E9A}','\u{9EE5}','\u{9EE4}',
    '\u{9EE7}','\u{9EE6}','\u{9F30}','\u{9F2E}','\u{9F5B}','\u{9F60}','\u{9F5E}','\u{9F5D}',
    '\u{9F59}','\u{9F91}','\u{513A}','\u{5139}','\u{5298}','\u{5297}','\u{56C3}','\u{56BD}',
    '\u{56BE}','\u{5B48}','\u{5B47}','\u{5DCB}','\u{5DCF}','\u{5EF1}','\u{61FD}','\u{651B}',
    '\u{6B02}','\u{6AFC}','\u{6B03}','\u{6AF8}','\u{6B00}','\u{7043}','\u{7044}','\u{704A}',
    '\u{7048}','\u{7049}','\u{7045}','\u{7046}','\u{721D}','\u{721A}','\u{7219}','\u{737E}',
    '\u{7517}','\u{766A}','\u{77D0}','\u{792D}','\u{7931}','\u{792F}','\u{7C54}','\u{7C53}',
    '\u{7CF2}','\u{7E8A}','\u{7E87}','\u{7E88}','\u{7E8B}','\u{7E86}','\u{7E8D}','\u{7F4D}',
    '\u{7FBB}','\u{8030}','\u{81DD}','\u{8618}','\u{862A}','\u{8626}','\u{861F}','\u{8623}',
    '\u{861C}','\u{8619}','\u{8627}','\u{862E}','\u{8621}','\u{8620}','\u{8629}','\u{861E}',
    '\u{8625}','\u{8829}','\u{881D}','\u{881B}','\u{8820}','\u{8824}','\u{881C}','\u{882B}',
    '\u{884A}','\u{896D}','\u{8969}','\u{896E}','\u{896B}','\u{89FA}','\u{8B79}','\u{8B78}',
    '\u{8B45}','\u{8B7A}','\u{8B7B}','\u{8D10}','\u{8D14}','\u{8DAF}','\u{8E8E}','\u{8E8C}',
    '\u{8F5E}','\u{8F5B}','\u{8F5D}','\u{9146}','\u{9144}','\u{9145}','\u{91B9}','\u{943F}',
    '\u{943B}','\u{9436}','\u{9429}','\u{943D}','\u{943C}','\u{9430}','\u{9439}','\u{942A}',
    '\u{9437}','\u{942C}','\u{9440}','\u{9431}','\u{95E5}','\u{95E4}','\u{95E3}','\u{9735}',
    '\u{973A}','\u{97BF}','\u{97E1}','\u{9864}','\u{98C9}','\u{98C6}','\u{98C0}','\u{9958}',
    '\u{9956}','\u{9A39}','\u{9A3D}','\u{9A46}','\u{9A44}','\u{9A42}','\u{9A41}','\u{9A3A}',
    '\u{9A3F}','\u{9ACD}','\u{9B15}','\u{9B17}','\u{9B18}','\u{9B16}','\u{9B3A}','\u{9B52}',
    '\u{9C2B}','\u{9C1D}','\u{9C1C}','\u{9C2C}','\u{9C23}','\u{9C28}','\u{9C29}','\u{9C24}',
    '\u{9C21}','\u{9DB7}','\u{9DB6}','\u{9DBC}','\u{9DC1}','\u{9DC7}','\u{9DCA}','\u{9DCF}',
    '\u{9DBE}','\u{9DC5}','\u{9DC3}','\u{9DBB}','\u{9DB5}','\u{9DCE}','\u{9DB9}','\u{9DBA}',
    '\u{9DAC}','\u{9DC8}','\u{9DB1}','\u{9DAD}','\u{9DCC}','\u{9DB3}','\u{9DCD}','\u{9DB2}',
    '\u{9E7A}','\u{9E9C}','\u{9EEB}','\u{9EEE}','\u{9EED}','\u{9F1B}','\u{9F18}','\u{9F1A}',
    '\u{9F31}','\u{9F4E}','\u{9F65}','\u{9F64}','\u{9F92}','\u{4EB9}','\u{56C6}','\u{56C5}',
    '\u{56CB}','\u{5971}','\u{5B4B}','\u{5B4C}','\u{5DD5}','\u{5DD1}','\u{5EF2}','\u{6521}',
    '\u{6520}','\u{6526}','\u{6522}','\u{6B0B}','\u{6B08}','\u{6B09}','\u{6C0D}','\u{7055}',
    '\u{7056}','\u{7057}','\u{7052}','\u{721E}','\u{721F}','\u{72A9}','\u{737F}','\u{74D8}',
    '\u{74D5}','\u{74D9}','\u{74D7}','\u{766D}','\u{76AD}','\u{7935}','\u{79B4}','\u{7A70}',
    '\u{7A71}','\u{7C57}','\u{7C5C}','\u{7C59}','\u{7C5B}','\u{7C5A}','\u{7CF4}','\u{7CF1}',
    '\u{7E91}','\u{7F4F}','\u{7F87}','\u{81DE}','\u{826B}','\u{8634}','\u{8635}','\u{8633}',
    '\u{862C}','\u{8632}','\u{8636}','\u{882C}','\u{8828}','\u{8826}','\u{882A}','\u{8825}',
    '\u{8971}','\u{89BF}','\u{89BE}','\u{89FB}','\u{8B7E}','\u{8B84}','\u{8B82}','\u{8B86}',
    '\u{8B85}','\u{8B7F}','\u{8D15}','\u{8E95}','\u{8E94}','\u{8E9A}','\u{8E92}','\u{8E90}',
    '\u{8E96}','\u{8E97}','\u{8F60}','\u{8F62}','\u{9147}','\u{944C}','\u{9450}','\u{944A}',
    '\u{944B}','\u{944F}','\u{9447}','\u{9445}','\u{9448}','\u{9449}','\u{9446}','\u{973F}',
    '\u{97E3}','\u{986A}','\u{9869}','\u{98CB}','\u{9954}','\u{995B}','\u{9A4E}','\u{9A53}',
    '\u{9A54}','\u{9A4C}','\u{9A4F}','\u{9A48}','\u{9A4A}','\u{9A49}','\u{9A52}','\u{9A50}',
    '\u{9AD0}','\u{9B19}','\u{9B2B}','\u{9B3B}','\u{9B56}','\u{9B55}','\u{9C46}','\u{9C48}',
    '\u{9C3F}','\u{9C44}','\u{9C39}','\u{9C33}','\u{9C41}','\u{9C3C}','\u{9C37}','\u{9C34}',
    '\u{9C32}','\u{9C3D}','\u{9C36}','\u{9DDB}','\u{9DD2}','\u{9DDE}','\u{9DDA}','\u{9DCB}',
    '\u{9DD0}','\u{9DDC}','\u{9DD1}','\u{9DDF}','\u{9DE9}','\u{9DD9}','\u{9DD8}','\u{9DD6}',
    '\u{9DF5}','\u{9DD5}','\u{9DDD}','\u{9EB6}','\u{9EF0}','\u{9F35}','\u{9F33}','\u{9F32}',
    '\u{9F42}','\u{9F6B}','\u{9F95}','\u{9FA2}','\u{513D}','\u{5299}','\u{58E8}','\u{58E7}',
    '\u{5972}','\u{5B4D}','\u{5DD8}','\u{882F}','\u{5F4F}','\u{6201}','\u{6203}','\u{6204}',
    '\u{6529}','\u{6525}','\u{6596}','\u{66EB}','\u{6B11}','\u{6B12}','\u{6B0F}','\u{6BCA}',
    '\u{705B}','\u{705A}','\u{7222}','\u{7382}','\u{7381}','\u{7383}','\u{7670}','\u{77D4}',
    '\u{7C67}','\u{7C66}','\u{7E95}','\u{826C}','\u{863A}','\u{8640}','\u{8639}','\u{863C}',
    '\u{8631}','\u{863B}','\u{863E}','\u{8830}','\u{8832}','\u{882E}','\u{8833}','\u{8976}',
    '\u{8974}','\u{8973}','\u{89FE}','\u{8B8C}','\u{8B8E}','\u{8B8B}','\u{8B88}','\u{8C45}',
    '\u{8D19}','\u{8E98}','\u{8F64}','\u{8F63}','\u{91BC}','\u{9462}','\u{9455}','\u{945D}',
    '\u{9457}','\u{945E}','\u{97C4}','\u{97C5}','\u{9800}','\u{9A56}','\u{9A59}','\u{9B1E}',
    '\u{9B1F}','\u{9B20}','\u{9C52}','\u{9C58}','\u{9C50}','\u{9C4A}','\u{9C4D}','\u{9C4B}',
    '\u{9C55}','\u{9C59}','\u{9C4C}','\u{9C4E}','\u{9DFB}','\u{9DF7}','\u{9DEF}','\u{9DE3}',
    '\u{9DEB}','\u{9DF8}','\u{9DE4}','\u{9DF6}','\u{9DE1}','\u{9DEE}','\u{9DE6}','\u{9DF2}',
    '\u{9DF0}','\u{9DE2}','\u{9DEC}','\u{9DF4}','\u{9DF3}','\u{9DE8}','\u{9DED}','\u{9EC2}',
    '\u{9ED0}','\u{9EF2}','\u{9EF3}','\u{9F06}','\u{9F1C}','\u{9F38}','\u{9F37}','\u{9F36}',
    '\u{9F43}','\u{9F4F}','\u{9F71}','\u{9F70}','\u{9F6E}','\u{9F6F}','\u{56D3}','\u{56CD}',
    '\u{5B4E}','\u{5C6D}','\u{652D}','\u{66ED}','\u{66EE}','\u{6B13}','\u{705F}','\u{7061}',
    '\u{705D}','\u{7060}','\u{7223}','\u{74DB}','\u{74E5}','\u{77D5}','\u{7938}','\u{79B7}',
    '\u{79B6}','\u{7C6A}','\u{7E97}','\u{7F89}','\u{826D}','\u{8643}','\u{8838}','\u{8837}',
    '\u{8835}','\u{884B}','\u{8B94}','\u{8B95}','\u{8E9E}','\u{8E9F}','\u{8EA0}','\u{8E9D}',
    '\u{91BE}','\u{91BD}','\u{91C2}','\u{946B}','\u{9468}','\u{9469}','\u{96E5}','\u{9746}',
    '\u{9743}','\u{9747}','\u{97C7}','\u{97E5}','\u{9A5E}','\u{9AD5}','\u{9B59}','\u{9C63}',
    '\u{9C67}','\u{9C66}','\u{9C62}','\u{9C5E}','\u{9C60}','\u{9E02}','\u{9DFE}','\u{9E07}',
    '\u{9E03}','\u{9E06}','\u{9E05}','\u{9E00}','\u{9E01}','\u{9E09}','\u{9DFF}','\u{9DFD}',
    '\u{9E04}','\u{9EA0}','\u{9F1E}','\u{9F46}','\u{9F74}','\u{9F75}','\u{9F76}','\u{56D4}',
    '\u{652E}','\u{65B8}','\u{6B18}','\u{6B19}','\u{6B17}','\u{6B1A}','\u{7062}','\u{7226}',
    '\u{72AA}','\u{77D8}','\u{77D9}','\u{7939}','\u{7C69}','\u{7C6B}','\u{7CF6}','\u{7E9A}',
"#

/-- src/generated/whatwg/big5_whatwg_tables.rs.inc:2360-2477 -/
noncomputable def decode15 : List Text := lines! r#"    '\u{7E98}','\u{7E9B}','\u{7E99}','\u{81E0}','\u{81E1}','\u{8646}','\u{8647}','\u{8648}',
    '\u{8979}','\u{897A}','\u{897C}','\u{897B}','\u{89FF}','\u{8B98}','\u{8B99}','\u{8EA5}',
    '\u{8EA4}','\u{8EA3}','\u{946E}','\u{946D}','\u{946F}','\u{9471}','\u{9473}','\u{9749}',
    '\u{9872}','\u{995F}','\u{9C68}','\u{9C6E}','\u{9C6D}','\u{9E0B}','\u{9E0D}','\u{9E10}',
    '\u{9E0F}','\u{9E12}','\u{9E11}','\u{9EA1}','\u{9EF5}','\u{9F09}','\u{9F47}','\u{9F78}',
    '\u{9F7B}','\u{9F7A}','\u{9F79}','\u{571E}','\u{7066}','\u{7C6F}','\u{883C}','\u{8DB2}',
    '\u{8EA6}','\u{91C3}','\u{9474}','\u{9478}','\u{9476}','\u{9475}','\u{9A60}','\u{9C74}',
    '\u{9C73}','\u{9C71}','\u{9C75}','\u{9E14}','\u{9E13}','\u{9EF6}','\u{9F0A}','\u{9FA4}',
    '\u{7068}','\u{7065}','\u{7CF7}','\u{866A}','\u{883E}','\u{883D}','\u{883F}','\u{8B9E}',
    '\u{8C9C}','\u{8EA9}','\u{8EC9}','\u{974B}','\u{9873}','\u{9874}','\u{98CC}','\u{9961}',
    '\u{99AB}','\u{9A64}','\u{9A66}','\u{9A67}','\u{9B24}','\u{9E15}','\u{9E17}','\u{9F48}',
    '\u{6207}','\u{6B1E}','\u{7227}','\u{864C}','\u{8EA8}','\u{9482}','\u{9480}','\u{9481}',
    '\u{9A69}','\u{9A68}','\u{9B2E}','\u{9E19}','\u{7229}','\u{864B}','\u{8B9F}','\u{9483}',
    '\u{9C79}','\u{9EB7}','\u{7675}','\u{9A6B}','\u{9C7A}','\u{9E1D}','\u{7069}','\u{706A}',
    '\u{9EA4}','\u{9F7E}','\u{9F49}','\u{9F98}','\u{7881}','\u{92B9}','\u{88CF}','\u{58BB}',
    '\u{6052}','\u{7CA7}','\u{5AFA}','\u{2554}','\u{2566}','\u{2557}','\u{2560}','\u{256C}',
    '\u{2563}','\u{255A}','\u{2569}','\u{255D}','\u{2552}','\u{2564}','\u{2555}','\u{255E}',
    '\u{256A}','\u{2561}','\u{2558}','\u{2567}','\u{255B}','\u{2553}','\u{2565}','\u{2556}',
    '\u{255F}','\u{256B}','\u{2562}','\u{2559}','\u{2568}','\u{255C}','\u{2551}','\u{2550}',
    '\u{256D}','\u{256E}','\u{2570}','\u{256F}','\u{FFED}','\u{20547}','\u{92DB}','\u{205DF}',
    '\u{23FC5}','\u{854C}','\u{42B5}','\u{73EF}','\u{51B5}','\u{3649}','\u{24942}','\u{289E4}',
    '\u{9344}','\u{219DB}','\u{82EE}','\u{23CC8}','\u{783C}','\u{6744}','\u{62DF}','\u{24933}',
    '\u{289AA}','\u{202A0}','\u{26BB3}','\u{21305}','\u{4FAB}','\u{224ED}','\u{5008}','\u{26D29}',
    '\u{27A84}','\u{23600}','\u{24AB1}','\u{22513}','\u{5029}','\u{2037E}','\u{5FA4}','\u{20380}',
    '\u{20347}','\u{6EDB}','\u{2041F}','\u{507D}','\u{5101}','\u{347A}','\u{510E}','\u{986C}',
    '\u{3743}','\u{8416}','\u{249A4}','\u{20487}','\u{5160}','\u{233B4}','\u{516A}','\u{20BFF}',
    '\u{220FC}','\u{202E5}','\u{22530}','\u{2058E}','\u{23233}','\u{21983}','\u{5B82}','\u{877D}',
    '\u{205B3}','\u{23C99}','\u{51B2}','\u{51B8}','\u{9D34}','\u{51C9}','\u{51CF}','\u{51D1}',
    '\u{3CDC}','\u{51D3}','\u{24AA6}','\u{51B3}','\u{51E2}','\u{5342}','\u{51ED}','\u{83CD}',
    '\u{693E}','\u{2372D}','\u{5F7B}','\u{520B}','\u{5226}','\u{523C}','\u{52B5}','\u{5257}',
    '\u{5294}','\u{52B9}','\u{52C5}','\u{7C15}','\u{8542}','\u{52E0}','\u{860D}','\u{26B13}',
    '\u{5305}','\u{28ADE}','\u{5549}','\u{6ED9}','\u{23F80}','\u{20954}','\u{23FEC}','\u{5333}',
    '\u{5344}','\u{20BE2}','\u{6CCB}','\u{21726}','\u{681B}','\u{73D5}','\u{604A}','\u{3EAA}',
    '\u{38CC}','\u{216E8}','\u{71DD}','\u{44A2}','\u{536D}','\u{5374}','\u{286AB}','\u{537E}',
    '\u{537F}','\u{21596}','\u{21613}','\u{77E6}','\u{5393}','\u{28A9B}','\u{53A0}','\u{53AB}',
    '\u{53AE}','\u{73A7}','\u{25772}','\u{3F59}','\u{739C}','\u{53C1}','\u{53C5}','\u{6C49}',
    '\u{4E49}','\u{57FE}','\u{53D9}','\u{3AAB}','\u{20B8F}','\u{53E0}','\u{23FEB}','\u{22DA3}',
    '\u{53F6}','\u{20C77}','\u{5413}','\u{7079}','\u{552B}','\u{6657}','\u{6D5B}','\u{546D}',
    '\u{26B53}','\u{20D74}','\u{555D}','\u{548F}','\u{54A4}','\u{47A6}','\u{2170D}','\u{20EDD}',
    '\u{3DB4}','\u{20D4D}','\u{289BC}','\u{22698}','\u{5547}','\u{4CED}','\u{542F}','\u{7417}',
    '\u{5586}','\u{55A9}','\u{5605}','\u{218D7}','\u{2403A}','\u{4552}','\u{24435}','\u{66B3}',
    '\u{210B4}','\u{5637}','\u{66CD}','\u{2328A}','\u{66A4}','\u{66AD}','\u{564D}','\u{564F}',
    '\u{78F1}','\u{56F1}','\u{9787}','\u{53FE}','\u{5700}','\u{56EF}','\u{56ED}','\u{28B66}',
    '\u{3623}','\u{2124F}','\u{5746}','\u{241A5}','\u{6C6E}','\u{708B}','\u{5742}','\u{36B1}',
    '\u{26C7E}','\u{57E6}','\u{21416}','\u{5803}','\u{21454}','\u{24363}','\u{5826}','\u{24BF5}',
    '\u{585C}','\u{58AA}','\u{3561}','\u{58E0}','\u{58DC}','\u{2123C}','\u{58FB}','\u{5BFF}',
    '\u{5743}','\u{2A150}','\u{24278}','\u{93D3}','\u{35A1}','\u{591F}','\u{68A6}','\u{36C3}',
    '\u{6E59}','\u{2163E}','\u{5A24}','\u{5553}','\u{21692}','\u{8505}','\u{59C9}','\u{20D4E}',
    '\u{26C81}','\u{26D2A}','\u{217DC}','\u{59D9}','\u{217FB}','\u{217B2}','\u{26DA6}','\u{6D71}',
    '\u{21828}','\u{216D5}','\u{59F9}','\u{26E45}','\u{5AAB}','\u{5A63}','\u{36E6}','\u{249A9}',
    '\u{5A77}','\u{3708}','\u{5A96}','\u{7465}','\u{5AD3}','\u{26FA1}','\u{22554}','\u{3D85}',
    '\u{21911}','\u{3732}','\u{216B8}','\u{5E83}','\u{52D0}','\u{5B76}','\u{6588}','\u{5B7C}',
    '\u{27A0E}','\u{4004}','\u{485D}','\u{20204}','\u{5BD5}','\u{6160}','\u{21A34}','\u{259CC}',
    '\u{205A5}','\u{5BF3}','\u{5B9D}','\u{4D10}','\u{5C05}','\u{21B44}','\u{5C13}','\u{73CE}',
    '\u{5C14}','\u{21CA5}','\u{26B28}','\u{5C49}','\u{48DD}','\u{5C85}','\u{5CE9}','\u{5CEF}',
    '\u{5D8B}','\u{21DF9}','\u{21E37}','\u{5D10}','\u{5D18}','\u{5D46}','\u{21EA4}','\u{5CBA}',
    '\u{5DD7}','\u{82FC}','\u{382D}','\u{24901}','\u{22049}','\u{22173}','\u{8287}','\u{3836}',
    '\u{3BC2}','\u{5E2E}','\u{6A8A}','\u{5E75}','\u{5E7A}','\u{244BC}','\u{20CD3}','\u{53A6}',
    '\u{4EB7}','\u{5ED0}','\u{53A8}','\u{21771}','\u{5E09}','\u{5EF4}','\u{28482}','\u{5EF9}',
    '\u{5EFB}','\u{38A0}','\u{5EFC}','\u{683E}','\u{941B}','\u{5F0D}','\u{201C1}','\u{2F894}',
    '\u{3ADE}','\u{48AE}','\u{2133A}','\u{5F3A}','\u{26888}','\u{223D0}','\u{5F58}','\u{22471}',
    '\u{5F63}','\u{97BD}','\u{26E6E}','\u{5F72}','\u{9340}','\u{28A36}','\u{5FA7}','\u{5DB6}',
    '\u{3D5F}','\u{25250}','\u{21F6A}','\u{270F8}','\u{22668}','\u{91D6}','\u{2029E}','\u{28A29}',
    '\u{6031}','\u{6685}','\u{21877}','\u{3963}','\u{3DC7}','\u{3639}','\u{5790}','\u{227B4}',
    '\u{7971}','\u{3E40}','\u{609E}','\u{60A4}','\u{60B3}','\u{24982}','\u{2498F}','\u{27A53}',
    '\u{74A4}','\u{50E1}','\u{5AA0}','\u{6164}','\u{8424}','\u{6142}','\u{2F8A6}','\u{26ED2}',
    '\u{6181}','\u{51F4}','\u{20656}','\u{6187}','\u{5BAA}','\u{23FB7}','\u{2285F}','\u{61D3}',
    '\u{28B9D}','\u{2995D}','\u{61D0}','\u{3932}','\u{22980}','\u{228C1}','\u{6023}','\u{615C}',
    '\u{651E}','\u{638B}','\u{20118}','\u{62C5}','\u{21770}','\u{62D5}','\u{22E0D}','\u{636C}',
    '\u{249DF}','\u{3A17}','\u{6438}','\u{63F8}','\u{2138E}','\u{217FC}','\u{6490}','\u{6F8A}',
    '\u{22E36}','\u{9814}','\u{2408C}','\u{2571D}','\u{64E1}','\u{64E5}','\u{947B}','\u{3A66}',
    '\u{643A}','\u{3A57}','\u{654D}','\u{6F16}','\u{24A28}','\u{24A23}','\u{6585}','\u{656D}',
    '\u{655F}','\u{2307E}','\u{65B5}','\u{24940}','\u{4B37}','\u{65D1}','\u{40D8}','\u{21829}',
    '\u{65E0}','\u{65E3}','\u{5FDF}','\u{23400}','\u{6618}','\u{231F7}','\u{231F8}','\u{6644}',
    '\u{231A4}','\u{231A5}','\u{664B}','\u{20E75}','\u{6667}','\u{251E6}','\u{6673}','\u{6674}',
    '\u{21E3D}','\u{23231}','\u{285F4}','\u{231C8}','\u{25313}','\u{77C5}','\u{228F7}','\u{99A4}',
    '\u{6702}','\u{2439C}','\u{24A21}','\u{3B2B}','\u{69FA}','\u{237C2}','\u{675E}','\u{6767}',
    '\u{6762}','\u{241CD}','\u{290ED}','\u{67D7}','\u{44E9}','\u{6822}','\u{6E50}','\u{923C}',
    '\u{6801}','\u{233E6}','\u{26DA0}','\u{685D}','\u{2346F}','\u{69E1}','\u{6A0B}','\u{28ADF}',
    '\u{6973}','\u{68C3}','\u{235CD}','\u{6901}','\u{6900}','\u{3D32}','\u{3A01}','\u{2363C}',
    '\u{3B80}','\u{67AC}','\u{6961}','\u{28A4A}','\u{42FC}','\u{6936}','\u{6998}','\u{3BA1}',
    '\u{203C9}','\u{8363}','\u{5090}','\u{69F9}','\u{23659}','\u{2212A}','\u{6A45}','\u{23703}',
    '\u{6A9D}','\u{3BF3}','\u{67B1}','\u{6AC8}','\u{2919C}','\u{3C0D}','\u{6B1D}','\u{20923}',
    '\u{60DE}','\u{6B35}','\u{6B74}','\u{227CD}','\u{6EB5}','\u{23ADB}','\u{203B5}','\u{21958}',
    '\u{3740}','\u{5421}','\u{23B5A}','\u{6BE1}','\u{23EFC}','\u{6BDC}','\u{6C37}','\u{2248B}',
    '\u{248F1}','\u{26B51}','\u{6C5A}','\u{8226}','\u{6C79}','\u{23DBC}','\u{44C5}','\u{23DBD}',
    '\u{241A4}','\u{2490C}','\u{24900}','\u{23CC9}','\u{36E5}','\u{3CEB}','\u{20D32}','\u{9B83}',
    '\u{231F9}','\u{22491}','\u{7F8F}','\u{6837}','\u{26D25}','\u{26DA1}','\u{26DEB}','\u{6D96}',
    '\u{6D5C}','\u{6E7C}','\u{6F04}','\u{2497F}','\u{24085}','\u{26E72}','\u{8533}','\u{26F74}',
    '\u{51C7}','\u{6C9C}','\u{6E1D}','\u{842E}','\u{28B21}','\u{6E2F}','\u{23E2F}','\u{7453}',
    '\u{23F82}','\u{79CC}','\u{6E4F}','\u{5A91}','\u{2304B}','\u{6FF8}','\u{370D}','\u{6F9D}',
    '\u{23E30}','\u{6EFA}','\u{21497}','\u{2403D}','\u{4555}','\u{93F0}','\u{6F44}','\u{6F5C}',
    '\u{3D4E}','\u{6F74}','\u{29170}','\u{3D3B}','\u{6F9F}','\u{24144}','\u{6FD3}','\u{24091}',
    '\u{24155}','\u{24039}','\u{23FF0}','\u{23FB4}','\u{2413F}','\u{51DF}','\u{24156}','\u{24157}',
    '\u{24140}','\u{261DD}','\u{704B}','\u{707E}','\u{70A7}','\u{7081}','\u{70CC}','\u{70D5}',
    '\u{70D6}','\u{70DF}','\u{4104}','\u{3DE8}','\u{71B4}','\u{7196}','\u{24277}','\u{712B}',
    '\u{7145}','\u{5A88}','\u{714A}','\u{716E}','\u{5C9C}','\u{24365}','\u{714F}','\u{9362}',
    '\u{242C1}','\u{712C}','\u{2445A}','\u{24A27}','\u{24A22}','\u{71BA}','\u{28BE8}','\u{70BD}',
    '\u{720E}','\u{9442}','\u{7215}','\u{5911}','\u{9443}','\u{7224}','\u{9341}','\u{25605}',
    '\u{722E}','\u{7240}','\u{24974}','\u{68BD}','\u{7255}','\u{7257}','\u{3E55}','\u{23044}',
    '\u{680D}','\u{6F3D}','\u{7282}','\u{732A}','\u{732B}','\u{24823}','\u{2882B}','\u{48ED}',
    '\u{28804}','\u{7328}','\u{732E}','\u{73CF}','\u{73AA}','\u{20C3A}','\u{26A2E}','\u{73C9}',
    '\u{7449}','\u{241E2}','\u{216E7}','\u{24A24}','\u{6623}','\u{36C5}','\u{249B7}','\u{2498D}',
    '\u{249FB}','\u{73F7}','\u{7415}','\u{6903}','\u{24A26}','\u{7439}','\u{205C3}','\u{3ED7}',
    '\u{745C}','\u{228AD}','\u{7460}','\u{28EB2}','\u{7447}','\u{73E4}','\u{7476}','\u{83B9}',
    '\u{746C}','\u{3730}','\u{7474}','\u{93F1}','\u{6A2C}','\u{7482}','\u{4953}','\u{24A8C}',
    '\u{2415F}','\u{24A79}','\u{28B8F}','\u{5B46}','\u{28C03}','\u{2189E}','\u{74C8}','\u{21988}',
    '\u{750E}','\u{74E9}','\u{751E}','\u{28ED9}','\u{21A4B}','\u{5BD7}','\u{28EAC}','\u{9385}',
    '\u{754D}','\u{754A}','\u{7567}','\u{756E}','\u{24F82}','\u{3F04}','\u{24D13}','\u{758E}',
    '\u{745D}','\u{759E}','\u{75B4}','\u{7602}','\u{762C}','\u{7651}','\u{764F}','\u{766F}',
    '\u{7676}','\u{263F5}','\u{7690}','\u{81EF}','\u{37F8}','\u{26911}','\u{2690E}','\u{76A1}',
    '\u{76A5}','\u{76B7}','\u{76CC}','\u{26F9F}','\u{8462}','\u{2509D}','\u{2517D}','\u{21E1C}',
    '\u{771E}','\u{7726}','\u{7740}','\u{64AF}','\u{25220}','\u{7758}','\u{232AC}','\u{77AF}',
    '\u{28964}','\u{28968}','\u{216C1}','\u{77F4}','\u{7809}','\u{21376}','\u{24A12}','\u{68CA}',
    '\u{78AF}','\u{78C7}','\u{78D3}','\u{96A5}','\u{792E}','\u{255E0}','\u{78D7}','\u{7934}',
    '\u{78B1}','\u{2760C}','\u{8FB8}','\u{8884}','\u{28B2B}','\u{26083}','\u{2261C}','\u{7986}',
    '\u{8900}','\u{6902}','\u{7980}','\u{25857}','\u{799D}','\u{27B39}','\u{793C}','\u{79A9}',
    '\u{6E2A}','\u{27126}','\u{3EA8}','\u{79C6}','\u{2910D}','\u{79D4}',
"#

end Verif.Files.Big5
