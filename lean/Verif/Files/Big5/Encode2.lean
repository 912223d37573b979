import Verif.Text

/-! Generated by tools/gen_files.py: verbatim copies of parts of files of /repo. -/

namespace Verif.Files.Big5

/-- src/generated/whatwg/big5_whatwg_tables.rs.inc:5681-5808 -/
noncomputable def encode25 : List Text := lines! r#"    ('\u{78E4}', [0x8C, 0x59]), ('\u{78E5}', [0xEA, 0xA4]), ('\u{78E7}', [0xBF, 0x6C]), 
    ('\u{78E8}', [0xBF, 0x69]), ('\u{78E9}', [0xEA, 0xA3]), ('\u{78EA}', [0xEA, 0xA5]), 
    ('\u{78EC}', [0xBF, 0x6B]), ('\u{78ED}', [0xEA, 0xAB]), ('\u{78EE}', [0x93, 0xC9]), 
    ('\u{78EF}', [0xC1, 0x46]), ('\u{78F0}', [0x94, 0xE8]), ('\u{78F1}', [0xFB, 0x56]), 
    ('\u{78F2}', [0xED, 0xAA]), ('\u{78F3}', [0xED, 0xA5]), ('\u{78F4}', [0xC1, 0x45]), 
    ('\u{78F5}', [0x90, 0xC5]), ('\u{78F7}', [0xC1, 0x43]), ('\u{78F9}', [0xED, 0xAC]), 
    ('\u{78FA}', [0xC1, 0x44]), ('\u{78FB}', [0xED, 0xA8]), ('\u{78FC}', [0xED, 0xA9]), 
    ('\u{78FD}', [0xED, 0xA6]), ('\u{78FE}', [0xED, 0xAD]), ('\u{78FF}', [0xF0, 0x56]), 
    ('\u{7901}', [0xC1, 0x47]), ('\u{7902}', [0xED, 0xA7]), ('\u{7904}', [0xED, 0xAE]), 
    ('\u{7905}', [0xED, 0xAB]), ('\u{7906}', [0xA0, 0xA8]), ('\u{7909}', [0xF0, 0x5A]), 
    ('\u{790C}', [0xF0, 0x57]), ('\u{790E}', [0xC2, 0xA6]), ('\u{7910}', [0xF0, 0x5B]), 
    ('\u{7911}', [0xF0, 0x5D]), ('\u{7912}', [0xF0, 0x5C]), ('\u{7913}', [0xF0, 0x58]), 
    ('\u{7914}', [0xF0, 0x59]), ('\u{7917}', [0xF2, 0xA3]), ('\u{7919}', [0xC3, 0xAA]), 
    ('\u{791B}', [0xF2, 0x7E]), ('\u{791C}', [0xF2, 0xA2]), ('\u{791D}', [0xF2, 0x7D]), 
    ('\u{791E}', [0xF2, 0xA4]), ('\u{7921}', [0xF2, 0xA1]), ('\u{7923}', [0xF4, 0x7A]), 
    ('\u{7924}', [0xF4, 0x7D]), ('\u{7925}', [0xF4, 0x79]), ('\u{7926}', [0xC4, 0x71]), 
    ('\u{7927}', [0xF4, 0x7B]), ('\u{7928}', [0xF4, 0x7C]), ('\u{7929}', [0xF4, 0x7E]), 
    ('\u{792A}', [0xC4, 0x72]), ('\u{792B}', [0xC4, 0x74]), ('\u{792C}', [0xC4, 0x73]), 
    ('\u{792D}', [0xF5, 0xE1]), ('\u{792E}', [0xFE, 0xE5]), ('\u{792F}', [0xF5, 0xE3]), 
    ('\u{7931}', [0xF5, 0xE2]), ('\u{7932}', [0x98, 0xFD]), ('\u{7933}', [0x98, 0xFB]), 
    ('\u{7934}', [0xFE, 0xE8]), ('\u{7935}', [0xF6, 0xF6]), ('\u{7936}', [0x8E, 0xBF]), 
    ('\u{7938}', [0xF8, 0xB5]), ('\u{7939}', [0xF8, 0xFA]), ('\u{793A}', [0xA5, 0xDC]), 
    ('\u{793B}', [0x8B, 0xD8]), ('\u{793C}', [0xFE, 0xF7]), ('\u{793D}', [0xCB, 0x72]), 
    ('\u{793E}', [0xAA, 0xC0]), ('\u{793F}', [0xCD, 0xA3]), ('\u{7940}', [0xAA, 0xC1]), 
    ('\u{7941}', [0xAA, 0xC2]), ('\u{7942}', [0xCD, 0xA2]), ('\u{7944}', [0xCF, 0xF8]), 
    ('\u{7945}', [0xCF, 0xF7]), ('\u{7946}', [0xAC, 0xE6]), ('\u{7947}', [0xAC, 0xE9]), 
    ('\u{7948}', [0xAC, 0xE8]), ('\u{7949}', [0xAC, 0xE7]), ('\u{794A}', [0xCF, 0xF4]), 
    ('\u{794B}', [0xCF, 0xF6]), ('\u{794C}', [0xCF, 0xF5]), ('\u{794F}', [0xD2, 0xE8]), 
    ('\u{7950}', [0xAF, 0xA7]), ('\u{7951}', [0xD2, 0xEC]), ('\u{7952}', [0xD2, 0xEB]), 
    ('\u{7953}', [0xD2, 0xEA]), ('\u{7954}', [0xD2, 0xE6]), ('\u{7955}', [0xAF, 0xA6]), 
    ('\u{7956}', [0xAF, 0xAA]), ('\u{7957}', [0xAF, 0xAD]), ('\u{7958}', [0x8F, 0x68]), 
    ('\u{7959}', [0x94, 0xC6]), ('\u{795A}', [0xAF, 0xAE]), ('\u{795B}', [0xD2, 0xE7]), 
    ('\u{795C}', [0xD2, 0xE9]), ('\u{795D}', [0xAF, 0xAC]), ('\u{795E}', [0xAF, 0xAB]), 
    ('\u{795F}', [0xAF, 0xA9]), ('\u{7960}', [0xAF, 0xA8]), ('\u{7961}', [0xD6, 0xC2]), 
    ('\u{7962}', [0x9D, 0xEA]), ('\u{7963}', [0xD6, 0xC0]), ('\u{7964}', [0xD6, 0xBC]), 
    ('\u{7965}', [0xB2, 0xBB]), ('\u{7967}', [0xD6, 0xBD]), ('\u{7968}', [0xB2, 0xBC]), 
    ('\u{7969}', [0xD6, 0xBE]), ('\u{796A}', [0xD6, 0xBF]), ('\u{796B}', [0xD6, 0xC1]), 
    ('\u{796D}', [0xB2, 0xBD]), ('\u{7970}', [0xDA, 0xD5]), ('\u{7971}', [0xFC, 0x69]), 
    ('\u{7972}', [0xDA, 0xD4]), ('\u{7973}', [0xDA, 0xD3]), ('\u{7974}', [0xDA, 0xD2]), 
    ('\u{7979}', [0xDE, 0xF6]), ('\u{797A}', [0xB8, 0x52]), ('\u{797C}', [0xDE, 0xF3]), 
    ('\u{797D}', [0xDE, 0xF5]), ('\u{797E}', [0x9C, 0xDA]), ('\u{797F}', [0xB8, 0x53]), 
    ('\u{7980}', [0xFE, 0xF3]), ('\u{7981}', [0xB8, 0x54]), ('\u{7982}', [0xDE, 0xF4]), 
    ('\u{7983}', [0x9C, 0x72]), ('\u{7986}', [0xFE, 0xF0]), ('\u{7987}', [0x89, 0xC9]), 
    ('\u{7988}', [0xE3, 0x41]), ('\u{798A}', [0xE2, 0xF9]), ('\u{798B}', [0xE2, 0xFA]), 
    ('\u{798D}', [0xBA, 0xD7]), ('\u{798E}', [0xBA, 0xD5]), ('\u{798F}', [0xBA, 0xD6]), 
    ('\u{7990}', [0xE3, 0x43]), ('\u{7991}', [0x99, 0x41]), ('\u{7992}', [0xE3, 0x42]), 
    ('\u{7993}', [0xE2, 0xFE]), ('\u{7994}', [0xE2, 0xFD]), ('\u{7995}', [0xE2, 0xFC]), 
    ('\u{7996}', [0xE2, 0xFB]), ('\u{7997}', [0xE3, 0x40]), ('\u{7998}', [0xE2, 0xF8]), 
    ('\u{7999}', [0x99, 0x42]), ('\u{799A}', [0xE6, 0xCB]), ('\u{799B}', [0x94, 0xCA]), 
    ('\u{799C}', [0xE6, 0xCE]), ('\u{799D}', [0xFE, 0xF5]), ('\u{799F}', [0x91, 0xD7]), 
    ('\u{79A0}', [0xE6, 0xCD]), ('\u{79A1}', [0xE6, 0xCC]), ('\u{79A2}', [0xE6, 0xCF]), 
    ('\u{79A4}', [0xEA, 0xAE]), ('\u{79A5}', [0x94, 0xCC]), ('\u{79A6}', [0xBF, 0x6D]), 
    ('\u{79A7}', [0xC1, 0x48]), ('\u{79A8}', [0xED, 0xB0]), ('\u{79A9}', [0xFE, 0xF8]), 
    ('\u{79AA}', [0xC1, 0x49]), ('\u{79AB}', [0xED, 0xAF]), ('\u{79AC}', [0xF0, 0x5F]), 
    ('\u{79AD}', [0xF0, 0x5E]), ('\u{79AE}', [0xC2, 0xA7]), ('\u{79B0}', [0xF2, 0xA5]), 
    ('\u{79B1}', [0xC3, 0xAB]), ('\u{79B2}', [0xF4, 0xA1]), ('\u{79B3}', [0xC5, 0xA1]), 
    ('\u{79B4}', [0xF6, 0xF7]), ('\u{79B6}', [0xF8, 0xB7]), ('\u{79B7}', [0xF8, 0xB6]), 
    ('\u{79B8}', [0xC9, 0xA8]), ('\u{79B9}', [0xAC, 0xEA]), ('\u{79BA}', [0xAC, 0xEB]), 
    ('\u{79BB}', [0xD6, 0xC3]), ('\u{79BD}', [0xB8, 0x56]), ('\u{79BE}', [0xA5, 0xDD]), 
    ('\u{79BF}', [0xA8, 0x72]), ('\u{79C0}', [0xA8, 0x71]), ('\u{79C1}', [0xA8, 0x70]), 
    ('\u{79C4}', [0x97, 0xA8]), ('\u{79C5}', [0xCD, 0xA4]), ('\u{79C6}', [0xFE, 0xFC]), 
    ('\u{79C8}', [0xAA, 0xC4]), ('\u{79C9}', [0xAA, 0xC3]), ('\u{79CA}', [0x8C, 0xDE]), 
    ('\u{79CB}', [0xAC, 0xEE]), ('\u{79CC}', [0xFD, 0xBF]), ('\u{79CD}', [0xCF, 0xFA]), 
    ('\u{79CE}', [0xCF, 0xFD]), ('\u{79CF}', [0xCF, 0xFB]), ('\u{79D0}', [0x87, 0xB3]), 
    ('\u{79D1}', [0xAC, 0xEC]), ('\u{79D2}', [0xAC, 0xED]), ('\u{79D4}', [0xFE, 0xFE]), 
    ('\u{79D5}', [0xCF, 0xF9]), ('\u{79D6}', [0xCF, 0xFC]), ('\u{79D8}', [0xAF, 0xB5]), 
    ('\u{79DC}', [0xD2, 0xF3]), ('\u{79DD}', [0xD2, 0xF5]), ('\u{79DE}', [0xD2, 0xF4]), 
    ('\u{79DF}', [0xAF, 0xB2]), ('\u{79E0}', [0xD2, 0xEF]), ('\u{79E2}', [0x96, 0xD1]), 
    ('\u{79E3}', [0x9C, 0xBD]), ('\u{79E4}', [0xAF, 0xAF]), ('\u{79E6}', [0xAF, 0xB3]), 
    ('\u{79E7}', [0xAF, 0xB1]), ('\u{79E9}', [0xAF, 0xB4]), ('\u{79EA}', [0xD2, 0xF2]), 
    ('\u{79EB}', [0xD2, 0xED]), ('\u{79EC}', [0xD2, 0xEE]), ('\u{79ED}', [0xD2, 0xF1]), 
    ('\u{79EE}', [0xD2, 0xF0]), ('\u{79F1}', [0x94, 0xD5]), ('\u{79F4}', [0x94, 0xD0]), 
    ('\u{79F6}', [0xD6, 0xC6]), ('\u{79F7}', [0xD6, 0xC7]), ('\u{79F8}', [0xD6, 0xC5]), 
    ('\u{79FA}', [0xD6, 0xC4]), ('\u{79FB}', [0xB2, 0xBE]), ('\u{7A00}', [0xB5, 0x7D]), 
    ('\u{7A02}', [0xDA, 0xD6]), ('\u{7A03}', [0xDA, 0xD8]), ('\u{7A04}', [0xDA, 0xDA]), 
    ('\u{7A05}', [0xB5, 0x7C]), ('\u{7A06}', [0x99, 0x44]), ('\u{7A08}', [0xB5, 0x7A]), 
    ('\u{7A0A}', [0xDA, 0xD7]), ('\u{7A0B}', [0xB5, 0x7B]), ('\u{7A0C}', [0xDA, 0xD9]), 
    ('\u{7A0D}', [0xB5, 0x79]), ('\u{7A10}', [0xDF, 0x41]), ('\u{7A11}', [0xDE, 0xF7]), 
    ('\u{7A12}', [0xDE, 0xFA]), ('\u{7A13}', [0xDE, 0xFE]), ('\u{7A14}', [0xB8, 0x5A]), 
    ('\u{7A15}', [0xDE, 0xFC]), ('\u{7A17}', [0xDE, 0xFB]), ('\u{7A18}', [0xDE, 0xF8]), 
    ('\u{7A19}', [0xDE, 0xF9]), ('\u{7A1A}', [0xB8, 0x58]), ('\u{7A1B}', [0xDF, 0x40]), 
    ('\u{7A1C}', [0xB8, 0x57]), ('\u{7A1E}', [0xB8, 0x5C]), ('\u{7A1F}', [0xB8, 0x5B]), 
    ('\u{7A20}', [0xB8, 0x59]), ('\u{7A22}', [0xDE, 0xFD]), ('\u{7A26}', [0xE3, 0x49]), 
    ('\u{7A28}', [0xE3, 0x48]), ('\u{7A2A}', [0x8C, 0x63]), ('\u{7A2B}', [0xE3, 0x44]), 
    ('\u{7A2C}', [0x87, 0xBB]), ('\u{7A2D}', [0xA0, 0xB3]), ('\u{7A2E}', [0xBA, 0xD8]), 
    ('\u{7A2F}', [0xE3, 0x47]), ('\u{7A30}', [0xE3, 0x46]), ('\u{7A31}', [0xBA, 0xD9]), 
    ('\u{7A32}', [0x87, 0xB4]), ('\u{7A37}', [0xBD, 0x5E]), ('\u{7A39}', [0xE6, 0xD2]), 
    ('\u{7A3A}', [0x94, 0xCF]), ('\u{7A3B}', [0xBD, 0x5F]), ('\u{7A3C}', [0xBD, 0x5B]), 
    ('\u{7A3D}', [0xBD, 0x5D]), ('\u{7A3E}', [0x9F, 0xFA]), ('\u{7A3F}', [0xBD, 0x5A]), 
    ('\u{7A40}', [0xBD, 0x5C]), ('\u{7A43}', [0x91, 0xE5]), ('\u{7A44}', [0xEA, 0xAF]), 
    ('\u{7A45}', [0x9C, 0x6A]), ('\u{7A46}', [0xBF, 0x70]), ('\u{7A47}', [0xEA, 0xB1]), 
    ('\u{7A48}', [0xEA, 0xB0]), ('\u{7A49}', [0x8E, 0x49]), ('\u{7A4A}', [0xE3, 0x45]), 
    ('\u{7A4B}', [0xBF, 0x72]), ('\u{7A4C}', [0xBF, 0x71]), ('\u{7A4D}', [0xBF, 0x6E]), 
    ('\u{7A4E}', [0xBF, 0x6F]), ('\u{7A54}', [0xED, 0xB5]), ('\u{7A56}', [0xED, 0xB3]), 
    ('\u{7A57}', [0xC1, 0x4A]), ('\u{7A58}', [0xED, 0xB4]), ('\u{7A5A}', [0xED, 0xB6]), 
    ('\u{7A5B}', [0xED, 0xB2]), ('\u{7A5C}', [0xED, 0xB1]), ('\u{7A5F}', [0xF0, 0x60]), 
    ('\u{7A60}', [0xC2, 0xAA]), ('\u{7A61}', [0xC2, 0xA8]), ('\u{7A62}', [0xC2, 0xA9]), 
    ('\u{7A65}', [0x8E, 0x4C]), ('\u{7A67}', [0xF2, 0xA6]), ('\u{7A68}', [0xF2, 0xA7]), 
    ('\u{7A69}', [0xC3, 0xAD]), ('\u{7A6B}', [0xC3, 0xAC]), ('\u{7A6C}', [0xF4, 0xA3]), 
    ('\u{7A6D}', [0xF4, 0xA4]), ('\u{7A6E}', [0xF4, 0xA2]), ('\u{7A70}', [0xF6, 0xF8]), 
    ('\u{7A71}', [0xF6, 0xF9]), ('\u{7A72}', [0x87, 0xC9]), ('\u{7A74}', [0xA5, 0xDE]), 
    ('\u{7A75}', [0xCA, 0x48]), ('\u{7A76}', [0xA8, 0x73]), ('\u{7A78}', [0xCD, 0xA5]), 
    ('\u{7A79}', [0xAA, 0xC6]), ('\u{7A7A}', [0xAA, 0xC5]), ('\u{7A7B}', [0xCD, 0xA6]), 
    ('\u{7A7D}', [0x8E, 0x4D]), ('\u{7A7E}', [0xD0, 0x40]), ('\u{7A7F}', [0xAC, 0xEF]), 
    ('\u{7A80}', [0xCF, 0xFE]), ('\u{7A81}', [0xAC, 0xF0]), ('\u{7A83}', [0x9A, 0x73]), 
    ('\u{7A84}', [0xAF, 0xB6]), ('\u{7A85}', [0xD2, 0xF8]), ('\u{7A86}', [0xD2, 0xF6]), 
    ('\u{7A87}', [0xD2, 0xFC]), ('\u{7A88}', [0xAF, 0xB7]), ('\u{7A89}', [0xD2, 0xF7]), 
    ('\u{7A8A}', [0xD2, 0xFB]), ('\u{7A8B}', [0xD2, 0xF9]), ('\u{7A8C}', [0xD2, 0xFA]), 
    ('\u{7A8F}', [0xD6, 0xC8]), ('\u{7A90}', [0xD6, 0xCA]), ('\u{7A91}', [0x99, 0x47]), 
    ('\u{7A92}', [0xB2, 0xBF]), ('\u{7A93}', [0x8C, 0xB1]), ('\u{7A94}', [0xD6, 0xC9]), 
    ('\u{7A95}', [0xB2, 0xC0]), ('\u{7A96}', [0xB5, 0xA2]), ('\u{7A97}', [0xB5, 0xA1]), 
    ('\u{7A98}', [0xB5, 0x7E]), ('\u{7A99}', [0xDA, 0xDB]), ('\u{7A9E}', [0xDF, 0x44]), 
    ('\u{7A9F}', [0xB8, 0x5D]), ('\u{7AA0}', [0xB8, 0x5E]), ('\u{7AA2}', [0xDF, 0x43]), 
    ('\u{7AA3}', [0xDF, 0x42]), ('\u{7AA8}', [0xE3, 0x4A]), ('\u{7AA9}', [0xBA, 0xDB]), 
    ('\u{7AAA}', [0xBA, 0xDA]), ('\u{7AAB}', [0xE3, 0x4B]), ('\u{7AAC}', [0xE3, 0x4C]), 
    ('\u{7AAE}', [0xBD, 0x61]), ('\u{7AAF}', [0xBD, 0x60]), ('\u{7AB0}', [0x8E, 0x50]), 
    ('\u{7AB1}', [0xEA, 0xB5]), ('\u{7AB2}', [0xE6, 0xD3]), ('\u{7AB3}', [0xE6, 0xD5]), 
    ('\u{7AB4}', [0xE6, 0xD4]), ('\u{7AB5}', [0xEA, 0xB4]), ('\u{7AB6}', [0xEA, 0xB2]), 
    ('\u{7AB7}', [0xEA, 0xB6]), ('\u{7AB8}', [0xEA, 0xB3]), ('\u{7ABA}', [0xBF, 0x73]), 
    ('\u{7ABB}', [0x8E, 0x4F]), ('\u{7ABC}', [0x99, 0x49]), ('\u{7ABE}', [0xED, 0xB7]), 
    ('\u{7ABF}', [0xC1, 0x4B]), ('\u{7AC0}', [0xED, 0xB8]), ('\u{7AC1}', [0xED, 0xB9]), 
    ('\u{7AC2}', [0x8E, 0x51]), ('\u{7AC3}', [0x8E, 0x52]), ('\u{7AC4}', [0xC2, 0xAB]), 
    ('\u{7AC5}', [0xC2, 0xAC]), ('\u{7AC7}', [0xC4, 0x75]), ('\u{7AC8}', [0x9A, 0xB2]), 
    ('\u{7AC9}', [0x89, 0xA5]), ('\u{7ACA}', [0xC5, 0xD1]), ('\u{7ACB}', [0xA5, 0xDF]), 
    ('\u{7ACF}', [0x99, 0x4C]), ('\u{7AD1}', [0xD0, 0x41]), ('\u{7AD3}', [0x9F, 0xF8]), 
    ('\u{7AD8}', [0xD2, 0xFD]), ('\u{7AD9}', [0xAF, 0xB8]), ('\u{7ADA}', [0x8E, 0x56]), 
    ('\u{7ADB}', [0x99, 0x4D]), ('\u{7ADC}', [0x91, 0xCA]), ('\u{7ADD}', [0x8E, 0x57]), 
    ('\u{7ADF}', [0xB3, 0xBA]), ('\u{7AE0}', [0xB3, 0xB9]), ('\u{7AE2}', [0x94, 0xE1]), 
"#

/-- src/generated/whatwg/big5_whatwg_tables.rs.inc:5809-5936 -/
noncomputable def encode26 : List Text := lines! r#"    ('\u{7AE3}', [0xB5, 0xA4]), ('\u{7AE4}', [0xDA, 0xDD]), ('\u{7AE5}', [0xB5, 0xA3]), 
    ('\u{7AE6}', [0xDA, 0xDC]), ('\u{7AE7}', [0x90, 0x47]), ('\u{7AE9}', [0x8F, 0xD8]), 
    ('\u{7AEA}', [0x8E, 0x58]), ('\u{7AEB}', [0xDF, 0x45]), ('\u{7AED}', [0xBA, 0xDC]), 
    ('\u{7AEE}', [0xE3, 0x4D]), ('\u{7AEF}', [0xBA, 0xDD]), ('\u{7AF6}', [0xC4, 0x76]), 
    ('\u{7AF7}', [0xF4, 0xA5]), ('\u{7AF9}', [0xA6, 0xCB]), ('\u{7AFA}', [0xAA, 0xC7]), 
    ('\u{7AFB}', [0xCD, 0xA7]), ('\u{7AFC}', [0x87, 0xA3]), ('\u{7AFD}', [0xAC, 0xF2]), 
    ('\u{7AFE}', [0x94, 0xEB]), ('\u{7AFF}', [0xAC, 0xF1]), ('\u{7B00}', [0xD0, 0x42]), 
    ('\u{7B01}', [0xD0, 0x43]), ('\u{7B04}', [0xD3, 0x40]), ('\u{7B05}', [0xD3, 0x42]), 
    ('\u{7B06}', [0xAF, 0xB9]), ('\u{7B08}', [0xD3, 0x44]), ('\u{7B09}', [0xD3, 0x47]), 
    ('\u{7B0A}', [0xD3, 0x45]), ('\u{7B0B}', [0x8E, 0x5C]), ('\u{7B0C}', [0x95, 0x53]), 
    ('\u{7B0E}', [0xD3, 0x46]), ('\u{7B0F}', [0xD3, 0x43]), ('\u{7B10}', [0xD2, 0xFE]), 
    ('\u{7B11}', [0xAF, 0xBA]), ('\u{7B12}', [0xD3, 0x48]), ('\u{7B13}', [0xD3, 0x41]), 
    ('\u{7B14}', [0x9F, 0xE5]), ('\u{7B18}', [0xD6, 0xD3]), ('\u{7B19}', [0xB2, 0xC6]), 
    ('\u{7B1A}', [0xD6, 0xDC]), ('\u{7B1B}', [0xB2, 0xC3]), ('\u{7B1D}', [0xD6, 0xD5]), 
    ('\u{7B1E}', [0xB2, 0xC7]), ('\u{7B1F}', [0x9F, 0x56]), ('\u{7B20}', [0xB2, 0xC1]), 
    ('\u{7B22}', [0xD6, 0xD0]), ('\u{7B23}', [0xD6, 0xDD]), ('\u{7B24}', [0xD6, 0xD1]), 
    ('\u{7B25}', [0xD6, 0xCE]), ('\u{7B26}', [0xB2, 0xC5]), ('\u{7B27}', [0x95, 0x4F]), 
    ('\u{7B28}', [0xB2, 0xC2]), ('\u{7B29}', [0x8E, 0x5E]), ('\u{7B2A}', [0xD6, 0xD4]), 
    ('\u{7B2B}', [0xD6, 0xD7]), ('\u{7B2C}', [0xB2, 0xC4]), ('\u{7B2D}', [0xD6, 0xD8]), 
    ('\u{7B2E}', [0xB2, 0xC8]), ('\u{7B2F}', [0xD6, 0xD9]), ('\u{7B30}', [0xD6, 0xCF]), 
    ('\u{7B31}', [0xD6, 0xD6]), ('\u{7B32}', [0xD6, 0xDA]), ('\u{7B33}', [0xD6, 0xD2]), 
    ('\u{7B34}', [0xD6, 0xCD]), ('\u{7B35}', [0xD6, 0xCB]), ('\u{7B38}', [0xD6, 0xDB]), 
    ('\u{7B39}', [0x99, 0x6A]), ('\u{7B3B}', [0xDA, 0xDF]), ('\u{7B40}', [0xDA, 0xE4]), 
    ('\u{7B42}', [0x9C, 0x64]), ('\u{7B43}', [0x9C, 0xD9]), ('\u{7B44}', [0xDA, 0xE0]), 
    ('\u{7B45}', [0xDA, 0xE6]), ('\u{7B46}', [0xB5, 0xA7]), ('\u{7B47}', [0xD6, 0xCC]), 
    ('\u{7B48}', [0xDA, 0xE1]), ('\u{7B49}', [0xB5, 0xA5]), ('\u{7B4A}', [0xDA, 0xDE]), 
    ('\u{7B4B}', [0xB5, 0xAC]), ('\u{7B4C}', [0xDA, 0xE2]), ('\u{7B4D}', [0xB5, 0xAB]), 
    ('\u{7B4E}', [0xDA, 0xE3]), ('\u{7B4F}', [0xB5, 0xAD]), ('\u{7B50}', [0xB5, 0xA8]), 
    ('\u{7B51}', [0x9D, 0x5A]), ('\u{7B52}', [0xB5, 0xA9]), ('\u{7B54}', [0xB5, 0xAA]), 
    ('\u{7B55}', [0x8E, 0x5D]), ('\u{7B56}', [0xB5, 0xA6]), ('\u{7B58}', [0xDA, 0xE5]), 
    ('\u{7B60}', [0xB8, 0x61]), ('\u{7B61}', [0xDF, 0x50]), ('\u{7B62}', [0x99, 0x50]), 
    ('\u{7B63}', [0xDF, 0x53]), ('\u{7B64}', [0xDF, 0x47]), ('\u{7B65}', [0xDF, 0x4C]), 
    ('\u{7B66}', [0xDF, 0x46]), ('\u{7B67}', [0xB8, 0x63]), ('\u{7B69}', [0xDF, 0x4A]), 
    ('\u{7B6C}', [0x99, 0x51]), ('\u{7B6D}', [0xDF, 0x48]), ('\u{7B6E}', [0xB8, 0x62]), 
    ('\u{7B6F}', [0x8E, 0x62]), ('\u{7B70}', [0xDF, 0x4F]), ('\u{7B71}', [0xDF, 0x4E]), 
    ('\u{7B72}', [0xDF, 0x4B]), ('\u{7B73}', [0xDF, 0x4D]), ('\u{7B74}', [0xDF, 0x49]), 
    ('\u{7B75}', [0xBA, 0xE1]), ('\u{7B76}', [0xDF, 0x52]), ('\u{7B77}', [0xB8, 0x5F]), 
    ('\u{7B78}', [0xDF, 0x51]), ('\u{7B7B}', [0x99, 0x52]), ('\u{7B82}', [0xE3, 0x5D]), 
    ('\u{7B84}', [0xBA, 0xE8]), ('\u{7B85}', [0xE3, 0x58]), ('\u{7B87}', [0xBA, 0xE7]), 
    ('\u{7B88}', [0xE3, 0x4E]), ('\u{7B8A}', [0xE3, 0x50]), ('\u{7B8B}', [0xBA, 0xE0]), 
    ('\u{7B8C}', [0xE3, 0x55]), ('\u{7B8D}', [0xE3, 0x54]), ('\u{7B8E}', [0xE3, 0x57]), 
    ('\u{7B8F}', [0xBA, 0xE5]), ('\u{7B90}', [0xE3, 0x52]), ('\u{7B91}', [0xE3, 0x51]), 
    ('\u{7B92}', [0x8E, 0x68]), ('\u{7B94}', [0xBA, 0xE4]), ('\u{7B95}', [0xBA, 0xDF]), 
    ('\u{7B96}', [0xE3, 0x53]), ('\u{7B97}', [0xBA, 0xE2]), ('\u{7B98}', [0xE3, 0x59]), 
    ('\u{7B99}', [0xE3, 0x5B]), ('\u{7B9B}', [0xE3, 0x56]), ('\u{7B9C}', [0xE3, 0x4F]), 
    ('\u{7B9D}', [0xBA, 0xE3]), ('\u{7BA0}', [0xBD, 0x69]), ('\u{7BA1}', [0xBA, 0xDE]), 
    ('\u{7BA2}', [0x8E, 0x61]), ('\u{7BA3}', [0x9F, 0x59]), ('\u{7BA4}', [0xE3, 0x5C]), 
    ('\u{7BAC}', [0xE6, 0xD9]), ('\u{7BAD}', [0xBD, 0x62]), ('\u{7BAE}', [0x87, 0xD0]), 
    ('\u{7BAF}', [0xE6, 0xDB]), ('\u{7BB1}', [0xBD, 0x63]), ('\u{7BB2}', [0x8B, 0xB3]), 
    ('\u{7BB4}', [0xBD, 0x65]), ('\u{7BB5}', [0xE6, 0xDE]), ('\u{7BB7}', [0xE6, 0xD6]), 
    ('\u{7BB8}', [0x8E, 0x69]), ('\u{7BB9}', [0xE6, 0xDC]), ('\u{7BBE}', [0xE6, 0xD8]), 
    ('\u{7BC0}', [0xB8, 0x60]), ('\u{7BC1}', [0xBD, 0x68]), ('\u{7BC4}', [0xBD, 0x64]), 
    ('\u{7BC5}', [0x87, 0xB9]), ('\u{7BC6}', [0xBD, 0x66]), ('\u{7BC7}', [0xBD, 0x67]), 
    ('\u{7BC9}', [0xBF, 0x76]), ('\u{7BCA}', [0xE6, 0xDD]), ('\u{7BCB}', [0xE6, 0xD7]), 
    ('\u{7BCC}', [0xBD, 0x6A]), ('\u{7BCE}', [0xE6, 0xDA]), ('\u{7BCF}', [0x9F, 0x5D]), 
    ('\u{7BD0}', [0x8E, 0x66]), ('\u{7BD4}', [0xEA, 0xC0]), ('\u{7BD5}', [0xEA, 0xBB]), 
    ('\u{7BD8}', [0xEA, 0xC5]), ('\u{7BD9}', [0xBF, 0x74]), ('\u{7BDA}', [0xEA, 0xBD]), 
    ('\u{7BDB}', [0xBF, 0x78]), ('\u{7BDC}', [0xEA, 0xC3]), ('\u{7BDD}', [0xEA, 0xBA]), 
    ('\u{7BDE}', [0xEA, 0xB7]), ('\u{7BDF}', [0xEA, 0xC6]), ('\u{7BE0}', [0xC1, 0x51]), 
    ('\u{7BE1}', [0xBF, 0x79]), ('\u{7BE2}', [0xEA, 0xC2]), ('\u{7BE3}', [0xEA, 0xB8]), 
    ('\u{7BE4}', [0xBF, 0x77]), ('\u{7BE5}', [0xEA, 0xBC]), ('\u{7BE6}', [0xBF, 0x7B]), 
    ('\u{7BE7}', [0xEA, 0xB9]), ('\u{7BE8}', [0xEA, 0xBE]), ('\u{7BE9}', [0xBF, 0x7A]), 
    ('\u{7BEA}', [0xEA, 0xC1]), ('\u{7BEB}', [0xEA, 0xC4]), ('\u{7BEC}', [0x8C, 0xB2]), 
    ('\u{7BF0}', [0xED, 0xCB]), ('\u{7BF1}', [0xED, 0xCC]), ('\u{7BF2}', [0xED, 0xBC]), 
    ('\u{7BF3}', [0xED, 0xC3]), ('\u{7BF4}', [0xED, 0xC1]), ('\u{7BF7}', [0xC1, 0x4F]), 
    ('\u{7BF8}', [0xED, 0xC8]), ('\u{7BF9}', [0xEA, 0xBF]), ('\u{7BFA}', [0x8E, 0x6E]), 
    ('\u{7BFB}', [0xED, 0xBF]), ('\u{7BFC}', [0x9F, 0x64]), ('\u{7BFD}', [0xED, 0xC9]), 
    ('\u{7BFE}', [0xC1, 0x4E]), ('\u{7BFF}', [0xED, 0xBE]), ('\u{7C00}', [0xED, 0xBD]), 
    ('\u{7C01}', [0xED, 0xC7]), ('\u{7C02}', [0xED, 0xC4]), ('\u{7C03}', [0xED, 0xC6]), 
    ('\u{7C05}', [0xED, 0xBA]), ('\u{7C06}', [0x8E, 0x6F]), ('\u{7C07}', [0xC1, 0x4C]), 
    ('\u{7C09}', [0xED, 0xC5]), ('\u{7C0A}', [0xED, 0xCE]), ('\u{7C0B}', [0xED, 0xC2]), 
    ('\u{7C0C}', [0xC1, 0x50]), ('\u{7C0D}', [0xC1, 0x4D]), ('\u{7C0E}', [0xED, 0xC0]), 
    ('\u{7C0F}', [0xED, 0xBB]), ('\u{7C10}', [0xED, 0xCD]), ('\u{7C11}', [0xBF, 0x75]), 
    ('\u{7C12}', [0x99, 0x53]), ('\u{7C15}', [0xFA, 0xB8]), ('\u{7C19}', [0xF0, 0x63]), 
    ('\u{7C1B}', [0x99, 0x54]), ('\u{7C1C}', [0xF0, 0x61]), ('\u{7C1D}', [0xF0, 0x67]), 
    ('\u{7C1E}', [0xC2, 0xB0]), ('\u{7C1F}', [0xF0, 0x65]), ('\u{7C20}', [0xF0, 0x64]), 
    ('\u{7C21}', [0xC2, 0xB2]), ('\u{7C22}', [0xF0, 0x6A]), ('\u{7C23}', [0xC2, 0xB1]), 
    ('\u{7C25}', [0xF0, 0x6B]), ('\u{7C26}', [0xF0, 0x68]), ('\u{7C27}', [0xC2, 0xAE]), 
    ('\u{7C28}', [0xF0, 0x69]), ('\u{7C29}', [0xF0, 0x62]), ('\u{7C2A}', [0xC2, 0xAF]), 
    ('\u{7C2B}', [0xC2, 0xAD]), ('\u{7C2C}', [0xF2, 0xAB]), ('\u{7C2D}', [0xF0, 0x66]), 
    ('\u{7C30}', [0xF0, 0x6C]), ('\u{7C33}', [0xF2, 0xA8]), ('\u{7C35}', [0x8E, 0x70]), 
    ('\u{7C37}', [0xC3, 0xB2]), ('\u{7C38}', [0xC3, 0xB0]), ('\u{7C39}', [0xF2, 0xAA]), 
    ('\u{7C3B}', [0xF2, 0xAC]), ('\u{7C3C}', [0xF2, 0xA9]), ('\u{7C3D}', [0xC3, 0xB1]), 
    ('\u{7C3E}', [0xC3, 0xAE]), ('\u{7C3F}', [0xC3, 0xAF]), ('\u{7C40}', [0xC3, 0xB3]), 
    ('\u{7C42}', [0x9F, 0x61]), ('\u{7C43}', [0xC4, 0x78]), ('\u{7C44}', [0x8E, 0x72]), 
    ('\u{7C45}', [0xF4, 0xAA]), ('\u{7C47}', [0xF4, 0xA9]), ('\u{7C48}', [0xF4, 0xA7]), 
    ('\u{7C49}', [0xF4, 0xA6]), ('\u{7C4A}', [0xF4, 0xA8]), ('\u{7C4C}', [0xC4, 0x77]), 
    ('\u{7C4D}', [0xC4, 0x79]), ('\u{7C50}', [0xC4, 0xF0]), ('\u{7C51}', [0xA0, 0x6B]), 
    ('\u{7C53}', [0xF5, 0xE5]), ('\u{7C54}', [0xF5, 0xE4]), ('\u{7C56}', [0x9F, 0x40]), 
    ('\u{7C57}', [0xF6, 0xFA]), ('\u{7C59}', [0xF6, 0xFC]), ('\u{7C5A}', [0xF6, 0xFE]), 
    ('\u{7C5B}', [0xF6, 0xFD]), ('\u{7C5C}', [0xF6, 0xFB]), ('\u{7C5D}', [0x94, 0xED]), 
    ('\u{7C5F}', [0xC5, 0xA3]), ('\u{7C60}', [0xC5, 0xA2]), ('\u{7C63}', [0xC5, 0xD3]), 
    ('\u{7C64}', [0xC5, 0xD2]), ('\u{7C65}', [0xC5, 0xD4]), ('\u{7C66}', [0xF7, 0xED]), 
    ('\u{7C67}', [0xF7, 0xEC]), ('\u{7C69}', [0xF8, 0xFB]), ('\u{7C6A}', [0xF8, 0xB8]), 
    ('\u{7C6B}', [0xF8, 0xFC]), ('\u{7C6C}', [0xC6, 0x58]), ('\u{7C6D}', [0x94, 0xEE]), 
    ('\u{7C6E}', [0xC6, 0x59]), ('\u{7C6F}', [0xF9, 0x6D]), ('\u{7C70}', [0x9F, 0xBD]), 
    ('\u{7C72}', [0xC6, 0x7E]), ('\u{7C73}', [0xA6, 0xCC]), ('\u{7C74}', [0x8E, 0x7B]), 
    ('\u{7C75}', [0xCD, 0xA8]), ('\u{7C78}', [0xD0, 0x45]), ('\u{7C79}', [0xD0, 0x46]), 
    ('\u{7C7A}', [0xD0, 0x44]), ('\u{7C7B}', [0x99, 0x57]), ('\u{7C7C}', [0x94, 0xF7]), 
    ('\u{7C7D}', [0xAC, 0xF3]), ('\u{7C7E}', [0x9F, 0x5F]), ('\u{7C7F}', [0xD0, 0x47]), 
    ('\u{7C80}', [0xD0, 0x48]), ('\u{7C81}', [0xD0, 0x49]), ('\u{7C83}', [0x8E, 0x73]), 
    ('\u{7C84}', [0xD3, 0x49]), ('\u{7C85}', [0xD3, 0x4F]), ('\u{7C86}', [0x9F, 0x62]), 
    ('\u{7C88}', [0xD3, 0x4D]), ('\u{7C89}', [0xAF, 0xBB]), ('\u{7C8A}', [0xD3, 0x4B]), 
    ('\u{7C8C}', [0xD3, 0x4C]), ('\u{7C8D}', [0xD3, 0x4E]), ('\u{7C8E}', [0x94, 0xF6]), 
    ('\u{7C91}', [0xD3, 0x4A]), ('\u{7C92}', [0xB2, 0xC9]), ('\u{7C94}', [0xD6, 0xDE]), 
    ('\u{7C95}', [0xB2, 0xCB]), ('\u{7C96}', [0xD6, 0xE0]), ('\u{7C97}', [0xB2, 0xCA]), 
    ('\u{7C98}', [0xD6, 0xDF]), ('\u{7C9C}', [0x99, 0x58]), ('\u{7C9E}', [0xDA, 0xE8]), 
    ('\u{7C9F}', [0xB5, 0xAF]), ('\u{7CA1}', [0xDA, 0xEA]), ('\u{7CA2}', [0xDA, 0xE7]), 
    ('\u{7CA3}', [0xD6, 0xE1]), ('\u{7CA5}', [0xB5, 0xB0]), ('\u{7CA6}', [0x8E, 0x75]), 
    ('\u{7CA7}', [0xF9, 0xDB]), ('\u{7CA8}', [0xDA, 0xE9]), ('\u{7CAC}', [0x90, 0x72]), 
    ('\u{7CAE}', [0x94, 0xF8]), ('\u{7CAF}', [0xDF, 0x56]), ('\u{7CB1}', [0xB8, 0x64]), 
    ('\u{7CB2}', [0xDF, 0x54]), ('\u{7CB3}', [0xB8, 0x65]), ('\u{7CB4}', [0xDF, 0x55]), 
    ('\u{7CB5}', [0xB8, 0x66]), ('\u{7CB8}', [0x99, 0x5A]), ('\u{7CB9}', [0xBA, 0xE9]), 
    ('\u{7CBA}', [0xE3, 0x61]), ('\u{7CBB}', [0xE3, 0x5E]), ('\u{7CBC}', [0xE3, 0x60]), 
    ('\u{7CBD}', [0xBA, 0xEA]), ('\u{7CBE}', [0xBA, 0xEB]), ('\u{7CBF}', [0xE3, 0x5F]), 
    ('\u{7CC2}', [0xA0, 0xB0]), ('\u{7CC3}', [0x8C, 0xB3]), ('\u{7CC5}', [0xE6, 0xDF]), 
    ('\u{7CC7}', [0x8E, 0x79]), ('\u{7CC8}', [0xE6, 0xE0]), ('\u{7CC9}', [0x8E, 0x78]), 
    ('\u{7CCA}', [0xBD, 0x6B]), ('\u{7CCB}', [0xE6, 0xE2]), ('\u{7CCC}', [0xE6, 0xE1]), 
    ('\u{7CCD}', [0x94, 0xF3]), ('\u{7CCE}', [0x8E, 0x7E]), ('\u{7CD0}', [0xEA, 0xCA]), 
    ('\u{7CD1}', [0xEA, 0xCB]), ('\u{7CD2}', [0xEA, 0xC7]), ('\u{7CD3}', [0x98, 0xAF]), 
    ('\u{7CD4}', [0xEA, 0xC8]), ('\u{7CD5}', [0xBF, 0x7C]), ('\u{7CD6}', [0xBF, 0x7D]), 
    ('\u{7CD7}', [0xEA, 0xC9]), ('\u{7CD9}', [0xC1, 0x57]), ('\u{7CDA}', [0xA0, 0xB2]), 
    ('\u{7CDC}', [0xC1, 0x53]), ('\u{7CDD}', [0xC1, 0x58]), ('\u{7CDE}', [0xC1, 0x54]), 
    ('\u{7CDF}', [0xC1, 0x56]), ('\u{7CE0}', [0xC1, 0x52]), ('\u{7CE2}', [0xC1, 0x55]), 
    ('\u{7CE6}', [0x8E, 0x7A]), ('\u{7CE7}', [0xC2, 0xB3]), ('\u{7CE8}', [0xED, 0xCF]), 
    ('\u{7CEA}', [0xF2, 0xAE]), ('\u{7CEC}', [0xF2, 0xAD]), ('\u{7CED}', [0x99, 0x5C]), 
    ('\u{7CEE}', [0xF4, 0xAB]), ('\u{7CEF}', [0xC4, 0x7A]), ('\u{7CF0}', [0xC4, 0x7B]), 
    ('\u{7CF1}', [0xF7, 0x41]), ('\u{7CF2}', [0xF5, 0xE6]), ('\u{7CF3}', [0x8E, 0x7C]), 
"#

/-- src/generated/whatwg/big5_whatwg_tables.rs.inc:5937-6064 -/
noncomputable def encode27 : List Text := lines! r#"    ('\u{7CF4}', [0xF7, 0x40]), ('\u{7CF5}', [0x8E, 0x7D]), ('\u{7CF6}', [0xF8, 0xFD]), 
    ('\u{7CF7}', [0xF9, 0xA4]), ('\u{7CF8}', [0xA6, 0xCD]), ('\u{7CF9}', [0x8B, 0xD9]), 
    ('\u{7CFB}', [0xA8, 0x74]), ('\u{7CFC}', [0x89, 0xA2]), ('\u{7CFD}', [0xCD, 0xA9]), 
    ('\u{7CFE}', [0xAA, 0xC8]), ('\u{7D00}', [0xAC, 0xF6]), ('\u{7D01}', [0xD0, 0x4C]), 
    ('\u{7D02}', [0xAC, 0xF4]), ('\u{7D03}', [0xD0, 0x4A]), ('\u{7D04}', [0xAC, 0xF9]), 
    ('\u{7D05}', [0xAC, 0xF5]), ('\u{7D06}', [0xAC, 0xFA]), ('\u{7D07}', [0xAC, 0xF8]), 
    ('\u{7D08}', [0xD0, 0x4B]), ('\u{7D09}', [0xAC, 0xF7]), ('\u{7D0A}', [0xAF, 0xBF]), 
    ('\u{7D0B}', [0xAF, 0xBE]), ('\u{7D0C}', [0xD3, 0x5A]), ('\u{7D0D}', [0xAF, 0xC7]), 
    ('\u{7D0E}', [0xD3, 0x53]), ('\u{7D0F}', [0xD3, 0x59]), ('\u{7D10}', [0xAF, 0xC3]), 
    ('\u{7D11}', [0xD3, 0x52]), ('\u{7D12}', [0xD3, 0x58]), ('\u{7D13}', [0xD3, 0x56]), 
    ('\u{7D14}', [0xAF, 0xC2]), ('\u{7D15}', [0xAF, 0xC4]), ('\u{7D16}', [0xD3, 0x55]), 
    ('\u{7D17}', [0xAF, 0xBD]), ('\u{7D18}', [0xD3, 0x54]), ('\u{7D19}', [0xAF, 0xC8]), 
    ('\u{7D1A}', [0xAF, 0xC5]), ('\u{7D1B}', [0xAF, 0xC9]), ('\u{7D1C}', [0xAF, 0xC6]), 
    ('\u{7D1D}', [0xD3, 0x51]), ('\u{7D1E}', [0xD3, 0x50]), ('\u{7D1F}', [0xD3, 0x57]), 
    ('\u{7D20}', [0xAF, 0xC0]), ('\u{7D21}', [0xAF, 0xBC]), ('\u{7D22}', [0xAF, 0xC1]), 
    ('\u{7D25}', [0x9E, 0xD7]), ('\u{7D28}', [0xD6, 0xF0]), ('\u{7D29}', [0xD6, 0xE9]), 
    ('\u{7D2B}', [0xB5, 0xB5]), ('\u{7D2C}', [0xD6, 0xE8]), ('\u{7D2E}', [0xB2, 0xCF]), 
    ('\u{7D2F}', [0xB2, 0xD6]), ('\u{7D30}', [0xB2, 0xD3]), ('\u{7D31}', [0xB2, 0xD9]), 
    ('\u{7D32}', [0xB2, 0xD8]), ('\u{7D33}', [0xB2, 0xD4]), ('\u{7D35}', [0xD6, 0xE2]), 
    ('\u{7D36}', [0xD6, 0xE5]), ('\u{7D38}', [0xD6, 0xE4]), ('\u{7D39}', [0xB2, 0xD0]), 
    ('\u{7D3A}', [0xD6, 0xE6]), ('\u{7D3B}', [0xD6, 0xEF]), ('\u{7D3C}', [0xB2, 0xD1]), 
    ('\u{7D3D}', [0xD6, 0xE3]), ('\u{7D3E}', [0xD6, 0xEC]), ('\u{7D3F}', [0xD6, 0xED]), 
    ('\u{7D40}', [0xB2, 0xD2]), ('\u{7D41}', [0xD6, 0xEA]), ('\u{7D42}', [0xB2, 0xD7]), 
    ('\u{7D43}', [0xB2, 0xCD]), ('\u{7D44}', [0xB2, 0xD5]), ('\u{7D45}', [0xD6, 0xE7]), 
    ('\u{7D46}', [0xB2, 0xCC]), ('\u{7D47}', [0xD6, 0xEB]), ('\u{7D4A}', [0xD6, 0xEE]), 
    ('\u{7D4D}', [0xA0, 0xB6]), ('\u{7D4E}', [0xDA, 0xFB]), ('\u{7D4F}', [0xDA, 0xF2]), 
    ('\u{7D50}', [0xB5, 0xB2]), ('\u{7D51}', [0xDA, 0xF9]), ('\u{7D52}', [0xDA, 0xF6]), 
    ('\u{7D53}', [0xDA, 0xEE]), ('\u{7D54}', [0xDA, 0xF7]), ('\u{7D55}', [0xB5, 0xB4]), 
    ('\u{7D56}', [0xDA, 0xEF]), ('\u{7D58}', [0xDA, 0xEB]), ('\u{7D5A}', [0x9E, 0x42]), 
    ('\u{7D5B}', [0xB8, 0x6C]), ('\u{7D5C}', [0xDA, 0xF4]), ('\u{7D5D}', [0x8E, 0xA4]), 
    ('\u{7D5E}', [0xB5, 0xB1]), ('\u{7D5F}', [0xDA, 0xFA]), ('\u{7D61}', [0xB5, 0xB8]), 
    ('\u{7D62}', [0xB5, 0xBA]), ('\u{7D63}', [0xDA, 0xED]), ('\u{7D66}', [0xB5, 0xB9]), 
    ('\u{7D67}', [0xDA, 0xF0]), ('\u{7D68}', [0xB5, 0xB3]), ('\u{7D69}', [0xDA, 0xF8]), 
    ('\u{7D6A}', [0xDA, 0xF1]), ('\u{7D6B}', [0xDA, 0xF5]), ('\u{7D6D}', [0xDA, 0xF3]), 
    ('\u{7D6E}', [0xB5, 0xB6]), ('\u{7D6F}', [0xDA, 0xEC]), ('\u{7D70}', [0xB5, 0xBB]), 
    ('\u{7D71}', [0xB2, 0xCE]), ('\u{7D72}', [0xB5, 0xB7]), ('\u{7D73}', [0xB5, 0xBC]), 
    ('\u{7D79}', [0xB8, 0x68]), ('\u{7D7A}', [0xDF, 0x5D]), ('\u{7D7B}', [0xDF, 0x5F]), 
    ('\u{7D7C}', [0xDF, 0x61]), ('\u{7D7D}', [0xDF, 0x65]), ('\u{7D7F}', [0xDF, 0x5B]), 
    ('\u{7D80}', [0xDF, 0x59]), ('\u{7D81}', [0xB8, 0x6A]), ('\u{7D83}', [0xDF, 0x60]), 
    ('\u{7D84}', [0xDF, 0x64]), ('\u{7D85}', [0xDF, 0x5C]), ('\u{7D86}', [0xDF, 0x58]), 
    ('\u{7D88}', [0xDF, 0x57]), ('\u{7D89}', [0x8E, 0xA7]), ('\u{7D8B}', [0x8C, 0x76]), 
    ('\u{7D8C}', [0xDF, 0x62]), ('\u{7D8D}', [0xDF, 0x5A]), ('\u{7D8E}', [0xDF, 0x5E]), 
    ('\u{7D8F}', [0xB8, 0x6B]), ('\u{7D91}', [0xB8, 0x69]), ('\u{7D92}', [0xDF, 0x66]), 
    ('\u{7D93}', [0xB8, 0x67]), ('\u{7D94}', [0xDF, 0x63]), ('\u{7D95}', [0x87, 0x67]), 
    ('\u{7D96}', [0xE3, 0x72]), ('\u{7D97}', [0x95, 0x42]), ('\u{7D9C}', [0xBA, 0xEE]), 
    ('\u{7D9D}', [0xE3, 0x6A]), ('\u{7D9E}', [0xBD, 0x78]), ('\u{7D9F}', [0xE3, 0x74]), 
    ('\u{7DA0}', [0xBA, 0xF1]), ('\u{7DA1}', [0xE3, 0x78]), ('\u{7DA2}', [0xBA, 0xF7]), 
    ('\u{7DA3}', [0xE3, 0x65]), ('\u{7DA4}', [0x98, 0x7D]), ('\u{7DA6}', [0xE3, 0x75]), 
    ('\u{7DA7}', [0xE3, 0x62]), ('\u{7DA8}', [0x97, 0x55]), ('\u{7DA9}', [0xE3, 0x77]), 
    ('\u{7DAA}', [0xE3, 0x66]), ('\u{7DAB}', [0x8E, 0xA8]), ('\u{7DAC}', [0xBA, 0xFE]), 
    ('\u{7DAD}', [0xBA, 0xFB]), ('\u{7DAE}', [0xE3, 0x76]), ('\u{7DAF}', [0xE3, 0x70]), 
    ('\u{7DB0}', [0xBA, 0xED]), ('\u{7DB1}', [0xBA, 0xF5]), ('\u{7DB2}', [0xBA, 0xF4]), 
    ('\u{7DB3}', [0x8E, 0xAA]), ('\u{7DB4}', [0xBA, 0xF3]), ('\u{7DB5}', [0xBA, 0xF9]), 
    ('\u{7DB7}', [0xE3, 0x63]), ('\u{7DB8}', [0xBA, 0xFA]), ('\u{7DB9}', [0xE3, 0x71]), 
    ('\u{7DBA}', [0xBA, 0xF6]), ('\u{7DBB}', [0xBA, 0xEC]), ('\u{7DBC}', [0xE3, 0x73]), 
    ('\u{7DBD}', [0xBA, 0xEF]), ('\u{7DBE}', [0xBA, 0xF0]), ('\u{7DBF}', [0xBA, 0xF8]), 
    ('\u{7DC0}', [0xE3, 0x68]), ('\u{7DC1}', [0xE3, 0x67]), ('\u{7DC2}', [0xE3, 0x64]), 
    ('\u{7DC4}', [0xE3, 0x6C]), ('\u{7DC5}', [0xE3, 0x69]), ('\u{7DC6}', [0xE3, 0x6D]), 
    ('\u{7DC7}', [0xBA, 0xFD]), ('\u{7DC9}', [0xE3, 0x79]), ('\u{7DCA}', [0xBA, 0xF2]), 
    ('\u{7DCB}', [0xE3, 0x6E]), ('\u{7DCC}', [0xE3, 0x6F]), ('\u{7DCD}', [0x89, 0xA3]), 
    ('\u{7DCE}', [0xE3, 0x6B]), ('\u{7DCF}', [0x99, 0x60]), ('\u{7DD0}', [0x99, 0x62]), 
    ('\u{7DD2}', [0x8E, 0xAB]), ('\u{7DD3}', [0x94, 0xFC]), ('\u{7DD4}', [0x99, 0x61]), 
    ('\u{7DD7}', [0xE6, 0xE7]), ('\u{7DD8}', [0xBD, 0x70]), ('\u{7DD9}', [0xBD, 0x79]), 
    ('\u{7DDA}', [0xBD, 0x75]), ('\u{7DDB}', [0xE6, 0xE4]), ('\u{7DDC}', [0x94, 0xFA]), 
    ('\u{7DDD}', [0xBD, 0x72]), ('\u{7DDE}', [0xBD, 0x76]), ('\u{7DDF}', [0xE6, 0xF0]), 
    ('\u{7DE0}', [0xBD, 0x6C]), ('\u{7DE1}', [0xE6, 0xE8]), ('\u{7DE3}', [0xBD, 0x74]), 
    ('\u{7DE4}', [0x8E, 0xAE]), ('\u{7DE5}', [0x8E, 0xB2]), ('\u{7DE6}', [0xE6, 0xEB]), 
    ('\u{7DE7}', [0xE6, 0xE6]), ('\u{7DE8}', [0xBD, 0x73]), ('\u{7DE9}', [0xBD, 0x77]), 
    ('\u{7DEA}', [0xE6, 0xE5]), ('\u{7DEC}', [0xBD, 0x71]), ('\u{7DEE}', [0xE6, 0xEF]), 
    ('\u{7DEF}', [0xBD, 0x6E]), ('\u{7DF0}', [0xE6, 0xEE]), ('\u{7DF1}', [0xE6, 0xED]), 
    ('\u{7DF2}', [0xBD, 0x7A]), ('\u{7DF3}', [0xE5, 0x72]), ('\u{7DF4}', [0xBD, 0x6D]), 
    ('\u{7DF5}', [0x8E, 0xB0]), ('\u{7DF6}', [0xE6, 0xEC]), ('\u{7DF7}', [0xE6, 0xE3]), 
    ('\u{7DF9}', [0xBD, 0x7B]), ('\u{7DFA}', [0xE6, 0xEA]), ('\u{7DFB}', [0xBD, 0x6F]), 
    ('\u{7DFD}', [0x99, 0x63]), ('\u{7DFE}', [0x97, 0xAA]), ('\u{7E03}', [0xE6, 0xE9]), 
    ('\u{7E07}', [0x94, 0xFB]), ('\u{7E08}', [0xBF, 0xA2]), ('\u{7E09}', [0xBF, 0xA7]), 
    ('\u{7E0A}', [0xBF, 0x7E]), ('\u{7E0B}', [0xEA, 0xD8]), ('\u{7E0C}', [0xEA, 0xCF]), 
    ('\u{7E0D}', [0xEA, 0xDB]), ('\u{7E0E}', [0xEA, 0xD3]), ('\u{7E0F}', [0xEA, 0xD9]), 
    ('\u{7E10}', [0xBF, 0xA8]), ('\u{7E11}', [0xBF, 0xA1]), ('\u{7E12}', [0xEA, 0xCC]), 
    ('\u{7E13}', [0xEA, 0xD2]), ('\u{7E14}', [0xEA, 0xDC]), ('\u{7E15}', [0xEA, 0xD5]), 
    ('\u{7E16}', [0xEA, 0xDA]), ('\u{7E17}', [0xEA, 0xCE]), ('\u{7E1A}', [0xEA, 0xD6]), 
    ('\u{7E1B}', [0xBF, 0xA3]), ('\u{7E1C}', [0xEA, 0xD4]), ('\u{7E1D}', [0x8E, 0xB4]), 
    ('\u{7E1E}', [0xBF, 0xA5]), ('\u{7E1F}', [0xEA, 0xD0]), ('\u{7E20}', [0xEA, 0xD1]), 
    ('\u{7E21}', [0xEA, 0xCD]), ('\u{7E22}', [0xEA, 0xD7]), ('\u{7E23}', [0xBF, 0xA4]), 
    ('\u{7E24}', [0xEA, 0xDE]), ('\u{7E25}', [0xEA, 0xDD]), ('\u{7E27}', [0x8E, 0xBB]), 
    ('\u{7E29}', [0xED, 0xDA]), ('\u{7E2A}', [0xED, 0xD6]), ('\u{7E2B}', [0xC1, 0x5F]), 
    ('\u{7E2D}', [0xED, 0xD0]), ('\u{7E2E}', [0xC1, 0x59]), ('\u{7E2F}', [0xC1, 0x69]), 
    ('\u{7E30}', [0xED, 0xDC]), ('\u{7E31}', [0xC1, 0x61]), ('\u{7E32}', [0xC1, 0x5D]), 
    ('\u{7E33}', [0xED, 0xD3]), ('\u{7E34}', [0xC1, 0x64]), ('\u{7E35}', [0xC1, 0x67]), 
    ('\u{7E36}', [0xED, 0xDE]), ('\u{7E37}', [0xC1, 0x5C]), ('\u{7E38}', [0xED, 0xD5]), 
    ('\u{7E39}', [0xC1, 0x65]), ('\u{7E3A}', [0xED, 0xE0]), ('\u{7E3B}', [0xED, 0xDD]), 
    ('\u{7E3C}', [0xED, 0xD1]), ('\u{7E3D}', [0xC1, 0x60]), ('\u{7E3E}', [0xC1, 0x5A]), 
    ('\u{7E3F}', [0xC1, 0x68]), ('\u{7E40}', [0xED, 0xD8]), ('\u{7E41}', [0xC1, 0x63]), 
    ('\u{7E42}', [0xED, 0xD2]), ('\u{7E43}', [0xC1, 0x5E]), ('\u{7E44}', [0xED, 0xDF]), 
    ('\u{7E45}', [0xC1, 0x62]), ('\u{7E46}', [0xC1, 0x5B]), ('\u{7E47}', [0xED, 0xD9]), 
    ('\u{7E48}', [0xC1, 0x66]), ('\u{7E49}', [0xED, 0xD7]), ('\u{7E4C}', [0xED, 0xDB]), 
    ('\u{7E50}', [0xF0, 0x6E]), ('\u{7E51}', [0xF0, 0x74]), ('\u{7E52}', [0xC2, 0xB9]), 
    ('\u{7E53}', [0xF0, 0x77]), ('\u{7E54}', [0xC2, 0xB4]), ('\u{7E55}', [0xC2, 0xB5]), 
    ('\u{7E56}', [0xF0, 0x6F]), ('\u{7E57}', [0xF0, 0x76]), ('\u{7E58}', [0xF0, 0x71]), 
    ('\u{7E59}', [0xC2, 0xBA]), ('\u{7E5A}', [0xC2, 0xB7]), ('\u{7E5B}', [0x8C, 0xDC]), 
    ('\u{7E5C}', [0xF0, 0x6D]), ('\u{7E5E}', [0xC2, 0xB6]), ('\u{7E5F}', [0xF0, 0x73]), 
    ('\u{7E60}', [0xF0, 0x75]), ('\u{7E61}', [0xC2, 0xB8]), ('\u{7E62}', [0xF0, 0x72]), 
    ('\u{7E63}', [0xF0, 0x70]), ('\u{7E65}', [0x98, 0x76]), ('\u{7E67}', [0x8E, 0xA1]), 
    ('\u{7E68}', [0xF2, 0xB8]), ('\u{7E69}', [0xC3, 0xB7]), ('\u{7E6A}', [0xC3, 0xB8]), 
    ('\u{7E6B}', [0xC3, 0xB4]), ('\u{7E6C}', [0x8C, 0xB4]), ('\u{7E6D}', [0xC3, 0xB5]), 
    ('\u{7E6E}', [0x8E, 0xB7]), ('\u{7E6F}', [0xF2, 0xB4]), ('\u{7E70}', [0xF2, 0xB2]), 
    ('\u{7E72}', [0xF2, 0xB6]), ('\u{7E73}', [0xC3, 0xBA]), ('\u{7E74}', [0xF2, 0xB7]), 
    ('\u{7E75}', [0xF2, 0xB0]), ('\u{7E76}', [0xF2, 0xAF]), ('\u{7E77}', [0xF2, 0xB3]), 
    ('\u{7E78}', [0xF2, 0xB1]), ('\u{7E79}', [0xC3, 0xB6]), ('\u{7E7A}', [0xF2, 0xB5]), 
    ('\u{7E7B}', [0xF4, 0xAC]), ('\u{7E7C}', [0xC4, 0x7E]), ('\u{7E7D}', [0xC4, 0x7D]), 
    ('\u{7E7E}', [0xF4, 0xAD]), ('\u{7E7F}', [0x9D, 0xA6]), ('\u{7E80}', [0xF4, 0xAF]), 
    ('\u{7E81}', [0xF4, 0xAE]), ('\u{7E82}', [0xC4, 0xA1]), ('\u{7E86}', [0xF5, 0xEB]), 
    ('\u{7E87}', [0x9B, 0x7B]), ('\u{7E88}', [0xF5, 0xE9]), ('\u{7E8A}', [0xF5, 0xE7]), 
    ('\u{7E8B}', [0xF5, 0xEA]), ('\u{7E8C}', [0xC4, 0xF2]), ('\u{7E8D}', [0xF5, 0xEC]), 
    ('\u{7E8E}', [0x9E, 0xB0]), ('\u{7E8F}', [0xC4, 0xF1]), ('\u{7E91}', [0xF7, 0x42]), 
    ('\u{7E92}', [0x8E, 0xB8]), ('\u{7E93}', [0xC5, 0xD5]), ('\u{7E94}', [0xC5, 0xD7]), 
    ('\u{7E95}', [0xF7, 0xEE]), ('\u{7E96}', [0xC5, 0xD6]), ('\u{7E97}', [0xF8, 0xB9]), 
    ('\u{7E98}', [0xF9, 0x40]), ('\u{7E99}', [0xF9, 0x42]), ('\u{7E9A}', [0xF8, 0xFE]), 
    ('\u{7E9B}', [0xF9, 0x41]), ('\u{7E9C}', [0xC6, 0x6C]), ('\u{7E9F}', [0x9D, 0x70]), 
    ('\u{7EA4}', [0x89, 0x6E]), ('\u{7EAC}', [0x89, 0x6F]), ('\u{7EBA}', [0x89, 0x70]), 
    ('\u{7EC7}', [0x89, 0x71]), ('\u{7ECF}', [0x89, 0x72]), ('\u{7EDF}', [0x89, 0x73]), 
    ('\u{7F06}', [0x89, 0x74]), ('\u{7F36}', [0xA6, 0xCE]), ('\u{7F37}', [0x89, 0x75]), 
    ('\u{7F38}', [0xAC, 0xFB]), ('\u{7F39}', [0xD2, 0x6F]), ('\u{7F3A}', [0xAF, 0xCA]), 
    ('\u{7F3D}', [0xB2, 0xDA]), ('\u{7F3E}', [0xDA, 0xFC]), ('\u{7F3F}', [0xDA, 0xFD]), 
    ('\u{7F40}', [0x8E, 0xBC]), ('\u{7F41}', [0x8E, 0xBD]), ('\u{7F43}', [0xEA, 0xDF]), 
    ('\u{7F44}', [0xC1, 0x6A]), ('\u{7F45}', [0xED, 0xE1]), ('\u{7F47}', [0x8E, 0xBE]), 
    ('\u{7F48}', [0xC2, 0xBB]), ('\u{7F49}', [0x9D, 0xD1]), ('\u{7F4A}', [0xF2, 0xBA]), 
    ('\u{7F4B}', [0xF2, 0xB9]), ('\u{7F4C}', [0xC4, 0xA2]), ('\u{7F4D}', [0xF5, 0xED]), 
    ('\u{7F4E}', [0x94, 0xFD]), ('\u{7F4F}', [0xF7, 0x43]), ('\u{7F50}', [0xC5, 0xF8]), 
"#

/-- src/generated/whatwg/big5_whatwg_tables.rs.inc:6065-6192 -/
noncomputable def encode28 : List Text := lines! r#"    ('\u{7F51}', [0xCA, 0x49]), ('\u{7F52}', [0x8B, 0xD7]), ('\u{7F53}', [0x8B, 0xDA]), 
    ('\u{7F54}', [0xAA, 0xC9]), ('\u{7F55}', [0xA8, 0x75]), ('\u{7F58}', [0xD0, 0x4D]), 
    ('\u{7F5B}', [0xD3, 0x60]), ('\u{7F5C}', [0xD3, 0x5B]), ('\u{7F5D}', [0xD3, 0x5F]), 
    ('\u{7F5E}', [0xD3, 0x5D]), ('\u{7F5F}', [0xAF, 0xCB]), ('\u{7F60}', [0xD3, 0x5E]), 
    ('\u{7F61}', [0xD3, 0x5C]), ('\u{7F63}', [0xD6, 0xF1]), ('\u{7F65}', [0xDA, 0xFE]), 
    ('\u{7F66}', [0xDB, 0x40]), ('\u{7F67}', [0xDF, 0x69]), ('\u{7F68}', [0xDF, 0x6A]), 
    ('\u{7F69}', [0xB8, 0x6E]), ('\u{7F6A}', [0xB8, 0x6F]), ('\u{7F6B}', [0xDF, 0x68]), 
    ('\u{7F6C}', [0xDF, 0x6B]), ('\u{7F6D}', [0xDF, 0x67]), ('\u{7F6E}', [0xB8, 0x6D]), 
    ('\u{7F70}', [0xBB, 0x40]), ('\u{7F71}', [0xA0, 0xE2]), ('\u{7F72}', [0xB8, 0x70]), 
    ('\u{7F73}', [0xE3, 0x7A]), ('\u{7F75}', [0xBD, 0x7C]), ('\u{7F76}', [0xE6, 0xF1]), 
    ('\u{7F77}', [0xBD, 0x7D]), ('\u{7F78}', [0x9F, 0xE9]), ('\u{7F79}', [0xBF, 0xA9]), 
    ('\u{7F7A}', [0xEA, 0xE2]), ('\u{7F7B}', [0xEA, 0xE0]), ('\u{7F7C}', [0xEA, 0xE1]), 
    ('\u{7F7D}', [0xED, 0xE4]), ('\u{7F7E}', [0xED, 0xE3]), ('\u{7F7F}', [0xED, 0xE2]), 
    ('\u{7F83}', [0xF2, 0xBB]), ('\u{7F85}', [0xC3, 0xB9]), ('\u{7F86}', [0xF2, 0xBC]), 
    ('\u{7F87}', [0xF7, 0x44]), ('\u{7F88}', [0xC5, 0xF9]), ('\u{7F89}', [0xF8, 0xBA]), 
    ('\u{7F8A}', [0xA6, 0xCF]), ('\u{7F8B}', [0xAA, 0xCB]), ('\u{7F8C}', [0xAA, 0xCA]), 
    ('\u{7F8D}', [0xD0, 0x4F]), ('\u{7F8E}', [0xAC, 0xFC]), ('\u{7F8F}', [0xFD, 0xA8]), 
    ('\u{7F91}', [0xD0, 0x4E]), ('\u{7F92}', [0xD3, 0x62]), ('\u{7F93}', [0x8A, 0xE7]), 
    ('\u{7F94}', [0xAF, 0xCC]), ('\u{7F95}', [0xD6, 0xF2]), ('\u{7F96}', [0xD3, 0x61]), 
    ('\u{7F97}', [0x8E, 0xC2]), ('\u{7F9A}', [0xB2, 0xDC]), ('\u{7F9B}', [0xD6, 0xF5]), 
    ('\u{7F9C}', [0xD6, 0xF3]), ('\u{7F9D}', [0xD6, 0xF4]), ('\u{7F9E}', [0xB2, 0xDB]), 
    ('\u{7FA0}', [0xDB, 0x42]), ('\u{7FA1}', [0xDB, 0x43]), ('\u{7FA2}', [0xDB, 0x41]), 
    ('\u{7FA3}', [0x8E, 0xC4]), ('\u{7FA4}', [0xB8, 0x73]), ('\u{7FA5}', [0xDF, 0x6D]), 
    ('\u{7FA6}', [0xDF, 0x6C]), ('\u{7FA7}', [0xDF, 0x6E]), ('\u{7FA8}', [0xB8, 0x72]), 
    ('\u{7FA9}', [0xB8, 0x71]), ('\u{7FAC}', [0xE6, 0xF2]), ('\u{7FAD}', [0xE6, 0xF4]), 
    ('\u{7FAE}', [0x99, 0x64]), ('\u{7FAF}', [0xBD, 0x7E]), ('\u{7FB0}', [0xE6, 0xF3]), 
    ('\u{7FB1}', [0xEA, 0xE3]), ('\u{7FB2}', [0xBF, 0xAA]), ('\u{7FB3}', [0xF0, 0x79]), 
    ('\u{7FB4}', [0x99, 0x65]), ('\u{7FB5}', [0xF0, 0x78]), ('\u{7FB6}', [0xC3, 0xBB]), 
    ('\u{7FB7}', [0xF2, 0xBD]), ('\u{7FB8}', [0xC3, 0xBD]), ('\u{7FB9}', [0xC3, 0xBC]), 
    ('\u{7FBA}', [0xF4, 0xB0]), ('\u{7FBB}', [0xF5, 0xEE]), ('\u{7FBC}', [0xC4, 0xF3]), 
    ('\u{7FBD}', [0xA6, 0xD0]), ('\u{7FBE}', [0xD0, 0x50]), ('\u{7FBF}', [0xAC, 0xFD]), 
    ('\u{7FC0}', [0xD3, 0x65]), ('\u{7FC1}', [0xAF, 0xCE]), ('\u{7FC2}', [0xD3, 0x64]), 
    ('\u{7FC3}', [0xD3, 0x63]), ('\u{7FC5}', [0xAF, 0xCD]), ('\u{7FC7}', [0xD6, 0xFB]), 
    ('\u{7FC9}', [0xD6, 0xFD]), ('\u{7FCA}', [0xD6, 0xF6]), ('\u{7FCB}', [0xD6, 0xF7]), 
    ('\u{7FCC}', [0xB2, 0xDD]), ('\u{7FCD}', [0xD6, 0xF8]), ('\u{7FCE}', [0xB2, 0xDE]), 
    ('\u{7FCF}', [0xD6, 0xFC]), ('\u{7FD0}', [0xD6, 0xF9]), ('\u{7FD1}', [0xD6, 0xFA]), 
    ('\u{7FD2}', [0xB2, 0xDF]), ('\u{7FD4}', [0xB5, 0xBE]), ('\u{7FD5}', [0xB5, 0xBF]), 
    ('\u{7FD7}', [0xDB, 0x44]), ('\u{7FDB}', [0xDF, 0x6F]), ('\u{7FDC}', [0xDF, 0x70]), 
    ('\u{7FDD}', [0x95, 0x4E]), ('\u{7FDE}', [0xE3, 0x7E]), ('\u{7FDF}', [0xBB, 0x43]), 
    ('\u{7FE0}', [0xBB, 0x41]), ('\u{7FE1}', [0xBB, 0x42]), ('\u{7FE2}', [0xE3, 0x7B]), 
    ('\u{7FE3}', [0xE3, 0x7C]), ('\u{7FE5}', [0xE3, 0x7D]), ('\u{7FE6}', [0xE6, 0xF9]), 
    ('\u{7FE7}', [0x98, 0xB3]), ('\u{7FE8}', [0xE6, 0xFA]), ('\u{7FE9}', [0xBD, 0xA1]), 
    ('\u{7FEA}', [0xE6, 0xF7]), ('\u{7FEB}', [0xE6, 0xF6]), ('\u{7FEC}', [0xE6, 0xF8]), 
    ('\u{7FED}', [0xE6, 0xF5]), ('\u{7FEE}', [0xBF, 0xAD]), ('\u{7FEF}', [0xEA, 0xE4]), 
    ('\u{7FF0}', [0xBF, 0xAB]), ('\u{7FF1}', [0xBF, 0xAC]), ('\u{7FF2}', [0xED, 0xE6]), 
    ('\u{7FF3}', [0xC1, 0x6B]), ('\u{7FF4}', [0xED, 0xE5]), ('\u{7FF5}', [0xEF, 0xA8]), 
    ('\u{7FF7}', [0xF0, 0x7A]), ('\u{7FF8}', [0xF0, 0x7B]), ('\u{7FF9}', [0xC2, 0xBC]), 
    ('\u{7FFA}', [0x8E, 0xCB]), ('\u{7FFB}', [0xC2, 0xBD]), ('\u{7FFC}', [0xC1, 0x6C]), 
    ('\u{7FFD}', [0xF2, 0xBE]), ('\u{7FFE}', [0xF2, 0xBF]), ('\u{7FFF}', [0xF4, 0xB1]), 
    ('\u{8000}', [0xC4, 0xA3]), ('\u{8001}', [0xA6, 0xD1]), ('\u{8002}', [0x8B, 0xDF]), 
    ('\u{8003}', [0xA6, 0xD2]), ('\u{8004}', [0xAC, 0xFE]), ('\u{8005}', [0x8E, 0xCD]), 
    ('\u{8006}', [0xAF, 0xCF]), ('\u{8007}', [0xD0, 0x51]), ('\u{8008}', [0x8E, 0xCE]), 
    ('\u{800B}', [0xB5, 0xC0]), ('\u{800C}', [0xA6, 0xD3]), ('\u{800D}', [0xAD, 0x41]), 
    ('\u{800E}', [0xD0, 0x52]), ('\u{800F}', [0xD0, 0x53]), ('\u{8010}', [0xAD, 0x40]), 
    ('\u{8011}', [0xAD, 0x42]), ('\u{8012}', [0xA6, 0xD4]), ('\u{8014}', [0xD0, 0x54]), 
    ('\u{8015}', [0xAF, 0xD1]), ('\u{8016}', [0xD3, 0x66]), ('\u{8017}', [0xAF, 0xD3]), 
    ('\u{8018}', [0xAF, 0xD0]), ('\u{8019}', [0xAF, 0xD2]), ('\u{801B}', [0xD7, 0x41]), 
    ('\u{801C}', [0xB2, 0xE0]), ('\u{801D}', [0x8E, 0xCF]), ('\u{801E}', [0xD7, 0x40]), 
    ('\u{801F}', [0xD6, 0xFE]), ('\u{8020}', [0x99, 0x68]), ('\u{8021}', [0xDF, 0x71]), 
    ('\u{8024}', [0xE3, 0xA1]), ('\u{8025}', [0x99, 0x69]), ('\u{8026}', [0xBD, 0xA2]), 
    ('\u{8028}', [0x8E, 0xD0]), ('\u{8029}', [0xEA, 0xE6]), ('\u{802A}', [0xEA, 0xE5]), 
    ('\u{802C}', [0xED, 0xE7]), ('\u{802E}', [0x99, 0x6B]), ('\u{802F}', [0x8E, 0xD1]), 
    ('\u{8030}', [0xF5, 0xEF]), ('\u{8031}', [0x99, 0x6C]), ('\u{8033}', [0xA6, 0xD5]), 
    ('\u{8034}', [0xCB, 0x73]), ('\u{8035}', [0xCD, 0xAA]), ('\u{8036}', [0xAD, 0x43]), 
    ('\u{8037}', [0xD0, 0x55]), ('\u{8039}', [0xD3, 0x68]), ('\u{803B}', [0x8E, 0xD4]), 
    ('\u{803C}', [0x8E, 0xD5]), ('\u{803D}', [0xAF, 0xD4]), ('\u{803E}', [0xD3, 0x67]), 
    ('\u{803F}', [0xAF, 0xD5]), ('\u{8043}', [0xD7, 0x43]), ('\u{8046}', [0xB2, 0xE2]), 
    ('\u{8047}', [0xD7, 0x42]), ('\u{8048}', [0xD7, 0x44]), ('\u{804A}', [0xB2, 0xE1]), 
    ('\u{804F}', [0xDB, 0x46]), ('\u{8050}', [0xDB, 0x47]), ('\u{8051}', [0xDB, 0x45]), 
    ('\u{8052}', [0xB5, 0xC1]), ('\u{8054}', [0x99, 0x6D]), ('\u{8056}', [0xB8, 0x74]), 
    ('\u{8058}', [0xB8, 0x75]), ('\u{805A}', [0xBB, 0x45]), ('\u{805B}', [0xA0, 0xBE]), 
    ('\u{805C}', [0xE3, 0xA3]), ('\u{805D}', [0xE3, 0xA2]), ('\u{805E}', [0xBB, 0x44]), 
    ('\u{8061}', [0x8E, 0xD6]), ('\u{8062}', [0xA0, 0xBC]), ('\u{8063}', [0xA0, 0xB5]), 
    ('\u{8064}', [0xE6, 0xFB]), ('\u{8066}', [0xA0, 0xB4]), ('\u{8067}', [0xE6, 0xFC]), 
    ('\u{806C}', [0xEA, 0xE7]), ('\u{806F}', [0xC1, 0x70]), ('\u{8070}', [0xC1, 0x6F]), 
    ('\u{8071}', [0xC1, 0x6D]), ('\u{8072}', [0xC1, 0x6E]), ('\u{8073}', [0xC1, 0x71]), 
    ('\u{8075}', [0xF0, 0x7C]), ('\u{8076}', [0xC2, 0xBF]), ('\u{8077}', [0xC2, 0xBE]), 
    ('\u{8078}', [0xF2, 0xC0]), ('\u{8079}', [0xF4, 0xB2]), ('\u{807D}', [0xC5, 0xA5]), 
    ('\u{807E}', [0xC5, 0xA4]), ('\u{807F}', [0xA6, 0xD6]), ('\u{8080}', [0x8B, 0xE0]), 
    ('\u{8082}', [0xD1, 0xFB]), ('\u{8084}', [0xB8, 0x77]), ('\u{8085}', [0xB5, 0xC2]), 
    ('\u{8086}', [0xB8, 0x76]), ('\u{8087}', [0xBB, 0x46]), ('\u{8089}', [0xA6, 0xD7]), 
    ('\u{808A}', [0xC9, 0xA9]), ('\u{808B}', [0xA6, 0xD8]), ('\u{808C}', [0xA6, 0xD9]), 
    ('\u{808F}', [0xCD, 0xAB]), ('\u{8090}', [0xCB, 0x76]), ('\u{8092}', [0xCB, 0x77]), 
    ('\u{8093}', [0xA8, 0x77]), ('\u{8095}', [0xCB, 0x74]), ('\u{8096}', [0xA8, 0x76]), 
    ('\u{8098}', [0xA8, 0x79]), ('\u{8099}', [0xCB, 0x75]), ('\u{809A}', [0xA8, 0x7B]), 
    ('\u{809B}', [0xA8, 0x7A]), ('\u{809C}', [0xCB, 0x78]), ('\u{809D}', [0xA8, 0x78]), 
    ('\u{809F}', [0x89, 0xB5]), ('\u{80A1}', [0xAA, 0xD1]), ('\u{80A2}', [0xAA, 0xCF]), 
    ('\u{80A3}', [0xCD, 0xAD]), ('\u{80A5}', [0xAA, 0xCE]), ('\u{80A7}', [0x8E, 0xDD]), 
    ('\u{80A9}', [0xAA, 0xD3]), ('\u{80AA}', [0xAA, 0xD5]), ('\u{80AB}', [0xAA, 0xD2]), 
    ('\u{80AD}', [0xCD, 0xB0]), ('\u{80AE}', [0xCD, 0xAC]), ('\u{80AF}', [0xAA, 0xD6]), 
    ('\u{80B1}', [0xAA, 0xD0]), ('\u{80B2}', [0xA8, 0x7C]), ('\u{80B4}', [0xAA, 0xD4]), 
    ('\u{80B5}', [0xCD, 0xAF]), ('\u{80B6}', [0x9E, 0x5D]), ('\u{80B7}', [0x99, 0x71]), 
    ('\u{80B8}', [0xCD, 0xAE]), ('\u{80BA}', [0xAA, 0xCD]), ('\u{80BC}', [0x89, 0xAE]), 
    ('\u{80BD}', [0x9D, 0xE8]), ('\u{80C2}', [0xD0, 0x5B]), ('\u{80C3}', [0xAD, 0x47]), 
    ('\u{80C4}', [0xAD, 0x48]), ('\u{80C5}', [0xD0, 0x5D]), ('\u{80C6}', [0x95, 0x65]), 
    ('\u{80C7}', [0xD0, 0x57]), ('\u{80C8}', [0xD0, 0x5A]), ('\u{80C9}', [0xD0, 0x63]), 
    ('\u{80CA}', [0xD0, 0x61]), ('\u{80CC}', [0xAD, 0x49]), ('\u{80CD}', [0xD0, 0x67]), 
    ('\u{80CE}', [0xAD, 0x4C]), ('\u{80CF}', [0xD0, 0x64]), ('\u{80D0}', [0xD0, 0x5C]), 
    ('\u{80D1}', [0xD0, 0x59]), ('\u{80D4}', [0xDB, 0x49]), ('\u{80D5}', [0xD0, 0x62]), 
    ('\u{80D6}', [0xAD, 0x44]), ('\u{80D7}', [0xD0, 0x65]), ('\u{80D8}', [0xD0, 0x56]), 
    ('\u{80D9}', [0xD0, 0x5F]), ('\u{80DA}', [0xAD, 0x46]), ('\u{80DB}', [0xAD, 0x4B]), 
    ('\u{80DC}', [0xD0, 0x60]), ('\u{80DD}', [0xAD, 0x4F]), ('\u{80DE}', [0xAD, 0x4D]), 
    ('\u{80E0}', [0xD0, 0x58]), ('\u{80E1}', [0xAD, 0x4A]), ('\u{80E3}', [0xD0, 0x5E]), 
    ('\u{80E4}', [0xAD, 0x4E]), ('\u{80E5}', [0xAD, 0x45]), ('\u{80E6}', [0xD0, 0x66]), 
    ('\u{80E9}', [0x99, 0x72]), ('\u{80EC}', [0x8B, 0x5C]), ('\u{80ED}', [0xAF, 0xDA]), 
    ('\u{80EF}', [0xAF, 0xE3]), ('\u{80F0}', [0xAF, 0xD8]), ('\u{80F1}', [0xAF, 0xD6]), 
    ('\u{80F2}', [0xD3, 0x6A]), ('\u{80F3}', [0xAF, 0xDE]), ('\u{80F4}', [0xAF, 0xDB]), 
    ('\u{80F5}', [0xD3, 0x6C]), ('\u{80F6}', [0x89, 0xB1]), ('\u{80F8}', [0xAF, 0xDD]), 
    ('\u{80F9}', [0xD3, 0x6B]), ('\u{80FA}', [0xD3, 0x69]), ('\u{80FB}', [0xD3, 0x6E]), 
    ('\u{80FC}', [0xAF, 0xE2]), ('\u{80FD}', [0xAF, 0xE0]), ('\u{80FE}', [0xDB, 0x48]), 
    ('\u{8100}', [0xD3, 0x6F]), ('\u{8101}', [0xD3, 0x6D]), ('\u{8102}', [0xAF, 0xD7]), 
    ('\u{8103}', [0xA0, 0xC0]), ('\u{8105}', [0xAF, 0xD9]), ('\u{8106}', [0xAF, 0xDC]), 
    ('\u{8107}', [0x8E, 0xDF]), ('\u{8108}', [0xAF, 0xDF]), ('\u{8109}', [0x95, 0x66]), 
    ('\u{810A}', [0xAF, 0xE1]), ('\u{810C}', [0x99, 0x74]), ('\u{810E}', [0x99, 0x76]), 
    ('\u{8112}', [0x99, 0x77]), ('\u{8114}', [0x99, 0x79]), ('\u{8115}', [0xD7, 0x4E]), 
    ('\u{8116}', [0xB2, 0xE4]), ('\u{8117}', [0x9D, 0xDA]), ('\u{8118}', [0xD7, 0x45]), 
    ('\u{8119}', [0xD7, 0x47]), ('\u{811A}', [0x8E, 0xE0]), ('\u{811B}', [0xD7, 0x48]), 
    ('\u{811D}', [0xD7, 0x50]), ('\u{811E}', [0xD7, 0x4C]), ('\u{811F}', [0xD7, 0x4A]), 
    ('\u{8121}', [0xD7, 0x4D]), ('\u{8122}', [0xD7, 0x51]), ('\u{8123}', [0xB2, 0xE5]), 
    ('\u{8124}', [0xB2, 0xE9]), ('\u{8125}', [0xD7, 0x46]), ('\u{8127}', [0xD7, 0x4F]), 
    ('\u{8129}', [0xB2, 0xE7]), ('\u{812A}', [0x93, 0x5C]), ('\u{812B}', [0xB2, 0xE6]), 
    ('\u{812C}', [0xD7, 0x4B]), ('\u{812D}', [0xD7, 0x49]), ('\u{812F}', [0xB2, 0xE3]), 
    ('\u{8130}', [0xB2, 0xE8]), ('\u{8132}', [0x9D, 0xE6]), ('\u{8134}', [0x8B, 0x5F]), 
    ('\u{8137}', [0x95, 0x63]), ('\u{8139}', [0xB5, 0xC8]), ('\u{813A}', [0xDB, 0x51]), 
    ('\u{813D}', [0xDB, 0x4F]), ('\u{813E}', [0xB5, 0xCA]), ('\u{8142}', [0x95, 0x67]), 
    ('\u{8143}', [0xDB, 0x4A]), ('\u{8144}', [0xDF, 0xA1]), ('\u{8146}', [0xB5, 0xC9]), 
    ('\u{8147}', [0xDB, 0x4E]), ('\u{8148}', [0x9D, 0xE3]), ('\u{814A}', [0xDB, 0x4B]), 
    ('\u{814B}', [0xB5, 0xC5]), ('\u{814C}', [0xB5, 0xCB]), ('\u{814D}', [0xDB, 0x50]), 
"#

/-- src/generated/whatwg/big5_whatwg_tables.rs.inc:6193-6320 -/
noncomputable def encode29 : List Text := lines! r#"    ('\u{814E}', [0xB5, 0xC7]), ('\u{814F}', [0xDB, 0x4D]), ('\u{8150}', [0xBB, 0x47]), 
    ('\u{8151}', [0xB5, 0xC6]), ('\u{8152}', [0xDB, 0x4C]), ('\u{8153}', [0xB5, 0xCC]), 
    ('\u{8154}', [0xB5, 0xC4]), ('\u{8155}', [0xB5, 0xC3]), ('\u{8156}', [0x99, 0x7C]), 
    ('\u{8159}', [0x99, 0x7D]), ('\u{815A}', [0x99, 0x7E]), ('\u{815B}', [0xDF, 0x77]), 
    ('\u{815C}', [0xDF, 0x75]), ('\u{815E}', [0xDF, 0x7B]), ('\u{8160}', [0xDF, 0x73]), 
    ('\u{8161}', [0xDF, 0xA2]), ('\u{8162}', [0xDF, 0x78]), ('\u{8164}', [0xDF, 0x72]), 
    ('\u{8165}', [0xB8, 0x7B]), ('\u{8166}', [0xB8, 0xA3]), ('\u{8167}', [0xDF, 0x7D]), 
    ('\u{8169}', [0xDF, 0x76]), ('\u{816B}', [0xB8, 0x7E]), ('\u{816C}', [0x8C, 0xFB]), 
    ('\u{816D}', [0x8B, 0x5B]), ('\u{816E}', [0xB8, 0x7C]), ('\u{816F}', [0xDF, 0x7E]), 
    ('\u{8170}', [0xB8, 0x79]), ('\u{8171}', [0xB8, 0x78]), ('\u{8172}', [0xDF, 0x79]), 
    ('\u{8173}', [0xB8, 0x7D]), ('\u{8174}', [0xB5, 0xCD]), ('\u{8176}', [0xDF, 0x7C]), 
    ('\u{8177}', [0xDF, 0x74]), ('\u{8178}', [0xB8, 0x7A]), ('\u{8179}', [0xB8, 0xA1]), 
    ('\u{817A}', [0xB8, 0xA2]), ('\u{817C}', [0x99, 0xA3]), ('\u{817F}', [0xBB, 0x4C]), 
    ('\u{8180}', [0xBB, 0x48]), ('\u{8182}', [0xBB, 0x4D]), ('\u{8183}', [0xE3, 0xA6]), 
    ('\u{8184}', [0x99, 0xA4]), ('\u{8186}', [0xE3, 0xA5]), ('\u{8187}', [0xE3, 0xA7]), 
    ('\u{8188}', [0xBB, 0x4A]), ('\u{8189}', [0xE3, 0xA4]), ('\u{818A}', [0xBB, 0x4B]), 
    ('\u{818B}', [0xE3, 0xAA]), ('\u{818C}', [0xE3, 0xA9]), ('\u{818D}', [0xE3, 0xA8]), 
    ('\u{818F}', [0xBB, 0x49]), ('\u{8193}', [0x99, 0xA6]), ('\u{8195}', [0xE7, 0x41]), 
    ('\u{8197}', [0xE7, 0x44]), ('\u{8198}', [0xBD, 0xA8]), ('\u{8199}', [0xE7, 0x43]), 
    ('\u{819A}', [0xBD, 0xA7]), ('\u{819B}', [0xBD, 0xA3]), ('\u{819C}', [0xBD, 0xA4]), 
    ('\u{819D}', [0xBD, 0xA5]), ('\u{819E}', [0xE7, 0x40]), ('\u{819F}', [0xE6, 0xFE]), 
    ('\u{81A0}', [0xBD, 0xA6]), ('\u{81A2}', [0xE7, 0x42]), ('\u{81A3}', [0xE6, 0xFD]), 
    ('\u{81A5}', [0x99, 0xA8]), ('\u{81A6}', [0xEA, 0xE9]), ('\u{81A7}', [0xEA, 0xF3]), 
    ('\u{81A8}', [0xBF, 0xB1]), ('\u{81A9}', [0xBF, 0xB0]), ('\u{81AA}', [0x8A, 0xBE]), 
    ('\u{81AB}', [0xEA, 0xED]), ('\u{81AC}', [0xEA, 0xEF]), ('\u{81AE}', [0xEA, 0xEA]), 
    ('\u{81B0}', [0xEA, 0xEE]), ('\u{81B1}', [0xEA, 0xE8]), ('\u{81B2}', [0xEA, 0xF1]), 
    ('\u{81B3}', [0xBF, 0xAF]), ('\u{81B4}', [0xEA, 0xF0]), ('\u{81B5}', [0xEA, 0xEC]), 
    ('\u{81B6}', [0x9E, 0x61]), ('\u{81B7}', [0xEA, 0xF2]), ('\u{81B9}', [0xEA, 0xEB]), 
    ('\u{81BA}', [0xC1, 0x74]), ('\u{81BB}', [0xED, 0xE8]), ('\u{81BC}', [0xED, 0xEE]), 
    ('\u{81BD}', [0xC1, 0x78]), ('\u{81BE}', [0xC1, 0x7A]), ('\u{81BF}', [0xC1, 0x77]), 
    ('\u{81C0}', [0xC1, 0x76]), ('\u{81C1}', [0x99, 0xAA]), ('\u{81C2}', [0xC1, 0x75]), 
    ('\u{81C3}', [0xC1, 0x73]), ('\u{81C4}', [0xED, 0xE9]), ('\u{81C5}', [0xED, 0xEC]), 
    ('\u{81C6}', [0xC1, 0x72]), ('\u{81C7}', [0xED, 0xED]), ('\u{81C8}', [0xA0, 0xC8]), 
    ('\u{81C9}', [0xC1, 0x79]), ('\u{81CA}', [0xED, 0xEB]), ('\u{81CC}', [0xED, 0xEA]), 
    ('\u{81CD}', [0xC2, 0xC0]), ('\u{81CF}', [0xC2, 0xC1]), ('\u{81D0}', [0xF0, 0xA1]), 
    ('\u{81D1}', [0xF0, 0x7D]), ('\u{81D2}', [0xF0, 0x7E]), ('\u{81D5}', [0xF2, 0xC2]), 
    ('\u{81D7}', [0xF2, 0xC1]), ('\u{81D8}', [0xC3, 0xBE]), ('\u{81D9}', [0xF4, 0xB4]), 
    ('\u{81DA}', [0xC4, 0xA4]), ('\u{81DB}', [0xF4, 0xB3]), ('\u{81DD}', [0xF5, 0xF0]), 
    ('\u{81DE}', [0xF7, 0x45]), ('\u{81DF}', [0xC5, 0xA6]), ('\u{81E0}', [0xF9, 0x43]), 
    ('\u{81E1}', [0xF9, 0x44]), ('\u{81E2}', [0xC5, 0xD8]), ('\u{81E3}', [0xA6, 0xDA]), 
    ('\u{81E4}', [0x99, 0xAB]), ('\u{81E5}', [0xAA, 0xD7]), ('\u{81E6}', [0xDB, 0x52]), 
    ('\u{81E7}', [0xBB, 0x4E]), ('\u{81E8}', [0xC1, 0x7B]), ('\u{81E9}', [0xED, 0xEF]), 
    ('\u{81EA}', [0xA6, 0xDB]), ('\u{81EC}', [0xAF, 0xE5]), ('\u{81ED}', [0xAF, 0xE4]), 
    ('\u{81EE}', [0xDB, 0x53]), ('\u{81EF}', [0xFE, 0xC4]), ('\u{81F2}', [0xEA, 0xF4]), 
    ('\u{81F3}', [0xA6, 0xDC]), ('\u{81F4}', [0xAD, 0x50]), ('\u{81F6}', [0x98, 0xC2]), 
    ('\u{81F7}', [0xDB, 0x54]), ('\u{81F8}', [0xDB, 0x55]), ('\u{81F9}', [0xDB, 0x56]), 
    ('\u{81FA}', [0xBB, 0x4F]), ('\u{81FB}', [0xBF, 0xB2]), ('\u{81FC}', [0xA6, 0xDD]), 
    ('\u{81FE}', [0xAA, 0xD8]), ('\u{81FF}', [0xD0, 0x68]), ('\u{8200}', [0xAF, 0xE6]), 
    ('\u{8201}', [0xD3, 0x70]), ('\u{8202}', [0xB2, 0xEA]), ('\u{8204}', [0xDB, 0x57]), 
    ('\u{8205}', [0xB8, 0xA4]), ('\u{8207}', [0xBB, 0x50]), ('\u{8208}', [0xBF, 0xB3]), 
    ('\u{8209}', [0xC1, 0x7C]), ('\u{820A}', [0xC2, 0xC2]), ('\u{820B}', [0xF4, 0xB5]), 
    ('\u{820C}', [0xA6, 0xDE]), ('\u{820D}', [0xAA, 0xD9]), ('\u{8210}', [0xAF, 0xE7]), 
    ('\u{8211}', [0xD7, 0x52]), ('\u{8212}', [0xB5, 0xCE]), ('\u{8214}', [0xBB, 0x51]), 
    ('\u{8215}', [0xE3, 0xAB]), ('\u{8216}', [0xE7, 0x45]), ('\u{8218}', [0x8E, 0xE8]), 
    ('\u{821A}', [0xA0, 0xBA]), ('\u{821B}', [0xA6, 0xDF]), ('\u{821C}', [0xB5, 0xCF]), 
    ('\u{821D}', [0xDF, 0xA3]), ('\u{821E}', [0xBB, 0x52]), ('\u{821F}', [0xA6, 0xE0]), 
    ('\u{8220}', [0xCD, 0xB1]), ('\u{8221}', [0xD0, 0x69]), ('\u{8222}', [0xAD, 0x51]), 
    ('\u{8225}', [0xD3, 0x72]), ('\u{8226}', [0xFD, 0x77]), ('\u{8228}', [0xAF, 0xEA]), 
    ('\u{8229}', [0x8E, 0xEE]), ('\u{822A}', [0xAF, 0xE8]), ('\u{822B}', [0xAF, 0xE9]), 
    ('\u{822C}', [0xAF, 0xEB]), ('\u{822D}', [0x9E, 0xBF]), ('\u{822F}', [0xD3, 0x71]), 
    ('\u{8232}', [0xD7, 0x57]), ('\u{8233}', [0xD7, 0x54]), ('\u{8234}', [0xD7, 0x56]), 
    ('\u{8235}', [0xB2, 0xEB]), ('\u{8236}', [0xB2, 0xED]), ('\u{8237}', [0xB2, 0xEC]), 
    ('\u{8238}', [0xD7, 0x53]), ('\u{8239}', [0xB2, 0xEE]), ('\u{823A}', [0xD7, 0x55]), 
    ('\u{823C}', [0xDB, 0x58]), ('\u{823D}', [0xDB, 0x59]), ('\u{823E}', [0x89, 0xC2]), 
    ('\u{823F}', [0xDB, 0x5A]), ('\u{8240}', [0xDF, 0xA6]), ('\u{8242}', [0xDF, 0xA7]), 
    ('\u{8244}', [0xDF, 0xA5]), ('\u{8245}', [0xDF, 0xA8]), ('\u{8247}', [0xB8, 0xA5]), 
    ('\u{8249}', [0xDF, 0xA4]), ('\u{824B}', [0xBB, 0x53]), ('\u{824E}', [0xE7, 0x4A]), 
    ('\u{824F}', [0xE7, 0x46]), ('\u{8250}', [0xE7, 0x49]), ('\u{8251}', [0xE7, 0x4B]), 
    ('\u{8252}', [0xE7, 0x48]), ('\u{8253}', [0xE7, 0x47]), ('\u{8254}', [0x99, 0xAC]), 
    ('\u{8255}', [0xEA, 0xF5]), ('\u{8256}', [0xEA, 0xF6]), ('\u{8257}', [0xEA, 0xF7]), 
    ('\u{8258}', [0xBF, 0xB4]), ('\u{8259}', [0xBF, 0xB5]), ('\u{825A}', [0xED, 0xF1]), 
    ('\u{825B}', [0xED, 0xF0]), ('\u{825C}', [0xED, 0xF2]), ('\u{825E}', [0xF0, 0xA3]), 
    ('\u{825F}', [0xF0, 0xA2]), ('\u{8261}', [0xF2, 0xC4]), ('\u{8262}', [0x95, 0x6B]), 
    ('\u{8263}', [0xF2, 0xC5]), ('\u{8264}', [0xF2, 0xC3]), ('\u{8265}', [0x95, 0x6C]), 
    ('\u{8266}', [0xC4, 0xA5]), ('\u{8268}', [0xF4, 0xB6]), ('\u{8269}', [0xF4, 0xB7]), 
    ('\u{826B}', [0xF7, 0x46]), ('\u{826C}', [0xF7, 0xEF]), ('\u{826D}', [0xF8, 0xBB]), 
    ('\u{826E}', [0xA6, 0xE1]), ('\u{826F}', [0xA8, 0x7D]), ('\u{8271}', [0xC1, 0x7D]), 
    ('\u{8272}', [0xA6, 0xE2]), ('\u{8274}', [0xD7, 0x58]), ('\u{8275}', [0xDB, 0x5B]), 
    ('\u{8276}', [0x99, 0xAF]), ('\u{8277}', [0xC6, 0x41]), ('\u{8278}', [0xCA, 0x4A]), 
    ('\u{8279}', [0x99, 0x4A]), ('\u{827A}', [0x89, 0x76]), ('\u{827B}', [0x8F, 0x48]), 
    ('\u{827C}', [0xCA, 0x4B]), ('\u{827D}', [0xCA, 0x4D]), ('\u{827E}', [0xA6, 0xE3]), 
    ('\u{827F}', [0xCA, 0x4E]), ('\u{8280}', [0xCA, 0x4C]), ('\u{8283}', [0xCB, 0xA2]), 
    ('\u{8284}', [0xCB, 0xA3]), ('\u{8285}', [0xCB, 0x7B]), ('\u{8287}', [0xFB, 0xEE]), 
    ('\u{828A}', [0xCB, 0xA1]), ('\u{828B}', [0xA8, 0xA1]), ('\u{828D}', [0xA8, 0xA2]), 
    ('\u{828E}', [0xCB, 0x7C]), ('\u{828F}', [0xCB, 0x7A]), ('\u{8290}', [0xCB, 0x79]), 
    ('\u{8291}', [0xCB, 0x7D]), ('\u{8292}', [0xA8, 0x7E]), ('\u{8293}', [0xCB, 0x7E]), 
    ('\u{8294}', [0xD0, 0x6A]), ('\u{8298}', [0xCD, 0xB6]), ('\u{8299}', [0xAA, 0xDC]), 
    ('\u{829A}', [0xCD, 0xB5]), ('\u{829B}', [0xCD, 0xB7]), ('\u{829D}', [0xAA, 0xDB]), 
    ('\u{829E}', [0xCD, 0xBC]), ('\u{829F}', [0xAA, 0xDF]), ('\u{82A0}', [0xCD, 0xB2]), 
    ('\u{82A1}', [0xCD, 0xC0]), ('\u{82A2}', [0xCD, 0xC6]), ('\u{82A3}', [0xAA, 0xE6]), 
    ('\u{82A4}', [0xCD, 0xC3]), ('\u{82A5}', [0xAA, 0xE3]), ('\u{82A6}', [0x99, 0xAE]), 
    ('\u{82A7}', [0xCD, 0xB9]), ('\u{82A8}', [0xCD, 0xBF]), ('\u{82A9}', [0xCD, 0xC1]), 
    ('\u{82AA}', [0x8E, 0xFB]), ('\u{82AB}', [0xCD, 0xB4]), ('\u{82AC}', [0xAA, 0xE2]), 
    ('\u{82AD}', [0xAA, 0xDD]), ('\u{82AE}', [0xCD, 0xBA]), ('\u{82AF}', [0xAA, 0xE4]), 
    ('\u{82B0}', [0xAA, 0xE7]), ('\u{82B1}', [0xAA, 0xE1]), ('\u{82B3}', [0xAA, 0xDA]), 
    ('\u{82B4}', [0xCD, 0xBE]), ('\u{82B5}', [0xCD, 0xB8]), ('\u{82B6}', [0xCD, 0xC5]), 
    ('\u{82B7}', [0xAA, 0xE9]), ('\u{82B8}', [0xAA, 0xE5]), ('\u{82B9}', [0xAA, 0xE0]), 
    ('\u{82BA}', [0xCD, 0xBD]), ('\u{82BB}', [0xAF, 0xEC]), ('\u{82BC}', [0xCD, 0xBB]), 
    ('\u{82BD}', [0xAA, 0xDE]), ('\u{82BE}', [0xAA, 0xE8]), ('\u{82BF}', [0x8C, 0xD0]), 
    ('\u{82C0}', [0xCD, 0xB3]), ('\u{82C2}', [0xCD, 0xC2]), ('\u{82C3}', [0xCD, 0xC4]), 
    ('\u{82C4}', [0x8B, 0x52]), ('\u{82CA}', [0x99, 0xB0]), ('\u{82CF}', [0x89, 0x77]), 
    ('\u{82D0}', [0x8F, 0x41]), ('\u{82D1}', [0xAD, 0x62]), ('\u{82D2}', [0xAD, 0x5C]), 
    ('\u{82D3}', [0xAD, 0x64]), ('\u{82D4}', [0xAD, 0x61]), ('\u{82D5}', [0xD0, 0x71]), 
    ('\u{82D6}', [0xD0, 0x74]), ('\u{82D7}', [0xAD, 0x5D]), ('\u{82D8}', [0x99, 0xB1]), 
    ('\u{82D9}', [0xD0, 0x6B]), ('\u{82DB}', [0xAD, 0x56]), ('\u{82DC}', [0xAD, 0x60]), 
    ('\u{82DE}', [0xAD, 0x63]), ('\u{82DF}', [0xAD, 0x65]), ('\u{82E0}', [0xD0, 0xA2]), 
    ('\u{82E1}', [0xD0, 0x77]), ('\u{82E2}', [0x8F, 0x49]), ('\u{82E3}', [0xAD, 0x55]), 
    ('\u{82E4}', [0xD0, 0xA1]), ('\u{82E5}', [0xAD, 0x59]), ('\u{82E6}', [0xAD, 0x57]), 
    ('\u{82E7}', [0xAD, 0x52]), ('\u{82E8}', [0xD0, 0x6F]), ('\u{82EA}', [0xD0, 0x7E]), 
    ('\u{82EB}', [0xD0, 0x73]), ('\u{82EC}', [0xD0, 0x76]), ('\u{82ED}', [0xD0, 0xA5]), 
    ('\u{82EE}', [0xFA, 0x4D]), ('\u{82EF}', [0xAD, 0x66]), ('\u{82F0}', [0xD0, 0x7D]), 
    ('\u{82F1}', [0xAD, 0x5E]), ('\u{82F2}', [0xD0, 0x78]), ('\u{82F3}', [0xD0, 0xA4]), 
    ('\u{82F4}', [0xD0, 0x75]), ('\u{82F5}', [0xD0, 0x79]), ('\u{82F6}', [0xD0, 0x7C]), 
    ('\u{82F7}', [0x9D, 0xE4]), ('\u{82F8}', [0x8C, 0xB5]), ('\u{82F9}', [0xD0, 0x6D]), 
    ('\u{82FA}', [0xD0, 0xA3]), ('\u{82FB}', [0xD0, 0x7B]), ('\u{82FC}', [0xFB, 0xE9]), 
    ('\u{82FD}', [0x9B, 0x54]), ('\u{82FE}', [0xD0, 0x6C]), ('\u{82FF}', [0x99, 0xB2]), 
    ('\u{8300}', [0xD0, 0x70]), ('\u{8301}', [0xAD, 0x5F]), ('\u{8302}', [0xAD, 0x5A]), 
    ('\u{8303}', [0xAD, 0x53]), ('\u{8304}', [0xAD, 0x58]), ('\u{8305}', [0xAD, 0x54]), 
    ('\u{8306}', [0xAD, 0x67]), ('\u{8307}', [0xD0, 0x6E]), ('\u{8308}', [0xD3, 0xA5]), 
    ('\u{8309}', [0xAD, 0x5B]), ('\u{830B}', [0x9E, 0x68]), ('\u{830C}', [0xD0, 0x7A]), 
    ('\u{830D}', [0xCE, 0x41]), ('\u{8316}', [0xD3, 0xA8]), ('\u{8317}', [0xAF, 0xFA]), 
    ('\u{8318}', [0x8F, 0x4A]), ('\u{8319}', [0xD3, 0x76]), ('\u{831A}', [0x8F, 0x42]), 
    ('\u{831B}', [0xD3, 0xA3]), ('\u{831C}', [0xD3, 0x7D]), ('\u{831D}', [0x8F, 0x51]), 
    ('\u{831E}', [0xD3, 0xB2]), ('\u{8320}', [0xD3, 0xAA]), ('\u{8322}', [0xD3, 0x7E]), 
    ('\u{8324}', [0xD3, 0xA9]), ('\u{8325}', [0xD3, 0x78]), ('\u{8326}', [0xD3, 0x7C]), 
    ('\u{8327}', [0xD3, 0xB5]), ('\u{8328}', [0xAF, 0xFD]), ('\u{8329}', [0xD3, 0xAD]), 
    ('\u{832A}', [0xD3, 0xA4]), ('\u{832B}', [0xAF, 0xED]), ('\u{832C}', [0xD3, 0xB3]), 
    ('\u{832D}', [0xD3, 0x74]), ('\u{832F}', [0xD3, 0xAC]), ('\u{8331}', [0xAF, 0xFC]), 
"#

/-- src/generated/whatwg/big5_whatwg_tables.rs.inc:6321-6448 -/
noncomputable def encode30 : List Text := lines! r#"    ('\u{8332}', [0xAF, 0xF7]), ('\u{8333}', [0xD3, 0x73]), ('\u{8334}', [0xAF, 0xF5]), 
    ('\u{8335}', [0xAF, 0xF4]), ('\u{8336}', [0xAF, 0xF9]), ('\u{8337}', [0xD3, 0xAB]), 
    ('\u{8338}', [0xAF, 0xF1]), ('\u{8339}', [0xAF, 0xF8]), ('\u{833A}', [0xD0, 0x72]), 
    ('\u{833B}', [0xDB, 0x5C]), ('\u{833C}', [0xD3, 0xA6]), ('\u{833D}', [0x98, 0x46]), 
    ('\u{833F}', [0xD3, 0x7A]), ('\u{8340}', [0xAF, 0xFB]), ('\u{8341}', [0xD3, 0x7B]), 
    ('\u{8342}', [0xD3, 0xA1]), ('\u{8343}', [0xAF, 0xFE]), ('\u{8344}', [0xD3, 0x75]), 
    ('\u{8345}', [0xD3, 0xAF]), ('\u{8347}', [0xD3, 0xAE]), ('\u{8348}', [0xD3, 0xB6]), 
    ('\u{8349}', [0xAF, 0xF3]), ('\u{834A}', [0xAF, 0xF0]), ('\u{834B}', [0xD3, 0xB4]), 
    ('\u{834C}', [0xD3, 0xB0]), ('\u{834D}', [0xD3, 0xA7]), ('\u{834E}', [0xD3, 0xA2]), 
    ('\u{834F}', [0xAF, 0xF6]), ('\u{8350}', [0xAF, 0xF2]), ('\u{8351}', [0xD3, 0x77]), 
    ('\u{8352}', [0xAF, 0xEE]), ('\u{8353}', [0xD3, 0xB1]), ('\u{8354}', [0xAF, 0xEF]), 
    ('\u{8356}', [0xD3, 0x79]), ('\u{8357}', [0x99, 0xB4]), ('\u{8362}', [0x8E, 0xF5]), 
    ('\u{8363}', [0xFD, 0x55]), ('\u{8366}', [0x9C, 0xCD]), ('\u{836F}', [0x89, 0x78]), 
    ('\u{8373}', [0xD7, 0x5E]), ('\u{8374}', [0xD7, 0x60]), ('\u{8375}', [0xD7, 0x65]), 
    ('\u{8376}', [0xD7, 0x79]), ('\u{8377}', [0xB2, 0xFC]), ('\u{8378}', [0xB2, 0xF2]), 
    ('\u{837A}', [0xD7, 0x5D]), ('\u{837B}', [0xB2, 0xFD]), ('\u{837C}', [0xB2, 0xFE]), 
    ('\u{837D}', [0xD7, 0x68]), ('\u{837E}', [0xD7, 0x6F]), ('\u{837F}', [0xD7, 0x75]), 
    ('\u{8381}', [0xD7, 0x62]), ('\u{8383}', [0xD7, 0x69]), ('\u{8385}', [0x8F, 0x53]), 
    ('\u{8386}', [0xB3, 0x40]), ('\u{8387}', [0xD7, 0x77]), ('\u{8388}', [0xD7, 0x72]), 
    ('\u{8389}', [0xB2, 0xFA]), ('\u{838A}', [0xB2, 0xF8]), ('\u{838B}', [0xD7, 0x6E]), 
    ('\u{838C}', [0xD7, 0x6A]), ('\u{838D}', [0xD7, 0x5C]), ('\u{838E}', [0xB2, 0xEF]), 
    ('\u{838F}', [0xD7, 0x61]), ('\u{8390}', [0xD7, 0x59]), ('\u{8391}', [0x8F, 0x6F]), 
    ('\u{8392}', [0xB2, 0xF7]), ('\u{8393}', [0xB2, 0xF9]), ('\u{8394}', [0xD7, 0x66]), 
    ('\u{8395}', [0xD7, 0x63]), ('\u{8396}', [0xB2, 0xF4]), ('\u{8397}', [0xD7, 0x73]), 
    ('\u{8398}', [0xB2, 0xF1]), ('\u{8399}', [0xD7, 0x64]), ('\u{839A}', [0xD7, 0x7A]), 
    ('\u{839B}', [0xD7, 0x6C]), ('\u{839C}', [0x8E, 0x63]), ('\u{839D}', [0xD7, 0x6B]), 
    ('\u{839E}', [0xB2, 0xF0]), ('\u{83A0}', [0xB2, 0xFB]), ('\u{83A2}', [0xB2, 0xF3]), 
    ('\u{83A3}', [0xD7, 0x5A]), ('\u{83A4}', [0xD7, 0x5F]), ('\u{83A5}', [0xD7, 0x70]), 
    ('\u{83A6}', [0xD7, 0x76]), ('\u{83A7}', [0xB3, 0x41]), ('\u{83A8}', [0xD7, 0x5B]), 
    ('\u{83A9}', [0xD7, 0x67]), ('\u{83AA}', [0xD7, 0x6D]), ('\u{83AB}', [0xB2, 0xF6]), 
    ('\u{83AC}', [0x8F, 0x56]), ('\u{83AE}', [0xD7, 0x78]), ('\u{83AF}', [0xD7, 0x71]), 
    ('\u{83B0}', [0xD7, 0x74]), ('\u{83B9}', [0xFE, 0x76]), ('\u{83BD}', [0xB2, 0xF5]), 
    ('\u{83BE}', [0x9F, 0xC6]), ('\u{83BF}', [0xDB, 0x6C]), ('\u{83C0}', [0xDB, 0x60]), 
    ('\u{83C1}', [0x8F, 0x57]), ('\u{83C2}', [0xDB, 0x7D]), ('\u{83C3}', [0xDB, 0xA7]), 
    ('\u{83C4}', [0xDB, 0xAA]), ('\u{83C5}', [0xB5, 0xD5]), ('\u{83C6}', [0xDB, 0x68]), 
    ('\u{83C7}', [0xDB, 0xA3]), ('\u{83C8}', [0xDB, 0x69]), ('\u{83C9}', [0xDB, 0x77]), 
    ('\u{83CA}', [0xB5, 0xE2]), ('\u{83CB}', [0xDB, 0x73]), ('\u{83CC}', [0xB5, 0xDF]), 
    ('\u{83CD}', [0xFA, 0xAC]), ('\u{83CE}', [0xDB, 0x74]), ('\u{83CF}', [0x9C, 0x77]), 
    ('\u{83D1}', [0xDB, 0xA4]), ('\u{83D3}', [0x8F, 0x58]), ('\u{83D4}', [0xB5, 0xE8]), 
    ('\u{83D5}', [0xDB, 0xA1]), ('\u{83D6}', [0xDB, 0x75]), ('\u{83D7}', [0xDB, 0xAC]), 
    ('\u{83D8}', [0xDB, 0x70]), ('\u{83D9}', [0xDF, 0xC8]), ('\u{83DB}', [0xDB, 0xAF]), 
    ('\u{83DC}', [0xB5, 0xE6]), ('\u{83DD}', [0xDB, 0x6E]), ('\u{83DE}', [0xDB, 0x7A]), 
    ('\u{83DF}', [0xB5, 0xE9]), ('\u{83E0}', [0xB5, 0xD4]), ('\u{83E1}', [0xDB, 0x72]), 
    ('\u{83E2}', [0xDB, 0xAD]), ('\u{83E3}', [0xDB, 0x6B]), ('\u{83E4}', [0xDB, 0x64]), 
    ('\u{83E5}', [0xDB, 0x6F]), ('\u{83E7}', [0xDB, 0x63]), ('\u{83E8}', [0xDB, 0x61]), 
    ('\u{83E9}', [0xB5, 0xD0]), ('\u{83EA}', [0xDB, 0xA5]), ('\u{83EB}', [0xDB, 0x6A]), 
    ('\u{83EC}', [0xDB, 0xA8]), ('\u{83ED}', [0x98, 0x48]), ('\u{83EE}', [0xDB, 0xA9]), 
    ('\u{83EF}', [0xB5, 0xD8]), ('\u{83F0}', [0xB5, 0xDD]), ('\u{83F1}', [0xB5, 0xD9]), 
    ('\u{83F2}', [0xB5, 0xE1]), ('\u{83F3}', [0xDB, 0x7E]), ('\u{83F4}', [0xB5, 0xDA]), 
    ('\u{83F5}', [0xDB, 0x76]), ('\u{83F6}', [0xDB, 0x66]), ('\u{83F8}', [0xB5, 0xD2]), 
    ('\u{83F9}', [0xDB, 0x5E]), ('\u{83FA}', [0xDB, 0xA2]), ('\u{83FB}', [0xDB, 0xAB]), 
    ('\u{83FC}', [0xDB, 0x65]), ('\u{83FD}', [0xB5, 0xE0]), ('\u{83FE}', [0xDB, 0xB0]), 
    ('\u{83FF}', [0xDB, 0x71]), ('\u{8401}', [0xDB, 0x6D]), ('\u{8403}', [0xB5, 0xD1]), 
    ('\u{8404}', [0xB5, 0xE5]), ('\u{8405}', [0x99, 0xB7]), ('\u{8406}', [0xDB, 0x7C]), 
    ('\u{8407}', [0xB5, 0xE7]), ('\u{8409}', [0xDB, 0x78]), ('\u{840A}', [0xB5, 0xDC]), 
    ('\u{840B}', [0xB5, 0xD6]), ('\u{840C}', [0xB5, 0xDE]), ('\u{840D}', [0xB5, 0xD3]), 
    ('\u{840E}', [0xB5, 0xE4]), ('\u{840F}', [0x8F, 0x6E]), ('\u{8410}', [0xDB, 0x67]), 
    ('\u{8411}', [0xDB, 0x7B]), ('\u{8412}', [0xDB, 0x62]), ('\u{8413}', [0xDB, 0xA6]), 
    ('\u{8414}', [0x96, 0x65]), ('\u{8416}', [0xFA, 0x6C]), ('\u{8418}', [0x9D, 0xE7]), 
    ('\u{841B}', [0xDB, 0xAE]), ('\u{841C}', [0x9E, 0x62]), ('\u{8420}', [0x96, 0xCC]), 
    ('\u{8421}', [0x8E, 0x67]), ('\u{8423}', [0xDB, 0x5F]), ('\u{8424}', [0xFC, 0x75]), 
    ('\u{8426}', [0x98, 0x7E]), ('\u{8429}', [0xDF, 0xC7]), ('\u{842B}', [0xDF, 0xDD]), 
    ('\u{842C}', [0xB8, 0x55]), ('\u{842D}', [0xDF, 0xCC]), ('\u{842E}', [0xFD, 0xB9]), 
    ('\u{842F}', [0xDF, 0xCA]), ('\u{8430}', [0xDF, 0xB5]), ('\u{8431}', [0xB8, 0xA9]), 
    ('\u{8432}', [0xDF, 0xC5]), ('\u{8433}', [0xDF, 0xD9]), ('\u{8434}', [0xDF, 0xC1]), 
    ('\u{8435}', [0xB8, 0xB1]), ('\u{8436}', [0xDF, 0xD8]), ('\u{8437}', [0xDF, 0xBF]), 
    ('\u{8438}', [0xB5, 0xE3]), ('\u{8439}', [0xDF, 0xCF]), ('\u{843A}', [0xDF, 0xC0]), 
    ('\u{843B}', [0xDF, 0xD6]), ('\u{843C}', [0xB8, 0xB0]), ('\u{843D}', [0xB8, 0xA8]), 
    ('\u{843E}', [0x97, 0xFC]), ('\u{843F}', [0xDF, 0xAA]), ('\u{8440}', [0xDF, 0xB2]), 
    ('\u{8442}', [0xDF, 0xCB]), ('\u{8443}', [0xDF, 0xC3]), ('\u{8444}', [0xDF, 0xDC]), 
    ('\u{8445}', [0xDF, 0xC6]), ('\u{8446}', [0xB8, 0xB6]), ('\u{8447}', [0xDF, 0xD7]), 
    ('\u{8448}', [0x98, 0xF9]), ('\u{8449}', [0xB8, 0xAD]), ('\u{844A}', [0x8F, 0x66]), 
    ('\u{844B}', [0xDF, 0xC9]), ('\u{844C}', [0xDF, 0xD1]), ('\u{844D}', [0xDF, 0xB6]), 
    ('\u{844E}', [0xDF, 0xD0]), ('\u{8450}', [0xDF, 0xE1]), ('\u{8451}', [0xDF, 0xB1]), 
    ('\u{8452}', [0xDF, 0xD2]), ('\u{8453}', [0x95, 0x6E]), ('\u{8454}', [0xDF, 0xDF]), 
    ('\u{8455}', [0x92, 0x45]), ('\u{8456}', [0xDF, 0xAB]), ('\u{8457}', [0xB5, 0xDB]), 
    ('\u{8458}', [0x8F, 0x60]), ('\u{8459}', [0xDF, 0xB9]), ('\u{845A}', [0xDF, 0xB8]), 
    ('\u{845B}', [0xB8, 0xAF]), ('\u{845C}', [0x9E, 0xD1]), ('\u{845D}', [0xDF, 0xBC]), 
    ('\u{845E}', [0xDF, 0xBE]), ('\u{845F}', [0xDF, 0xCD]), ('\u{8460}', [0xDF, 0xDE]), 
    ('\u{8461}', [0xB8, 0xB2]), ('\u{8462}', [0xFE, 0xCD]), ('\u{8463}', [0xB8, 0xB3]), 
    ('\u{8464}', [0x99, 0xB9]), ('\u{8465}', [0xDF, 0xB0]), ('\u{8466}', [0xB8, 0xAB]), 
    ('\u{8467}', [0xDF, 0xB4]), ('\u{8468}', [0xDF, 0xDA]), ('\u{8469}', [0xB8, 0xB4]), 
    ('\u{846B}', [0xB8, 0xAC]), ('\u{846C}', [0xB8, 0xAE]), ('\u{846D}', [0xB8, 0xB5]), 
    ('\u{846E}', [0xDF, 0xE0]), ('\u{846F}', [0xDF, 0xD3]), ('\u{8470}', [0xDF, 0xCE]), 
    ('\u{8471}', [0x8F, 0x62]), ('\u{8472}', [0x97, 0x4C]), ('\u{8473}', [0xDF, 0xBB]), 
    ('\u{8474}', [0xDF, 0xBA]), ('\u{8475}', [0xB8, 0xAA]), ('\u{8476}', [0xDF, 0xAC]), 
    ('\u{8477}', [0xB8, 0xA7]), ('\u{8478}', [0xDF, 0xC4]), ('\u{8479}', [0xDF, 0xAD]), 
    ('\u{847A}', [0xDF, 0xC2]), ('\u{847D}', [0xDF, 0xB7]), ('\u{847E}', [0xDF, 0xDB]), 
    ('\u{847F}', [0x91, 0xC7]), ('\u{8480}', [0x95, 0x5F]), ('\u{8482}', [0xB8, 0xA6]), 
    ('\u{8484}', [0x87, 0xAB]), ('\u{8486}', [0xDF, 0xB3]), ('\u{8488}', [0x99, 0xBB]), 
    ('\u{848D}', [0xDF, 0xAF]), ('\u{848E}', [0xDF, 0xD5]), ('\u{848F}', [0xDF, 0xAE]), 
    ('\u{8490}', [0xBB, 0x60]), ('\u{8491}', [0xE3, 0xD3]), ('\u{8492}', [0x8E, 0x6D]), 
    ('\u{8493}', [0x8F, 0x71]), ('\u{8494}', [0xE3, 0xC2]), ('\u{8496}', [0x94, 0xCB]), 
    ('\u{8497}', [0xE3, 0xAC]), ('\u{8498}', [0xE3, 0xCA]), ('\u{8499}', [0xBB, 0x58]), 
    ('\u{849A}', [0xE3, 0xBB]), ('\u{849B}', [0xE3, 0xC5]), ('\u{849C}', [0xBB, 0x5B]), 
    ('\u{849D}', [0xE3, 0xBE]), ('\u{849E}', [0xBB, 0x59]), ('\u{849F}', [0xE3, 0xAF]), 
    ('\u{84A0}', [0xE3, 0xCD]), ('\u{84A1}', [0xE3, 0xAE]), ('\u{84A2}', [0xE3, 0xC1]), 
    ('\u{84A3}', [0x95, 0xB1]), ('\u{84A4}', [0xE3, 0xAD]), ('\u{84A7}', [0xE3, 0xBF]), 
    ('\u{84A8}', [0x8F, 0x69]), ('\u{84A9}', [0xE3, 0xC6]), ('\u{84AA}', [0xE3, 0xBA]), 
    ('\u{84AB}', [0xE3, 0xB5]), ('\u{84AC}', [0xE3, 0xB3]), ('\u{84AD}', [0x9A, 0xF2]), 
    ('\u{84AE}', [0xE3, 0xB4]), ('\u{84AF}', [0xE3, 0xC7]), ('\u{84B0}', [0xE3, 0xD2]), 
    ('\u{84B1}', [0xE3, 0xBC]), ('\u{84B2}', [0xBB, 0x5A]), ('\u{84B4}', [0xE3, 0xB7]), 
    ('\u{84B6}', [0xE3, 0xCB]), ('\u{84B8}', [0xBB, 0x5D]), ('\u{84B9}', [0xE3, 0xB6]), 
    ('\u{84BA}', [0xE3, 0xB0]), ('\u{84BB}', [0xE3, 0xC0]), ('\u{84BC}', [0xBB, 0x61]), 
    ('\u{84BD}', [0x96, 0xC3]), ('\u{84BE}', [0x99, 0xBD]), ('\u{84BF}', [0xBB, 0x55]), 
    ('\u{84C0}', [0xBB, 0x5E]), ('\u{84C1}', [0xE3, 0xB8]), ('\u{84C2}', [0xE3, 0xB2]), 
    ('\u{84C4}', [0xBB, 0x57]), ('\u{84C5}', [0xDF, 0xD4]), ('\u{84C6}', [0xBB, 0x56]), 
    ('\u{84C7}', [0xE3, 0xC3]), ('\u{84C9}', [0xBB, 0x54]), ('\u{84CA}', [0xBB, 0x63]), 
    ('\u{84CB}', [0xBB, 0x5C]), ('\u{84CC}', [0xE3, 0xC4]), ('\u{84CD}', [0xE3, 0xB9]), 
    ('\u{84CE}', [0xE3, 0xB1]), ('\u{84CF}', [0xE3, 0xCC]), ('\u{84D0}', [0xE3, 0xBD]), 
    ('\u{84D1}', [0xBB, 0x62]), ('\u{84D2}', [0xE3, 0xD0]), ('\u{84D3}', [0xBB, 0x5F]), 
    ('\u{84D4}', [0xE3, 0xCF]), ('\u{84D6}', [0xE3, 0xC9]), ('\u{84D7}', [0xE3, 0xCE]), 
    ('\u{84DA}', [0xA0, 0xCF]), ('\u{84DB}', [0xE3, 0xD1]), ('\u{84DE}', [0x8F, 0x6D]), 
    ('\u{84E1}', [0x99, 0xBE]), ('\u{84E2}', [0x8E, 0xF4]), ('\u{84E4}', [0x8F, 0x72]), 
    ('\u{84E5}', [0x95, 0xE4]), ('\u{84E7}', [0xE7, 0x73]), ('\u{84E8}', [0xE7, 0x74]), 
    ('\u{84E9}', [0xE7, 0x67]), ('\u{84EA}', [0xE7, 0x66]), ('\u{84EB}', [0xE7, 0x62]), 
    ('\u{84EC}', [0xBD, 0xB4]), ('\u{84EE}', [0xBD, 0xAC]), ('\u{84EF}', [0xE7, 0x76]), 
    ('\u{84F0}', [0xE7, 0x75]), ('\u{84F1}', [0xDF, 0xA9]), ('\u{84F2}', [0xE7, 0x5F]), 
    ('\u{84F3}', [0xE7, 0x63]), ('\u{84F4}', [0xE7, 0x5D]), ('\u{84F6}', [0xE7, 0x70]), 
    ('\u{84F7}', [0xE7, 0x61]), ('\u{84F8}', [0x99, 0xBF]), ('\u{84F9}', [0xE7, 0x77]), 
    ('\u{84FA}', [0xE7, 0x5A]), ('\u{84FB}', [0xE7, 0x58]), ('\u{84FC}', [0xE7, 0x64]), 
    ('\u{84FD}', [0xE7, 0x6E]), ('\u{84FE}', [0xE7, 0x69]), ('\u{84FF}', [0xBD, 0xB6]), 
    ('\u{8500}', [0xE7, 0x4F]), ('\u{8502}', [0xE7, 0x6D]), ('\u{8503}', [0x92, 0x42]), 
    ('\u{8504}', [0x87, 0xD7]), ('\u{8505}', [0xFB, 0xA5]), ('\u{8506}', [0xBD, 0xB7]), 
    ('\u{8507}', [0xDF, 0xBD]), ('\u{8508}', [0xE7, 0x5B]), ('\u{8509}', [0xE7, 0x52]), 
    ('\u{850A}', [0xE7, 0x55]), ('\u{850B}', [0xE7, 0x7B]), ('\u{850C}', [0xE7, 0x5C]), 
    ('\u{850D}', [0xE7, 0x53]), ('\u{850E}', [0xE7, 0x51]), ('\u{850F}', [0xE7, 0x4E]), 
    ('\u{8510}', [0x99, 0xC0]), ('\u{8511}', [0xBD, 0xB0]), ('\u{8512}', [0xE7, 0x65]), 
"#

/-- src/generated/whatwg/big5_whatwg_tables.rs.inc:6449-6576 -/
noncomputable def encode31 : List Text := lines! r#"    ('\u{8513}', [0xBD, 0xAF]), ('\u{8514}', [0xBD, 0xB3]), ('\u{8515}', [0xE7, 0x60]), 
    ('\u{8516}', [0xE7, 0x68]), ('\u{8517}', [0xBD, 0xA9]), ('\u{8518}', [0xE7, 0x78]), 
    ('\u{8519}', [0xE7, 0x7C]), ('\u{851A}', [0xBD, 0xAB]), ('\u{851C}', [0xE7, 0x57]), 
    ('\u{851D}', [0xE7, 0x6B]), ('\u{851E}', [0xE7, 0x6F]), ('\u{851F}', [0xE7, 0x54]), 
    ('\u{8520}', [0xE7, 0x79]), ('\u{8521}', [0xBD, 0xB2]), ('\u{8523}', [0xBD, 0xB1]), 
    ('\u{8524}', [0xE7, 0x4C]), ('\u{8525}', [0xBD, 0xB5]), ('\u{8526}', [0xE7, 0x72]), 
    ('\u{8527}', [0xE7, 0x56]), ('\u{8528}', [0xE7, 0x6A]), ('\u{8529}', [0xE7, 0x50]), 
    ('\u{852A}', [0xE7, 0x5E]), ('\u{852B}', [0xE7, 0x59]), ('\u{852C}', [0xBD, 0xAD]), 
    ('\u{852D}', [0xBD, 0xAE]), ('\u{852E}', [0xE7, 0x6C]), ('\u{852F}', [0xE7, 0x7D]), 
    ('\u{8530}', [0xE7, 0x7A]), ('\u{8531}', [0xE7, 0x71]), ('\u{8533}', [0xFD, 0xB4]), 
    ('\u{8534}', [0x8F, 0x77]), ('\u{8538}', [0x99, 0xC1]), ('\u{853B}', [0xE7, 0x4D]), 
    ('\u{853D}', [0xBD, 0xAA]), ('\u{853E}', [0xEB, 0x49]), ('\u{8540}', [0xEB, 0x40]), 
    ('\u{8541}', [0xEB, 0x43]), ('\u{8542}', [0xFA, 0xB9]), ('\u{8543}', [0xBF, 0xBB]), 
    ('\u{8544}', [0xEB, 0x45]), ('\u{8545}', [0xEA, 0xF9]), ('\u{8546}', [0xEB, 0x41]), 
    ('\u{8547}', [0xEB, 0x47]), ('\u{8548}', [0xBF, 0xB8]), ('\u{8549}', [0xBF, 0xBC]), 
    ('\u{854A}', [0xBF, 0xB6]), ('\u{854B}', [0x8F, 0x40]), ('\u{854C}', [0xFA, 0x44]), 
    ('\u{854D}', [0xEA, 0xFB]), ('\u{854E}', [0xEB, 0x4C]), ('\u{8551}', [0xEB, 0x46]), 
    ('\u{8552}', [0x99, 0xC2]), ('\u{8553}', [0xEA, 0xFC]), ('\u{8554}', [0xEB, 0x55]), 
    ('\u{8555}', [0xEB, 0x4F]), ('\u{8556}', [0xEA, 0xF8]), ('\u{8557}', [0xEE, 0x46]), 
    ('\u{8558}', [0xEA, 0xFE]), ('\u{8559}', [0xBF, 0xB7]), ('\u{855A}', [0x8F, 0x5C]), 
    ('\u{855B}', [0xEB, 0x4A]), ('\u{855D}', [0xEB, 0x54]), ('\u{855E}', [0xBF, 0xBF]), 
    ('\u{855F}', [0x8C, 0xBD]), ('\u{8560}', [0xEB, 0x51]), ('\u{8561}', [0xEA, 0xFD]), 
    ('\u{8562}', [0xEB, 0x44]), ('\u{8563}', [0xEB, 0x48]), ('\u{8564}', [0xEB, 0x42]), 
    ('\u{8565}', [0xEB, 0x56]), ('\u{8566}', [0xEB, 0x53]), ('\u{8567}', [0xEB, 0x50]), 
    ('\u{8568}', [0xBF, 0xB9]), ('\u{8569}', [0xBF, 0xBA]), ('\u{856A}', [0xBF, 0xBE]), 
    ('\u{856B}', [0xEA, 0xFA]), ('\u{856C}', [0xEB, 0x57]), ('\u{856D}', [0xBF, 0xBD]), 
    ('\u{856E}', [0xEB, 0x4D]), ('\u{856F}', [0x99, 0xC4]), ('\u{8570}', [0x99, 0xC5]), 
    ('\u{8571}', [0xEB, 0x4B]), ('\u{8573}', [0x8F, 0x7B]), ('\u{8575}', [0xEB, 0x4E]), 
    ('\u{8576}', [0xEE, 0x53]), ('\u{8577}', [0xEE, 0x40]), ('\u{8578}', [0xEE, 0x45]), 
    ('\u{8579}', [0xEE, 0x52]), ('\u{857A}', [0xEE, 0x44]), ('\u{857B}', [0xED, 0xFB]), 
    ('\u{857C}', [0xEE, 0x41]), ('\u{857E}', [0xC1, 0xA2]), ('\u{8580}', [0xED, 0xF4]), 
    ('\u{8581}', [0xEE, 0x4D]), ('\u{8582}', [0xEE, 0x4F]), ('\u{8583}', [0xED, 0xF3]), 
    ('\u{8584}', [0xC1, 0xA1]), ('\u{8585}', [0xEE, 0x51]), ('\u{8586}', [0xEE, 0x49]), 
    ('\u{8587}', [0xC1, 0xA8]), ('\u{8588}', [0xEE, 0x50]), ('\u{8589}', [0xEE, 0x42]), 
    ('\u{858A}', [0xC1, 0xAA]), ('\u{858B}', [0xED, 0xF9]), ('\u{858C}', [0xEB, 0x52]), 
    ('\u{858D}', [0xEE, 0x4A]), ('\u{858E}', [0xEE, 0x47]), ('\u{858F}', [0xED, 0xF5]), 
    ('\u{8590}', [0xEE, 0x55]), ('\u{8591}', [0xC1, 0xA4]), ('\u{8593}', [0x87, 0x76]), 
    ('\u{8594}', [0xC1, 0xA5]), ('\u{8595}', [0xED, 0xF7]), ('\u{8596}', [0xEE, 0x48]), 
    ('\u{8597}', [0x8C, 0xB6]), ('\u{8598}', [0xEE, 0x54]), ('\u{8599}', [0xEE, 0x4B]), 
    ('\u{859A}', [0xED, 0xFD]), ('\u{859B}', [0xC1, 0xA7]), ('\u{859C}', [0xC1, 0xA3]), 
    ('\u{859D}', [0xEE, 0x4C]), ('\u{859E}', [0xED, 0xFE]), ('\u{859F}', [0xEE, 0x56]), 
    ('\u{85A0}', [0xED, 0xF8]), ('\u{85A1}', [0xEE, 0x43]), ('\u{85A2}', [0xEE, 0x4E]), 
    ('\u{85A3}', [0xED, 0xFA]), ('\u{85A4}', [0xED, 0xFC]), ('\u{85A6}', [0xC2, 0xCB]), 
    ('\u{85A7}', [0xED, 0xF6]), ('\u{85A8}', [0xC1, 0xA9]), ('\u{85A9}', [0xC2, 0xC4]), 
    ('\u{85AA}', [0xC1, 0x7E]), ('\u{85AF}', [0xC1, 0xA6]), ('\u{85B0}', [0xC2, 0xC8]), 
    ('\u{85B1}', [0xF0, 0xB3]), ('\u{85B3}', [0xF0, 0xA9]), ('\u{85B4}', [0xF0, 0xA4]), 
    ('\u{85B5}', [0xF0, 0xAA]), ('\u{85B6}', [0xF0, 0xB4]), ('\u{85B7}', [0xF0, 0xB8]), 
    ('\u{85B8}', [0xF0, 0xB7]), ('\u{85B9}', [0xC2, 0xCA]), ('\u{85BA}', [0xC2, 0xC9]), 
    ('\u{85BD}', [0xF0, 0xAB]), ('\u{85BE}', [0xF0, 0xB9]), ('\u{85BF}', [0xF0, 0xAE]), 
    ('\u{85C0}', [0xF0, 0xA6]), ('\u{85C1}', [0x8F, 0xA3]), ('\u{85C2}', [0xF0, 0xA8]), 
    ('\u{85C3}', [0xF0, 0xA7]), ('\u{85C4}', [0xF0, 0xAD]), ('\u{85C5}', [0xF0, 0xB2]), 
    ('\u{85C6}', [0xF0, 0xA5]), ('\u{85C7}', [0xF0, 0xAC]), ('\u{85C8}', [0xF0, 0xB1]), 
    ('\u{85C9}', [0xC2, 0xC7]), ('\u{85CB}', [0xF0, 0xAF]), ('\u{85CD}', [0xC2, 0xC5]), 
    ('\u{85CE}', [0xF0, 0xB0]), ('\u{85CF}', [0xC2, 0xC3]), ('\u{85D0}', [0xC2, 0xC6]), 
    ('\u{85D1}', [0xF2, 0xD5]), ('\u{85D2}', [0xF0, 0xB5]), ('\u{85D5}', [0xC3, 0xC2]), 
    ('\u{85D6}', [0x8C, 0xCE]), ('\u{85D7}', [0xF2, 0xCD]), ('\u{85D8}', [0xF2, 0xD1]), 
    ('\u{85D9}', [0xF2, 0xC9]), ('\u{85DA}', [0xF2, 0xCC]), ('\u{85DC}', [0xF2, 0xD4]), 
    ('\u{85DD}', [0xC3, 0xC0]), ('\u{85DE}', [0xF2, 0xD9]), ('\u{85DF}', [0xF2, 0xD2]), 
    ('\u{85E0}', [0x99, 0xC6]), ('\u{85E1}', [0xF2, 0xCA]), ('\u{85E2}', [0xF2, 0xDA]), 
    ('\u{85E3}', [0xF2, 0xD3]), ('\u{85E4}', [0xC3, 0xC3]), ('\u{85E5}', [0xC3, 0xC4]), 
    ('\u{85E6}', [0xF2, 0xD7]), ('\u{85E8}', [0xF2, 0xCB]), ('\u{85E9}', [0xC3, 0xBF]), 
    ('\u{85EA}', [0xC3, 0xC1]), ('\u{85EB}', [0xF2, 0xC6]), ('\u{85EC}', [0xF2, 0xCE]), 
    ('\u{85ED}', [0xF2, 0xC8]), ('\u{85EE}', [0x96, 0xCD]), ('\u{85EF}', [0xF2, 0xD8]), 
    ('\u{85F0}', [0xF2, 0xD6]), ('\u{85F1}', [0xF2, 0xC7]), ('\u{85F2}', [0xF2, 0xCF]), 
    ('\u{85F6}', [0xF4, 0xBE]), ('\u{85F7}', [0xC3, 0xC5]), ('\u{85F8}', [0xF2, 0xD0]), 
    ('\u{85F9}', [0xC4, 0xA7]), ('\u{85FA}', [0xC4, 0xA9]), ('\u{85FB}', [0xC4, 0xA6]), 
    ('\u{85FC}', [0x96, 0xC7]), ('\u{85FD}', [0xF4, 0xC3]), ('\u{85FE}', [0xF4, 0xBB]), 
    ('\u{85FF}', [0xF4, 0xB9]), ('\u{8600}', [0xF4, 0xBD]), ('\u{8601}', [0xF4, 0xBA]), 
    ('\u{8602}', [0x8F, 0xA5]), ('\u{8604}', [0xF4, 0xBF]), ('\u{8605}', [0xF4, 0xC1]), 
    ('\u{8606}', [0xC4, 0xAA]), ('\u{8607}', [0xC4, 0xAC]), ('\u{8609}', [0xF4, 0xC0]), 
    ('\u{860A}', [0xC4, 0xAD]), ('\u{860B}', [0xC4, 0xAB]), ('\u{860C}', [0xF4, 0xC2]), 
    ('\u{860D}', [0xFA, 0xBB]), ('\u{860F}', [0x8C, 0x61]), ('\u{8610}', [0x95, 0x70]), 
    ('\u{8611}', [0xC4, 0xA8]), ('\u{8613}', [0x87, 0xAF]), ('\u{8614}', [0x93, 0x68]), 
    ('\u{8616}', [0x8F, 0x7E]), ('\u{8617}', [0xC4, 0xF4]), ('\u{8618}', [0xF5, 0xF1]), 
    ('\u{8619}', [0xF5, 0xF7]), ('\u{861A}', [0xC4, 0xF6]), ('\u{861B}', [0xF4, 0xBC]), 
    ('\u{861C}', [0xF5, 0xF6]), ('\u{861E}', [0xF5, 0xFD]), ('\u{861F}', [0xF5, 0xF4]), 
    ('\u{8620}', [0xF5, 0xFB]), ('\u{8621}', [0xF5, 0xFA]), ('\u{8622}', [0xF4, 0xB8]), 
    ('\u{8623}', [0xF5, 0xF5]), ('\u{8624}', [0xF0, 0xB6]), ('\u{8625}', [0xF5, 0xFE]), 
    ('\u{8626}', [0xF5, 0xF3]), ('\u{8627}', [0xF5, 0xF8]), ('\u{8628}', [0x8F, 0xAA]), 
    ('\u{8629}', [0xF5, 0xFC]), ('\u{862A}', [0xF5, 0xF2]), ('\u{862C}', [0xF7, 0x4A]), 
    ('\u{862D}', [0xC4, 0xF5]), ('\u{862E}', [0xF5, 0xF9]), ('\u{862F}', [0xA0, 0x50]), 
    ('\u{8631}', [0xF7, 0xF4]), ('\u{8632}', [0xF7, 0x4B]), ('\u{8633}', [0xF7, 0x49]), 
    ('\u{8634}', [0xF7, 0x47]), ('\u{8635}', [0xF7, 0x48]), ('\u{8636}', [0xF7, 0x4C]), 
    ('\u{8638}', [0xC5, 0xD9]), ('\u{8639}', [0xF7, 0xF2]), ('\u{863A}', [0xF7, 0xF0]), 
    ('\u{863B}', [0xF7, 0xF5]), ('\u{863C}', [0xF7, 0xF3]), ('\u{863E}', [0xF7, 0xF6]), 
    ('\u{863F}', [0xC5, 0xDA]), ('\u{8640}', [0xF7, 0xF1]), ('\u{8642}', [0x90, 0xD3]), 
    ('\u{8643}', [0xF8, 0xBC]), ('\u{8645}', [0x95, 0x56]), ('\u{8646}', [0xF9, 0x45]), 
    ('\u{8647}', [0xF9, 0x46]), ('\u{8648}', [0xF9, 0x47]), ('\u{864B}', [0xF9, 0xC7]), 
    ('\u{864C}', [0xF9, 0xBD]), ('\u{864D}', [0xCA, 0x4F]), ('\u{864E}', [0xAA, 0xEA]), 
    ('\u{8650}', [0xAD, 0x68]), ('\u{8652}', [0xD3, 0xB8]), ('\u{8653}', [0xD3, 0xB7]), 
    ('\u{8654}', [0xB0, 0x40]), ('\u{8655}', [0xB3, 0x42]), ('\u{8656}', [0xD7, 0x7C]), 
    ('\u{8659}', [0xD7, 0x7B]), ('\u{865B}', [0xB5, 0xEA]), ('\u{865C}', [0xB8, 0xB8]), 
    ('\u{865E}', [0xB8, 0xB7]), ('\u{865F}', [0xB8, 0xB9]), ('\u{8661}', [0xE3, 0xD4]), 
    ('\u{8662}', [0xE7, 0x7E]), ('\u{8663}', [0xEB, 0x58]), ('\u{8664}', [0xEB, 0x5A]), 
    ('\u{8665}', [0xEB, 0x59]), ('\u{8667}', [0xC1, 0xAB]), ('\u{8668}', [0xEE, 0x57]), 
    ('\u{8669}', [0xF0, 0xBA]), ('\u{866A}', [0xF9, 0xA5]), ('\u{866B}', [0xA6, 0xE4]), 
    ('\u{866C}', [0x8F, 0xB8]), ('\u{866D}', [0xCD, 0xC9]), ('\u{866E}', [0xCD, 0xCA]), 
    ('\u{866F}', [0xCD, 0xC8]), ('\u{8670}', [0xCD, 0xC7]), ('\u{8671}', [0xAA, 0xEB]), 
    ('\u{8672}', [0x99, 0xC8]), ('\u{8673}', [0xD0, 0xA9]), ('\u{8674}', [0xD0, 0xA7]), 
    ('\u{8677}', [0xD0, 0xA6]), ('\u{8679}', [0xAD, 0x69]), ('\u{867A}', [0xAD, 0x6B]), 
    ('\u{867B}', [0xAD, 0x6A]), ('\u{867C}', [0xD0, 0xA8]), ('\u{867E}', [0x8F, 0xAF]), 
    ('\u{8685}', [0xD3, 0xC4]), ('\u{8686}', [0xD3, 0xC1]), ('\u{8687}', [0xD3, 0xBF]), 
    ('\u{868A}', [0xB0, 0x41]), ('\u{868B}', [0xD3, 0xC2]), ('\u{868C}', [0xB0, 0x46]), 
    ('\u{868D}', [0xD3, 0xBC]), ('\u{868E}', [0xD3, 0xCB]), ('\u{8690}', [0xD3, 0xCD]), 
    ('\u{8691}', [0xD3, 0xBD]), ('\u{8692}', [0x99, 0xC9]), ('\u{8693}', [0xB0, 0x43]), 
    ('\u{8694}', [0xD3, 0xCE]), ('\u{8695}', [0xD3, 0xC9]), ('\u{8696}', [0xD3, 0xBB]), 
    ('\u{8697}', [0xD3, 0xC0]), ('\u{8698}', [0xD3, 0xCA]), ('\u{8699}', [0xD3, 0xC6]), 
    ('\u{869A}', [0xD3, 0xC3]), ('\u{869C}', [0xB0, 0x48]), ('\u{869D}', [0xD3, 0xCC]), 
    ('\u{869E}', [0xD3, 0xBE]), ('\u{86A0}', [0x95, 0x79]), ('\u{86A1}', [0xD3, 0xC7]), 
    ('\u{86A2}', [0xD3, 0xB9]), ('\u{86A3}', [0xB0, 0x47]), ('\u{86A4}', [0xB0, 0x44]), 
    ('\u{86A5}', [0xD3, 0xC5]), ('\u{86A7}', [0xD3, 0xC8]), ('\u{86A8}', [0xD3, 0xBA]), 
    ('\u{86A9}', [0xB0, 0x45]), ('\u{86AA}', [0xB0, 0x42]), ('\u{86AD}', [0x9F, 0x49]), 
    ('\u{86AF}', [0xB3, 0x4C]), ('\u{86B0}', [0xD7, 0xA5]), ('\u{86B1}', [0xB3, 0x4B]), 
    ('\u{86B2}', [0x99, 0xCA]), ('\u{86B3}', [0xD7, 0xA8]), ('\u{86B4}', [0xD7, 0xAB]), 
    ('\u{86B5}', [0xB3, 0x48]), ('\u{86B6}', [0xB3, 0x46]), ('\u{86B7}', [0xD7, 0x7E]), 
    ('\u{86B8}', [0xD7, 0xA9]), ('\u{86B9}', [0xD7, 0xA7]), ('\u{86BA}', [0xD7, 0xA4]), 
    ('\u{86BB}', [0xD7, 0xAC]), ('\u{86BC}', [0xD7, 0xAD]), ('\u{86BD}', [0xD7, 0xAF]), 
    ('\u{86BE}', [0xD7, 0xB0]), ('\u{86BF}', [0xD7, 0x7D]), ('\u{86C0}', [0xB3, 0x45]), 
    ('\u{86C1}', [0xD7, 0xA2]), ('\u{86C2}', [0xD7, 0xA1]), ('\u{86C3}', [0xD7, 0xAE]), 
    ('\u{86C4}', [0xB3, 0x47]), ('\u{86C5}', [0xD7, 0xA3]), ('\u{86C6}', [0xB3, 0x49]), 
    ('\u{86C7}', [0xB3, 0x44]), ('\u{86C8}', [0xD7, 0xA6]), ('\u{86C9}', [0xB3, 0x4D]), 
    ('\u{86CB}', [0xB3, 0x4A]), ('\u{86CC}', [0xD7, 0xAA]), ('\u{86D0}', [0xB5, 0xF1]), 
    ('\u{86D1}', [0xDB, 0xBF]), ('\u{86D3}', [0xDB, 0xB4]), ('\u{86D4}', [0xB5, 0xEE]), 
    ('\u{86D6}', [0xDF, 0xE7]), ('\u{86D7}', [0xDB, 0xBD]), ('\u{86D8}', [0xDB, 0xB1]), 
    ('\u{86D9}', [0xB5, 0xEC]), ('\u{86DA}', [0xDB, 0xB6]), ('\u{86DB}', [0xB5, 0xEF]), 
    ('\u{86DC}', [0xDB, 0xBA]), ('\u{86DD}', [0xDB, 0xB8]), ('\u{86DE}', [0xB5, 0xF2]), 
    ('\u{86DF}', [0xB5, 0xEB]), ('\u{86E2}', [0xDB, 0xB2]), ('\u{86E3}', [0xDB, 0xB5]), 
    ('\u{86E4}', [0xB5, 0xF0]), ('\u{86E6}', [0xDB, 0xB3]), ('\u{86E8}', [0xDB, 0xBE]), 
"#

/-- src/generated/whatwg/big5_whatwg_tables.rs.inc:6577-6704 -/
noncomputable def encode32 : List Text := lines! r#"    ('\u{86E9}', [0xDB, 0xBC]), ('\u{86EA}', [0xDB, 0xB7]), ('\u{86EB}', [0xDB, 0xB9]), 
    ('\u{86EC}', [0xDB, 0xBB]), ('\u{86ED}', [0xB5, 0xED]), ('\u{86EF}', [0x99, 0xCB]), 
    ('\u{86F5}', [0xDF, 0xE8]), ('\u{86F6}', [0xDF, 0xEE]), ('\u{86F7}', [0xDF, 0xE4]), 
    ('\u{86F8}', [0xDF, 0xEA]), ('\u{86F9}', [0xB8, 0xBA]), ('\u{86FA}', [0xDF, 0xE6]), 
    ('\u{86FB}', [0xB8, 0xC0]), ('\u{86FE}', [0xB8, 0xBF]), ('\u{8700}', [0xB8, 0xBE]), 
    ('\u{8701}', [0xDF, 0xED]), ('\u{8702}', [0xB8, 0xC1]), ('\u{8703}', [0xB8, 0xC2]), 
    ('\u{8704}', [0xDF, 0xE3]), ('\u{8705}', [0xDF, 0xF0]), ('\u{8706}', [0xB8, 0xC3]), 
    ('\u{8707}', [0xB8, 0xBD]), ('\u{8708}', [0xB8, 0xBC]), ('\u{8709}', [0xDF, 0xEC]), 
    ('\u{870A}', [0xB8, 0xC4]), ('\u{870B}', [0xDF, 0xE2]), ('\u{870C}', [0xDF, 0xE5]), 
    ('\u{870D}', [0xDF, 0xEF]), ('\u{870E}', [0xDF, 0xEB]), ('\u{8711}', [0xE3, 0xF4]), 
    ('\u{8712}', [0xE3, 0xE9]), ('\u{8713}', [0xB8, 0xBB]), ('\u{8718}', [0xBB, 0x6A]), 
    ('\u{8719}', [0xE3, 0xDD]), ('\u{871A}', [0xE3, 0xF2]), ('\u{871B}', [0xE3, 0xDE]), 
    ('\u{871C}', [0xBB, 0x65]), ('\u{871E}', [0xE3, 0xDB]), ('\u{8720}', [0xE3, 0xE4]), 
    ('\u{8721}', [0xE3, 0xDC]), ('\u{8722}', [0xBB, 0x67]), ('\u{8723}', [0xE3, 0xD6]), 
    ('\u{8724}', [0xE3, 0xF1]), ('\u{8725}', [0xBB, 0x68]), ('\u{8726}', [0xE3, 0xEE]), 
    ('\u{8727}', [0xE3, 0xEF]), ('\u{8728}', [0xE3, 0xD7]), ('\u{8729}', [0xBB, 0x6D]), 
    ('\u{872A}', [0xE3, 0xE6]), ('\u{872C}', [0xE3, 0xE0]), ('\u{872D}', [0xE3, 0xE7]), 
    ('\u{872E}', [0xE3, 0xDA]), ('\u{8730}', [0xE3, 0xF3]), ('\u{8731}', [0xE3, 0xEB]), 
    ('\u{8732}', [0xE3, 0xE5]), ('\u{8733}', [0xE3, 0xD5]), ('\u{8734}', [0xBB, 0x69]), 
    ('\u{8735}', [0xE3, 0xEC]), ('\u{8737}', [0xBB, 0x6C]), ('\u{8738}', [0xE3, 0xF0]), 
    ('\u{873A}', [0xE3, 0xEA]), ('\u{873B}', [0xBB, 0x66]), ('\u{873C}', [0xE3, 0xE8]), 
    ('\u{873E}', [0xE3, 0xE2]), ('\u{873F}', [0xBB, 0x64]), ('\u{8740}', [0xE3, 0xD9]), 
    ('\u{8741}', [0xE3, 0xE1]), ('\u{8742}', [0xE3, 0xED]), ('\u{8743}', [0xE3, 0xDF]), 
    ('\u{8746}', [0xE3, 0xE3]), ('\u{874C}', [0xBD, 0xC1]), ('\u{874D}', [0xDF, 0xE9]), 
    ('\u{874E}', [0xE7, 0xB2]), ('\u{874F}', [0xE7, 0xBB]), ('\u{8750}', [0xE7, 0xB1]), 
    ('\u{8751}', [0xE7, 0xAD]), ('\u{8752}', [0xE7, 0xAA]), ('\u{8753}', [0xBD, 0xC2]), 
    ('\u{8754}', [0xE7, 0xA8]), ('\u{8755}', [0xBB, 0x6B]), ('\u{8756}', [0xE7, 0xA1]), 
    ('\u{8757}', [0xBD, 0xC0]), ('\u{8758}', [0xE7, 0xA7]), ('\u{8759}', [0xBD, 0xBF]), 
    ('\u{875A}', [0xE7, 0xAC]), ('\u{875B}', [0xE7, 0xA9]), ('\u{875C}', [0xE7, 0xB9]), 
    ('\u{875D}', [0xE7, 0xB4]), ('\u{875E}', [0xE7, 0xAE]), ('\u{875F}', [0xE7, 0xB3]), 
    ('\u{8760}', [0xBD, 0xBB]), ('\u{8761}', [0xE7, 0xAB]), ('\u{8762}', [0xE7, 0xBE]), 
    ('\u{8763}', [0xE7, 0xA2]), ('\u{8764}', [0xE7, 0xA3]), ('\u{8765}', [0xE7, 0xBA]), 
    ('\u{8766}', [0xBD, 0xBC]), ('\u{8767}', [0xE7, 0xBF]), ('\u{8768}', [0xBD, 0xBE]), 
    ('\u{8769}', [0xE7, 0xC0]), ('\u{876A}', [0xE7, 0xB0]), ('\u{876B}', [0xE3, 0xD8]), 
    ('\u{876C}', [0xE7, 0xB6]), ('\u{876D}', [0xE7, 0xAF]), ('\u{876E}', [0xE7, 0xB8]), 
    ('\u{876F}', [0xE7, 0xB5]), ('\u{8770}', [0x9D, 0xD5]), ('\u{8771}', [0x8F, 0xB0]), 
    ('\u{8773}', [0xE7, 0xA6]), ('\u{8774}', [0xBD, 0xB9]), ('\u{8775}', [0xE7, 0xBD]), 
    ('\u{8776}', [0xBD, 0xBA]), ('\u{8777}', [0xE7, 0xA4]), ('\u{8778}', [0xBD, 0xBD]), 
    ('\u{8779}', [0xEB, 0x64]), ('\u{877A}', [0xE7, 0xB7]), ('\u{877B}', [0xE7, 0xBC]), 
    ('\u{877D}', [0xFA, 0x7A]), ('\u{8781}', [0xEB, 0x61]), ('\u{8782}', [0xBD, 0xB8]), 
    ('\u{8783}', [0xBF, 0xC0]), ('\u{8784}', [0xEB, 0x6B]), ('\u{8785}', [0xEB, 0x67]), 
    ('\u{8786}', [0x9E, 0x5F]), ('\u{8787}', [0xEB, 0x65]), ('\u{8788}', [0xEB, 0x60]), 
    ('\u{8789}', [0xEB, 0x6F]), ('\u{878B}', [0x99, 0xCD]), ('\u{878C}', [0xA0, 0xC9]), 
    ('\u{878D}', [0xBF, 0xC4]), ('\u{878F}', [0xEB, 0x5C]), ('\u{8790}', [0xEB, 0x68]), 
    ('\u{8791}', [0xEB, 0x69]), ('\u{8792}', [0xEB, 0x5F]), ('\u{8793}', [0xEB, 0x5E]), 
    ('\u{8794}', [0xEB, 0x6C]), ('\u{8796}', [0xEB, 0x62]), ('\u{8797}', [0xEB, 0x5D]), 
    ('\u{8798}', [0xEB, 0x63]), ('\u{879A}', [0xEB, 0x6E]), ('\u{879B}', [0xEB, 0x5B]), 
    ('\u{879C}', [0xEB, 0x6D]), ('\u{879D}', [0xEB, 0x6A]), ('\u{879E}', [0xBF, 0xC2]), 
    ('\u{879F}', [0xBF, 0xC1]), ('\u{87A2}', [0xBF, 0xC3]), ('\u{87A3}', [0xEB, 0x66]), 
    ('\u{87A4}', [0xF0, 0xCB]), ('\u{87A5}', [0x9A, 0xDB]), ('\u{87A9}', [0xA0, 0xC6]), 
    ('\u{87AA}', [0xEE, 0x59]), ('\u{87AB}', [0xC1, 0xB1]), ('\u{87AC}', [0xEE, 0x5D]), 
    ('\u{87AD}', [0xEE, 0x5A]), ('\u{87AE}', [0xEE, 0x61]), ('\u{87AF}', [0xEE, 0x67]), 
    ('\u{87B0}', [0xEE, 0x5C]), ('\u{87B1}', [0x8F, 0xB4]), ('\u{87B2}', [0xEE, 0x70]), 
    ('\u{87B3}', [0xC1, 0xAE]), ('\u{87B4}', [0xEE, 0x6A]), ('\u{87B5}', [0xEE, 0x5F]), 
    ('\u{87B6}', [0xEE, 0x6B]), ('\u{87B7}', [0xEE, 0x66]), ('\u{87B8}', [0xEE, 0x6D]), 
    ('\u{87B9}', [0xEE, 0x5E]), ('\u{87BA}', [0xC1, 0xB3]), ('\u{87BB}', [0xC1, 0xB2]), 
    ('\u{87BC}', [0xEE, 0x60]), ('\u{87BD}', [0xEE, 0x6E]), ('\u{87BE}', [0xEE, 0x58]), 
    ('\u{87BF}', [0xEE, 0x6C]), ('\u{87C0}', [0xC1, 0xAC]), ('\u{87C1}', [0xA0, 0xD7]), 
    ('\u{87C2}', [0xEE, 0x64]), ('\u{87C3}', [0xEE, 0x63]), ('\u{87C4}', [0xEE, 0x68]), 
    ('\u{87C5}', [0xEE, 0x5B]), ('\u{87C6}', [0xC1, 0xB0]), ('\u{87C8}', [0xC1, 0xB4]), 
    ('\u{87C9}', [0xEE, 0x62]), ('\u{87CA}', [0xEE, 0x69]), ('\u{87CB}', [0xC1, 0xB5]), 
    ('\u{87CC}', [0xEE, 0x65]), ('\u{87CE}', [0xA0, 0xC7]), ('\u{87D1}', [0xC1, 0xAD]), 
    ('\u{87D2}', [0xC1, 0xAF]), ('\u{87D3}', [0xF0, 0xC7]), ('\u{87D4}', [0xF0, 0xC5]), 
    ('\u{87D6}', [0xA0, 0x43]), ('\u{87D7}', [0xF0, 0xCC]), ('\u{87D8}', [0xF0, 0xC9]), 
    ('\u{87D9}', [0xF0, 0xCD]), ('\u{87DA}', [0x8F, 0xB5]), ('\u{87DB}', [0xF0, 0xBE]), 
    ('\u{87DC}', [0xF0, 0xC6]), ('\u{87DD}', [0xF0, 0xD1]), ('\u{87DE}', [0xEE, 0x6F]), 
    ('\u{87DF}', [0xF0, 0xC2]), ('\u{87E0}', [0xC2, 0xCF]), ('\u{87E1}', [0xE7, 0xA5]), 
    ('\u{87E2}', [0xF0, 0xBD]), ('\u{87E3}', [0xF0, 0xCA]), ('\u{87E4}', [0xF0, 0xC4]), 
    ('\u{87E5}', [0xF0, 0xC1]), ('\u{87E6}', [0xF0, 0xBC]), ('\u{87E7}', [0xF0, 0xBB]), 
    ('\u{87E8}', [0xF0, 0xD0]), ('\u{87EA}', [0xF0, 0xC0]), ('\u{87EB}', [0xF0, 0xBF]), 
    ('\u{87EC}', [0xC2, 0xCD]), ('\u{87ED}', [0xF0, 0xC8]), ('\u{87EE}', [0x8F, 0xB2]), 
    ('\u{87EF}', [0xC2, 0xCC]), ('\u{87F2}', [0xC2, 0xCE]), ('\u{87F3}', [0xF0, 0xC3]), 
    ('\u{87F4}', [0xF0, 0xCF]), ('\u{87F5}', [0xA0, 0x61]), ('\u{87F6}', [0xF2, 0xDE]), 
    ('\u{87F7}', [0xF2, 0xDF]), ('\u{87F9}', [0xC3, 0xC9]), ('\u{87FA}', [0xF2, 0xDC]), 
    ('\u{87FB}', [0xC3, 0xC6]), ('\u{87FC}', [0xF2, 0xE4]), ('\u{87FE}', [0xC3, 0xCA]), 
    ('\u{87FF}', [0xF2, 0xE6]), ('\u{8800}', [0xF2, 0xDB]), ('\u{8801}', [0xF0, 0xCE]), 
    ('\u{8802}', [0xF2, 0xE8]), ('\u{8803}', [0xF2, 0xDD]), ('\u{8804}', [0x9E, 0x5E]), 
    ('\u{8805}', [0xC3, 0xC7]), ('\u{8806}', [0xF2, 0xE3]), ('\u{8808}', [0xF2, 0xE5]), 
    ('\u{8809}', [0xF2, 0xE0]), ('\u{880A}', [0xF2, 0xE7]), ('\u{880B}', [0xF2, 0xE2]), 
    ('\u{880C}', [0xF2, 0xE1]), ('\u{880D}', [0xC3, 0xC8]), ('\u{880F}', [0x8F, 0xB6]), 
    ('\u{8810}', [0xF4, 0xC5]), ('\u{8811}', [0xF4, 0xC6]), ('\u{8813}', [0xF4, 0xC8]), 
    ('\u{8814}', [0xC4, 0xAE]), ('\u{8815}', [0xC4, 0xAF]), ('\u{8816}', [0xF4, 0xC9]), 
    ('\u{8817}', [0xF4, 0xC7]), ('\u{8818}', [0x9F, 0xE8]), ('\u{8819}', [0xF4, 0xC4]), 
    ('\u{881B}', [0xF6, 0x42]), ('\u{881C}', [0xF6, 0x45]), ('\u{881D}', [0xF6, 0x41]), 
    ('\u{881F}', [0xC4, 0xFA]), ('\u{8820}', [0xF6, 0x43]), ('\u{8821}', [0xC4, 0xF9]), 
    ('\u{8822}', [0xC4, 0xF8]), ('\u{8823}', [0xC4, 0xF7]), ('\u{8824}', [0xF6, 0x44]), 
    ('\u{8825}', [0xF7, 0x51]), ('\u{8826}', [0xF7, 0x4F]), ('\u{8827}', [0x9C, 0xB2]), 
    ('\u{8828}', [0xF7, 0x4E]), ('\u{8829}', [0xF6, 0x40]), ('\u{882A}', [0xF7, 0x50]), 
    ('\u{882B}', [0xF6, 0x46]), ('\u{882C}', [0xF7, 0x4D]), ('\u{882D}', [0x95, 0x7C]), 
    ('\u{882E}', [0xF7, 0xF9]), ('\u{882F}', [0xF7, 0xD7]), ('\u{8830}', [0xF7, 0xF7]), 
    ('\u{8831}', [0xC5, 0xDB]), ('\u{8832}', [0xF7, 0xF8]), ('\u{8833}', [0xF7, 0xFA]), 
    ('\u{8835}', [0xF8, 0xBF]), ('\u{8836}', [0xC5, 0xFA]), ('\u{8837}', [0xF8, 0xBE]), 
    ('\u{8838}', [0xF8, 0xBD]), ('\u{8839}', [0xC5, 0xFB]), ('\u{883B}', [0xC6, 0x5A]), 
    ('\u{883C}', [0xF9, 0x6E]), ('\u{883D}', [0xF9, 0xA7]), ('\u{883E}', [0xF9, 0xA6]), 
    ('\u{883F}', [0xF9, 0xA8]), ('\u{8840}', [0xA6, 0xE5]), ('\u{8841}', [0xD0, 0xAA]), 
    ('\u{8842}', [0x9F, 0xC7]), ('\u{8843}', [0xD3, 0xCF]), ('\u{8844}', [0xD3, 0xD0]), 
    ('\u{8845}', [0x8F, 0xBB]), ('\u{8846}', [0x8F, 0xBC]), ('\u{8848}', [0xDB, 0xC0]), 
    ('\u{884A}', [0xF6, 0x47]), ('\u{884B}', [0xF8, 0xC0]), ('\u{884C}', [0xA6, 0xE6]), 
    ('\u{884D}', [0xAD, 0x6C]), ('\u{884E}', [0xD0, 0xAB]), ('\u{884F}', [0x8F, 0xEC]), 
    ('\u{8852}', [0xD7, 0xB1]), ('\u{8853}', [0xB3, 0x4E]), ('\u{8855}', [0xDB, 0xC2]), 
    ('\u{8856}', [0xDB, 0xC1]), ('\u{8857}', [0xB5, 0xF3]), ('\u{8859}', [0xB8, 0xC5]), 
    ('\u{885A}', [0xE7, 0xC1]), ('\u{885B}', [0xBD, 0xC3]), ('\u{885D}', [0xBD, 0xC4]), 
    ('\u{885E}', [0x8F, 0xC0]), ('\u{8860}', [0x93, 0x6A]), ('\u{8861}', [0xBF, 0xC5]), 
    ('\u{8862}', [0xC5, 0xFC]), ('\u{8863}', [0xA6, 0xE7]), ('\u{8864}', [0x8B, 0xE4]), 
    ('\u{8865}', [0x9C, 0x7C]), ('\u{8867}', [0xD0, 0xAC]), ('\u{8868}', [0xAA, 0xED]), 
    ('\u{8869}', [0xD0, 0xAE]), ('\u{886A}', [0xD0, 0xAD]), ('\u{886B}', [0xAD, 0x6D]), 
    ('\u{886D}', [0xD3, 0xD1]), ('\u{886E}', [0x95, 0xA1]), ('\u{886F}', [0xD3, 0xD8]), 
    ('\u{8870}', [0xB0, 0x49]), ('\u{8871}', [0xD3, 0xD6]), ('\u{8872}', [0xD3, 0xD4]), 
    ('\u{8874}', [0xD3, 0xDB]), ('\u{8875}', [0xD3, 0xD2]), ('\u{8876}', [0xD3, 0xD3]), 
    ('\u{8877}', [0xB0, 0x4A]), ('\u{8879}', [0xB0, 0x4E]), ('\u{887C}', [0xD3, 0xDC]), 
    ('\u{887D}', [0xB0, 0x4D]), ('\u{887E}', [0xD3, 0xDA]), ('\u{887F}', [0xD3, 0xD7]), 
    ('\u{8880}', [0xD3, 0xD5]), ('\u{8881}', [0xB0, 0x4B]), ('\u{8882}', [0xB0, 0x4C]), 
    ('\u{8883}', [0xD3, 0xD9]), ('\u{8884}', [0xFE, 0xEC]), ('\u{8887}', [0x95, 0xA3]), 
    ('\u{8888}', [0xB3, 0x50]), ('\u{8889}', [0xD7, 0xB2]), ('\u{888B}', [0xB3, 0x55]), 
    ('\u{888C}', [0xD7, 0xC2]), ('\u{888D}', [0xB3, 0x54]), ('\u{888E}', [0xD7, 0xC4]), 
    ('\u{888F}', [0x8C, 0x45]), ('\u{8890}', [0x8C, 0xB8]), ('\u{8891}', [0xD7, 0xB8]), 
    ('\u{8892}', [0xB3, 0x52]), ('\u{8893}', [0xD7, 0xC3]), ('\u{8895}', [0xD7, 0xB3]), 
    ('\u{8896}', [0xB3, 0x53]), ('\u{8897}', [0xD7, 0xBF]), ('\u{8898}', [0xD7, 0xBB]), 
    ('\u{8899}', [0xD7, 0xBD]), ('\u{889A}', [0xD7, 0xB7]), ('\u{889B}', [0xD7, 0xBE]), 
    ('\u{889C}', [0x8F, 0xC1]), ('\u{889D}', [0x87, 0xB7]), ('\u{889E}', [0xB3, 0x4F]), 
    ('\u{889F}', [0xD7, 0xBA]), ('\u{88A0}', [0xA0, 0x52]), ('\u{88A1}', [0xD7, 0xB9]), 
    ('\u{88A2}', [0xD7, 0xB5]), ('\u{88A4}', [0xD7, 0xC0]), ('\u{88A7}', [0xD7, 0xBC]), 
    ('\u{88A8}', [0xD7, 0xB4]), ('\u{88AA}', [0xD7, 0xB6]), ('\u{88AB}', [0xB3, 0x51]), 
    ('\u{88AC}', [0xD7, 0xC1]), ('\u{88AE}', [0x99, 0xD0]), ('\u{88B1}', [0xB5, 0xF6]), 
    ('\u{88B2}', [0xDB, 0xCD]), ('\u{88B4}', [0x8F, 0xC3]), ('\u{88B5}', [0x8F, 0xC4]), 
    ('\u{88B6}', [0xDB, 0xC9]), ('\u{88B7}', [0xDB, 0xCB]), ('\u{88B8}', [0xDB, 0xC6]), 
    ('\u{88B9}', [0xDB, 0xC5]), ('\u{88BA}', [0xDB, 0xC3]), ('\u{88BC}', [0xDB, 0xCA]), 
    ('\u{88BD}', [0xDB, 0xCC]), ('\u{88BE}', [0xDB, 0xC8]), ('\u{88BF}', [0x95, 0xA4]), 
"#

/-- src/generated/whatwg/big5_whatwg_tables.rs.inc:6705-6832 -/
noncomputable def encode33 : List Text := lines! r#"    ('\u{88C0}', [0xDB, 0xC7]), ('\u{88C1}', [0xB5, 0xF4]), ('\u{88C2}', [0xB5, 0xF5]), 
    ('\u{88C5}', [0x8F, 0xC6]), ('\u{88C7}', [0x9E, 0x60]), ('\u{88C9}', [0xDB, 0xCF]), 
    ('\u{88CA}', [0xB8, 0xCD]), ('\u{88CB}', [0xDF, 0xF2]), ('\u{88CC}', [0xDF, 0xF8]), 
    ('\u{88CD}', [0xDF, 0xF3]), ('\u{88CE}', [0xDF, 0xF4]), ('\u{88CF}', [0xF9, 0xD8]), 
    ('\u{88D0}', [0xDF, 0xF9]), ('\u{88D2}', [0xB8, 0xCF]), ('\u{88D4}', [0xB8, 0xC7]), 
    ('\u{88D5}', [0xB8, 0xCE]), ('\u{88D6}', [0xDF, 0xF1]), ('\u{88D7}', [0xDB, 0xC4]), 
    ('\u{88D8}', [0xB8, 0xCA]), ('\u{88D9}', [0xB8, 0xC8]), ('\u{88DA}', [0xDF, 0xF7]), 
    ('\u{88DB}', [0xDF, 0xF6]), ('\u{88DC}', [0xB8, 0xC9]), ('\u{88DD}', [0xB8, 0xCB]), 
    ('\u{88DE}', [0xDF, 0xF5]), ('\u{88DF}', [0xB8, 0xC6]), ('\u{88E1}', [0xB8, 0xCC]), 
    ('\u{88E6}', [0x95, 0xA5]), ('\u{88E7}', [0xE3, 0xF6]), ('\u{88E8}', [0xBB, 0x74]), 
    ('\u{88EB}', [0xE4, 0x42]), ('\u{88EC}', [0xE4, 0x41]), ('\u{88EE}', [0xE3, 0xFB]), 
    ('\u{88EF}', [0xBB, 0x76]), ('\u{88F0}', [0xE4, 0x40]), ('\u{88F1}', [0xE3, 0xF7]), 
    ('\u{88F2}', [0xE3, 0xF8]), ('\u{88F3}', [0xBB, 0x6E]), ('\u{88F4}', [0xBB, 0x70]), 
    ('\u{88F5}', [0x9C, 0xB3]), ('\u{88F6}', [0xE3, 0xFD]), ('\u{88F7}', [0xE3, 0xF5]), 
    ('\u{88F8}', [0xBB, 0x72]), ('\u{88F9}', [0xBB, 0x71]), ('\u{88FA}', [0xE3, 0xF9]), 
    ('\u{88FB}', [0xE3, 0xFE]), ('\u{88FC}', [0xE3, 0xFC]), ('\u{88FD}', [0xBB, 0x73]), 
    ('\u{88FE}', [0xE3, 0xFA]), ('\u{88FF}', [0x99, 0xD1]), ('\u{8900}', [0xFE, 0xF1]), 
    ('\u{8901}', [0xDB, 0xCE]), ('\u{8902}', [0xBB, 0x6F]), ('\u{8905}', [0xE7, 0xC2]), 
    ('\u{8906}', [0xE7, 0xC9]), ('\u{8907}', [0xBD, 0xC6]), ('\u{8909}', [0xE7, 0xCD]), 
    ('\u{890A}', [0xBD, 0xCA]), ('\u{890B}', [0xE7, 0xC5]), ('\u{890C}', [0xE7, 0xC3]), 
    ('\u{890E}', [0xE7, 0xCC]), ('\u{8910}', [0xBD, 0xC5]), ('\u{8911}', [0xE7, 0xCB]), 
    ('\u{8912}', [0xBD, 0xC7]), ('\u{8913}', [0xBD, 0xC8]), ('\u{8914}', [0xE7, 0xC4]), 
    ('\u{8915}', [0xBD, 0xC9]), ('\u{8916}', [0xE7, 0xCA]), ('\u{8917}', [0xE7, 0xC6]), 
    ('\u{8918}', [0xE7, 0xC7]), ('\u{8919}', [0xE7, 0xC8]), ('\u{891A}', [0xBB, 0x75]), 
    ('\u{891E}', [0xEB, 0x70]), ('\u{891F}', [0xEB, 0x7C]), ('\u{8921}', [0xBF, 0xCA]), 
    ('\u{8922}', [0xEB, 0x77]), ('\u{8923}', [0xEB, 0x79]), ('\u{8924}', [0x99, 0xD2]), 
    ('\u{8925}', [0xBF, 0xC8]), ('\u{8926}', [0xEB, 0x71]), ('\u{8927}', [0xEB, 0x75]), 
    ('\u{8929}', [0xEB, 0x78]), ('\u{892A}', [0xBF, 0xC6]), ('\u{892B}', [0xBF, 0xC9]), 
    ('\u{892C}', [0xEB, 0x7B]), ('\u{892D}', [0xEB, 0x73]), ('\u{892E}', [0xEB, 0x74]), 
    ('\u{892F}', [0xEB, 0x7A]), ('\u{8930}', [0xEB, 0x72]), ('\u{8931}', [0xEB, 0x76]), 
    ('\u{8932}', [0xBF, 0xC7]), ('\u{8933}', [0xEE, 0x72]), ('\u{8935}', [0xEE, 0x71]), 
    ('\u{8936}', [0xC1, 0xB7]), ('\u{8937}', [0xEE, 0x77]), ('\u{8938}', [0xC1, 0xB9]), 
    ('\u{893B}', [0xC1, 0xB6]), ('\u{893C}', [0xEE, 0x73]), ('\u{893D}', [0xC1, 0xBA]), 
    ('\u{893E}', [0xEE, 0x74]), ('\u{8941}', [0xEE, 0x75]), ('\u{8942}', [0xEE, 0x78]), 
    ('\u{8943}', [0x9C, 0xC2]), ('\u{8944}', [0xC1, 0xB8]), ('\u{8946}', [0xF0, 0xD6]), 
    ('\u{8947}', [0x99, 0xD3]), ('\u{8949}', [0xF0, 0xD9]), ('\u{894B}', [0xF0, 0xD3]), 
    ('\u{894C}', [0xF0, 0xD5]), ('\u{894D}', [0x95, 0xA7]), ('\u{894F}', [0xF0, 0xD4]), 
    ('\u{8950}', [0xF0, 0xD7]), ('\u{8951}', [0xF0, 0xD8]), ('\u{8952}', [0xEE, 0x76]), 
    ('\u{8953}', [0xF0, 0xD2]), ('\u{8954}', [0x95, 0xA9]), ('\u{8956}', [0xC3, 0xCD]), 
    ('\u{8957}', [0xF2, 0xEC]), ('\u{8958}', [0xF2, 0xEF]), ('\u{8959}', [0xF2, 0xF1]), 
    ('\u{895A}', [0xF2, 0xEA]), ('\u{895B}', [0xF2, 0xEB]), ('\u{895C}', [0xF2, 0xEE]), 
    ('\u{895D}', [0xF2, 0xF0]), ('\u{895E}', [0xC3, 0xCE]), ('\u{895F}', [0xC3, 0xCC]), 
    ('\u{8960}', [0xC3, 0xCB]), ('\u{8961}', [0xF2, 0xED]), ('\u{8962}', [0xF2, 0xE9]), 
    ('\u{8963}', [0xF4, 0xCA]), ('\u{8964}', [0xC4, 0xB0]), ('\u{8965}', [0x95, 0xA6]), 
    ('\u{8966}', [0xF4, 0xCB]), ('\u{8969}', [0xF6, 0x49]), ('\u{896A}', [0xC4, 0xFB]), 
    ('\u{896B}', [0xF6, 0x4B]), ('\u{896C}', [0xC4, 0xFC]), ('\u{896D}', [0xF6, 0x48]), 
    ('\u{896E}', [0xF6, 0x4A]), ('\u{896F}', [0xC5, 0xA8]), ('\u{8971}', [0xF7, 0x52]), 
    ('\u{8972}', [0xC5, 0xA7]), ('\u{8973}', [0xF7, 0xFD]), ('\u{8974}', [0xF7, 0xFC]), 
    ('\u{8976}', [0xF7, 0xFB]), ('\u{8977}', [0x9C, 0x5D]), ('\u{8979}', [0xF9, 0x48]), 
    ('\u{897A}', [0xF9, 0x49]), ('\u{897B}', [0xF9, 0x4B]), ('\u{897C}', [0xF9, 0x4A]), 
    ('\u{897E}', [0xCA, 0x50]), ('\u{897F}', [0xA6, 0xE8]), ('\u{8980}', [0x98, 0xE2]), 
    ('\u{8981}', [0xAD, 0x6E]), ('\u{8982}', [0xD7, 0xC5]), ('\u{8983}', [0xB5, 0xF7]), 
    ('\u{8985}', [0xDF, 0xFA]), ('\u{8986}', [0xC2, 0xD0]), ('\u{8987}', [0x8F, 0xC9]), 
    ('\u{8988}', [0xF2, 0xF2]), ('\u{8989}', [0xA0, 0xC2]), ('\u{898A}', [0x8F, 0xCA]), 
    ('\u{898B}', [0xA8, 0xA3]), ('\u{898F}', [0xB3, 0x57]), ('\u{8991}', [0x99, 0xD4]), 
    ('\u{8993}', [0xB3, 0x56]), ('\u{8994}', [0xA0, 0xB9]), ('\u{8995}', [0xDB, 0xD0]), 
    ('\u{8996}', [0xB5, 0xF8]), ('\u{8997}', [0xDB, 0xD2]), ('\u{8998}', [0xDB, 0xD1]), 
    ('\u{899B}', [0xDF, 0xFB]), ('\u{899C}', [0xB8, 0xD0]), ('\u{899D}', [0xE4, 0x43]), 
    ('\u{899E}', [0xE4, 0x46]), ('\u{899F}', [0xE4, 0x45]), ('\u{89A1}', [0xE4, 0x44]), 
    ('\u{89A2}', [0xE7, 0xCE]), ('\u{89A3}', [0xE7, 0xD0]), ('\u{89A4}', [0xE7, 0xCF]), 
    ('\u{89A5}', [0x9B, 0x58]), ('\u{89A6}', [0x8F, 0xCB]), ('\u{89A7}', [0x8F, 0xCD]), 
    ('\u{89A9}', [0x8F, 0xCC]), ('\u{89AA}', [0xBF, 0xCB]), ('\u{89AC}', [0xC1, 0xBB]), 
    ('\u{89AD}', [0xEE, 0x79]), ('\u{89AE}', [0xEE, 0x7B]), ('\u{89AF}', [0xEE, 0x7A]), 
    ('\u{89B2}', [0xC2, 0xD1]), ('\u{89B6}', [0xF2, 0xF4]), ('\u{89B7}', [0xF2, 0xF3]), 
    ('\u{89B9}', [0xF4, 0xCC]), ('\u{89BA}', [0xC4, 0xB1]), ('\u{89BC}', [0x8F, 0xCE]), 
    ('\u{89BD}', [0xC4, 0xFD]), ('\u{89BE}', [0xF7, 0x54]), ('\u{89BF}', [0xF7, 0x53]), 
    ('\u{89C0}', [0xC6, 0x5B]), ('\u{89C1}', [0x8B, 0xE5]), ('\u{89C6}', [0x89, 0x79]), 
    ('\u{89D2}', [0xA8, 0xA4]), ('\u{89D3}', [0xD0, 0xAF]), ('\u{89D4}', [0xAD, 0x6F]), 
    ('\u{89D5}', [0xD7, 0xC8]), ('\u{89D6}', [0xD7, 0xC6]), ('\u{89D9}', [0xD7, 0xC7]), 
    ('\u{89DA}', [0xDB, 0xD4]), ('\u{89DB}', [0xDB, 0xD5]), ('\u{89DC}', [0xE0, 0x43]), 
    ('\u{89DD}', [0xDB, 0xD3]), ('\u{89DF}', [0xDF, 0xFC]), ('\u{89E0}', [0xE0, 0x41]), 
    ('\u{89E1}', [0xE0, 0x40]), ('\u{89E2}', [0xE0, 0x42]), ('\u{89E3}', [0xB8, 0xD1]), 
    ('\u{89E4}', [0xDF, 0xFE]), ('\u{89E5}', [0xDF, 0xFD]), ('\u{89E6}', [0xE0, 0x44]), 
    ('\u{89E7}', [0x8F, 0xD0]), ('\u{89E8}', [0xE4, 0x49]), ('\u{89E9}', [0xE4, 0x47]), 
    ('\u{89EB}', [0xE4, 0x48]), ('\u{89EC}', [0xE7, 0xD3]), ('\u{89ED}', [0xE7, 0xD1]), 
    ('\u{89F0}', [0xE7, 0xD2]), ('\u{89F1}', [0xEB, 0x7D]), ('\u{89F2}', [0xEE, 0x7C]), 
    ('\u{89F3}', [0xEE, 0x7D]), ('\u{89F4}', [0xC2, 0xD2]), ('\u{89F6}', [0xF2, 0xF5]), 
    ('\u{89F7}', [0xF4, 0xCD]), ('\u{89F8}', [0xC4, 0xB2]), ('\u{89FA}', [0xF6, 0x4C]), 
    ('\u{89FB}', [0xF7, 0x55]), ('\u{89FC}', [0xC5, 0xA9]), ('\u{89FE}', [0xF7, 0xFE]), 
    ('\u{89FF}', [0xF9, 0x4C]), ('\u{8A00}', [0xA8, 0xA5]), ('\u{8A02}', [0xAD, 0x71]), 
    ('\u{8A03}', [0xAD, 0x72]), ('\u{8A04}', [0xD0, 0xB0]), ('\u{8A07}', [0xD0, 0xB1]), 
    ('\u{8A08}', [0xAD, 0x70]), ('\u{8A0A}', [0xB0, 0x54]), ('\u{8A0C}', [0xB0, 0x52]), 
    ('\u{8A0E}', [0xB0, 0x51]), ('\u{8A0F}', [0xB0, 0x58]), ('\u{8A10}', [0xB0, 0x50]), 
    ('\u{8A11}', [0xB0, 0x59]), ('\u{8A12}', [0xD3, 0xDD]), ('\u{8A13}', [0xB0, 0x56]), 
    ('\u{8A15}', [0xB0, 0x53]), ('\u{8A16}', [0xB0, 0x57]), ('\u{8A17}', [0xB0, 0x55]), 
    ('\u{8A18}', [0xB0, 0x4F]), ('\u{8A1B}', [0xB3, 0x5F]), ('\u{8A1C}', [0x95, 0xB6]), 
    ('\u{8A1D}', [0xB3, 0x59]), ('\u{8A1E}', [0xD7, 0xCC]), ('\u{8A1F}', [0xB3, 0x5E]), 
    ('\u{8A22}', [0xB3, 0x60]), ('\u{8A23}', [0xB3, 0x5A]), ('\u{8A25}', [0xB3, 0x5B]), 
    ('\u{8A27}', [0xD7, 0xCA]), ('\u{8A29}', [0x99, 0xD6]), ('\u{8A2A}', [0xB3, 0x58]), 
    ('\u{8A2B}', [0x95, 0xE5]), ('\u{8A2C}', [0xD7, 0xCB]), ('\u{8A2D}', [0xB3, 0x5D]), 
    ('\u{8A30}', [0xD7, 0xC9]), ('\u{8A31}', [0xB3, 0x5C]), ('\u{8A34}', [0xB6, 0x44]), 
    ('\u{8A36}', [0xB6, 0x46]), ('\u{8A38}', [0x99, 0xD7]), ('\u{8A39}', [0xDB, 0xD8]), 
    ('\u{8A3A}', [0xB6, 0x45]), ('\u{8A3B}', [0xB5, 0xF9]), ('\u{8A3C}', [0xB5, 0xFD]), 
    ('\u{8A3D}', [0x95, 0xB5]), ('\u{8A3E}', [0xB8, 0xE4]), ('\u{8A3F}', [0xE0, 0x49]), 
    ('\u{8A40}', [0xDB, 0xDA]), ('\u{8A41}', [0xB5, 0xFE]), ('\u{8A44}', [0xDB, 0xDD]), 
    ('\u{8A45}', [0xDB, 0xDE]), ('\u{8A46}', [0xB6, 0x43]), ('\u{8A48}', [0xDB, 0xE0]), 
    ('\u{8A49}', [0xA0, 0xCA]), ('\u{8A4A}', [0xDB, 0xE2]), ('\u{8A4C}', [0xDB, 0xE3]), 
    ('\u{8A4D}', [0xDB, 0xD7]), ('\u{8A4E}', [0xDB, 0xD6]), ('\u{8A4F}', [0xDB, 0xE4]), 
    ('\u{8A50}', [0xB6, 0x42]), ('\u{8A51}', [0xDB, 0xE1]), ('\u{8A52}', [0xDB, 0xDF]), 
    ('\u{8A54}', [0xB6, 0x40]), ('\u{8A55}', [0xB5, 0xFB]), ('\u{8A56}', [0xB6, 0x47]), 
    ('\u{8A57}', [0xDB, 0xDB]), ('\u{8A58}', [0xDB, 0xDC]), ('\u{8A59}', [0xDB, 0xD9]), 
    ('\u{8A5B}', [0xB6, 0x41]), ('\u{8A5E}', [0xB5, 0xFC]), ('\u{8A60}', [0xB5, 0xFA]), 
    ('\u{8A61}', [0xE0, 0x48]), ('\u{8A62}', [0xB8, 0xDF]), ('\u{8A63}', [0xB8, 0xDA]), 
    ('\u{8A66}', [0xB8, 0xD5]), ('\u{8A67}', [0x9F, 0xFD]), ('\u{8A68}', [0xB8, 0xE5]), 
    ('\u{8A69}', [0xB8, 0xD6]), ('\u{8A6B}', [0xB8, 0xD2]), ('\u{8A6C}', [0xB8, 0xE1]), 
    ('\u{8A6D}', [0xB8, 0xDE]), ('\u{8A6E}', [0xB8, 0xE0]), ('\u{8A70}', [0xB8, 0xD7]), 
    ('\u{8A71}', [0xB8, 0xDC]), ('\u{8A72}', [0xB8, 0xD3]), ('\u{8A73}', [0xB8, 0xD4]), 
    ('\u{8A74}', [0xE0, 0x50]), ('\u{8A75}', [0xE0, 0x4D]), ('\u{8A76}', [0xE0, 0x45]), 
    ('\u{8A77}', [0xE0, 0x4A]), ('\u{8A79}', [0xB8, 0xE2]), ('\u{8A7A}', [0xE0, 0x51]), 
    ('\u{8A7B}', [0xB8, 0xE3]), ('\u{8A7C}', [0xB8, 0xD9]), ('\u{8A7E}', [0xA0, 0x58]), 
    ('\u{8A7F}', [0xE0, 0x47]), ('\u{8A81}', [0xE0, 0x4F]), ('\u{8A82}', [0xE0, 0x4B]), 
    ('\u{8A83}', [0xE0, 0x4E]), ('\u{8A84}', [0xE0, 0x4C]), ('\u{8A85}', [0xB8, 0xDD]), 
    ('\u{8A86}', [0xE0, 0x46]), ('\u{8A87}', [0xB8, 0xD8]), ('\u{8A8B}', [0xE4, 0x4C]), 
    ('\u{8A8C}', [0xBB, 0x78]), ('\u{8A8D}', [0xBB, 0x7B]), ('\u{8A8F}', [0xE4, 0x4E]), 
    ('\u{8A90}', [0x8F, 0xD6]), ('\u{8A91}', [0xBB, 0xA5]), ('\u{8A92}', [0xE4, 0x4D]), 
    ('\u{8A93}', [0xBB, 0x7D]), ('\u{8A94}', [0x99, 0xD8]), ('\u{8A95}', [0xBD, 0xCF]), 
    ('\u{8A96}', [0xE4, 0x4F]), ('\u{8A98}', [0xBB, 0xA4]), ('\u{8A99}', [0xE4, 0x4B]), 
    ('\u{8A9A}', [0xBB, 0xA6]), ('\u{8A9C}', [0x8F, 0xD3]), ('\u{8A9E}', [0xBB, 0x79]), 
    ('\u{8AA0}', [0xB8, 0xDB]), ('\u{8AA1}', [0xBB, 0x7C]), ('\u{8AA3}', [0xBB, 0x7A]), 
    ('\u{8AA4}', [0xBB, 0x7E]), ('\u{8AA5}', [0xBB, 0xA2]), ('\u{8AA6}', [0xBB, 0x77]), 
    ('\u{8AA7}', [0xBB, 0xA7]), ('\u{8AA8}', [0xBB, 0xA3]), ('\u{8AA9}', [0x8F, 0xE5]), 
    ('\u{8AAA}', [0xBB, 0xA1]), ('\u{8AAB}', [0xE4, 0x4A]), ('\u{8AAF}', [0x8F, 0xE9]), 
    ('\u{8AB0}', [0xBD, 0xD6]), ('\u{8AB2}', [0xBD, 0xD2]), ('\u{8AB4}', [0x99, 0xD9]), 
    ('\u{8AB6}', [0xBD, 0xD9]), ('\u{8AB8}', [0xE7, 0xD6]), ('\u{8AB9}', [0xBD, 0xDA]), 
    ('\u{8ABA}', [0xE7, 0xE2]), ('\u{8ABB}', [0xE7, 0xDB]), ('\u{8ABC}', [0xBD, 0xCB]), 
    ('\u{8ABD}', [0xE7, 0xE3]), ('\u{8ABE}', [0xE7, 0xDD]), ('\u{8ABF}', [0xBD, 0xD5]), 
    ('\u{8AC0}', [0xE7, 0xDE]), ('\u{8AC2}', [0xBD, 0xD4]), ('\u{8AC3}', [0xE7, 0xE1]), 
    ('\u{8AC4}', [0xBD, 0xCE]), ('\u{8AC5}', [0xE7, 0xDF]), ('\u{8AC6}', [0xE7, 0xD5]), 
"#

/-- src/generated/whatwg/big5_whatwg_tables.rs.inc:6833-6960 -/
noncomputable def encode34 : List Text := lines! r#"    ('\u{8AC7}', [0xBD, 0xCD]), ('\u{8AC8}', [0xEB, 0xAA]), ('\u{8AC9}', [0xBD, 0xD3]), 
    ('\u{8ACB}', [0xBD, 0xD0]), ('\u{8ACC}', [0x8C, 0xF7]), ('\u{8ACD}', [0xBD, 0xD8]), 
    ('\u{8ACF}', [0xE7, 0xD4]), ('\u{8AD1}', [0xE7, 0xD8]), ('\u{8AD2}', [0xBD, 0xCC]), 
    ('\u{8AD3}', [0xE7, 0xD7]), ('\u{8AD4}', [0xE7, 0xD9]), ('\u{8AD5}', [0xE7, 0xDA]), 
    ('\u{8AD6}', [0xBD, 0xD7]), ('\u{8AD7}', [0xE7, 0xDC]), ('\u{8AD8}', [0xE7, 0xE0]), 
    ('\u{8AD9}', [0xE7, 0xE4]), ('\u{8ADA}', [0x92, 0x7C]), ('\u{8ADB}', [0xBD, 0xDB]), 
    ('\u{8ADC}', [0xBF, 0xD2]), ('\u{8ADD}', [0xEB, 0xA5]), ('\u{8ADE}', [0xEB, 0xAB]), 
    ('\u{8ADF}', [0xEB, 0xA8]), ('\u{8AE0}', [0xEB, 0x7E]), ('\u{8AE1}', [0xEB, 0xAC]), 
    ('\u{8AE2}', [0xEB, 0xA1]), ('\u{8AE4}', [0xEB, 0xA7]), ('\u{8AE6}', [0xBF, 0xCD]), 
    ('\u{8AE7}', [0xBF, 0xD3]), ('\u{8AE8}', [0xEB, 0xAD]), ('\u{8AEA}', [0x9C, 0x45]), 
    ('\u{8AEB}', [0xBF, 0xCF]), ('\u{8AED}', [0xBF, 0xD9]), ('\u{8AEE}', [0xBF, 0xD4]), 
    ('\u{8AEF}', [0xEB, 0xAF]), ('\u{8AF0}', [0xEB, 0xA9]), ('\u{8AF1}', [0xBF, 0xD0]), 
    ('\u{8AF2}', [0xEB, 0xA2]), ('\u{8AF3}', [0xBF, 0xDA]), ('\u{8AF4}', [0xEB, 0xA3]), 
    ('\u{8AF5}', [0xEB, 0xA4]), ('\u{8AF6}', [0xBF, 0xDB]), ('\u{8AF7}', [0xBF, 0xD8]), 
    ('\u{8AF8}', [0xBD, 0xD1]), ('\u{8AF9}', [0x8C, 0xE8]), ('\u{8AFA}', [0xBF, 0xCE]), 
    ('\u{8AFB}', [0xEB, 0xB0]), ('\u{8AFC}', [0xBF, 0xDC]), ('\u{8AFE}', [0xBF, 0xD5]), 
    ('\u{8AFF}', [0xEB, 0xAE]), ('\u{8B00}', [0xBF, 0xD1]), ('\u{8B01}', [0xBF, 0xD6]), 
    ('\u{8B02}', [0xBF, 0xD7]), ('\u{8B04}', [0xC1, 0xC3]), ('\u{8B05}', [0xEE, 0xA4]), 
    ('\u{8B06}', [0xEE, 0xAD]), ('\u{8B07}', [0xEE, 0xAA]), ('\u{8B08}', [0xEE, 0xAC]), 
    ('\u{8B0A}', [0xC1, 0xC0]), ('\u{8B0B}', [0xEE, 0xA5]), ('\u{8B0C}', [0x8F, 0xDE]), 
    ('\u{8B0D}', [0xEE, 0xAB]), ('\u{8B0E}', [0xC1, 0xBC]), ('\u{8B0F}', [0xEE, 0xA7]), 
    ('\u{8B10}', [0xC1, 0xC4]), ('\u{8B11}', [0xEE, 0xA3]), ('\u{8B12}', [0xEE, 0xA8]), 
    ('\u{8B13}', [0xEE, 0xAF]), ('\u{8B14}', [0xEB, 0xA6]), ('\u{8B15}', [0xEE, 0xA9]), 
    ('\u{8B16}', [0xEE, 0xA2]), ('\u{8B17}', [0xC1, 0xBD]), ('\u{8B18}', [0xEE, 0xA1]), 
    ('\u{8B19}', [0xC1, 0xBE]), ('\u{8B1A}', [0xEE, 0xB0]), ('\u{8B1B}', [0xC1, 0xBF]), 
    ('\u{8B1C}', [0xEE, 0xAE]), ('\u{8B1D}', [0xC1, 0xC2]), ('\u{8B1E}', [0xEE, 0x7E]), 
    ('\u{8B1F}', [0x8F, 0xDF]), ('\u{8B20}', [0xC1, 0xC1]), ('\u{8B22}', [0xEE, 0xA6]), 
    ('\u{8B23}', [0xF0, 0xDC]), ('\u{8B24}', [0xF0, 0xEA]), ('\u{8B25}', [0xF0, 0xE5]), 
    ('\u{8B26}', [0xF0, 0xE7]), ('\u{8B27}', [0xF0, 0xDB]), ('\u{8B28}', [0xC2, 0xD3]), 
    ('\u{8B2A}', [0xF0, 0xDA]), ('\u{8B2B}', [0xC2, 0xD6]), ('\u{8B2C}', [0xC2, 0xD5]), 
    ('\u{8B2D}', [0xA0, 0x4B]), ('\u{8B2E}', [0xF0, 0xE9]), ('\u{8B2F}', [0xF0, 0xE1]), 
    ('\u{8B30}', [0xF0, 0xDE]), ('\u{8B31}', [0xF0, 0xE4]), ('\u{8B33}', [0xF0, 0xDD]), 
    ('\u{8B35}', [0xF0, 0xDF]), ('\u{8B36}', [0xF0, 0xE8]), ('\u{8B37}', [0xF0, 0xE6]), 
    ('\u{8B39}', [0xC2, 0xD4]), ('\u{8B3A}', [0xF0, 0xED]), ('\u{8B3B}', [0xF0, 0xEB]), 
    ('\u{8B3C}', [0xF0, 0xE2]), ('\u{8B3D}', [0xF0, 0xEC]), ('\u{8B3E}', [0xF0, 0xE3]), 
    ('\u{8B3F}', [0x8F, 0xE2]), ('\u{8B40}', [0xF2, 0xF9]), ('\u{8B41}', [0xC3, 0xCF]), 
    ('\u{8B42}', [0xF3, 0x41]), ('\u{8B43}', [0xA0, 0xCC]), ('\u{8B45}', [0xF6, 0x4F]), 
    ('\u{8B46}', [0xC3, 0xD6]), ('\u{8B47}', [0xF0, 0xE0]), ('\u{8B48}', [0xF2, 0xF7]), 
    ('\u{8B49}', [0xC3, 0xD2]), ('\u{8B4A}', [0xF2, 0xF8]), ('\u{8B4B}', [0xF2, 0xFD]), 
    ('\u{8B4C}', [0x8F, 0xE3]), ('\u{8B4D}', [0x8F, 0xE4]), ('\u{8B4E}', [0xC3, 0xD4]), 
    ('\u{8B4F}', [0xC3, 0xD5]), ('\u{8B50}', [0xF2, 0xF6]), ('\u{8B51}', [0xF3, 0x40]), 
    ('\u{8B52}', [0xF3, 0x42]), ('\u{8B53}', [0xF2, 0xFA]), ('\u{8B54}', [0xF2, 0xFC]), 
    ('\u{8B55}', [0xF2, 0xFE]), ('\u{8B56}', [0xF2, 0xFB]), ('\u{8B57}', [0xF3, 0x43]), 
    ('\u{8B58}', [0xC3, 0xD1]), ('\u{8B59}', [0xC3, 0xD7]), ('\u{8B5A}', [0xC3, 0xD3]), 
    ('\u{8B5C}', [0xC3, 0xD0]), ('\u{8B5D}', [0xF4, 0xD0]), ('\u{8B5E}', [0x9B, 0xC4]), 
    ('\u{8B5F}', [0xC4, 0xB7]), ('\u{8B60}', [0xF4, 0xCE]), ('\u{8B62}', [0x9B, 0xFC]), 
    ('\u{8B63}', [0xF4, 0xD2]), ('\u{8B65}', [0xF4, 0xD3]), ('\u{8B66}', [0xC4, 0xB5]), 
    ('\u{8B67}', [0xF4, 0xD4]), ('\u{8B68}', [0xF4, 0xD1]), ('\u{8B69}', [0x96, 0x4C]), 
    ('\u{8B6A}', [0xF4, 0xCF]), ('\u{8B6B}', [0xC4, 0xB8]), ('\u{8B6C}', [0xC4, 0xB4]), 
    ('\u{8B6D}', [0xF4, 0xD5]), ('\u{8B6F}', [0xC4, 0xB6]), ('\u{8B70}', [0xC4, 0xB3]), 
    ('\u{8B74}', [0xC4, 0xFE]), ('\u{8B77}', [0xC5, 0x40]), ('\u{8B78}', [0xF6, 0x4E]), 
    ('\u{8B79}', [0xF6, 0x4D]), ('\u{8B7A}', [0xF6, 0x50]), ('\u{8B7B}', [0xF6, 0x51]), 
    ('\u{8B7D}', [0xC5, 0x41]), ('\u{8B7E}', [0xF7, 0x56]), ('\u{8B7F}', [0xF7, 0x5B]), 
    ('\u{8B80}', [0xC5, 0xAA]), ('\u{8B81}', [0x9A, 0xF6]), ('\u{8B82}', [0xF7, 0x58]), 
    ('\u{8B83}', [0x8C, 0xAE]), ('\u{8B84}', [0xF7, 0x57]), ('\u{8B85}', [0xF7, 0x5A]), 
    ('\u{8B86}', [0xF7, 0x59]), ('\u{8B88}', [0xF8, 0x43]), ('\u{8B8A}', [0xC5, 0xDC]), 
    ('\u{8B8B}', [0xF8, 0x42]), ('\u{8B8C}', [0xF8, 0x40]), ('\u{8B8E}', [0xF8, 0x41]), 
    ('\u{8B8F}', [0x87, 0xCB]), ('\u{8B90}', [0x8F, 0xE7]), ('\u{8B92}', [0xC5, 0xFE]), 
    ('\u{8B93}', [0xC5, 0xFD]), ('\u{8B94}', [0xF8, 0xC1]), ('\u{8B95}', [0xF8, 0xC2]), 
    ('\u{8B96}', [0xC6, 0x40]), ('\u{8B98}', [0xF9, 0x4D]), ('\u{8B99}', [0xF9, 0x4E]), 
    ('\u{8B9A}', [0xC6, 0x67]), ('\u{8B9B}', [0x8F, 0xE8]), ('\u{8B9C}', [0xC6, 0x6D]), 
    ('\u{8B9E}', [0xF9, 0xA9]), ('\u{8B9F}', [0xF9, 0xC8]), ('\u{8BA0}', [0x8B, 0xE7]), 
    ('\u{8BBE}', [0x89, 0x7A]), ('\u{8BE2}', [0x89, 0x7B]), ('\u{8C37}', [0xA8, 0xA6]), 
    ('\u{8C39}', [0xD7, 0xCD]), ('\u{8C3B}', [0xD7, 0xCE]), ('\u{8C3C}', [0xE0, 0x52]), 
    ('\u{8C3D}', [0xE4, 0x50]), ('\u{8C3E}', [0xE7, 0xE5]), ('\u{8C3F}', [0xC1, 0xC6]), 
    ('\u{8C41}', [0xC1, 0xC5]), ('\u{8C42}', [0xF0, 0xEE]), ('\u{8C43}', [0xF3, 0x44]), 
    ('\u{8C45}', [0xF8, 0x44]), ('\u{8C46}', [0xA8, 0xA7]), ('\u{8C47}', [0xD3, 0xDE]), 
    ('\u{8C48}', [0xB0, 0x5A]), ('\u{8C49}', [0xB3, 0x61]), ('\u{8C4A}', [0xE0, 0x54]), 
    ('\u{8C4B}', [0xE0, 0x53]), ('\u{8C4C}', [0xBD, 0xDC]), ('\u{8C4D}', [0xE7, 0xE6]), 
    ('\u{8C4E}', [0xBD, 0xDD]), ('\u{8C4F}', [0xEE, 0xB1]), ('\u{8C50}', [0xC2, 0xD7]), 
    ('\u{8C51}', [0x99, 0xDA]), ('\u{8C54}', [0xC6, 0x76]), ('\u{8C55}', [0xA8, 0xA8]), 
    ('\u{8C56}', [0xCD, 0xCB]), ('\u{8C57}', [0xD3, 0xDF]), ('\u{8C5A}', [0xB3, 0x62]), 
    ('\u{8C5C}', [0xD7, 0xCF]), ('\u{8C5D}', [0xD7, 0xD0]), ('\u{8C5F}', [0xDB, 0xE5]), 
    ('\u{8C61}', [0xB6, 0x48]), ('\u{8C62}', [0xB8, 0xE6]), ('\u{8C64}', [0xE0, 0x56]), 
    ('\u{8C65}', [0xE0, 0x55]), ('\u{8C66}', [0xE0, 0x57]), ('\u{8C68}', [0xE4, 0x51]), 
    ('\u{8C69}', [0xE4, 0x52]), ('\u{8C6A}', [0xBB, 0xA8]), ('\u{8C6B}', [0xBF, 0xDD]), 
    ('\u{8C6C}', [0xBD, 0xDE]), ('\u{8C6D}', [0xBF, 0xDE]), ('\u{8C6F}', [0xEE, 0xB5]), 
    ('\u{8C70}', [0xEE, 0xB2]), ('\u{8C71}', [0xEE, 0xB4]), ('\u{8C72}', [0xEE, 0xB3]), 
    ('\u{8C73}', [0xC1, 0xC7]), ('\u{8C75}', [0xF0, 0xEF]), ('\u{8C76}', [0xF3, 0x46]), 
    ('\u{8C77}', [0xF3, 0x45]), ('\u{8C78}', [0xCB, 0xA4]), ('\u{8C79}', [0xB0, 0x5C]), 
    ('\u{8C7A}', [0xB0, 0x5B]), ('\u{8C7B}', [0xD3, 0xE0]), ('\u{8C7D}', [0xD7, 0xD1]), 
    ('\u{8C80}', [0xDB, 0xE7]), ('\u{8C81}', [0xDB, 0xE6]), ('\u{8C82}', [0xB6, 0x49]), 
    ('\u{8C84}', [0xE0, 0x59]), ('\u{8C85}', [0xE0, 0x5A]), ('\u{8C86}', [0xE0, 0x58]), 
    ('\u{8C89}', [0xB8, 0xE8]), ('\u{8C8A}', [0xB8, 0xE7]), ('\u{8C8C}', [0xBB, 0xAA]), 
    ('\u{8C8D}', [0xBB, 0xA9]), ('\u{8C8F}', [0xE7, 0xE7]), ('\u{8C90}', [0xEB, 0xB3]), 
    ('\u{8C91}', [0xEB, 0xB1]), ('\u{8C92}', [0xEB, 0xB2]), ('\u{8C93}', [0xBF, 0xDF]), 
    ('\u{8C94}', [0xEE, 0xB7]), ('\u{8C95}', [0xEE, 0xB6]), ('\u{8C97}', [0xF0, 0xF2]), 
    ('\u{8C98}', [0xF0, 0xF1]), ('\u{8C99}', [0xF0, 0xF0]), ('\u{8C9A}', [0xF3, 0x47]), 
    ('\u{8C9B}', [0x8F, 0xED]), ('\u{8C9C}', [0xF9, 0xAA]), ('\u{8C9D}', [0xA8, 0xA9]), 
    ('\u{8C9E}', [0xAD, 0x73]), ('\u{8C9F}', [0x95, 0xC0]), ('\u{8CA0}', [0xAD, 0x74]), 
    ('\u{8CA1}', [0xB0, 0x5D]), ('\u{8CA2}', [0xB0, 0x5E]), ('\u{8CA3}', [0xD3, 0xE2]), 
    ('\u{8CA4}', [0xD3, 0xE1]), ('\u{8CA5}', [0xD7, 0xD2]), ('\u{8CA7}', [0xB3, 0x68]), 
    ('\u{8CA8}', [0xB3, 0x66]), ('\u{8CA9}', [0xB3, 0x63]), ('\u{8CAA}', [0xB3, 0x67]), 
    ('\u{8CAB}', [0xB3, 0x65]), ('\u{8CAC}', [0xB3, 0x64]), ('\u{8CAD}', [0xA0, 0xCB]), 
    ('\u{8CAF}', [0xB6, 0x4A]), ('\u{8CB0}', [0xDB, 0xEA]), ('\u{8CB2}', [0xB8, 0xED]), 
    ('\u{8CB3}', [0xB6, 0x4C]), ('\u{8CB4}', [0xB6, 0x51]), ('\u{8CB5}', [0xDB, 0xEC]), 
    ('\u{8CB6}', [0xB6, 0x53]), ('\u{8CB7}', [0xB6, 0x52]), ('\u{8CB8}', [0xB6, 0x55]), 
    ('\u{8CB9}', [0xDB, 0xEB]), ('\u{8CBA}', [0xDB, 0xE8]), ('\u{8CBB}', [0xB6, 0x4F]), 
    ('\u{8CBC}', [0xB6, 0x4B]), ('\u{8CBD}', [0xB6, 0x4D]), ('\u{8CBE}', [0xDB, 0xE9]), 
    ('\u{8CBF}', [0xB6, 0x54]), ('\u{8CC0}', [0xB6, 0x50]), ('\u{8CC1}', [0xB6, 0x4E]), 
    ('\u{8CC2}', [0xB8, 0xEF]), ('\u{8CC3}', [0xB8, 0xEE]), ('\u{8CC4}', [0xB8, 0xEC]), 
    ('\u{8CC5}', [0xB8, 0xF0]), ('\u{8CC7}', [0xB8, 0xEA]), ('\u{8CC8}', [0xB8, 0xEB]), 
    ('\u{8CCA}', [0xB8, 0xE9]), ('\u{8CCC}', [0xE0, 0x5B]), ('\u{8CCD}', [0x9E, 0x48]), 
    ('\u{8CCF}', [0xE4, 0x54]), ('\u{8CD1}', [0xBB, 0xAC]), ('\u{8CD2}', [0xBB, 0xAD]), 
    ('\u{8CD3}', [0xBB, 0xAB]), ('\u{8CD4}', [0x99, 0xDB]), ('\u{8CD5}', [0xE4, 0x53]), 
    ('\u{8CD6}', [0x8F, 0xF3]), ('\u{8CD7}', [0xE4, 0x55]), ('\u{8CD9}', [0xE7, 0xEA]), 
    ('\u{8CDA}', [0xE7, 0xEC]), ('\u{8CDB}', [0x8F, 0xF9]), ('\u{8CDC}', [0xBD, 0xE7]), 
    ('\u{8CDD}', [0xE7, 0xED]), ('\u{8CDE}', [0xBD, 0xE0]), ('\u{8CDF}', [0xE7, 0xE9]), 
    ('\u{8CE0}', [0xBD, 0xDF]), ('\u{8CE1}', [0xBD, 0xE9]), ('\u{8CE2}', [0xBD, 0xE5]), 
    ('\u{8CE3}', [0xBD, 0xE6]), ('\u{8CE4}', [0xBD, 0xE2]), ('\u{8CE5}', [0xE7, 0xE8]), 
    ('\u{8CE6}', [0xBD, 0xE1]), ('\u{8CE7}', [0xE7, 0xEE]), ('\u{8CE8}', [0xE7, 0xEB]), 
    ('\u{8CE9}', [0x95, 0xC1]), ('\u{8CEA}', [0xBD, 0xE8]), ('\u{8CEB}', [0xA0, 0x4E]), 
    ('\u{8CEC}', [0xBD, 0xE3]), ('\u{8CED}', [0xBD, 0xE4]), ('\u{8CEE}', [0xEB, 0xB5]), 
    ('\u{8CF0}', [0xEB, 0xB7]), ('\u{8CF1}', [0xEB, 0xB6]), ('\u{8CF2}', [0x99, 0xDC]), 
    ('\u{8CF3}', [0xEB, 0xB8]), ('\u{8CF4}', [0xBF, 0xE0]), ('\u{8CF5}', [0xEB, 0xB4]), 
    ('\u{8CF7}', [0xA0, 0x64]), ('\u{8CF8}', [0xC1, 0xCB]), ('\u{8CF9}', [0xEE, 0xB8]), 
    ('\u{8CFA}', [0xC1, 0xC8]), ('\u{8CFB}', [0xC1, 0xCC]), ('\u{8CFC}', [0xC1, 0xCA]), 
    ('\u{8CFD}', [0xC1, 0xC9]), ('\u{8CFE}', [0xF0, 0xF3]), ('\u{8D00}', [0xF0, 0xF6]), 
    ('\u{8D02}', [0xF0, 0xF5]), ('\u{8D03}', [0x8F, 0xF7]), ('\u{8D04}', [0xF0, 0xF4]), 
    ('\u{8D05}', [0xC2, 0xD8]), ('\u{8D06}', [0xF3, 0x48]), ('\u{8D07}', [0xF3, 0x49]), 
    ('\u{8D08}', [0xC3, 0xD8]), ('\u{8D09}', [0xF3, 0x4A]), ('\u{8D0A}', [0xC3, 0xD9]), 
    ('\u{8D0B}', [0x89, 0xB0]), ('\u{8D0C}', [0xA0, 0x48]), ('\u{8D0D}', [0xC4, 0xBA]), 
    ('\u{8D0F}', [0xC4, 0xB9]), ('\u{8D10}', [0xF6, 0x52]), ('\u{8D11}', [0x8F, 0xFB]), 
    ('\u{8D12}', [0x8F, 0xF6]), ('\u{8D13}', [0xC5, 0x42]), ('\u{8D14}', [0xF6, 0x53]), 
    ('\u{8D15}', [0xF7, 0x5C]), ('\u{8D16}', [0xC5, 0xAB]), ('\u{8D17}', [0xC5, 0xAC]), 
    ('\u{8D18}', [0x9D, 0xDC]), ('\u{8D19}', [0xF8, 0x45]), ('\u{8D1B}', [0xC6, 0x42]), 
    ('\u{8D1C}', [0x99, 0xDD]), ('\u{8D1D}', [0x8B, 0xE8]), ('\u{8D64}', [0xA8, 0xAA]), 
    ('\u{8D66}', [0xB3, 0x6A]), ('\u{8D67}', [0xB3, 0x69]), ('\u{8D68}', [0xE0, 0x5C]), 
"#

/-- src/generated/whatwg/big5_whatwg_tables.rs.inc:6961-7088 -/
noncomputable def encode35 : List Text := lines! r#"    ('\u{8D69}', [0xE0, 0x5D]), ('\u{8D6B}', [0xBB, 0xAE]), ('\u{8D6C}', [0xEB, 0xB9]), 
    ('\u{8D6D}', [0xBD, 0xEA]), ('\u{8D6E}', [0xEB, 0xBA]), ('\u{8D6F}', [0xEE, 0xB9]), 
    ('\u{8D70}', [0xA8, 0xAB]), ('\u{8D72}', [0xD0, 0xB2]), ('\u{8D73}', [0xAD, 0x76]), 
    ('\u{8D74}', [0xAD, 0x75]), ('\u{8D76}', [0xD3, 0xE3]), ('\u{8D77}', [0x8F, 0xFE]), 
    ('\u{8D78}', [0xD3, 0xE4]), ('\u{8D79}', [0xD7, 0xD5]), ('\u{8D7A}', [0x92, 0xC1]), 
    ('\u{8D7B}', [0xD7, 0xD4]), ('\u{8D7D}', [0xD7, 0xD3]), ('\u{8D80}', [0xDB, 0xEE]), 
    ('\u{8D81}', [0xB6, 0x58]), ('\u{8D82}', [0x9F, 0xD6]), ('\u{8D84}', [0xDB, 0xED]), 
    ('\u{8D85}', [0xB6, 0x57]), ('\u{8D89}', [0xDB, 0xEF]), ('\u{8D8A}', [0xB6, 0x56]), 
    ('\u{8D8C}', [0xE0, 0x5F]), ('\u{8D8D}', [0xE0, 0x62]), ('\u{8D8E}', [0xE0, 0x60]), 
    ('\u{8D8F}', [0xE0, 0x61]), ('\u{8D90}', [0xE0, 0x65]), ('\u{8D91}', [0xE0, 0x5E]), 
    ('\u{8D92}', [0xE0, 0x66]), ('\u{8D93}', [0xE0, 0x63]), ('\u{8D94}', [0xE0, 0x64]), 
    ('\u{8D95}', [0xBB, 0xB0]), ('\u{8D96}', [0xE4, 0x56]), ('\u{8D99}', [0xBB, 0xAF]), 
    ('\u{8D9B}', [0xE7, 0xF2]), ('\u{8D9C}', [0xE7, 0xF0]), ('\u{8D9F}', [0xBD, 0xEB]), 
    ('\u{8DA0}', [0xE7, 0xEF]), ('\u{8DA1}', [0xE7, 0xF1]), ('\u{8DA3}', [0xBD, 0xEC]), 
    ('\u{8DA5}', [0xEB, 0xBB]), ('\u{8DA6}', [0xA0, 0xD2]), ('\u{8DA7}', [0xEB, 0xBC]), 
    ('\u{8DA8}', [0xC1, 0xCD]), ('\u{8DA9}', [0x90, 0x40]), ('\u{8DAA}', [0xF3, 0x4C]), 
    ('\u{8DAB}', [0xF3, 0x4E]), ('\u{8DAC}', [0xF3, 0x4B]), ('\u{8DAD}', [0xF3, 0x4D]), 
    ('\u{8DAE}', [0xF4, 0xD6]), ('\u{8DAF}', [0xF6, 0x54]), ('\u{8DB2}', [0xF9, 0x6F]), 
    ('\u{8DB3}', [0xA8, 0xAC]), ('\u{8DB4}', [0xAD, 0x77]), ('\u{8DB5}', [0xD3, 0xE5]), 
    ('\u{8DB6}', [0xD3, 0xE7]), ('\u{8DB7}', [0xD3, 0xE6]), ('\u{8DB9}', [0xD7, 0xD8]), 
    ('\u{8DBA}', [0xB3, 0x6C]), ('\u{8DBC}', [0xD7, 0xD6]), ('\u{8DBE}', [0xB3, 0x6B]), 
    ('\u{8DBF}', [0xD7, 0xD9]), ('\u{8DC0}', [0x8A, 0xC4]), ('\u{8DC1}', [0xD7, 0xDA]), 
    ('\u{8DC2}', [0xD7, 0xD7]), ('\u{8DC3}', [0x99, 0xE0]), ('\u{8DC5}', [0xDB, 0xFB]), 
    ('\u{8DC6}', [0xB6, 0x60]), ('\u{8DC7}', [0xDB, 0xF3]), ('\u{8DC8}', [0xDB, 0xF9]), 
    ('\u{8DCB}', [0xB6, 0x5B]), ('\u{8DCC}', [0xB6, 0x5E]), ('\u{8DCD}', [0xDB, 0xF2]), 
    ('\u{8DCE}', [0xB6, 0x59]), ('\u{8DCF}', [0xDB, 0xF6]), ('\u{8DD0}', [0xE0, 0x6C]), 
    ('\u{8DD1}', [0xB6, 0x5D]), ('\u{8DD3}', [0xDB, 0xF1]), ('\u{8DD4}', [0x9F, 0xF0]), 
    ('\u{8DD5}', [0xDB, 0xF7]), ('\u{8DD6}', [0xDB, 0xF4]), ('\u{8DD7}', [0xDB, 0xFA]), 
    ('\u{8DD8}', [0xDB, 0xF0]), ('\u{8DD9}', [0xDB, 0xF8]), ('\u{8DDA}', [0xB6, 0x5C]), 
    ('\u{8DDB}', [0xB6, 0x5F]), ('\u{8DDC}', [0xDB, 0xF5]), ('\u{8DDD}', [0xB6, 0x5A]), 
    ('\u{8DDF}', [0xB8, 0xF2]), ('\u{8DE0}', [0xE0, 0x68]), ('\u{8DE1}', [0xB8, 0xF1]), 
    ('\u{8DE2}', [0xE0, 0x6F]), ('\u{8DE3}', [0xE0, 0x6E]), ('\u{8DE4}', [0xB8, 0xF8]), 
    ('\u{8DE6}', [0xB8, 0xF9]), ('\u{8DE7}', [0xE0, 0x70]), ('\u{8DE8}', [0xB8, 0xF3]), 
    ('\u{8DE9}', [0xE0, 0x6D]), ('\u{8DEA}', [0xB8, 0xF7]), ('\u{8DEB}', [0xE0, 0x72]), 
    ('\u{8DEC}', [0xE0, 0x69]), ('\u{8DEE}', [0xE0, 0x6B]), ('\u{8DEF}', [0xB8, 0xF4]), 
    ('\u{8DF0}', [0xE0, 0x67]), ('\u{8DF1}', [0xE0, 0x6A]), ('\u{8DF2}', [0xE0, 0x71]), 
    ('\u{8DF3}', [0xB8, 0xF5]), ('\u{8DF4}', [0xE0, 0x73]), ('\u{8DFA}', [0xB8, 0xF6]), 
    ('\u{8DFC}', [0xBB, 0xB1]), ('\u{8DFD}', [0xE4, 0x5B]), ('\u{8DFE}', [0xE4, 0x61]), 
    ('\u{8DFF}', [0xE4, 0x59]), ('\u{8E00}', [0xE4, 0x62]), ('\u{8E01}', [0x9F, 0xF3]), 
    ('\u{8E02}', [0xE4, 0x58]), ('\u{8E03}', [0xE4, 0x5D]), ('\u{8E04}', [0xE4, 0x63]), 
    ('\u{8E05}', [0xE4, 0x60]), ('\u{8E06}', [0xE4, 0x5F]), ('\u{8E07}', [0xE4, 0x5E]), 
    ('\u{8E09}', [0xE4, 0x57]), ('\u{8E0A}', [0xE4, 0x5C]), ('\u{8E0D}', [0xE4, 0x5A]), 
    ('\u{8E0E}', [0x9D, 0xBF]), ('\u{8E0F}', [0xBD, 0xF1]), ('\u{8E10}', [0xBD, 0xEE]), 
    ('\u{8E11}', [0xE7, 0xFB]), ('\u{8E12}', [0xE8, 0x41]), ('\u{8E13}', [0xE8, 0x43]), 
    ('\u{8E14}', [0xE8, 0x40]), ('\u{8E15}', [0xE7, 0xF8]), ('\u{8E16}', [0xE7, 0xFA]), 
    ('\u{8E17}', [0xE8, 0x45]), ('\u{8E18}', [0xE8, 0x42]), ('\u{8E19}', [0xE7, 0xFC]), 
    ('\u{8E1A}', [0xE8, 0x46]), ('\u{8E1B}', [0xE7, 0xF9]), ('\u{8E1C}', [0xE8, 0x44]), 
    ('\u{8E1D}', [0xBD, 0xEF]), ('\u{8E1E}', [0xBD, 0xF5]), ('\u{8E1F}', [0xBD, 0xF3]), 
    ('\u{8E20}', [0xE7, 0xF3]), ('\u{8E21}', [0xBD, 0xF4]), ('\u{8E22}', [0xBD, 0xF0]), 
    ('\u{8E23}', [0xE7, 0xF4]), ('\u{8E24}', [0xE7, 0xF6]), ('\u{8E25}', [0xE7, 0xF5]), 
    ('\u{8E26}', [0xE7, 0xFD]), ('\u{8E27}', [0xE7, 0xFE]), ('\u{8E28}', [0x9F, 0xF6]), 
    ('\u{8E29}', [0xBD, 0xF2]), ('\u{8E2A}', [0x95, 0xC8]), ('\u{8E2B}', [0xBD, 0xED]), 
    ('\u{8E2D}', [0x9E, 0x5A]), ('\u{8E2E}', [0xE7, 0xF7]), ('\u{8E30}', [0xEB, 0xC6]), 
    ('\u{8E31}', [0xBF, 0xE2]), ('\u{8E33}', [0xEB, 0xBD]), ('\u{8E34}', [0xBF, 0xE3]), 
    ('\u{8E35}', [0xBF, 0xE6]), ('\u{8E36}', [0xEB, 0xC2]), ('\u{8E38}', [0xEB, 0xBF]), 
    ('\u{8E39}', [0xBF, 0xE5]), ('\u{8E3A}', [0x99, 0xE3]), ('\u{8E3C}', [0xEB, 0xC3]), 
    ('\u{8E3D}', [0xEB, 0xC4]), ('\u{8E3E}', [0xEB, 0xBE]), ('\u{8E3F}', [0xEB, 0xC7]), 
    ('\u{8E40}', [0xEB, 0xC0]), ('\u{8E41}', [0xEB, 0xC5]), ('\u{8E42}', [0xBF, 0xE4]), 
    ('\u{8E44}', [0xBF, 0xE1]), ('\u{8E45}', [0xEB, 0xC1]), ('\u{8E46}', [0x8A, 0x4A]), 
    ('\u{8E47}', [0xEE, 0xBF]), ('\u{8E48}', [0xC1, 0xD0]), ('\u{8E49}', [0xC1, 0xCE]), 
    ('\u{8E4A}', [0xC1, 0xD1]), ('\u{8E4B}', [0xC1, 0xCF]), ('\u{8E4C}', [0xEE, 0xBE]), 
    ('\u{8E4D}', [0xEE, 0xBB]), ('\u{8E4E}', [0xEE, 0xBA]), ('\u{8E4F}', [0x9F, 0xF1]), 
    ('\u{8E50}', [0xEE, 0xBD]), ('\u{8E53}', [0xEE, 0xBC]), ('\u{8E54}', [0xF1, 0x45]), 
    ('\u{8E55}', [0xC2, 0xDE]), ('\u{8E56}', [0xF0, 0xFB]), ('\u{8E57}', [0xF0, 0xFA]), 
    ('\u{8E59}', [0xC2, 0xD9]), ('\u{8E5A}', [0xF1, 0x41]), ('\u{8E5B}', [0xF1, 0x40]), 
    ('\u{8E5C}', [0xF0, 0xF7]), ('\u{8E5D}', [0xF1, 0x43]), ('\u{8E5E}', [0xF0, 0xFC]), 
    ('\u{8E5F}', [0xC2, 0xDD]), ('\u{8E60}', [0xF0, 0xF9]), ('\u{8E61}', [0xF1, 0x42]), 
    ('\u{8E62}', [0xF0, 0xF8]), ('\u{8E63}', [0xC2, 0xDA]), ('\u{8E64}', [0xC2, 0xDC]), 
    ('\u{8E65}', [0xF0, 0xFD]), ('\u{8E66}', [0xC2, 0xDB]), ('\u{8E67}', [0xF0, 0xFE]), 
    ('\u{8E68}', [0x8A, 0xA7]), ('\u{8E69}', [0xF1, 0x44]), ('\u{8E6A}', [0xF3, 0x52]), 
    ('\u{8E6C}', [0xC3, 0xDE]), ('\u{8E6D}', [0xF3, 0x4F]), ('\u{8E6F}', [0xF3, 0x53]), 
    ('\u{8E71}', [0x99, 0xE6]), ('\u{8E72}', [0xC3, 0xDB]), ('\u{8E73}', [0xF3, 0x51]), 
    ('\u{8E74}', [0xC3, 0xE0]), ('\u{8E75}', [0x9F, 0xF7]), ('\u{8E76}', [0xC3, 0xDD]), 
    ('\u{8E77}', [0x9F, 0xED]), ('\u{8E78}', [0xF3, 0x50]), ('\u{8E7A}', [0xC3, 0xDF]), 
    ('\u{8E7B}', [0xF3, 0x54]), ('\u{8E7C}', [0xC3, 0xDA]), ('\u{8E7E}', [0x8A, 0x5C]), 
    ('\u{8E80}', [0x9D, 0xAE]), ('\u{8E81}', [0xC4, 0xBC]), ('\u{8E82}', [0xC4, 0xBE]), 
    ('\u{8E84}', [0xF4, 0xD9]), ('\u{8E85}', [0xC4, 0xBD]), ('\u{8E86}', [0xF4, 0xD7]), 
    ('\u{8E87}', [0xC3, 0xDC]), ('\u{8E88}', [0xF4, 0xD8]), ('\u{8E89}', [0xC4, 0xBB]), 
    ('\u{8E8A}', [0xC5, 0x43]), ('\u{8E8B}', [0xC5, 0x45]), ('\u{8E8C}', [0xF6, 0x56]), 
    ('\u{8E8D}', [0xC5, 0x44]), ('\u{8E8E}', [0xF6, 0x55]), ('\u{8E90}', [0xF7, 0x61]), 
    ('\u{8E91}', [0xC5, 0xAD]), ('\u{8E92}', [0xF7, 0x60]), ('\u{8E93}', [0xC5, 0xAE]), 
    ('\u{8E94}', [0xF7, 0x5E]), ('\u{8E95}', [0xF7, 0x5D]), ('\u{8E96}', [0xF7, 0x62]), 
    ('\u{8E97}', [0xF7, 0x63]), ('\u{8E98}', [0xF8, 0x46]), ('\u{8E9A}', [0xF7, 0x5F]), 
    ('\u{8E9D}', [0xF8, 0xC6]), ('\u{8E9E}', [0xF8, 0xC3]), ('\u{8E9F}', [0xF8, 0xC4]), 
    ('\u{8EA0}', [0xF8, 0xC5]), ('\u{8EA1}', [0xC6, 0x5C]), ('\u{8EA3}', [0xF9, 0x51]), 
    ('\u{8EA4}', [0xF9, 0x50]), ('\u{8EA5}', [0xF9, 0x4F]), ('\u{8EA6}', [0xF9, 0x70]), 
    ('\u{8EA7}', [0x95, 0xC9]), ('\u{8EA8}', [0xF9, 0xBE]), ('\u{8EA9}', [0xF9, 0xAB]), 
    ('\u{8EAA}', [0xC6, 0x6E]), ('\u{8EAB}', [0xA8, 0xAD]), ('\u{8EAC}', [0xB0, 0x60]), 
    ('\u{8EAD}', [0x90, 0x48]), ('\u{8EB0}', [0x99, 0xE8]), ('\u{8EB2}', [0xB8, 0xFA]), 
    ('\u{8EB6}', [0x90, 0x49]), ('\u{8EB9}', [0x8C, 0xBA]), ('\u{8EBA}', [0xBD, 0xF6]), 
    ('\u{8EBC}', [0x90, 0xB1]), ('\u{8EBD}', [0xEB, 0xC8]), ('\u{8EC0}', [0xC2, 0xDF]), 
    ('\u{8EC2}', [0xF3, 0x55]), ('\u{8EC3}', [0x90, 0x4A]), ('\u{8EC9}', [0xF9, 0xAC]), 
    ('\u{8ECA}', [0xA8, 0xAE]), ('\u{8ECB}', [0xAA, 0xEE]), ('\u{8ECC}', [0xAD, 0x79]), 
    ('\u{8ECD}', [0xAD, 0x78]), ('\u{8ECE}', [0x99, 0xEA]), ('\u{8ECF}', [0xB0, 0x63]), 
    ('\u{8ED1}', [0xD3, 0xE8]), ('\u{8ED2}', [0xB0, 0x61]), ('\u{8ED3}', [0xD3, 0xE9]), 
    ('\u{8ED4}', [0xB0, 0x62]), ('\u{8ED7}', [0xD7, 0xDF]), ('\u{8ED8}', [0xD7, 0xDB]), 
    ('\u{8EDA}', [0x9B, 0xD1]), ('\u{8EDB}', [0xB3, 0x6D]), ('\u{8EDC}', [0xD7, 0xDE]), 
    ('\u{8EDD}', [0xD7, 0xDD]), ('\u{8EDE}', [0xD7, 0xDC]), ('\u{8EDF}', [0xB3, 0x6E]), 
    ('\u{8EE0}', [0xD7, 0xE0]), ('\u{8EE1}', [0xD7, 0xE1]), ('\u{8EE2}', [0x99, 0xEB]), 
    ('\u{8EE4}', [0x99, 0xEC]), ('\u{8EE5}', [0xDC, 0x43]), ('\u{8EE6}', [0xDC, 0x41]), 
    ('\u{8EE7}', [0xDC, 0x45]), ('\u{8EE8}', [0xDC, 0x46]), ('\u{8EE9}', [0xDC, 0x4C]), 
    ('\u{8EEB}', [0xDC, 0x48]), ('\u{8EEC}', [0xDC, 0x4A]), ('\u{8EED}', [0x99, 0xED]), 
    ('\u{8EEE}', [0xDC, 0x42]), ('\u{8EEF}', [0xDB, 0xFC]), ('\u{8EF1}', [0xDC, 0x49]), 
    ('\u{8EF2}', [0x99, 0xEE]), ('\u{8EF4}', [0xDC, 0x4B]), ('\u{8EF5}', [0xDC, 0x44]), 
    ('\u{8EF6}', [0xDC, 0x47]), ('\u{8EF7}', [0xDB, 0xFD]), ('\u{8EF8}', [0xB6, 0x62]), 
    ('\u{8EF9}', [0xDC, 0x40]), ('\u{8EFA}', [0xDB, 0xFE]), ('\u{8EFB}', [0xB6, 0x61]), 
    ('\u{8EFC}', [0xB6, 0x63]), ('\u{8EFE}', [0xB8, 0xFD]), ('\u{8EFF}', [0xE0, 0x75]), 
    ('\u{8F00}', [0xE0, 0x77]), ('\u{8F01}', [0xE0, 0x76]), ('\u{8F02}', [0xE0, 0x7B]), 
    ('\u{8F03}', [0xB8, 0xFB]), ('\u{8F05}', [0xE0, 0x78]), ('\u{8F06}', [0xE0, 0x74]), 
    ('\u{8F07}', [0xE0, 0x79]), ('\u{8F08}', [0xE0, 0x7A]), ('\u{8F09}', [0xB8, 0xFC]), 
    ('\u{8F0A}', [0xB8, 0xFE]), ('\u{8F0B}', [0x9D, 0x57]), ('\u{8F0D}', [0xE4, 0x67]), 
    ('\u{8F0E}', [0xE4, 0x66]), ('\u{8F10}', [0xE4, 0x64]), ('\u{8F11}', [0xE4, 0x65]), 
    ('\u{8F12}', [0xBB, 0xB3]), ('\u{8F13}', [0xBB, 0xB5]), ('\u{8F14}', [0xBB, 0xB2]), 
    ('\u{8F15}', [0xBB, 0xB4]), ('\u{8F16}', [0xE8, 0x4D]), ('\u{8F17}', [0xE8, 0x4E]), 
    ('\u{8F18}', [0xE8, 0x49]), ('\u{8F19}', [0x90, 0x4C]), ('\u{8F1A}', [0xE8, 0x4A]), 
    ('\u{8F1B}', [0xBD, 0xF8]), ('\u{8F1C}', [0xBD, 0xFD]), ('\u{8F1D}', [0xBD, 0xF7]), 
    ('\u{8F1E}', [0xBD, 0xFE]), ('\u{8F1F}', [0xBD, 0xF9]), ('\u{8F20}', [0xE8, 0x4B]), 
    ('\u{8F23}', [0xE8, 0x4C]), ('\u{8F24}', [0xE8, 0x48]), ('\u{8F25}', [0xBE, 0x40]), 
    ('\u{8F26}', [0xBD, 0xFB]), ('\u{8F29}', [0xBD, 0xFA]), ('\u{8F2A}', [0xBD, 0xFC]), 
    ('\u{8F2C}', [0xE8, 0x47]), ('\u{8F2D}', [0x90, 0x4D]), ('\u{8F2E}', [0xEB, 0xCA]), 
    ('\u{8F2F}', [0xBF, 0xE8]), ('\u{8F30}', [0x95, 0xCB]), ('\u{8F32}', [0xEB, 0xCC]), 
    ('\u{8F33}', [0xBF, 0xEA]), ('\u{8F34}', [0xEB, 0xCF]), ('\u{8F35}', [0xEB, 0xCB]), 
    ('\u{8F36}', [0x9C, 0x42]), ('\u{8F37}', [0xEB, 0xCE]), ('\u{8F38}', [0xBF, 0xE9]), 
    ('\u{8F39}', [0xEB, 0xCD]), ('\u{8F3B}', [0xBF, 0xE7]), ('\u{8F3E}', [0xC1, 0xD3]), 
    ('\u{8F3F}', [0xC1, 0xD6]), ('\u{8F40}', [0xEE, 0xC1]), ('\u{8F41}', [0x97, 0xE2]), 
    ('\u{8F42}', [0xC1, 0xD4]), ('\u{8F43}', [0xEE, 0xC0]), ('\u{8F44}', [0xC1, 0xD2]), 
    ('\u{8F45}', [0xC1, 0xD5]), ('\u{8F46}', [0xF1, 0x46]), ('\u{8F47}', [0xF1, 0x47]), 
    ('\u{8F48}', [0xF1, 0x48]), ('\u{8F49}', [0xC2, 0xE0]), ('\u{8F4A}', [0x95, 0xCC]), 
"#

/-- src/generated/whatwg/big5_whatwg_tables.rs.inc:7089-7216 -/
noncomputable def encode36 : List Text := lines! r#"    ('\u{8F4B}', [0xF1, 0x49]), ('\u{8F4D}', [0xC2, 0xE1]), ('\u{8F4E}', [0xC3, 0xE2]), 
    ('\u{8F4F}', [0xF3, 0x58]), ('\u{8F50}', [0xF3, 0x59]), ('\u{8F51}', [0xF3, 0x57]), 
    ('\u{8F52}', [0xF3, 0x56]), ('\u{8F53}', [0xF3, 0x5A]), ('\u{8F54}', [0xC3, 0xE1]), 
    ('\u{8F55}', [0xF4, 0xDD]), ('\u{8F56}', [0xF4, 0xDB]), ('\u{8F57}', [0xF4, 0xDC]), 
    ('\u{8F58}', [0xF4, 0xDE]), ('\u{8F59}', [0xF4, 0xDA]), ('\u{8F5A}', [0xF4, 0xDF]), 
    ('\u{8F5B}', [0xF6, 0x58]), ('\u{8F5C}', [0x9F, 0x78]), ('\u{8F5D}', [0xF6, 0x59]), 
    ('\u{8F5E}', [0xF6, 0x57]), ('\u{8F5F}', [0xC5, 0x46]), ('\u{8F60}', [0xF7, 0x64]), 
    ('\u{8F61}', [0xC5, 0xAF]), ('\u{8F62}', [0xF7, 0x65]), ('\u{8F63}', [0xF8, 0x48]), 
    ('\u{8F64}', [0xF8, 0x47]), ('\u{8F66}', [0x89, 0x7C]), ('\u{8F67}', [0x89, 0x7D]), 
    ('\u{8F6E}', [0x89, 0x7E]), ('\u{8F93}', [0x99, 0x5D]), ('\u{8F9B}', [0xA8, 0xAF]), 
    ('\u{8F9C}', [0xB6, 0x64]), ('\u{8F9F}', [0xB9, 0x40]), ('\u{8FA0}', [0x9B, 0x5A]), 
    ('\u{8FA3}', [0xBB, 0xB6]), ('\u{8FA5}', [0x90, 0x50]), ('\u{8FA6}', [0xBF, 0xEC]), 
    ('\u{8FA7}', [0x8C, 0x4F]), ('\u{8FA8}', [0xBF, 0xEB]), ('\u{8FAD}', [0xC3, 0xE3]), 
    ('\u{8FAE}', [0xC4, 0x7C]), ('\u{8FAF}', [0xC5, 0x47]), ('\u{8FB0}', [0xA8, 0xB0]), 
    ('\u{8FB1}', [0xB0, 0x64]), ('\u{8FB2}', [0xB9, 0x41]), ('\u{8FB3}', [0x90, 0x54]), 
    ('\u{8FB4}', [0xF3, 0x5B]), ('\u{8FB5}', [0xC6, 0xD6]), ('\u{8FB6}', [0x9A, 0xA8]), 
    ('\u{8FB7}', [0x99, 0xEF]), ('\u{8FB8}', [0xFE, 0xEB]), ('\u{8FB9}', [0x9D, 0xA3]), 
    ('\u{8FBA}', [0x9D, 0xA1]), ('\u{8FBB}', [0x99, 0x43]), ('\u{8FBC}', [0x99, 0x45]), 
    ('\u{8FBE}', [0x9D, 0x7D]), ('\u{8FBF}', [0xCB, 0xA6]), ('\u{8FC1}', [0x99, 0xF0]), 
    ('\u{8FC2}', [0xA8, 0xB1]), ('\u{8FC4}', [0xA8, 0xB4]), ('\u{8FC5}', [0xA8, 0xB3]), 
    ('\u{8FC6}', [0xA8, 0xB2]), ('\u{8FC9}', [0xCB, 0xA5]), ('\u{8FCA}', [0x99, 0xF1]), 
    ('\u{8FCB}', [0xCD, 0xCD]), ('\u{8FCC}', [0x99, 0xF2]), ('\u{8FCD}', [0xCD, 0xCF]), 
    ('\u{8FCE}', [0xAA, 0xEF]), ('\u{8FCF}', [0x8C, 0xBC]), ('\u{8FD0}', [0x9D, 0x60]), 
    ('\u{8FD1}', [0xAA, 0xF1]), ('\u{8FD2}', [0xCD, 0xCC]), ('\u{8FD3}', [0xCD, 0xCE]), 
    ('\u{8FD4}', [0xAA, 0xF0]), ('\u{8FD5}', [0xCD, 0xD1]), ('\u{8FD6}', [0xCD, 0xD0]), 
    ('\u{8FD7}', [0xCD, 0xD2]), ('\u{8FDA}', [0xA0, 0xA3]), ('\u{8FE0}', [0xD0, 0xB6]), 
    ('\u{8FE1}', [0xD0, 0xB4]), ('\u{8FE2}', [0xAD, 0x7C]), ('\u{8FE3}', [0xD0, 0xB3]), 
    ('\u{8FE4}', [0xAD, 0xA3]), ('\u{8FE5}', [0xAD, 0x7E]), ('\u{8FE6}', [0xAD, 0x7B]), 
    ('\u{8FE8}', [0xAD, 0xA4]), ('\u{8FEA}', [0xAD, 0x7D]), ('\u{8FEB}', [0xAD, 0xA2]), 
    ('\u{8FED}', [0xAD, 0xA1]), ('\u{8FEE}', [0xD0, 0xB5]), ('\u{8FF0}', [0xAD, 0x7A]), 
    ('\u{8FF4}', [0xB0, 0x6A]), ('\u{8FF5}', [0xD3, 0xEB]), ('\u{8FF6}', [0xD3, 0xF1]), 
    ('\u{8FF7}', [0xB0, 0x67]), ('\u{8FF8}', [0xB0, 0x6E]), ('\u{8FF9}', [0x90, 0x5B]), 
    ('\u{8FFA}', [0xB0, 0x69]), ('\u{8FFB}', [0xD3, 0xEE]), ('\u{8FFC}', [0xD3, 0xF0]), 
    ('\u{8FFD}', [0xB0, 0x6C]), ('\u{8FFE}', [0xD3, 0xEA]), ('\u{8FFF}', [0xD3, 0xED]), 
    ('\u{9000}', [0xB0, 0x68]), ('\u{9001}', [0xB0, 0x65]), ('\u{9002}', [0xD3, 0xEC]), 
    ('\u{9003}', [0xB0, 0x6B]), ('\u{9004}', [0xD3, 0xEF]), ('\u{9005}', [0xB0, 0x6D]), 
    ('\u{9006}', [0xB0, 0x66]), ('\u{9008}', [0x9E, 0xDB]), ('\u{900B}', [0xD7, 0xE3]), 
    ('\u{900C}', [0xD7, 0xE6]), ('\u{900D}', [0xB3, 0x70]), ('\u{900F}', [0xB3, 0x7A]), 
    ('\u{9010}', [0xB3, 0x76]), ('\u{9011}', [0xD7, 0xE4]), ('\u{9012}', [0x9D, 0x79]), 
    ('\u{9014}', [0xB3, 0x7E]), ('\u{9015}', [0xB3, 0x77]), ('\u{9016}', [0xB3, 0x7C]), 
    ('\u{9017}', [0xB3, 0x72]), ('\u{9019}', [0xB3, 0x6F]), ('\u{901A}', [0xB3, 0x71]), 
    ('\u{901B}', [0xB3, 0x7D]), ('\u{901C}', [0xD7, 0xE5]), ('\u{901D}', [0xB3, 0x75]), 
    ('\u{901E}', [0xB3, 0x78]), ('\u{901F}', [0xB3, 0x74]), ('\u{9020}', [0xB3, 0x79]), 
    ('\u{9021}', [0xD7, 0xE7]), ('\u{9022}', [0xB3, 0x7B]), ('\u{9023}', [0xB3, 0x73]), 
    ('\u{9024}', [0xD7, 0xE2]), ('\u{902D}', [0xDC, 0x4D]), ('\u{902E}', [0xB6, 0x65]), 
    ('\u{902F}', [0xDC, 0x4F]), ('\u{9031}', [0xB6, 0x67]), ('\u{9032}', [0xB6, 0x69]), 
    ('\u{9033}', [0x99, 0xF3]), ('\u{9034}', [0xDC, 0x4E]), ('\u{9035}', [0xB6, 0x66]), 
    ('\u{9036}', [0xB6, 0x6A]), ('\u{9037}', [0x90, 0x62]), ('\u{9038}', [0xB6, 0x68]), 
    ('\u{903C}', [0xB9, 0x47]), ('\u{903D}', [0xE0, 0xA3]), ('\u{903E}', [0xB9, 0x4F]), 
    ('\u{903F}', [0xE0, 0x7E]), ('\u{9041}', [0xB9, 0x50]), ('\u{9042}', [0xB9, 0x45]), 
    ('\u{9044}', [0xE0, 0xA1]), ('\u{9046}', [0x87, 0xBD]), ('\u{9047}', [0xB9, 0x4A]), 
    ('\u{9049}', [0xE0, 0xA2]), ('\u{904A}', [0xB9, 0x43]), ('\u{904B}', [0xB9, 0x42]), 
    ('\u{904C}', [0x9F, 0x55]), ('\u{904D}', [0xB9, 0x4D]), ('\u{904E}', [0xB9, 0x4C]), 
    ('\u{904F}', [0xB9, 0x4B]), ('\u{9050}', [0xB9, 0x49]), ('\u{9051}', [0xB9, 0x4E]), 
    ('\u{9052}', [0xE0, 0x7D]), ('\u{9053}', [0xB9, 0x44]), ('\u{9054}', [0xB9, 0x46]), 
    ('\u{9055}', [0xB9, 0x48]), ('\u{9056}', [0x9B, 0xF9]), ('\u{9058}', [0xBB, 0xB8]), 
    ('\u{9059}', [0xBB, 0xBB]), ('\u{905B}', [0xBB, 0xBF]), ('\u{905C}', [0xBB, 0xB9]), 
    ('\u{905D}', [0xBB, 0xBE]), ('\u{905E}', [0xBB, 0xBC]), ('\u{9060}', [0xBB, 0xB7]), 
    ('\u{9061}', [0x90, 0x65]), ('\u{9062}', [0xBB, 0xBD]), ('\u{9063}', [0xBB, 0xBA]), 
    ('\u{9064}', [0x96, 0xE0]), ('\u{9067}', [0xE8, 0x52]), ('\u{9068}', [0xBE, 0x43]), 
    ('\u{9069}', [0xBE, 0x41]), ('\u{906B}', [0xE8, 0x53]), ('\u{906C}', [0x98, 0xBE]), 
    ('\u{906D}', [0xBE, 0x44]), ('\u{906E}', [0xBE, 0x42]), ('\u{906F}', [0xE8, 0x51]), 
    ('\u{9070}', [0xE8, 0x50]), ('\u{9072}', [0xBF, 0xF0]), ('\u{9073}', [0xE8, 0x4F]), 
    ('\u{9074}', [0xBF, 0xEE]), ('\u{9075}', [0xBF, 0xED]), ('\u{9076}', [0xEB, 0xD0]), 
    ('\u{9077}', [0xBE, 0x45]), ('\u{9078}', [0xBF, 0xEF]), ('\u{9079}', [0xEB, 0xD1]), 
    ('\u{907A}', [0xBF, 0xF2]), ('\u{907B}', [0xEB, 0xD2]), ('\u{907C}', [0xBF, 0xF1]), 
    ('\u{907D}', [0xC1, 0xD8]), ('\u{907E}', [0xEE, 0xC3]), ('\u{907F}', [0xC1, 0xD7]), 
    ('\u{9080}', [0xC1, 0xDC]), ('\u{9081}', [0xC1, 0xDA]), ('\u{9082}', [0xC1, 0xDB]), 
    ('\u{9083}', [0xC2, 0xE3]), ('\u{9084}', [0xC1, 0xD9]), ('\u{9085}', [0xEE, 0xC2]), 
    ('\u{9086}', [0xEB, 0xD3]), ('\u{9087}', [0xC2, 0xE2]), ('\u{9088}', [0xC2, 0xE4]), 
    ('\u{908A}', [0xC3, 0xE4]), ('\u{908B}', [0xC3, 0xE5]), ('\u{908D}', [0xF4, 0xE0]), 
    ('\u{908F}', [0xC5, 0xDE]), ('\u{9090}', [0xC5, 0xDD]), ('\u{9091}', [0xA8, 0xB6]), 
    ('\u{9094}', [0xCA, 0x55]), ('\u{9095}', [0xB0, 0x6F]), ('\u{9097}', [0x95, 0xD9]), 
    ('\u{9098}', [0xCA, 0x53]), ('\u{9099}', [0xCA, 0x51]), ('\u{909B}', [0xCA, 0x54]), 
    ('\u{909E}', [0xCB, 0xAA]), ('\u{909F}', [0xCB, 0xA7]), ('\u{90A0}', [0xCB, 0xAC]), 
    ('\u{90A1}', [0xCB, 0xA8]), ('\u{90A2}', [0xA8, 0xB7]), ('\u{90A3}', [0xA8, 0xBA]), 
    ('\u{90A5}', [0xCB, 0xA9]), ('\u{90A6}', [0xA8, 0xB9]), ('\u{90A7}', [0xCB, 0xAB]), 
    ('\u{90A8}', [0x90, 0x68]), ('\u{90AA}', [0xA8, 0xB8]), ('\u{90AE}', [0x90, 0x6C]), 
    ('\u{90AF}', [0xCD, 0xD5]), ('\u{90B0}', [0xCD, 0xD7]), ('\u{90B1}', [0xAA, 0xF4]), 
    ('\u{90B2}', [0xCD, 0xD3]), ('\u{90B3}', [0xCD, 0xD6]), ('\u{90B4}', [0xCD, 0xD4]), 
    ('\u{90B5}', [0xAA, 0xF2]), ('\u{90B6}', [0xAA, 0xF5]), ('\u{90B8}', [0xAA, 0xF3]), 
    ('\u{90BB}', [0x95, 0xD8]), ('\u{90BD}', [0xD0, 0xB8]), ('\u{90BE}', [0xD0, 0xBC]), 
    ('\u{90BF}', [0xD0, 0xB9]), ('\u{90C1}', [0xAD, 0xA7]), ('\u{90C3}', [0xAD, 0xA8]), 
    ('\u{90C4}', [0x90, 0x6A]), ('\u{90C5}', [0xD0, 0xBB]), ('\u{90C7}', [0xD0, 0xBD]), 
    ('\u{90C8}', [0xD0, 0xBF]), ('\u{90CA}', [0xAD, 0xA5]), ('\u{90CB}', [0xD0, 0xBE]), 
    ('\u{90CE}', [0xAD, 0xA6]), ('\u{90D4}', [0xD7, 0xEE]), ('\u{90D5}', [0xD0, 0xBA]), 
    ('\u{90D6}', [0xD3, 0xF2]), ('\u{90D7}', [0xD3, 0xFB]), ('\u{90D8}', [0xD3, 0xF9]), 
    ('\u{90D9}', [0xD3, 0xF4]), ('\u{90DA}', [0xD3, 0xF5]), ('\u{90DB}', [0xD3, 0xFA]), 
    ('\u{90DC}', [0xD3, 0xFC]), ('\u{90DD}', [0xB0, 0x71]), ('\u{90DF}', [0xD3, 0xF7]), 
    ('\u{90E0}', [0xD3, 0xF3]), ('\u{90E1}', [0xB0, 0x70]), ('\u{90E2}', [0xB0, 0x72]), 
    ('\u{90E3}', [0xD3, 0xF6]), ('\u{90E4}', [0xD3, 0xFD]), ('\u{90E5}', [0xD3, 0xF8]), 
    ('\u{90E8}', [0xB3, 0xA1]), ('\u{90E9}', [0xD7, 0xF1]), ('\u{90EA}', [0xD7, 0xE9]), 
    ('\u{90EB}', [0xD7, 0xEF]), ('\u{90EC}', [0xD7, 0xF0]), ('\u{90ED}', [0xB3, 0xA2]), 
    ('\u{90EF}', [0xD7, 0xE8]), ('\u{90F0}', [0xD7, 0xEA]), ('\u{90F1}', [0xD0, 0xB7]), 
    ('\u{90F2}', [0xD7, 0xEC]), ('\u{90F3}', [0xD7, 0xED]), ('\u{90F4}', [0xD7, 0xEB]), 
    ('\u{90F5}', [0xB6, 0x6C]), ('\u{90F9}', [0xDC, 0x56]), ('\u{90FA}', [0xEB, 0xD4]), 
    ('\u{90FB}', [0xDC, 0x57]), ('\u{90FC}', [0xDC, 0x54]), ('\u{90FD}', [0x90, 0x6D]), 
    ('\u{90FE}', [0xB6, 0x6E]), ('\u{90FF}', [0xDC, 0x53]), ('\u{9100}', [0xDC, 0x59]), 
    ('\u{9101}', [0xDC, 0x58]), ('\u{9102}', [0xB6, 0x6B]), ('\u{9103}', [0xDC, 0x5C]), 
    ('\u{9104}', [0x9C, 0x68]), ('\u{9105}', [0xDC, 0x5B]), ('\u{9106}', [0xDC, 0x50]), 
    ('\u{9107}', [0xDC, 0x5A]), ('\u{9108}', [0xDC, 0x55]), ('\u{9109}', [0xB6, 0x6D]), 
    ('\u{910B}', [0xE0, 0xAA]), ('\u{910D}', [0xE0, 0xA5]), ('\u{910E}', [0xE0, 0xAB]), 
    ('\u{910F}', [0xE0, 0xA6]), ('\u{9110}', [0xE0, 0xA4]), ('\u{9111}', [0xE0, 0xA7]), 
    ('\u{9112}', [0xB9, 0x51]), ('\u{9114}', [0xE0, 0xA9]), ('\u{9116}', [0xE0, 0xA8]), 
    ('\u{9117}', [0xB9, 0x52]), ('\u{9118}', [0xBB, 0xC1]), ('\u{9119}', [0xBB, 0xC0]), 
    ('\u{911A}', [0xE4, 0x6E]), ('\u{911B}', [0xE4, 0x71]), ('\u{911C}', [0xE4, 0x69]), 
    ('\u{911D}', [0xE4, 0x6D]), ('\u{911E}', [0xBB, 0xC2]), ('\u{911F}', [0xE4, 0x6C]), 
    ('\u{9120}', [0xE4, 0x6A]), ('\u{9121}', [0xE4, 0x70]), ('\u{9122}', [0xE4, 0x6B]), 
    ('\u{9123}', [0xE4, 0x68]), ('\u{9124}', [0xE4, 0x6F]), ('\u{9126}', [0xE8, 0x59]), 
    ('\u{9127}', [0xBE, 0x48]), ('\u{9128}', [0xF1, 0x4A]), ('\u{9129}', [0xE8, 0x56]), 
    ('\u{912A}', [0xE8, 0x57]), ('\u{912B}', [0xE8, 0x55]), ('\u{912C}', [0xDC, 0x51]), 
    ('\u{912D}', [0xBE, 0x47]), ('\u{912E}', [0xE8, 0x5A]), ('\u{912F}', [0xE8, 0x54]), 
    ('\u{9130}', [0xBE, 0x46]), ('\u{9131}', [0xBE, 0x49]), ('\u{9132}', [0xE8, 0x58]), 
    ('\u{9133}', [0xEB, 0xD5]), ('\u{9134}', [0xBF, 0xF3]), ('\u{9135}', [0xEB, 0xD6]), 
    ('\u{9136}', [0xEB, 0xD7]), ('\u{9138}', [0xEE, 0xC4]), ('\u{9139}', [0xC1, 0xDD]), 
    ('\u{913A}', [0xF1, 0x4B]), ('\u{913B}', [0xF1, 0x4C]), ('\u{913E}', [0xF1, 0x4D]), 
    ('\u{913F}', [0xF3, 0x5D]), ('\u{9140}', [0xF3, 0x5C]), ('\u{9141}', [0xF4, 0xE2]), 
    ('\u{9143}', [0xF4, 0xE1]), ('\u{9144}', [0xF6, 0x5B]), ('\u{9145}', [0xF6, 0x5C]), 
    ('\u{9146}', [0xF6, 0x5A]), ('\u{9147}', [0xF7, 0x66]), ('\u{9148}', [0xC5, 0xB0]), 
    ('\u{9149}', [0xA8, 0xBB]), ('\u{914A}', [0xAD, 0xAA]), ('\u{914B}', [0xAD, 0xA9]), 
    ('\u{914C}', [0xB0, 0x75]), ('\u{914D}', [0xB0, 0x74]), ('\u{914E}', [0xD4, 0x40]), 
    ('\u{914F}', [0xD4, 0x41]), ('\u{9150}', [0xD3, 0xFE]), ('\u{9151}', [0x9F, 0xB2]), 
    ('\u{9152}', [0xB0, 0x73]), ('\u{9153}', [0xD7, 0xF5]), ('\u{9155}', [0xD7, 0xF6]), 
    ('\u{9156}', [0xD7, 0xF2]), ('\u{9157}', [0xB3, 0xA4]), ('\u{9158}', [0xD7, 0xF3]), 
    ('\u{9159}', [0x9F, 0xAE]), ('\u{915A}', [0xD7, 0xF4]), ('\u{915C}', [0x9F, 0xB0]), 
    ('\u{915E}', [0x89, 0xAD]), ('\u{915F}', [0xDC, 0x5F]), ('\u{9160}', [0xDC, 0x61]), 
    ('\u{9161}', [0xDC, 0x5D]), ('\u{9162}', [0xDC, 0x60]), ('\u{9163}', [0xB6, 0x6F]), 
    ('\u{9164}', [0xDC, 0x5E]), ('\u{9165}', [0xB6, 0x70]), ('\u{9167}', [0x90, 0x6E]), 
"#

/-- src/generated/whatwg/big5_whatwg_tables.rs.inc:7217-7344 -/
noncomputable def encode37 : List Text := lines! r#"    ('\u{9168}', [0xDD, 0x73]), ('\u{9169}', [0xB9, 0x55]), ('\u{916A}', [0xB9, 0x54]), 
    ('\u{916C}', [0xB9, 0x53]), ('\u{916E}', [0xE0, 0xAC]), ('\u{916F}', [0xE0, 0xAD]), 
    ('\u{9170}', [0x9E, 0x71]), ('\u{9172}', [0xE4, 0x73]), ('\u{9173}', [0xE4, 0x75]), 
    ('\u{9174}', [0xBB, 0xC6]), ('\u{9175}', [0xBB, 0xC3]), ('\u{9176}', [0x9E, 0x4A]), 
    ('\u{9177}', [0xBB, 0xC5]), ('\u{9178}', [0xBB, 0xC4]), ('\u{9179}', [0xE4, 0x74]), 
    ('\u{917A}', [0xE4, 0x72]), ('\u{917C}', [0x9F, 0xDC]), ('\u{9180}', [0xE8, 0x61]), 
    ('\u{9181}', [0xE8, 0x5E]), ('\u{9182}', [0xE8, 0x5F]), ('\u{9183}', [0xBE, 0x4D]), 
    ('\u{9184}', [0xE8, 0x60]), ('\u{9185}', [0xE8, 0x5B]), ('\u{9186}', [0xE8, 0x5C]), 
    ('\u{9187}', [0xBE, 0x4A]), ('\u{9189}', [0xBE, 0x4B]), ('\u{918A}', [0xE8, 0x5D]), 
    ('\u{918B}', [0xBE, 0x4C]), ('\u{918C}', [0x89, 0xAB]), ('\u{918D}', [0xEB, 0xDB]), 
    ('\u{918E}', [0x9F, 0xB8]), ('\u{918F}', [0xEB, 0xDC]), ('\u{9190}', [0xEB, 0xD9]), 
    ('\u{9191}', [0xEB, 0xDA]), ('\u{9192}', [0xBF, 0xF4]), ('\u{9193}', [0xEB, 0xD8]), 
    ('\u{9199}', [0xEE, 0xC8]), ('\u{919A}', [0xEE, 0xC5]), ('\u{919B}', [0xEE, 0xC7]), 
    ('\u{919C}', [0xC1, 0xE0]), ('\u{919D}', [0xEE, 0xCB]), ('\u{919E}', [0xC1, 0xDF]), 
    ('\u{919F}', [0xEE, 0xC9]), ('\u{91A0}', [0xEE, 0xCC]), ('\u{91A1}', [0xEE, 0xCA]), 
    ('\u{91A2}', [0xEE, 0xC6]), ('\u{91A3}', [0xC1, 0xDE]), ('\u{91A5}', [0xF1, 0x4F]), 
    ('\u{91A7}', [0xF1, 0x50]), ('\u{91A8}', [0xF1, 0x4E]), ('\u{91A9}', [0x90, 0x70]), 
    ('\u{91AA}', [0xF1, 0x52]), ('\u{91AB}', [0xC2, 0xE5]), ('\u{91AC}', [0xC2, 0xE6]), 
    ('\u{91AD}', [0xF3, 0x5F]), ('\u{91AE}', [0xC3, 0xE7]), ('\u{91AF}', [0xF1, 0x51]), 
    ('\u{91B0}', [0xF3, 0x5E]), ('\u{91B1}', [0xC3, 0xE6]), ('\u{91B2}', [0xF4, 0xE5]), 
    ('\u{91B3}', [0xF4, 0xE6]), ('\u{91B4}', [0xC4, 0xBF]), ('\u{91B5}', [0xF4, 0xE4]), 
    ('\u{91B6}', [0x8B, 0x63]), ('\u{91B7}', [0xF4, 0xE3]), ('\u{91B9}', [0xF6, 0x5D]), 
    ('\u{91BA}', [0xC5, 0x48]), ('\u{91BB}', [0x95, 0xDC]), ('\u{91BC}', [0xF8, 0x49]), 
    ('\u{91BD}', [0xF8, 0xC8]), ('\u{91BE}', [0xF8, 0xC7]), ('\u{91C0}', [0xC6, 0x43]), 
    ('\u{91C1}', [0xC6, 0x5D]), ('\u{91C2}', [0xF8, 0xC9]), ('\u{91C3}', [0xF9, 0x71]), 
    ('\u{91C4}', [0x90, 0x71]), ('\u{91C5}', [0xC6, 0x6F]), ('\u{91C6}', [0xA8, 0xBC]), 
    ('\u{91C7}', [0xAA, 0xF6]), ('\u{91C9}', [0xB9, 0x56]), ('\u{91CB}', [0xC4, 0xC0]), 
    ('\u{91CC}', [0xA8, 0xBD]), ('\u{91CD}', [0xAD, 0xAB]), ('\u{91CE}', [0xB3, 0xA5]), 
    ('\u{91CF}', [0xB6, 0x71]), ('\u{91D0}', [0xC2, 0xE7]), ('\u{91D1}', [0xAA, 0xF7]), 
    ('\u{91D3}', [0xD0, 0xC1]), ('\u{91D4}', [0x9B, 0xDE]), ('\u{91D5}', [0xD4, 0x42]), 
    ('\u{91D6}', [0xFC, 0x5E]), ('\u{91D7}', [0xB0, 0x78]), ('\u{91D8}', [0xB0, 0x76]), 
    ('\u{91D9}', [0xB0, 0x7A]), ('\u{91DA}', [0xD4, 0x44]), ('\u{91DC}', [0xB0, 0x79]), 
    ('\u{91DD}', [0xB0, 0x77]), ('\u{91DF}', [0x89, 0x49]), ('\u{91E2}', [0xD4, 0x43]), 
    ('\u{91E3}', [0xB3, 0xA8]), ('\u{91E4}', [0xD7, 0xFC]), ('\u{91E5}', [0x96, 0x5B]), 
    ('\u{91E6}', [0xB3, 0xA7]), ('\u{91E7}', [0xB3, 0xA9]), ('\u{91E8}', [0xD8, 0x42]), 
    ('\u{91E9}', [0xB3, 0xAB]), ('\u{91EA}', [0xD7, 0xFE]), ('\u{91EB}', [0xD8, 0x40]), 
    ('\u{91EC}', [0xD7, 0xF7]), ('\u{91ED}', [0xB3, 0xAA]), ('\u{91EE}', [0xD8, 0x43]), 
    ('\u{91F1}', [0xD7, 0xF9]), ('\u{91F3}', [0xD7, 0xFA]), ('\u{91F4}', [0xD7, 0xF8]), 
    ('\u{91F5}', [0xB3, 0xA6]), ('\u{91F6}', [0x8C, 0x50]), ('\u{91F7}', [0xD8, 0x41]), 
    ('\u{91F8}', [0xD7, 0xFB]), ('\u{91F9}', [0xD7, 0xFD]), ('\u{91FA}', [0x94, 0xA6]), 
    ('\u{91FD}', [0xDC, 0x6D]), ('\u{91FE}', [0x8F, 0xD5]), ('\u{91FF}', [0xDC, 0x6C]), 
    ('\u{9200}', [0xDC, 0x6A]), ('\u{9201}', [0xDC, 0x62]), ('\u{9202}', [0xDC, 0x71]), 
    ('\u{9203}', [0xDC, 0x65]), ('\u{9204}', [0xDC, 0x6F]), ('\u{9205}', [0xDC, 0x76]), 
    ('\u{9206}', [0xDC, 0x6E]), ('\u{9207}', [0xB6, 0x79]), ('\u{9208}', [0x9E, 0x73]), 
    ('\u{9209}', [0xB6, 0x75]), ('\u{920A}', [0xDC, 0x63]), ('\u{920C}', [0xDC, 0x69]), 
    ('\u{920D}', [0xB6, 0x77]), ('\u{920E}', [0x90, 0x75]), ('\u{920F}', [0xDC, 0x68]), 
    ('\u{9210}', [0xB6, 0x78]), ('\u{9211}', [0xB6, 0x7A]), ('\u{9212}', [0xDC, 0x6B]), 
    ('\u{9213}', [0x99, 0xF7]), ('\u{9214}', [0xB6, 0x72]), ('\u{9215}', [0xB6, 0x73]), 
    ('\u{9216}', [0xDC, 0x77]), ('\u{9217}', [0xDC, 0x75]), ('\u{9218}', [0x87, 0xB2]), 
    ('\u{9219}', [0xDC, 0x74]), ('\u{921A}', [0xDC, 0x66]), ('\u{921C}', [0xDC, 0x72]), 
    ('\u{921E}', [0xB6, 0x76]), ('\u{9221}', [0x8C, 0xBF]), ('\u{9223}', [0xB6, 0x74]), 
    ('\u{9224}', [0xDC, 0x73]), ('\u{9225}', [0xDC, 0x64]), ('\u{9226}', [0xDC, 0x67]), 
    ('\u{9227}', [0xDC, 0x70]), ('\u{9228}', [0x99, 0xF9]), ('\u{922A}', [0x96, 0x63]), 
    ('\u{922B}', [0x95, 0xB9]), ('\u{922D}', [0xE4, 0xBA]), ('\u{922E}', [0xE0, 0xB7]), 
    ('\u{9230}', [0xE0, 0xB0]), ('\u{9231}', [0xE0, 0xC3]), ('\u{9232}', [0xE0, 0xCC]), 
    ('\u{9233}', [0xE0, 0xB3]), ('\u{9234}', [0xB9, 0x61]), ('\u{9235}', [0x94, 0xD4]), 
    ('\u{9236}', [0xE0, 0xC0]), ('\u{9237}', [0xB9, 0x57]), ('\u{9238}', [0xB9, 0x59]), 
    ('\u{9239}', [0xB9, 0x65]), ('\u{923A}', [0xE0, 0xB1]), ('\u{923C}', [0xFC, 0xFA]), 
    ('\u{923D}', [0xB9, 0x5A]), ('\u{923E}', [0xB9, 0x5C]), ('\u{923F}', [0xB9, 0x66]), 
    ('\u{9240}', [0xB9, 0x5B]), ('\u{9241}', [0x90, 0x77]), ('\u{9244}', [0x90, 0xAB]), 
    ('\u{9245}', [0xB9, 0x64]), ('\u{9246}', [0xE0, 0xB9]), ('\u{9248}', [0xE0, 0xAE]), 
    ('\u{9249}', [0xB9, 0x62]), ('\u{924A}', [0xE0, 0xB8]), ('\u{924B}', [0xB9, 0x5E]), 
    ('\u{924C}', [0xE0, 0xCA]), ('\u{924D}', [0xB9, 0x63]), ('\u{924E}', [0xE0, 0xC8]), 
    ('\u{924F}', [0xE0, 0xBC]), ('\u{9250}', [0xE0, 0xC6]), ('\u{9251}', [0xB9, 0x60]), 
    ('\u{9252}', [0xE0, 0xAF]), ('\u{9253}', [0xE0, 0xC9]), ('\u{9254}', [0xE0, 0xC4]), 
    ('\u{9255}', [0x9D, 0x4D]), ('\u{9256}', [0xE0, 0xCB]), ('\u{9257}', [0xB9, 0x58]), 
    ('\u{9258}', [0x99, 0xFA]), ('\u{925A}', [0xB9, 0x67]), ('\u{925B}', [0xB9, 0x5D]), 
    ('\u{925D}', [0x92, 0xE3]), ('\u{925E}', [0xE0, 0xB5]), ('\u{925F}', [0x97, 0xBB]), 
    ('\u{9260}', [0xE0, 0xBD]), ('\u{9261}', [0xE0, 0xC1]), ('\u{9262}', [0x90, 0x78]), 
    ('\u{9263}', [0xE0, 0xC5]), ('\u{9264}', [0xB9, 0x5F]), ('\u{9265}', [0xE0, 0xB4]), 
    ('\u{9266}', [0xE0, 0xB2]), ('\u{9267}', [0xE0, 0xBE]), ('\u{926B}', [0x99, 0xFB]), 
    ('\u{926C}', [0xE0, 0xBB]), ('\u{926D}', [0xE0, 0xBA]), ('\u{926E}', [0x97, 0xE0]), 
    ('\u{926F}', [0xE0, 0xBF]), ('\u{9270}', [0xE0, 0xC2]), ('\u{9272}', [0xE0, 0xC7]), 
    ('\u{9276}', [0xE4, 0x78]), ('\u{9277}', [0x96, 0xDC]), ('\u{9278}', [0xBB, 0xC7]), 
    ('\u{9279}', [0xE4, 0xA4]), ('\u{927A}', [0xE4, 0x7A]), ('\u{927B}', [0xBB, 0xCC]), 
    ('\u{927C}', [0xBB, 0xD0]), ('\u{927D}', [0xE4, 0xAD]), ('\u{927E}', [0xE4, 0xB5]), 
    ('\u{927F}', [0xE4, 0xA6]), ('\u{9280}', [0xBB, 0xC8]), ('\u{9281}', [0x9C, 0xA8]), 
    ('\u{9282}', [0xE4, 0xAA]), ('\u{9283}', [0xE0, 0xB6]), ('\u{9284}', [0x97, 0x72]), 
    ('\u{9285}', [0xBB, 0xC9]), ('\u{9286}', [0xE4, 0xB1]), ('\u{9287}', [0xE4, 0xB6]), 
    ('\u{9288}', [0xE4, 0xAE]), ('\u{9289}', [0x94, 0x40]), ('\u{928A}', [0xE4, 0xB0]), 
    ('\u{928B}', [0xE4, 0xB9]), ('\u{928C}', [0xE4, 0xB2]), ('\u{928D}', [0xE4, 0x7E]), 
    ('\u{928E}', [0xE4, 0xA9]), ('\u{928F}', [0x92, 0xF2]), ('\u{9291}', [0xBB, 0xD1]), 
    ('\u{9293}', [0xBB, 0xCD]), ('\u{9294}', [0xE4, 0x7C]), ('\u{9295}', [0xE4, 0xAB]), 
    ('\u{9296}', [0xBB, 0xCB]), ('\u{9297}', [0xE4, 0xA5]), ('\u{9298}', [0xBB, 0xCA]), 
    ('\u{9299}', [0xE4, 0xB3]), ('\u{929A}', [0xE4, 0xA2]), ('\u{929B}', [0xE4, 0x79]), 
    ('\u{929C}', [0xBB, 0xCE]), ('\u{929D}', [0xE4, 0xB8]), ('\u{92A0}', [0xE4, 0x7B]), 
    ('\u{92A1}', [0xE4, 0xAF]), ('\u{92A2}', [0xE4, 0xAC]), ('\u{92A3}', [0xE4, 0xA7]), 
    ('\u{92A4}', [0xE4, 0x77]), ('\u{92A5}', [0xE4, 0x76]), ('\u{92A6}', [0xE4, 0xA1]), 
    ('\u{92A7}', [0xE4, 0xB4]), ('\u{92A8}', [0xBB, 0xCF]), ('\u{92A9}', [0xE4, 0xB7]), 
    ('\u{92AA}', [0xE4, 0x7D]), ('\u{92AB}', [0xE4, 0xA3]), ('\u{92AC}', [0xBE, 0x52]), 
    ('\u{92AE}', [0x99, 0xFD]), ('\u{92B1}', [0x99, 0xFC]), ('\u{92B2}', [0xBE, 0x5A]), 
    ('\u{92B3}', [0xBE, 0x55]), ('\u{92B4}', [0xE8, 0xA4]), ('\u{92B5}', [0xE8, 0xA1]), 
    ('\u{92B6}', [0xE8, 0x67]), ('\u{92B7}', [0xBE, 0x50]), ('\u{92B9}', [0x90, 0x7A]), 
    ('\u{92BA}', [0x96, 0x4A]), ('\u{92BB}', [0xBE, 0x4F]), ('\u{92BC}', [0xBE, 0x56]), 
    ('\u{92BE}', [0x96, 0xD8]), ('\u{92BF}', [0x99, 0xFE]), ('\u{92C0}', [0xE8, 0x65]), 
    ('\u{92C1}', [0xBE, 0x54]), ('\u{92C2}', [0xE8, 0x71]), ('\u{92C3}', [0xE8, 0x63]), 
    ('\u{92C4}', [0xE8, 0x64]), ('\u{92C5}', [0xBE, 0x4E]), ('\u{92C6}', [0xE8, 0xA3]), 
    ('\u{92C7}', [0xBE, 0x58]), ('\u{92C8}', [0xE8, 0x74]), ('\u{92C9}', [0xE8, 0x79]), 
    ('\u{92CA}', [0xE8, 0x73]), ('\u{92CB}', [0xEB, 0xEE]), ('\u{92CC}', [0xE8, 0x6F]), 
    ('\u{92CD}', [0xE8, 0x77]), ('\u{92CE}', [0xE8, 0x75]), ('\u{92CF}', [0xE8, 0x68]), 
    ('\u{92D0}', [0xE8, 0x62]), ('\u{92D1}', [0xE8, 0x7D]), ('\u{92D2}', [0xBE, 0x57]), 
    ('\u{92D3}', [0xE8, 0x7E]), ('\u{92D4}', [0x90, 0x4B]), ('\u{92D5}', [0xE8, 0x78]), 
    ('\u{92D7}', [0xE8, 0x6D]), ('\u{92D8}', [0xE8, 0x6B]), ('\u{92D9}', [0xE8, 0x66]), 
    ('\u{92DB}', [0xFA, 0x41]), ('\u{92DD}', [0xE8, 0x6E]), ('\u{92DE}', [0xE8, 0x7B]), 
    ('\u{92DF}', [0xE8, 0x6A]), ('\u{92E0}', [0xE8, 0x7A]), ('\u{92E1}', [0xE8, 0xA2]), 
    ('\u{92E3}', [0x9A, 0x40]), ('\u{92E4}', [0xBE, 0x53]), ('\u{92E5}', [0x97, 0x5B]), 
    ('\u{92E6}', [0xE8, 0x76]), ('\u{92E7}', [0xE8, 0x7C]), ('\u{92E8}', [0xE8, 0x72]), 
    ('\u{92E9}', [0xE8, 0x6C]), ('\u{92EA}', [0xBE, 0x51]), ('\u{92EB}', [0x9A, 0x41]), 
    ('\u{92EC}', [0x91, 0xDD]), ('\u{92EE}', [0xE4, 0xA8]), ('\u{92EF}', [0xE8, 0x70]), 
    ('\u{92F0}', [0xBE, 0x59]), ('\u{92F1}', [0xE8, 0x69]), ('\u{92F2}', [0x93, 0xFC]), 
    ('\u{92F3}', [0x9A, 0x42]), ('\u{92F4}', [0x9A, 0x43]), ('\u{92F6}', [0x96, 0x59]), 
    ('\u{92F7}', [0xEB, 0xF4]), ('\u{92F8}', [0xBF, 0xF7]), ('\u{92F9}', [0xEB, 0xF3]), 
    ('\u{92FA}', [0xEB, 0xF0]), ('\u{92FB}', [0xEC, 0x44]), ('\u{92FC}', [0xBF, 0xFB]), 
    ('\u{92FD}', [0x9A, 0x44]), ('\u{92FE}', [0xEC, 0x41]), ('\u{92FF}', [0xEB, 0xF8]), 
    ('\u{9300}', [0xEC, 0x43]), ('\u{9301}', [0xEB, 0xE9]), ('\u{9302}', [0xEB, 0xF6]), 
    ('\u{9303}', [0x90, 0x51]), ('\u{9304}', [0xBF, 0xFD]), ('\u{9306}', [0xEB, 0xE1]), 
    ('\u{9307}', [0x94, 0xBF]), ('\u{9308}', [0xEB, 0xDF]), ('\u{9309}', [0xEC, 0x42]), 
    ('\u{930B}', [0xEC, 0x40]), ('\u{930C}', [0xEB, 0xFE]), ('\u{930D}', [0xEB, 0xED]), 
    ('\u{930E}', [0xEB, 0xEC]), ('\u{930F}', [0xEB, 0xE2]), ('\u{9310}', [0xC0, 0x40]), 
    ('\u{9312}', [0xEB, 0xE8]), ('\u{9313}', [0xEB, 0xF2]), ('\u{9314}', [0xEB, 0xFD]), 
    ('\u{9315}', [0xC0, 0x43]), ('\u{9316}', [0xEC, 0x45]), ('\u{9318}', [0xC1, 0xE8]), 
    ('\u{9319}', [0xC0, 0x45]), ('\u{931A}', [0xBF, 0xFE]), ('\u{931B}', [0xEB, 0xE6]), 
    ('\u{931D}', [0xEB, 0xEF]), ('\u{931E}', [0xEB, 0xDE]), ('\u{931F}', [0xEB, 0xE0]), 
    ('\u{9320}', [0xBF, 0xF5]), ('\u{9321}', [0xC0, 0x42]), ('\u{9322}', [0xBF, 0xFA]), 
    ('\u{9323}', [0xEB, 0xE7]), ('\u{9324}', [0xEB, 0xF7]), ('\u{9325}', [0xEB, 0xF1]), 
    ('\u{9326}', [0xC0, 0x41]), ('\u{9327}', [0xEB, 0xDD]), ('\u{9328}', [0xC1, 0xE3]), 
    ('\u{9329}', [0xEB, 0xF9]), ('\u{932A}', [0xEB, 0xFC]), ('\u{932B}', [0xBF, 0xFC]), 
    ('\u{932C}', [0x90, 0xA2]), ('\u{932D}', [0xEB, 0xEB]), ('\u{932E}', [0xC0, 0x44]), 
"#

/-- src/generated/whatwg/big5_whatwg_tables.rs.inc:7345-7472 -/
noncomputable def encode38 : List Text := lines! r#"    ('\u{932F}', [0xBF, 0xF9]), ('\u{9330}', [0x9C, 0xAB]), ('\u{9331}', [0x97, 0x76]), 
    ('\u{9333}', [0xBF, 0xF8]), ('\u{9334}', [0xEB, 0xF5]), ('\u{9335}', [0xEB, 0xFB]), 
    ('\u{9336}', [0xBF, 0xF6]), ('\u{9338}', [0xEB, 0xE4]), ('\u{9339}', [0xEB, 0xFA]), 
    ('\u{933C}', [0xEB, 0xE5]), ('\u{9340}', [0xFC, 0x55]), ('\u{9341}', [0xFE, 0x45]), 
    ('\u{9342}', [0x94, 0xA8]), ('\u{9343}', [0x9A, 0x45]), ('\u{9344}', [0xFA, 0x4B]), 
    ('\u{9345}', [0x9D, 0xE1]), ('\u{9346}', [0xEB, 0xEA]), ('\u{9347}', [0xEE, 0xD2]), 
    ('\u{9348}', [0x96, 0xD9]), ('\u{9349}', [0xEE, 0xD7]), ('\u{934A}', [0xC1, 0xE5]), 
    ('\u{934B}', [0xC1, 0xE7]), ('\u{934C}', [0xEE, 0xDD]), ('\u{934D}', [0xC1, 0xE1]), 
    ('\u{934E}', [0xEE, 0xEC]), ('\u{934F}', [0xEE, 0xE3]), ('\u{9350}', [0xEE, 0xD8]), 
    ('\u{9351}', [0xEE, 0xD9]), ('\u{9352}', [0xEE, 0xE2]), ('\u{9354}', [0xC1, 0xEE]), 
    ('\u{9355}', [0xEE, 0xE1]), ('\u{9356}', [0xEE, 0xD1]), ('\u{9357}', [0xEE, 0xE0]), 
    ('\u{9358}', [0xEE, 0xD4]), ('\u{9359}', [0xEE, 0xED]), ('\u{935A}', [0xC1, 0xED]), 
    ('\u{935B}', [0xC1, 0xEB]), ('\u{935C}', [0xEE, 0xD5]), ('\u{935E}', [0xEE, 0xE8]), 
    ('\u{935F}', [0x97, 0x74]), ('\u{9360}', [0xEE, 0xDA]), ('\u{9361}', [0xEE, 0xE7]), 
    ('\u{9362}', [0xFD, 0xF5]), ('\u{9363}', [0xEE, 0xE9]), ('\u{9364}', [0xEE, 0xD0]), 
    ('\u{9365}', [0xC1, 0xE6]), ('\u{9366}', [0x92, 0xE5]), ('\u{9367}', [0xEE, 0xEA]), 
    ('\u{9368}', [0x96, 0x45]), ('\u{9369}', [0x91, 0xDA]), ('\u{936A}', [0xEE, 0xDE]), 
    ('\u{936B}', [0x90, 0xA3]), ('\u{936C}', [0xC1, 0xEA]), ('\u{936D}', [0xEE, 0xDB]), 
    ('\u{936E}', [0x92, 0xC8]), ('\u{9370}', [0xC1, 0xEC]), ('\u{9371}', [0xEE, 0xE4]), 
    ('\u{9373}', [0x90, 0xAF]), ('\u{9374}', [0x97, 0xBF]), ('\u{9375}', [0xC1, 0xE4]), 
    ('\u{9376}', [0xEE, 0xD6]), ('\u{9377}', [0xEE, 0xE5]), ('\u{9378}', [0x91, 0x4C]), 
    ('\u{9379}', [0xEE, 0xDF]), ('\u{937A}', [0xEB, 0xE3]), ('\u{937B}', [0xEE, 0xE6]), 
    ('\u{937C}', [0xEE, 0xD3]), ('\u{937D}', [0x96, 0x7A]), ('\u{937E}', [0xC1, 0xE9]), 
    ('\u{9380}', [0xEE, 0xEB]), ('\u{9381}', [0x91, 0xDE]), ('\u{9382}', [0xC1, 0xE2]), 
    ('\u{9383}', [0xEE, 0xCE]), ('\u{9384}', [0x9A, 0x46]), ('\u{9385}', [0xFE, 0xB0]), 
    ('\u{9386}', [0x97, 0x79]), ('\u{9387}', [0x94, 0x6C]), ('\u{9388}', [0xF1, 0x60]), 
    ('\u{9389}', [0xF1, 0x59]), ('\u{938A}', [0xC2, 0xE9]), ('\u{938C}', [0xF1, 0x54]), 
    ('\u{938D}', [0xF1, 0x63]), ('\u{938E}', [0xF1, 0x5B]), ('\u{938F}', [0xEE, 0xDC]), 
    ('\u{9390}', [0x98, 0x58]), ('\u{9391}', [0xF1, 0x65]), ('\u{9392}', [0xF1, 0x55]), 
    ('\u{9394}', [0xC2, 0xE8]), ('\u{9395}', [0xF1, 0x5F]), ('\u{9396}', [0xC2, 0xEA]), 
    ('\u{9397}', [0xC2, 0xF2]), ('\u{9398}', [0xC2, 0xF0]), ('\u{9399}', [0xF1, 0x61]), 
    ('\u{939A}', [0xC2, 0xF1]), ('\u{939B}', [0xF1, 0x57]), ('\u{939C}', [0x92, 0x66]), 
    ('\u{939D}', [0xF1, 0x58]), ('\u{939E}', [0xF1, 0x5D]), ('\u{939F}', [0xF1, 0x62]), 
    ('\u{93A0}', [0x93, 0xFB]), ('\u{93A1}', [0xEE, 0xCD]), ('\u{93A2}', [0xC2, 0xEB]), 
    ('\u{93A3}', [0xF1, 0x6A]), ('\u{93A4}', [0xF1, 0x67]), ('\u{93A5}', [0xF1, 0x6B]), 
    ('\u{93A6}', [0xF1, 0x5E]), ('\u{93A7}', [0xF1, 0x5A]), ('\u{93A8}', [0xF1, 0x68]), 
    ('\u{93A9}', [0xF3, 0x6A]), ('\u{93AA}', [0xF1, 0x5C]), ('\u{93AC}', [0xC2, 0xEE]), 
    ('\u{93AD}', [0x9A, 0x47]), ('\u{93AE}', [0xC2, 0xED]), ('\u{93AF}', [0xEE, 0xCF]), 
    ('\u{93B0}', [0xC2, 0xEF]), ('\u{93B1}', [0xF1, 0x64]), ('\u{93B2}', [0xF1, 0x66]), 
    ('\u{93B3}', [0xC2, 0xEC]), ('\u{93B4}', [0xF1, 0x69]), ('\u{93B5}', [0xF1, 0x53]), 
    ('\u{93B7}', [0xF1, 0x56]), ('\u{93B8}', [0x97, 0x49]), ('\u{93BB}', [0x97, 0x48]), 
    ('\u{93BD}', [0x93, 0x4A]), ('\u{93BF}', [0x9C, 0xE2]), ('\u{93C0}', [0xF3, 0x73]), 
    ('\u{93C2}', [0xF3, 0x63]), ('\u{93C3}', [0xC3, 0xEB]), ('\u{93C4}', [0xF3, 0x71]), 
    ('\u{93C6}', [0x92, 0x64]), ('\u{93C7}', [0xF3, 0x61]), ('\u{93C8}', [0xC3, 0xEC]), 
    ('\u{93CA}', [0xF3, 0x6C]), ('\u{93CB}', [0x91, 0xDF]), ('\u{93CC}', [0xF3, 0x68]), 
    ('\u{93CD}', [0xC3, 0xF1]), ('\u{93CE}', [0xF3, 0x72]), ('\u{93CF}', [0xF3, 0x62]), 
    ('\u{93D0}', [0xF3, 0x65]), ('\u{93D1}', [0xC3, 0xE9]), ('\u{93D2}', [0xF3, 0x74]), 
    ('\u{93D3}', [0xFB, 0x79]), ('\u{93D4}', [0xF3, 0x6D]), ('\u{93D5}', [0xF3, 0x70]), 
    ('\u{93D6}', [0xC3, 0xEF]), ('\u{93D7}', [0xC3, 0xF4]), ('\u{93D8}', [0xC3, 0xF2]), 
    ('\u{93D9}', [0xF3, 0x69]), ('\u{93DA}', [0xF3, 0x64]), ('\u{93DB}', [0x96, 0xD7]), 
    ('\u{93DC}', [0xC3, 0xED]), ('\u{93DD}', [0xC3, 0xEE]), ('\u{93DE}', [0xF3, 0x60]), 
    ('\u{93DF}', [0xC3, 0xEA]), ('\u{93E0}', [0x93, 0x43]), ('\u{93E1}', [0xC3, 0xE8]), 
    ('\u{93E2}', [0xC3, 0xF0]), ('\u{93E3}', [0xF3, 0x6F]), ('\u{93E4}', [0xC3, 0xF3]), 
    ('\u{93E6}', [0xF3, 0x6B]), ('\u{93E7}', [0xF3, 0x75]), ('\u{93E8}', [0xC3, 0xF5]), 
    ('\u{93EC}', [0xF3, 0x67]), ('\u{93EE}', [0xF3, 0x6E]), ('\u{93F0}', [0xFD, 0xCB]), 
    ('\u{93F1}', [0xFE, 0x7A]), ('\u{93F3}', [0x91, 0xDB]), ('\u{93F4}', [0x8C, 0x6A]), 
    ('\u{93F5}', [0xF4, 0xF3]), ('\u{93F6}', [0xF5, 0x42]), ('\u{93F7}', [0xF4, 0xF5]), 
    ('\u{93F8}', [0xF4, 0xFC]), ('\u{93F9}', [0xF3, 0x66]), ('\u{93FA}', [0xF4, 0xFA]), 
    ('\u{93FB}', [0xF4, 0xE9]), ('\u{93FC}', [0xF5, 0x40]), ('\u{93FD}', [0xC4, 0xC3]), 
    ('\u{93FE}', [0xF4, 0xED]), ('\u{93FF}', [0xF4, 0xFE]), ('\u{9400}', [0xF4, 0xF4]), 
    ('\u{9401}', [0x97, 0xAF]), ('\u{9403}', [0xC4, 0xC2]), ('\u{9404}', [0x95, 0xDD]), 
    ('\u{9406}', [0xF5, 0x44]), ('\u{9407}', [0xF4, 0xF6]), ('\u{9408}', [0x93, 0x48]), 
    ('\u{9409}', [0xF4, 0xFB]), ('\u{940A}', [0xF4, 0xFD]), ('\u{940B}', [0xF4, 0xE7]), 
    ('\u{940C}', [0xF5, 0x41]), ('\u{940D}', [0xF4, 0xF2]), ('\u{940E}', [0xF4, 0xF7]), 
    ('\u{940F}', [0xF4, 0xEB]), ('\u{9410}', [0xF4, 0xEF]), ('\u{9411}', [0xF5, 0x43]), 
    ('\u{9412}', [0xF4, 0xF9]), ('\u{9413}', [0xF4, 0xE8]), ('\u{9414}', [0xF4, 0xEC]), 
    ('\u{9415}', [0xF4, 0xEE]), ('\u{9416}', [0xF4, 0xF8]), ('\u{9417}', [0x9A, 0x4B]), 
    ('\u{9418}', [0xC4, 0xC1]), ('\u{9419}', [0xF4, 0xF1]), ('\u{941B}', [0xFC, 0x45]), 
    ('\u{941D}', [0x9A, 0x4D]), ('\u{9420}', [0xF4, 0xEA]), ('\u{9424}', [0x91, 0xBC]), 
    ('\u{9425}', [0x90, 0xE2]), ('\u{9426}', [0x90, 0xB4]), ('\u{9427}', [0x95, 0xE1]), 
    ('\u{9428}', [0xF4, 0xF0]), ('\u{9429}', [0xF6, 0x61]), ('\u{942A}', [0xF6, 0x66]), 
    ('\u{942B}', [0xC5, 0x4F]), ('\u{942C}', [0xF6, 0x68]), ('\u{942D}', [0x9A, 0x4E]), 
    ('\u{942E}', [0xC5, 0x49]), ('\u{942F}', [0x87, 0xAD]), ('\u{9430}', [0xF6, 0x64]), 
    ('\u{9431}', [0xF6, 0x6A]), ('\u{9432}', [0xC5, 0x4E]), ('\u{9433}', [0xC5, 0x4A]), 
    ('\u{9435}', [0xC5, 0x4B]), ('\u{9436}', [0xF6, 0x60]), ('\u{9437}', [0xF6, 0x67]), 
    ('\u{9438}', [0xC5, 0x4D]), ('\u{9439}', [0xF6, 0x65]), ('\u{943A}', [0xC5, 0x4C]), 
    ('\u{943B}', [0xF6, 0x5F]), ('\u{943C}', [0xF6, 0x63]), ('\u{943D}', [0xF6, 0x62]), 
    ('\u{943E}', [0x9A, 0x4F]), ('\u{943F}', [0xF6, 0x5E]), ('\u{9440}', [0xF6, 0x69]), 
    ('\u{9442}', [0xFE, 0x40]), ('\u{9443}', [0xFE, 0x43]), ('\u{9444}', [0xC5, 0xB1]), 
    ('\u{9445}', [0xF7, 0x6D]), ('\u{9446}', [0xF7, 0x70]), ('\u{9447}', [0xF7, 0x6C]), 
    ('\u{9448}', [0xF7, 0x6E]), ('\u{9449}', [0xF7, 0x6F]), ('\u{944A}', [0xF7, 0x69]), 
    ('\u{944B}', [0xF7, 0x6A]), ('\u{944C}', [0xF7, 0x67]), ('\u{944D}', [0x96, 0xDD]), 
    ('\u{944F}', [0xF7, 0x6B]), ('\u{9450}', [0xF7, 0x68]), ('\u{9451}', [0xC5, 0xB2]), 
    ('\u{9452}', [0xC5, 0xB3]), ('\u{9454}', [0x9A, 0x51]), ('\u{9455}', [0xF8, 0x4B]), 
    ('\u{9457}', [0xF8, 0x4D]), ('\u{9458}', [0x96, 0xA7]), ('\u{945B}', [0x90, 0xB0]), 
    ('\u{945D}', [0xF8, 0x4C]), ('\u{945E}', [0xF8, 0x4E]), ('\u{9460}', [0xC5, 0xE0]), 
    ('\u{9462}', [0xF8, 0x4A]), ('\u{9463}', [0xC5, 0xDF]), ('\u{9464}', [0xC5, 0xE1]), 
    ('\u{9465}', [0x9C, 0x4E]), ('\u{9467}', [0x94, 0x43]), ('\u{9468}', [0xF8, 0xCB]), 
    ('\u{9469}', [0xF8, 0xCC]), ('\u{946A}', [0xC6, 0x44]), ('\u{946B}', [0xF8, 0xCA]), 
    ('\u{946C}', [0x8E, 0xBA]), ('\u{946D}', [0xF9, 0x53]), ('\u{946E}', [0xF9, 0x52]), 
    ('\u{946F}', [0xF9, 0x54]), ('\u{9470}', [0xC6, 0x5F]), ('\u{9471}', [0xF9, 0x55]), 
    ('\u{9472}', [0xC6, 0x5E]), ('\u{9473}', [0xF9, 0x56]), ('\u{9474}', [0xF9, 0x72]), 
    ('\u{9475}', [0xF9, 0x75]), ('\u{9476}', [0xF9, 0x74]), ('\u{9477}', [0xC6, 0x68]), 
    ('\u{9478}', [0xF9, 0x73]), ('\u{9479}', [0x9A, 0x52]), ('\u{947B}', [0xFC, 0xC1]), 
    ('\u{947C}', [0xC6, 0x72]), ('\u{947D}', [0xC6, 0x70]), ('\u{947E}', [0xC6, 0x71]), 
    ('\u{947F}', [0xC6, 0x77]), ('\u{9480}', [0xF9, 0xC0]), ('\u{9481}', [0xF9, 0xC1]), 
    ('\u{9482}', [0xF9, 0xBF]), ('\u{9483}', [0xF9, 0xC9]), ('\u{9485}', [0x8B, 0xE9]), 
    ('\u{949F}', [0x9C, 0xAF]), ('\u{94A2}', [0x8B, 0xFD]), ('\u{94C1}', [0x9A, 0xBC]), 
    ('\u{94C3}', [0x9A, 0xB8]), ('\u{94DC}', [0x9A, 0xAE]), ('\u{94F6}', [0x9A, 0xA7]), 
    ('\u{952D}', [0x9A, 0x53]), ('\u{9547}', [0x9D, 0x74]), ('\u{9577}', [0xAA, 0xF8]), 
    ('\u{9578}', [0x8B, 0xEA]), ('\u{957A}', [0xD8, 0x44]), ('\u{957B}', [0xDC, 0x78]), 
    ('\u{957C}', [0xE8, 0xA5]), ('\u{957D}', [0xF3, 0x76]), ('\u{957F}', [0x8B, 0xEB]), 
    ('\u{9580}', [0xAA, 0xF9]), ('\u{9582}', [0xAD, 0xAC]), ('\u{9583}', [0xB0, 0x7B]), 
    ('\u{9585}', [0x90, 0xB2]), ('\u{9586}', [0xD8, 0x45]), ('\u{9588}', [0xD8, 0x46]), 
    ('\u{9589}', [0xB3, 0xAC]), ('\u{958B}', [0xB6, 0x7D]), ('\u{958C}', [0xDC, 0x7A]), 
    ('\u{958D}', [0xDC, 0x79]), ('\u{958E}', [0xB6, 0xA3]), ('\u{958F}', [0xB6, 0x7C]), 
    ('\u{9590}', [0xDC, 0x7B]), ('\u{9591}', [0xB6, 0x7E]), ('\u{9592}', [0xB6, 0xA2]), 
    ('\u{9593}', [0xB6, 0xA1]), ('\u{9594}', [0xB6, 0x7B]), ('\u{9596}', [0x95, 0xE9]), 
    ('\u{9597}', [0x95, 0xE8]), ('\u{9598}', [0xB9, 0x68]), ('\u{9599}', [0x95, 0xE6]), 
    ('\u{959B}', [0xE0, 0xD0]), ('\u{959C}', [0xE0, 0xCE]), ('\u{959E}', [0xE0, 0xCF]), 
    ('\u{959F}', [0xE0, 0xCD]), ('\u{95A0}', [0x90, 0xB5]), ('\u{95A1}', [0xBB, 0xD2]), 
    ('\u{95A2}', [0x9A, 0x54]), ('\u{95A3}', [0xBB, 0xD5]), ('\u{95A4}', [0xBB, 0xD7]), 
    ('\u{95A5}', [0xBB, 0xD6]), ('\u{95A6}', [0x90, 0xB3]), ('\u{95A7}', [0x95, 0xE7]), 
    ('\u{95A8}', [0xBB, 0xD3]), ('\u{95A9}', [0xBB, 0xD4]), ('\u{95AA}', [0x8B, 0x50]), 
    ('\u{95AB}', [0xE8, 0xA7]), ('\u{95AC}', [0xE8, 0xA6]), ('\u{95AD}', [0xBE, 0x5B]), 
    ('\u{95AE}', [0xE8, 0xA8]), ('\u{95B0}', [0xE8, 0xA9]), ('\u{95B1}', [0xBE, 0x5C]), 
    ('\u{95B5}', [0xEC, 0x4D]), ('\u{95B6}', [0xEC, 0x4B]), ('\u{95B7}', [0xEE, 0xF3]), 
    ('\u{95B9}', [0xEC, 0x49]), ('\u{95BA}', [0xEC, 0x4A]), ('\u{95BB}', [0xC0, 0x46]), 
    ('\u{95BC}', [0xEC, 0x46]), ('\u{95BD}', [0xEC, 0x4E]), ('\u{95BE}', [0xEC, 0x48]), 
    ('\u{95BF}', [0xEC, 0x4C]), ('\u{95C0}', [0xEE, 0xEF]), ('\u{95C3}', [0xEE, 0xF1]), 
    ('\u{95C5}', [0xEE, 0xF2]), ('\u{95C6}', [0xC1, 0xF3]), ('\u{95C7}', [0xEE, 0xEE]), 
    ('\u{95C8}', [0xC1, 0xF2]), ('\u{95C9}', [0xEE, 0xF0]), ('\u{95CA}', [0xC1, 0xEF]), 
    ('\u{95CB}', [0xC1, 0xF0]), ('\u{95CC}', [0xC1, 0xF1]), ('\u{95CD}', [0xEC, 0x47]), 
    ('\u{95D0}', [0xC2, 0xF5]), ('\u{95D1}', [0xF1, 0x6E]), ('\u{95D2}', [0xF1, 0x6C]), 
    ('\u{95D3}', [0xF1, 0x6D]), ('\u{95D4}', [0xC2, 0xF3]), ('\u{95D5}', [0xC2, 0xF6]), 
    ('\u{95D6}', [0xC2, 0xF4]), ('\u{95DA}', [0xF3, 0x77]), ('\u{95DB}', [0xF3, 0x78]), 
    ('\u{95DC}', [0xC3, 0xF6]), ('\u{95DE}', [0xF5, 0x45]), ('\u{95DF}', [0xF5, 0x47]), 
    ('\u{95E0}', [0xF5, 0x46]), ('\u{95E1}', [0xC4, 0xC4]), ('\u{95E2}', [0xC5, 0x50]), 
"#

/-- src/generated/whatwg/big5_whatwg_tables.rs.inc:7473-7600 -/
noncomputable def encode39 : List Text := lines! r#"    ('\u{95E3}', [0xF6, 0x6D]), ('\u{95E4}', [0xF6, 0x6C]), ('\u{95E5}', [0xF6, 0x6B]), 
    ('\u{95E8}', [0x8B, 0xEC]), ('\u{95F4}', [0x9A, 0x56]), ('\u{961C}', [0xAA, 0xFA]), 
    ('\u{961D}', [0x8B, 0xFB]), ('\u{961E}', [0xC9, 0xAA]), ('\u{9620}', [0xCA, 0x58]), 
    ('\u{9621}', [0xA6, 0xE9]), ('\u{9622}', [0xCA, 0x56]), ('\u{9623}', [0xCA, 0x59]), 
    ('\u{9624}', [0xCA, 0x57]), ('\u{9628}', [0xCB, 0xAE]), ('\u{962A}', [0xA8, 0xC1]), 
    ('\u{962C}', [0xA8, 0xC2]), ('\u{962D}', [0xCB, 0xB0]), ('\u{962E}', [0xA8, 0xBF]), 
    ('\u{962F}', [0xCB, 0xAF]), ('\u{9630}', [0xCB, 0xAD]), ('\u{9631}', [0xA8, 0xC0]), 
    ('\u{9632}', [0xA8, 0xBE]), ('\u{9633}', [0x9A, 0x57]), ('\u{9638}', [0xA0, 0xAA]), 
    ('\u{9639}', [0xCD, 0xD8]), ('\u{963A}', [0xCD, 0xDB]), ('\u{963B}', [0xAA, 0xFD]), 
    ('\u{963C}', [0xCD, 0xDA]), ('\u{963D}', [0xCD, 0xD9]), ('\u{963F}', [0xAA, 0xFC]), 
    ('\u{9640}', [0xAA, 0xFB]), ('\u{9641}', [0x9F, 0xA6]), ('\u{9642}', [0xAB, 0x40]), 
    ('\u{9643}', [0xCD, 0xDC]), ('\u{9644}', [0xAA, 0xFE]), ('\u{9645}', [0x99, 0xCC]), 
    ('\u{964A}', [0xD0, 0xC6]), ('\u{964B}', [0xAD, 0xAE]), ('\u{964C}', [0xAD, 0xAF]), 
    ('\u{964D}', [0xAD, 0xB0]), ('\u{964E}', [0xD0, 0xC7]), ('\u{964F}', [0xD0, 0xC3]), 
    ('\u{9650}', [0xAD, 0xAD]), ('\u{9651}', [0xD0, 0xC4]), ('\u{9653}', [0xD0, 0xC5]), 
    ('\u{9654}', [0xD0, 0xC2]), ('\u{9656}', [0x9C, 0x59]), ('\u{9658}', [0xB0, 0xA4]), 
    ('\u{965B}', [0xB0, 0xA1]), ('\u{965C}', [0xD4, 0x45]), ('\u{965D}', [0xB0, 0xA2]), 
    ('\u{965E}', [0xB0, 0xA5]), ('\u{965F}', [0xD4, 0x46]), ('\u{9661}', [0xB0, 0x7E]), 
    ('\u{9662}', [0xB0, 0x7C]), ('\u{9663}', [0xB0, 0x7D]), ('\u{9664}', [0xB0, 0xA3]), 
    ('\u{9669}', [0x99, 0xB5]), ('\u{966A}', [0xB3, 0xAD]), ('\u{966B}', [0xD8, 0x49]), 
    ('\u{966C}', [0xB3, 0xB5]), ('\u{966D}', [0xD8, 0x48]), ('\u{966F}', [0xD8, 0x4B]), 
    ('\u{9670}', [0xB3, 0xB1]), ('\u{9671}', [0xD8, 0x4A]), ('\u{9672}', [0xB6, 0xAB]), 
    ('\u{9673}', [0xB3, 0xAF]), ('\u{9674}', [0xB3, 0xB2]), ('\u{9675}', [0xB3, 0xAE]), 
    ('\u{9676}', [0xB3, 0xB3]), ('\u{9677}', [0xB3, 0xB4]), ('\u{9678}', [0xB3, 0xB0]), 
    ('\u{967B}', [0x90, 0xBE]), ('\u{967C}', [0xD8, 0x47]), ('\u{967D}', [0xB6, 0xA7]), 
    ('\u{967E}', [0xDC, 0x7D]), ('\u{9680}', [0xDC, 0xA3]), ('\u{9681}', [0x9F, 0xAF]), 
    ('\u{9683}', [0xDC, 0xA2]), ('\u{9684}', [0xB6, 0xAC]), ('\u{9685}', [0xB6, 0xA8]), 
    ('\u{9686}', [0xB6, 0xA9]), ('\u{9687}', [0xDC, 0x7C]), ('\u{9688}', [0xDC, 0x7E]), 
    ('\u{9689}', [0xDC, 0xA1]), ('\u{968A}', [0xB6, 0xA4]), ('\u{968B}', [0xB6, 0xA6]), 
    ('\u{968D}', [0xB6, 0xAA]), ('\u{968E}', [0xB6, 0xA5]), ('\u{968F}', [0x95, 0xF2]), 
    ('\u{9691}', [0xE0, 0xD3]), ('\u{9692}', [0xE0, 0xD1]), ('\u{9693}', [0xE0, 0xD2]), 
    ('\u{9694}', [0xB9, 0x6A]), ('\u{9695}', [0xB9, 0x6B]), ('\u{9696}', [0x90, 0xBF]), 
    ('\u{9697}', [0xE0, 0xD4]), ('\u{9698}', [0xB9, 0x69]), ('\u{9699}', [0xBB, 0xD8]), 
    ('\u{969B}', [0xBB, 0xDA]), ('\u{969C}', [0xBB, 0xD9]), ('\u{969E}', [0xE4, 0xBB]), 
    ('\u{96A1}', [0xE4, 0xBC]), ('\u{96A2}', [0xE8, 0xAB]), ('\u{96A3}', [0x90, 0xC1]), 
    ('\u{96A4}', [0xE8, 0xAA]), ('\u{96A5}', [0xFE, 0xE4]), ('\u{96A7}', [0xC0, 0x47]), 
    ('\u{96A8}', [0xC0, 0x48]), ('\u{96A9}', [0xEC, 0x4F]), ('\u{96AA}', [0xC0, 0x49]), 
    ('\u{96AC}', [0xEE, 0xF6]), ('\u{96AE}', [0xEE, 0xF4]), ('\u{96B0}', [0xEE, 0xF5]), 
    ('\u{96B1}', [0xC1, 0xF4]), ('\u{96B3}', [0xF1, 0x6F]), ('\u{96B4}', [0xC3, 0xF7]), 
    ('\u{96B6}', [0x90, 0xC4]), ('\u{96B8}', [0xC1, 0xF5]), ('\u{96B9}', [0xAB, 0x41]), 
    ('\u{96BB}', [0xB0, 0xA6]), ('\u{96BC}', [0xD4, 0x47]), ('\u{96BD}', [0x90, 0xC7]), 
    ('\u{96BF}', [0xD8, 0x4C]), ('\u{96C0}', [0xB3, 0xB6]), ('\u{96C1}', [0xB6, 0xAD]), 
    ('\u{96C2}', [0xDC, 0xA4]), ('\u{96C3}', [0xDC, 0xA6]), ('\u{96C4}', [0xB6, 0xAF]), 
    ('\u{96C5}', [0xB6, 0xAE]), ('\u{96C6}', [0xB6, 0xB0]), ('\u{96C7}', [0xB6, 0xB1]), 
    ('\u{96C8}', [0xDC, 0xA5]), ('\u{96C9}', [0xB9, 0x6E]), ('\u{96CA}', [0xB9, 0x6F]), 
    ('\u{96CB}', [0xB9, 0x6D]), ('\u{96CC}', [0xBB, 0xDB]), ('\u{96CD}', [0xB9, 0x6C]), 
    ('\u{96CE}', [0xE0, 0xD5]), ('\u{96D2}', [0xBB, 0xDC]), ('\u{96D3}', [0xE8, 0xAC]), 
    ('\u{96D4}', [0xEC, 0x50]), ('\u{96D5}', [0xC0, 0x4A]), ('\u{96D6}', [0xC1, 0xF6]), 
    ('\u{96D7}', [0xF1, 0x70]), ('\u{96D8}', [0xF1, 0x74]), ('\u{96D9}', [0xC2, 0xF9]), 
    ('\u{96DA}', [0xF1, 0x71]), ('\u{96DB}', [0xC2, 0xFA]), ('\u{96DC}', [0xC2, 0xF8]), 
    ('\u{96DD}', [0xF1, 0x75]), ('\u{96DE}', [0xC2, 0xFB]), ('\u{96DF}', [0xF1, 0x73]), 
    ('\u{96E1}', [0xF3, 0x79]), ('\u{96E2}', [0xC2, 0xF7]), ('\u{96E3}', [0xC3, 0xF8]), 
    ('\u{96E5}', [0xF8, 0xCD]), ('\u{96E8}', [0xAB, 0x42]), ('\u{96E9}', [0xB3, 0xB8]), 
    ('\u{96EA}', [0xB3, 0xB7]), ('\u{96EF}', [0xB6, 0xB2]), ('\u{96F0}', [0xDC, 0xA8]), 
    ('\u{96F1}', [0xDC, 0xA7]), ('\u{96F2}', [0xB6, 0xB3]), ('\u{96F4}', [0x92, 0xE4]), 
    ('\u{96F5}', [0xE0, 0xD9]), ('\u{96F6}', [0xB9, 0x73]), ('\u{96F7}', [0xB9, 0x70]), 
    ('\u{96F8}', [0xE0, 0xD8]), ('\u{96F9}', [0xB9, 0x72]), ('\u{96FA}', [0xE0, 0xD6]), 
    ('\u{96FB}', [0xB9, 0x71]), ('\u{96FD}', [0xE0, 0xD7]), ('\u{96FF}', [0xE4, 0xBD]), 
    ('\u{9700}', [0xBB, 0xDD]), ('\u{9702}', [0xE8, 0xAF]), ('\u{9703}', [0x9F, 0x52]), 
    ('\u{9704}', [0xBE, 0x5D]), ('\u{9705}', [0xE8, 0xAD]), ('\u{9706}', [0xBE, 0x5E]), 
    ('\u{9707}', [0xBE, 0x5F]), ('\u{9708}', [0xE8, 0xAE]), ('\u{9709}', [0xBE, 0x60]), 
    ('\u{970B}', [0xEC, 0x51]), ('\u{970D}', [0xC0, 0x4E]), ('\u{970E}', [0xC0, 0x4B]), 
    ('\u{970F}', [0xC0, 0x50]), ('\u{9710}', [0xEC, 0x53]), ('\u{9711}', [0xC0, 0x4C]), 
    ('\u{9712}', [0xEC, 0x52]), ('\u{9713}', [0xC0, 0x4F]), ('\u{9716}', [0xC0, 0x4D]), 
    ('\u{9718}', [0xEE, 0xF9]), ('\u{9719}', [0xEE, 0xFB]), ('\u{971B}', [0x90, 0xDB]), 
    ('\u{971C}', [0xC1, 0xF7]), ('\u{971D}', [0xEE, 0xFA]), ('\u{971E}', [0xC1, 0xF8]), 
    ('\u{971F}', [0xEE, 0xF8]), ('\u{9720}', [0xEE, 0xF7]), ('\u{9721}', [0xA0, 0x66]), 
    ('\u{9722}', [0xF1, 0x77]), ('\u{9723}', [0xF1, 0x76]), ('\u{9724}', [0xC2, 0xFC]), 
    ('\u{9725}', [0xF1, 0x78]), ('\u{9726}', [0xF3, 0x7E]), ('\u{9727}', [0xC3, 0xFA]), 
    ('\u{9728}', [0xF3, 0x7D]), ('\u{9729}', [0xF3, 0x7A]), ('\u{972A}', [0xC3, 0xF9]), 
    ('\u{972B}', [0xF3, 0x7B]), ('\u{972C}', [0xF3, 0x7C]), ('\u{972E}', [0xF5, 0x48]), 
    ('\u{972F}', [0xF5, 0x49]), ('\u{9730}', [0xC4, 0xC5]), ('\u{9731}', [0x90, 0xD2]), 
    ('\u{9732}', [0xC5, 0x53]), ('\u{9734}', [0x87, 0x6B]), ('\u{9735}', [0xF6, 0x6E]), 
    ('\u{9736}', [0x90, 0xD4]), ('\u{9738}', [0xC5, 0x51]), ('\u{9739}', [0xC5, 0x52]), 
    ('\u{973A}', [0xF6, 0x6F]), ('\u{973D}', [0xC5, 0xB4]), ('\u{973E}', [0xC5, 0xB5]), 
    ('\u{973F}', [0xF7, 0x71]), ('\u{9740}', [0x9A, 0x5B]), ('\u{9741}', [0x95, 0xFD]), 
    ('\u{9742}', [0xC6, 0x45]), ('\u{9743}', [0xF8, 0xCF]), ('\u{9744}', [0xC6, 0x47]), 
    ('\u{9746}', [0xF8, 0xCE]), ('\u{9747}', [0xF8, 0xD0]), ('\u{9748}', [0xC6, 0x46]), 
    ('\u{9749}', [0xF9, 0x57]), ('\u{974A}', [0x87, 0xB1]), ('\u{974B}', [0xF9, 0xAD]), 
    ('\u{9751}', [0x8B, 0xC4]), ('\u{9752}', [0xAB, 0x43]), ('\u{9755}', [0x8C, 0x66]), 
    ('\u{9756}', [0xB9, 0x74]), ('\u{9757}', [0x90, 0xDE]), ('\u{9758}', [0xE4, 0xBE]), 
    ('\u{975A}', [0xE8, 0xB0]), ('\u{975B}', [0xC0, 0x51]), ('\u{975C}', [0x90, 0xDC]), 
    ('\u{975D}', [0x96, 0x44]), ('\u{975E}', [0xAB, 0x44]), ('\u{975F}', [0x90, 0xE1]), 
    ('\u{9760}', [0xBE, 0x61]), ('\u{9761}', [0xC3, 0xFB]), ('\u{9762}', [0xAD, 0xB1]), 
    ('\u{9766}', [0xC0, 0x53]), ('\u{9768}', [0xC5, 0xE2]), ('\u{9769}', [0xAD, 0xB2]), 
    ('\u{976A}', [0xD8, 0x4D]), ('\u{976C}', [0xDC, 0xA9]), ('\u{976D}', [0x9E, 0x46]), 
    ('\u{976E}', [0xDC, 0xAB]), ('\u{9770}', [0xDC, 0xAA]), ('\u{9771}', [0x96, 0x51]), 
    ('\u{9772}', [0xE0, 0xDD]), ('\u{9773}', [0xE0, 0xDA]), ('\u{9774}', [0xB9, 0x75]), 
    ('\u{9776}', [0xB9, 0x76]), ('\u{9777}', [0xE0, 0xDB]), ('\u{9778}', [0xE0, 0xDC]), 
    ('\u{977A}', [0xE4, 0xC0]), ('\u{977B}', [0xE4, 0xC5]), ('\u{977C}', [0xBB, 0xDE]), 
    ('\u{977D}', [0xE4, 0xBF]), ('\u{977E}', [0xE4, 0xC1]), ('\u{977F}', [0xE4, 0xC8]), 
    ('\u{9780}', [0xE4, 0xC3]), ('\u{9781}', [0xE4, 0xC7]), ('\u{9782}', [0xE4, 0xC4]), 
    ('\u{9783}', [0xE4, 0xC2]), ('\u{9784}', [0xE4, 0xC6]), ('\u{9785}', [0xBB, 0xDF]), 
    ('\u{9787}', [0xFB, 0x58]), ('\u{9788}', [0xE8, 0xB3]), ('\u{9789}', [0x90, 0xE6]), 
    ('\u{978A}', [0xE8, 0xB1]), ('\u{978B}', [0xBE, 0x63]), ('\u{978D}', [0xBE, 0x62]), 
    ('\u{978E}', [0xE8, 0xB2]), ('\u{978F}', [0xBE, 0x64]), ('\u{9794}', [0xEC, 0x56]), 
    ('\u{9797}', [0xEC, 0x55]), ('\u{9798}', [0xC0, 0x54]), ('\u{9799}', [0xEC, 0x54]), 
    ('\u{979A}', [0xEE, 0xFC]), ('\u{979B}', [0x96, 0x50]), ('\u{979C}', [0xEE, 0xFE]), 
    ('\u{979D}', [0xEF, 0x41]), ('\u{979E}', [0xEF, 0x40]), ('\u{979F}', [0x90, 0xE7]), 
    ('\u{97A0}', [0xC1, 0xF9]), ('\u{97A1}', [0xEE, 0xFD]), ('\u{97A2}', [0xF1, 0xA1]), 
    ('\u{97A3}', [0xC2, 0xFD]), ('\u{97A4}', [0xF1, 0x7D]), ('\u{97A5}', [0xF1, 0xA2]), 
    ('\u{97A6}', [0xC2, 0xFE]), ('\u{97A8}', [0xF1, 0x7B]), ('\u{97AA}', [0xF1, 0x7E]), 
    ('\u{97AB}', [0xF1, 0x7C]), ('\u{97AC}', [0xF1, 0x79]), ('\u{97AD}', [0xC3, 0x40]), 
    ('\u{97AE}', [0xF1, 0x7A]), ('\u{97B1}', [0x90, 0xE8]), ('\u{97B2}', [0x9A, 0x5D]), 
    ('\u{97B3}', [0xF3, 0xA1]), ('\u{97B4}', [0x9F, 0x7A]), ('\u{97B6}', [0xF3, 0xA3]), 
    ('\u{97B7}', [0xF3, 0xA2]), ('\u{97B8}', [0x9B, 0x5C]), ('\u{97B9}', [0xF5, 0x4A]), 
    ('\u{97BA}', [0x9F, 0x7C]), ('\u{97BB}', [0xF5, 0x4B]), ('\u{97BD}', [0xFC, 0x52]), 
    ('\u{97BE}', [0x90, 0xE9]), ('\u{97BF}', [0xF6, 0x70]), ('\u{97C0}', [0x90, 0xEA]), 
    ('\u{97C1}', [0xC5, 0xB7]), ('\u{97C2}', [0x9A, 0x5E]), ('\u{97C3}', [0xC5, 0xB6]), 
    ('\u{97C4}', [0xF8, 0x4F]), ('\u{97C5}', [0xF8, 0x50]), ('\u{97C6}', [0xC6, 0x48]), 
    ('\u{97C7}', [0xF8, 0xD1]), ('\u{97C8}', [0x9F, 0x76]), ('\u{97C9}', [0xC6, 0x69]), 
    ('\u{97CB}', [0xAD, 0xB3]), ('\u{97CC}', [0xB6, 0xB4]), ('\u{97CD}', [0xE4, 0xCA]), 
    ('\u{97CE}', [0xE4, 0xC9]), ('\u{97CF}', [0xE8, 0xB5]), ('\u{97D0}', [0xE8, 0xB4]), 
    ('\u{97D2}', [0x90, 0xEB]), ('\u{97D3}', [0xC1, 0xFA]), ('\u{97D4}', [0xEF, 0x43]), 
    ('\u{97D5}', [0xEF, 0x42]), ('\u{97D6}', [0xF1, 0xA5]), ('\u{97D7}', [0xF1, 0xA3]), 
    ('\u{97D8}', [0xF1, 0xA6]), ('\u{97D9}', [0xF1, 0xA4]), ('\u{97DC}', [0xC3, 0xFC]), 
    ('\u{97DD}', [0xF3, 0xA4]), ('\u{97DE}', [0xF3, 0xA5]), ('\u{97DF}', [0xF3, 0xA6]), 
    ('\u{97E0}', [0x90, 0xEC]), ('\u{97E1}', [0xF6, 0x71]), ('\u{97E3}', [0xF7, 0x72]), 
    ('\u{97E5}', [0xF8, 0xD2]), ('\u{97E6}', [0x8B, 0xEE]), ('\u{97ED}', [0xAD, 0xB4]), 
    ('\u{97EE}', [0x90, 0xEE]), ('\u{97F0}', [0xEC, 0x57]), ('\u{97F1}', [0xEF, 0x44]), 
    ('\u{97F2}', [0x91, 0xC6]), ('\u{97F3}', [0xAD, 0xB5]), ('\u{97F5}', [0x90, 0xF2]), 
    ('\u{97F6}', [0xBB, 0xE0]), ('\u{97F8}', [0xEC, 0x58]), ('\u{97F9}', [0xC3, 0x41]), 
    ('\u{97FA}', [0xF1, 0xA7]), ('\u{97FB}', [0xC3, 0xFD]), ('\u{97FD}', [0xF5, 0x4C]), 
    ('\u{97FE}', [0xF5, 0x4D]), ('\u{97FF}', [0x90, 0xF1]), ('\u{9800}', [0xF8, 0x51]), 
    ('\u{9801}', [0xAD, 0xB6]), ('\u{9802}', [0xB3, 0xBB]), ('\u{9803}', [0xB3, 0xBC]), 
    ('\u{9804}', [0xD8, 0x4E]), ('\u{9805}', [0xB6, 0xB5]), ('\u{9806}', [0xB6, 0xB6]), 
    ('\u{9807}', [0xDC, 0xAC]), ('\u{9808}', [0xB6, 0xB7]), ('\u{980A}', [0xB9, 0x7A]), 
    ('\u{980C}', [0xB9, 0x7C]), ('\u{980D}', [0xE0, 0xDF]), ('\u{980E}', [0xE0, 0xE0]), 
"#

/-- src/generated/whatwg/big5_whatwg_tables.rs.inc:7601-7728 -/
noncomputable def encode40 : List Text := lines! r#"    ('\u{980F}', [0xE0, 0xDE]), ('\u{9810}', [0xB9, 0x77]), ('\u{9811}', [0xB9, 0x78]), 
    ('\u{9812}', [0xB9, 0x7B]), ('\u{9813}', [0xB9, 0x79]), ('\u{9814}', [0xFC, 0xBC]), 
    ('\u{9815}', [0x8A, 0x74]), ('\u{9816}', [0xE4, 0xCB]), ('\u{9817}', [0xBB, 0xE1]), 
    ('\u{9818}', [0xBB, 0xE2]), ('\u{981B}', [0xE8, 0xBC]), ('\u{981C}', [0xBE, 0x67]), 
    ('\u{981D}', [0xE8, 0xB7]), ('\u{981E}', [0xE8, 0xB6]), ('\u{981F}', [0x96, 0x57]), 
    ('\u{9820}', [0xE8, 0xBB]), ('\u{9821}', [0xBE, 0x65]), ('\u{9823}', [0x9C, 0xEF]), 
    ('\u{9824}', [0xC0, 0x5B]), ('\u{9826}', [0xE8, 0xB8]), ('\u{9827}', [0xE8, 0xBD]), 
    ('\u{9828}', [0xE8, 0xBA]), ('\u{9829}', [0xE8, 0xB9]), ('\u{982B}', [0xBE, 0x66]), 
    ('\u{982D}', [0xC0, 0x59]), ('\u{982E}', [0x9F, 0xDF]), ('\u{982F}', [0xEC, 0x5A]), 
    ('\u{9830}', [0xC0, 0x55]), ('\u{9832}', [0xEC, 0x5B]), ('\u{9833}', [0x90, 0xF7]), 
    ('\u{9834}', [0x90, 0xF6]), ('\u{9835}', [0xEC, 0x59]), ('\u{9837}', [0xC0, 0x58]), 
    ('\u{9838}', [0xC0, 0x56]), ('\u{9839}', [0xC0, 0x5A]), ('\u{983B}', [0xC0, 0x57]), 
    ('\u{9841}', [0xEF, 0x45]), ('\u{9843}', [0xEF, 0x4A]), ('\u{9844}', [0xEF, 0x46]), 
    ('\u{9845}', [0xEF, 0x49]), ('\u{9846}', [0xC1, 0xFB]), ('\u{9847}', [0x9B, 0x5E]), 
    ('\u{9848}', [0xED, 0xD4]), ('\u{9849}', [0xEF, 0x48]), ('\u{984A}', [0xEF, 0x47]), 
    ('\u{984B}', [0x90, 0xF8]), ('\u{984C}', [0xC3, 0x44]), ('\u{984D}', [0xC3, 0x42]), 
    ('\u{984E}', [0xC3, 0x45]), ('\u{984F}', [0xC3, 0x43]), ('\u{9850}', [0xF1, 0xA8]), 
    ('\u{9851}', [0xF1, 0xA9]), ('\u{9852}', [0xF1, 0xAA]), ('\u{9853}', [0xC3, 0x46]), 
    ('\u{9856}', [0x8C, 0xFC]), ('\u{9857}', [0xF3, 0xAA]), ('\u{9858}', [0xC4, 0x40]), 
    ('\u{9859}', [0xF3, 0xA8]), ('\u{985B}', [0xC4, 0x41]), ('\u{985C}', [0xF3, 0xA7]), 
    ('\u{985D}', [0xF3, 0xA9]), ('\u{985E}', [0xC3, 0xFE]), ('\u{985F}', [0xF5, 0x51]), 
    ('\u{9860}', [0xF5, 0x4E]), ('\u{9862}', [0xF5, 0x4F]), ('\u{9863}', [0xF5, 0x50]), 
    ('\u{9864}', [0xF6, 0x72]), ('\u{9865}', [0xC5, 0x56]), ('\u{9866}', [0x90, 0xF9]), 
    ('\u{9867}', [0xC5, 0x55]), ('\u{9868}', [0x8C, 0xC9]), ('\u{9869}', [0xF7, 0x74]), 
    ('\u{986A}', [0xF7, 0x73]), ('\u{986B}', [0xC5, 0xB8]), ('\u{986C}', [0xFA, 0x6A]), 
    ('\u{986F}', [0xC5, 0xE3]), ('\u{9870}', [0xC6, 0x49]), ('\u{9871}', [0xC6, 0x60]), 
    ('\u{9872}', [0xF9, 0x58]), ('\u{9873}', [0xF9, 0xAE]), ('\u{9874}', [0xF9, 0xAF]), 
    ('\u{9875}', [0x8B, 0xEF]), ('\u{98A8}', [0xAD, 0xB7]), ('\u{98A9}', [0xDC, 0xAD]), 
    ('\u{98AC}', [0xE0, 0xE1]), ('\u{98AD}', [0xE4, 0xCC]), ('\u{98AE}', [0xE4, 0xCD]), 
    ('\u{98AF}', [0xBB, 0xE3]), ('\u{98B1}', [0xBB, 0xE4]), ('\u{98B2}', [0xE8, 0xBE]), 
    ('\u{98B3}', [0xBE, 0x68]), ('\u{98B4}', [0x9F, 0xE0]), ('\u{98B6}', [0xC1, 0xFC]), 
    ('\u{98B7}', [0x91, 0x42]), ('\u{98B8}', [0xF1, 0xAB]), ('\u{98B9}', [0x9A, 0x62]), 
    ('\u{98BA}', [0xC3, 0x47]), ('\u{98BB}', [0xF3, 0xAD]), ('\u{98BC}', [0xC4, 0x42]), 
    ('\u{98BD}', [0xF3, 0xAC]), ('\u{98BE}', [0xF3, 0xAE]), ('\u{98BF}', [0xF3, 0xAB]), 
    ('\u{98C0}', [0xF6, 0x75]), ('\u{98C1}', [0xF5, 0x52]), ('\u{98C2}', [0xF5, 0x53]), 
    ('\u{98C3}', [0x95, 0x69]), ('\u{98C4}', [0xC4, 0xC6]), ('\u{98C6}', [0xF6, 0x74]), 
    ('\u{98C7}', [0x91, 0x44]), ('\u{98C8}', [0x91, 0x43]), ('\u{98C9}', [0xF6, 0x73]), 
    ('\u{98CA}', [0x91, 0x41]), ('\u{98CB}', [0xF7, 0x75]), ('\u{98CC}', [0xF9, 0xB0]), 
    ('\u{98CE}', [0x8B, 0xF0]), ('\u{98DB}', [0xAD, 0xB8]), ('\u{98DC}', [0x96, 0x60]), 
    ('\u{98DE}', [0x8B, 0xF1]), ('\u{98DF}', [0xAD, 0xB9]), ('\u{98E0}', [0x99, 0xF6]), 
    ('\u{98E1}', [0x91, 0x49]), ('\u{98E2}', [0xB0, 0xA7]), ('\u{98E3}', [0xD4, 0x48]), 
    ('\u{98E5}', [0xD8, 0x4F]), ('\u{98E6}', [0x91, 0x4A]), ('\u{98E7}', [0xB6, 0xB8]), 
    ('\u{98E9}', [0xB6, 0xBB]), ('\u{98EA}', [0xB6, 0xB9]), ('\u{98EB}', [0xDC, 0xAE]), 
    ('\u{98EC}', [0x91, 0x4B]), ('\u{98ED}', [0xB6, 0xBD]), ('\u{98EF}', [0xB6, 0xBA]), 
    ('\u{98F1}', [0x9A, 0x64]), ('\u{98F2}', [0xB6, 0xBC]), ('\u{98F4}', [0xB9, 0x7E]), 
    ('\u{98F5}', [0x8A, 0xBF]), ('\u{98F6}', [0xE0, 0xE2]), ('\u{98F9}', [0xE0, 0xE3]), 
    ('\u{98FA}', [0xE8, 0xC0]), ('\u{98FC}', [0xB9, 0x7D]), ('\u{98FD}', [0xB9, 0xA1]), 
    ('\u{98FE}', [0xB9, 0xA2]), ('\u{9900}', [0xE4, 0xCF]), ('\u{9902}', [0xE4, 0xCE]), 
    ('\u{9903}', [0xBB, 0xE5]), ('\u{9905}', [0xBB, 0xE6]), ('\u{9907}', [0xE4, 0xD0]), 
    ('\u{9908}', [0xE8, 0xBF]), ('\u{9909}', [0xBB, 0xE8]), ('\u{990A}', [0xBE, 0x69]), 
    ('\u{990C}', [0xBB, 0xE7]), ('\u{990E}', [0x9A, 0x66]), ('\u{9910}', [0xC0, 0x5C]), 
    ('\u{9911}', [0xE8, 0xC1]), ('\u{9912}', [0xBE, 0x6B]), ('\u{9913}', [0xBE, 0x6A]), 
    ('\u{9914}', [0xE8, 0xC2]), ('\u{9915}', [0xE8, 0xC5]), ('\u{9916}', [0xE8, 0xC3]), 
    ('\u{9917}', [0xE8, 0xC4]), ('\u{9918}', [0xBE, 0x6C]), ('\u{9919}', [0x9A, 0x67]), 
    ('\u{991A}', [0xC0, 0x61]), ('\u{991B}', [0xC0, 0x5F]), ('\u{991C}', [0x9A, 0x69]), 
    ('\u{991E}', [0xC0, 0x5E]), ('\u{991F}', [0xEC, 0x5D]), ('\u{9921}', [0xC0, 0x60]), 
    ('\u{9924}', [0xEC, 0x5C]), ('\u{9925}', [0xEF, 0x4B]), ('\u{9927}', [0xEC, 0x5E]), 
    ('\u{9928}', [0xC0, 0x5D]), ('\u{9929}', [0xEC, 0x5F]), ('\u{992A}', [0xEF, 0x4E]), 
    ('\u{992B}', [0xEF, 0x4C]), ('\u{992C}', [0xEF, 0x4D]), ('\u{992D}', [0xEF, 0x52]), 
    ('\u{992E}', [0xC3, 0x4B]), ('\u{992F}', [0xEF, 0x51]), ('\u{9930}', [0xEF, 0x54]), 
    ('\u{9931}', [0xEF, 0x53]), ('\u{9932}', [0xEF, 0x50]), ('\u{9933}', [0xEF, 0x4F]), 
    ('\u{9935}', [0xC1, 0xFD]), ('\u{9937}', [0x9A, 0x6A]), ('\u{9938}', [0x96, 0x52]), 
    ('\u{9939}', [0x91, 0x4D]), ('\u{993A}', [0xF1, 0xAE]), ('\u{993B}', [0x96, 0x66]), 
    ('\u{993C}', [0xF1, 0xAD]), ('\u{993D}', [0xC3, 0x4A]), ('\u{993E}', [0xC3, 0x48]), 
    ('\u{993F}', [0xC3, 0x49]), ('\u{9940}', [0x9F, 0x7B]), ('\u{9941}', [0xF1, 0xAC]), 
    ('\u{9942}', [0x9A, 0x6B]), ('\u{9943}', [0xF3, 0xB1]), ('\u{9945}', [0xC4, 0x43]), 
    ('\u{9947}', [0xF3, 0xB0]), ('\u{9948}', [0xF3, 0xAF]), ('\u{9949}', [0xC4, 0x44]), 
    ('\u{994A}', [0xA0, 0x6C]), ('\u{994B}', [0xF5, 0x58]), ('\u{994C}', [0xF5, 0x57]), 
    ('\u{994D}', [0x96, 0x67]), ('\u{994E}', [0xF5, 0x55]), ('\u{9950}', [0xF5, 0x54]), 
    ('\u{9951}', [0xC4, 0xC8]), ('\u{9952}', [0xC4, 0xC7]), ('\u{9953}', [0xF5, 0x59]), 
    ('\u{9954}', [0xF7, 0x76]), ('\u{9955}', [0xC5, 0xB9]), ('\u{9956}', [0xF6, 0x77]), 
    ('\u{9957}', [0xC5, 0x57]), ('\u{9958}', [0xF6, 0x76]), ('\u{9959}', [0xF5, 0x56]), 
    ('\u{995B}', [0xF7, 0x77]), ('\u{995C}', [0xC5, 0xE4]), ('\u{995D}', [0x9A, 0x6C]), 
    ('\u{995E}', [0xC6, 0x61]), ('\u{995F}', [0xF9, 0x59]), ('\u{9961}', [0xF9, 0xB1]), 
    ('\u{9962}', [0x9A, 0x6D]), ('\u{9963}', [0x8B, 0xF2]), ('\u{9996}', [0xAD, 0xBA]), 
    ('\u{9997}', [0xD8, 0x50]), ('\u{9998}', [0xEF, 0x55]), ('\u{9999}', [0xAD, 0xBB]), 
    ('\u{999B}', [0x96, 0x6A]), ('\u{999C}', [0xE4, 0xD2]), ('\u{999D}', [0xE4, 0xD1]), 
    ('\u{999E}', [0xEC, 0x60]), ('\u{99A1}', [0xEF, 0x57]), ('\u{99A3}', [0xEF, 0x56]), 
    ('\u{99A4}', [0xFC, 0xEA]), ('\u{99A5}', [0xC3, 0x4C]), ('\u{99A6}', [0xF3, 0xB2]), 
    ('\u{99A7}', [0xF3, 0xB3]), ('\u{99A8}', [0xC4, 0xC9]), ('\u{99AA}', [0x96, 0x6C]), 
    ('\u{99AB}', [0xF9, 0xB2]), ('\u{99AC}', [0xB0, 0xA8]), ('\u{99AD}', [0xB6, 0xBF]), 
    ('\u{99AE}', [0xB6, 0xBE]), ('\u{99AF}', [0xE0, 0xE4]), ('\u{99B0}', [0xE0, 0xE6]), 
    ('\u{99B1}', [0xB9, 0xA4]), ('\u{99B2}', [0xE0, 0xE5]), ('\u{99B3}', [0xB9, 0xA3]), 
    ('\u{99B4}', [0xB9, 0xA5]), ('\u{99B5}', [0xE0, 0xE7]), ('\u{99B8}', [0x91, 0xC4]), 
    ('\u{99B9}', [0xE4, 0xD4]), ('\u{99BA}', [0xE4, 0xD6]), ('\u{99BB}', [0xE4, 0xD5]), 
    ('\u{99BC}', [0x96, 0x77]), ('\u{99BD}', [0xE4, 0xD8]), ('\u{99C1}', [0xBB, 0xE9]), 
    ('\u{99C2}', [0xE4, 0xD7]), ('\u{99C3}', [0xE4, 0xD3]), ('\u{99C4}', [0x99, 0xF4]), 
    ('\u{99C5}', [0x9A, 0x6F]), ('\u{99C7}', [0xE4, 0xD9]), ('\u{99C9}', [0xE8, 0xCC]), 
    ('\u{99CB}', [0xE8, 0xCF]), ('\u{99CC}', [0xE8, 0xD1]), ('\u{99CD}', [0xE8, 0xC7]), 
    ('\u{99CE}', [0xE8, 0xCB]), ('\u{99CF}', [0xE8, 0xC8]), ('\u{99D0}', [0xBE, 0x6E]), 
    ('\u{99D1}', [0xBE, 0x71]), ('\u{99D2}', [0xBE, 0x73]), ('\u{99D3}', [0xE8, 0xC9]), 
    ('\u{99D4}', [0xE8, 0xCA]), ('\u{99D5}', [0xBE, 0x72]), ('\u{99D6}', [0x9B, 0xC6]), 
    ('\u{99D7}', [0xE8, 0xD0]), ('\u{99D8}', [0xE8, 0xCE]), ('\u{99D9}', [0xBE, 0x74]), 
    ('\u{99DA}', [0x9F, 0xAB]), ('\u{99DB}', [0xBE, 0x70]), ('\u{99DC}', [0xE8, 0xC6]), 
    ('\u{99DD}', [0xBE, 0x6D]), ('\u{99DF}', [0xBE, 0x6F]), ('\u{99E0}', [0x8C, 0xBE]), 
    ('\u{99E1}', [0x8E, 0xC1]), ('\u{99E2}', [0xC0, 0x63]), ('\u{99E3}', [0xEC, 0x66]), 
    ('\u{99E4}', [0xEC, 0x64]), ('\u{99E5}', [0xEC, 0x63]), ('\u{99E6}', [0x95, 0x55]), 
    ('\u{99E7}', [0xEC, 0x69]), ('\u{99E9}', [0xEC, 0x68]), ('\u{99EA}', [0xEC, 0x67]), 
    ('\u{99EC}', [0xEC, 0x62]), ('\u{99ED}', [0xC0, 0x62]), ('\u{99EE}', [0xEC, 0x61]), 
    ('\u{99F0}', [0xEC, 0x65]), ('\u{99F1}', [0xC0, 0x64]), ('\u{99F4}', [0xEF, 0x5A]), 
    ('\u{99F5}', [0x91, 0x52]), ('\u{99F6}', [0xEF, 0x5E]), ('\u{99F7}', [0xEF, 0x5B]), 
    ('\u{99F8}', [0xEF, 0x5D]), ('\u{99F9}', [0xEF, 0x5C]), ('\u{99FA}', [0xEF, 0x59]), 
    ('\u{99FB}', [0xEF, 0x5F]), ('\u{99FC}', [0xEF, 0x62]), ('\u{99FD}', [0xEF, 0x60]), 
    ('\u{99FE}', [0xEF, 0x61]), ('\u{99FF}', [0xC2, 0x40]), ('\u{9A01}', [0xC1, 0xFE]), 
    ('\u{9A02}', [0xEF, 0x58]), ('\u{9A03}', [0xEF, 0x63]), ('\u{9A04}', [0xF1, 0xB3]), 
    ('\u{9A05}', [0xF1, 0xB6]), ('\u{9A06}', [0xF1, 0xB8]), ('\u{9A07}', [0xF1, 0xB7]), 
    ('\u{9A09}', [0xF1, 0xB1]), ('\u{9A0A}', [0xF1, 0xB5]), ('\u{9A0B}', [0xF1, 0xB0]), 
    ('\u{9A0C}', [0x91, 0x53]), ('\u{9A0D}', [0xF1, 0xB2]), ('\u{9A0E}', [0xC3, 0x4D]), 
    ('\u{9A0F}', [0xF1, 0xAF]), ('\u{9A10}', [0x91, 0x55]), ('\u{9A11}', [0xF1, 0xB4]), 
    ('\u{9A14}', [0xF3, 0xC0]), ('\u{9A15}', [0xF3, 0xB5]), ('\u{9A16}', [0xC4, 0x45]), 
    ('\u{9A19}', [0xC4, 0x46]), ('\u{9A1A}', [0xF3, 0xB4]), ('\u{9A1B}', [0xF3, 0xB9]), 
    ('\u{9A1C}', [0xF3, 0xBF]), ('\u{9A1D}', [0xF3, 0xB7]), ('\u{9A1E}', [0xF3, 0xBE]), 
    ('\u{9A1F}', [0x95, 0x5D]), ('\u{9A20}', [0xF3, 0xBB]), ('\u{9A21}', [0x96, 0x71]), 
    ('\u{9A22}', [0xF3, 0xBA]), ('\u{9A23}', [0xF3, 0xBD]), ('\u{9A24}', [0xF3, 0xB8]), 
    ('\u{9A25}', [0xF3, 0xB6]), ('\u{9A26}', [0x9C, 0x6D]), ('\u{9A27}', [0xF3, 0xBC]), 
    ('\u{9A29}', [0xF5, 0x60]), ('\u{9A2A}', [0xF5, 0x5E]), ('\u{9A2B}', [0xC4, 0xCA]), 
    ('\u{9A2C}', [0xF5, 0x5D]), ('\u{9A2D}', [0xF5, 0x63]), ('\u{9A2E}', [0xF5, 0x61]), 
    ('\u{9A2F}', [0x96, 0x73]), ('\u{9A30}', [0xC4, 0xCB]), ('\u{9A31}', [0xF5, 0x5C]), 
    ('\u{9A32}', [0xF5, 0x5A]), ('\u{9A34}', [0xF5, 0x5B]), ('\u{9A35}', [0xC4, 0xCD]), 
    ('\u{9A36}', [0xF5, 0x5F]), ('\u{9A37}', [0xC4, 0xCC]), ('\u{9A38}', [0xF5, 0x62]), 
    ('\u{9A39}', [0xF6, 0x78]), ('\u{9A3A}', [0xF6, 0x7E]), ('\u{9A3B}', [0x91, 0x54]), 
    ('\u{9A3C}', [0x9A, 0x71]), ('\u{9A3D}', [0xF6, 0x79]), ('\u{9A3E}', [0xC5, 0x5B]), 
    ('\u{9A3F}', [0xF6, 0xA1]), ('\u{9A40}', [0xC5, 0x5A]), ('\u{9A41}', [0xF6, 0x7D]), 
    ('\u{9A42}', [0xF6, 0x7C]), ('\u{9A43}', [0xC5, 0x59]), ('\u{9A44}', [0xF6, 0x7B]), 
    ('\u{9A45}', [0xC5, 0x58]), ('\u{9A46}', [0xF6, 0x7A]), ('\u{9A48}', [0xF7, 0x7D]), 
    ('\u{9A49}', [0xF7, 0xA1]), ('\u{9A4A}', [0xF7, 0x7E]), ('\u{9A4C}', [0xF7, 0x7B]), 
    ('\u{9A4D}', [0xC5, 0xBB]), ('\u{9A4E}', [0xF7, 0x78]), ('\u{9A4F}', [0xF7, 0x7C]), 
    ('\u{9A50}', [0xF7, 0xA3]), ('\u{9A52}', [0xF7, 0xA2]), ('\u{9A53}', [0xF7, 0x79]), 
"#

/-- src/generated/whatwg/big5_whatwg_tables.rs.inc:7729-7856 -/
noncomputable def encode41 : List Text := lines! r#"    ('\u{9A54}', [0xF7, 0x7A]), ('\u{9A55}', [0xC5, 0xBA]), ('\u{9A56}', [0xF8, 0x52]), 
    ('\u{9A57}', [0xC5, 0xE7]), ('\u{9A58}', [0x91, 0x56]), ('\u{9A59}', [0xF8, 0x53]), 
    ('\u{9A5A}', [0xC5, 0xE5]), ('\u{9A5B}', [0xC5, 0xE6]), ('\u{9A5C}', [0x96, 0x6D]), 
    ('\u{9A5E}', [0xF8, 0xD3]), ('\u{9A5F}', [0xC6, 0x4A]), ('\u{9A60}', [0xF9, 0x76]), 
    ('\u{9A62}', [0xC6, 0x6A]), ('\u{9A63}', [0x95, 0x57]), ('\u{9A64}', [0xF9, 0xB3]), 
    ('\u{9A65}', [0xC6, 0x6B]), ('\u{9A66}', [0xF9, 0xB4]), ('\u{9A67}', [0xF9, 0xB5]), 
    ('\u{9A68}', [0xF9, 0xC3]), ('\u{9A69}', [0xF9, 0xC2]), ('\u{9A6A}', [0xC6, 0x7A]), 
    ('\u{9A6B}', [0xF9, 0xCD]), ('\u{9A6C}', [0x89, 0xC6]), ('\u{9A8F}', [0x89, 0xC7]), 
    ('\u{9AA8}', [0xB0, 0xA9]), ('\u{9AAB}', [0xE0, 0xE9]), ('\u{9AAD}', [0xE0, 0xE8]), 
    ('\u{9AAF}', [0xBB, 0xEA]), ('\u{9AB0}', [0xBB, 0xEB]), ('\u{9AB1}', [0xE4, 0xDA]), 
    ('\u{9AB2}', [0x8A, 0x6A]), ('\u{9AB3}', [0xE8, 0xD2]), ('\u{9AB4}', [0xEC, 0x6C]), 
    ('\u{9AB6}', [0x8B, 0x57]), ('\u{9AB7}', [0xBE, 0x75]), ('\u{9AB8}', [0xC0, 0x65]), 
    ('\u{9AB9}', [0xEC, 0x6A]), ('\u{9ABA}', [0x9F, 0xE1]), ('\u{9ABB}', [0xEC, 0x6D]), 
    ('\u{9ABC}', [0xC0, 0x66]), ('\u{9ABD}', [0x9B, 0x5F]), ('\u{9ABE}', [0xEF, 0x64]), 
    ('\u{9ABF}', [0xEC, 0x6B]), ('\u{9AC0}', [0xF1, 0xB9]), ('\u{9AC1}', [0xC3, 0x4E]), 
    ('\u{9AC2}', [0xF3, 0xC1]), ('\u{9AC6}', [0xF5, 0x66]), ('\u{9AC7}', [0xF5, 0x64]), 
    ('\u{9ACA}', [0xF5, 0x65]), ('\u{9ACD}', [0xF6, 0xA2]), ('\u{9ACF}', [0xC5, 0x5C]), 
    ('\u{9AD0}', [0xF7, 0xA4]), ('\u{9AD1}', [0xC5, 0xEA]), ('\u{9AD2}', [0xC5, 0xBC]), 
    ('\u{9AD3}', [0xC5, 0xE8]), ('\u{9AD4}', [0xC5, 0xE9]), ('\u{9AD5}', [0xF8, 0xD4]), 
    ('\u{9AD6}', [0xC6, 0x62]), ('\u{9AD7}', [0xA0, 0x5D]), ('\u{9AD8}', [0xB0, 0xAA]), 
    ('\u{9ADC}', [0xF1, 0xBA]), ('\u{9ADF}', [0xD4, 0x49]), ('\u{9AE0}', [0x91, 0x5B]), 
    ('\u{9AE1}', [0xB9, 0xA6]), ('\u{9AE2}', [0x91, 0x5C]), ('\u{9AE3}', [0xE4, 0xDB]), 
    ('\u{9AE6}', [0xBB, 0xEC]), ('\u{9AE7}', [0xE4, 0xDC]), ('\u{9AEB}', [0xE8, 0xD4]), 
    ('\u{9AEC}', [0xE8, 0xD3]), ('\u{9AED}', [0xC0, 0x68]), ('\u{9AEE}', [0xBE, 0x76]), 
    ('\u{9AEF}', [0xBE, 0x77]), ('\u{9AF1}', [0xE8, 0xD7]), ('\u{9AF2}', [0xE8, 0xD6]), 
    ('\u{9AF3}', [0xE8, 0xD5]), ('\u{9AF4}', [0x91, 0x5E]), ('\u{9AF6}', [0xEC, 0x6E]), 
    ('\u{9AF7}', [0xEC, 0x71]), ('\u{9AF9}', [0xEC, 0x70]), ('\u{9AFA}', [0xEC, 0x6F]), 
    ('\u{9AFB}', [0xC0, 0x67]), ('\u{9AFC}', [0xEF, 0x68]), ('\u{9AFD}', [0xEF, 0x66]), 
    ('\u{9AFE}', [0xEF, 0x65]), ('\u{9AFF}', [0x9F, 0x5C]), ('\u{9B01}', [0xEF, 0x67]), 
    ('\u{9B02}', [0x9F, 0x57]), ('\u{9B03}', [0xC3, 0x4F]), ('\u{9B04}', [0xF1, 0xBC]), 
    ('\u{9B05}', [0xF1, 0xBD]), ('\u{9B06}', [0xC3, 0x50]), ('\u{9B08}', [0xF1, 0xBB]), 
    ('\u{9B09}', [0x9F, 0x65]), ('\u{9B0A}', [0xF3, 0xC3]), ('\u{9B0B}', [0xF3, 0xC2]), 
    ('\u{9B0C}', [0xF3, 0xC5]), ('\u{9B0D}', [0xC4, 0x47]), ('\u{9B0E}', [0xF3, 0xC4]), 
    ('\u{9B0F}', [0x9A, 0x72]), ('\u{9B10}', [0xF5, 0x67]), ('\u{9B11}', [0xF5, 0x69]), 
    ('\u{9B12}', [0xF5, 0x68]), ('\u{9B14}', [0x91, 0x60]), ('\u{9B15}', [0xF6, 0xA3]), 
    ('\u{9B16}', [0xF6, 0xA6]), ('\u{9B17}', [0xF6, 0xA4]), ('\u{9B18}', [0xF6, 0xA5]), 
    ('\u{9B19}', [0xF7, 0xA5]), ('\u{9B1A}', [0xC5, 0xBD]), ('\u{9B1E}', [0xF8, 0x54]), 
    ('\u{9B1F}', [0xF8, 0x55]), ('\u{9B20}', [0xF8, 0x56]), ('\u{9B22}', [0xC6, 0x4B]), 
    ('\u{9B23}', [0xC6, 0x63]), ('\u{9B24}', [0xF9, 0xB6]), ('\u{9B25}', [0xB0, 0xAB]), 
    ('\u{9B27}', [0xBE, 0x78]), ('\u{9B28}', [0xC0, 0x69]), ('\u{9B29}', [0xF1, 0xBE]), 
    ('\u{9B2A}', [0x9F, 0x5E]), ('\u{9B2B}', [0xF7, 0xA6]), ('\u{9B2D}', [0x91, 0x61]), 
    ('\u{9B2E}', [0x9F, 0x60]), ('\u{9B2F}', [0xD4, 0x4A]), ('\u{9B31}', [0xC6, 0x7B]), 
    ('\u{9B32}', [0xB0, 0xAC]), ('\u{9B33}', [0xEC, 0x72]), ('\u{9B34}', [0x91, 0x64]), 
    ('\u{9B35}', [0xF1, 0xBF]), ('\u{9B37}', [0xF3, 0xC6]), ('\u{9B39}', [0x9F, 0x41]), 
    ('\u{9B3A}', [0xF6, 0xA7]), ('\u{9B3B}', [0xF7, 0xA7]), ('\u{9B3C}', [0xB0, 0xAD]), 
    ('\u{9B3E}', [0xE4, 0xDD]), ('\u{9B3F}', [0xE4, 0xDE]), ('\u{9B40}', [0x91, 0x69]), 
    ('\u{9B41}', [0xBB, 0xED]), ('\u{9B42}', [0xBB, 0xEE]), ('\u{9B43}', [0xE8, 0xD9]), 
    ('\u{9B44}', [0xBE, 0x7A]), ('\u{9B45}', [0xBE, 0x79]), ('\u{9B46}', [0xE8, 0xD8]), 
    ('\u{9B48}', [0xEF, 0x69]), ('\u{9B4A}', [0xF1, 0xC0]), ('\u{9B4B}', [0xF1, 0xC2]), 
    ('\u{9B4C}', [0xF1, 0xC1]), ('\u{9B4D}', [0xC3, 0x53]), ('\u{9B4E}', [0xC3, 0x52]), 
    ('\u{9B4F}', [0xC3, 0x51]), ('\u{9B50}', [0x91, 0x68]), ('\u{9B51}', [0xC5, 0x5E]), 
    ('\u{9B52}', [0xF6, 0xA8]), ('\u{9B54}', [0xC5, 0x5D]), ('\u{9B55}', [0xF7, 0xA9]), 
    ('\u{9B56}', [0xF7, 0xA8]), ('\u{9B58}', [0xC6, 0x4C]), ('\u{9B59}', [0xF8, 0xD5]), 
    ('\u{9B5A}', [0xB3, 0xBD]), ('\u{9B5B}', [0xE0, 0xEA]), ('\u{9B5F}', [0xE4, 0xE1]), 
    ('\u{9B60}', [0xE4, 0xDF]), ('\u{9B61}', [0xE4, 0xE0]), ('\u{9B64}', [0xE8, 0xE2]), 
    ('\u{9B66}', [0xE8, 0xDD]), ('\u{9B67}', [0xE8, 0xDA]), ('\u{9B68}', [0xE8, 0xE1]), 
    ('\u{9B69}', [0x9A, 0x74]), ('\u{9B6C}', [0xE8, 0xE3]), ('\u{9B6F}', [0xBE, 0x7C]), 
    ('\u{9B70}', [0xE8, 0xE0]), ('\u{9B71}', [0xE8, 0xDC]), ('\u{9B74}', [0xE8, 0xDB]), 
    ('\u{9B75}', [0xE8, 0xDF]), ('\u{9B76}', [0xE8, 0xDE]), ('\u{9B77}', [0xBE, 0x7B]), 
    ('\u{9B7A}', [0xEC, 0x7D]), ('\u{9B7B}', [0xEC, 0x78]), ('\u{9B7C}', [0xEC, 0x76]), 
    ('\u{9B7D}', [0xEC, 0xA1]), ('\u{9B7E}', [0xEC, 0x77]), ('\u{9B7F}', [0x96, 0xB2]), 
    ('\u{9B80}', [0xEC, 0x73]), ('\u{9B81}', [0x9A, 0x75]), ('\u{9B82}', [0xEC, 0x79]), 
    ('\u{9B83}', [0xFD, 0xA5]), ('\u{9B85}', [0xEC, 0x74]), ('\u{9B86}', [0xEF, 0x72]), 
    ('\u{9B87}', [0xEC, 0x75]), ('\u{9B88}', [0xEC, 0xA2]), ('\u{9B8B}', [0x9E, 0xE9]), 
    ('\u{9B8D}', [0x8B, 0xBA]), ('\u{9B8E}', [0x91, 0x6D]), ('\u{9B8F}', [0xA0, 0x60]), 
    ('\u{9B90}', [0xEC, 0x7C]), ('\u{9B91}', [0xC0, 0x6A]), ('\u{9B92}', [0xEC, 0x7B]), 
    ('\u{9B93}', [0xEC, 0x7A]), ('\u{9B95}', [0xEC, 0x7E]), ('\u{9B97}', [0x9F, 0xDE]), 
    ('\u{9B9A}', [0xEF, 0x6A]), ('\u{9B9B}', [0xEF, 0x6D]), ('\u{9B9D}', [0x9F, 0xC3]), 
    ('\u{9B9E}', [0xEF, 0x6C]), ('\u{9B9F}', [0x96, 0xB5]), ('\u{9BA0}', [0xEF, 0x74]), 
    ('\u{9BA1}', [0xEF, 0x6F]), ('\u{9BA2}', [0xEF, 0x73]), ('\u{9BA4}', [0xEF, 0x71]), 
    ('\u{9BA5}', [0xEF, 0x70]), ('\u{9BA6}', [0xEF, 0x6E]), ('\u{9BA8}', [0xEF, 0x6B]), 
    ('\u{9BAA}', [0xC2, 0x43]), ('\u{9BAB}', [0xC2, 0x42]), ('\u{9BAD}', [0xC2, 0x44]), 
    ('\u{9BAE}', [0xC2, 0x41]), ('\u{9BAF}', [0xEF, 0x75]), ('\u{9BB0}', [0xA0, 0x67]), 
    ('\u{9BB5}', [0xF1, 0xC8]), ('\u{9BB6}', [0xF1, 0xCB]), ('\u{9BB8}', [0xF1, 0xC9]), 
    ('\u{9BB9}', [0xF1, 0xCD]), ('\u{9BBD}', [0xF1, 0xCE]), ('\u{9BBF}', [0xF1, 0xC6]), 
    ('\u{9BC0}', [0xC3, 0x58]), ('\u{9BC1}', [0xF1, 0xC7]), ('\u{9BC3}', [0xF1, 0xC5]), 
    ('\u{9BC4}', [0xF1, 0xCC]), ('\u{9BC6}', [0xF1, 0xC4]), ('\u{9BC7}', [0xF1, 0xC3]), 
    ('\u{9BC8}', [0xC3, 0x57]), ('\u{9BC9}', [0xC3, 0x55]), ('\u{9BCA}', [0xC3, 0x54]), 
    ('\u{9BCF}', [0x96, 0xB3]), ('\u{9BD3}', [0xF1, 0xCA]), ('\u{9BD4}', [0xF3, 0xCF]), 
    ('\u{9BD5}', [0xF3, 0xD5]), ('\u{9BD6}', [0xC4, 0x4A]), ('\u{9BD7}', [0xF3, 0xD0]), 
    ('\u{9BD9}', [0xF3, 0xD3]), ('\u{9BDA}', [0xF3, 0xD7]), ('\u{9BDB}', [0xC4, 0x4B]), 
    ('\u{9BDC}', [0xF3, 0xD2]), ('\u{9BDD}', [0x9A, 0x76]), ('\u{9BDE}', [0xF3, 0xCA]), 
    ('\u{9BE0}', [0xF3, 0xC9]), ('\u{9BE1}', [0xF3, 0xD6]), ('\u{9BE2}', [0xF3, 0xCD]), 
    ('\u{9BE4}', [0xF3, 0xCB]), ('\u{9BE5}', [0xF3, 0xD4]), ('\u{9BE6}', [0xF3, 0xCC]), 
    ('\u{9BE7}', [0xC4, 0x49]), ('\u{9BE8}', [0xC4, 0x48]), ('\u{9BE9}', [0x95, 0xD5]), 
    ('\u{9BEA}', [0xF3, 0xC7]), ('\u{9BEB}', [0xF3, 0xC8]), ('\u{9BEC}', [0xF3, 0xD1]), 
    ('\u{9BED}', [0x9E, 0xCA]), ('\u{9BF0}', [0xF3, 0xCE]), ('\u{9BF1}', [0x9A, 0x77]), 
    ('\u{9BF4}', [0x9A, 0x78]), ('\u{9BF7}', [0xF5, 0x6C]), ('\u{9BF8}', [0xF5, 0x6F]), 
    ('\u{9BFD}', [0xC3, 0x56]), ('\u{9BFF}', [0x91, 0x70]), ('\u{9C02}', [0x91, 0x6F]), 
    ('\u{9C05}', [0xF5, 0x6D]), ('\u{9C06}', [0xF5, 0x73]), ('\u{9C07}', [0xF5, 0x71]), 
    ('\u{9C08}', [0xF5, 0x6B]), ('\u{9C09}', [0xF5, 0x76]), ('\u{9C0A}', [0x9F, 0xA3]), 
    ('\u{9C0B}', [0xF5, 0x6A]), ('\u{9C0C}', [0x91, 0x71]), ('\u{9C0D}', [0xC4, 0xCF]), 
    ('\u{9C0E}', [0xF5, 0x72]), ('\u{9C10}', [0x96, 0xB1]), ('\u{9C12}', [0xF5, 0x6E]), 
    ('\u{9C13}', [0xC4, 0xCE]), ('\u{9C14}', [0xF5, 0x75]), ('\u{9C15}', [0x9F, 0x63]), 
    ('\u{9C17}', [0xF5, 0x74]), ('\u{9C1B}', [0x9F, 0x67]), ('\u{9C1C}', [0xF6, 0xAB]), 
    ('\u{9C1D}', [0xF6, 0xAA]), ('\u{9C1F}', [0x8B, 0xB9]), ('\u{9C20}', [0x9A, 0x7A]), 
    ('\u{9C21}', [0xF6, 0xB1]), ('\u{9C23}', [0xF6, 0xAD]), ('\u{9C24}', [0xF6, 0xB0]), 
    ('\u{9C25}', [0xC5, 0x60]), ('\u{9C26}', [0x8B, 0x56]), ('\u{9C28}', [0xF6, 0xAE]), 
    ('\u{9C29}', [0xF6, 0xAF]), ('\u{9C2B}', [0xF6, 0xA9]), ('\u{9C2C}', [0xF6, 0xAC]), 
    ('\u{9C2D}', [0xC5, 0x5F]), ('\u{9C2F}', [0x9A, 0xDA]), ('\u{9C31}', [0xC5, 0xBF]), 
    ('\u{9C32}', [0xF7, 0xB4]), ('\u{9C33}', [0xF7, 0xAF]), ('\u{9C34}', [0xF7, 0xB3]), 
    ('\u{9C35}', [0x96, 0xB0]), ('\u{9C36}', [0xF7, 0xB6]), ('\u{9C37}', [0xF7, 0xB2]), 
    ('\u{9C39}', [0xF7, 0xAE]), ('\u{9C3A}', [0x9A, 0x7E]), ('\u{9C3B}', [0xC5, 0xC1]), 
    ('\u{9C3C}', [0xF7, 0xB1]), ('\u{9C3D}', [0xF7, 0xB5]), ('\u{9C3E}', [0xC5, 0xC0]), 
    ('\u{9C3F}', [0xF7, 0xAC]), ('\u{9C40}', [0xF5, 0x70]), ('\u{9C41}', [0xF7, 0xB0]), 
    ('\u{9C44}', [0xF7, 0xAD]), ('\u{9C45}', [0x9D, 0xDE]), ('\u{9C46}', [0xF7, 0xAA]), 
    ('\u{9C48}', [0xF7, 0xAB]), ('\u{9C49}', [0xC5, 0xBE]), ('\u{9C4A}', [0xF8, 0x5A]), 
    ('\u{9C4B}', [0xF8, 0x5C]), ('\u{9C4C}', [0xF8, 0x5F]), ('\u{9C4D}', [0xF8, 0x5B]), 
    ('\u{9C4E}', [0xF8, 0x60]), ('\u{9C4F}', [0x96, 0xAD]), ('\u{9C50}', [0xF8, 0x59]), 
    ('\u{9C52}', [0xF8, 0x57]), ('\u{9C53}', [0x96, 0xAE]), ('\u{9C54}', [0xC5, 0xEB]), 
    ('\u{9C55}', [0xF8, 0x5D]), ('\u{9C56}', [0xC5, 0xED]), ('\u{9C57}', [0xC5, 0xEC]), 
    ('\u{9C58}', [0xF8, 0x58]), ('\u{9C59}', [0xF8, 0x5E]), ('\u{9C5D}', [0x9E, 0xA1]), 
    ('\u{9C5E}', [0xF8, 0xDA]), ('\u{9C5F}', [0xC6, 0x4D]), ('\u{9C60}', [0xF8, 0xDB]), 
    ('\u{9C62}', [0xF8, 0xD9]), ('\u{9C63}', [0xF8, 0xD6]), ('\u{9C66}', [0xF8, 0xD8]), 
    ('\u{9C67}', [0xF8, 0xD7]), ('\u{9C68}', [0xF9, 0x5A]), ('\u{9C6D}', [0xF9, 0x5C]), 
    ('\u{9C6E}', [0xF9, 0x5B]), ('\u{9C71}', [0xF9, 0x79]), ('\u{9C72}', [0x9E, 0x50]), 
    ('\u{9C73}', [0xF9, 0x78]), ('\u{9C74}', [0xF9, 0x77]), ('\u{9C75}', [0xF9, 0x7A]), 
    ('\u{9C77}', [0xC6, 0x73]), ('\u{9C78}', [0xC6, 0x74]), ('\u{9C79}', [0xF9, 0xCA]), 
    ('\u{9C7A}', [0xF9, 0xCE]), ('\u{9C7B}', [0x96, 0xAF]), ('\u{9C7C}', [0x8B, 0xF4]), 
    ('\u{9CE5}', [0xB3, 0xBE]), ('\u{9CE6}', [0xDC, 0xAF]), ('\u{9CE7}', [0xE0, 0xED]), 
    ('\u{9CE9}', [0xB9, 0xA7]), ('\u{9CEA}', [0xE0, 0xEB]), ('\u{9CED}', [0xE0, 0xEC]), 
    ('\u{9CF1}', [0xE4, 0xE2]), ('\u{9CF2}', [0xE4, 0xE3]), ('\u{9CF3}', [0xBB, 0xF1]), 
    ('\u{9CF4}', [0xBB, 0xEF]), ('\u{9CF5}', [0xE4, 0xE4]), ('\u{9CF6}', [0xBB, 0xF0]), 
    ('\u{9CF7}', [0xE8, 0xE8]), ('\u{9CF9}', [0xE8, 0xEB]), ('\u{9CFA}', [0xE8, 0xE5]), 
    ('\u{9CFB}', [0xE8, 0xEC]), ('\u{9CFC}', [0xE8, 0xE4]), ('\u{9CFD}', [0xE8, 0xE6]), 
    ('\u{9CFF}', [0xE8, 0xE7]), ('\u{9D00}', [0xE8, 0xEA]), ('\u{9D02}', [0x9F, 0xA4]), 
    ('\u{9D03}', [0xBE, 0xA1]), ('\u{9D04}', [0xE8, 0xEF]), ('\u{9D05}', [0xE8, 0xEE]), 
    ('\u{9D06}', [0xBE, 0x7D]), ('\u{9D07}', [0xE8, 0xE9]), ('\u{9D08}', [0xE8, 0xED]), 
"#

/-- src/generated/whatwg/big5_whatwg_tables.rs.inc:7857-7984 -/
noncomputable def encode42 : List Text := lines! r#"    ('\u{9D09}', [0xBE, 0x7E]), ('\u{9D0C}', [0x96, 0xBD]), ('\u{9D10}', [0xEC, 0xAC]), 
    ('\u{9D12}', [0xC0, 0x6F]), ('\u{9D14}', [0xEC, 0xA7]), ('\u{9D15}', [0xC0, 0x6B]), 
    ('\u{9D16}', [0x96, 0xF4]), ('\u{9D17}', [0xEC, 0xA4]), ('\u{9D18}', [0xEC, 0xAA]), 
    ('\u{9D19}', [0xEC, 0xAD]), ('\u{9D1B}', [0xC0, 0x70]), ('\u{9D1D}', [0xEC, 0xA9]), 
    ('\u{9D1E}', [0xEC, 0xA6]), ('\u{9D1F}', [0xEC, 0xAE]), ('\u{9D20}', [0xEC, 0xA5]), 
    ('\u{9D21}', [0x96, 0xB8]), ('\u{9D22}', [0xEC, 0xAB]), ('\u{9D23}', [0xC0, 0x6C]), 
    ('\u{9D25}', [0xEC, 0xA3]), ('\u{9D26}', [0xC0, 0x6D]), ('\u{9D28}', [0xC0, 0x6E]), 
    ('\u{9D29}', [0xEC, 0xA8]), ('\u{9D2D}', [0xEF, 0xA9]), ('\u{9D2E}', [0xEF, 0x7A]), 
    ('\u{9D2F}', [0xEF, 0x7B]), ('\u{9D30}', [0xEF, 0x7E]), ('\u{9D31}', [0xEF, 0x7C]), 
    ('\u{9D33}', [0xEF, 0x76]), ('\u{9D34}', [0xFA, 0xA1]), ('\u{9D36}', [0xEF, 0x79]), 
    ('\u{9D37}', [0xEF, 0xA5]), ('\u{9D38}', [0xEF, 0x7D]), ('\u{9D39}', [0x91, 0xA7]), 
    ('\u{9D3B}', [0xC2, 0x45]), ('\u{9D3D}', [0xEF, 0xA7]), ('\u{9D3E}', [0xEF, 0xA4]), 
    ('\u{9D3F}', [0xC2, 0x46]), ('\u{9D40}', [0xEF, 0xA6]), ('\u{9D41}', [0xEF, 0x77]), 
    ('\u{9D42}', [0xEF, 0xA2]), ('\u{9D43}', [0xEF, 0xA3]), ('\u{9D44}', [0xA0, 0x5E]), 
    ('\u{9D45}', [0xEF, 0xA1]), ('\u{9D49}', [0x9A, 0x7D]), ('\u{9D4A}', [0xF1, 0xD2]), 
    ('\u{9D4B}', [0xF1, 0xD4]), ('\u{9D4C}', [0xF1, 0xD7]), ('\u{9D4E}', [0x89, 0x48]), 
    ('\u{9D4F}', [0xF1, 0xD1]), ('\u{9D50}', [0x9E, 0xB1]), ('\u{9D51}', [0xC3, 0x59]), 
    ('\u{9D52}', [0xF1, 0xD9]), ('\u{9D53}', [0xF1, 0xD0]), ('\u{9D54}', [0xF1, 0xDA]), 
    ('\u{9D56}', [0xF1, 0xD6]), ('\u{9D57}', [0xF1, 0xD8]), ('\u{9D58}', [0xF1, 0xDC]), 
    ('\u{9D59}', [0xF1, 0xD5]), ('\u{9D5A}', [0xF1, 0xDD]), ('\u{9D5B}', [0xF1, 0xD3]), 
    ('\u{9D5C}', [0xF1, 0xCF]), ('\u{9D5D}', [0xC3, 0x5A]), ('\u{9D5E}', [0x9D, 0xDB]), 
    ('\u{9D5F}', [0xF1, 0xDB]), ('\u{9D60}', [0xC3, 0x5B]), ('\u{9D61}', [0xC4, 0x4D]), 
    ('\u{9D67}', [0xEF, 0x78]), ('\u{9D68}', [0xF3, 0xF1]), ('\u{9D69}', [0xF3, 0xE8]), 
    ('\u{9D6A}', [0xC4, 0x4F]), ('\u{9D6B}', [0xF3, 0xE4]), ('\u{9D6C}', [0xC4, 0x50]), 
    ('\u{9D6D}', [0x95, 0xBF]), ('\u{9D6E}', [0x8A, 0x73]), ('\u{9D6F}', [0xF3, 0xED]), 
    ('\u{9D70}', [0xF3, 0xE7]), ('\u{9D71}', [0xF3, 0xDD]), ('\u{9D72}', [0xC4, 0x4E]), 
    ('\u{9D73}', [0xF3, 0xEA]), ('\u{9D74}', [0xF3, 0xE5]), ('\u{9D75}', [0xF3, 0xE6]), 
    ('\u{9D77}', [0xF3, 0xD8]), ('\u{9D78}', [0xF3, 0xDF]), ('\u{9D79}', [0xF3, 0xEE]), 
    ('\u{9D7B}', [0xF3, 0xEB]), ('\u{9D7C}', [0x9E, 0xFE]), ('\u{9D7D}', [0xF3, 0xE3]), 
    ('\u{9D7E}', [0x91, 0x7A]), ('\u{9D7F}', [0xF3, 0xEF]), ('\u{9D80}', [0xF3, 0xDE]), 
    ('\u{9D81}', [0xF3, 0xD9]), ('\u{9D82}', [0xF3, 0xEC]), ('\u{9D83}', [0x91, 0x7B]), 
    ('\u{9D84}', [0xF3, 0xDB]), ('\u{9D85}', [0xF3, 0xE9]), ('\u{9D86}', [0xF3, 0xE0]), 
    ('\u{9D87}', [0xF3, 0xF0]), ('\u{9D88}', [0xF3, 0xDC]), ('\u{9D89}', [0xC4, 0x4C]), 
    ('\u{9D8A}', [0xF3, 0xDA]), ('\u{9D8B}', [0xF3, 0xE1]), ('\u{9D8C}', [0xF3, 0xE2]), 
    ('\u{9D90}', [0xF5, 0x7D]), ('\u{9D92}', [0xF5, 0x7B]), ('\u{9D93}', [0x9A, 0xA3]), 
    ('\u{9D94}', [0xF5, 0xA2]), ('\u{9D96}', [0xF5, 0xAE]), ('\u{9D97}', [0xF5, 0xA5]), 
    ('\u{9D98}', [0xF5, 0x7C]), ('\u{9D99}', [0xF5, 0x78]), ('\u{9D9A}', [0xF5, 0xA7]), 
    ('\u{9D9B}', [0xF5, 0x7E]), ('\u{9D9C}', [0xF5, 0xA3]), ('\u{9D9D}', [0xF5, 0x7A]), 
    ('\u{9D9E}', [0xF5, 0xAA]), ('\u{9D9F}', [0xF5, 0x77]), ('\u{9DA0}', [0xF5, 0xA1]), 
    ('\u{9DA1}', [0xF5, 0xA6]), ('\u{9DA2}', [0xF5, 0xA8]), ('\u{9DA3}', [0xF5, 0xAB]), 
    ('\u{9DA4}', [0xF5, 0x79]), ('\u{9DA5}', [0x96, 0xC2]), ('\u{9DA6}', [0xF5, 0xAF]), 
    ('\u{9DA7}', [0xF5, 0xB0]), ('\u{9DA8}', [0xF5, 0xA9]), ('\u{9DA9}', [0xF5, 0xAD]), 
    ('\u{9DAA}', [0xF5, 0xA4]), ('\u{9DAB}', [0x9F, 0x77]), ('\u{9DAC}', [0xF6, 0xC1]), 
    ('\u{9DAD}', [0xF6, 0xC4]), ('\u{9DAF}', [0xC5, 0x61]), ('\u{9DB1}', [0xF6, 0xC3]), 
    ('\u{9DB2}', [0xF6, 0xC8]), ('\u{9DB3}', [0xF6, 0xC6]), ('\u{9DB4}', [0xC5, 0x62]), 
    ('\u{9DB5}', [0xF6, 0xBD]), ('\u{9DB6}', [0xF6, 0xB3]), ('\u{9DB7}', [0xF6, 0xB2]), 
    ('\u{9DB8}', [0xC5, 0x64]), ('\u{9DB9}', [0xF6, 0xBF]), ('\u{9DBA}', [0xF6, 0xC0]), 
    ('\u{9DBB}', [0xF6, 0xBC]), ('\u{9DBC}', [0xF6, 0xB4]), ('\u{9DBD}', [0x9A, 0xA4]), 
    ('\u{9DBE}', [0xF6, 0xB9]), ('\u{9DBF}', [0xF5, 0xAC]), ('\u{9DC0}', [0x9A, 0xA5]), 
    ('\u{9DC1}', [0xF6, 0xB5]), ('\u{9DC2}', [0xC5, 0x63]), ('\u{9DC3}', [0xF6, 0xBB]), 
    ('\u{9DC4}', [0x91, 0xA1]), ('\u{9DC5}', [0xF6, 0xBA]), ('\u{9DC7}', [0xF6, 0xB6]), 
    ('\u{9DC8}', [0xF6, 0xC2]), ('\u{9DC9}', [0x89, 0xB8]), ('\u{9DCA}', [0xF6, 0xB7]), 
    ('\u{9DCB}', [0xF7, 0xBB]), ('\u{9DCC}', [0xF6, 0xC5]), ('\u{9DCD}', [0xF6, 0xC7]), 
    ('\u{9DCE}', [0xF6, 0xBE]), ('\u{9DCF}', [0xF6, 0xB8]), ('\u{9DD0}', [0xF7, 0xBC]), 
    ('\u{9DD1}', [0xF7, 0xBE]), ('\u{9DD2}', [0xF7, 0xB8]), ('\u{9DD3}', [0xC5, 0xC2]), 
    ('\u{9DD4}', [0x91, 0x73]), ('\u{9DD5}', [0xF7, 0xC5]), ('\u{9DD6}', [0xF7, 0xC3]), 
    ('\u{9DD7}', [0xC5, 0xC3]), ('\u{9DD8}', [0xF7, 0xC2]), ('\u{9DD9}', [0xF7, 0xC1]), 
    ('\u{9DDA}', [0xF7, 0xBA]), ('\u{9DDB}', [0xF7, 0xB7]), ('\u{9DDC}', [0xF7, 0xBD]), 
    ('\u{9DDD}', [0xF7, 0xC6]), ('\u{9DDE}', [0xF7, 0xB9]), ('\u{9DDF}', [0xF7, 0xBF]), 
    ('\u{9DE1}', [0xF8, 0x69]), ('\u{9DE2}', [0xF8, 0x6E]), ('\u{9DE3}', [0xF8, 0x64]), 
    ('\u{9DE4}', [0xF8, 0x67]), ('\u{9DE5}', [0xC5, 0xEE]), ('\u{9DE6}', [0xF8, 0x6B]), 
    ('\u{9DE8}', [0xF8, 0x72]), ('\u{9DE9}', [0xF7, 0xC0]), ('\u{9DEB}', [0xF8, 0x65]), 
    ('\u{9DEC}', [0xF8, 0x6F]), ('\u{9DED}', [0xF8, 0x73]), ('\u{9DEE}', [0xF8, 0x6A]), 
    ('\u{9DEF}', [0xF8, 0x63]), ('\u{9DF0}', [0x9C, 0x6B]), ('\u{9DF2}', [0xF8, 0x6C]), 
    ('\u{9DF3}', [0xF8, 0x71]), ('\u{9DF4}', [0xF8, 0x70]), ('\u{9DF5}', [0xF7, 0xC4]), 
    ('\u{9DF6}', [0xF8, 0x68]), ('\u{9DF7}', [0xF8, 0x62]), ('\u{9DF8}', [0xF8, 0x66]), 
    ('\u{9DF9}', [0xC6, 0x4E]), ('\u{9DFA}', [0xC6, 0x4F]), ('\u{9DFB}', [0xF8, 0x61]), 
    ('\u{9DFC}', [0x9A, 0xA6]), ('\u{9DFD}', [0xF8, 0xE6]), ('\u{9DFE}', [0xF8, 0xDD]), 
    ('\u{9DFF}', [0xF8, 0xE5]), ('\u{9E00}', [0xF8, 0xE2]), ('\u{9E01}', [0xF8, 0xE3]), 
    ('\u{9E02}', [0xF8, 0xDC]), ('\u{9E03}', [0xF8, 0xDF]), ('\u{9E04}', [0xF8, 0xE7]), 
    ('\u{9E05}', [0xF8, 0xE1]), ('\u{9E06}', [0xF8, 0xE0]), ('\u{9E07}', [0xF8, 0xDE]), 
    ('\u{9E09}', [0xF8, 0xE4]), ('\u{9E0A}', [0x89, 0xBD]), ('\u{9E0B}', [0xF9, 0x5D]), 
    ('\u{9E0C}', [0x89, 0xB9]), ('\u{9E0D}', [0xF9, 0x5E]), ('\u{9E0E}', [0x91, 0x7D]), 
    ('\u{9E0F}', [0xF9, 0x60]), ('\u{9E10}', [0xF9, 0x5F]), ('\u{9E11}', [0xF9, 0x62]), 
    ('\u{9E12}', [0xF9, 0x61]), ('\u{9E13}', [0xF9, 0x7C]), ('\u{9E14}', [0xF9, 0x7B]), 
    ('\u{9E15}', [0xF9, 0xB7]), ('\u{9E17}', [0xF9, 0xB8]), ('\u{9E18}', [0x96, 0xBB]), 
    ('\u{9E19}', [0xF9, 0xC5]), ('\u{9E1A}', [0xC6, 0x78]), ('\u{9E1B}', [0xC6, 0x7C]), 
    ('\u{9E1C}', [0x9F, 0xF2]), ('\u{9E1D}', [0xF9, 0xCF]), ('\u{9E1E}', [0xC6, 0x7D]), 
    ('\u{9E1F}', [0x8B, 0xF5]), ('\u{9E75}', [0xB3, 0xBF]), ('\u{9E79}', [0xC4, 0xD0]), 
    ('\u{9E7A}', [0xF6, 0xC9]), ('\u{9E7B}', [0x9A, 0xA9]), ('\u{9E7C}', [0xC6, 0x50]), 
    ('\u{9E7D}', [0xC6, 0x51]), ('\u{9E7F}', [0xB3, 0xC0]), ('\u{9E80}', [0xE0, 0xEE]), 
    ('\u{9E81}', [0x9F, 0x54]), ('\u{9E82}', [0xB9, 0xA8]), ('\u{9E83}', [0xE8, 0xF0]), 
    ('\u{9E84}', [0x9F, 0xE3]), ('\u{9E85}', [0x9E, 0xED]), ('\u{9E86}', [0xEC, 0xB0]), 
    ('\u{9E87}', [0xEC, 0xB1]), ('\u{9E88}', [0xEC, 0xAF]), ('\u{9E89}', [0xEF, 0xAB]), 
    ('\u{9E8A}', [0xEF, 0xAA]), ('\u{9E8B}', [0xC2, 0x47]), ('\u{9E8C}', [0xF1, 0xDF]), 
    ('\u{9E8D}', [0xEF, 0xAC]), ('\u{9E8E}', [0xF1, 0xDE]), ('\u{9E90}', [0x91, 0xAA]), 
    ('\u{9E91}', [0xF3, 0xF3]), ('\u{9E92}', [0xC4, 0x51]), ('\u{9E93}', [0xC4, 0x53]), 
    ('\u{9E94}', [0xF3, 0xF2]), ('\u{9E95}', [0x91, 0xAB]), ('\u{9E96}', [0xA0, 0x70]), 
    ('\u{9E97}', [0xC4, 0x52]), ('\u{9E98}', [0x9F, 0x6D]), ('\u{9E99}', [0xF5, 0xB1]), 
    ('\u{9E9A}', [0xF5, 0xB3]), ('\u{9E9B}', [0xF5, 0xB2]), ('\u{9E9C}', [0xF6, 0xCA]), 
    ('\u{9E9D}', [0xC5, 0x65]), ('\u{9E9E}', [0x91, 0xAC]), ('\u{9E9F}', [0xC5, 0xEF]), 
    ('\u{9EA0}', [0xF8, 0xE8]), ('\u{9EA1}', [0xF9, 0x63]), ('\u{9EA2}', [0x91, 0xAD]), 
    ('\u{9EA4}', [0xF9, 0xD2]), ('\u{9EA5}', [0xB3, 0xC1]), ('\u{9EA6}', [0xA0, 0xFD]), 
    ('\u{9EA7}', [0xE4, 0xE5]), ('\u{9EA8}', [0x9F, 0xE2]), ('\u{9EA9}', [0xBE, 0xA2]), 
    ('\u{9EAA}', [0x91, 0xAF]), ('\u{9EAB}', [0x9E, 0x41]), ('\u{9EAC}', [0x9A, 0xAA]), 
    ('\u{9EAD}', [0xEC, 0xB3]), ('\u{9EAE}', [0xEC, 0xB2]), ('\u{9EAF}', [0x91, 0xB0]), 
    ('\u{9EB0}', [0xEF, 0xAD]), ('\u{9EB1}', [0x9A, 0xAB]), ('\u{9EB4}', [0xC4, 0x54]), 
    ('\u{9EB5}', [0xC4, 0xD1]), ('\u{9EB6}', [0xF7, 0xC7]), ('\u{9EB7}', [0xF9, 0xCB]), 
    ('\u{9EBB}', [0xB3, 0xC2]), ('\u{9EBC}', [0xBB, 0xF2]), ('\u{9EBD}', [0x9A, 0xAC]), 
    ('\u{9EBE}', [0xBE, 0xA3]), ('\u{9EBF}', [0x9A, 0x4A]), ('\u{9EC0}', [0xF3, 0xF4]), 
    ('\u{9EC1}', [0x91, 0xB2]), ('\u{9EC2}', [0xF8, 0x74]), ('\u{9EC3}', [0xB6, 0xC0]), 
    ('\u{9EC4}', [0x8B, 0xF6]), ('\u{9EC6}', [0x9A, 0xAD]), ('\u{9EC7}', [0x89, 0xB6]), 
    ('\u{9EC8}', [0xEF, 0xAE]), ('\u{9ECC}', [0xC6, 0x64]), ('\u{9ECD}', [0xB6, 0xC1]), 
    ('\u{9ECE}', [0xBE, 0xA4]), ('\u{9ECF}', [0xC2, 0x48]), ('\u{9ED0}', [0xF8, 0x75]), 
    ('\u{9ED1}', [0xB6, 0xC2]), ('\u{9ED3}', [0xE8, 0xF1]), ('\u{9ED4}', [0xC0, 0x72]), 
    ('\u{9ED5}', [0xEC, 0xB4]), ('\u{9ED6}', [0xEC, 0xB5]), ('\u{9ED8}', [0xC0, 0x71]), 
    ('\u{9EDA}', [0xEF, 0xAF]), ('\u{9EDB}', [0xC2, 0x4C]), ('\u{9EDC}', [0xC2, 0x4A]), 
    ('\u{9EDD}', [0xC2, 0x4B]), ('\u{9EDE}', [0xC2, 0x49]), ('\u{9EDF}', [0xF1, 0xE0]), 
    ('\u{9EE0}', [0xC3, 0x5C]), ('\u{9EE2}', [0x9A, 0xAF]), ('\u{9EE4}', [0xF5, 0xB5]), 
    ('\u{9EE5}', [0xF5, 0xB4]), ('\u{9EE6}', [0xF5, 0xB7]), ('\u{9EE7}', [0xF5, 0xB6]), 
    ('\u{9EE8}', [0xC4, 0xD2]), ('\u{9EEB}', [0xF6, 0xCB]), ('\u{9EED}', [0xF6, 0xCD]), 
    ('\u{9EEE}', [0xF6, 0xCC]), ('\u{9EEF}', [0xC5, 0x66]), ('\u{9EF0}', [0xF7, 0xC8]), 
    ('\u{9EF1}', [0x9A, 0xB0]), ('\u{9EF2}', [0xF8, 0x76]), ('\u{9EF3}', [0xF8, 0x77]), 
    ('\u{9EF4}', [0xC5, 0xF0]), ('\u{9EF5}', [0xF9, 0x64]), ('\u{9EF6}', [0xF9, 0x7D]), 
    ('\u{9EF7}', [0xC6, 0x75]), ('\u{9EF8}', [0x9A, 0xB1]), ('\u{9EF9}', [0xDC, 0xB0]), 
    ('\u{9EFA}', [0xEC, 0xB6]), ('\u{9EFB}', [0xEF, 0xB0]), ('\u{9EFC}', [0xF3, 0xF5]), 
    ('\u{9EFD}', [0xE0, 0xEF]), ('\u{9EFE}', [0x9A, 0xA1]), ('\u{9EFF}', [0xEF, 0xB1]), 
    ('\u{9F00}', [0xF1, 0xE2]), ('\u{9F01}', [0xF1, 0xE1]), ('\u{9F02}', [0x91, 0xB9]), 
    ('\u{9F06}', [0xF8, 0x78]), ('\u{9F07}', [0xC6, 0x52]), ('\u{9F08}', [0x91, 0xBA]), 
    ('\u{9F09}', [0xF9, 0x65]), ('\u{9F0A}', [0xF9, 0x7E]), ('\u{9F0E}', [0xB9, 0xA9]), 
    ('\u{9F0F}', [0xE8, 0xF2]), ('\u{9F10}', [0xE8, 0xF3]), ('\u{9F12}', [0xEC, 0xB7]), 
    ('\u{9F13}', [0xB9, 0xAA]), ('\u{9F15}', [0xC3, 0x5D]), ('\u{9F16}', [0x91, 0xBF]), 
    ('\u{9F17}', [0x91, 0xBE]), ('\u{9F18}', [0xF6, 0xCF]), ('\u{9F19}', [0xC5, 0x67]), 
    ('\u{9F1A}', [0xF6, 0xD0]), ('\u{9F1B}', [0xF6, 0xCE]), ('\u{9F1C}', [0xF8, 0x79]), 
    ('\u{9F1E}', [0xF8, 0xE9]), ('\u{9F20}', [0xB9, 0xAB]), ('\u{9F22}', [0xEF, 0xB4]), 
    ('\u{9F23}', [0xEF, 0xB3]), ('\u{9F24}', [0xEF, 0xB2]), ('\u{9F25}', [0xF1, 0xE4]), 
    ('\u{9F26}', [0xA0, 0x41]), ('\u{9F27}', [0x8B, 0xB7]), ('\u{9F28}', [0xF1, 0xE8]), 
    ('\u{9F29}', [0xF1, 0xE7]), ('\u{9F2A}', [0xF1, 0xE6]), ('\u{9F2B}', [0xF1, 0xE5]), 
"#

/-- src/generated/whatwg/big5_whatwg_tables.rs.inc:7985-8112 -/
noncomputable def encode43 : List Text := lines! r#"    ('\u{9F2C}', [0xC3, 0x5E]), ('\u{9F2D}', [0xF3, 0xF6]), ('\u{9F2E}', [0xF5, 0xB9]), 
    ('\u{9F2F}', [0xC4, 0xD3]), ('\u{9F30}', [0xF5, 0xB8]), ('\u{9F31}', [0xF6, 0xD1]), 
    ('\u{9F32}', [0xF7, 0xCB]), ('\u{9F33}', [0xF7, 0xCA]), ('\u{9F34}', [0xC5, 0xC4]), 
    ('\u{9F35}', [0xF7, 0xC9]), ('\u{9F36}', [0xF8, 0x7C]), ('\u{9F37}', [0xF8, 0x7B]), 
    ('\u{9F38}', [0xF8, 0x7A]), ('\u{9F39}', [0x91, 0xC0]), ('\u{9F3B}', [0xBB, 0xF3]), 
    ('\u{9F3D}', [0xEC, 0xB8]), ('\u{9F3E}', [0xC2, 0x4D]), ('\u{9F40}', [0xF3, 0xF7]), 
    ('\u{9F41}', [0xF3, 0xF8]), ('\u{9F42}', [0xF7, 0xCC]), ('\u{9F43}', [0xF8, 0x7D]), 
    ('\u{9F44}', [0x9A, 0xB3]), ('\u{9F45}', [0x91, 0xC3]), ('\u{9F46}', [0xF8, 0xEA]), 
    ('\u{9F47}', [0xF9, 0x66]), ('\u{9F48}', [0xF9, 0xB9]), ('\u{9F49}', [0xF9, 0xD4]), 
    ('\u{9F4A}', [0xBB, 0xF4]), ('\u{9F4B}', [0xC2, 0x4E]), ('\u{9F4C}', [0xF1, 0xE9]), 
    ('\u{9F4D}', [0xF3, 0xF9]), ('\u{9F4E}', [0xF6, 0xD2]), ('\u{9F4F}', [0xF8, 0x7E]), 
    ('\u{9F50}', [0xA0, 0xFC]), ('\u{9F52}', [0xBE, 0xA6]), ('\u{9F53}', [0x9F, 0xEE]), 
    ('\u{9F54}', [0xEF, 0xB5]), ('\u{9F55}', [0xF1, 0xEA]), ('\u{9F56}', [0xF3, 0xFA]), 
    ('\u{9F57}', [0xF3, 0xFB]), ('\u{9F58}', [0xF3, 0xFC]), ('\u{9F59}', [0xF5, 0xBE]), 
    ('\u{9F5A}', [0x9F, 0x69]), ('\u{9F5B}', [0xF5, 0xBA]), ('\u{9F5C}', [0xC5, 0x68]), 
    ('\u{9F5D}', [0xF5, 0xBD]), ('\u{9F5E}', [0xF5, 0xBC]), ('\u{9F5F}', [0xC4, 0xD4]), 
    ('\u{9F60}', [0xF5, 0xBB]), ('\u{9F61}', [0xC4, 0xD6]), ('\u{9F62}', [0x91, 0xC8]), 
    ('\u{9F63}', [0xC4, 0xD5]), ('\u{9F64}', [0xF6, 0xD4]), ('\u{9F65}', [0xF6, 0xD3]), 
    ('\u{9F66}', [0xC5, 0x69]), ('\u{9F67}', [0xC5, 0x6A]), ('\u{9F69}', [0x91, 0xC9]), 
    ('\u{9F6A}', [0xC5, 0xC6]), ('\u{9F6B}', [0xF7, 0xCD]), ('\u{9F6C}', [0xC5, 0xC5]), 
    ('\u{9F6E}', [0xF8, 0xA3]), ('\u{9F6F}', [0xF8, 0xA4]), ('\u{9F70}', [0xF8, 0xA2]), 
    ('\u{9F71}', [0xF8, 0xA1]), ('\u{9F72}', [0xC6, 0x54]), ('\u{9F74}', [0xF8, 0xEB]), 
    ('\u{9F75}', [0xF8, 0xEC]), ('\u{9F76}', [0xF8, 0xED]), ('\u{9F77}', [0xC6, 0x53]), 
    ('\u{9F78}', [0xF9, 0x67]), ('\u{9F79}', [0xF9, 0x6A]), ('\u{9F7A}', [0xF9, 0x69]), 
    ('\u{9F7B}', [0xF9, 0x68]), ('\u{9F7E}', [0xF9, 0xD3]), ('\u{9F7F}', [0x8D, 0xE6]), 
    ('\u{9F8D}', [0xC0, 0x73]), ('\u{9F8E}', [0x91, 0xCB]), ('\u{9F90}', [0xC3, 0x65]), 
    ('\u{9F91}', [0xF5, 0xBF]), ('\u{9F92}', [0xF6, 0xD5]), ('\u{9F94}', [0xC5, 0xC7]), 
    ('\u{9F95}', [0xF7, 0xCE]), ('\u{9F96}', [0x87, 0xAC]), ('\u{9F97}', [0x87, 0xA4]), 
    ('\u{9F98}', [0xF9, 0xD5]), ('\u{9F99}', [0x89, 0xC8]), ('\u{9F9C}', [0xC0, 0x74]), 
    ('\u{9F9F}', [0x8D, 0xAA]), ('\u{9FA0}', [0xEF, 0xB6]), ('\u{9FA2}', [0xF7, 0xCF]), 
    ('\u{9FA4}', [0xF9, 0xA1]), ('\u{9FA5}', [0x9F, 0xDD]), ('\u{9FA6}', [0x8C, 0x43]), 
    ('\u{9FA7}', [0x8C, 0x6D]), ('\u{9FA8}', [0x8C, 0x74]), ('\u{9FA9}', [0x8C, 0xB7]), 
    ('\u{9FAA}', [0x8C, 0xB9]), ('\u{9FAB}', [0x8C, 0xBB]), ('\u{9FAC}', [0x8C, 0xC0]), 
    ('\u{9FAD}', [0x8C, 0xD7]), ('\u{9FAE}', [0x8C, 0xD8]), ('\u{9FAF}', [0x8C, 0xDA]), 
    ('\u{9FB0}', [0xC8, 0xA1]), ('\u{9FB1}', [0xC8, 0xA3]), ('\u{9FB2}', [0x8C, 0xED]), 
    ('\u{9FB3}', [0x8D, 0x48]), ('\u{9FC7}', [0x87, 0xC2]), ('\u{9FC8}', [0x87, 0xD2]), 
    ('\u{9FC9}', [0x87, 0xD6]), ('\u{9FCA}', [0x87, 0xDA]), ('\u{9FCB}', [0x87, 0xDF]), 
    ('\u{F907}', [0x8B, 0xF8]), ('\u{FA0C}', [0xC9, 0x4A]), ('\u{FA0D}', [0xDD, 0xFC]), 
    ('\u{FE30}', [0xA1, 0x4A]), ('\u{FE31}', [0xA1, 0x57]), ('\u{FE33}', [0xA1, 0x59]), 
    ('\u{FE34}', [0xA1, 0x5B]), ('\u{FE35}', [0xA1, 0x5F]), ('\u{FE36}', [0xA1, 0x60]), 
    ('\u{FE37}', [0xA1, 0x63]), ('\u{FE38}', [0xA1, 0x64]), ('\u{FE39}', [0xA1, 0x67]), 
    ('\u{FE3A}', [0xA1, 0x68]), ('\u{FE3B}', [0xA1, 0x6B]), ('\u{FE3C}', [0xA1, 0x6C]), 
    ('\u{FE3D}', [0xA1, 0x6F]), ('\u{FE3E}', [0xA1, 0x70]), ('\u{FE3F}', [0xA1, 0x73]), 
    ('\u{FE40}', [0xA1, 0x74]), ('\u{FE41}', [0xA1, 0x77]), ('\u{FE42}', [0xA1, 0x78]), 
    ('\u{FE43}', [0xA1, 0x7B]), ('\u{FE44}', [0xA1, 0x7C]), ('\u{FE49}', [0xA1, 0xC6]), 
    ('\u{FE4A}', [0xA1, 0xC7]), ('\u{FE4B}', [0xA1, 0xCA]), ('\u{FE4C}', [0xA1, 0xCB]), 
    ('\u{FE4D}', [0xA1, 0xC8]), ('\u{FE4E}', [0xA1, 0xC9]), ('\u{FE4F}', [0xA1, 0x5C]), 
    ('\u{FE50}', [0xA1, 0x4D]), ('\u{FE51}', [0xA1, 0x4E]), ('\u{FE52}', [0xA1, 0x4F]), 
    ('\u{FE54}', [0xA1, 0x51]), ('\u{FE55}', [0xA1, 0x52]), ('\u{FE56}', [0xA1, 0x53]), 
    ('\u{FE57}', [0xA1, 0x54]), ('\u{FE59}', [0xA1, 0x7D]), ('\u{FE5A}', [0xA1, 0x7E]), 
    ('\u{FE5B}', [0xA1, 0xA1]), ('\u{FE5C}', [0xA1, 0xA2]), ('\u{FE5D}', [0xA1, 0xA3]), 
    ('\u{FE5E}', [0xA1, 0xA4]), ('\u{FE5F}', [0xA1, 0xCC]), ('\u{FE60}', [0xA1, 0xCD]), 
    ('\u{FE61}', [0xA1, 0xCE]), ('\u{FE62}', [0xA1, 0xDE]), ('\u{FE63}', [0xA1, 0xDF]), 
    ('\u{FE64}', [0xA1, 0xE0]), ('\u{FE65}', [0xA1, 0xE1]), ('\u{FE66}', [0xA1, 0xE2]), 
    ('\u{FE68}', [0xA2, 0x42]), ('\u{FE69}', [0xA2, 0x4C]), ('\u{FE6A}', [0xA2, 0x4D]), 
    ('\u{FE6B}', [0xA2, 0x4E]), ('\u{FF01}', [0xA1, 0x49]), ('\u{FF02}', [0xC8, 0xD0]), 
    ('\u{FF03}', [0xA1, 0xAD]), ('\u{FF04}', [0xA2, 0x43]), ('\u{FF05}', [0xA2, 0x48]), 
    ('\u{FF06}', [0xA1, 0xAE]), ('\u{FF07}', [0xC8, 0xCF]), ('\u{FF08}', [0xA1, 0x5D]), 
    ('\u{FF09}', [0xA1, 0x5E]), ('\u{FF0A}', [0xA1, 0xAF]), ('\u{FF0B}', [0xA1, 0xCF]), 
    ('\u{FF0C}', [0xA1, 0x41]), ('\u{FF0D}', [0xA1, 0xD0]), ('\u{FF0E}', [0xA1, 0x44]), 
    ('\u{FF0F}', [0xA1, 0xFE]), ('\u{FF10}', [0xA2, 0xAF]), ('\u{FF11}', [0xA2, 0xB0]), 
    ('\u{FF12}', [0xA2, 0xB1]), ('\u{FF13}', [0xA2, 0xB2]), ('\u{FF14}', [0xA2, 0xB3]), 
    ('\u{FF15}', [0xA2, 0xB4]), ('\u{FF16}', [0xA2, 0xB5]), ('\u{FF17}', [0xA2, 0xB6]), 
    ('\u{FF18}', [0xA2, 0xB7]), ('\u{FF19}', [0xA2, 0xB8]), ('\u{FF1A}', [0xA1, 0x47]), 
    ('\u{FF1B}', [0xA1, 0x46]), ('\u{FF1C}', [0xA1, 0xD5]), ('\u{FF1D}', [0xA1, 0xD7]), 
    ('\u{FF1E}', [0xA1, 0xD6]), ('\u{FF1F}', [0xA1, 0x48]), ('\u{FF20}', [0xA2, 0x49]), 
    ('\u{FF21}', [0xA2, 0xCF]), ('\u{FF22}', [0xA2, 0xD0]), ('\u{FF23}', [0xA2, 0xD1]), 
    ('\u{FF24}', [0xA2, 0xD2]), ('\u{FF25}', [0xA2, 0xD3]), ('\u{FF26}', [0xA2, 0xD4]), 
    ('\u{FF27}', [0xA2, 0xD5]), ('\u{FF28}', [0xA2, 0xD6]), ('\u{FF29}', [0xA2, 0xD7]), 
    ('\u{FF2A}', [0xA2, 0xD8]), ('\u{FF2B}', [0xA2, 0xD9]), ('\u{FF2C}', [0xA2, 0xDA]), 
    ('\u{FF2D}', [0xA2, 0xDB]), ('\u{FF2E}', [0xA2, 0xDC]), ('\u{FF2F}', [0xA2, 0xDD]), 
    ('\u{FF30}', [0xA2, 0xDE]), ('\u{FF31}', [0xA2, 0xDF]), ('\u{FF32}', [0xA2, 0xE0]), 
    ('\u{FF33}', [0xA2, 0xE1]), ('\u{FF34}', [0xA2, 0xE2]), ('\u{FF35}', [0xA2, 0xE3]), 
    ('\u{FF36}', [0xA2, 0xE4]), ('\u{FF37}', [0xA2, 0xE5]), ('\u{FF38}', [0xA2, 0xE6]), 
    ('\u{FF39}', [0xA2, 0xE7]), ('\u{FF3A}', [0xA2, 0xE8]), ('\u{FF3B}', [0xC6, 0xE4]), 
    ('\u{FF3C}', [0xA2, 0x40]), ('\u{FF3D}', [0xC6, 0xE5]), ('\u{FF3F}', [0xA1, 0xC4]), 
    ('\u{FF41}', [0xA2, 0xE9]), ('\u{FF42}', [0xA2, 0xEA]), ('\u{FF43}', [0xA2, 0xEB]), 
    ('\u{FF44}', [0xA2, 0xEC]), ('\u{FF45}', [0xA2, 0xED]), ('\u{FF46}', [0xA2, 0xEE]), 
    ('\u{FF47}', [0xA2, 0xEF]), ('\u{FF48}', [0xA2, 0xF0]), ('\u{FF49}', [0xA2, 0xF1]), 
    ('\u{FF4A}', [0xA2, 0xF2]), ('\u{FF4B}', [0xA2, 0xF3]), ('\u{FF4C}', [0xA2, 0xF4]), 
    ('\u{FF4D}', [0xA2, 0xF5]), ('\u{FF4E}', [0xA2, 0xF6]), ('\u{FF4F}', [0xA2, 0xF7]), 
    ('\u{FF50}', [0xA2, 0xF8]), ('\u{FF51}', [0xA2, 0xF9]), ('\u{FF52}', [0xA2, 0xFA]), 
    ('\u{FF53}', [0xA2, 0xFB]), ('\u{FF54}', [0xA2, 0xFC]), ('\u{FF55}', [0xA2, 0xFD]), 
    ('\u{FF56}', [0xA2, 0xFE]), ('\u{FF57}', [0xA3, 0x40]), ('\u{FF58}', [0xA3, 0x41]), 
    ('\u{FF59}', [0xA3, 0x42]), ('\u{FF5A}', [0xA3, 0x43]), ('\u{FF5B}', [0xA1, 0x61]), 
    ('\u{FF5C}', [0xA1, 0x55]), ('\u{FF5D}', [0xA1, 0x62]), ('\u{FF5E}', [0xA1, 0xE3]), 
    ('\u{FFE0}', [0xA2, 0x46]), ('\u{FFE1}', [0xA2, 0x47]), ('\u{FFE2}', [0xC8, 0xCD]), 
    ('\u{FFE3}', [0xA1, 0xC3]), ('\u{FFE4}', [0xC8, 0xCE]), ('\u{FFE5}', [0xA2, 0x44]), 
    ('\u{FFED}', [0xF9, 0xFE]), ('\u{20021}', [0x9C, 0x71]), ('\u{2003E}', [0x93, 0x75]), 
    ('\u{20046}', [0x93, 0x76]), ('\u{2004E}', [0x95, 0x48]), ('\u{20068}', [0x8E, 0xC6]), 
    ('\u{20086}', [0x8B, 0xC5]), ('\u{20087}', [0x8B, 0xFA]), ('\u{2008A}', [0xC8, 0x7C]), 
    ('\u{20094}', [0x9A, 0xB4]), ('\u{200CA}', [0x88, 0x4E]), ('\u{200CB}', [0x88, 0x4B]), 
    ('\u{200CC}', [0xC8, 0x7A]), ('\u{200CD}', [0x88, 0x48]), ('\u{200D1}', [0x88, 0x47]), 
    ('\u{200EE}', [0xA0, 0xF6]), ('\u{2010C}', [0x88, 0x45]), ('\u{2010E}', [0x88, 0x53]), 
    ('\u{20118}', [0xFC, 0xAD]), ('\u{201A4}', [0x8C, 0xF5]), ('\u{201A9}', [0x8A, 0xAD]), 
    ('\u{201AB}', [0x92, 0x72]), ('\u{201C1}', [0xFC, 0x47]), ('\u{201D4}', [0x94, 0xDF]), 
    ('\u{201F2}', [0x9F, 0xD1]), ('\u{20204}', [0xFB, 0xCB]), ('\u{2020C}', [0x92, 0x7D]), 
    ('\u{20214}', [0x98, 0xA4]), ('\u{20239}', [0x8C, 0xF9]), ('\u{2025B}', [0x94, 0xE7]), 
    ('\u{20274}', [0x90, 0xCB]), ('\u{20275}', [0x92, 0x7B]), ('\u{20299}', [0x94, 0xD8]), 
    ('\u{2029E}', [0xFC, 0x5F]), ('\u{202A0}', [0xFA, 0x54]), ('\u{202B7}', [0x9A, 0xB5]), 
    ('\u{202BF}', [0x96, 0xDA]), ('\u{202C0}', [0x92, 0x79]), ('\u{202E5}', [0xFA, 0x74]), 
    ('\u{2030A}', [0x92, 0x75]), ('\u{20325}', [0x8D, 0xFB]), ('\u{20341}', [0x8A, 0x49]), 
    ('\u{20345}', [0x92, 0xDF]), ('\u{20346}', [0x9B, 0x7C]), ('\u{20347}', [0xFA, 0x63]), 
    ('\u{2037E}', [0xFA, 0x60]), ('\u{2037F}', [0x92, 0x6D]), ('\u{20380}', [0xFA, 0x62]), 
    ('\u{203A0}', [0x9A, 0xB6]), ('\u{203A7}', [0x97, 0x6B]), ('\u{203B5}', [0xFD, 0x6A]), 
    ('\u{203C9}', [0xFD, 0x54]), ('\u{203CB}', [0x92, 0x73]), ('\u{203F5}', [0x97, 0xD8]), 
    ('\u{203FC}', [0x9F, 0xBB]), ('\u{20413}', [0x93, 0x42]), ('\u{20414}', [0x92, 0x76]), 
    ('\u{2041F}', [0xFA, 0x65]), ('\u{20465}', [0x92, 0x6C]), ('\u{20487}', [0xFA, 0x6E]), 
    ('\u{2048E}', [0x9E, 0xE0]), ('\u{20491}', [0x92, 0xC0]), ('\u{20492}', [0x92, 0xBF]), 
    ('\u{204A3}', [0x92, 0xBE]), ('\u{204D7}', [0x9A, 0xBA]), ('\u{204FC}', [0x8A, 0xB3]), 
    ('\u{204FE}', [0x97, 0x75]), ('\u{20547}', [0xFA, 0x40]), ('\u{2058E}', [0xFA, 0x76]), 
    ('\u{205A5}', [0xFB, 0xD0]), ('\u{205B3}', [0xFA, 0x7B]), ('\u{205C3}', [0xFE, 0x6D]), 
    ('\u{205CA}', [0x9B, 0xB3]), ('\u{205D0}', [0x89, 0xCC]), ('\u{205D5}', [0x9A, 0xBE]), 
    ('\u{205DF}', [0xFA, 0x42]), ('\u{205E0}', [0x92, 0xBC]), ('\u{205EB}', [0x94, 0x5C]), 
    ('\u{20611}', [0x9B, 0xB5]), ('\u{20615}', [0x9A, 0xBF]), ('\u{20619}', [0x98, 0xA7]), 
    ('\u{2061A}', [0x97, 0xA4]), ('\u{20630}', [0x90, 0xFD]), ('\u{20656}', [0xFC, 0x7B]), 
    ('\u{20676}', [0x9A, 0xC0]), ('\u{2070E}', [0x92, 0xC3]), ('\u{20731}', [0x8A, 0xAA]), 
    ('\u{20779}', [0x9B, 0xD0]), ('\u{2082C}', [0x95, 0x50]), ('\u{20873}', [0x92, 0xC6]), 
    ('\u{208D5}', [0x98, 0xA6]), ('\u{20916}', [0x95, 0x46]), ('\u{20923}', [0xFD, 0x63]), 
    ('\u{20954}', [0xFA, 0xC2]), ('\u{20979}', [0x9E, 0xC3]), ('\u{209E7}', [0x89, 0xB2]), 
    ('\u{20A11}', [0x9C, 0x66]), ('\u{20A50}', [0x90, 0x53]), ('\u{20A6F}', [0x8C, 0x62]), 
    ('\u{20A8A}', [0x87, 0xA8]), ('\u{20AB4}', [0x97, 0xC1]), ('\u{20AC2}', [0x9A, 0xC4]), 
    ('\u{20ACD}', [0x9A, 0xC5]), ('\u{20B0D}', [0x8E, 0xEF]), ('\u{20B8F}', [0xFA, 0xE9]), 
    ('\u{20B9F}', [0x8D, 0x40]), ('\u{20BA8}', [0x92, 0x62]), ('\u{20BA9}', [0x8A, 0xF7]), 
    ('\u{20BBF}', [0x9A, 0xC6]), ('\u{20BC6}', [0x92, 0xE1]), ('\u{20BCB}', [0x9A, 0xC9]), 
    ('\u{20BE2}', [0xFA, 0xC6]), ('\u{20BEB}', [0x97, 0xA5]), ('\u{20BFB}', [0x9A, 0xCB]), 
    ('\u{20BFF}', [0xFA, 0x72]), ('\u{20C0B}', [0x8A, 0x5E]), ('\u{20C0D}', [0x94, 0xE0]), 
    ('\u{20C20}', [0x92, 0xCC]), ('\u{20C34}', [0x8A, 0xE5]), ('\u{20C3A}', [0xFE, 0x5C]), 
"#

/-- src/generated/whatwg/big5_whatwg_tables.rs.inc:8113-8240 -/
noncomputable def encode44 : List Text := lines! r#"    ('\u{20C3B}', [0x9A, 0xCC]), ('\u{20C41}', [0x9D, 0xF9]), ('\u{20C42}', [0x8A, 0x43]), 
    ('\u{20C43}', [0x8A, 0xA6]), ('\u{20C53}', [0x9A, 0xCD]), ('\u{20C65}', [0x9A, 0xCE]), 
    ('\u{20C77}', [0xFA, 0xEE]), ('\u{20C78}', [0x9B, 0xCC]), ('\u{20C7C}', [0x9A, 0xCF]), 
    ('\u{20C8D}', [0x9A, 0xD1]), ('\u{20C96}', [0x9D, 0xFA]), ('\u{20C9C}', [0x9D, 0x7C]), 
    ('\u{20CB5}', [0x9A, 0xD3]), ('\u{20CB8}', [0x97, 0xA6]), ('\u{20CCF}', [0x99, 0x5F]), 
    ('\u{20CD3}', [0xFB, 0xF6]), ('\u{20CD4}', [0x9F, 0xC5]), ('\u{20CD5}', [0x8A, 0x59]), 
    ('\u{20CD6}', [0x8B, 0x6B]), ('\u{20CDD}', [0x9A, 0xD4]), ('\u{20CED}', [0x9A, 0xD5]), 
    ('\u{20CFF}', [0x97, 0xA2]), ('\u{20D15}', [0x8A, 0x44]), ('\u{20D28}', [0x9F, 0x4A]), 
    ('\u{20D31}', [0x90, 0xA1]), ('\u{20D32}', [0xFD, 0xA4]), ('\u{20D46}', [0x8A, 0x64]), 
    ('\u{20D47}', [0x8A, 0xF2]), ('\u{20D48}', [0x8A, 0xF8]), ('\u{20D49}', [0x9D, 0xD8]), 
    ('\u{20D4C}', [0x94, 0xD6]), ('\u{20D4D}', [0xFA, 0xFE]), ('\u{20D4E}', [0xFB, 0xA7]), 
    ('\u{20D6F}', [0x9A, 0xD6]), ('\u{20D71}', [0x9F, 0x4D]), ('\u{20D74}', [0xFA, 0xF6]), 
    ('\u{20D7C}', [0x8A, 0x57]), ('\u{20D7E}', [0x8B, 0x43]), ('\u{20D7F}', [0x8B, 0x44]), 
    ('\u{20D96}', [0x8A, 0xB6]), ('\u{20D9C}', [0x8A, 0xC0]), ('\u{20DA7}', [0x9E, 0x54]), 
    ('\u{20DB2}', [0x9A, 0xD7]), ('\u{20DC8}', [0x9A, 0xD8]), ('\u{20E04}', [0x9A, 0xDC]), 
    ('\u{20E09}', [0x8A, 0xCA]), ('\u{20E0A}', [0x9E, 0xA8]), ('\u{20E0D}', [0x92, 0x63]), 
    ('\u{20E0E}', [0x9A, 0xDD]), ('\u{20E0F}', [0x8B, 0x65]), ('\u{20E10}', [0x8B, 0x6F]), 
    ('\u{20E11}', [0x8B, 0x7E]), ('\u{20E16}', [0x8F, 0x43]), ('\u{20E1D}', [0x92, 0xD0]), 
    ('\u{20E4C}', [0x8A, 0xF4]), ('\u{20E6D}', [0x9D, 0xBE]), ('\u{20E73}', [0x9A, 0xE1]), 
    ('\u{20E75}', [0xFC, 0xDE]), ('\u{20E76}', [0x9D, 0xFD]), ('\u{20E77}', [0x8B, 0x66]), 
    ('\u{20E78}', [0x8B, 0x70]), ('\u{20E79}', [0x8B, 0x75]), ('\u{20E7A}', [0x8A, 0xE4]), 
    ('\u{20E7B}', [0x8B, 0xA4]), ('\u{20E8C}', [0x8A, 0xED]), ('\u{20E96}', [0x8A, 0x5D]), 
    ('\u{20E98}', [0x8B, 0x48]), ('\u{20E9D}', [0x9D, 0xED]), ('\u{20EA2}', [0x9E, 0x40]), 
    ('\u{20EAA}', [0x8A, 0xEF]), ('\u{20EAB}', [0x8A, 0xF6]), ('\u{20EAC}', [0x9E, 0x76]), 
    ('\u{20EB6}', [0x9E, 0xE3]), ('\u{20ED7}', [0x9A, 0xDE]), ('\u{20ED8}', [0x8D, 0xFE]), 
    ('\u{20EDD}', [0xFA, 0xFC]), ('\u{20EF8}', [0x9C, 0xB1]), ('\u{20EF9}', [0x9E, 0x77]), 
    ('\u{20EFA}', [0x8B, 0x64]), ('\u{20EFB}', [0x8B, 0x67]), ('\u{20F1D}', [0x97, 0x4B]), 
    ('\u{20F26}', [0x96, 0x53]), ('\u{20F2D}', [0x9A, 0xE0]), ('\u{20F2E}', [0x8B, 0x4A]), 
    ('\u{20F30}', [0x8A, 0xF1]), ('\u{20F31}', [0x8A, 0xD7]), ('\u{20F3B}', [0xA0, 0xAB]), 
    ('\u{20F4C}', [0x8A, 0xB5]), ('\u{20F64}', [0x8A, 0x5F]), ('\u{20F8D}', [0x8A, 0xEE]), 
    ('\u{20F90}', [0x9A, 0xDF]), ('\u{20FAD}', [0x8A, 0xFE]), ('\u{20FB4}', [0x8A, 0x58]), 
    ('\u{20FB5}', [0x8B, 0xA3]), ('\u{20FB6}', [0x8B, 0xA7]), ('\u{20FBC}', [0x9A, 0xE3]), 
    ('\u{20FDF}', [0x92, 0x61]), ('\u{20FEA}', [0x9D, 0xD7]), ('\u{20FEB}', [0x9E, 0x7D]), 
    ('\u{20FEC}', [0x9E, 0xA7]), ('\u{20FED}', [0x9E, 0xAB]), ('\u{21014}', [0x90, 0x42]), 
    ('\u{2101D}', [0x8B, 0x79]), ('\u{2101E}', [0x8B, 0x7A]), ('\u{2104F}', [0x9A, 0xE6]), 
    ('\u{2105C}', [0x9A, 0xE5]), ('\u{2106F}', [0x8A, 0x7E]), ('\u{21075}', [0x9E, 0x44]), 
    ('\u{21076}', [0x9A, 0xE7]), ('\u{21077}', [0x8A, 0x7C]), ('\u{21078}', [0x8B, 0x71]), 
    ('\u{2107B}', [0x9A, 0xE9]), ('\u{21088}', [0x9A, 0xEA]), ('\u{21096}', [0x9A, 0xEB]), 
    ('\u{2109D}', [0x8A, 0xBD]), ('\u{210B4}', [0xFB, 0x4E]), ('\u{210BF}', [0x9A, 0xED]), 
    ('\u{210C0}', [0x8A, 0xF9]), ('\u{210C1}', [0x9E, 0x63]), ('\u{210C7}', [0x8B, 0x49]), 
    ('\u{210C8}', [0x8A, 0xCE]), ('\u{210C9}', [0x8B, 0x6E]), ('\u{210CF}', [0x8A, 0xE8]), 
    ('\u{210D3}', [0x9A, 0xEE]), ('\u{210E4}', [0x92, 0xCE]), ('\u{210F4}', [0x8A, 0x5A]), 
    ('\u{210F5}', [0x8B, 0x7B]), ('\u{210F6}', [0x8B, 0x7C]), ('\u{2112F}', [0x9A, 0xEF]), 
    ('\u{2113B}', [0x9A, 0xF0]), ('\u{2113D}', [0x8A, 0xFA]), ('\u{21145}', [0x89, 0x41]), 
    ('\u{21148}', [0x8B, 0x72]), ('\u{2114F}', [0x8A, 0xF3]), ('\u{21180}', [0x8B, 0xA8]), 
    ('\u{21187}', [0x9E, 0xAE]), ('\u{211D9}', [0x9E, 0x72]), ('\u{2123C}', [0xFB, 0x73]), 
    ('\u{2124F}', [0xFB, 0x5F]), ('\u{2127C}', [0x90, 0xBA]), ('\u{212A8}', [0x91, 0xFE]), 
    ('\u{212A9}', [0x9E, 0xF6]), ('\u{212B0}', [0x97, 0xED]), ('\u{212E3}', [0x9A, 0xF3]), 
    ('\u{212FE}', [0xA0, 0xEE]), ('\u{21302}', [0x96, 0x7C]), ('\u{21303}', [0x93, 0x45]), 
    ('\u{21304}', [0x98, 0x6E]), ('\u{21305}', [0xFA, 0x56]), ('\u{21336}', [0x9A, 0xF5]), 
    ('\u{2133A}', [0xFC, 0x4B]), ('\u{21375}', [0x9A, 0xF4]), ('\u{21376}', [0xFE, 0xDE]), 
    ('\u{2138E}', [0xFC, 0xB7]), ('\u{21398}', [0x97, 0xF1]), ('\u{2139C}', [0x97, 0xC7]), 
    ('\u{213C5}', [0x9C, 0xCB]), ('\u{213C6}', [0x92, 0x40]), ('\u{213ED}', [0x9C, 0xE8]), 
    ('\u{213FE}', [0x91, 0xFD]), ('\u{21413}', [0x97, 0x4E]), ('\u{21416}', [0xFB, 0x68]), 
    ('\u{21424}', [0x97, 0x6C]), ('\u{2143F}', [0x8C, 0xC2]), ('\u{21452}', [0x97, 0xE8]), 
    ('\u{21454}', [0xFB, 0x6A]), ('\u{21455}', [0x8B, 0x74]), ('\u{2148A}', [0x8E, 0xE7]), 
    ('\u{21497}', [0xFD, 0xC8]), ('\u{214B6}', [0x92, 0x41]), ('\u{214E8}', [0x96, 0xA1]), 
    ('\u{214FD}', [0x8E, 0xF3]), ('\u{21577}', [0x9A, 0xF7]), ('\u{21582}', [0x8F, 0xA6]), 
    ('\u{21596}', [0xFA, 0xD6]), ('\u{2160A}', [0x9C, 0xC7]), ('\u{21613}', [0xFA, 0xD7]), 
    ('\u{21619}', [0x9A, 0xF8]), ('\u{2163E}', [0xFB, 0xA1]), ('\u{21661}', [0x8E, 0xC5]), 
    ('\u{21692}', [0xFB, 0xA4]), ('\u{216B8}', [0xFB, 0xC2]), ('\u{216BA}', [0x9A, 0xC1]), 
    ('\u{216C0}', [0x91, 0xFA]), ('\u{216C1}', [0xFE, 0xDB]), ('\u{216C2}', [0x97, 0xAB]), 
    ('\u{216D3}', [0x91, 0x47]), ('\u{216D5}', [0xFB, 0xB1]), ('\u{216DF}', [0x8F, 0xEA]), 
    ('\u{216E6}', [0x94, 0xD2]), ('\u{216E7}', [0xFE, 0x61]), ('\u{216E8}', [0xFA, 0xCE]), 
    ('\u{216FA}', [0x92, 0xED]), ('\u{216FB}', [0x91, 0xF3]), ('\u{216FC}', [0x93, 0xC6]), 
    ('\u{216FE}', [0x93, 0x5A]), ('\u{2170D}', [0xFA, 0xFB]), ('\u{21710}', [0x92, 0xEF]), 
    ('\u{21726}', [0xFA, 0xC8]), ('\u{2173A}', [0x98, 0x47]), ('\u{2173B}', [0x93, 0x66]), 
    ('\u{2173C}', [0x98, 0x55]), ('\u{21757}', [0x96, 0xE6]), ('\u{2176C}', [0x9F, 0x43]), 
    ('\u{2176D}', [0x9F, 0xAA]), ('\u{2176E}', [0x94, 0xDA]), ('\u{2176F}', [0x92, 0xEE]), 
    ('\u{21770}', [0xFC, 0xAF]), ('\u{21771}', [0xFB, 0xFB]), ('\u{21773}', [0x8E, 0xF9]), 
    ('\u{21774}', [0x91, 0xF6]), ('\u{217AB}', [0x93, 0x64]), ('\u{217B0}', [0x94, 0xF5]), 
    ('\u{217B1}', [0x9C, 0xB6]), ('\u{217B2}', [0xFB, 0xAD]), ('\u{217B3}', [0x98, 0x4E]), 
    ('\u{217B4}', [0x8F, 0x44]), ('\u{217B5}', [0x96, 0xFD]), ('\u{217C3}', [0x9A, 0xF9]), 
    ('\u{217C7}', [0x9A, 0xFA]), ('\u{217D9}', [0x97, 0x69]), ('\u{217DA}', [0x95, 0xD4]), 
    ('\u{217DB}', [0x98, 0x4B]), ('\u{217DC}', [0xFB, 0xAA]), ('\u{217DF}', [0x98, 0x7C]), 
    ('\u{217EF}', [0x91, 0xEA]), ('\u{217F5}', [0x9D, 0xAF]), ('\u{217F6}', [0x9D, 0xC5]), 
    ('\u{217F8}', [0x91, 0xF1]), ('\u{217F9}', [0x8E, 0xB1]), ('\u{217FA}', [0x97, 0xA9]), 
    ('\u{217FB}', [0xFB, 0xAC]), ('\u{217FC}', [0xFC, 0xB8]), ('\u{21820}', [0x9C, 0xB9]), 
    ('\u{21828}', [0xFB, 0xB0]), ('\u{21829}', [0xFC, 0xD2]), ('\u{2182A}', [0x93, 0xCB]), 
    ('\u{2182D}', [0x9A, 0xFD]), ('\u{21839}', [0x91, 0xF4]), ('\u{2183A}', [0x8B, 0xAC]), 
    ('\u{2183B}', [0xA0, 0x55]), ('\u{21840}', [0x95, 0x74]), ('\u{21845}', [0x95, 0xBE]), 
    ('\u{21852}', [0x97, 0xAD]), ('\u{2185E}', [0x8E, 0xE9]), ('\u{21861}', [0x92, 0xF8]), 
    ('\u{21862}', [0x97, 0xBE]), ('\u{21863}', [0x91, 0x6C]), ('\u{21864}', [0x94, 0xAA]), 
    ('\u{21877}', [0xFC, 0x63]), ('\u{2187B}', [0x9D, 0xC6]), ('\u{21883}', [0x97, 0xB5]), 
    ('\u{21884}', [0x92, 0xB8]), ('\u{21885}', [0x91, 0xEF]), ('\u{2189E}', [0xFE, 0xA6]), 
    ('\u{2189F}', [0x97, 0x60]), ('\u{218A0}', [0x93, 0x58]), ('\u{218A1}', [0x95, 0x76]), 
    ('\u{218A2}', [0x8F, 0xAC]), ('\u{218BE}', [0x91, 0xEC]), ('\u{218BF}', [0x97, 0xB4]), 
    ('\u{218D1}', [0x91, 0xF7]), ('\u{218D6}', [0x97, 0x4A]), ('\u{218D7}', [0xFB, 0x49]), 
    ('\u{218D8}', [0x95, 0x78]), ('\u{218D9}', [0x93, 0xBC]), ('\u{218FA}', [0x91, 0xD6]), 
    ('\u{21903}', [0x93, 0x55]), ('\u{21904}', [0x93, 0x56]), ('\u{21905}', [0x98, 0x51]), 
    ('\u{21910}', [0x8F, 0xF8]), ('\u{21911}', [0xFB, 0xC0]), ('\u{21912}', [0x93, 0xF2]), 
    ('\u{21915}', [0x90, 0xD0]), ('\u{2191C}', [0x9C, 0x44]), ('\u{21922}', [0x92, 0x55]), 
    ('\u{21927}', [0x93, 0x63]), ('\u{2193B}', [0x91, 0xA5]), ('\u{21944}', [0xA0, 0xED]), 
    ('\u{21958}', [0xFD, 0x6B]), ('\u{2196A}', [0x9A, 0xFE]), ('\u{2197C}', [0x93, 0x51]), 
    ('\u{21980}', [0x8C, 0x57]), ('\u{21983}', [0xFA, 0x78]), ('\u{21988}', [0xFE, 0xA8]), 
    ('\u{21996}', [0x93, 0x50]), ('\u{219DB}', [0xFA, 0x4C]), ('\u{219F3}', [0x92, 0xF7]), 
    ('\u{21A2D}', [0x9B, 0x40]), ('\u{21A34}', [0xFB, 0xCE]), ('\u{21A45}', [0x9B, 0x41]), 
    ('\u{21A4B}', [0xFE, 0xAD]), ('\u{21A63}', [0x87, 0x61]), ('\u{21B44}', [0xFB, 0xD5]), 
    ('\u{21BC1}', [0x8B, 0xC2]), ('\u{21BC2}', [0x9A, 0x7C]), ('\u{21C2A}', [0x9B, 0x42]), 
    ('\u{21C70}', [0x9B, 0x43]), ('\u{21CA2}', [0x9E, 0x79]), ('\u{21CA5}', [0xFB, 0xD9]), 
    ('\u{21CAC}', [0x9B, 0x44]), ('\u{21D46}', [0xA0, 0xA7]), ('\u{21D53}', [0x87, 0x7B]), 
    ('\u{21D5E}', [0x87, 0x6E]), ('\u{21D90}', [0x9B, 0xF3]), ('\u{21DB6}', [0x8C, 0x79]), 
    ('\u{21DBA}', [0x93, 0x5E]), ('\u{21DCA}', [0x89, 0xCB]), ('\u{21DD1}', [0x9F, 0x53]), 
    ('\u{21DEB}', [0x93, 0xD7]), ('\u{21DF9}', [0xFB, 0xE1]), ('\u{21E1C}', [0xFE, 0xD0]), 
    ('\u{21E23}', [0x8C, 0xF1]), ('\u{21E37}', [0xFB, 0xE2]), ('\u{21E3D}', [0xFC, 0xE3]), 
    ('\u{21E89}', [0x90, 0x74]), ('\u{21EA4}', [0xFB, 0xE6]), ('\u{21EA8}', [0x9B, 0xB7]), 
    ('\u{21EC8}', [0x9B, 0x45]), ('\u{21ED5}', [0x9B, 0x47]), ('\u{21F0F}', [0x9F, 0x50]), 
    ('\u{21F15}', [0x9B, 0x48]), ('\u{21F6A}', [0xFC, 0x5B]), ('\u{21F9E}', [0x98, 0xA9]), 
    ('\u{21FA1}', [0x9C, 0xFD]), ('\u{21FE8}', [0x88, 0x4C]), ('\u{22045}', [0x9B, 0x4B]), 
    ('\u{22049}', [0xFB, 0xEC]), ('\u{2207E}', [0x8C, 0x69]), ('\u{2209A}', [0x9B, 0xA8]), 
    ('\u{220C7}', [0x8A, 0xD5]), ('\u{220FC}', [0xFA, 0x73]), ('\u{2212A}', [0xFD, 0x59]), 
    ('\u{2215B}', [0x91, 0xA2]), ('\u{22173}', [0xFB, 0xED]), ('\u{2217A}', [0x9C, 0xA9]), 
    ('\u{221A1}', [0x8A, 0xA8]), ('\u{221C1}', [0x8D, 0x42]), ('\u{221C3}', [0x9B, 0xC3]), 
    ('\u{22208}', [0x8A, 0xE1]), ('\u{2227C}', [0x9B, 0x4E]), ('\u{22321}', [0x95, 0xD0]), 
    ('\u{22325}', [0x90, 0x5F]), ('\u{223BD}', [0x97, 0xEE]), ('\u{223D0}', [0xFC, 0x4E]), 
    ('\u{223D7}', [0x9B, 0x4F]), ('\u{223FA}', [0x9B, 0x50]), ('\u{22465}', [0x9E, 0xC6]), 
    ('\u{22471}', [0xFC, 0x50]), ('\u{2248B}', [0xFD, 0x73]), ('\u{22491}', [0xFD, 0xA7]), 
    ('\u{224B0}', [0x9D, 0xA2]), ('\u{224BC}', [0x87, 0xD1]), ('\u{224C1}', [0x87, 0xD3]), 
    ('\u{224C9}', [0x87, 0xD4]), ('\u{224CC}', [0x87, 0xD5]), ('\u{224ED}', [0xFA, 0x58]), 
    ('\u{22513}', [0xFA, 0x5E]), ('\u{2251B}', [0xA0, 0x59]), ('\u{22530}', [0xFA, 0x75]), 
    ('\u{22554}', [0xFB, 0xBE]), ('\u{2258D}', [0x9C, 0xA2]), ('\u{225AF}', [0x93, 0x70]), 
    ('\u{225BE}', [0x93, 0x71]), ('\u{2261B}', [0x93, 0x77]), ('\u{2261C}', [0xFE, 0xEF]), 
    ('\u{2262B}', [0x93, 0x6D]), ('\u{22668}', [0xFC, 0x5D]), ('\u{2267A}', [0x90, 0xB8]), 
    ('\u{22696}', [0x8A, 0xFC]), ('\u{22698}', [0xFB, 0x41]), ('\u{226F4}', [0x9E, 0x6B]), 
    ('\u{226F5}', [0x94, 0xE3]), ('\u{226F6}', [0x8E, 0xE2]), ('\u{22712}', [0x8C, 0x7D]), 
    ('\u{22714}', [0x8E, 0xD7]), ('\u{2271B}', [0x9C, 0x4D]), ('\u{2271F}', [0x96, 0xA3]), 
    ('\u{2272A}', [0x9B, 0x51]), ('\u{22775}', [0x8A, 0xC3]), ('\u{22781}', [0x96, 0xAA]), 
    ('\u{22796}', [0x8C, 0xE2]), ('\u{227B4}', [0xFC, 0x68]), ('\u{227B5}', [0x8B, 0x6D]), 
"#

/-- src/generated/whatwg/big5_whatwg_tables.rs.inc:8241-8368 -/
noncomputable def encode45 : List Text := lines! r#"    ('\u{227CD}', [0xFD, 0x67]), ('\u{22803}', [0x8A, 0xE9]), ('\u{2285F}', [0xFC, 0xA1]), 
    ('\u{22860}', [0x93, 0x6C]), ('\u{22871}', [0x9B, 0x52]), ('\u{228AD}', [0xFE, 0x70]), 
    ('\u{228C1}', [0xFC, 0xA8]), ('\u{228F7}', [0xFC, 0xE9]), ('\u{22926}', [0x9C, 0xB4]), 
    ('\u{22939}', [0x8A, 0xEA]), ('\u{2294F}', [0x9B, 0x53]), ('\u{22967}', [0x9B, 0x55]), 
    ('\u{2296B}', [0x96, 0xAB]), ('\u{22980}', [0xFC, 0xA7]), ('\u{22993}', [0x9B, 0x56]), 
    ('\u{22A66}', [0x8A, 0xBC]), ('\u{22ACF}', [0x8A, 0xCB]), ('\u{22AD5}', [0x9B, 0x57]), 
    ('\u{22AE6}', [0x89, 0xCD]), ('\u{22AE8}', [0x9B, 0x59]), ('\u{22B0E}', [0x9B, 0x5B]), 
    ('\u{22B22}', [0x93, 0xA5]), ('\u{22B3F}', [0x9B, 0x5D]), ('\u{22B43}', [0x9E, 0x4F]), 
    ('\u{22B6A}', [0x93, 0xA3]), ('\u{22BCA}', [0x8A, 0x7B]), ('\u{22BCE}', [0x8B, 0x42]), 
    ('\u{22C26}', [0x97, 0x50]), ('\u{22C27}', [0x8F, 0xB3]), ('\u{22C38}', [0x8A, 0x50]), 
    ('\u{22C4C}', [0x9B, 0x60]), ('\u{22C51}', [0x8B, 0x45]), ('\u{22C55}', [0x8B, 0x46]), 
    ('\u{22C62}', [0x9D, 0xFE]), ('\u{22C88}', [0x9B, 0x62]), ('\u{22C9B}', [0x93, 0x7B]), 
    ('\u{22CA1}', [0x93, 0xB1]), ('\u{22CA9}', [0x8A, 0x60]), ('\u{22CB2}', [0x8A, 0xD8]), 
    ('\u{22CB7}', [0x9B, 0x63]), ('\u{22CC2}', [0x8A, 0x69]), ('\u{22CC6}', [0x8A, 0x47]), 
    ('\u{22CC9}', [0x8A, 0xCC]), ('\u{22D07}', [0x93, 0x7C]), ('\u{22D08}', [0x9B, 0x65]), 
    ('\u{22D12}', [0x9B, 0x66]), ('\u{22D44}', [0x8A, 0x72]), ('\u{22D4C}', [0x8A, 0x7A]), 
    ('\u{22D67}', [0x93, 0xAF]), ('\u{22D8D}', [0x8A, 0xB0]), ('\u{22D95}', [0x9B, 0x68]), 
    ('\u{22DA0}', [0x9E, 0xA3]), ('\u{22DA3}', [0xFA, 0xEC]), ('\u{22DA4}', [0x8B, 0x77]), 
    ('\u{22DB7}', [0x9B, 0x67]), ('\u{22DEE}', [0x8B, 0x59]), ('\u{22E0D}', [0xFC, 0xB1]), 
    ('\u{22E36}', [0xFC, 0xBB]), ('\u{22E42}', [0x9B, 0x69]), ('\u{22E78}', [0x93, 0xA8]), 
    ('\u{22E8B}', [0x8A, 0xE0]), ('\u{22EB3}', [0x9E, 0x51]), ('\u{22EEF}', [0x8F, 0x5F]), 
    ('\u{22F74}', [0x9B, 0x6A]), ('\u{22FCC}', [0x9B, 0x6B]), ('\u{22FE3}', [0x97, 0xEC]), 
    ('\u{23033}', [0x9B, 0x6C]), ('\u{23044}', [0xFE, 0x4E]), ('\u{2304B}', [0xFD, 0xC2]), 
    ('\u{23066}', [0x9B, 0x6D]), ('\u{2307D}', [0x91, 0x67]), ('\u{2307E}', [0xFC, 0xCC]), 
    ('\u{2308E}', [0x93, 0xB6]), ('\u{230B7}', [0x90, 0xE4]), ('\u{230BC}', [0x90, 0xE5]), 
    ('\u{230DA}', [0x9E, 0xF2]), ('\u{23103}', [0x93, 0xCA]), ('\u{2313D}', [0x8B, 0xBC]), 
    ('\u{2317D}', [0x8F, 0x46]), ('\u{23182}', [0x93, 0xCF]), ('\u{231A4}', [0xFC, 0xDB]), 
    ('\u{231A5}', [0xFC, 0xDC]), ('\u{231B3}', [0x93, 0xC0]), ('\u{231C8}', [0xFC, 0xE6]), 
    ('\u{231C9}', [0x96, 0xE7]), ('\u{231EA}', [0x87, 0xA7]), ('\u{231F7}', [0xFC, 0xD8]), 
    ('\u{231F8}', [0xFC, 0xD9]), ('\u{231F9}', [0xFD, 0xA6]), ('\u{2320F}', [0x93, 0xCE]), 
    ('\u{23225}', [0x95, 0xF1]), ('\u{2322F}', [0x9C, 0xE9]), ('\u{23231}', [0xFC, 0xE4]), 
    ('\u{23232}', [0x94, 0xAF]), ('\u{23233}', [0xFA, 0x77]), ('\u{23234}', [0x93, 0xCC]), 
    ('\u{23256}', [0x8C, 0xE1]), ('\u{2325E}', [0x87, 0xA9]), ('\u{23262}', [0x90, 0x5A]), 
    ('\u{23281}', [0x8C, 0x54]), ('\u{23289}', [0x93, 0xBF]), ('\u{2328A}', [0xFB, 0x51]), 
    ('\u{232AB}', [0x93, 0xB9]), ('\u{232AC}', [0xFE, 0xD7]), ('\u{232AD}', [0x93, 0xB7]), 
    ('\u{232D2}', [0x93, 0xD9]), ('\u{232E0}', [0x93, 0xBB]), ('\u{232E1}', [0x93, 0xDA]), 
    ('\u{23300}', [0x98, 0xA3]), ('\u{2330A}', [0x90, 0xD1]), ('\u{2331F}', [0x9B, 0x6E]), 
    ('\u{233B4}', [0xFA, 0x70]), ('\u{233CC}', [0x9B, 0xEB]), ('\u{233DE}', [0x9B, 0x6F]), 
    ('\u{233E6}', [0xFC, 0xFC]), ('\u{233F4}', [0x8B, 0x40]), ('\u{233F5}', [0xA0, 0x7B]), 
    ('\u{233F9}', [0x8C, 0xA1]), ('\u{233FA}', [0x97, 0xF7]), ('\u{233FE}', [0x93, 0xE2]), 
    ('\u{23400}', [0xFC, 0xD6]), ('\u{2343F}', [0x95, 0x59]), ('\u{23450}', [0x93, 0xA6]), 
    ('\u{2346F}', [0xFD, 0x40]), ('\u{23472}', [0x93, 0x5F]), ('\u{234E5}', [0x97, 0xF2]), 
    ('\u{23519}', [0x9C, 0x76]), ('\u{23530}', [0x8E, 0xF8]), ('\u{23551}', [0x8C, 0xEB]), 
    ('\u{2355A}', [0x8F, 0x47]), ('\u{23567}', [0x9B, 0x74]), ('\u{23595}', [0x92, 0xB4]), 
    ('\u{23599}', [0x91, 0xED]), ('\u{2359C}', [0x96, 0xD2]), ('\u{235BB}', [0x87, 0xD8]), 
    ('\u{235CD}', [0xFD, 0x46]), ('\u{235CE}', [0x8F, 0x4F]), ('\u{235CF}', [0x95, 0x49]), 
    ('\u{235F3}', [0x9B, 0x75]), ('\u{23600}', [0xFA, 0x5C]), ('\u{23617}', [0x87, 0x51]), 
    ('\u{2361A}', [0x9B, 0x79]), ('\u{2363C}', [0xFD, 0x4B]), ('\u{23640}', [0x96, 0xD3]), 
    ('\u{23659}', [0xFD, 0x58]), ('\u{2365F}', [0x94, 0x5F]), ('\u{23677}', [0xA0, 0xF5]), 
    ('\u{2368E}', [0x87, 0xC7]), ('\u{2369E}', [0x87, 0x7C]), ('\u{236A6}', [0x92, 0x43]), 
    ('\u{236AD}', [0x97, 0xFA]), ('\u{236BA}', [0x9D, 0xD9]), ('\u{236DF}', [0x97, 0xF4]), 
    ('\u{236EE}', [0x92, 0x4D]), ('\u{23703}', [0xFD, 0x5B]), ('\u{23716}', [0x9B, 0x7A]), 
    ('\u{23720}', [0x9E, 0xD5]), ('\u{2372D}', [0xFA, 0xAE]), ('\u{2372F}', [0x9C, 0xC9]), 
    ('\u{2373F}', [0x92, 0x58]), ('\u{23766}', [0x8E, 0xC8]), ('\u{23781}', [0x94, 0xB4]), 
    ('\u{237A2}', [0x93, 0xE1]), ('\u{237BC}', [0x93, 0xDF]), ('\u{237C2}', [0xFC, 0xF0]), 
    ('\u{237D5}', [0x93, 0xEC]), ('\u{237D6}', [0x97, 0xF6]), ('\u{237D7}', [0x96, 0xCF]), 
    ('\u{2383A}', [0x93, 0xDE]), ('\u{239C2}', [0x8A, 0xCF]), ('\u{23AA7}', [0x9B, 0xA2]), 
    ('\u{23ADB}', [0xFD, 0x69]), ('\u{23AEE}', [0x93, 0x52]), ('\u{23AFA}', [0x98, 0xA2]), 
    ('\u{23B1A}', [0x8C, 0xE7]), ('\u{23B5A}', [0xFD, 0x6E]), ('\u{23C63}', [0x8C, 0xA4]), 
    ('\u{23C99}', [0xFA, 0x7C]), ('\u{23C9A}', [0x93, 0xFA]), ('\u{23C9B}', [0x90, 0x7C]), 
    ('\u{23CB5}', [0x8F, 0x67]), ('\u{23CB7}', [0x9D, 0xB7]), ('\u{23CC7}', [0xA0, 0xE9]), 
    ('\u{23CC8}', [0xFA, 0x4E]), ('\u{23CC9}', [0xFD, 0xA1]), ('\u{23CFC}', [0x9E, 0x74]), 
    ('\u{23CFD}', [0x9F, 0xBF]), ('\u{23CFE}', [0x9E, 0xCB]), ('\u{23CFF}', [0x9B, 0xB9]), 
    ('\u{23D40}', [0x9D, 0xD4]), ('\u{23D5B}', [0x97, 0xB9]), ('\u{23D7E}', [0x8E, 0xF1]), 
    ('\u{23D8F}', [0x95, 0x7B]), ('\u{23DB6}', [0x9E, 0xD2]), ('\u{23DB7}', [0x97, 0x53]), 
    ('\u{23DB8}', [0x96, 0xA4]), ('\u{23DB9}', [0x8F, 0xBE]), ('\u{23DBA}', [0x94, 0xD9]), 
    ('\u{23DBB}', [0x90, 0x58]), ('\u{23DBC}', [0xFD, 0x79]), ('\u{23DBD}', [0xFD, 0x7B]), 
    ('\u{23DE3}', [0x8E, 0xDA]), ('\u{23DF8}', [0x8E, 0xFA]), ('\u{23E06}', [0x87, 0x62]), 
    ('\u{23E11}', [0x9B, 0xA5]), ('\u{23E2C}', [0x9E, 0xD9]), ('\u{23E2D}', [0x97, 0xD4]), 
    ('\u{23E2E}', [0x90, 0xBB]), ('\u{23E2F}', [0xFD, 0xBC]), ('\u{23E30}', [0xFD, 0xC6]), 
    ('\u{23E31}', [0x92, 0x48]), ('\u{23E39}', [0x92, 0xB5]), ('\u{23E88}', [0x9D, 0xC1]), 
    ('\u{23E89}', [0x92, 0xB9]), ('\u{23E8A}', [0x92, 0xA6]), ('\u{23E8B}', [0x8F, 0x4B]), 
    ('\u{23EB9}', [0x9B, 0xA6]), ('\u{23EBF}', [0x92, 0xB6]), ('\u{23ED7}', [0x8E, 0x40]), 
    ('\u{23EF7}', [0x9E, 0xD8]), ('\u{23EF8}', [0x94, 0x5E]), ('\u{23EF9}', [0x98, 0x5F]), 
    ('\u{23EFA}', [0x94, 0xCE]), ('\u{23EFB}', [0x92, 0x4A]), ('\u{23EFC}', [0xFD, 0x70]), 
    ('\u{23F35}', [0x94, 0x67]), ('\u{23F41}', [0x8D, 0xEC]), ('\u{23F4A}', [0x9B, 0xD8]), 
    ('\u{23F61}', [0x87, 0x63]), ('\u{23F7F}', [0x94, 0x48]), ('\u{23F80}', [0xFA, 0xC1]), 
    ('\u{23F81}', [0x9C, 0xF7]), ('\u{23F82}', [0xFD, 0xBE]), ('\u{23F8F}', [0x8F, 0xDA]), 
    ('\u{23FB4}', [0xFD, 0xD9]), ('\u{23FB7}', [0xFC, 0x7E]), ('\u{23FC0}', [0x93, 0xF9]), 
    ('\u{23FC5}', [0xFA, 0x43]), ('\u{23FEB}', [0xFA, 0xEB]), ('\u{23FEC}', [0xFA, 0xC3]), 
    ('\u{23FED}', [0x97, 0xD3]), ('\u{23FEE}', [0x95, 0xF9]), ('\u{23FEF}', [0x9C, 0x48]), 
    ('\u{23FF0}', [0xFD, 0xD8]), ('\u{24011}', [0xA0, 0xD8]), ('\u{24039}', [0xFD, 0xD7]), 
    ('\u{2403A}', [0xFB, 0x4A]), ('\u{2403B}', [0x9B, 0xAF]), ('\u{2403C}', [0x94, 0x4B]), 
    ('\u{2403D}', [0xFD, 0xC9]), ('\u{24057}', [0x8E, 0xAC]), ('\u{24085}', [0xFD, 0xB2]), 
    ('\u{2408B}', [0x92, 0x5A]), ('\u{2408C}', [0xFC, 0xBD]), ('\u{2408D}', [0x92, 0xD9]), 
    ('\u{24091}', [0xFD, 0xD5]), ('\u{240C9}', [0x92, 0xDD]), ('\u{240E1}', [0x92, 0x59]), 
    ('\u{240EC}', [0x8C, 0xF0]), ('\u{24104}', [0x96, 0xBA]), ('\u{2410F}', [0x92, 0x5B]), 
    ('\u{24119}', [0x9B, 0xAB]), ('\u{2413F}', [0xFD, 0xDA]), ('\u{24140}', [0xFD, 0xDE]), 
    ('\u{24144}', [0xFD, 0xD3]), ('\u{2414E}', [0x8C, 0x46]), ('\u{24155}', [0xFD, 0xD6]), 
    ('\u{24156}', [0xFD, 0xDC]), ('\u{24157}', [0xFD, 0xDD]), ('\u{2415C}', [0x90, 0xFE]), 
    ('\u{2415F}', [0xFE, 0xA1]), ('\u{24161}', [0x87, 0xA5]), ('\u{24177}', [0x8B, 0xAD]), 
    ('\u{2417A}', [0x9C, 0xD8]), ('\u{241A3}', [0x9E, 0x6D]), ('\u{241A4}', [0xFD, 0x7C]), 
    ('\u{241A5}', [0xFB, 0x61]), ('\u{241AC}', [0x96, 0xF8]), ('\u{241B5}', [0x96, 0xF0]), 
    ('\u{241CD}', [0xFC, 0xF4]), ('\u{241E2}', [0xFE, 0x60]), ('\u{241FC}', [0x98, 0x52]), 
    ('\u{2421B}', [0x96, 0x4F]), ('\u{2424B}', [0x91, 0x6E]), ('\u{24256}', [0x98, 0x6D]), 
    ('\u{24259}', [0x98, 0x64]), ('\u{24276}', [0x94, 0x53]), ('\u{24277}', [0xFD, 0xEC]), 
    ('\u{24278}', [0xFB, 0x78]), ('\u{24284}', [0x95, 0xBA]), ('\u{24293}', [0x98, 0x5D]), 
    ('\u{24295}', [0x92, 0xF9]), ('\u{242A5}', [0x98, 0x5A]), ('\u{242BF}', [0x87, 0x50]), 
    ('\u{242C1}', [0xFD, 0xF6]), ('\u{242C9}', [0x93, 0xD0]), ('\u{242CA}', [0x98, 0x62]), 
    ('\u{242EE}', [0x9B, 0xAD]), ('\u{242FA}', [0x97, 0x4F]), ('\u{2430D}', [0x9B, 0xAE]), 
    ('\u{2431A}', [0x94, 0x52]), ('\u{24334}', [0x9B, 0xB0]), ('\u{24348}', [0x91, 0xD2]), 
    ('\u{24362}', [0x97, 0xEA]), ('\u{24363}', [0xFB, 0x6B]), ('\u{24364}', [0x91, 0xB1]), 
    ('\u{24365}', [0xFD, 0xF3]), ('\u{2438C}', [0x92, 0xCB]), ('\u{24396}', [0x9B, 0xB1]), 
    ('\u{2439C}', [0xFC, 0xEC]), ('\u{243BD}', [0x98, 0x6B]), ('\u{243C1}', [0x97, 0x51]), 
    ('\u{243E9}', [0x98, 0x71]), ('\u{243EA}', [0x95, 0xEF]), ('\u{243F2}', [0x9E, 0xF3]), 
    ('\u{243F8}', [0x91, 0xE8]), ('\u{24404}', [0x9B, 0xBA]), ('\u{24435}', [0xFB, 0x4C]), 
    ('\u{24436}', [0x92, 0x6A]), ('\u{2445A}', [0xFD, 0xF8]), ('\u{2445B}', [0x98, 0x61]), 
    ('\u{24473}', [0x91, 0xE7]), ('\u{24487}', [0x93, 0xED]), ('\u{24488}', [0x97, 0x44]), 
    ('\u{244B9}', [0x91, 0xE1]), ('\u{244BC}', [0xFB, 0xF5]), ('\u{244CE}', [0x98, 0x69]), 
    ('\u{244D3}', [0x8A, 0x62]), ('\u{244D6}', [0x9B, 0xBB]), ('\u{24505}', [0x8C, 0xA8]), 
    ('\u{24521}', [0x9C, 0x55]), ('\u{24578}', [0x8E, 0x77]), ('\u{245C8}', [0x8A, 0xB2]), 
    ('\u{24618}', [0x9E, 0xBC]), ('\u{2462A}', [0x93, 0xE6]), ('\u{24665}', [0x93, 0xA2]), 
    ('\u{24674}', [0x9B, 0xBD]), ('\u{24697}', [0x94, 0xB3]), ('\u{246D4}', [0x93, 0x7D]), 
    ('\u{24706}', [0x9E, 0x66]), ('\u{24725}', [0x94, 0x59]), ('\u{2472F}', [0x9B, 0xBF]), 
    ('\u{2478F}', [0x94, 0x58]), ('\u{247E0}', [0x9E, 0xA5]), ('\u{24812}', [0x9B, 0xC7]), 
    ('\u{24823}', [0xFE, 0x54]), ('\u{24882}', [0x8E, 0x74]), ('\u{248E9}', [0x8B, 0xD6]), 
    ('\u{248F0}', [0x94, 0xB6]), ('\u{248F1}', [0xFD, 0x74]), ('\u{248F2}', [0x98, 0xC0]), 
    ('\u{248F3}', [0x94, 0xA5]), ('\u{248FB}', [0x9B, 0xC8]), ('\u{248FF}', [0x95, 0xED]), 
    ('\u{24900}', [0xFD, 0x7E]), ('\u{24901}', [0xFB, 0xEB]), ('\u{2490C}', [0xFD, 0x7D]), 
    ('\u{24916}', [0x97, 0x6F]), ('\u{24917}', [0x94, 0x61]), ('\u{24919}', [0x9F, 0xC1]), 
    ('\u{2492F}', [0x95, 0xD7]), ('\u{24933}', [0xFA, 0x52]), ('\u{24934}', [0x9C, 0x58]), 
    ('\u{2493E}', [0x9F, 0x68]), ('\u{2493F}', [0x9B, 0xE7]), ('\u{24940}', [0xFC, 0xCE]), 
    ('\u{24941}', [0x96, 0xE8]), ('\u{24942}', [0xFA, 0x49]), ('\u{24943}', [0x97, 0xA1]), 
    ('\u{24962}', [0x95, 0x4D]), ('\u{24963}', [0x9E, 0xF8]), ('\u{24974}', [0xFE, 0x49]), 
    ('\u{24975}', [0x91, 0xCE]), ('\u{24976}', [0x97, 0x71]), ('\u{2497B}', [0x8C, 0xCF]), 
    ('\u{2497F}', [0xFD, 0xB1]), ('\u{24982}', [0xFC, 0x6E]), ('\u{24988}', [0x9C, 0xF2]), 
    ('\u{24989}', [0x93, 0xB8]), ('\u{2498A}', [0x90, 0x43]), ('\u{2498B}', [0x97, 0x59]), 
    ('\u{2498C}', [0x94, 0xD7]), ('\u{2498D}', [0xFE, 0x66]), ('\u{2498E}', [0x94, 0x7D]), 
"#

/-- src/generated/whatwg/big5_whatwg_tables.rs.inc:8369-8496 -/
noncomputable def encode46 : List Text := lines! r#"    ('\u{2498F}', [0xFC, 0x6F]), ('\u{24994}', [0x92, 0x46]), ('\u{249A4}', [0xFA, 0x6D]), 
    ('\u{249A7}', [0x8E, 0xF7]), ('\u{249A9}', [0xFB, 0xB7]), ('\u{249AB}', [0x94, 0x7C]), 
    ('\u{249AC}', [0x92, 0xCD]), ('\u{249AD}', [0x97, 0xB2]), ('\u{249B7}', [0xFE, 0x65]), 
    ('\u{249B8}', [0x96, 0x7E]), ('\u{249B9}', [0x97, 0x58]), ('\u{249BA}', [0x9B, 0x77]), 
    ('\u{249BB}', [0x91, 0xCF]), ('\u{249C5}', [0x94, 0xA4]), ('\u{249D0}', [0x9C, 0xAD]), 
    ('\u{249DA}', [0x8B, 0xAB]), ('\u{249DE}', [0x96, 0xD5]), ('\u{249DF}', [0xFC, 0xB3]), 
    ('\u{249E3}', [0x93, 0xAE]), ('\u{249E5}', [0x97, 0x6D]), ('\u{249EC}', [0x94, 0x46]), 
    ('\u{249ED}', [0x95, 0xF7]), ('\u{249F6}', [0x9C, 0x46]), ('\u{249F7}', [0x95, 0x5B]), 
    ('\u{249F8}', [0x91, 0xD1]), ('\u{249F9}', [0x94, 0xF4]), ('\u{249FB}', [0xFE, 0x67]), 
    ('\u{24A0E}', [0x92, 0xA5]), ('\u{24A12}', [0xFE, 0xDF]), ('\u{24A13}', [0x8C, 0xAB]), 
    ('\u{24A15}', [0x9B, 0xC9]), ('\u{24A21}', [0xFC, 0xED]), ('\u{24A22}', [0xFD, 0xFA]), 
    ('\u{24A23}', [0xFC, 0xC8]), ('\u{24A24}', [0xFE, 0x62]), ('\u{24A25}', [0x91, 0xFC]), 
    ('\u{24A26}', [0xFE, 0x6B]), ('\u{24A27}', [0xFD, 0xF9]), ('\u{24A28}', [0xFC, 0xC7]), 
    ('\u{24A29}', [0x91, 0x4E]), ('\u{24A2A}', [0x9C, 0xB8]), ('\u{24A3E}', [0x97, 0x67]), 
    ('\u{24A42}', [0x95, 0xEE]), ('\u{24A45}', [0x9B, 0xB2]), ('\u{24A4A}', [0x94, 0x60]), 
    ('\u{24A4E}', [0x94, 0xA2]), ('\u{24A4F}', [0x98, 0x75]), ('\u{24A50}', [0x97, 0xAC]), 
    ('\u{24A51}', [0x91, 0xD3]), ('\u{24A5D}', [0x98, 0x7B]), ('\u{24A65}', [0x8E, 0xEB]), 
    ('\u{24A66}', [0x97, 0x6A]), ('\u{24A67}', [0x96, 0x5E]), ('\u{24A71}', [0x97, 0xEB]), 
    ('\u{24A77}', [0x9F, 0xF9]), ('\u{24A78}', [0x95, 0xF8]), ('\u{24A79}', [0xFE, 0xA2]), 
    ('\u{24A7A}', [0x8F, 0xE6]), ('\u{24A8C}', [0xFE, 0x7E]), ('\u{24A93}', [0x9D, 0xA4]), 
    ('\u{24A94}', [0x97, 0x68]), ('\u{24A95}', [0x8E, 0xEC]), ('\u{24A96}', [0x94, 0xBD]), 
    ('\u{24AA4}', [0x94, 0x5B]), ('\u{24AA5}', [0x9C, 0xF6]), ('\u{24AA6}', [0xFA, 0xA7]), 
    ('\u{24AA7}', [0x9B, 0xD9]), ('\u{24AB1}', [0xFA, 0x5D]), ('\u{24AB2}', [0x96, 0x56]), 
    ('\u{24AB3}', [0x97, 0x62]), ('\u{24ABA}', [0x94, 0xBA]), ('\u{24ABB}', [0xA0, 0x4F]), 
    ('\u{24ABC}', [0x92, 0xD8]), ('\u{24AC0}', [0x9B, 0xCB]), ('\u{24AC7}', [0x94, 0xBB]), 
    ('\u{24ACA}', [0x9D, 0x5F]), ('\u{24AD1}', [0x90, 0xCF]), ('\u{24ADF}', [0x94, 0x65]), 
    ('\u{24AE2}', [0x9F, 0x4C]), ('\u{24AE9}', [0x90, 0xD8]), ('\u{24B0F}', [0x8D, 0x5B]), 
    ('\u{24B6E}', [0x9E, 0xBE]), ('\u{24BF5}', [0xFB, 0x6D]), ('\u{24C09}', [0x95, 0xCA]), 
    ('\u{24C9E}', [0x9D, 0xC2]), ('\u{24C9F}', [0x97, 0xF8]), ('\u{24CC9}', [0x8F, 0xFC]), 
    ('\u{24CD9}', [0x94, 0x73]), ('\u{24D06}', [0x94, 0x74]), ('\u{24D13}', [0xFE, 0xB7]), 
    ('\u{24DB8}', [0x8A, 0x4B]), ('\u{24DEA}', [0x8A, 0x55]), ('\u{24DEB}', [0x8B, 0x69]), 
    ('\u{24E3B}', [0x8A, 0xDC]), ('\u{24E50}', [0x8B, 0x76]), ('\u{24EA5}', [0x9B, 0xCE]), 
    ('\u{24EA7}', [0x8A, 0x68]), ('\u{24F0E}', [0xA0, 0xF8]), ('\u{24F5C}', [0x98, 0xDF]), 
    ('\u{24F82}', [0xFE, 0xB5]), ('\u{24F86}', [0x9B, 0xCF]), ('\u{24F97}', [0x96, 0xFB]), 
    ('\u{24F9A}', [0x9B, 0xFB]), ('\u{24FA9}', [0x9E, 0xCE]), ('\u{24FB8}', [0x8E, 0xE5]), 
    ('\u{24FC2}', [0x9E, 0x7B]), ('\u{2502C}', [0x9B, 0xD2]), ('\u{25052}', [0x8A, 0xA5]), 
    ('\u{2509D}', [0xFE, 0xCE]), ('\u{2512B}', [0x8A, 0x45]), ('\u{25148}', [0x9D, 0xFC]), 
    ('\u{2517D}', [0xFE, 0xCF]), ('\u{2517E}', [0x8B, 0xA5]), ('\u{251CD}', [0x8C, 0x4A]), 
    ('\u{251E3}', [0x8A, 0xEC]), ('\u{251E6}', [0xFC, 0xE0]), ('\u{251E7}', [0x94, 0xAD]), 
    ('\u{25220}', [0xFE, 0xD5]), ('\u{25221}', [0x94, 0xAC]), ('\u{25250}', [0xFC, 0x5A]), 
    ('\u{25299}', [0x9B, 0xD6]), ('\u{252C7}', [0x8A, 0x6F]), ('\u{252D8}', [0x8B, 0xA9]), 
    ('\u{2530E}', [0x8E, 0x5F]), ('\u{25311}', [0x9D, 0xCB]), ('\u{25313}', [0xFC, 0xE7]), 
    ('\u{25419}', [0x9B, 0xD7]), ('\u{25425}', [0x93, 0xC8]), ('\u{2542F}', [0x91, 0xF0]), 
    ('\u{25430}', [0x8F, 0xE0]), ('\u{25446}', [0x9B, 0xDB]), ('\u{2546C}', [0x90, 0xED]), 
    ('\u{2546E}', [0x9B, 0xDC]), ('\u{2549A}', [0x8D, 0x53]), ('\u{25531}', [0xA0, 0xEC]), 
    ('\u{25535}', [0x98, 0xFA]), ('\u{2553F}', [0x9B, 0xE0]), ('\u{2555B}', [0x93, 0xC7]), 
    ('\u{2555C}', [0x92, 0x49]), ('\u{2555D}', [0x96, 0xE1]), ('\u{2555E}', [0x9B, 0xE2]), 
    ('\u{25562}', [0x9B, 0xE4]), ('\u{25565}', [0x8F, 0xE1]), ('\u{25566}', [0x9B, 0xE5]), 
    ('\u{25581}', [0x94, 0xC0]), ('\u{25584}', [0x93, 0xC3]), ('\u{2558F}', [0x93, 0xC5]), 
    ('\u{255B9}', [0x90, 0x79]), ('\u{255D5}', [0x97, 0x7B]), ('\u{255DB}', [0x90, 0x7E]), 
    ('\u{255E0}', [0xFE, 0xE6]), ('\u{25605}', [0xFE, 0x46]), ('\u{25635}', [0x9D, 0xB8]), 
    ('\u{25651}', [0x92, 0x70]), ('\u{25683}', [0x95, 0xA8]), ('\u{25695}', [0x8C, 0xB0]), 
    ('\u{256E3}', [0x94, 0xC8]), ('\u{256F6}', [0x98, 0xB9]), ('\u{25706}', [0x91, 0x40]), 
    ('\u{2571D}', [0xFC, 0xBE]), ('\u{25725}', [0x91, 0x57]), ('\u{2573D}', [0x8B, 0xB2]), 
    ('\u{25772}', [0xFA, 0xDF]), ('\u{257C7}', [0x9B, 0xE6]), ('\u{257DF}', [0x96, 0x43]), 
    ('\u{257E0}', [0x8E, 0x44]), ('\u{257E1}', [0x9C, 0x4F]), ('\u{25857}', [0xFE, 0xF4]), 
    ('\u{2585D}', [0x9B, 0xE8]), ('\u{25872}', [0x93, 0xDC]), ('\u{258C8}', [0x96, 0x6F]), 
    ('\u{258DE}', [0x87, 0xA1]), ('\u{258E1}', [0x8E, 0x4A]), ('\u{25903}', [0x9B, 0xED]), 
    ('\u{25946}', [0x92, 0xF6]), ('\u{25956}', [0x9D, 0xB9]), ('\u{259AC}', [0x8E, 0x4E]), 
    ('\u{259CC}', [0xFB, 0xCF]), ('\u{25A54}', [0x87, 0x60]), ('\u{25A95}', [0x9E, 0xC2]), 
    ('\u{25A9C}', [0x94, 0xE5]), ('\u{25AAE}', [0x9B, 0xF0]), ('\u{25AAF}', [0x94, 0xE4]), 
    ('\u{25AE9}', [0x95, 0x51]), ('\u{25B74}', [0x8B, 0xBB]), ('\u{25B89}', [0x9B, 0xF1]), 
    ('\u{25BB3}', [0x94, 0xF0]), ('\u{25BB4}', [0x8E, 0x64]), ('\u{25BC6}', [0x94, 0xEA]), 
    ('\u{25BE4}', [0x8F, 0x61]), ('\u{25BE8}', [0x9B, 0x64]), ('\u{25C01}', [0x8E, 0x5B]), 
    ('\u{25C06}', [0x9B, 0xF2]), ('\u{25C21}', [0x9F, 0xBE]), ('\u{25C4A}', [0x9D, 0xC9]), 
    ('\u{25C65}', [0x8E, 0x6C]), ('\u{25C91}', [0x8F, 0x73]), ('\u{25CA4}', [0x8C, 0xAF]), 
    ('\u{25CC0}', [0x8F, 0x75]), ('\u{25CC1}', [0x8E, 0x71]), ('\u{25CFE}', [0x8E, 0x60]), 
    ('\u{25D20}', [0x8E, 0x6A]), ('\u{25D30}', [0x8C, 0x4C]), ('\u{25D43}', [0x95, 0x52]), 
    ('\u{25D99}', [0x87, 0xCF]), ('\u{25DB9}', [0x87, 0xC0]), ('\u{25E0E}', [0x95, 0x54]), 
    ('\u{25E49}', [0x8A, 0xD4]), ('\u{25E81}', [0x9D, 0xBB]), ('\u{25E82}', [0x95, 0x43]), 
    ('\u{25E83}', [0x92, 0xFE]), ('\u{25EA6}', [0x94, 0xF2]), ('\u{25EBC}', [0x94, 0xF1]), 
    ('\u{25ED7}', [0xA0, 0xEA]), ('\u{25ED8}', [0x9D, 0xD2]), ('\u{25F1A}', [0xA0, 0xB1]), 
    ('\u{25F4B}', [0x91, 0xF8]), ('\u{25FE1}', [0x94, 0x62]), ('\u{25FE2}', [0x9B, 0xA4]), 
    ('\u{26021}', [0x87, 0x7D]), ('\u{26029}', [0x8E, 0xAD]), ('\u{26048}', [0x9E, 0xAD]), 
    ('\u{26064}', [0x96, 0xD0]), ('\u{26083}', [0xFE, 0xEE]), ('\u{26097}', [0x8A, 0xB4]), 
    ('\u{260A4}', [0x97, 0x57]), ('\u{260A5}', [0x8A, 0x77]), ('\u{26102}', [0x9B, 0xF7]), 
    ('\u{26121}', [0x8E, 0xB5]), ('\u{26159}', [0xA0, 0x6D]), ('\u{2615A}', [0x8E, 0xB6]), 
    ('\u{2615B}', [0x97, 0x56]), ('\u{2615C}', [0x95, 0x40]), ('\u{261AD}', [0xA0, 0xF3]), 
    ('\u{261AE}', [0x94, 0xBE]), ('\u{261B2}', [0x9B, 0xFA]), ('\u{261DD}', [0xFD, 0xDF]), 
    ('\u{26258}', [0x9D, 0xBC]), ('\u{26261}', [0x94, 0xFE]), ('\u{2626A}', [0x8B, 0xDB]), 
    ('\u{2626B}', [0xA0, 0xFE]), ('\u{262D0}', [0x8E, 0xC0]), ('\u{26335}', [0x9F, 0x47]), 
    ('\u{2634B}', [0x8B, 0xDE]), ('\u{2634C}', [0xA0, 0xFB]), ('\u{26351}', [0x8E, 0xC3]), 
    ('\u{263BE}', [0x96, 0x49]), ('\u{263F5}', [0xFE, 0xC2]), ('\u{263F8}', [0x95, 0x4C]), 
    ('\u{26402}', [0x9B, 0xFD]), ('\u{26410}', [0x90, 0xCC]), ('\u{26411}', [0x9C, 0x60]), 
    ('\u{26412}', [0x95, 0x4B]), ('\u{2644A}', [0x9B, 0xFE]), ('\u{26469}', [0x9C, 0x70]), 
    ('\u{26484}', [0x9C, 0x43]), ('\u{26488}', [0x9C, 0x47]), ('\u{26489}', [0x8E, 0xCC]), 
    ('\u{2648D}', [0x8E, 0x54]), ('\u{26498}', [0x8E, 0xE4]), ('\u{26512}', [0x9C, 0x49]), 
    ('\u{26572}', [0x8B, 0x5E]), ('\u{265A0}', [0x95, 0x5E]), ('\u{265AD}', [0x95, 0x5C]), 
    ('\u{265BF}', [0x9C, 0x4B]), ('\u{26612}', [0x8B, 0xE1]), ('\u{26626}', [0x8E, 0xD9]), 
    ('\u{266AF}', [0x9D, 0xB4]), ('\u{266B1}', [0x92, 0x5F]), ('\u{266B5}', [0x9C, 0x4C]), 
    ('\u{266DA}', [0x8A, 0xA1]), ('\u{266E8}', [0x8E, 0xDB]), ('\u{266FC}', [0x9C, 0x56]), 
    ('\u{26716}', [0x8A, 0xA2]), ('\u{26741}', [0x97, 0x54]), ('\u{26799}', [0x9C, 0x5E]), 
    ('\u{267B3}', [0x9E, 0xD4]), ('\u{267B4}', [0x95, 0x68]), ('\u{267CC}', [0xA0, 0xC3]), 
    ('\u{2681C}', [0x8A, 0xE6]), ('\u{26846}', [0xA0, 0xF7]), ('\u{2685E}', [0x9C, 0x61]), 
    ('\u{2686E}', [0x9C, 0x5F]), ('\u{26888}', [0xFC, 0x4D]), ('\u{2688A}', [0x9E, 0x5B]), 
    ('\u{26893}', [0x9E, 0x69]), ('\u{268C7}', [0x9C, 0x63]), ('\u{2690E}', [0xFE, 0xC7]), 
    ('\u{26911}', [0xFE, 0xC6]), ('\u{26926}', [0x9C, 0x67]), ('\u{26939}', [0x9C, 0x69]), 
    ('\u{26951}', [0x8B, 0xE2]), ('\u{269A8}', [0x91, 0x65]), ('\u{269B5}', [0x9C, 0xE7]), 
    ('\u{269F2}', [0x8A, 0x54]), ('\u{269FA}', [0x9C, 0x6C]), ('\u{26A2D}', [0x9C, 0x6E]), 
    ('\u{26A2E}', [0xFE, 0x5D]), ('\u{26A34}', [0x9C, 0x73]), ('\u{26A42}', [0x95, 0x6A]), 
    ('\u{26A51}', [0x95, 0x6D]), ('\u{26A52}', [0x8E, 0xF0]), ('\u{26B05}', [0x8F, 0x4D]), 
    ('\u{26B0A}', [0x8E, 0xF6]), ('\u{26B13}', [0xFA, 0xBC]), ('\u{26B15}', [0x8C, 0xD5]), 
    ('\u{26B23}', [0x87, 0x5E]), ('\u{26B28}', [0xFB, 0xDA]), ('\u{26B50}', [0x8B, 0x4C]), 
    ('\u{26B51}', [0xFD, 0x75]), ('\u{26B52}', [0x9B, 0xDD]), ('\u{26B53}', [0xFA, 0xF5]), 
    ('\u{26B5B}', [0x9C, 0x74]), ('\u{26B75}', [0x95, 0x45]), ('\u{26B82}', [0x96, 0xC6]), 
    ('\u{26B96}', [0x8F, 0x6A]), ('\u{26B97}', [0x8F, 0x4E]), ('\u{26B9D}', [0x9C, 0x78]), 
    ('\u{26BB3}', [0xFA, 0x55]), ('\u{26BC0}', [0x97, 0xE4]), ('\u{26BF7}', [0x9C, 0x41]), 
    ('\u{26C21}', [0x92, 0x5C]), ('\u{26C40}', [0x96, 0xFA]), ('\u{26C41}', [0x8C, 0xF6]), 
    ('\u{26C46}', [0x8D, 0x4D]), ('\u{26C7E}', [0xFB, 0x66]), ('\u{26C7F}', [0x8E, 0x65]), 
    ('\u{26C80}', [0x98, 0x49]), ('\u{26C81}', [0xFB, 0xA8]), ('\u{26C82}', [0x98, 0x42]), 
    ('\u{26CA4}', [0x9C, 0x7A]), ('\u{26CB7}', [0x97, 0xFB]), ('\u{26CB8}', [0x90, 0xCA]), 
    ('\u{26CBD}', [0x9C, 0x5B]), ('\u{26CC0}', [0x97, 0x4D]), ('\u{26CC3}', [0x8E, 0xD3]), 
    ('\u{26CD1}', [0x95, 0x61]), ('\u{26D22}', [0x9F, 0x4B]), ('\u{26D23}', [0x9F, 0xB5]), 
    ('\u{26D24}', [0x93, 0xD2]), ('\u{26D25}', [0xFD, 0xAA]), ('\u{26D26}', [0x98, 0x40]), 
    ('\u{26D27}', [0x91, 0x46]), ('\u{26D28}', [0x98, 0x67]), ('\u{26D29}', [0xFA, 0x5A]), 
    ('\u{26D2A}', [0xFB, 0xA9]), ('\u{26D51}', [0x98, 0x41]), ('\u{26D74}', [0x8C, 0xD3]), 
    ('\u{26DA0}', [0xFC, 0xFD]), ('\u{26DA1}', [0xFD, 0xAB]), ('\u{26DA2}', [0x91, 0xBD]), 
    ('\u{26DA3}', [0x8F, 0x4C]), ('\u{26DA4}', [0x96, 0xC9]), ('\u{26DA5}', [0x8F, 0x55]), 
    ('\u{26DA6}', [0xFB, 0xAE]), ('\u{26DA7}', [0x95, 0x6F]), ('\u{26DAE}', [0x9C, 0x7D]), 
    ('\u{26DDC}', [0xA0, 0xF0]), ('\u{26DEA}', [0x94, 0x6F]), ('\u{26DEB}', [0xFD, 0xAC]), 
    ('\u{26DF0}', [0x96, 0xCB]), ('\u{26E00}', [0x96, 0xCE]), ('\u{26E05}', [0xA0, 0x56]), 
    ('\u{26E07}', [0x9C, 0xE1]), ('\u{26E12}', [0x96, 0xC4]), ('\u{26E42}', [0x8F, 0x5E]), 
    ('\u{26E43}', [0x8F, 0x6C]), ('\u{26E44}', [0x8E, 0xA3]), ('\u{26E45}', [0xFB, 0xB3]), 
    ('\u{26E6E}', [0xFC, 0x53]), ('\u{26E72}', [0xFD, 0xB3]), ('\u{26E77}', [0x8F, 0x6B]), 
    ('\u{26E84}', [0x96, 0xCA]), ('\u{26E88}', [0x87, 0xCD]), ('\u{26E8B}', [0x87, 0x53]), 
    ('\u{26E99}', [0x8F, 0x79]), ('\u{26ED0}', [0x9E, 0x6F]), ('\u{26ED1}', [0xA0, 0xC5]), 
    ('\u{26ED2}', [0xFC, 0x78]), ('\u{26ED3}', [0x8E, 0x42]), ('\u{26ED4}', [0x8F, 0x5A]), 
    ('\u{26ED5}', [0x90, 0xC2]), ('\u{26ED6}', [0x8E, 0xA5]), ('\u{26ED7}', [0x90, 0x61]), 
"#

/-- src/generated/whatwg/big5_whatwg_tables.rs.inc:8497-8624 -/
noncomputable def encode47 : List Text := lines! r#"    ('\u{26F26}', [0x92, 0x4F]), ('\u{26F73}', [0x93, 0x73]), ('\u{26F74}', [0xFD, 0xB5]), 
    ('\u{26F9F}', [0xFE, 0xCC]), ('\u{26FA1}', [0xFB, 0xBD]), ('\u{26FBE}', [0x8C, 0xD6]), 
    ('\u{26FDE}', [0x98, 0x43]), ('\u{26FDF}', [0x96, 0xC5]), ('\u{2700E}', [0x89, 0xBC]), 
    ('\u{2704B}', [0x9C, 0xA3]), ('\u{27052}', [0x92, 0x4B]), ('\u{27053}', [0x98, 0x4A]), 
    ('\u{27088}', [0x8F, 0xA4]), ('\u{270AD}', [0xA0, 0xF1]), ('\u{270AE}', [0x9E, 0xFB]), 
    ('\u{270AF}', [0x9C, 0xD2]), ('\u{270CD}', [0x8F, 0xA7]), ('\u{270D2}', [0x87, 0x54]), 
    ('\u{270F8}', [0xFC, 0x5C]), ('\u{27109}', [0x98, 0x45]), ('\u{2710C}', [0x90, 0x46]), 
    ('\u{2710D}', [0x8C, 0xD1]), ('\u{27126}', [0xFE, 0xFA]), ('\u{27127}', [0x95, 0x60]), 
    ('\u{27164}', [0x9F, 0x48]), ('\u{27165}', [0x92, 0x47]), ('\u{27175}', [0x90, 0xFB]), 
    ('\u{271CD}', [0x9C, 0xA4]), ('\u{2721B}', [0x95, 0x71]), ('\u{27267}', [0x87, 0x45]), 
    ('\u{27280}', [0x9C, 0xA6]), ('\u{27285}', [0x9C, 0xA7]), ('\u{2728B}', [0x9C, 0xAA]), 
    ('\u{272B2}', [0x9E, 0xD3]), ('\u{272B6}', [0x9E, 0x70]), ('\u{272E6}', [0x9C, 0xAC]), 
    ('\u{27352}', [0x87, 0x52]), ('\u{2739A}', [0x8F, 0xAE]), ('\u{273FF}', [0x8D, 0x50]), 
    ('\u{27422}', [0x95, 0x7D]), ('\u{27450}', [0x9C, 0xB0]), ('\u{27484}', [0x97, 0xB6]), 
    ('\u{27486}', [0xA0, 0xBD]), ('\u{27574}', [0x8A, 0xDF]), ('\u{275A3}', [0x9E, 0xAA]), 
    ('\u{275E0}', [0x8F, 0xBD]), ('\u{275E4}', [0x8F, 0xBF]), ('\u{275FD}', [0x93, 0x69]), 
    ('\u{275FE}', [0x9B, 0xA7]), ('\u{27607}', [0xC8, 0xA4]), ('\u{2760C}', [0xFE, 0xEA]), 
    ('\u{27632}', [0x9B, 0xE1]), ('\u{27639}', [0x8B, 0x41]), ('\u{27655}', [0x9D, 0xB6]), 
    ('\u{27656}', [0xA0, 0xEB]), ('\u{27657}', [0x9B, 0xA3]), ('\u{27694}', [0x8B, 0xA1]), 
    ('\u{2770F}', [0x8F, 0xC8]), ('\u{27735}', [0x89, 0x4C]), ('\u{27736}', [0x98, 0x60]), 
    ('\u{27741}', [0x94, 0xC7]), ('\u{2775E}', [0x8B, 0x58]), ('\u{27784}', [0x95, 0xAB]), 
    ('\u{27785}', [0x95, 0xAA]), ('\u{277CC}', [0x9C, 0xC3]), ('\u{27858}', [0x9C, 0xC4]), 
    ('\u{27870}', [0x93, 0xD6]), ('\u{2789D}', [0x9D, 0xAC]), ('\u{278B2}', [0x8B, 0xE6]), 
    ('\u{278C8}', [0x8A, 0x71]), ('\u{27924}', [0x8F, 0xD1]), ('\u{27967}', [0x99, 0xD5]), 
    ('\u{2797A}', [0x90, 0xF4]), ('\u{279A0}', [0x8A, 0xA3]), ('\u{279DD}', [0x9C, 0xCE]), 
    ('\u{279FD}', [0x9C, 0xD4]), ('\u{27A0A}', [0x9C, 0xD5]), ('\u{27A0E}', [0xFB, 0xC8]), 
    ('\u{27A3E}', [0x9D, 0xB3]), ('\u{27A53}', [0xFC, 0x70]), ('\u{27A59}', [0x8F, 0xD7]), 
    ('\u{27A79}', [0x9B, 0x73]), ('\u{27A84}', [0xFA, 0x5B]), ('\u{27ABD}', [0x8F, 0xD2]), 
    ('\u{27ABE}', [0x90, 0x64]), ('\u{27AF4}', [0x98, 0xB6]), ('\u{27B06}', [0x96, 0x68]), 
    ('\u{27B0B}', [0x9C, 0xD6]), ('\u{27B18}', [0x98, 0xBD]), ('\u{27B38}', [0x8F, 0xDC]), 
    ('\u{27B39}', [0xFE, 0xF6]), ('\u{27B3A}', [0x8F, 0xD9]), ('\u{27B48}', [0x95, 0x41]), 
    ('\u{27B65}', [0x87, 0xCA]), ('\u{27BEF}', [0x87, 0x6C]), ('\u{27BF4}', [0x97, 0xF3]), 
    ('\u{27C12}', [0x9B, 0xF8]), ('\u{27C6C}', [0x87, 0x5A]), ('\u{27CB1}', [0x87, 0x48]), 
    ('\u{27CC5}', [0x87, 0x4A]), ('\u{27D2F}', [0x9E, 0x6C]), ('\u{27D53}', [0x8F, 0xF2]), 
    ('\u{27D54}', [0x8F, 0xEE]), ('\u{27D66}', [0x9C, 0xD7]), ('\u{27D73}', [0x9E, 0x6E]), 
    ('\u{27D84}', [0x8A, 0x40]), ('\u{27D8F}', [0x8F, 0xEF]), ('\u{27D98}', [0x8F, 0xF4]), 
    ('\u{27DBD}', [0x8F, 0xF5]), ('\u{27DDC}', [0x95, 0xC2]), ('\u{27E4D}', [0x98, 0x6A]), 
    ('\u{27E4F}', [0x97, 0xCF]), ('\u{27F2E}', [0x9E, 0xE5]), ('\u{27FF9}', [0x9E, 0x7C]), 
    ('\u{28002}', [0x90, 0x41]), ('\u{28009}', [0x9C, 0xDB]), ('\u{2801E}', [0x94, 0x41]), 
    ('\u{28023}', [0x9C, 0xE6]), ('\u{28024}', [0x9D, 0xB0]), ('\u{28048}', [0x9C, 0xEA]), 
    ('\u{28083}', [0x9C, 0xED]), ('\u{28090}', [0x9C, 0xFA]), ('\u{280BD}', [0x8B, 0x62]), 
    ('\u{280BE}', [0x8A, 0x4E]), ('\u{280E8}', [0x9C, 0xCA]), ('\u{280E9}', [0x8A, 0x66]), 
    ('\u{280F4}', [0x9C, 0xFB]), ('\u{2812E}', [0x9C, 0xFC]), ('\u{2814F}', [0x9C, 0xFE]), 
    ('\u{2815D}', [0x8A, 0x53]), ('\u{2816F}', [0x9C, 0xE5]), ('\u{28189}', [0x9D, 0x40]), 
    ('\u{281AF}', [0x9D, 0x41]), ('\u{281BC}', [0x90, 0x45]), ('\u{28207}', [0x8B, 0x73]), 
    ('\u{28218}', [0x97, 0xCA]), ('\u{2821A}', [0x9D, 0x42]), ('\u{28256}', [0x8A, 0x61]), 
    ('\u{2827C}', [0x8B, 0xAE]), ('\u{2829B}', [0x8A, 0xD2]), ('\u{282CD}', [0x8B, 0xA2]), 
    ('\u{282E2}', [0x9D, 0xF2]), ('\u{28306}', [0x9D, 0x43]), ('\u{28318}', [0x9C, 0xDF]), 
    ('\u{2832F}', [0x9D, 0x44]), ('\u{2833A}', [0x8E, 0xCA]), ('\u{28365}', [0x90, 0x4E]), 
    ('\u{2836D}', [0x8E, 0xB3]), ('\u{2837D}', [0x9F, 0xF5]), ('\u{2838A}', [0x9D, 0x45]), 
    ('\u{28412}', [0x90, 0x4F]), ('\u{28468}', [0x9D, 0x47]), ('\u{2846C}', [0x89, 0xCA]), 
    ('\u{28473}', [0x9C, 0xB5]), ('\u{28482}', [0xFB, 0xFE]), ('\u{28501}', [0x90, 0x5E]), 
    ('\u{2853C}', [0x90, 0x63]), ('\u{2853D}', [0x90, 0x57]), ('\u{2856C}', [0x90, 0x66]), 
    ('\u{285E8}', [0x9B, 0xC0]), ('\u{285F4}', [0xFC, 0xE5]), ('\u{28600}', [0x91, 0x62]), 
    ('\u{2860B}', [0x90, 0x67]), ('\u{28625}', [0x8F, 0xA1]), ('\u{2863B}', [0x8F, 0xA2]), 
    ('\u{286AA}', [0x9D, 0x48]), ('\u{286AB}', [0xFA, 0xD3]), ('\u{286B2}', [0x8D, 0x4F]), 
    ('\u{286BC}', [0x90, 0x5D]), ('\u{286D8}', [0x90, 0xB9]), ('\u{286E6}', [0x90, 0x6B]), 
    ('\u{2870F}', [0x8C, 0x5C]), ('\u{28713}', [0x90, 0x69]), ('\u{28804}', [0xFE, 0x57]), 
    ('\u{2882B}', [0xFE, 0x55]), ('\u{2890D}', [0x87, 0xA6]), ('\u{28933}', [0x90, 0x73]), 
    ('\u{28948}', [0x9B, 0xEF]), ('\u{28949}', [0x9C, 0xF0]), ('\u{28956}', [0x9D, 0x4B]), 
    ('\u{28964}', [0xFE, 0xD9]), ('\u{28968}', [0xFE, 0xDA]), ('\u{2896C}', [0x91, 0xE0]), 
    ('\u{2896D}', [0x8D, 0x43]), ('\u{2897E}', [0x91, 0xD8]), ('\u{28989}', [0x96, 0x46]), 
    ('\u{289A8}', [0x93, 0x60]), ('\u{289AA}', [0xFA, 0x53]), ('\u{289AB}', [0x9C, 0xD3]), 
    ('\u{289B8}', [0x9D, 0x4E]), ('\u{289BC}', [0xFB, 0x40]), ('\u{289C0}', [0x8D, 0xE2]), 
    ('\u{289DC}', [0x94, 0x42]), ('\u{289DE}', [0x90, 0x56]), ('\u{289E1}', [0x98, 0x65]), 
    ('\u{289E3}', [0x8C, 0x6C]), ('\u{289E4}', [0xFA, 0x4A]), ('\u{289E7}', [0x9D, 0x50]), 
    ('\u{289E8}', [0x9D, 0x52]), ('\u{289F9}', [0x95, 0xAF]), ('\u{289FA}', [0x97, 0x5A]), 
    ('\u{289FB}', [0x93, 0x49]), ('\u{289FC}', [0x97, 0x47]), ('\u{28A0F}', [0xA0, 0xF4]), 
    ('\u{28A16}', [0x97, 0x78]), ('\u{28A25}', [0x8F, 0xCF]), ('\u{28A29}', [0xFC, 0x60]), 
    ('\u{28A32}', [0x8C, 0x4E]), ('\u{28A36}', [0xFC, 0x56]), ('\u{28A44}', [0x91, 0xDC]), 
    ('\u{28A45}', [0x96, 0x61]), ('\u{28A46}', [0x92, 0xEC]), ('\u{28A47}', [0x93, 0x5D]), 
    ('\u{28A48}', [0x8E, 0xDE]), ('\u{28A49}', [0x96, 0xFE]), ('\u{28A4A}', [0xFD, 0x4F]), 
    ('\u{28A4B}', [0x95, 0xDE]), ('\u{28A59}', [0x98, 0xB0]), ('\u{28A5A}', [0xA0, 0x40]), 
    ('\u{28A81}', [0x97, 0xBD]), ('\u{28A82}', [0x97, 0x7D]), ('\u{28A83}', [0x97, 0xF5]), 
    ('\u{28A9A}', [0x9B, 0xAC]), ('\u{28A9B}', [0xFA, 0xDA]), ('\u{28A9C}', [0x92, 0xC2]), 
    ('\u{28AC0}', [0x97, 0xB1]), ('\u{28AC6}', [0x90, 0x7B]), ('\u{28ACB}', [0x93, 0xFE]), 
    ('\u{28ACC}', [0x94, 0x7B]), ('\u{28ACE}', [0x97, 0x77]), ('\u{28ADE}', [0xFA, 0xBE]), 
    ('\u{28ADF}', [0xFD, 0x43]), ('\u{28AE0}', [0x90, 0xC6]), ('\u{28AE1}', [0x90, 0xA4]), 
    ('\u{28AE2}', [0x90, 0xA8]), ('\u{28AE3}', [0x94, 0xA9]), ('\u{28AE5}', [0x90, 0xA9]), 
    ('\u{28AEA}', [0x8C, 0x65]), ('\u{28AFC}', [0x95, 0xE0]), ('\u{28B0C}', [0x90, 0x7D]), 
    ('\u{28B13}', [0x92, 0x65]), ('\u{28B21}', [0xFD, 0xBA]), ('\u{28B22}', [0x93, 0xC4]), 
    ('\u{28B2B}', [0xFE, 0xED]), ('\u{28B2C}', [0x9D, 0xAB]), ('\u{28B2D}', [0xA0, 0xE3]), 
    ('\u{28B2F}', [0x96, 0x48]), ('\u{28B46}', [0x9D, 0x53]), ('\u{28B4C}', [0x8A, 0xA9]), 
    ('\u{28B4E}', [0x9B, 0xC5]), ('\u{28B50}', [0x96, 0x5D]), ('\u{28B63}', [0x97, 0x5F]), 
    ('\u{28B64}', [0x96, 0x5F]), ('\u{28B65}', [0x96, 0x6E]), ('\u{28B66}', [0xFB, 0x5D]), 
    ('\u{28B6C}', [0x9D, 0xB1]), ('\u{28B8F}', [0xFE, 0xA3]), ('\u{28B99}', [0x9D, 0xB2]), 
    ('\u{28B9C}', [0x95, 0xAE]), ('\u{28B9D}', [0xFC, 0xA3]), ('\u{28BB9}', [0x87, 0x69]), 
    ('\u{28BC2}', [0xA0, 0xA2]), ('\u{28BC5}', [0x96, 0x55]), ('\u{28BD4}', [0x9D, 0x54]), 
    ('\u{28BD7}', [0x93, 0x41]), ('\u{28BD9}', [0x95, 0xAD]), ('\u{28BDA}', [0x91, 0xD5]), 
    ('\u{28BE7}', [0x97, 0x7A]), ('\u{28BE8}', [0xFD, 0xFC]), ('\u{28BE9}', [0x8E, 0x47]), 
    ('\u{28BEA}', [0x93, 0xFD]), ('\u{28BEB}', [0x90, 0xA5]), ('\u{28BEC}', [0x90, 0xAC]), 
    ('\u{28BF5}', [0x95, 0xAC]), ('\u{28BFF}', [0x90, 0xAE]), ('\u{28C03}', [0xFE, 0xA5]), 
    ('\u{28C09}', [0x9D, 0x56]), ('\u{28C1C}', [0x97, 0xE3]), ('\u{28C1D}', [0x95, 0xE2]), 
    ('\u{28C23}', [0x94, 0x66]), ('\u{28C26}', [0x96, 0x47]), ('\u{28C2B}', [0x91, 0xB8]), 
    ('\u{28C30}', [0x9C, 0xEC]), ('\u{28C39}', [0x90, 0xAD]), ('\u{28C3B}', [0x95, 0xE3]), 
    ('\u{28CCA}', [0x8B, 0x4F]), ('\u{28CCD}', [0x8A, 0xE3]), ('\u{28CD2}', [0x8B, 0x4D]), 
    ('\u{28D34}', [0x95, 0xEA]), ('\u{28D99}', [0x8B, 0x4E]), ('\u{28DB9}', [0x8C, 0xC1]), 
    ('\u{28E0F}', [0x8B, 0xED]), ('\u{28E36}', [0x91, 0xD9]), ('\u{28E39}', [0xA0, 0xA4]), 
    ('\u{28E65}', [0x95, 0xF5]), ('\u{28E66}', [0x95, 0xF4]), ('\u{28E97}', [0x9F, 0xB3]), 
    ('\u{28EAC}', [0xFE, 0xAF]), ('\u{28EB2}', [0xFE, 0x72]), ('\u{28EB3}', [0x92, 0x7A]), 
    ('\u{28ED9}', [0xFE, 0xAC]), ('\u{28EE7}', [0x95, 0xF3]), ('\u{28FC5}', [0x9D, 0x58]), 
    ('\u{29079}', [0x8D, 0x46]), ('\u{29088}', [0x93, 0x72]), ('\u{2908B}', [0x91, 0xC5]), 
    ('\u{29093}', [0x96, 0x42]), ('\u{290AF}', [0x90, 0xCD]), ('\u{290B0}', [0x95, 0xFE]), 
    ('\u{290B1}', [0x91, 0x59]), ('\u{290C0}', [0x9C, 0x65]), ('\u{290E4}', [0x97, 0xCC]), 
    ('\u{290E5}', [0x90, 0xCE]), ('\u{290EC}', [0x9D, 0x59]), ('\u{290ED}', [0xFC, 0xF5]), 
    ('\u{2910D}', [0xFE, 0xFD]), ('\u{29110}', [0x9D, 0x5B]), ('\u{2913C}', [0x9D, 0x5C]), 
    ('\u{2914D}', [0x93, 0x7E]), ('\u{2915B}', [0x98, 0xAC]), ('\u{2915E}', [0x9D, 0x5E]), 
    ('\u{29170}', [0xFD, 0xD0]), ('\u{2919C}', [0xFD, 0x60]), ('\u{291A8}', [0x9C, 0xCF]), 
    ('\u{291D5}', [0x90, 0xDD]), ('\u{291EB}', [0x90, 0xE0]), ('\u{2941D}', [0x90, 0xF3]), 
    ('\u{29420}', [0x98, 0xB1]), ('\u{29433}', [0x90, 0xF0]), ('\u{2943F}', [0x93, 0xBD]), 
    ('\u{29448}', [0x95, 0xB7]), ('\u{294D0}', [0x9F, 0x46]), ('\u{294D9}', [0x8E, 0x4B]), 
    ('\u{294DA}', [0x96, 0x58]), ('\u{294E5}', [0x8A, 0x4C]), ('\u{294E7}', [0x9D, 0x63]), 
    ('\u{2959E}', [0x9E, 0xCF]), ('\u{295B0}', [0x9D, 0x65]), ('\u{295B8}', [0x9D, 0x66]), 
    ('\u{295D7}', [0x96, 0x5A]), ('\u{295E9}', [0x9D, 0x64]), ('\u{295F4}', [0x8A, 0x6C]), 
    ('\u{29720}', [0x8A, 0xD9]), ('\u{29732}', [0x9D, 0x67]), ('\u{297D4}', [0x8A, 0x70]), 
    ('\u{29810}', [0x8B, 0xF3]), ('\u{29857}', [0x91, 0x50]), ('\u{298A4}', [0x9C, 0xC1]), 
    ('\u{298D1}', [0x9D, 0x68]), ('\u{298EA}', [0x93, 0xA7]), ('\u{298F1}', [0x96, 0x74]), 
    ('\u{298FA}', [0x8C, 0xFD]), ('\u{29903}', [0xA0, 0xEF]), ('\u{29905}', [0x91, 0x51]), 
    ('\u{2992F}', [0x96, 0xC1]), ('\u{29945}', [0x87, 0x77]), ('\u{29947}', [0x8C, 0x64]), 
    ('\u{29948}', [0x96, 0x76]), ('\u{29949}', [0x9D, 0x69]), ('\u{2995D}', [0xFC, 0xA4]), 
    ('\u{2996A}', [0x9D, 0x6A]), ('\u{2999D}', [0x92, 0x4E]), ('\u{299C3}', [0x9D, 0x6B]), 
    ('\u{299C9}', [0x9B, 0xC1]), ('\u{29A28}', [0x9D, 0x6C]), ('\u{29A4D}', [0x8A, 0x65]), 
    ('\u{29B05}', [0x91, 0x5D]), ('\u{29B0E}', [0x9D, 0x6D]), ('\u{29BD5}', [0x91, 0x5A]), 
    ('\u{29C73}', [0x8C, 0x42]), ('\u{29CAD}', [0x9C, 0xC0]), ('\u{29D3E}', [0x91, 0x6A]), 
    ('\u{29D5A}', [0x9D, 0x6E]), ('\u{29D7C}', [0x9E, 0xA6]), ('\u{29D98}', [0x9D, 0xCD]), 
    ('\u{29D9B}', [0x9D, 0x6F]), ('\u{29DF6}', [0x89, 0xBB]), ('\u{29E06}', [0x9E, 0xF9]), 
    ('\u{29E2D}', [0x96, 0xB4]), ('\u{29E68}', [0x91, 0x72]), ('\u{29EAC}', [0x9E, 0xC8]), 
    ('\u{29EB0}', [0x87, 0x71]), ('\u{29EC3}', [0x8B, 0x55]), ('\u{29EF8}', [0x9D, 0x71]), 
"#

/-- src/generated/whatwg/big5_whatwg_tables.rs.inc:8625-8644 -/
noncomputable def encode48 : List Text := lines! r#"    ('\u{29F23}', [0x9D, 0x72]), ('\u{29F30}', [0x9E, 0xCC]), ('\u{29FB7}', [0x91, 0x74]), 
    ('\u{29FDE}', [0x9E, 0xD0]), ('\u{2A014}', [0x90, 0x5C]), ('\u{2A087}', [0x8E, 0xD2]), 
    ('\u{2A0B9}', [0x91, 0xA8]), ('\u{2A0E1}', [0x91, 0x77]), ('\u{2A0ED}', [0x96, 0xBF]), 
    ('\u{2A0F3}', [0x96, 0xC0]), ('\u{2A0F8}', [0x8F, 0xB1]), ('\u{2A0FE}', [0x96, 0xB7]), 
    ('\u{2A107}', [0x8C, 0x55]), ('\u{2A123}', [0x91, 0x78]), ('\u{2A133}', [0x89, 0xBE]), 
    ('\u{2A134}', [0x91, 0x7C]), ('\u{2A150}', [0xFB, 0x77]), ('\u{2A192}', [0x91, 0x75]), 
    ('\u{2A193}', [0x91, 0xA3]), ('\u{2A1AB}', [0x91, 0x76]), ('\u{2A1B4}', [0x96, 0xBE]), 
    ('\u{2A1B5}', [0x8D, 0x49]), ('\u{2A1DF}', [0x91, 0x79]), ('\u{2A1F5}', [0x96, 0xB6]), 
    ('\u{2A220}', [0x91, 0xA4]), ('\u{2A233}', [0x91, 0xA6]), ('\u{2A293}', [0x9D, 0x75]), 
    ('\u{2A29F}', [0x90, 0x52]), ('\u{2A2B2}', [0xA0, 0x45]), ('\u{2A2B4}', [0x91, 0xA9]), 
    ('\u{2A2B6}', [0x98, 0xAA]), ('\u{2A2BA}', [0x8C, 0x5F]), ('\u{2A2BD}', [0x8B, 0xAA]), 
    ('\u{2A2DF}', [0x9C, 0xDD]), ('\u{2A2FF}', [0x9D, 0x77]), ('\u{2A351}', [0x87, 0x56]), 
    ('\u{2A3A9}', [0x89, 0x40]), ('\u{2A434}', [0x9E, 0xEC]), ('\u{2A45B}', [0x93, 0xAA]), 
    ('\u{2A5C6}', [0x94, 0x78]), ('\u{2A5CB}', [0x9D, 0x7A]), ('\u{2A601}', [0x8A, 0xC9]), 
    ('\u{2A632}', [0x8B, 0x4B]), ('\u{2A64A}', [0x9F, 0xEC]), ('\u{2A65B}', [0x8A, 0xE2]), 
    ('\u{2A6A9}', [0x9E, 0x75]), ('\u{2ADFF}', [0x87, 0xDC]), ('\u{2F825}', [0x98, 0x74]), 
    ('\u{2F83B}', [0x9A, 0xC8]), ('\u{2F840}', [0xA0, 0x47]), ('\u{2F878}', [0x8B, 0xC3]), 
    ('\u{2F894}', [0xFC, 0x48]), ('\u{2F8A6}', [0xFC, 0x77]), ('\u{2F8CD}', [0x9C, 0x52]), 
    ('\u{2F994}', [0x8E, 0xFD]), ('\u{2F9B2}', [0x8F, 0xA8]), ('\u{2F9BC}', [0x95, 0x7A]), 
    ('\u{2F9D4}', [0x8F, 0xF0]), 
"#

end Verif.Files.Big5
