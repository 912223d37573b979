import Verif.Hex

/-! Generated by tools/gen_files.py: verbatim copies of parts of files of /repo. -/

namespace Verif.Files.ShiftJis

/-- tests/test_data/whatwg/shiftjis_whatwg_test_decode_in.txt, part 31 -/
noncomputable def decodeIn30 : List Nat := hex! "9F400A9F410A9F420A9F430A9F440A9F450A9F460A9F470A9F480A9F490A9F4A0A9F4B0A9F4C0A9F4D0A9F4E0A9F4F0A
  9F500A9F510A9F520A9F530A9F540A9F550A9F560A9F570A9F580A9F590A9F5A0A9F5B0A9F5C0A9F5D0A9F5E0A9F5F0A
  9F600A9F610A9F620A9F630A9F640A9F650A9F660A9F670A9F680A9F690A9F6A0A9F6B0A9F6C0A9F6D0A9F6E0A9F6F0A
  9F700A9F710A9F720A9F730A9F740A9F750A9F760A9F770A9F780A9F790A9F7A0A9F7B0A9F7C0A9F7D0A9F7E0A9F800A
  9F810A9F820A9F830A9F840A9F850A9F860A9F870A9F880A9F890A9F8A0A9F8B0A9F8C0A9F8D0A9F8E0A9F8F0A9F900A
  9F910A9F920A9F930A9F940A9F950A9F960A9F970A9F980A9F990A9F9A0A9F9B0A9F9C0A9F9D0A9F9E0A9F9F0A9FA00A
  9FA10A9FA20A9FA30A9FA40A9FA50A9FA60A9FA70A9FA80A9FA90A9FAA0A9FAB0A9FAC0A9FAD0A9FAE0A9FAF0A9FB00A
  9FB10A9FB20A9FB30A9FB40A9FB50A9FB60A9FB70A9FB80A9FB90A9FBA0A9FBB0A9FBC0A9FBD0A9FBE0A9FBF0A9FC00A
  9FC10A9FC20A9FC30A9FC40A9FC50A9FC60A9FC70A9FC80A9FC90A9FCA0A9FCB0A9FCC0A9FCD0A9FCE0A9FCF0A9FD00A
  9FD10A9FD20A9FD30A9FD40A9FD50A9FD60A9FD70A9FD80A9FD90A9FDA0A9FDB0A9FDC0A9FDD0A9FDE0A9FDF0A9FE00A
  9FE10A9FE20A9FE30A9FE40A9FE50A9FE60A9FE70A9FE80A9FE90A9FEA0A9FEB0A9FEC0A9FED0A9FEE0A9FEF0A9FF00A
  9FF10A9FF20A9FF30A9FF40A9FF50A9FF60A9FF70A9FF80A9FF90A9FFA0A9FFB0A9FFC0A"

/-- tests/test_data/whatwg/shiftjis_whatwg_test_decode_out.txt, part 31 -/
noncomputable def decodeOut30 : List Nat := hex! "E6AA970AE898970AE6AABB0AE6AB830AE6AB820AE6AAB80AE6AAB30AE6AAAC0AE6AB9E0AE6AB910AE6AB9F0AE6AAAA0A
  E6AB9A0AE6ABAA0AE6ABBB0AE6AC850AE898960AE6ABBA0AE6AC920AE6AC960AE9ACB10AE6AC9F0AE6ACB80AE6ACB70A
  E79B9C0AE6ACB90AE9A3AE0AE6AD870AE6AD830AE6AD890AE6AD900AE6AD990AE6AD940AE6AD9B0AE6AD9F0AE6ADA10A
  E6ADB80AE6ADB90AE6ADBF0AE6AE800AE6AE840AE6AE830AE6AE8D0AE6AE980AE6AE950AE6AE9E0AE6AEA40AE6AEAA0A
  E6AEAB0AE6AEAF0AE6AEB20AE6AEB10AE6AEB30AE6AEB70AE6AEBC0AE6AF860AE6AF8B0AE6AF930AE6AF9F0AE6AFAC0A
  E6AFAB0AE6AFB30AE6AFAF0AE9BABE0AE6B0880AE6B0930AE6B0940AE6B09B0AE6B0A40AE6B0A30AE6B19E0AE6B1950A
  E6B1A20AE6B1AA0AE6B2820AE6B28D0AE6B29A0AE6B2810AE6B29B0AE6B1BE0AE6B1A80AE6B1B30AE6B2920AE6B2900A
  E6B3840AE6B3B10AE6B3930AE6B2BD0AE6B3970AE6B3850AE6B39D0AE6B2AE0AE6B2B10AE6B2BE0AE6B2BA0AE6B39B0A
  E6B3AF0AE6B3990AE6B3AA0AE6B49F0AE8A18D0AE6B4B60AE6B4AB0AE6B4BD0AE6B4B80AE6B4990AE6B4B50AE6B4B30A
  E6B4920AE6B48C0AE6B5A30AE6B6930AE6B5A40AE6B59A0AE6B5B90AE6B5990AE6B68E0AE6B6950AE6BFA40AE6B6850A
  E6B7B90AE6B8950AE6B88A0AE6B6B50AE6B7870AE6B7A60AE6B6B80AE6B7860AE6B7AC0AE6B79E0AE6B78C0AE6B7A80A
  E6B7920AE6B7850AE6B7BA0AE6B7990AE6B7A40AE6B7950AE6B7AA0AE6B7AE0AE6B8AD0AE6B9AE0AE6B8AE0AE6B8990A
  E6B9B20AE6B99F0AE6B8BE0AE6B8A30AE6B9AB0AE6B8AB0AE6B9B60AE6B98D0AE6B89F0AE6B9830AE6B8BA0AE6B98E0A
  E6B8A40AE6BBBF0AE6B89D0AE6B8B80AE6BA820AE6BAAA0AE6BA980AE6BB890AE6BAB70AE6BB930AE6BABD0AE6BAAF0A
  E6BB840AE6BAB20AE6BB940AE6BB950AE6BA8F0AE6BAA50AE6BB820AE6BA9F0AE6BD810AE6BC910AE7818C0AE6BBAC0A
  E6BBB80AE6BBBE0AE6BCBF0AE6BBB20AE6BCB10AE6BBAF0AE6BCB20AE6BB8C0A"

/-- tests/test_data/whatwg/shiftjis_whatwg_test_encode_in.txt, part 31 -/
noncomputable def encodeIn30 : List Nat := hex! "E6AA970AE898970AE6AABB0AE6AB830AE6AB820AE6AAB80AE6AAB30AE6AAAC0AE6AB9E0AE6AB910AE6AB9F0AE6AAAA0A
  E6AB9A0AE6ABAA0AE6ABBB0AE6AC850AE898960AE6ABBA0AE6AC920AE6AC960AE9ACB10AE6AC9F0AE6ACB80AE6ACB70A
  E79B9C0AE6ACB90AE9A3AE0AE6AD870AE6AD830AE6AD890AE6AD900AE6AD990AE6AD940AE6AD9B0AE6AD9F0AE6ADA10A
  E6ADB80AE6ADB90AE6ADBF0AE6AE800AE6AE840AE6AE830AE6AE8D0AE6AE980AE6AE950AE6AE9E0AE6AEA40AE6AEAA0A
  E6AEAB0AE6AEAF0AE6AEB20AE6AEB10AE6AEB30AE6AEB70AE6AEBC0AE6AF860AE6AF8B0AE6AF930AE6AF9F0AE6AFAC0A
  E6AFAB0AE6AFB30AE6AFAF0AE9BABE0AE6B0880AE6B0930AE6B0940AE6B09B0AE6B0A40AE6B0A30AE6B19E0AE6B1950A
  E6B1A20AE6B1AA0AE6B2820AE6B28D0AE6B29A0AE6B2810AE6B29B0AE6B1BE0AE6B1A80AE6B1B30AE6B2920AE6B2900A
  E6B3840AE6B3B10AE6B3930AE6B2BD0AE6B3970AE6B3850AE6B39D0AE6B2AE0AE6B2B10AE6B2BE0AE6B2BA0AE6B39B0A
  E6B3AF0AE6B3990AE6B3AA0AE6B49F0AE8A18D0AE6B4B60AE6B4AB0AE6B4BD0AE6B4B80AE6B4990AE6B4B50AE6B4B30A
  E6B4920AE6B48C0AE6B5A30AE6B6930AE6B5A40AE6B59A0AE6B5B90AE6B5990AE6B68E0AE6B6950AE6BFA40AE6B6850A
  E6B7B90AE6B8950AE6B88A0AE6B6B50AE6B7870AE6B7A60AE6B6B80AE6B7860AE6B7AC0AE6B79E0AE6B78C0AE6B7A80A
  E6B7920AE6B7850AE6B7BA0AE6B7990AE6B7A40AE6B7950AE6B7AA0AE6B7AE0AE6B8AD0AE6B9AE0AE6B8AE0AE6B8990A
  E6B9B20AE6B99F0AE6B8BE0AE6B8A30AE6B9AB0AE6B8AB0AE6B9B60AE6B98D0AE6B89F0AE6B9830AE6B8BA0AE6B98E0A
  E6B8A40AE6BBBF0AE6B89D0AE6B8B80AE6BA820AE6BAAA0AE6BA980AE6BB890AE6BAB70AE6BB930AE6BABD0AE6BAAF0A
  E6BB840AE6BAB20AE6BB940AE6BB950AE6BA8F0AE6BAA50AE6BB820AE6BA9F0AE6BD810AE6BC910AE7818C0AE6BBAC0A
  E6BBB80AE6BBBE0AE6BCBF0AE6BBB20AE6BCB10AE6BBAF0AE6BCB20AE6BB8C0A"

/-- tests/test_data/whatwg/shiftjis_whatwg_test_encode_out.txt, part 31 -/
noncomputable def encodeOut30 : List Nat := hex! "9F400A9F410A9F420A9F430A9F440A9F450A9F460A9F470A9F480A9F490A9F4A0A9F4B0A9F4C0A9F4D0A9F4E0A9F4F0A
  9F500A9F510A9F520A9F530A9F540A9F550A9F560A9F570A9F580A9F590A9F5A0A9F5B0A9F5C0A9F5D0A9F5E0A9F5F0A
  9F600A9F610A9F620A9F630A9F640A9F650A9F660A9F670A9F680A9F690A9F6A0A9F6B0A9F6C0A9F6D0A9F6E0A9F6F0A
  9F700A9F710A9F720A9F730A9F740A9F750A9F760A9F770A9F780A9F790A9F7A0A9F7B0A9F7C0A9F7D0A9F7E0A9F800A
  9F810A9F820A9F830A9F840A9F850A9F860A9F870A9F880A9F890A9F8A0A9F8B0A9F8C0A9F8D0A9F8E0A9F8F0A9F900A
  9F910A9F920A9F930A9F940A9F950A9F960A9F970A9F980A9F990A9F9A0A9F9B0A9F9C0A9F9D0A9F9E0A9F9F0A9FA00A
  9FA10A9FA20A9FA30A9FA40A9FA50A9FA60A9FA70A9FA80A9FA90A9FAA0A9FAB0A9FAC0A9FAD0A9FAE0A9FAF0A9FB00A
  9FB10A9FB20A9FB30A9FB40A9FB50A9FB60A9FB70A9FB80A9FB90A9FBA0A9FBB0A9FBC0A9FBD0A9FBE0A9FBF0A9FC00A
  9FC10A9FC20A9FC30A9FC40A9FC50A9FC60A9FC70A9FC80A9FC90A9FCA0A9FCB0A9FCC0A9FCD0A9FCE0A9FCF0A9FD00A
  9FD10A9FD20A9FD30A9FD40A9FD50A9FD60A9FD70A9FD80A9FD90A9FDA0A9FDB0A9FDC0A9FDD0A9FDE0A9FDF0A9FE00A
  9FE10A9FE20A9FE30A9FE40A9FE50A9FE60A9FE70A9FE80A9FE90A9FEA0A9FEB0A9FEC0A9FED0A9FEE0A9FEF0A9FF00A
  9FF10A9FF20A9FF30A9FF40A9FF50A9FF60A9FF70A9FF80A9FF90A9FFA0A9FFB0A9FFC0A"

/-- tests/test_data/whatwg/shiftjis_whatwg_test_decode_in.txt, part 32 -/
noncomputable def decodeIn31 : List Nat := hex! "E0400AE0410AE0420AE0430AE0440AE0450AE0460AE0470AE0480AE0490AE04A0AE04B0AE04C0AE04D0AE04E0AE04F0A
  E0500AE0510AE0520AE0530AE0540AE0550AE0560AE0570AE0580AE0590AE05A0AE05B0AE05C0AE05D0AE05E0AE05F0A
  E0600AE0610AE0620AE0630AE0640AE0650AE0660AE0670AE0680AE0690AE06A0AE06B0AE06C0AE06D0AE06E0AE06F0A
  E0700AE0710AE0720AE0730AE0740AE0750AE0760AE0770AE0780AE0790AE07A0AE07B0AE07C0AE07D0AE07E0AE0800A
  E0810AE0820AE0830AE0840AE0850AE0860AE0870AE0880AE0890AE08A0AE08B0AE08C0AE08D0AE08E0AE08F0AE0900A
  E0910AE0920AE0930AE0940AE0950AE0960AE0970AE0980AE0990AE09A0AE09B0AE09C0AE09D0AE09E0AE09F0AE0A00A
  E0A10AE0A20AE0A30AE0A40AE0A50AE0A60AE0A70AE0A80AE0A90AE0AA0AE0AB0AE0AC0AE0AD0AE0AE0AE0AF0AE0B00A
  E0B10AE0B20AE0B30AE0B40AE0B50AE0B60AE0B70AE0B80AE0B90AE0BA0AE0BB0AE0BC0AE0BD0AE0BE0AE0BF0AE0C00A
  E0C10AE0C20AE0C30AE0C40AE0C50AE0C60AE0C70AE0C80AE0C90AE0CA0AE0CB0AE0CC0AE0CD0AE0CE0AE0CF0AE0D00A
  E0D10AE0D20AE0D30AE0D40AE0D50AE0D60AE0D70AE0D80AE0D90AE0DA0AE0DB0AE0DC0AE0DD0AE0DE0AE0DF0AE0E00A
  E0E10AE0E20AE0E30AE0E40AE0E50AE0E60AE0E70AE0E80AE0E90AE0EA0AE0EB0AE0EC0AE0ED0AE0EE0AE0EF0AE0F00A
  E0F10AE0F20AE0F30AE0F40AE0F50AE0F60AE0F70AE0F80AE0F90AE0FA0AE0FB0AE0FC0A"

/-- tests/test_data/whatwg/shiftjis_whatwg_test_decode_out.txt, part 32 -/
noncomputable def decodeOut31 : List Nat := hex! "E6BCBE0AE6BC930AE6BBB70AE6BE860AE6BDBA0AE6BDB80AE6BE810AE6BE800AE6BDAF0AE6BD9B0AE6BFB30AE6BDAD0A
  E6BE820AE6BDBC0AE6BD980AE6BE8E0AE6BE910AE6BF820AE6BDA60AE6BEB30AE6BEA30AE6BEA10AE6BEA40AE6BEB90A
  E6BF860AE6BEAA0AE6BF9F0AE6BF950AE6BFAC0AE6BF940AE6BF980AE6BFB10AE6BFAE0AE6BF9B0AE780890AE7808B0A
  E6BFBA0AE780910AE780810AE7808F0AE6BFBE0AE7809B0AE7809A0AE6BDB40AE7809D0AE780980AE7809F0AE780B00A
  E780BE0AE780B20AE781910AE781A30AE782990AE782920AE782AF0AE783B10AE782AC0AE782B80AE782B30AE782AE0A
  E7839F0AE7838B0AE7839D0AE783990AE784890AE783BD0AE7849C0AE784990AE785A50AE785950AE786880AE785A60A
  E785A20AE7858C0AE785960AE785AC0AE7868F0AE787BB0AE786840AE786950AE786A80AE786AC0AE787970AE786B90A
  E786BE0AE787920AE787890AE787940AE7878E0AE787A00AE787AC0AE787A70AE787B50AE787BC0AE787B90AE787BF0A
  E7888D0AE788900AE7889B0AE788A80AE788AD0AE788AC0AE788B00AE788B20AE788BB0AE788BC0AE788BF0AE789800A
  E789860AE7898B0AE789980AE789B40AE789BE0AE78A820AE78A810AE78A870AE78A920AE78A960AE78AA20AE78AA70A
  E78AB90AE78AB20AE78B830AE78B860AE78B840AE78B8E0AE78B920AE78BA20AE78BA00AE78BA10AE78BB90AE78BB70A
  E5808F0AE78C970AE78C8A0AE78C9C0AE78C960AE78C9D0AE78CB40AE78CAF0AE78CA90AE78CA50AE78CBE0AE78D8E0A
  E78D8F0AE9BB980AE78D970AE78DAA0AE78DA80AE78DB00AE78DB80AE78DB50AE78DBB0AE78DBA0AE78F880AE78EB30A
  E78F8E0AE78EBB0AE78F800AE78FA50AE78FAE0AE78F9E0AE792A20AE790850AE791AF0AE790A50AE78FB80AE790B20A
  E790BA0AE791950AE790BF0AE7919F0AE791990AE791810AE7919C0AE791A90AE791B00AE791A30AE791AA0AE791B60A
  E791BE0AE7928B0AE7929E0AE792A70AE7938A0AE7938F0AE793940AE78FB10A"

/-- tests/test_data/whatwg/shiftjis_whatwg_test_encode_in.txt, part 32 -/
noncomputable def encodeIn31 : List Nat := hex! "E6BCBE0AE6BC930AE6BBB70AE6BE860AE6BDBA0AE6BDB80AE6BE810AE6BE800AE6BDAF0AE6BD9B0AE6BFB30AE6BDAD0A
  E6BE820AE6BDBC0AE6BD980AE6BE8E0AE6BE910AE6BF820AE6BDA60AE6BEB30AE6BEA30AE6BEA10AE6BEA40AE6BEB90A
  E6BF860AE6BEAA0AE6BF9F0AE6BF950AE6BFAC0AE6BF940AE6BF980AE6BFB10AE6BFAE0AE6BF9B0AE780890AE7808B0A
  E6BFBA0AE780910AE780810AE7808F0AE6BFBE0AE7809B0AE7809A0AE6BDB40AE7809D0AE780980AE7809F0AE780B00A
  E780BE0AE780B20AE781910AE781A30AE782990AE782920AE782AF0AE783B10AE782AC0AE782B80AE782B30AE782AE0A
  E7839F0AE7838B0AE7839D0AE783990AE784890AE783BD0AE7849C0AE784990AE785A50AE785950AE786880AE785A60A
  E785A20AE7858C0AE785960AE785AC0AE7868F0AE787BB0AE786840AE786950AE786A80AE786AC0AE787970AE786B90A
  E786BE0AE787920AE787890AE787940AE7878E0AE787A00AE787AC0AE787A70AE787B50AE787BC0AE787B90AE787BF0A
  E7888D0AE788900AE7889B0AE788A80AE788AD0AE788AC0AE788B00AE788B20AE788BB0AE788BC0AE788BF0AE789800A
  E789860AE7898B0AE789980AE789B40AE789BE0AE78A820AE78A810AE78A870AE78A920AE78A960AE78AA20AE78AA70A
  E78AB90AE78AB20AE78B830AE78B860AE78B840AE78B8E0AE78B920AE78BA20AE78BA00AE78BA10AE78BB90AE78BB70A
  E5808F0AE78C970AE78C8A0AE78C9C0AE78C960AE78C9D0AE78CB40AE78CAF0AE78CA90AE78CA50AE78CBE0AE78D8E0A
  E78D8F0AE9BB980AE78D970AE78DAA0AE78DA80AE78DB00AE78DB80AE78DB50AE78DBB0AE78DBA0AE78F880AE78EB30A
  E78F8E0AE78EBB0AE78F800AE78FA50AE78FAE0AE78F9E0AE792A20AE790850AE791AF0AE790A50AE78FB80AE790B20A
  E790BA0AE791950AE790BF0AE7919F0AE791990AE791810AE7919C0AE791A90AE791B00AE791A30AE791AA0AE791B60A
  E791BE0AE7928B0AE7929E0AE792A70AE7938A0AE7938F0AE793940AE78FB10A"

/-- tests/test_data/whatwg/shiftjis_whatwg_test_encode_out.txt, part 32 -/
noncomputable def encodeOut31 : List Nat := hex! "E0400AE0410AE0420AE0430AE0440AE0450AE0460AE0470AE0480AE0490AE04A0AE04B0AE04C0AE04D0AE04E0AE04F0A
  E0500AE0510AE0520AE0530AE0540AE0550AE0560AE0570AE0580AE0590AE05A0AE05B0AE05C0AE05D0AE05E0AE05F0A
  E0600AE0610AE0620AE0630AE0640AE0650AE0660AE0670AE0680AE0690AE06A0AE06B0AE06C0AE06D0AE06E0AE06F0A
  E0700AE0710AE0720AE0730AE0740AE0750AE0760AE0770AE0780AE0790AE07A0AE07B0AE07C0AE07D0AE07E0AE0800A
  E0810AE0820AE0830AE0840AE0850AE0860AE0870AE0880AE0890AE08A0AE08B0AE08C0AE08D0AE08E0AE08F0AE0900A
  E0910AE0920AE0930AE0940AE0950AE0960AE0970AE0980AE0990AE09A0AE09B0AE09C0AE09D0AE09E0AE09F0AE0A00A
  E0A10AE0A20AE0A30AE0A40AE0A50AE0A60AE0A70AE0A80AE0A90AE0AA0AE0AB0AE0AC0AE0AD0AE0AE0AE0AF0AE0B00A
  E0B10AE0B20AE0B30AE0B40AE0B50AE0B60AE0B70AE0B80AE0B90AE0BA0AE0BB0AE0BC0AE0BD0AE0BE0AE0BF0AE0C00A
  E0C10AE0C20AE0C30AE0C40AE0C50AE0C60AE0C70AE0C80AE0C90AE0CA0AE0CB0AE0CC0AE0CD0AE0CE0AE0CF0AE0D00A
  E0D10AE0D20AE0D30AE0D40AE0D50AE0D60AE0D70AE0D80AE0D90AE0DA0AE0DB0AE0DC0AE0DD0AE0DE0AE0DF0AE0E00A
  E0E10AE0E20AE0E30AE0E40AE0E50AE0E60AE0E70AE0E80AE0E90AE0EA0AE0EB0AE0EC0AE0ED0AE0EE0AE0EF0AE0F00A
  E0F10AE0F20AE0F30AE0F40AE0F50AE0F60AE0F70AE0F80AE0F90AE0FA0AE0FB0AE0FC0A"

/-- tests/test_data/whatwg/shiftjis_whatwg_test_decode_in.txt, part 33 -/
noncomputable def decodeIn32 : List Nat := hex! "E1400AE1410AE1420AE1430AE1440AE1450AE1460AE1470AE1480AE1490AE14A0AE14B0AE14C0AE14D0AE14E0AE14F0A
  E1500AE1510AE1520AE1530AE1540AE1550AE1560AE1570AE1580AE1590AE15A0AE15B0AE15C0AE15D0AE15E0AE15F0A
  E1600AE1610AE1620AE1630AE1640AE1650AE1660AE1670AE1680AE1690AE16A0AE16B0AE16C0AE16D0AE16E0AE16F0A
  E1700AE1710AE1720AE1730AE1740AE1750AE1760AE1770AE1780AE1790AE17A0AE17B0AE17C0AE17D0AE17E0AE1800A
  E1810AE1820AE1830AE1840AE1850AE1860AE1870AE1880AE1890AE18A0AE18B0AE18C0AE18D0AE18E0AE18F0AE1900A
  E1910AE1920AE1930AE1940AE1950AE1960AE1970AE1980AE1990AE19A0AE19B0AE19C0AE19D0AE19E0AE19F0AE1A00A
  E1A10AE1A20AE1A30AE1A40AE1A50AE1A60AE1A70AE1A80AE1A90AE1AA0AE1AB0AE1AC0AE1AD0AE1AE0AE1AF0AE1B00A
  E1B10AE1B20AE1B30AE1B40AE1B50AE1B60AE1B70AE1B80AE1B90AE1BA0AE1BB0AE1BC0AE1BD0AE1BE0AE1BF0AE1C00A
  E1C10AE1C20AE1C30AE1C40AE1C50AE1C60AE1C70AE1C80AE1C90AE1CA0AE1CB0AE1CC0AE1CD0AE1CE0AE1CF0AE1D00A
  E1D10AE1D20AE1D30AE1D40AE1D50AE1D60AE1D70AE1D80AE1D90AE1DA0AE1DB0AE1DC0AE1DD0AE1DE0AE1DF0AE1E00A
  E1E10AE1E20AE1E30AE1E40AE1E50AE1E60AE1E70AE1E80AE1E90AE1EA0AE1EB0AE1EC0AE1ED0AE1EE0AE1EF0AE1F00A
  E1F10AE1F20AE1F30AE1F40AE1F50AE1F60AE1F70AE1F80AE1F90AE1FA0AE1FB0AE1FC0A"

/-- tests/test_data/whatwg/shiftjis_whatwg_test_decode_out.txt, part 33 -/
noncomputable def decodeOut32 : List Nat := hex! "E793A00AE793A30AE793A70AE793A90AE793AE0AE793B20AE793B00AE793B10AE793B80AE793B70AE794840AE794830A
  E794850AE7948C0AE7948E0AE7948D0AE794950AE794930AE7949E0AE794A60AE794AC0AE794BC0AE795840AE7958D0A
  E7958A0AE795890AE7959B0AE795860AE7959A0AE795A90AE795A40AE795A70AE795AB0AE795AD0AE795B80AE795B60A
  E796860AE796870AE795B40AE7968A0AE796890AE796820AE796940AE7969A0AE7969D0AE796A50AE796A30AE797820A
  E796B30AE797830AE796B50AE796BD0AE796B80AE796BC0AE796B10AE7978D0AE7978A0AE797920AE797990AE797A30A
  E7979E0AE797BE0AE797BF0AE797BC0AE798810AE797B00AE797BA0AE797B20AE797B30AE7988B0AE7988D0AE798890A
  E7989F0AE798A70AE798A00AE798A10AE798A20AE798A40AE798B40AE798B00AE798BB0AE799870AE799880AE799860A
  E7999C0AE799980AE799A10AE799A20AE799A80AE799A90AE799AA0AE799A70AE799AC0AE799B00AE799B20AE799B60A
  E799B80AE799BC0AE79A800AE79A830AE79A880AE79A8B0AE79A8E0AE79A960AE79A930AE79A990AE79A9A0AE79AB00A
  E79AB40AE79AB80AE79AB90AE79ABA0AE79B820AE79B8D0AE79B960AE79B920AE79B9E0AE79BA10AE79BA50AE79BA70A
  E79BAA0AE898AF0AE79BBB0AE79C880AE79C870AE79C840AE79CA90AE79CA40AE79C9E0AE79CA50AE79CA60AE79C9B0A
  E79CB70AE79CB80AE79D870AE79D9A0AE79DA80AE79DAB0AE79D9B0AE79DA50AE79DBF0AE79DBE0AE79DB90AE79E8E0A
  E79E8B0AE79E910AE79EA00AE79E9E0AE79EB00AE79EB60AE79EB90AE79EBF0AE79EBC0AE79EBD0AE79EBB0AE79F870A
  E79F8D0AE79F970AE79F9A0AE79F9C0AE79FA30AE79FAE0AE79FBC0AE7A08C0AE7A0920AE7A4A60AE7A0A00AE7A4AA0A
  E7A1850AE7A28E0AE7A1B40AE7A2860AE7A1BC0AE7A29A0AE7A28C0AE7A2A30AE7A2B50AE7A2AA0AE7A2AF0AE7A3910A
  E7A3860AE7A38B0AE7A3940AE7A2BE0AE7A2BC0AE7A3850AE7A38A0AE7A3AC0A"

/-- tests/test_data/whatwg/shiftjis_whatwg_test_encode_in.txt, part 33 -/
noncomputable def encodeIn32 : List Nat := hex! "E793A00AE793A30AE793A70AE793A90AE793AE0AE793B20AE793B00AE793B10AE793B80AE793B70AE794840AE794830A
  E794850AE7948C0AE7948E0AE7948D0AE794950AE794930AE7949E0AE794A60AE794AC0AE794BC0AE795840AE7958D0A
  E7958A0AE795890AE7959B0AE795860AE7959A0AE795A90AE795A40AE795A70AE795AB0AE795AD0AE795B80AE795B60A
  E796860AE796870AE795B40AE7968A0AE796890AE796820AE796940AE7969A0AE7969D0AE796A50AE796A30AE797820A
  E796B30AE797830AE796B50AE796BD0AE796B80AE796BC0AE796B10AE7978D0AE7978A0AE797920AE797990AE797A30A
  E7979E0AE797BE0AE797BF0AE797BC0AE798810AE797B00AE797BA0AE797B20AE797B30AE7988B0AE7988D0AE798890A
  E7989F0AE798A70AE798A00AE798A10AE798A20AE798A40AE798B40AE798B00AE798BB0AE799870AE799880AE799860A
  E7999C0AE799980AE799A10AE799A20AE799A80AE799A90AE799AA0AE799A70AE799AC0AE799B00AE799B20AE799B60A
  E799B80AE799BC0AE79A800AE79A830AE79A880AE79A8B0AE79A8E0AE79A960AE79A930AE79A990AE79A9A0AE79AB00A
  E79AB40AE79AB80AE79AB90AE79ABA0AE79B820AE79B8D0AE79B960AE79B920AE79B9E0AE79BA10AE79BA50AE79BA70A
  E79BAA0AE898AF0AE79BBB0AE79C880AE79C870AE79C840AE79CA90AE79CA40AE79C9E0AE79CA50AE79CA60AE79C9B0A
  E79CB70AE79CB80AE79D870AE79D9A0AE79DA80AE79DAB0AE79D9B0AE79DA50AE79DBF0AE79DBE0AE79DB90AE79E8E0A
  E79E8B0AE79E910AE79EA00AE79E9E0AE79EB00AE79EB60AE79EB90AE79EBF0AE79EBC0AE79EBD0AE79EBB0AE79F870A
  E79F8D0AE79F970AE79F9A0AE79F9C0AE79FA30AE79FAE0AE79FBC0AE7A08C0AE7A0920AE7A4A60AE7A0A00AE7A4AA0A
  E7A1850AE7A28E0AE7A1B40AE7A2860AE7A1BC0AE7A29A0AE7A28C0AE7A2A30AE7A2B50AE7A2AA0AE7A2AF0AE7A3910A
  E7A3860AE7A38B0AE7A3940AE7A2BE0AE7A2BC0AE7A3850AE7A38A0AE7A3AC0A"

/-- tests/test_data/whatwg/shiftjis_whatwg_test_encode_out.txt, part 33 -/
noncomputable def encodeOut32 : List Nat := hex! "E1400AE1410AE1420AE1430AE1440AE1450AE1460AE1470AE1480AE1490AE14A0AE14B0AE14C0AE14D0AE14E0AE14F0A
  E1500AE1510AE1520AE1530AE1540AE1550AE1560AE1570AE1580AE1590AE15A0AE15B0AE15C0AE15D0AE15E0AE15F0A
  E1600AE1610AE1620AE1630AE1640AE1650AE1660AE1670AE1680AE1690AE16A0AE16B0AE16C0AE16D0AE16E0AE16F0A
  E1700AE1710AE1720AE1730AE1740AE1750AE1760AE1770AE1780AE1790AE17A0AE17B0AE17C0AE17D0AE17E0AE1800A
  E1810AE1820AE1830AE1840AE1850AE1860AE1870AE1880AE1890AE18A0AE18B0AE18C0AE18D0AE18E0AE18F0AE1900A
  E1910AE1920AE1930AE1940AE1950AE1960AE1970AE1980AE1990AE19A0AE19B0AE19C0AE19D0AE19E0AE19F0AE1A00A
  E1A10AE1A20AE1A30AE1A40AE1A50AE1A60AE1A70AE1A80AE1A90AE1AA0AE1AB0AE1AC0AE1AD0AE1AE0AE1AF0AE1B00A
  E1B10AE1B20AE1B30AE1B40AE1B50AE1B60AE1B70AE1B80AE1B90AE1BA0AE1BB0AE1BC0AE1BD0AE1BE0AE1BF0AE1C00A
  E1C10AE1C20AE1C30AE1C40AE1C50AE1C60AE1C70AE1C80AE1C90AE1CA0AE1CB0AE1CC0AE1CD0AE1CE0AE1CF0AE1D00A
  E1D10AE1D20AE1D30AE1D40AE1D50AE1D60AE1D70AE1D80AE1D90AE1DA0AE1DB0AE1DC0AE1DD0AE1DE0AE1DF0AE1E00A
  E1E10AE1E20AE1E30AE1E40AE1E50AE1E60AE1E70AE1E80AE1E90AE1EA0AE1EB0AE1EC0AE1ED0AE1EE0AE1EF0AE1F00A
  E1F10AE1F20AE1F30AE1F40AE1F50AE1F60AE1F70AE1F80AE1F90AE1FA0AE1FB0AE1FC0A"

/-- tests/test_data/whatwg/shiftjis_whatwg_test_decode_in.txt, part 34 -/
noncomputable def decodeIn33 : List Nat := hex! "E2400AE2410AE2420AE2430AE2440AE2450AE2460AE2470AE2480AE2490AE24A0AE24B0AE24C0AE24D0AE24E0AE24F0A
  E2500AE2510AE2520AE2530AE2540AE2550AE2560AE2570AE2580AE2590AE25A0AE25B0AE25C0AE25D0AE25E0AE25F0A
  E2600AE2610AE2620AE2630AE2640AE2650AE2660AE2670AE2680AE2690AE26A0AE26B0AE26C0AE26D0AE26E0AE26F0A
  E2700AE2710AE2720AE2730AE2740AE2750AE2760AE2770AE2780AE2790AE27A0AE27B0AE27C0AE27D0AE27E0AE2800A
  E2810AE2820AE2830AE2840AE2850AE2860AE2870AE2880AE2890AE28A0AE28B0AE28C0AE28D0AE28E0AE28F0AE2900A
  E2910AE2920AE2930AE2940AE2950AE2960AE2970AE2980AE2990AE29A0AE29B0AE29C0AE29D0AE29E0AE29F0AE2A00A
  E2A10AE2A20AE2A30AE2A40AE2A50AE2A60AE2A70AE2A80AE2A90AE2AA0AE2AB0AE2AC0AE2AD0AE2AE0AE2AF0AE2B00A
  E2B10AE2B20AE2B30AE2B40AE2B50AE2B60AE2B70AE2B80AE2B90AE2BA0AE2BB0AE2BC0AE2BD0AE2BE0AE2BF0AE2C00A
  E2C10AE2C20AE2C30AE2C40AE2C50AE2C60AE2C70AE2C80AE2C90AE2CA0AE2CB0AE2CC0AE2CD0AE2CE0AE2CF0AE2D00A
  E2D10AE2D20AE2D30AE2D40AE2D50AE2D60AE2D70AE2D80AE2D90AE2DA0AE2DB0AE2DC0AE2DD0AE2DE0AE2DF0AE2E00A
  E2E10AE2E20AE2E30AE2E40AE2E50AE2E60AE2E70AE2E80AE2E90AE2EA0AE2EB0AE2EC0AE2ED0AE2EE0AE2EF0AE2F00A
  E2F10AE2F20AE2F30AE2F40AE2F50AE2F60AE2F70AE2F80AE2F90AE2FA0AE2FB0AE2FC0A"

/-- tests/test_data/whatwg/shiftjis_whatwg_test_decode_out.txt, part 34 -/
noncomputable def decodeOut33 : List Nat := hex! "E7A3A70AE7A39A0AE7A3BD0AE7A3B40AE7A4870AE7A4920AE7A4910AE7A4990AE7A4AC0AE7A4AB0AE7A5800AE7A5A00A
  E7A5970AE7A59F0AE7A59A0AE7A5950AE7A5930AE7A5BA0AE7A5BF0AE7A68A0AE7A69D0AE7A6A70AE9BD8B0AE7A6AA0A
  E7A6AE0AE7A6B30AE7A6B90AE7A6BA0AE7A7890AE7A7950AE7A7A70AE7A7AC0AE7A7A10AE7A7A30AE7A8880AE7A88D0A
  E7A8980AE7A8990AE7A8A00AE7A89F0AE7A6800AE7A8B10AE7A8BB0AE7A8BE0AE7A8B70AE7A9830AE7A9970AE7A9890A
  E7A9A10AE7A9A20AE7A9A90AE9BE9D0AE7A9B00AE7A9B90AE7A9BD0AE7AA880AE7AA970AE7AA950AE7AA980AE7AA960A
  E7AAA90AE7AB880AE7AAB00AE7AAB60AE7AB850AE7AB840AE7AABF0AE982830AE7AB870AE7AB8A0AE7AB8D0AE7AB8F0A
  E7AB950AE7AB930AE7AB990AE7AB9A0AE7AB9D0AE7ABA10AE7ABA20AE7ABA60AE7ABAD0AE7ABB00AE7AC820AE7AC8F0A
  E7AC8A0AE7AC860AE7ACB30AE7AC980AE7AC990AE7AC9E0AE7ACB50AE7ACA80AE7ACB60AE7AD900AE7ADBA0AE7AC840A
  E7AD8D0AE7AC8B0AE7AD8C0AE7AD850AE7ADB50AE7ADA50AE7ADB40AE7ADA70AE7ADB00AE7ADB10AE7ADAC0AE7ADAE0A
  E7AE9D0AE7AE980AE7AE9F0AE7AE8D0AE7AE9C0AE7AE9A0AE7AE8B0AE7AE920AE7AE8F0AE7AD9D0AE7AE990AE7AF8B0A
  E7AF810AE7AF8C0AE7AF8F0AE7AEB40AE7AF860AE7AF9D0AE7AFA90AE7B0910AE7B0940AE7AFA60AE7AFA50AE7B1A00A
  E7B0800AE7B0870AE7B0930AE7AFB30AE7AFB70AE7B0970AE7B08D0AE7AFB60AE7B0A30AE7B0A70AE7B0AA0AE7B09F0A
  E7B0B70AE7B0AB0AE7B0BD0AE7B18C0AE7B1830AE7B1940AE7B18F0AE7B1800AE7B1900AE7B1980AE7B19F0AE7B1A40A
  E7B1960AE7B1A50AE7B1AC0AE7B1B50AE7B2830AE7B2900AE7B2A40AE7B2AD0AE7B2A20AE7B2AB0AE7B2A10AE7B2A80A
  E7B2B30AE7B2B20AE7B2B10AE7B2AE0AE7B2B90AE7B2BD0AE7B3800AE7B3850AE7B3820AE7B3980AE7B3920AE7B39C0A
  E7B3A20AE9ACBB0AE7B3AF0AE7B3B20AE7B3B40AE7B3B60AE7B3BA0AE7B4860A"

/-- tests/test_data/whatwg/shiftjis_whatwg_test_encode_in.txt, part 34 -/
noncomputable def encodeIn33 : List Nat := hex! "E7A3A70AE7A39A0AE7A3BD0AE7A3B40AE7A4870AE7A4920AE7A4910AE7A4990AE7A4AC0AE7A4AB0AE7A5800AE7A5A00A
  E7A5970AE7A59F0AE7A59A0AE7A5950AE7A5930AE7A5BA0AE7A5BF0AE7A68A0AE7A69D0AE7A6A70AE9BD8B0AE7A6AA0A
  E7A6AE0AE7A6B30AE7A6B90AE7A6BA0AE7A7890AE7A7950AE7A7A70AE7A7AC0AE7A7A10AE7A7A30AE7A8880AE7A88D0A
  E7A8980AE7A8990AE7A8A00AE7A89F0AE7A6800AE7A8B10AE7A8BB0AE7A8BE0AE7A8B70AE7A9830AE7A9970AE7A9890A
  E7A9A10AE7A9A20AE7A9A90AE9BE9D0AE7A9B00AE7A9B90AE7A9BD0AE7AA880AE7AA970AE7AA950AE7AA980AE7AA960A
  E7AAA90AE7AB880AE7AAB00AE7AAB60AE7AB850AE7AB840AE7AABF0AE982830AE7AB870AE7AB8A0AE7AB8D0AE7AB8F0A
  E7AB950AE7AB930AE7AB990AE7AB9A0AE7AB9D0AE7ABA10AE7ABA20AE7ABA60AE7ABAD0AE7ABB00AE7AC820AE7AC8F0A
  E7AC8A0AE7AC860AE7ACB30AE7AC980AE7AC990AE7AC9E0AE7ACB50AE7ACA80AE7ACB60AE7AD900AE7ADBA0AE7AC840A
  E7AD8D0AE7AC8B0AE7AD8C0AE7AD850AE7ADB50AE7ADA50AE7ADB40AE7ADA70AE7ADB00AE7ADB10AE7ADAC0AE7ADAE0A
  E7AE9D0AE7AE980AE7AE9F0AE7AE8D0AE7AE9C0AE7AE9A0AE7AE8B0AE7AE920AE7AE8F0AE7AD9D0AE7AE990AE7AF8B0A
  E7AF810AE7AF8C0AE7AF8F0AE7AEB40AE7AF860AE7AF9D0AE7AFA90AE7B0910AE7B0940AE7AFA60AE7AFA50AE7B1A00A
  E7B0800AE7B0870AE7B0930AE7AFB30AE7AFB70AE7B0970AE7B08D0AE7AFB60AE7B0A30AE7B0A70AE7B0AA0AE7B09F0A
  E7B0B70AE7B0AB0AE7B0BD0AE7B18C0AE7B1830AE7B1940AE7B18F0AE7B1800AE7B1900AE7B1980AE7B19F0AE7B1A40A
  E7B1960AE7B1A50AE7B1AC0AE7B1B50AE7B2830AE7B2900AE7B2A40AE7B2AD0AE7B2A20AE7B2AB0AE7B2A10AE7B2A80A
  E7B2B30AE7B2B20AE7B2B10AE7B2AE0AE7B2B90AE7B2BD0AE7B3800AE7B3850AE7B3820AE7B3980AE7B3920AE7B39C0A
  E7B3A20AE9ACBB0AE7B3AF0AE7B3B20AE7B3B40AE7B3B60AE7B3BA0AE7B4860A"

/-- tests/test_data/whatwg/shiftjis_whatwg_test_encode_out.txt, part 34 -/
noncomputable def encodeOut33 : List Nat := hex! "E2400AE2410AE2420AE2430AE2440AE2450AE2460AE2470AE2480AE2490AE24A0AE24B0AE24C0AE24D0AE24E0AE24F0A
  E2500AE2510AE2520AE2530AE2540AE2550AE2560AE2570AE2580AE2590AE25A0AE25B0AE25C0AE25D0AE25E0AE25F0A
  E2600AE2610AE2620AE2630AE2640AE2650AE2660AE2670AE2680AE2690AE26A0AE26B0AE26C0AE26D0AE26E0AE26F0A
  E2700AE2710AE2720AE2730AE2740AE2750AE2760AE2770AE2780AE2790AE27A0AE27B0AE27C0AE27D0AE27E0AE2800A
  E2810AE2820AE2830AE2840AE2850AE2860AE2870AE2880AE2890AE28A0AE28B0AE28C0AE28D0AE28E0AE28F0AE2900A
  E2910AE2920AE2930AE2940AE2950AE2960AE2970AE2980AE2990AE29A0AE29B0AE29C0AE29D0AE29E0AE29F0AE2A00A
  E2A10AE2A20AE2A30AE2A40AE2A50AE2A60AE2A70AE2A80AE2A90AE2AA0AE2AB0AE2AC0AE2AD0AE2AE0AE2AF0AE2B00A
  E2B10AE2B20AE2B30AE2B40AE2B50AE2B60AE2B70AE2B80AE2B90AE2BA0AE2BB0AE2BC0AE2BD0AE2BE0AE2BF0AE2C00A
  E2C10AE2C20AE2C30AE2C40AE2C50AE2C60AE2C70AE2C80AE2C90AE2CA0AE2CB0AE2CC0AE2CD0AE2CE0AE2CF0AE2D00A
  E2D10AE2D20AE2D30AE2D40AE2D50AE2D60AE2D70AE2D80AE2D90AE2DA0AE2DB0AE2DC0AE2DD0AE2DE0AE2DF0AE2E00A
  E2E10AE2E20AE2E30AE2E40AE2E50AE2E60AE2E70AE2E80AE2E90AE2EA0AE2EB0AE2EC0AE2ED0AE2EE0AE2EF0AE2F00A
  E2F10AE2F20AE2F30AE2F40AE2F50AE2F60AE2F70AE2F80AE2F90AE2FA0AE2FB0AE2FC0A"

/-- tests/test_data/whatwg/shiftjis_whatwg_test_decode_in.txt, part 35 -/
noncomputable def decodeIn34 : List Nat := hex! "E3400AE3410AE3420AE3430AE3440AE3450AE3460AE3470AE3480AE3490AE34A0AE34B0AE34C0AE34D0AE34E0AE34F0A
  E3500AE3510AE3520AE3530AE3540AE3550AE3560AE3570AE3580AE3590AE35A0AE35B0AE35C0AE35D0AE35E0AE35F0A
  E3600AE3610AE3620AE3630AE3640AE3650AE3660AE3670AE3680AE3690AE36A0AE36B0AE36C0AE36D0AE36E0AE36F0A
  E3700AE3710AE3720AE3730AE3740AE3750AE3760AE3770AE3780AE3790AE37A0AE37B0AE37C0AE37D0AE37E0AE3800A
  E3810AE3820AE3830AE3840AE3850AE3860AE3870AE3880AE3890AE38A0AE38B0AE38C0AE38D0AE38E0AE38F0AE3900A
  E3910AE3920AE3930AE3940AE3950AE3960AE3970AE3980AE3990AE39A0AE39B0AE39C0AE39D0AE39E0AE39F0AE3A00A
  E3A10AE3A20AE3A30AE3A40AE3A50AE3A60AE3A70AE3A80AE3A90AE3AA0AE3AB0AE3AC0AE3AD0AE3AE0AE3AF0AE3B00A
  E3B10AE3B20AE3B30AE3B40AE3B50AE3B60AE3B70AE3B80AE3B90AE3BA0AE3BB0AE3BC0AE3BD0AE3BE0AE3BF0AE3C00A
  E3C10AE3C20AE3C30AE3C40AE3C50AE3C60AE3C70AE3C80AE3C90AE3CA0AE3CB0AE3CC0AE3CD0AE3CE0AE3CF0AE3D00A
  E3D10AE3D20AE3D30AE3D40AE3D50AE3D60AE3D70AE3D80AE3D90AE3DA0AE3DB0AE3DC0AE3DD0AE3DE0AE3DF0AE3E00A
  E3E10AE3E20AE3E30AE3E40AE3E50AE3E60AE3E70AE3E80AE3E90AE3EA0AE3EB0AE3EC0AE3ED0AE3EE0AE3EF0AE3F00A
  E3F10AE3F20AE3F30AE3F40AE3F50AE3F60AE3F70AE3F80AE3F90AE3FA0AE3FB0AE3FC0A"

/-- tests/test_data/whatwg/shiftjis_whatwg_test_decode_out.txt, part 35 -/
noncomputable def decodeOut34 : List Nat := hex! "E7B4820AE7B49C0AE7B4950AE7B48A0AE7B5850AE7B58B0AE7B4AE0AE7B4B20AE7B4BF0AE7B4B50AE7B5860AE7B5B30A
  E7B5960AE7B58E0AE7B5B20AE7B5A80AE7B5AE0AE7B58F0AE7B5A30AE7B6930AE7B6890AE7B59B0AE7B68F0AE7B5BD0A
  E7B69B0AE7B6BA0AE7B6AE0AE7B6A30AE7B6B50AE7B7870AE7B6BD0AE7B6AB0AE7B8BD0AE7B6A20AE7B6AF0AE7B79C0A
  E7B6B80AE7B69F0AE7B6B00AE7B7980AE7B79D0AE7B7A40AE7B79E0AE7B7BB0AE7B7B20AE7B7A10AE7B8850AE7B88A0A
  E7B8A30AE7B8A10AE7B8920AE7B8B10AE7B89F0AE7B8890AE7B88B0AE7B8A20AE7B9860AE7B9A60AE7B8BB0AE7B8B50A
  E7B8B90AE7B9830AE7B8B70AE7B8B20AE7B8BA0AE7B9A70AE7B99D0AE7B9960AE7B99E0AE7B9990AE7B99A0AE7B9B90A
  E7B9AA0AE7B9A90AE7B9BC0AE7B9BB0AE7BA830AE7B7950AE7B9BD0AE8BEAE0AE7B9BF0AE7BA880AE7BA890AE7BA8C0A
  E7BA920AE7BA900AE7BA930AE7BA940AE7BA960AE7BA8E0AE7BA9B0AE7BA9C0AE7BCB80AE7BCBA0AE7BD850AE7BD8C0A
  E7BD8D0AE7BD8E0AE7BD900AE7BD910AE7BD950AE7BD940AE7BD980AE7BD9F0AE7BDA00AE7BDA80AE7BDA90AE7BDA70A
  E7BDB80AE7BE820AE7BE860AE7BE830AE7BE880AE7BE870AE7BE8C0AE7BE940AE7BE9E0AE7BE9D0AE7BE9A0AE7BEA30A
  E7BEAF0AE7BEB20AE7BEB90AE7BEAE0AE7BEB60AE7BEB80AE8ADB10AE7BF850AE7BF860AE7BF8A0AE7BF950AE7BF940A
  E7BFA10AE7BFA60AE7BFA90AE7BFB30AE7BFB90AE9A39C0AE880860AE880840AE8808B0AE880920AE880980AE880990A
  E8809C0AE880A10AE880A80AE880BF0AE880BB0AE8818A0AE881860AE881920AE881980AE8819A0AE8819F0AE881A20A
  E881A80AE881B30AE881B20AE881B00AE881B60AE881B90AE881BD0AE881BF0AE882840AE882860AE882850AE8829B0A
  E882930AE8829A0AE882AD0AE586900AE882AC0AE8839B0AE883A50AE883990AE8839D0AE883840AE8839A0AE883960A
  E884890AE883AF0AE883B10AE8849B0AE884A90AE884A30AE884AF0AE8858B0A"

/-- tests/test_data/whatwg/shiftjis_whatwg_test_encode_in.txt, part 35 -/
noncomputable def encodeIn34 : List Nat := hex! "E7B4820AE7B49C0AE7B4950AE7B48A0AE7B5850AE7B58B0AE7B4AE0AE7B4B20AE7B4BF0AE7B4B50AE7B5860AE7B5B30A
  E7B5960AE7B58E0AE7B5B20AE7B5A80AE7B5AE0AE7B58F0AE7B5A30AE7B6930AE7B6890AE7B59B0AE7B68F0AE7B5BD0A
  E7B69B0AE7B6BA0AE7B6AE0AE7B6A30AE7B6B50AE7B7870AE7B6BD0AE7B6AB0AE7B8BD0AE7B6A20AE7B6AF0AE7B79C0A
  E7B6B80AE7B69F0AE7B6B00AE7B7980AE7B79D0AE7B7A40AE7B79E0AE7B7BB0AE7B7B20AE7B7A10AE7B8850AE7B88A0A
  E7B8A30AE7B8A10AE7B8920AE7B8B10AE7B89F0AE7B8890AE7B88B0AE7B8A20AE7B9860AE7B9A60AE7B8BB0AE7B8B50A
  E7B8B90AE7B9830AE7B8B70AE7B8B20AE7B8BA0AE7B9A70AE7B99D0AE7B9960AE7B99E0AE7B9990AE7B99A0AE7B9B90A
  E7B9AA0AE7B9A90AE7B9BC0AE7B9BB0AE7BA830AE7B7950AE7B9BD0AE8BEAE0AE7B9BF0AE7BA880AE7BA890AE7BA8C0A
  E7BA920AE7BA900AE7BA930AE7BA940AE7BA960AE7BA8E0AE7BA9B0AE7BA9C0AE7BCB80AE7BCBA0AE7BD850AE7BD8C0A
  E7BD8D0AE7BD8E0AE7BD900AE7BD910AE7BD950AE7BD940AE7BD980AE7BD9F0AE7BDA00AE7BDA80AE7BDA90AE7BDA70A
  E7BDB80AE7BE820AE7BE860AE7BE830AE7BE880AE7BE870AE7BE8C0AE7BE940AE7BE9E0AE7BE9D0AE7BE9A0AE7BEA30A
  E7BEAF0AE7BEB20AE7BEB90AE7BEAE0AE7BEB60AE7BEB80AE8ADB10AE7BF850AE7BF860AE7BF8A0AE7BF950AE7BF940A
  E7BFA10AE7BFA60AE7BFA90AE7BFB30AE7BFB90AE9A39C0AE880860AE880840AE8808B0AE880920AE880980AE880990A
  E8809C0AE880A10AE880A80AE880BF0AE880BB0AE8818A0AE881860AE881920AE881980AE8819A0AE8819F0AE881A20A
  E881A80AE881B30AE881B20AE881B00AE881B60AE881B90AE881BD0AE881BF0AE882840AE882860AE882850AE8829B0A
  E882930AE8829A0AE882AD0AE586900AE882AC0AE8839B0AE883A50AE883990AE8839D0AE883840AE8839A0AE883960A
  E884890AE883AF0AE883B10AE8849B0AE884A90AE884A30AE884AF0AE8858B0A"

/-- tests/test_data/whatwg/shiftjis_whatwg_test_encode_out.txt, part 35 -/
noncomputable def encodeOut34 : List Nat := hex! "E3400AE3410AE3420AE3430AE3440AE3450AE3460AE3470AE3480AE3490AE34A0AE34B0AE34C0AE34D0AE34E0AE34F0A
  E3500AE3510AE3520AE3530AE3540AE3550AE3560AE3570AE3580AE3590AE35A0AE35B0AE35C0AE35D0AE35E0AE35F0A
  E3600AE3610AE3620AE3630AE3640AE3650AE3660AE3670AE3680AE3690AE36A0AE36B0AE36C0AE36D0AE36E0AE36F0A
  E3700AE3710AE3720AE3730AE3740AE3750AE3760AE3770AE3780AE3790AE37A0AE37B0AE37C0AE37D0AE37E0AE3800A
  E3810AE3820AE3830AE3840AE3850AE3860AE3870AE3880AE3890AE38A0AE38B0AE38C0AE38D0AE38E0AE38F0AE3900A
  E3910AE3920AE3930AE3940AE3950AE3960AE3970AE3980AE3990AE39A0AE39B0AE39C0AE39D0AE39E0AE39F0AE3A00A
  E3A10AE3A20AE3A30AE3A40AE3A50AE3A60AE3A70AE3A80AE3A90AE3AA0AE3AB0AE3AC0AE3AD0AE3AE0AE3AF0AE3B00A
  E3B10AE3B20AE3B30AE3B40AE3B50AE3B60AE3B70AE3B80AE3B90AE3BA0AE3BB0AE3BC0AE3BD0AE3BE0AE3BF0AE3C00A
  E3C10AE3C20AE3C30AE3C40AE3C50AE3C60AE3C70AE3C80AE3C90AE3CA0AE3CB0AE3CC0AE3CD0AE3CE0AE3CF0AE3D00A
  E3D10AE3D20AE3D30AE3D40AE3D50AE3D60AE3D70AE3D80AE3D90AE3DA0AE3DB0AE3DC0AE3DD0AE3DE0AE3DF0AE3E00A
  E3E10AE3E20AE3E30AE3E40AE3E50AE3E60AE3E70AE3E80AE3E90AE3EA0AE3EB0AE3EC0AE3ED0AE3EE0AE3EF0AE3F00A
  E3F10AE3F20AE3F30AE3F40AE3F50AE3F60AE3F70AE3F80AE3F90AE3FA0AE3FB0AE3FC0A"

/-- tests/test_data/whatwg/shiftjis_whatwg_test_decode_in.txt, part 36 -/
noncomputable def decodeIn35 : List Nat := hex! "E4400AE4410AE4420AE4430AE4440AE4450AE4460AE4470AE4480AE4490AE44A0AE44B0AE44C0AE44D0AE44E0AE44F0A
  E4500AE4510AE4520AE4530AE4540AE4550AE4560AE4570AE4580AE4590AE45A0AE45B0AE45C0AE45D0AE45E0AE45F0A
  E4600AE4610AE4620AE4630AE4640AE4650AE4660AE4670AE4680AE4690AE46A0AE46B0AE46C0AE46D0AE46E0AE46F0A
  E4700AE4710AE4720AE4730AE4740AE4750AE4760AE4770AE4780AE4790AE47A0AE47B0AE47C0AE47D0AE47E0AE4800A
  E4810AE4820AE4830AE4840AE4850AE4860AE4870AE4880AE4890AE48A0AE48B0AE48C0AE48D0AE48E0AE48F0AE4900A
  E4910AE4920AE4930AE4940AE4950AE4960AE4970AE4980AE4990AE49A0AE49B0AE49C0AE49D0AE49E0AE49F0AE4A00A
  E4A10AE4A20AE4A30AE4A40AE4A50AE4A60AE4A70AE4A80AE4A90AE4AA0AE4AB0AE4AC0AE4AD0AE4AE0AE4AF0AE4B00A
  E4B10AE4B20AE4B30AE4B40AE4B50AE4B60AE4B70AE4B80AE4B90AE4BA0AE4BB0AE4BC0AE4BD0AE4BE0AE4BF0AE4C00A
  E4C10AE4C20AE4C30AE4C40AE4C50AE4C60AE4C70AE4C80AE4C90AE4CA0AE4CB0AE4CC0AE4CD0AE4CE0AE4CF0AE4D00A
  E4D10AE4D20AE4D30AE4D40AE4D50AE4D60AE4D70AE4D80AE4D90AE4DA0AE4DB0AE4DC0AE4DD0AE4DE0AE4DF0AE4E00A
  E4E10AE4E20AE4E30AE4E40AE4E50AE4E60AE4E70AE4E80AE4E90AE4EA0AE4EB0AE4EC0AE4ED0AE4EE0AE4EF0AE4F00A
  E4F10AE4F20AE4F30AE4F40AE4F50AE4F60AE4F70AE4F80AE4F90AE4FA0AE4FB0AE4FC0A"

/-- tests/test_data/whatwg/shiftjis_whatwg_test_decode_out.txt, part 36 -/
noncomputable def decodeOut35 : List Nat := hex! "E99A8B0AE885860AE884BE0AE885930AE885910AE883BC0AE885B10AE885AE0AE885A50AE885A60AE885B40AE886830A
  E886880AE8868A0AE886800AE886820AE886A00AE886950AE886A40AE886A30AE8859F0AE886930AE886A90AE886B00A
  E886B50AE886BE0AE886B80AE886BD0AE887800AE887820AE886BA0AE887890AE8878D0AE887910AE887990AE887980A
  E887880AE8879A0AE8879F0AE887A00AE887A70AE887BA0AE887BB0AE887BE0AE888810AE888820AE888850AE888870A
  E8888A0AE8888D0AE888900AE888960AE888A90AE888AB0AE888B80AE888B30AE889800AE889990AE889980AE8899D0A
  E8899A0AE8899F0AE889A40AE889A20AE889A80AE889AA0AE889AB0AE888AE0AE889B10AE889B70AE889B80AE889BE0A
  E88A8D0AE88A920AE88AAB0AE88A9F0AE88ABB0AE88AAC0AE88BA10AE88BA30AE88B9F0AE88B920AE88BB40AE88BB30A
  E88BBA0AE88E930AE88C830AE88BBB0AE88BB90AE88B9E0AE88C860AE88B9C0AE88C890AE88B990AE88CB50AE88CB40A
  E88C960AE88CB20AE88CB10AE88D800AE88CB90AE88D900AE88D850AE88CAF0AE88CAB0AE88C970AE88C980AE88E850A
  E88E9A0AE88EAA0AE88E9F0AE88EA20AE88E960AE88CA30AE88E8E0AE88E870AE88E8A0AE88DBC0AE88EB50AE88DB30A
  E88DB50AE88EA00AE88E890AE88EA80AE88FB40AE890930AE88FAB0AE88F8E0AE88FBD0AE890830AE88F980AE8908B0A
  E88F810AE88FB70AE890870AE88FA00AE88FB20AE8908D0AE890A20AE890A00AE88EBD0AE890B80AE894860AE88FBB0A
  E891AD0AE890AA0AE890BC0AE8959A0AE892840AE891B70AE891AB0AE892AD0AE891AE0AE892820AE891A90AE891860A
  E890AC0AE891AF0AE891B90AE890B50AE8938A0AE891A20AE892B90AE892BF0AE8929F0AE893990AE8938D0AE892BB0A
  E8939A0AE893900AE893810AE893860AE893960AE892A10AE894A10AE893BF0AE893B40AE894970AE894980AE894AC0A
  E8949F0AE894950AE894940AE893BC0AE895800AE895A30AE895980AE895880A"

/-- tests/test_data/whatwg/shiftjis_whatwg_test_encode_in.txt, part 36 -/
noncomputable def encodeIn35 : List Nat := hex! "E99A8B0AE885860AE884BE0AE885930AE885910AE883BC0AE885B10AE885AE0AE885A50AE885A60AE885B40AE886830A
  E886880AE8868A0AE886800AE886820AE886A00AE886950AE886A40AE886A30AE8859F0AE886930AE886A90AE886B00A
  E886B50AE886BE0AE886B80AE886BD0AE887800AE887820AE886BA0AE887890AE8878D0AE887910AE887990AE887980A
  E887880AE8879A0AE8879F0AE887A00AE887A70AE887BA0AE887BB0AE887BE0AE888810AE888820AE888850AE888870A
  E8888A0AE8888D0AE888900AE888960AE888A90AE888AB0AE888B80AE888B30AE889800AE889990AE889980AE8899D0A
  E8899A0AE8899F0AE889A40AE889A20AE889A80AE889AA0AE889AB0AE888AE0AE889B10AE889B70AE889B80AE889BE0A
  E88A8D0AE88A920AE88AAB0AE88A9F0AE88ABB0AE88AAC0AE88BA10AE88BA30AE88B9F0AE88B920AE88BB40AE88BB30A
  E88BBA0AE88E930AE88C830AE88BBB0AE88BB90AE88B9E0AE88C860AE88B9C0AE88C890AE88B990AE88CB50AE88CB40A
  E88C960AE88CB20AE88CB10AE88D800AE88CB90AE88D900AE88D850AE88CAF0AE88CAB0AE88C970AE88C980AE88E850A
  E88E9A0AE88EAA0AE88E9F0AE88EA20AE88E960AE88CA30AE88E8E0AE88E870AE88E8A0AE88DBC0AE88EB50AE88DB30A
  E88DB50AE88EA00AE88E890AE88EA80AE88FB40AE890930AE88FAB0AE88F8E0AE88FBD0AE890830AE88F980AE8908B0A
  E88F810AE88FB70AE890870AE88FA00AE88FB20AE8908D0AE890A20AE890A00AE88EBD0AE890B80AE894860AE88FBB0A
  E891AD0AE890AA0AE890BC0AE8959A0AE892840AE891B70AE891AB0AE892AD0AE891AE0AE892820AE891A90AE891860A
  E890AC0AE891AF0AE891B90AE890B50AE8938A0AE891A20AE892B90AE892BF0AE8929F0AE893990AE8938D0AE892BB0A
  E8939A0AE893900AE893810AE893860AE893960AE892A10AE894A10AE893BF0AE893B40AE894970AE894980AE894AC0A
  E8949F0AE894950AE894940AE893BC0AE895800AE895A30AE895980AE895880A"

/-- tests/test_data/whatwg/shiftjis_whatwg_test_encode_out.txt, part 36 -/
noncomputable def encodeOut35 : List Nat := hex! "E4400AE4410AE4420AE4430AE4440AE4450AE4460AE4470AE4480AE4490AE44A0AE44B0AE44C0AE44D0AE44E0AE44F0A
  E4500AE4510AE4520AE4530AE4540AE4550AE4560AE4570AE4580AE4590AE45A0AE45B0AE45C0AE45D0AE45E0AE45F0A
  E4600AE4610AE4620AE4630AE4640AE4650AE4660AE4670AE4680AE4690AE46A0AE46B0AE46C0AE46D0AE46E0AE46F0A
  E4700AE4710AE4720AE4730AE4740AE4750AE4760AE4770AE4780AE4790AE47A0AE47B0AE47C0AE47D0AE47E0AE4800A
  E4810AE4820AE4830AE4840AE4850AE4860AE4870AE4880AE4890AE48A0AE48B0AE48C0AE48D0AE48E0AE48F0AE4900A
  E4910AE4920AE4930AE4940AE4950AE4960AE4970AE4980AE4990AE49A0AE49B0AE49C0AE49D0AE49E0AE49F0AE4A00A
  E4A10AE4A20AE4A30AE4A40AE4A50AE4A60AE4A70AE4A80AE4A90AE4AA0AE4AB0AE4AC0AE4AD0AE4AE0AE4AF0AE4B00A
  E4B10AE4B20AE4B30AE4B40AE4B50AE4B60AE4B70AE4B80AE4B90AE4BA0AE4BB0AE4BC0AE4BD0AE4BE0AE4BF0AE4C00A
  E4C10AE4C20AE4C30AE4C40AE4C50AE4C60AE4C70AE4C80AE4C90AE4CA0AE4CB0AE4CC0AE4CD0AE4CE0AE4CF0AE4D00A
  E4D10AE4D20AE4D30AE4D40AE4D50AE4D60AE4D70AE4D80AE4D90AE4DA0AE4DB0AE4DC0AE4DD0AE4DE0AE4DF0AE4E00A
  E4E10AE4E20AE4E30AE4E40AE4E50AE4E60AE4E70AE4E80AE4E90AE4EA0AE4EB0AE4EC0AE4ED0AE4EE0AE4EF0AE4F00A
  E4F10AE4F20AE4F30AE4F40AE4F50AE4F60AE4F70AE4F80AE4F90AE4FA0AE4FB0AE4FC0A"

/-- tests/test_data/whatwg/shiftjis_whatwg_test_decode_in.txt, part 37 -/
noncomputable def decodeIn36 : List Nat := hex! "E5400AE5410AE5420AE5430AE5440AE5450AE5460AE5470AE5480AE5490AE54A0AE54B0AE54C0AE54D0AE54E0AE54F0A
  E5500AE5510AE5520AE5530AE5540AE5550AE5560AE5570AE5580AE5590AE55A0AE55B0AE55C0AE55D0AE55E0AE55F0A
  E5600AE5610AE5620AE5630AE5640AE5650AE5660AE5670AE5680AE5690AE56A0AE56B0AE56C0AE56D0AE56E0AE56F0A
  E5700AE5710AE5720AE5730AE5740AE5750AE5760AE5770AE5780AE5790AE57A0AE57B0AE57C0AE57D0AE57E0AE5800A
  E5810AE5820AE5830AE5840AE5850AE5860AE5870AE5880AE5890AE58A0AE58B0AE58C0AE58D0AE58E0AE58F0AE5900A
  E5910AE5920AE5930AE5940AE5950AE5960AE5970AE5980AE5990AE59A0AE59B0AE59C0AE59D0AE59E0AE59F0AE5A00A
  E5A10AE5A20AE5A30AE5A40AE5A50AE5A60AE5A70AE5A80AE5A90AE5AA0AE5AB0AE5AC0AE5AD0AE5AE0AE5AF0AE5B00A
  E5B10AE5B20AE5B30AE5B40AE5B50AE5B60AE5B70AE5B80AE5B90AE5BA0AE5BB0AE5BC0AE5BD0AE5BE0AE5BF0AE5C00A
  E5C10AE5C20AE5C30AE5C40AE5C50AE5C60AE5C70AE5C80AE5C90AE5CA0AE5CB0AE5CC0AE5CD0AE5CE0AE5CF0AE5D00A
  E5D10AE5D20AE5D30AE5D40AE5D50AE5D60AE5D70AE5D80AE5D90AE5DA0AE5DB0AE5DC0AE5DD0AE5DE0AE5DF0AE5E00A
  E5E10AE5E20AE5E30AE5E40AE5E50AE5E60AE5E70AE5E80AE5E90AE5EA0AE5EB0AE5EC0AE5ED0AE5EE0AE5EF0AE5F00A
  E5F10AE5F20AE5F30AE5F40AE5F50AE5F60AE5F70AE5F80AE5F90AE5FA0AE5FB0AE5FC0A"

/-- tests/test_data/whatwg/shiftjis_whatwg_test_decode_out.txt, part 37 -/
noncomputable def decodeOut36 : List Nat := hex! "E895810AE898820AE8958B0AE895950AE896800AE896A40AE896880AE896910AE8968A0AE896A80AE895AD0AE896940A
  E8969B0AE897AA0AE896870AE8969C0AE895B70AE895BE0AE896900AE897890AE896BA0AE8978F0AE896B90AE897900A
  E897950AE8979D0AE897A50AE8979C0AE897B90AE8988A0AE898930AE8988B0AE897BE0AE897BA0AE898860AE898A20A
  E8989A0AE898B00AE898BF0AE8998D0AE4B9950AE899940AE8999F0AE899A70AE899B10AE89A930AE89AA30AE89AA90A
  E89AAA0AE89A8B0AE89A8C0AE89AB60AE89AAF0AE89B840AE89B860AE89AB00AE89B890AE8A0A30AE89AAB0AE89B940A
  E89B9E0AE89BA90AE89BAC0AE89B9F0AE89B9B0AE89BAF0AE89C920AE89C860AE89C880AE89C800AE89C830AE89BBB0A
  E89C910AE89C890AE89C8D0AE89BB90AE89C8A0AE89CB40AE89CBF0AE89CB70AE89CBB0AE89CA50AE89CA90AE89C9A0A
  E89DA00AE89D9F0AE89DB80AE89D8C0AE89D8E0AE89DB40AE89D970AE89DA80AE89DAE0AE89D990AE89D930AE89DA30A
  E89DAA0AE8A0850AE89EA20AE89E9F0AE89E820AE89EAF0AE89F8B0AE89EBD0AE89F800AE89F900AE99B960AE89EAB0A
  E89F840AE89EB30AE89F870AE89F860AE89EBB0AE89FAF0AE89FB20AE89FA00AE8A08F0AE8A08D0AE89FBE0AE89FB60A
  E89FB70AE8A08E0AE89F920AE8A0910AE8A0960AE8A0950AE8A0A20AE8A0A10AE8A0B10AE8A0B60AE8A0B90AE8A0A70A
  E8A0BB0AE8A1840AE8A1820AE8A1920AE8A1990AE8A19E0AE8A1A20AE8A1AB0AE8A2810AE8A1BE0AE8A29E0AE8A1B50A
  E8A1BD0AE8A2B50AE8A1B20AE8A2820AE8A2970AE8A2920AE8A2AE0AE8A2990AE8A2A20AE8A28D0AE8A2A40AE8A2B00A
  E8A2BF0AE8A2B10AE8A3830AE8A3840AE8A3940AE8A3980AE8A3990AE8A39D0AE8A3B90AE8A4820AE8A3BC0AE8A3B40A
  E8A3A80AE8A3B20AE8A4840AE8A48C0AE8A48A0AE8A4930AE8A5830AE8A49E0AE8A4A50AE8A4AA0AE8A4AB0AE8A5810A
  E8A5840AE8A4BB0AE8A4B60AE8A4B80AE8A58C0AE8A49D0AE8A5A00AE8A59E0A"

/-- tests/test_data/whatwg/shiftjis_whatwg_test_encode_in.txt, part 37 -/
noncomputable def encodeIn36 : List Nat := hex! "E895810AE898820AE8958B0AE895950AE896800AE896A40AE896880AE896910AE8968A0AE896A80AE895AD0AE896940A
  E8969B0AE897AA0AE896870AE8969C0AE895B70AE895BE0AE896900AE897890AE896BA0AE8978F0AE896B90AE897900A
  E897950AE8979D0AE897A50AE8979C0AE897B90AE8988A0AE898930AE8988B0AE897BE0AE897BA0AE898860AE898A20A
  E8989A0AE898B00AE898BF0AE8998D0AE4B9950AE899940AE8999F0AE899A70AE899B10AE89A930AE89AA30AE89AA90A
  E89AAA0AE89A8B0AE89A8C0AE89AB60AE89AAF0AE89B840AE89B860AE89AB00AE89B890AE8A0A30AE89AAB0AE89B940A
  E89B9E0AE89BA90AE89BAC0AE89B9F0AE89B9B0AE89BAF0AE89C920AE89C860AE89C880AE89C800AE89C830AE89BBB0A
  E89C910AE89C890AE89C8D0AE89BB90AE89C8A0AE89CB40AE89CBF0AE89CB70AE89CBB0AE89CA50AE89CA90AE89C9A0A
  E89DA00AE89D9F0AE89DB80AE89D8C0AE89D8E0AE89DB40AE89D970AE89DA80AE89DAE0AE89D990AE89D930AE89DA30A
  E89DAA0AE8A0850AE89EA20AE89E9F0AE89E820AE89EAF0AE89F8B0AE89EBD0AE89F800AE89F900AE99B960AE89EAB0A
  E89F840AE89EB30AE89F870AE89F860AE89EBB0AE89FAF0AE89FB20AE89FA00AE8A08F0AE8A08D0AE89FBE0AE89FB60A
  E89FB70AE8A08E0AE89F920AE8A0910AE8A0960AE8A0950AE8A0A20AE8A0A10AE8A0B10AE8A0B60AE8A0B90AE8A0A70A
  E8A0BB0AE8A1840AE8A1820AE8A1920AE8A1990AE8A19E0AE8A1A20AE8A1AB0AE8A2810AE8A1BE0AE8A29E0AE8A1B50A
  E8A1BD0AE8A2B50AE8A1B20AE8A2820AE8A2970AE8A2920AE8A2AE0AE8A2990AE8A2A20AE8A28D0AE8A2A40AE8A2B00A
  E8A2BF0AE8A2B10AE8A3830AE8A3840AE8A3940AE8A3980AE8A3990AE8A39D0AE8A3B90AE8A4820AE8A3BC0AE8A3B40A
  E8A3A80AE8A3B20AE8A4840AE8A48C0AE8A48A0AE8A4930AE8A5830AE8A49E0AE8A4A50AE8A4AA0AE8A4AB0AE8A5810A
  E8A5840AE8A4BB0AE8A4B60AE8A4B80AE8A58C0AE8A49D0AE8A5A00AE8A59E0A"

/-- tests/test_data/whatwg/shiftjis_whatwg_test_encode_out.txt, part 37 -/
noncomputable def encodeOut36 : List Nat := hex! "E5400AE5410AE5420AE5430AE5440AE5450AE5460AE5470AE5480AE5490AE54A0AE54B0AE54C0AE54D0AE54E0AE54F0A
  E5500AE5510AE5520AE5530AE5540AE5550AE5560AE5570AE5580AE5590AE55A0AE55B0AE55C0AE55D0AE55E0AE55F0A
  E5600AE5610AE5620AE5630AE5640AE5650AE5660AE5670AE5680AE5690AE56A0AE56B0AE56C0AE56D0AE56E0AE56F0A
  E5700AE5710AE5720AE5730AE5740AE5750AE5760AE5770AE5780AE5790AE57A0AE57B0AE57C0AE57D0AE57E0AE5800A
  E5810AE5820AE5830AE5840AE5850AE5860AE5870AE5880AE5890AE58A0AE58B0AE58C0AE58D0AE58E0AE58F0AE5900A
  E5910AE5920AE5930AE5940AE5950AE5960AE5970AE5980AE5990AE59A0AE59B0AE59C0AE59D0AE59E0AE59F0AE5A00A
  E5A10AE5A20AE5A30AE5A40AE5A50AE5A60AE5A70AE5A80AE5A90AE5AA0AE5AB0AE5AC0AE5AD0AE5AE0AE5AF0AE5B00A
  E5B10AE5B20AE5B30AE5B40AE5B50AE5B60AE5B70AE5B80AE5B90AE5BA0AE5BB0AE5BC0AE5BD0AE5BE0AE5BF0AE5C00A
  E5C10AE5C20AE5C30AE5C40AE5C50AE5C60AE5C70AE5C80AE5C90AE5CA0AE5CB0AE5CC0AE5CD0AE5CE0AE5CF0AE5D00A
  E5D10AE5D20AE5D30AE5D40AE5D50AE5D60AE5D70AE5D80AE5D90AE5DA0AE5DB0AE5DC0AE5DD0AE5DE0AE5DF0AE5E00A
  E5E10AE5E20AE5E30AE5E40AE5E50AE5E60AE5E70AE5E80AE5E90AE5EA0AE5EB0AE5EC0AE5ED0AE5EE0AE5EF0AE5F00A
  E5F10AE5F20AE5F30AE5F40AE5F50AE5F60AE5F70AE5F80AE5F90AE5FA0AE5FB0AE5FC0A"

/-- tests/test_data/whatwg/shiftjis_whatwg_test_decode_in.txt, part 38 -/
noncomputable def decodeIn37 : List Nat := hex! "E6400AE6410AE6420AE6430AE6440AE6450AE6460AE6470AE6480AE6490AE64A0AE64B0AE64C0AE64D0AE64E0AE64F0A
  E6500AE6510AE6520AE6530AE6540AE6550AE6560AE6570AE6580AE6590AE65A0AE65B0AE65C0AE65D0AE65E0AE65F0A
  E6600AE6610AE6620AE6630AE6640AE6650AE6660AE6670AE6680AE6690AE66A0AE66B0AE66C0AE66D0AE66E0AE66F0A
  E6700AE6710AE6720AE6730AE6740AE6750AE6760AE6770AE6780AE6790AE67A0AE67B0AE67C0AE67D0AE67E0AE6800A
  E6810AE6820AE6830AE6840AE6850AE6860AE6870AE6880AE6890AE68A0AE68B0AE68C0AE68D0AE68E0AE68F0AE6900A
  E6910AE6920AE6930AE6940AE6950AE6960AE6970AE6980AE6990AE69A0AE69B0AE69C0AE69D0AE69E0AE69F0AE6A00A
  E6A10AE6A20AE6A30AE6A40AE6A50AE6A60AE6A70AE6A80AE6A90AE6AA0AE6AB0AE6AC0AE6AD0AE6AE0AE6AF0AE6B00A
  E6B10AE6B20AE6B30AE6B40AE6B50AE6B60AE6B70AE6B80AE6B90AE6BA0AE6BB0AE6BC0AE6BD0AE6BE0AE6BF0AE6C00A
  E6C10AE6C20AE6C30AE6C40AE6C50AE6C60AE6C70AE6C80AE6C90AE6CA0AE6CB0AE6CC0AE6CD0AE6CE0AE6CF0AE6D00A
  E6D10AE6D20AE6D30AE6D40AE6D50AE6D60AE6D70AE6D80AE6D90AE6DA0AE6DB0AE6DC0AE6DD0AE6DE0AE6DF0AE6E00A
  E6E10AE6E20AE6E30AE6E40AE6E50AE6E60AE6E70AE6E80AE6E90AE6EA0AE6EB0AE6EC0AE6ED0AE6EE0AE6EF0AE6F00A
  E6F10AE6F20AE6F30AE6F40AE6F50AE6F60AE6F70AE6F80AE6F90AE6FA0AE6FB0AE6FC0A"

/-- tests/test_data/whatwg/shiftjis_whatwg_test_decode_out.txt, part 38 -/
noncomputable def decodeOut37 : List Nat := hex! "E8A5A60AE8A5A40AE8A5AD0AE8A5AA0AE8A5AF0AE8A5B40AE8A5B70AE8A5BE0AE8A6830AE8A6880AE8A68A0AE8A6930A
  E8A6980AE8A6A10AE8A6A90AE8A6A60AE8A6AC0AE8A6AF0AE8A6B20AE8A6BA0AE8A6BD0AE8A6BF0AE8A7800AE8A79A0A
  E8A79C0AE8A79D0AE8A7A70AE8A7B40AE8A7B80AE8A8830AE8A8960AE8A8900AE8A88C0AE8A89B0AE8A89D0AE8A8A50A
  E8A8B60AE8A9810AE8A99B0AE8A9920AE8A9860AE8A9880AE8A9BC0AE8A9AD0AE8A9AC0AE8A9A20AE8AA850AE8AA820A
  E8AA840AE8AAA80AE8AAA10AE8AA910AE8AAA50AE8AAA60AE8AA9A0AE8AAA30AE8AB840AE8AB8D0AE8AB820AE8AB9A0A
  E8ABAB0AE8ABB30AE8ABA70AE8ABA40AE8ABB10AE8AC940AE8ABA00AE8ABA20AE8ABB70AE8AB9E0AE8AB9B0AE8AC8C0A
  E8AC870AE8AC9A0AE8ABA10AE8AC960AE8AC900AE8AC970AE8ACA00AE8ACB30AE99EAB0AE8ACA60AE8ACAB0AE8ACBE0A
  E8ACA80AE8AD810AE8AD8C0AE8AD8F0AE8AD8E0AE8AD890AE8AD960AE8AD9B0AE8AD9A0AE8ADAB0AE8AD9F0AE8ADAC0A
  E8ADAF0AE8ADB40AE8ADBD0AE8AE800AE8AE8C0AE8AE8E0AE8AE920AE8AE930AE8AE960AE8AE990AE8AE9A0AE8B0BA0A
  E8B1810AE8B0BF0AE8B1880AE8B18C0AE8B18E0AE8B1900AE8B1950AE8B1A20AE8B1AC0AE8B1B80AE8B1BA0AE8B2820A
  E8B2890AE8B2850AE8B28A0AE8B28D0AE8B28E0AE8B2940AE8B1BC0AE8B2980AE6889D0AE8B2AD0AE8B2AA0AE8B2BD0A
  E8B2B20AE8B2B30AE8B2AE0AE8B2B60AE8B3880AE8B3810AE8B3A40AE8B3A30AE8B39A0AE8B3BD0AE8B3BA0AE8B3BB0A
  E8B4840AE8B4850AE8B48A0AE8B4870AE8B48F0AE8B48D0AE8B4900AE9BD8E0AE8B4930AE8B38D0AE8B4940AE8B4960A
  E8B5A70AE8B5AD0AE8B5B10AE8B5B30AE8B6810AE8B6990AE8B7820AE8B6BE0AE8B6BA0AE8B78F0AE8B79A0AE8B7960A
  E8B78C0AE8B79B0AE8B78B0AE8B7AA0AE8B7AB0AE8B79F0AE8B7A30AE8B7BC0AE8B8880AE8B8890AE8B7BF0AE8B89D0A
  E8B89E0AE8B8900AE8B89F0AE8B9820AE8B8B50AE8B8B00AE8B8B40AE8B98A0A"

/-- tests/test_data/whatwg/shiftjis_whatwg_test_encode_in.txt, part 38 -/
noncomputable def encodeIn37 : List Nat := hex! "E8A5A60AE8A5A40AE8A5AD0AE8A5AA0AE8A5AF0AE8A5B40AE8A5B70AE8A5BE0AE8A6830AE8A6880AE8A68A0AE8A6930A
  E8A6980AE8A6A10AE8A6A90AE8A6A60AE8A6AC0AE8A6AF0AE8A6B20AE8A6BA0AE8A6BD0AE8A6BF0AE8A7800AE8A79A0A
  E8A79C0AE8A79D0AE8A7A70AE8A7B40AE8A7B80AE8A8830AE8A8960AE8A8900AE8A88C0AE8A89B0AE8A89D0AE8A8A50A
  E8A8B60AE8A9810AE8A99B0AE8A9920AE8A9860AE8A9880AE8A9BC0AE8A9AD0AE8A9AC0AE8A9A20AE8AA850AE8AA820A
  E8AA840AE8AAA80AE8AAA10AE8AA910AE8AAA50AE8AAA60AE8AA9A0AE8AAA30AE8AB840AE8AB8D0AE8AB820AE8AB9A0A
  E8ABAB0AE8ABB30AE8ABA70AE8ABA40AE8ABB10AE8AC940AE8ABA00AE8ABA20AE8ABB70AE8AB9E0AE8AB9B0AE8AC8C0A
  E8AC870AE8AC9A0AE8ABA10AE8AC960AE8AC900AE8AC970AE8ACA00AE8ACB30AE99EAB0AE8ACA60AE8ACAB0AE8ACBE0A
  E8ACA80AE8AD810AE8AD8C0AE8AD8F0AE8AD8E0AE8AD890AE8AD960AE8AD9B0AE8AD9A0AE8ADAB0AE8AD9F0AE8ADAC0A
  E8ADAF0AE8ADB40AE8ADBD0AE8AE800AE8AE8C0AE8AE8E0AE8AE920AE8AE930AE8AE960AE8AE990AE8AE9A0AE8B0BA0A
  E8B1810AE8B0BF0AE8B1880AE8B18C0AE8B18E0AE8B1900AE8B1950AE8B1A20AE8B1AC0AE8B1B80AE8B1BA0AE8B2820A
  E8B2890AE8B2850AE8B28A0AE8B28D0AE8B28E0AE8B2940AE8B1BC0AE8B2980AE6889D0AE8B2AD0AE8B2AA0AE8B2BD0A
  E8B2B20AE8B2B30AE8B2AE0AE8B2B60AE8B3880AE8B3810AE8B3A40AE8B3A30AE8B39A0AE8B3BD0AE8B3BA0AE8B3BB0A
  E8B4840AE8B4850AE8B48A0AE8B4870AE8B48F0AE8B48D0AE8B4900AE9BD8E0AE8B4930AE8B38D0AE8B4940AE8B4960A
  E8B5A70AE8B5AD0AE8B5B10AE8B5B30AE8B6810AE8B6990AE8B7820AE8B6BE0AE8B6BA0AE8B78F0AE8B79A0AE8B7960A
  E8B78C0AE8B79B0AE8B78B0AE8B7AA0AE8B7AB0AE8B79F0AE8B7A30AE8B7BC0AE8B8880AE8B8890AE8B7BF0AE8B89D0A
  E8B89E0AE8B8900AE8B89F0AE8B9820AE8B8B50AE8B8B00AE8B8B40AE8B98A0A"

/-- tests/test_data/whatwg/shiftjis_whatwg_test_encode_out.txt, part 38 -/
noncomputable def encodeOut37 : List Nat := hex! "E6400AE6410AE6420AE6430AE6440AE6450AE6460AE6470AE6480AE6490AE64A0AE64B0AE64C0AE64D0AE64E0AE64F0A
  E6500AE6510AE6520AE6530AE6540AE6550AE6560AE6570AE6580AE6590AE65A0AE65B0AE65C0AE65D0AE65E0AE65F0A
  E6600AE6610AE6620AE6630AE6640AE6650AE6660AE6670AE6680AE6690AE66A0AE66B0AE66C0AE66D0AE66E0AE66F0A
  E6700AE6710AE6720AE6730AE6740AE6750AE6760AE6770AE6780AE6790AE67A0AE67B0AE67C0AE67D0AE67E0AE6800A
  E6810AE6820AE6830AE6840AE6850AE6860AE6870AE6880AE6890AE68A0AE68B0AE68C0AE68D0AE68E0AE68F0AE6900A
  E6910AE6920AE6930AE6940AE6950AE6960AE6970AE6980AE6990AE69A0AE69B0AE69C0AE69D0AE69E0AE69F0AE6A00A
  E6A10AE6A20AE6A30AE6A40AE6A50AE6A60AE6A70AE6A80AE6A90AE6AA0AE6AB0AE6AC0AE6AD0AE6AE0AE6AF0AE6B00A
  E6B10AE6B20AE6B30AE6B40AE6B50AE6B60AE6B70AE6B80AE6B90AE6BA0AE6BB0AE6BC0AE6BD0AE6BE0AE6BF0AE6C00A
  E6C10AE6C20AE6C30AE6C40AE6C50AE6C60AE6C70AE6C80AE6C90AE6CA0AE6CB0AE6CC0AE6CD0AE6CE0AE6CF0AE6D00A
  E6D10AE6D20AE6D30AE6D40AE6D50AE6D60AE6D70AE6D80AE6D90AE6DA0AE6DB0AE6DC0AE6DD0AE6DE0AE6DF0AE6E00A
  E6E10AE6E20AE6E30AE6E40AE6E50AE6E60AE6E70AE6E80AE6E90AE6EA0AE6EB0AE6EC0AE6ED0AE6EE0AE6EF0AE6F00A
  E6F10AE6F20AE6F30AE6F40AE6F50AE6F60AE6F70AE6F80AE6F90AE6FA0AE6FB0AE6FC0A"

/-- tests/test_data/whatwg/shiftjis_whatwg_test_decode_in.txt, part 39 -/
noncomputable def decodeIn38 : List Nat := hex! "E7400AE7410AE7420AE7430AE7440AE7450AE7460AE7470AE7480AE7490AE74A0AE74B0AE74C0AE74D0AE74E0AE74F0A
  E7500AE7510AE7520AE7530AE7540AE7550AE7560AE7570AE7580AE7590AE75A0AE75B0AE75C0AE75D0AE75E0AE75F0A
  E7600AE7610AE7620AE7630AE7640AE7650AE7660AE7670AE7680AE7690AE76A0AE76B0AE76C0AE76D0AE76E0AE76F0A
  E7700AE7710AE7720AE7730AE7740AE7750AE7760AE7770AE7780AE7790AE77A0AE77B0AE77C0AE77D0AE77E0AE7800A
  E7810AE7820AE7830AE7840AE7850AE7860AE7870AE7880AE7890AE78A0AE78B0AE78C0AE78D0AE78E0AE78F0AE7900A
  E7910AE7920AE7930AE7940AE7950AE7960AE7970AE7980AE7990AE79A0AE79B0AE79C0AE79D0AE79E0AE79F0AE7A00A
  E7A10AE7A20AE7A30AE7A40AE7A50AE7A60AE7A70AE7A80AE7A90AE7AA0AE7AB0AE7AC0AE7AD0AE7AE0AE7AF0AE7B00A
  E7B10AE7B20AE7B30AE7B40AE7B50AE7B60AE7B70AE7B80AE7B90AE7BA0AE7BB0AE7BC0AE7BD0AE7BE0AE7BF0AE7C00A
  E7C10AE7C20AE7C30AE7C40AE7C50AE7C60AE7C70AE7C80AE7C90AE7CA0AE7CB0AE7CC0AE7CD0AE7CE0AE7CF0AE7D00A
  E7D10AE7D20AE7D30AE7D40AE7D50AE7D60AE7D70AE7D80AE7D90AE7DA0AE7DB0AE7DC0AE7DD0AE7DE0AE7DF0AE7E00A
  E7E10AE7E20AE7E30AE7E40AE7E50AE7E60AE7E70AE7E80AE7E90AE7EA0AE7EB0AE7EC0AE7ED0AE7EE0AE7EF0AE7F00A
  E7F10AE7F20AE7F30AE7F40AE7F50AE7F60AE7F70AE7F80AE7F90AE7FA0AE7FB0AE7FC0A"

/-- tests/test_data/whatwg/shiftjis_whatwg_test_decode_out.txt, part 39 -/
noncomputable def decodeOut38 : List Nat := hex! "E8B9870AE8B9890AE8B98C0AE8B9900AE8B9880AE8B9990AE8B9A40AE8B9A00AE8B8AA0AE8B9A30AE8B9950AE8B9B60A
  E8B9B20AE8B9BC0AE8BA810AE8BA870AE8BA850AE8BA840AE8BA8B0AE8BA8A0AE8BA930AE8BA910AE8BA940AE8BA990A
  E8BAAA0AE8BAA10AE8BAAC0AE8BAB00AE8BB860AE8BAB10AE8BABE0AE8BB850AE8BB880AE8BB8B0AE8BB9B0AE8BBA30A
  E8BBBC0AE8BBBB0AE8BBAB0AE8BBBE0AE8BC8A0AE8BC850AE8BC950AE8BC920AE8BC990AE8BC930AE8BC9C0AE8BC9F0A
  E8BC9B0AE8BC8C0AE8BCA60AE8BCB30AE8BCBB0AE8BCB90AE8BD850AE8BD820AE8BCBE0AE8BD8C0AE8BD890AE8BD860A
  E8BD8E0AE8BD970AE8BD9C0AE8BDA20AE8BDA30AE8BDA40AE8BE9C0AE8BE9F0AE8BEA30AE8BEAD0AE8BEAF0AE8BEB70A
  E8BF9A0AE8BFA50AE8BFA20AE8BFAA0AE8BFAF0AE982870AE8BFB40AE980850AE8BFB90AE8BFBA0AE980910AE980950A
  E980A10AE9808D0AE9809E0AE980960AE9808B0AE980A70AE980B60AE980B50AE980B90AE8BFB80AE9818F0AE981900A
  E981910AE981920AE9808E0AE981890AE980BE0AE981960AE981980AE9819E0AE981A80AE981AF0AE981B60AE99AA80A
  E981B20AE982820AE981BD0AE982810AE982800AE9828A0AE982890AE9828F0AE982A80AE982AF0AE982B10AE982B50A
  E983A20AE983A40AE689880AE9839B0AE984820AE984920AE984990AE984B20AE984B00AE9858A0AE985960AE985980A
  E985A30AE985A50AE985A90AE985B30AE985B20AE9868B0AE986890AE986820AE986A20AE986AB0AE986AF0AE986AA0A
  E986B50AE986B40AE986BA0AE987800AE987810AE987890AE9878B0AE987900AE987960AE9879F0AE987A10AE9879B0A
  E987BC0AE987B50AE987B60AE9889E0AE987BF0AE988940AE988AC0AE988950AE988910AE9899E0AE989970AE989850A
  E989890AE989A40AE989880AE98A950AE988BF0AE9898B0AE989900AE98A9C0AE98A960AE98A930AE98A9B0AE9899A0A
  E98B8F0AE98AB90AE98AB70AE98BA90AE98C8F0AE98BBA0AE98D840AE98CAE0A"

/-- tests/test_data/whatwg/shiftjis_whatwg_test_encode_in.txt, part 39 -/
noncomputable def encodeIn38 : List Nat := hex! "E8B9870AE8B9890AE8B98C0AE8B9900AE8B9880AE8B9990AE8B9A40AE8B9A00AE8B8AA0AE8B9A30AE8B9950AE8B9B60A
  E8B9B20AE8B9BC0AE8BA810AE8BA870AE8BA850AE8BA840AE8BA8B0AE8BA8A0AE8BA930AE8BA910AE8BA940AE8BA990A
  E8BAAA0AE8BAA10AE8BAAC0AE8BAB00AE8BB860AE8BAB10AE8BABE0AE8BB850AE8BB880AE8BB8B0AE8BB9B0AE8BBA30A
  E8BBBC0AE8BBBB0AE8BBAB0AE8BBBE0AE8BC8A0AE8BC850AE8BC950AE8BC920AE8BC990AE8BC930AE8BC9C0AE8BC9F0A
  E8BC9B0AE8BC8C0AE8BCA60AE8BCB30AE8BCBB0AE8BCB90AE8BD850AE8BD820AE8BCBE0AE8BD8C0AE8BD890AE8BD860A
  E8BD8E0AE8BD970AE8BD9C0AE8BDA20AE8BDA30AE8BDA40AE8BE9C0AE8BE9F0AE8BEA30AE8BEAD0AE8BEAF0AE8BEB70A
  E8BF9A0AE8BFA50AE8BFA20AE8BFAA0AE8BFAF0AE982870AE8BFB40AE980850AE8BFB90AE8BFBA0AE980910AE980950A
  E980A10AE9808D0AE9809E0AE980960AE9808B0AE980A70AE980B60AE980B50AE980B90AE8BFB80AE9818F0AE981900A
  E981910AE981920AE9808E0AE981890AE980BE0AE981960AE981980AE9819E0AE981A80AE981AF0AE981B60AE99AA80A
  E981B20AE982820AE981BD0AE982810AE982800AE9828A0AE982890AE9828F0AE982A80AE982AF0AE982B10AE982B50A
  E983A20AE983A40AE689880AE9839B0AE984820AE984920AE984990AE984B20AE984B00AE9858A0AE985960AE985980A
  E985A30AE985A50AE985A90AE985B30AE985B20AE9868B0AE986890AE986820AE986A20AE986AB0AE986AF0AE986AA0A
  E986B50AE986B40AE986BA0AE987800AE987810AE987890AE9878B0AE987900AE987960AE9879F0AE987A10AE9879B0A
  E987BC0AE987B50AE987B60AE9889E0AE987BF0AE988940AE988AC0AE988950AE988910AE9899E0AE989970AE989850A
  E989890AE989A40AE989880AE98A950AE988BF0AE9898B0AE989900AE98A9C0AE98A960AE98A930AE98A9B0AE9899A0A
  E98B8F0AE98AB90AE98AB70AE98BA90AE98C8F0AE98BBA0AE98D840AE98CAE0A"

/-- tests/test_data/whatwg/shiftjis_whatwg_test_encode_out.txt, part 39 -/
noncomputable def encodeOut38 : List Nat := hex! "E7400AE7410AE7420AE7430AE7440AE7450AE7460AE7470AE7480AE7490AE74A0AE74B0AE74C0AE74D0AE74E0AE74F0A
  E7500AE7510AE7520AE7530AE7540AE7550AE7560AE7570AE7580AE7590AE75A0AE75B0AE75C0AE75D0AE75E0AE75F0A
  E7600AE7610AE7620AE7630AE7640AE7650AE7660AE7670AE7680AE7690AE76A0AE76B0AE76C0AE76D0AE76E0AE76F0A
  E7700AE7710AE7720AE7730AE7740AE7750AE7760AE7770AE7780AE7790AE77A0AE77B0AE77C0AE77D0AE77E0AE7800A
  E7810AE7820AE7830AE7840AE7850AE7860AE7870AE7880AE7890AE78A0AE78B0AE78C0AE78D0AE78E0AE78F0AE7900A
  E7910AE7920AE7930AE7940AE7950AE7960AE7970AE7980AE7990AE79A0AE79B0AE79C0AE79D0AE79E0AE79F0AE7A00A
  E7A10AE7A20AE7A30AE7A40AE7A50AE7A60AE7A70AE7A80AE7A90AE7AA0AE7AB0AE7AC0AE7AD0AE7AE0AE7AF0AE7B00A
  E7B10AE7B20AE7B30AE7B40AE7B50AE7B60AE7B70AE7B80AE7B90AE7BA0AE7BB0AE7BC0AE7BD0AE7BE0AE7BF0AE7C00A
  E7C10AE7C20AE7C30AE7C40AE7C50AE7C60AE7C70AE7C80AE7C90AE7CA0AE7CB0AE7CC0AE7CD0AE7CE0AE7CF0AE7D00A
  E7D10AE7D20AE7D30AE7D40AE7D50AE7D60AE7D70AE7D80AE7D90AE7DA0AE7DB0AE7DC0AE7DD0AE7DE0AE7DF0AE7E00A
  E7E10AE7E20AE7E30AE7E40AE7E50AE7E60AE7E70AE7E80AE7E90AE7EA0AE7EB0AE7EC0AE7ED0AE7EE0AE7EF0AE7F00A
  E7F10AE7F20AE7F30AE7F40AE7F50AE7F60AE7F70AE7F80AE7F90AE7FA0AE7FB0AE7FC0A"

/-- tests/test_data/whatwg/shiftjis_whatwg_test_decode_in.txt, part 40 -/
noncomputable def decodeIn39 : List Nat := hex! "E8400AE8410AE8420AE8430AE8440AE8450AE8460AE8470AE8480AE8490AE84A0AE84B0AE84C0AE84D0AE84E0AE84F0A
  E8500AE8510AE8520AE8530AE8540AE8550AE8560AE8570AE8580AE8590AE85A0AE85B0AE85C0AE85D0AE85E0AE85F0A
  E8600AE8610AE8620AE8630AE8640AE8650AE8660AE8670AE8680AE8690AE86A0AE86B0AE86C0AE86D0AE86E0AE86F0A
  E8700AE8710AE8720AE8730AE8740AE8750AE8760AE8770AE8780AE8790AE87A0AE87B0AE87C0AE87D0AE87E0AE8800A
  E8810AE8820AE8830AE8840AE8850AE8860AE8870AE8880AE8890AE88A0AE88B0AE88C0AE88D0AE88E0AE88F0AE8900A
  E8910AE8920AE8930AE8940AE8950AE8960AE8970AE8980AE8990AE89A0AE89B0AE89C0AE89D0AE89E0AE89F0AE8A00A
  E8A10AE8A20AE8A30AE8A40AE8A50AE8A60AE8A70AE8A80AE8A90AE8AA0AE8AB0AE8AC0AE8AD0AE8AE0AE8AF0AE8B00A
  E8B10AE8B20AE8B30AE8B40AE8B50AE8B60AE8B70AE8B80AE8B90AE8BA0AE8BB0AE8BC0AE8BD0AE8BE0AE8BF0AE8C00A
  E8C10AE8C20AE8C30AE8C40AE8C50AE8C60AE8C70AE8C80AE8C90AE8CA0AE8CB0AE8CC0AE8CD0AE8CE0AE8CF0AE8D00A
  E8D10AE8D20AE8D30AE8D40AE8D50AE8D60AE8D70AE8D80AE8D90AE8DA0AE8DB0AE8DC0AE8DD0AE8DE0AE8DF0AE8E00A
  E8E10AE8E20AE8E30AE8E40AE8E50AE8E60AE8E70AE8E80AE8E90AE8EA0AE8EB0AE8EC0AE8ED0AE8EE0AE8EF0AE8F00A
  E8F10AE8F20AE8F30AE8F40AE8F50AE8F60AE8F70AE8F80AE8F90AE8FA0AE8FB0AE8FC0A"

/-- tests/test_data/whatwg/shiftjis_whatwg_test_decode_out.txt, part 40 -/
noncomputable def decodeOut39 : List Nat := hex! "E98C990AE98CA20AE98C9A0AE98CA30AE98CBA0AE98CB50AE98CBB0AE98D9C0AE98DA00AE98DBC0AE98DAE0AE98D960A
  E98EB00AE98EAC0AE98EAD0AE98E940AE98EB90AE98F960AE98F970AE98FA80AE98FA50AE98F980AE98F830AE98F9D0A
  E98F900AE98F880AE98FA40AE9909A0AE990940AE990930AE990830AE990870AE990900AE990B60AE990AB0AE990B50A
  E990A10AE990BA0AE991810AE991920AE991840AE9919B0AE991A00AE991A20AE9919E0AE991AA0AE988A90AE991B00A
  E991B50AE991B70AE991BD0AE9919A0AE991BC0AE991BE0AE992810AE991BF0AE996820AE996870AE9968A0AE996940A
  E996960AE996980AE996990AE996A00AE996A80AE996A70AE996AD0AE996BC0AE996BB0AE996B90AE996BE0AE9978A0A
  E6BFB60AE997830AE9978D0AE9978C0AE997950AE997940AE997960AE9979C0AE997A10AE997A50AE997A20AE998A10A
  E998A80AE998AE0AE998AF0AE999820AE9998C0AE9998F0AE9998B0AE999B70AE9999C0AE9999E0AE9999D0AE9999F0A
  E999A60AE999B20AE999AC0AE99A8D0AE99A980AE99A950AE99A970AE99AAA0AE99AA70AE99AB10AE99AB20AE99AB00A
  E99AB40AE99AB60AE99AB80AE99AB90AE99B8E0AE99B8B0AE99B890AE99B8D0AE8A58D0AE99B9C0AE99C8D0AE99B950A
  E99BB90AE99C840AE99C860AE99C880AE99C930AE99C8E0AE99C910AE99C8F0AE99C960AE99C990AE99CA40AE99CAA0A
  E99CB00AE99CB90AE99CBD0AE99CBE0AE99D840AE99D860AE99D880AE99D820AE99D890AE99D9C0AE99DA00AE99DA40A
  E99DA60AE99DA80AE58B920AE99DAB0AE99DB10AE99DB90AE99E850AE99DBC0AE99E810AE99DBA0AE99E860AE99E8B0A
  E99E8F0AE99E900AE99E9C0AE99EA80AE99EA60AE99EA30AE99EB30AE99EB40AE99F830AE99F860AE99F880AE99F8B0A
  E99F9C0AE99FAD0AE9BD8F0AE99FB20AE7AB9F0AE99FB60AE99FB50AE9A08F0AE9A08C0AE9A0B80AE9A0A40AE9A0A10A
  E9A0B70AE9A0BD0AE9A1860AE9A18F0AE9A18B0AE9A1AB0AE9A1AF0AE9A1B00A"

/-- tests/test_data/whatwg/shiftjis_whatwg_test_encode_in.txt, part 40 -/
noncomputable def encodeIn39 : List Nat := hex! "E98C990AE98CA20AE98C9A0AE98CA30AE98CBA0AE98CB50AE98CBB0AE98D9C0AE98DA00AE98DBC0AE98DAE0AE98D960A
  E98EB00AE98EAC0AE98EAD0AE98E940AE98EB90AE98F960AE98F970AE98FA80AE98FA50AE98F980AE98F830AE98F9D0A
  E98F900AE98F880AE98FA40AE9909A0AE990940AE990930AE990830AE990870AE990900AE990B60AE990AB0AE990B50A
  E990A10AE990BA0AE991810AE991920AE991840AE9919B0AE991A00AE991A20AE9919E0AE991AA0AE988A90AE991B00A
  E991B50AE991B70AE991BD0AE9919A0AE991BC0AE991BE0AE992810AE991BF0AE996820AE996870AE9968A0AE996940A
  E996960AE996980AE996990AE996A00AE996A80AE996A70AE996AD0AE996BC0AE996BB0AE996B90AE996BE0AE9978A0A
  E6BFB60AE997830AE9978D0AE9978C0AE997950AE997940AE997960AE9979C0AE997A10AE997A50AE997A20AE998A10A
  E998A80AE998AE0AE998AF0AE999820AE9998C0AE9998F0AE9998B0AE999B70AE9999C0AE9999E0AE9999D0AE9999F0A
  E999A60AE999B20AE999AC0AE99A8D0AE99A980AE99A950AE99A970AE99AAA0AE99AA70AE99AB10AE99AB20AE99AB00A
  E99AB40AE99AB60AE99AB80AE99AB90AE99B8E0AE99B8B0AE99B890AE99B8D0AE8A58D0AE99B9C0AE99C8D0AE99B950A
  E99BB90AE99C840AE99C860AE99C880AE99C930AE99C8E0AE99C910AE99C8F0AE99C960AE99C990AE99CA40AE99CAA0A
  E99CB00AE99CB90AE99CBD0AE99CBE0AE99D840AE99D860AE99D880AE99D820AE99D890AE99D9C0AE99DA00AE99DA40A
  E99DA60AE99DA80AE58B920AE99DAB0AE99DB10AE99DB90AE99E850AE99DBC0AE99E810AE99DBA0AE99E860AE99E8B0A
  E99E8F0AE99E900AE99E9C0AE99EA80AE99EA60AE99EA30AE99EB30AE99EB40AE99F830AE99F860AE99F880AE99F8B0A
  E99F9C0AE99FAD0AE9BD8F0AE99FB20AE7AB9F0AE99FB60AE99FB50AE9A08F0AE9A08C0AE9A0B80AE9A0A40AE9A0A10A
  E9A0B70AE9A0BD0AE9A1860AE9A18F0AE9A18B0AE9A1AB0AE9A1AF0AE9A1B00A"

/-- tests/test_data/whatwg/shiftjis_whatwg_test_encode_out.txt, part 40 -/
noncomputable def encodeOut39 : List Nat := hex! "E8400AE8410AE8420AE8430AE8440AE8450AE8460AE8470AE8480AE8490AE84A0AE84B0AE84C0AE84D0AE84E0AE84F0A
  E8500AE8510AE8520AE8530AE8540AE8550AE8560AE8570AE8580AE8590AE85A0AE85B0AE85C0AE85D0AE85E0AE85F0A
  E8600AE8610AE8620AE8630AE8640AE8650AE8660AE8670AE8680AE8690AE86A0AE86B0AE86C0AE86D0AE86E0AE86F0A
  E8700AE8710AE8720AE8730AE8740AE8750AE8760AE8770AE8780AE8790AE87A0AE87B0AE87C0AE87D0AE87E0AE8800A
  E8810AE8820AE8830AE8840AE8850AE8860AE8870AE8880AE8890AE88A0AE88B0AE88C0AE88D0AE88E0AE88F0AE8900A
  E8910AE8920AE8930AE8940AE8950AE8960AE8970AE8980AE8990AE89A0AE89B0AE89C0AE89D0AE89E0AE89F0AE8A00A
  E8A10AE8A20AE8A30AE8A40AE8A50AE8A60AE8A70AE8A80AE8A90AE8AA0AE8AB0AE8AC0AE8AD0AE8AE0AE8AF0AE8B00A
  E8B10AE8B20AE8B30AE8B40AE8B50AE8B60AE8B70AE8B80AE8B90AE8BA0AE8BB0AE8BC0AE8BD0AE8BE0AE8BF0AE8C00A
  E8C10AE8C20AE8C30AE8C40AE8C50AE8C60AE8C70AE8C80AE8C90AE8CA0AE8CB0AE8CC0AE8CD0AE8CE0AE8CF0AE8D00A
  E8D10AE8D20AE8D30AE8D40AE8D50AE8D60AE8D70AE8D80AE8D90AE8DA0AE8DB0AE8DC0AE8DD0AE8DE0AE8DF0AE8E00A
  E8E10AE8E20AE8E30AE8E40AE8E50AE8E60AE8E70AE8E80AE8E90AE8EA0AE8EB0AE8EC0AE8ED0AE8EE0AE8EF0AE8F00A
  E8F10AE8F20AE8F30AE8F40AE8F50AE8F60AE8F70AE8F80AE8F90AE8FA0AE8FB0AE8FC0A"

/-- tests/test_data/whatwg/shiftjis_whatwg_test_decode_in.txt, part 41 -/
noncomputable def decodeIn40 : List Nat := hex! "E9400AE9410AE9420AE9430AE9440AE9450AE9460AE9470AE9480AE9490AE94A0AE94B0AE94C0AE94D0AE94E0AE94F0A
  E9500AE9510AE9520AE9530AE9540AE9550AE9560AE9570AE9580AE9590AE95A0AE95B0AE95C0AE95D0AE95E0AE95F0A
  E9600AE9610AE9620AE9630AE9640AE9650AE9660AE9670AE9680AE9690AE96A0AE96B0AE96C0AE96D0AE96E0AE96F0A
  E9700AE9710AE9720AE9730AE9740AE9750AE9760AE9770AE9780AE9790AE97A0AE97B0AE97C0AE97D0AE97E0AE9800A
  E9810AE9820AE9830AE9840AE9850AE9860AE9870AE9880AE9890AE98A0AE98B0AE98C0AE98D0AE98E0AE98F0AE9900A
  E9910AE9920AE9930AE9940AE9950AE9960AE9970AE9980AE9990AE99A0AE99B0AE99C0AE99D0AE99E0AE99F0AE9A00A
  E9A10AE9A20AE9A30AE9A40AE9A50AE9A60AE9A70AE9A80AE9A90AE9AA0AE9AB0AE9AC0AE9AD0AE9AE0AE9AF0AE9B00A
  E9B10AE9B20AE9B30AE9B40AE9B50AE9B60AE9B70AE9B80AE9B90AE9BA0AE9BB0AE9BC0AE9BD0AE9BE0AE9BF0AE9C00A
  E9C10AE9C20AE9C30AE9C40AE9C50AE9C60AE9C70AE9C80AE9C90AE9CA0AE9CB0AE9CC0AE9CD0AE9CE0AE9CF0AE9D00A
  E9D10AE9D20AE9D30AE9D40AE9D50AE9D60AE9D70AE9D80AE9D90AE9DA0AE9DB0AE9DC0AE9DD0AE9DE0AE9DF0AE9E00A
  E9E10AE9E20AE9E30AE9E40AE9E50AE9E60AE9E70AE9E80AE9E90AE9EA0AE9EB0AE9EC0AE9ED0AE9EE0AE9EF0AE9F00A
  E9F10AE9F20AE9F30AE9F40AE9F50AE9F60AE9F70AE9F80AE9F90AE9FA0AE9FB0AE9FC0A"

/-- tests/test_data/whatwg/shiftjis_whatwg_test_decode_out.txt, part 41 -/
noncomputable def decodeOut40 : List Nat := hex! "E9A1B10AE9A1B40AE9A1B30AE9A2AA0AE9A2AF0AE9A2B10AE9A2B60AE9A3840AE9A3830AE9A3860AE9A3A90AE9A3AB0A
  E9A4830AE9A4890AE9A4920AE9A4940AE9A4980AE9A4A10AE9A49D0AE9A49E0AE9A4A40AE9A4A00AE9A4AC0AE9A4AE0A
  E9A4BD0AE9A4BE0AE9A5820AE9A5890AE9A5850AE9A5900AE9A58B0AE9A5910AE9A5920AE9A58C0AE9A5950AE9A6970A
  E9A6980AE9A6A50AE9A6AD0AE9A6AE0AE9A6BC0AE9A79F0AE9A79B0AE9A79D0AE9A7980AE9A7910AE9A7AD0AE9A7AE0A
  E9A7B10AE9A7B20AE9A7BB0AE9A7B80AE9A8810AE9A88F0AE9A8850AE9A7A20AE9A8990AE9A8AB0AE9A8B70AE9A9850A
  E9A9820AE9A9800AE9A9830AE9A8BE0AE9A9950AE9A98D0AE9A99B0AE9A9970AE9A99F0AE9A9A20AE9A9A50AE9A9A40A
  E9A9A90AE9A9AB0AE9A9AA0AE9AAAD0AE9AAB00AE9AABC0AE9AB800AE9AB8F0AE9AB910AE9AB930AE9AB940AE9AB9E0A
  E9AB9F0AE9ABA20AE9ABA30AE9ABA60AE9ABAF0AE9ABAB0AE9ABAE0AE9ABB40AE9ABB10AE9ABB70AE9ABBB0AE9AC860A
  E9AC980AE9AC9A0AE9AC9F0AE9ACA20AE9ACA30AE9ACA50AE9ACA70AE9ACA80AE9ACA90AE9ACAA0AE9ACAE0AE9ACAF0A
  E9ACB20AE9AD840AE9AD830AE9AD8F0AE9AD8D0AE9AD8E0AE9AD910AE9AD980AE9ADB40AE9AE930AE9AE830AE9AE910A
  E9AE960AE9AE970AE9AE9F0AE9AEA00AE9AEA80AE9AEB40AE9AF800AE9AF8A0AE9AEB90AE9AF860AE9AF8F0AE9AF910A
  E9AF920AE9AFA30AE9AFA20AE9AFA40AE9AF940AE9AFA10AE9B0BA0AE9AFB20AE9AFB10AE9AFB00AE9B0950AE9B0940A
  E9B0890AE9B0930AE9B08C0AE9B0860AE9B0880AE9B0920AE9B08A0AE9B0840AE9B0AE0AE9B09B0AE9B0A50AE9B0A40A
  E9B0A10AE9B0B00AE9B1870AE9B0B20AE9B1860AE9B0BE0AE9B19A0AE9B1A00AE9B1A70AE9B1B60AE9B1B80AE9B3A70A
  E9B3AC0AE9B3B00AE9B4890AE9B4880AE9B3AB0AE9B4830AE9B4860AE9B4AA0AE9B4A60AE9B6AF0AE9B4A30AE9B49F0A
  E9B5840AE9B4950AE9B4920AE9B5810AE9B4BF0AE9B4BE0AE9B5860AE9B5880A"

/-- tests/test_data/whatwg/shiftjis_whatwg_test_encode_in.txt, part 41 -/
noncomputable def encodeIn40 : List Nat := hex! "E9A1B10AE9A1B40AE9A1B30AE9A2AA0AE9A2AF0AE9A2B10AE9A2B60AE9A3840AE9A3830AE9A3860AE9A3A90AE9A3AB0A
  E9A4830AE9A4890AE9A4920AE9A4940AE9A4980AE9A4A10AE9A49D0AE9A49E0AE9A4A40AE9A4A00AE9A4AC0AE9A4AE0A
  E9A4BD0AE9A4BE0AE9A5820AE9A5890AE9A5850AE9A5900AE9A58B0AE9A5910AE9A5920AE9A58C0AE9A5950AE9A6970A
  E9A6980AE9A6A50AE9A6AD0AE9A6AE0AE9A6BC0AE9A79F0AE9A79B0AE9A79D0AE9A7980AE9A7910AE9A7AD0AE9A7AE0A
  E9A7B10AE9A7B20AE9A7BB0AE9A7B80AE9A8810AE9A88F0AE9A8850AE9A7A20AE9A8990AE9A8AB0AE9A8B70AE9A9850A
  E9A9820AE9A9800AE9A9830AE9A8BE0AE9A9950AE9A98D0AE9A99B0AE9A9970AE9A99F0AE9A9A20AE9A9A50AE9A9A40A
  E9A9A90AE9A9AB0AE9A9AA0AE9AAAD0AE9AAB00AE9AABC0AE9AB800AE9AB8F0AE9AB910AE9AB930AE9AB940AE9AB9E0A
  E9AB9F0AE9ABA20AE9ABA30AE9ABA60AE9ABAF0AE9ABAB0AE9ABAE0AE9ABB40AE9ABB10AE9ABB70AE9ABBB0AE9AC860A
  E9AC980AE9AC9A0AE9AC9F0AE9ACA20AE9ACA30AE9ACA50AE9ACA70AE9ACA80AE9ACA90AE9ACAA0AE9ACAE0AE9ACAF0A
  E9ACB20AE9AD840AE9AD830AE9AD8F0AE9AD8D0AE9AD8E0AE9AD910AE9AD980AE9ADB40AE9AE930AE9AE830AE9AE910A
  E9AE960AE9AE970AE9AE9F0AE9AEA00AE9AEA80AE9AEB40AE9AF800AE9AF8A0AE9AEB90AE9AF860AE9AF8F0AE9AF910A
  E9AF920AE9AFA30AE9AFA20AE9AFA40AE9AF940AE9AFA10AE9B0BA0AE9AFB20AE9AFB10AE9AFB00AE9B0950AE9B0940A
  E9B0890AE9B0930AE9B08C0AE9B0860AE9B0880AE9B0920AE9B08A0AE9B0840AE9B0AE0AE9B09B0AE9B0A50AE9B0A40A
  E9B0A10AE9B0B00AE9B1870AE9B0B20AE9B1860AE9B0BE0AE9B19A0AE9B1A00AE9B1A70AE9B1B60AE9B1B80AE9B3A70A
  E9B3AC0AE9B3B00AE9B4890AE9B4880AE9B3AB0AE9B4830AE9B4860AE9B4AA0AE9B4A60AE9B6AF0AE9B4A30AE9B49F0A
  E9B5840AE9B4950AE9B4920AE9B5810AE9B4BF0AE9B4BE0AE9B5860AE9B5880A"

/-- tests/test_data/whatwg/shiftjis_whatwg_test_encode_out.txt, part 41 -/
noncomputable def encodeOut40 : List Nat := hex! "E9400AE9410AE9420AE9430AE9440AE9450AE9460AE9470AE9480AE9490AE94A0AE94B0AE94C0AE94D0AE94E0AE94F0A
  E9500AE9510AE9520AE9530AE9540AE9550AE9560AE9570AE9580AE9590AE95A0AE95B0AE95C0AE95D0AE95E0AE95F0A
  E9600AE9610AE9620AE9630AE9640AE9650AE9660AE9670AE9680AE9690AE96A0AE96B0AE96C0AE96D0AE96E0AE96F0A
  E9700AE9710AE9720AE9730AE9740AE9750AE9760AE9770AE9780AE9790AE97A0AE97B0AE97C0AE97D0AE97E0AE9800A
  E9810AE9820AE9830AE9840AE9850AE9860AE9870AE9880AE9890AE98A0AE98B0AE98C0AE98D0AE98E0AE98F0AE9900A
  E9910AE9920AE9930AE9940AE9950AE9960AE9970AE9980AE9990AE99A0AE99B0AE99C0AE99D0AE99E0AE99F0AE9A00A
  E9A10AE9A20AE9A30AE9A40AE9A50AE9A60AE9A70AE9A80AE9A90AE9AA0AE9AB0AE9AC0AE9AD0AE9AE0AE9AF0AE9B00A
  E9B10AE9B20AE9B30AE9B40AE9B50AE9B60AE9B70AE9B80AE9B90AE9BA0AE9BB0AE9BC0AE9BD0AE9BE0AE9BF0AE9C00A
  E9C10AE9C20AE9C30AE9C40AE9C50AE9C60AE9C70AE9C80AE9C90AE9CA0AE9CB0AE9CC0AE9CD0AE9CE0AE9CF0AE9D00A
  E9D10AE9D20AE9D30AE9D40AE9D50AE9D60AE9D70AE9D80AE9D90AE9DA0AE9DB0AE9DC0AE9DD0AE9DE0AE9DF0AE9E00A
  E9E10AE9E20AE9E30AE9E40AE9E50AE9E60AE9E70AE9E80AE9E90AE9EA0AE9EB0AE9EC0AE9ED0AE9EE0AE9EF0AE9F00A
  E9F10AE9F20AE9F30AE9F40AE9F50AE9F60AE9F70AE9F80AE9F90AE9FA0AE9FB0AE9FC0A"

/-- tests/test_data/whatwg/shiftjis_whatwg_test_decode_in.txt, part 42 -/
noncomputable def decodeIn41 : List Nat := hex! "EA400AEA410AEA420AEA430AEA440AEA450AEA460AEA470AEA480AEA490AEA4A0AEA4B0AEA4C0AEA4D0AEA4E0AEA4F0A
  EA500AEA510AEA520AEA530AEA540AEA550AEA560AEA570AEA580AEA590AEA5A0AEA5B0AEA5C0AEA5D0AEA5E0AEA5F0A
  EA600AEA610AEA620AEA630AEA640AEA650AEA660AEA670AEA680AEA690AEA6A0AEA6B0AEA6C0AEA6D0AEA6E0AEA6F0A
  EA700AEA710AEA720AEA730AEA740AEA750AEA760AEA770AEA780AEA790AEA7A0AEA7B0AEA7C0AEA7D0AEA7E0AEA800A
  EA810AEA820AEA830AEA840AEA850AEA860AEA870AEA880AEA890AEA8A0AEA8B0AEA8C0AEA8D0AEA8E0AEA8F0AEA900A
  EA910AEA920AEA930AEA940AEA950AEA960AEA970AEA980AEA990AEA9A0AEA9B0AEA9C0AEA9D0AEA9E0AEA9F0AEAA00A
  EAA10AEAA20AEAA30AEAA40A"

/-- tests/test_data/whatwg/shiftjis_whatwg_test_decode_out.txt, part 42 -/
noncomputable def decodeOut41 : List Nat := hex! "E9B59D0AE9B59E0AE9B5A40AE9B5910AE9B5900AE9B5990AE9B5B20AE9B6890AE9B6870AE9B6AB0AE9B5AF0AE9B5BA0A
  E9B69A0AE9B6A40AE9B6A90AE9B6B20AE9B7840AE9B7810AE9B6BB0AE9B6B80AE9B6BA0AE9B7860AE9B78F0AE9B7820A
  E9B7990AE9B7930AE9B7B80AE9B7A60AE9B7AD0AE9B7AF0AE9B7BD0AE9B89A0AE9B89B0AE9B89E0AE9B9B50AE9B9B90A
  E9B9BD0AE9BA810AE9BA880AE9BA8B0AE9BA8C0AE9BA920AE9BA950AE9BA910AE9BA9D0AE9BAA50AE9BAA90AE9BAB80A
  E9BAAA0AE9BAAD0AE99DA10AE9BB8C0AE9BB8E0AE9BB8F0AE9BB900AE9BB940AE9BB9C0AE9BB9E0AE9BB9D0AE9BBA00A
  E9BBA50AE9BBA80AE9BBAF0AE9BBB40AE9BBB60AE9BBB70AE9BBB90AE9BBBB0AE9BBBC0AE9BBBD0AE9BC870AE9BC880A
  E79AB70AE9BC950AE9BCA10AE9BCAC0AE9BCBE0AE9BD8A0AE9BD920AE9BD940AE9BDA30AE9BD9F0AE9BDA00AE9BDA10A
  E9BDA60AE9BDA70AE9BDAC0AE9BDAA0AE9BDB70AE9BDB20AE9BDB60AE9BE950AE9BE9C0AE9BEA00AE5A0AF0AE6A7870A
  E981990AE791A40AE5879C0AE786990A"

/-- tests/test_data/whatwg/shiftjis_whatwg_test_encode_in.txt, part 42 -/
noncomputable def encodeIn41 : List Nat := hex! "E9B59D0AE9B59E0AE9B5A40AE9B5910AE9B5900AE9B5990AE9B5B20AE9B6890AE9B6870AE9B6AB0AE9B5AF0AE9B5BA0A
  E9B69A0AE9B6A40AE9B6A90AE9B6B20AE9B7840AE9B7810AE9B6BB0AE9B6B80AE9B6BA0AE9B7860AE9B78F0AE9B7820A
  E9B7990AE9B7930AE9B7B80AE9B7A60AE9B7AD0AE9B7AF0AE9B7BD0AE9B89A0AE9B89B0AE9B89E0AE9B9B50AE9B9B90A
  E9B9BD0AE9BA810AE9BA880AE9BA8B0AE9BA8C0AE9BA920AE9BA950AE9BA910AE9BA9D0AE9BAA50AE9BAA90AE9BAB80A
  E9BAAA0AE9BAAD0AE99DA10AE9BB8C0AE9BB8E0AE9BB8F0AE9BB900AE9BB940AE9BB9C0AE9BB9E0AE9BB9D0AE9BBA00A
  E9BBA50AE9BBA80AE9BBAF0AE9BBB40AE9BBB60AE9BBB70AE9BBB90AE9BBBB0AE9BBBC0AE9BBBD0AE9BC870AE9BC880A
  E79AB70AE9BC950AE9BCA10AE9BCAC0AE9BCBE0AE9BD8A0AE9BD920AE9BD940AE9BDA30AE9BD9F0AE9BDA00AE9BDA10A
  E9BDA60AE9BDA70AE9BDAC0AE9BDAA0AE9BDB70AE9BDB20AE9BDB60AE9BE950AE9BE9C0AE9BEA00AE5A0AF0AE6A7870A
  E981990AE791A40AE5879C0AE786990A"

/-- tests/test_data/whatwg/shiftjis_whatwg_test_encode_out.txt, part 42 -/
noncomputable def encodeOut41 : List Nat := hex! "EA400AEA410AEA420AEA430AEA440AEA450AEA460AEA470AEA480AEA490AEA4A0AEA4B0AEA4C0AEA4D0AEA4E0AEA4F0A
  EA500AEA510AEA520AEA530AEA540AEA550AEA560AEA570AEA580AEA590AEA5A0AEA5B0AEA5C0AEA5D0AEA5E0AEA5F0A
  EA600AEA610AEA620AEA630AEA640AEA650AEA660AEA670AEA680AEA690AEA6A0AEA6B0AEA6C0AEA6D0AEA6E0AEA6F0A
  EA700AEA710AEA720AEA730AEA740AEA750AEA760AEA770AEA780AEA790AEA7A0AEA7B0AEA7C0AEA7D0AEA7E0AEA800A
  EA810AEA820AEA830AEA840AEA850AEA860AEA870AEA880AEA890AEA8A0AEA8B0AEA8C0AEA8D0AEA8E0AEA8F0AEA900A
  EA910AEA920AEA930AEA940AEA950AEA960AEA970AEA980AEA990AEA9A0AEA9B0AEA9C0AEA9D0AEA9E0AEA9F0AEAA00A
  EAA10AEAA20AEAA30AEAA40A"

/-- tests/test_data/whatwg/shiftjis_whatwg_test_decode_in.txt, part 43 -/
noncomputable def decodeIn42 : List Nat := hex! ""

/-- tests/test_data/whatwg/shiftjis_whatwg_test_decode_out.txt, part 43 -/
noncomputable def decodeOut42 : List Nat := hex! ""

/-- tests/test_data/whatwg/shiftjis_whatwg_test_encode_in.txt, part 43 -/
noncomputable def encodeIn42 : List Nat := hex! ""

/-- tests/test_data/whatwg/shiftjis_whatwg_test_encode_out.txt, part 43 -/
noncomputable def encodeOut42 : List Nat := hex! ""

/-- tests/test_data/whatwg/shiftjis_whatwg_test_decode_in.txt, part 44 -/
noncomputable def decodeIn43 : List Nat := hex! ""

/-- tests/test_data/whatwg/shiftjis_whatwg_test_decode_out.txt, part 44 -/
noncomputable def decodeOut43 : List Nat := hex! ""

/-- tests/test_data/whatwg/shiftjis_whatwg_test_encode_in.txt, part 44 -/
noncomputable def encodeIn43 : List Nat := hex! ""

/-- tests/test_data/whatwg/shiftjis_whatwg_test_encode_out.txt, part 44 -/
noncomputable def encodeOut43 : List Nat := hex! ""

/-- tests/test_data/whatwg/shiftjis_whatwg_test_decode_in.txt, part 45 -/
noncomputable def decodeIn44 : List Nat := hex! "ED400AED410AED420AED430AED440AED450AED460AED470AED480AED490AED4A0AED4B0AED4C0AED4D0AED4E0AED4F0A
  ED500AED510AED520AED530AED540AED550AED560AED570AED580AED590AED5A0AED5B0AED5C0AED5D0AED5E0AED5F0A
  ED600AED610AED620AED630AED640AED650AED660AED670AED680AED690AED6A0AED6B0AED6C0AED6D0AED6E0AED6F0A
  ED700AED710AED720AED730AED740AED750AED760AED770AED780AED790AED7A0AED7B0AED7C0AED7D0AED7E0AED800A
  ED810AED820AED830AED840AED850AED860AED870AED880AED890AED8A0AED8B0AED8C0AED8D0AED8E0AED8F0AED900A
  ED910AED920AED930AED940AED950AED960AED970AED980AED990AED9A0AED9B0AED9C0AED9D0AED9E0AED9F0AEDA00A
  EDA10AEDA20AEDA30AEDA40AEDA50AEDA60AEDA70AEDA80AEDA90AEDAA0AEDAB0AEDAC0AEDAD0AEDAE0AEDAF0AEDB00A
  EDB10AEDB20AEDB30AEDB40AEDB50AEDB60AEDB70AEDB80AEDB90AEDBA0AEDBB0AEDBC0AEDBD0AEDBE0AEDBF0AEDC00A
  EDC10AEDC20AEDC30AEDC40AEDC50AEDC60AEDC70AEDC80AEDC90AEDCA0AEDCB0AEDCC0AEDCD0AEDCE0AEDCF0AEDD00A
  EDD10AEDD20AEDD30AEDD40AEDD50AEDD60AEDD70AEDD80AEDD90AEDDA0AEDDB0AEDDC0AEDDD0AEDDE0AEDDF0AEDE00A
  EDE10AEDE20AEDE30AEDE40AEDE50AEDE60AEDE70AEDE80AEDE90AEDEA0AEDEB0AEDEC0AEDED0AEDEE0AEDEF0AEDF00A
  EDF10AEDF20AEDF30AEDF40AEDF50AEDF60AEDF70AEDF80AEDF90AEDFA0AEDFB0AEDFC0A"

/-- tests/test_data/whatwg/shiftjis_whatwg_test_decode_out.txt, part 45 -/
noncomputable def decodeOut44 : List Nat := hex! "E7BA8A0AE8A49C0AE98D880AE98A880AE8939C0AE4BF890AE782BB0AE698B10AE6A3880AE98BB90AE69BBB0AE5BD850A
  E4B8A80AE4BBA10AE4BBBC0AE4BC800AE4BC830AE4BCB90AE4BD960AE4BE920AE4BE8A0AE4BE9A0AE4BE940AE4BF8D0A
  E581800AE580A20AE4BFBF0AE5809E0AE581860AE581B00AE581820AE582940AE583B40AE583980AE5858A0AE585A40A
  E5869D0AE586BE0AE587AC0AE588950AE58A9C0AE58AA60AE58B800AE58B9B0AE58C800AE58C870AE58CA40AE58DB20A
  E58E930AE58EB20AE58F9D0AEFA88E0AE5929C0AE5928A0AE592A90AE593BF0AE596860AE59D990AE59DA50AE59EAC0A
  E59F880AE59F870AEFA88F0AEFA8900AE5A29E0AE5A2B20AE5A48B0AE5A5930AE5A59B0AE5A59D0AE5A5A30AE5A6A40A
  E5A6BA0AE5AD960AE5AF800AE794AF0AE5AF980AE5AFAC0AE5B09E0AE5B2A60AE5B2BA0AE5B3B50AE5B4A70AE5B5930A
  EFA8910AE5B5820AE5B5AD0AE5B6B80AE5B6B90AE5B7900AE5BCA10AE5BCB40AE5BDA70AE5BEB70AE5BF9E0AE6819D0A
  E682850AE6828A0AE6839E0AE683950AE684A00AE683B20AE684910AE684B70AE684B00AE686980AE688930AE68AA60A
  E68FB50AE691A00AE6929D0AE6938E0AE6958E0AE698800AE698950AE698BB0AE698890AE698AE0AE6989E0AE698A40A
  E699A50AE699970AE699990AEFA8920AE699B30AE69A990AE69AA00AE69AB20AE69ABF0AE69BBA0AE69C8E0AEFA4A90A
  E69DA60AE69EBB0AE6A1920AE69F800AE6A0810AE6A1840AE6A38F0AEFA8930AE6A5A80AEFA8940AE6A6980AE6A7A20A
  E6A8B00AE6A9AB0AE6A9860AE6A9B30AE6A9BE0AE6ABA20AE6ABA40AE6AF960AE6B0BF0AE6B19C0AE6B2860AE6B1AF0A
  E6B39A0AE6B4840AE6B6870AE6B5AF0AE6B6960AE6B6AC0AE6B78F0AE6B7B80AE6B7B20AE6B7BC0AE6B8B90AE6B99C0A
  E6B8A70AE6B8BC0AE6BABF0AE6BE880AE6BEB50AE6BFB50AE780850AE780870AE780A80AE782850AE782AB0AE7848F0A
  E784840AE7859C0AE785860AE785870AEFA8950AE787810AE787BE0AE78AB10A"

/-- tests/test_data/whatwg/shiftjis_whatwg_test_encode_in.txt, part 45 -/
noncomputable def encodeIn44 : List Nat := hex! ""

/-- tests/test_data/whatwg/shiftjis_whatwg_test_encode_out.txt, part 45 -/
noncomputable def encodeOut44 : List Nat := hex! ""

/-- tests/test_data/whatwg/shiftjis_whatwg_test_decode_in.txt, part 46 -/
noncomputable def decodeIn45 : List Nat := hex! "EE400AEE410AEE420AEE430AEE440AEE450AEE460AEE470AEE480AEE490AEE4A0AEE4B0AEE4C0AEE4D0AEE4E0AEE4F0A
  EE500AEE510AEE520AEE530AEE540AEE550AEE560AEE570AEE580AEE590AEE5A0AEE5B0AEE5C0AEE5D0AEE5E0AEE5F0A
  EE600AEE610AEE620AEE630AEE640AEE650AEE660AEE670AEE680AEE690AEE6A0AEE6B0AEE6C0AEE6D0AEE6E0AEE6F0A
  EE700AEE710AEE720AEE730AEE740AEE750AEE760AEE770AEE780AEE790AEE7A0AEE7B0AEE7C0AEE7D0AEE7E0AEE800A
  EE810AEE820AEE830AEE840AEE850AEE860AEE870AEE880AEE890AEE8A0AEE8B0AEE8C0AEE8D0AEE8E0AEE8F0AEE900A
  EE910AEE920AEE930AEE940AEE950AEE960AEE970AEE980AEE990AEE9A0AEE9B0AEE9C0AEE9D0AEE9E0AEE9F0AEEA00A
  EEA10AEEA20AEEA30AEEA40AEEA50AEEA60AEEA70AEEA80AEEA90AEEAA0AEEAB0AEEAC0AEEAD0AEEAE0AEEAF0AEEB00A
  EEB10AEEB20AEEB30AEEB40AEEB50AEEB60AEEB70AEEB80AEEB90AEEBA0AEEBB0AEEBC0AEEBD0AEEBE0AEEBF0AEEC00A
  EEC10AEEC20AEEC30AEEC40AEEC50AEEC60AEEC70AEEC80AEEC90AEECA0AEECB0AEECC0AEECD0AEECE0AEECF0AEED00A
  EED10AEED20AEED30AEED40AEED50AEED60AEED70AEED80AEED90AEEDA0AEEDB0AEEDC0AEEDD0AEEDE0AEEDF0AEEE00A
  EEE10AEEE20AEEE30AEEE40AEEE50AEEE60AEEE70AEEE80AEEE90AEEEA0AEEEB0AEEEC0AEEEF0AEEF00AEEF10AEEF20A
  EEF30AEEF40AEEF50AEEF60AEEF70AEEF80AEEF90AEEFA0AEEFB0AEEFC0A"

/-- tests/test_data/whatwg/shiftjis_whatwg_test_decode_out.txt, part 46 -/
noncomputable def decodeOut45 : List Nat := hex! "E78ABE0AE78CA40AEFA8960AE78DB70AE78EBD0AE78F890AE78F960AE78FA30AE78F920AE790870AE78FB50AE790A60A
  E790AA0AE790A90AE790AE0AE791A20AE792890AE7929F0AE794810AE795AF0AE79A820AE79A9C0AE79A9E0AE79A9B0A
  E79AA60AEFA8970AE79D860AE58AAF0AE7A0A10AE7A18E0AE7A1A40AE7A1BA0AE7A4B00AEFA8980AEFA8990AEFA89A0A
  E7A6940AEFA89B0AE7A69B0AE7AB910AE7ABA70AEFA89C0AE7ABAB0AE7AE9E0AEFA89D0AE7B5880AE7B59C0AE7B6B70A
  E7B6A00AE7B7960AE7B9920AE7BD870AE7BEA10AEFA89E0AE88C810AE88DA20AE88DBF0AE88F870AE88FB60AE891880A
  E892B40AE895930AE895990AE895AB0AEFA89F0AE896B00AEFA8A00AEFA8A10AE8A0870AE8A3B50AE8A8920AE8A8B70A
  E8A9B90AE8AAA70AE8AABE0AE8AB9F0AEFA8A20AE8ABB60AE8AD930AE8ADBF0AE8B3B00AE8B3B40AE8B4920AE8B5B60A
  EFA8A30AE8BB8F0AEFA8A40AEFA8A50AE981A70AE9839E0AEFA8A60AE984950AE984A70AE9879A0AE987970AE9879E0A
  E987AD0AE987AE0AE987A40AE987A50AE988860AE988900AE9888A0AE988BA0AE989800AE988BC0AE9898E0AE989990A
  E989910AE988B90AE989A70AE98AA70AE989B70AE989B80AE98BA70AE98B970AE98B990AE98B900AEFA8A70AE98B950A
  E98BA00AE98B930AE98CA50AE98CA10AE98BBB0AEFA8A80AE98C9E0AE98BBF0AE98C9D0AE98C820AE98DB00AE98D970A
  E98EA40AE98F860AE98F9E0AE98FB80AE990B10AE991850AE991880AE996920AEFA79C0AEFA8A90AE99A9D0AE99AAF0A
  E99CB30AE99CBB0AE99D830AE99D8D0AE99D8F0AE99D910AE99D950AE9A1970AE9A1A50AEFA8AA0AEFA8AB0AE9A4A70A
  EFA8AC0AE9A69E0AE9A98E0AE9AB990AE9AB9C0AE9ADB50AE9ADB20AE9AE8F0AE9AEB10AE9AEBB0AE9B0800AE9B5B00A
  E9B5AB0AEFA8AD0AE9B8990AE9BB910AE285B00AE285B10AE285B20AE285B30AE285B40AE285B50AE285B60AE285B70A
  E285B80AE285B90AEFBFA20AEFBFA40AEFBC870AEFBC820A"

/-- tests/test_data/whatwg/shiftjis_whatwg_test_encode_in.txt, part 46 -/
noncomputable def encodeIn45 : List Nat := hex! ""

/-- tests/test_data/whatwg/shiftjis_whatwg_test_encode_out.txt, part 46 -/
noncomputable def encodeOut45 : List Nat := hex! ""

/-- tests/test_data/whatwg/shiftjis_whatwg_test_decode_in.txt, part 47 -/
noncomputable def decodeIn46 : List Nat := hex! ""

/-- tests/test_data/whatwg/shiftjis_whatwg_test_decode_out.txt, part 47 -/
noncomputable def decodeOut46 : List Nat := hex! ""

/-- tests/test_data/whatwg/shiftjis_whatwg_test_encode_in.txt, part 47 -/
noncomputable def encodeIn46 : List Nat := hex! ""

/-- tests/test_data/whatwg/shiftjis_whatwg_test_encode_out.txt, part 47 -/
noncomputable def encodeOut46 : List Nat := hex! ""

/-- tests/test_data/whatwg/shiftjis_whatwg_test_decode_in.txt, part 48 -/
noncomputable def decodeIn47 : List Nat := hex! ""

/-- tests/test_data/whatwg/shiftjis_whatwg_test_decode_out.txt, part 48 -/
noncomputable def decodeOut47 : List Nat := hex! ""

/-- tests/test_data/whatwg/shiftjis_whatwg_test_encode_in.txt, part 48 -/
noncomputable def encodeIn47 : List Nat := hex! ""

/-- tests/test_data/whatwg/shiftjis_whatwg_test_encode_out.txt, part 48 -/
noncomputable def encodeOut47 : List Nat := hex! ""

/-- tests/test_data/whatwg/shiftjis_whatwg_test_decode_in.txt, part 49 -/
noncomputable def decodeIn48 : List Nat := hex! ""

/-- tests/test_data/whatwg/shiftjis_whatwg_test_decode_out.txt, part 49 -/
noncomputable def decodeOut48 : List Nat := hex! ""

/-- tests/test_data/whatwg/shiftjis_whatwg_test_encode_in.txt, part 49 -/
noncomputable def encodeIn48 : List Nat := hex! ""

/-- tests/test_data/whatwg/shiftjis_whatwg_test_encode_out.txt, part 49 -/
noncomputable def encodeOut48 : List Nat := hex! ""

/-- tests/test_data/whatwg/shiftjis_whatwg_test_decode_in.txt, part 50 -/
noncomputable def decodeIn49 : List Nat := hex! ""

/-- tests/test_data/whatwg/shiftjis_whatwg_test_decode_out.txt, part 50 -/
noncomputable def decodeOut49 : List Nat := hex! ""

/-- tests/test_data/whatwg/shiftjis_whatwg_test_encode_in.txt, part 50 -/
noncomputable def encodeIn49 : List Nat := hex! ""

/-- tests/test_data/whatwg/shiftjis_whatwg_test_encode_out.txt, part 50 -/
noncomputable def encodeOut49 : List Nat := hex! ""

/-- tests/test_data/whatwg/shiftjis_whatwg_test_decode_in.txt, part 51 -/
noncomputable def decodeIn50 : List Nat := hex! ""

/-- tests/test_data/whatwg/shiftjis_whatwg_test_decode_out.txt, part 51 -/
noncomputable def decodeOut50 : List Nat := hex! ""

/-- tests/test_data/whatwg/shiftjis_whatwg_test_encode_in.txt, part 51 -/
noncomputable def encodeIn50 : List Nat := hex! ""

/-- tests/test_data/whatwg/shiftjis_whatwg_test_encode_out.txt, part 51 -/
noncomputable def encodeOut50 : List Nat := hex! ""

/-- tests/test_data/whatwg/shiftjis_whatwg_test_decode_in.txt, part 52 -/
noncomputable def decodeIn51 : List Nat := hex! ""

/-- tests/test_data/whatwg/shiftjis_whatwg_test_decode_out.txt, part 52 -/
noncomputable def decodeOut51 : List Nat := hex! ""

/-- tests/test_data/whatwg/shiftjis_whatwg_test_encode_in.txt, part 52 -/
noncomputable def encodeIn51 : List Nat := hex! ""

/-- tests/test_data/whatwg/shiftjis_whatwg_test_encode_out.txt, part 52 -/
noncomputable def encodeOut51 : List Nat := hex! ""

/-- tests/test_data/whatwg/shiftjis_whatwg_test_decode_in.txt, part 53 -/
noncomputable def decodeIn52 : List Nat := hex! ""

/-- tests/test_data/whatwg/shiftjis_whatwg_test_decode_out.txt, part 53 -/
noncomputable def decodeOut52 : List Nat := hex! ""

/-- tests/test_data/whatwg/shiftjis_whatwg_test_encode_in.txt, part 53 -/
noncomputable def encodeIn52 : List Nat := hex! ""

/-- tests/test_data/whatwg/shiftjis_whatwg_test_encode_out.txt, part 53 -/
noncomputable def encodeOut52 : List Nat := hex! ""

/-- tests/test_data/whatwg/shiftjis_whatwg_test_decode_in.txt, part 54 -/
noncomputable def decodeIn53 : List Nat := hex! ""

/-- tests/test_data/whatwg/shiftjis_whatwg_test_decode_out.txt, part 54 -/
noncomputable def decodeOut53 : List Nat := hex! ""

/-- tests/test_data/whatwg/shiftjis_whatwg_test_encode_in.txt, part 54 -/
noncomputable def encodeIn53 : List Nat := hex! ""

/-- tests/test_data/whatwg/shiftjis_whatwg_test_encode_out.txt, part 54 -/
noncomputable def encodeOut53 : List Nat := hex! ""

/-- tests/test_data/whatwg/shiftjis_whatwg_test_decode_in.txt, part 55 -/
noncomputable def decodeIn54 : List Nat := hex! ""

/-- tests/test_data/whatwg/shiftjis_whatwg_test_decode_out.txt, part 55 -/
noncomputable def decodeOut54 : List Nat := hex! ""

/-- tests/test_data/whatwg/shiftjis_whatwg_test_encode_in.txt, part 55 -/
noncomputable def encodeIn54 : List Nat := hex! ""

/-- tests/test_data/whatwg/shiftjis_whatwg_test_encode_out.txt, part 55 -/
noncomputable def encodeOut54 : List Nat := hex! ""

/-- tests/test_data/whatwg/shiftjis_whatwg_test_decode_in.txt, part 56 -/
noncomputable def decodeIn55 : List Nat := hex! ""

/-- tests/test_data/whatwg/shiftjis_whatwg_test_decode_out.txt, part 56 -/
noncomputable def decodeOut55 : List Nat := hex! ""

/-- tests/test_data/whatwg/shiftjis_whatwg_test_encode_in.txt, part 56 -/
noncomputable def encodeIn55 : List Nat := hex! ""

/-- tests/test_data/whatwg/shiftjis_whatwg_test_encode_out.txt, part 56 -/
noncomputable def encodeOut55 : List Nat := hex! ""

/-- tests/test_data/whatwg/shiftjis_whatwg_test_decode_in.txt, part 57 -/
noncomputable def decodeIn56 : List Nat := hex! ""

/-- tests/test_data/whatwg/shiftjis_whatwg_test_decode_out.txt, part 57 -/
noncomputable def decodeOut56 : List Nat := hex! ""

/-- tests/test_data/whatwg/shiftjis_whatwg_test_encode_in.txt, part 57 -/
noncomputable def encodeIn56 : List Nat := hex! ""

/-- tests/test_data/whatwg/shiftjis_whatwg_test_encode_out.txt, part 57 -/
noncomputable def encodeOut56 : List Nat := hex! ""

/-- tests/test_data/whatwg/shiftjis_whatwg_test_decode_in.txt, part 58 -/
noncomputable def decodeIn57 : List Nat := hex! "FA400AFA410AFA420AFA430AFA440AFA450AFA460AFA470AFA480AFA490AFA4A0AFA4B0AFA4C0AFA4D0AFA4E0AFA4F0A
  FA500AFA510AFA520AFA530AFA540AFA550AFA560AFA570AFA580AFA590AFA5A0AFA5B0AFA5C0AFA5D0AFA5E0AFA5F0A
  FA600AFA610AFA620AFA630AFA640AFA650AFA660AFA670AFA680AFA690AFA6A0AFA6B0AFA6C0AFA6D0AFA6E0AFA6F0A
  FA700AFA710AFA720AFA730AFA740AFA750AFA760AFA770AFA780AFA790AFA7A0AFA7B0AFA7C0AFA7D0AFA7E0AFA800A
  FA810AFA820AFA830AFA840AFA850AFA860AFA870AFA880AFA890AFA8A0AFA8B0AFA8C0AFA8D0AFA8E0AFA8F0AFA900A
  FA910AFA920AFA930AFA940AFA950AFA960AFA970AFA980AFA990AFA9A0AFA9B0AFA9C0AFA9D0AFA9E0AFA9F0AFAA00A
  FAA10AFAA20AFAA30AFAA40AFAA50AFAA60AFAA70AFAA80AFAA90AFAAA0AFAAB0AFAAC0AFAAD0AFAAE0AFAAF0AFAB00A
  FAB10AFAB20AFAB30AFAB40AFAB50AFAB60AFAB70AFAB80AFAB90AFABA0AFABB0AFABC0AFABD0AFABE0AFABF0AFAC00A
  FAC10AFAC20AFAC30AFAC40AFAC50AFAC60AFAC70AFAC80AFAC90AFACA0AFACB0AFACC0AFACD0AFACE0AFACF0AFAD00A
  FAD10AFAD20AFAD30AFAD40AFAD50AFAD60AFAD70AFAD80AFAD90AFADA0AFADB0AFADC0AFADD0AFADE0AFADF0AFAE00A
  FAE10AFAE20AFAE30AFAE40AFAE50AFAE60AFAE70AFAE80AFAE90AFAEA0AFAEB0AFAEC0AFAED0AFAEE0AFAEF0AFAF00A
  FAF10AFAF20AFAF30AFAF40AFAF50AFAF60AFAF70AFAF80AFAF90AFAFA0AFAFB0AFAFC0A"

/-- tests/test_data/whatwg/shiftjis_whatwg_test_decode_out.txt, part 58 -/
noncomputable def decodeOut57 : List Nat := hex! "E285B00AE285B10AE285B20AE285B30AE285B40AE285B50AE285B60AE285B70AE285B80AE285B90AE285A00AE285A10A
  E285A20AE285A30AE285A40AE285A50AE285A60AE285A70AE285A80AE285A90AEFBFA20AEFBFA40AEFBC870AEFBC820A
  E388B10AE284960AE284A10AE288B50AE7BA8A0AE8A49C0AE98D880AE98A880AE8939C0AE4BF890AE782BB0AE698B10A
  E6A3880AE98BB90AE69BBB0AE5BD850AE4B8A80AE4BBA10AE4BBBC0AE4BC800AE4BC830AE4BCB90AE4BD960AE4BE920A
  E4BE8A0AE4BE9A0AE4BE940AE4BF8D0AE581800AE580A20AE4BFBF0AE5809E0AE581860AE581B00AE581820AE582940A
  E583B40AE583980AE5858A0AE585A40AE5869D0AE586BE0AE587AC0AE588950AE58A9C0AE58AA60AE58B800AE58B9B0A
  E58C800AE58C870AE58CA40AE58DB20AE58E930AE58EB20AE58F9D0AEFA88E0AE5929C0AE5928A0AE592A90AE593BF0A
  E596860AE59D990AE59DA50AE59EAC0AE59F880AE59F870AEFA88F0AEFA8900AE5A29E0AE5A2B20AE5A48B0AE5A5930A
  E5A59B0AE5A59D0AE5A5A30AE5A6A40AE5A6BA0AE5AD960AE5AF800AE794AF0AE5AF980AE5AFAC0AE5B09E0AE5B2A60A
  E5B2BA0AE5B3B50AE5B4A70AE5B5930AEFA8910AE5B5820AE5B5AD0AE5B6B80AE5B6B90AE5B7900AE5BCA10AE5BCB40A
  E5BDA70AE5BEB70AE5BF9E0AE6819D0AE682850AE6828A0AE6839E0AE683950AE684A00AE683B20AE684910AE684B70A
  E684B00AE686980AE688930AE68AA60AE68FB50AE691A00AE6929D0AE6938E0AE6958E0AE698800AE698950AE698BB0A
  E698890AE698AE0AE6989E0AE698A40AE699A50AE699970AE699990AEFA8920AE699B30AE69A990AE69AA00AE69AB20A
  E69ABF0AE69BBA0AE69C8E0AEFA4A90AE69DA60AE69EBB0AE6A1920AE69F800AE6A0810AE6A1840AE6A38F0AEFA8930A
  E6A5A80AEFA8940AE6A6980AE6A7A20AE6A8B00AE6A9AB0AE6A9860AE6A9B30AE6A9BE0AE6ABA20AE6ABA40AE6AF960A
  E6B0BF0AE6B19C0AE6B2860AE6B1AF0AE6B39A0AE6B4840AE6B6870AE6B5AF0A"

/-- tests/test_data/whatwg/shiftjis_whatwg_test_encode_in.txt, part 58 -/
noncomputable def encodeIn57 : List Nat := hex! "E285B00AE285B10AE285B20AE285B30AE285B40AE285B50AE285B60AE285B70AE285B80AE285B90AEFBFA40AEFBC870A
  EFBC820AE7BA8A0AE8A49C0AE98D880AE98A880AE8939C0AE4BF890AE782BB0AE698B10AE6A3880AE98BB90AE69BBB0A
  E5BD850AE4B8A80AE4BBA10AE4BBBC0AE4BC800AE4BC830AE4BCB90AE4BD960AE4BE920AE4BE8A0AE4BE9A0AE4BE940A
  E4BF8D0AE581800AE580A20AE4BFBF0AE5809E0AE581860AE581B00AE581820AE582940AE583B40AE583980AE5858A0A
  E585A40AE5869D0AE586BE0AE587AC0AE588950AE58A9C0AE58AA60AE58B800AE58B9B0AE58C800AE58C870AE58CA40A
  E58DB20AE58E930AE58EB20AE58F9D0AEFA88E0AE5929C0AE5928A0AE592A90AE593BF0AE596860AE59D990AE59DA50A
  E59EAC0AE59F880AE59F870AEFA88F0AEFA8900AE5A29E0AE5A2B20AE5A48B0AE5A5930AE5A59B0AE5A59D0AE5A5A30A
  E5A6A40AE5A6BA0AE5AD960AE5AF800AE794AF0AE5AF980AE5AFAC0AE5B09E0AE5B2A60AE5B2BA0AE5B3B50AE5B4A70A
  E5B5930AEFA8910AE5B5820AE5B5AD0AE5B6B80AE5B6B90AE5B7900AE5BCA10AE5BCB40AE5BDA70AE5BEB70AE5BF9E0A
  E6819D0AE682850AE6828A0AE6839E0AE683950AE684A00AE683B20AE684910AE684B70AE684B00AE686980AE688930A
  E68AA60AE68FB50AE691A00AE6929D0AE6938E0AE6958E0AE698800AE698950AE698BB0AE698890AE698AE0AE6989E0A
  E698A40AE699A50AE699970AE699990AEFA8920AE699B30AE69A990AE69AA00AE69AB20AE69ABF0AE69BBA0AE69C8E0A
  EFA4A90AE69DA60AE69EBB0AE6A1920AE69F800AE6A0810AE6A1840AE6A38F0AEFA8930AE6A5A80AEFA8940AE6A6980A
  E6A7A20AE6A8B00AE6A9AB0AE6A9860AE6A9B30AE6A9BE0AE6ABA20AE6ABA40AE6AF960AE6B0BF0AE6B19C0AE6B2860A
  E6B1AF0AE6B39A0AE6B4840AE6B6870AE6B5AF0A"

/-- tests/test_data/whatwg/shiftjis_whatwg_test_encode_out.txt, part 58 -/
noncomputable def encodeOut57 : List Nat := hex! "FA400AFA410AFA420AFA430AFA440AFA450AFA460AFA470AFA480AFA490AFA550AFA560AFA570AFA5C0AFA5D0AFA5E0A
  FA5F0AFA600AFA610AFA620AFA630AFA640AFA650AFA660AFA670AFA680AFA690AFA6A0AFA6B0AFA6C0AFA6D0AFA6E0A
  FA6F0AFA700AFA710AFA720AFA730AFA740AFA750AFA760AFA770AFA780AFA790AFA7A0AFA7B0AFA7C0AFA7D0AFA7E0A
  FA800AFA810AFA820AFA830AFA840AFA850AFA860AFA870AFA880AFA890AFA8A0AFA8B0AFA8C0AFA8D0AFA8E0AFA8F0A
  FA900AFA910AFA920AFA930AFA940AFA950AFA960AFA970AFA980AFA990AFA9A0AFA9B0AFA9C0AFA9D0AFA9E0AFA9F0A
  FAA00AFAA10AFAA20AFAA30AFAA40AFAA50AFAA60AFAA70AFAA80AFAA90AFAAA0AFAAB0AFAAC0AFAAD0AFAAE0AFAAF0A
  FAB00AFAB10AFAB20AFAB30AFAB40AFAB50AFAB60AFAB70AFAB80AFAB90AFABA0AFABB0AFABC0AFABD0AFABE0AFABF0A
  FAC00AFAC10AFAC20AFAC30AFAC40AFAC50AFAC60AFAC70AFAC80AFAC90AFACA0AFACB0AFACC0AFACD0AFACE0AFACF0A
  FAD00AFAD10AFAD20AFAD30AFAD40AFAD50AFAD60AFAD70AFAD80AFAD90AFADA0AFADB0AFADC0AFADD0AFADE0AFADF0A
  FAE00AFAE10AFAE20AFAE30AFAE40AFAE50AFAE60AFAE70AFAE80AFAE90AFAEA0AFAEB0AFAEC0AFAED0AFAEE0AFAEF0A
  FAF00AFAF10AFAF20AFAF30AFAF40AFAF50AFAF60AFAF70AFAF80AFAF90AFAFA0AFAFB0AFAFC0A"

/-- tests/test_data/whatwg/shiftjis_whatwg_test_decode_in.txt, part 59 -/
noncomputable def decodeIn58 : List Nat := hex! "FB400AFB410AFB420AFB430AFB440AFB450AFB460AFB470AFB480AFB490AFB4A0AFB4B0AFB4C0AFB4D0AFB4E0AFB4F0A
  FB500AFB510AFB520AFB530AFB540AFB550AFB560AFB570AFB580AFB590AFB5A0AFB5B0AFB5C0AFB5D0AFB5E0AFB5F0A
  FB600AFB610AFB620AFB630AFB640AFB650AFB660AFB670AFB680AFB690AFB6A0AFB6B0AFB6C0AFB6D0AFB6E0AFB6F0A
  FB700AFB710AFB720AFB730AFB740AFB750AFB760AFB770AFB780AFB790AFB7A0AFB7B0AFB7C0AFB7D0AFB7E0AFB800A
  FB810AFB820AFB830AFB840AFB850AFB860AFB870AFB880AFB890AFB8A0AFB8B0AFB8C0AFB8D0AFB8E0AFB8F0AFB900A
  FB910AFB920AFB930AFB940AFB950AFB960AFB970AFB980AFB990AFB9A0AFB9B0AFB9C0AFB9D0AFB9E0AFB9F0AFBA00A
  FBA10AFBA20AFBA30AFBA40AFBA50AFBA60AFBA70AFBA80AFBA90AFBAA0AFBAB0AFBAC0AFBAD0AFBAE0AFBAF0AFBB00A
  FBB10AFBB20AFBB30AFBB40AFBB50AFBB60AFBB70AFBB80AFBB90AFBBA0AFBBB0AFBBC0AFBBD0AFBBE0AFBBF0AFBC00A
  FBC10AFBC20AFBC30AFBC40AFBC50AFBC60AFBC70AFBC80AFBC90AFBCA0AFBCB0AFBCC0AFBCD0AFBCE0AFBCF0AFBD00A
  FBD10AFBD20AFBD30AFBD40AFBD50AFBD60AFBD70AFBD80AFBD90AFBDA0AFBDB0AFBDC0AFBDD0AFBDE0AFBDF0AFBE00A
  FBE10AFBE20AFBE30AFBE40AFBE50AFBE60AFBE70AFBE80AFBE90AFBEA0AFBEB0AFBEC0AFBED0AFBEE0AFBEF0AFBF00A
  FBF10AFBF20AFBF30AFBF40AFBF50AFBF60AFBF70AFBF80AFBF90AFBFA0AFBFB0AFBFC0A"

/-- tests/test_data/whatwg/shiftjis_whatwg_test_decode_out.txt, part 59 -/
noncomputable def decodeOut58 : List Nat := hex! "E6B6960AE6B6AC0AE6B78F0AE6B7B80AE6B7B20AE6B7BC0AE6B8B90AE6B99C0AE6B8A70AE6B8BC0AE6BABF0AE6BE880A
  E6BEB50AE6BFB50AE780850AE780870AE780A80AE782850AE782AB0AE7848F0AE784840AE7859C0AE785860AE785870A
  EFA8950AE787810AE787BE0AE78AB10AE78ABE0AE78CA40AEFA8960AE78DB70AE78EBD0AE78F890AE78F960AE78FA30A
  E78F920AE790870AE78FB50AE790A60AE790AA0AE790A90AE790AE0AE791A20AE792890AE7929F0AE794810AE795AF0A
  E79A820AE79A9C0AE79A9E0AE79A9B0AE79AA60AEFA8970AE79D860AE58AAF0AE7A0A10AE7A18E0AE7A1A40AE7A1BA0A
  E7A4B00AEFA8980AEFA8990AEFA89A0AE7A6940AEFA89B0AE7A69B0AE7AB910AE7ABA70AEFA89C0AE7ABAB0AE7AE9E0A
  EFA89D0AE7B5880AE7B59C0AE7B6B70AE7B6A00AE7B7960AE7B9920AE7BD870AE7BEA10AEFA89E0AE88C810AE88DA20A
  E88DBF0AE88F870AE88FB60AE891880AE892B40AE895930AE895990AE895AB0AEFA89F0AE896B00AEFA8A00AEFA8A10A
  E8A0870AE8A3B50AE8A8920AE8A8B70AE8A9B90AE8AAA70AE8AABE0AE8AB9F0AEFA8A20AE8ABB60AE8AD930AE8ADBF0A
  E8B3B00AE8B3B40AE8B4920AE8B5B60AEFA8A30AE8BB8F0AEFA8A40AEFA8A50AE981A70AE9839E0AEFA8A60AE984950A
  E984A70AE9879A0AE987970AE9879E0AE987AD0AE987AE0AE987A40AE987A50AE988860AE988900AE9888A0AE988BA0A
  E989800AE988BC0AE9898E0AE989990AE989910AE988B90AE989A70AE98AA70AE989B70AE989B80AE98BA70AE98B970A
  E98B990AE98B900AEFA8A70AE98B950AE98BA00AE98B930AE98CA50AE98CA10AE98BBB0AEFA8A80AE98C9E0AE98BBF0A
  E98C9D0AE98C820AE98DB00AE98D970AE98EA40AE98F860AE98F9E0AE98FB80AE990B10AE991850AE991880AE996920A
  EFA79C0AEFA8A90AE99A9D0AE99AAF0AE99CB30AE99CBB0AE99D830AE99D8D0AE99D8F0AE99D910AE99D950AE9A1970A
  E9A1A50AEFA8AA0AEFA8AB0AE9A4A70AEFA8AC0AE9A69E0AE9A98E0AE9AB990A"

/-- tests/test_data/whatwg/shiftjis_whatwg_test_encode_in.txt, part 59 -/
noncomputable def encodeIn58 : List Nat := hex! "E6B6960AE6B6AC0AE6B78F0AE6B7B80AE6B7B20AE6B7BC0AE6B8B90AE6B99C0AE6B8A70AE6B8BC0AE6BABF0AE6BE880A
  E6BEB50AE6BFB50AE780850AE780870AE780A80AE782850AE782AB0AE7848F0AE784840AE7859C0AE785860AE785870A
  EFA8950AE787810AE787BE0AE78AB10AE78ABE0AE78CA40AEFA8960AE78DB70AE78EBD0AE78F890AE78F960AE78FA30A
  E78F920AE790870AE78FB50AE790A60AE790AA0AE790A90AE790AE0AE791A20AE792890AE7929F0AE794810AE795AF0A
  E79A820AE79A9C0AE79A9E0AE79A9B0AE79AA60AEFA8970AE79D860AE58AAF0AE7A0A10AE7A18E0AE7A1A40AE7A1BA0A
  E7A4B00AEFA8980AEFA8990AEFA89A0AE7A6940AEFA89B0AE7A69B0AE7AB910AE7ABA70AEFA89C0AE7ABAB0AE7AE9E0A
  EFA89D0AE7B5880AE7B59C0AE7B6B70AE7B6A00AE7B7960AE7B9920AE7BD870AE7BEA10AEFA89E0AE88C810AE88DA20A
  E88DBF0AE88F870AE88FB60AE891880AE892B40AE895930AE895990AE895AB0AEFA89F0AE896B00AEFA8A00AEFA8A10A
  E8A0870AE8A3B50AE8A8920AE8A8B70AE8A9B90AE8AAA70AE8AABE0AE8AB9F0AEFA8A20AE8ABB60AE8AD930AE8ADBF0A
  E8B3B00AE8B3B40AE8B4920AE8B5B60AEFA8A30AE8BB8F0AEFA8A40AEFA8A50AE981A70AE9839E0AEFA8A60AE984950A
  E984A70AE9879A0AE987970AE9879E0AE987AD0AE987AE0AE987A40AE987A50AE988860AE988900AE9888A0AE988BA0A
  E989800AE988BC0AE9898E0AE989990AE989910AE988B90AE989A70AE98AA70AE989B70AE989B80AE98BA70AE98B970A
  E98B990AE98B900AEFA8A70AE98B950AE98BA00AE98B930AE98CA50AE98CA10AE98BBB0AEFA8A80AE98C9E0AE98BBF0A
  E98C9D0AE98C820AE98DB00AE98D970AE98EA40AE98F860AE98F9E0AE98FB80AE990B10AE991850AE991880AE996920A
  EFA79C0AEFA8A90AE99A9D0AE99AAF0AE99CB30AE99CBB0AE99D830AE99D8D0AE99D8F0AE99D910AE99D950AE9A1970A
  E9A1A50AEFA8AA0AEFA8AB0AE9A4A70AEFA8AC0AE9A69E0AE9A98E0AE9AB990A"

/-- tests/test_data/whatwg/shiftjis_whatwg_test_encode_out.txt, part 59 -/
noncomputable def encodeOut58 : List Nat := hex! "FB400AFB410AFB420AFB430AFB440AFB450AFB460AFB470AFB480AFB490AFB4A0AFB4B0AFB4C0AFB4D0AFB4E0AFB4F0A
  FB500AFB510AFB520AFB530AFB540AFB550AFB560AFB570AFB580AFB590AFB5A0AFB5B0AFB5C0AFB5D0AFB5E0AFB5F0A
  FB600AFB610AFB620AFB630AFB640AFB650AFB660AFB670AFB680AFB690AFB6A0AFB6B0AFB6C0AFB6D0AFB6E0AFB6F0A
  FB700AFB710AFB720AFB730AFB740AFB750AFB760AFB770AFB780AFB790AFB7A0AFB7B0AFB7C0AFB7D0AFB7E0AFB800A
  FB810AFB820AFB830AFB840AFB850AFB860AFB870AFB880AFB890AFB8A0AFB8B0AFB8C0AFB8D0AFB8E0AFB8F0AFB900A
  FB910AFB920AFB930AFB940AFB950AFB960AFB970AFB980AFB990AFB9A0AFB9B0AFB9C0AFB9D0AFB9E0AFB9F0AFBA00A
  FBA10AFBA20AFBA30AFBA40AFBA50AFBA60AFBA70AFBA80AFBA90AFBAA0AFBAB0AFBAC0AFBAD0AFBAE0AFBAF0AFBB00A
  FBB10AFBB20AFBB30AFBB40AFBB50AFBB60AFBB70AFBB80AFBB90AFBBA0AFBBB0AFBBC0AFBBD0AFBBE0AFBBF0AFBC00A
  FBC10AFBC20AFBC30AFBC40AFBC50AFBC60AFBC70AFBC80AFBC90AFBCA0AFBCB0AFBCC0AFBCD0AFBCE0AFBCF0AFBD00A
  FBD10AFBD20AFBD30AFBD40AFBD50AFBD60AFBD70AFBD80AFBD90AFBDA0AFBDB0AFBDC0AFBDD0AFBDE0AFBDF0AFBE00A
  FBE10AFBE20AFBE30AFBE40AFBE50AFBE60AFBE70AFBE80AFBE90AFBEA0AFBEB0AFBEC0AFBED0AFBEE0AFBEF0AFBF00A
  FBF10AFBF20AFBF30AFBF40AFBF50AFBF60AFBF70AFBF80AFBF90AFBFA0AFBFB0AFBFC0A"

/-- tests/test_data/whatwg/shiftjis_whatwg_test_decode_in.txt, part 60 -/
noncomputable def decodeIn59 : List Nat := hex! "FC400AFC410AFC420AFC430AFC440AFC450AFC460AFC470AFC480AFC490AFC4A0AFC4B0A"

/-- tests/test_data/whatwg/shiftjis_whatwg_test_decode_out.txt, part 60 -/
noncomputable def decodeOut59 : List Nat := hex! "E9AB9C0AE9ADB50AE9ADB20AE9AE8F0AE9AEB10AE9AEBB0AE9B0800AE9B5B00AE9B5AB0AEFA8AD0AE9B8990AE9BB910A"

/-- tests/test_data/whatwg/shiftjis_whatwg_test_encode_in.txt, part 60 -/
noncomputable def encodeIn59 : List Nat := hex! "E9AB9C0AE9ADB50AE9ADB20AE9AE8F0AE9AEB10AE9AEBB0AE9B0800AE9B5B00AE9B5AB0AEFA8AD0AE9B8990AE9BB910A"

/-- tests/test_data/whatwg/shiftjis_whatwg_test_encode_out.txt, part 60 -/
noncomputable def encodeOut59 : List Nat := hex! "FC400AFC410AFC420AFC430AFC440AFC450AFC460AFC470AFC480AFC490AFC4A0AFC4B0A"

end Verif.Files.ShiftJis
