import Verif.Hex

/-! Generated by tools/gen_files.py: verbatim copies of parts of files of /repo. -/

namespace Verif.Files.ShiftJis

/-- tests/test_data/whatwg/shiftjis_whatwg_test_decode_in.txt, part 1 -/
noncomputable def decodeIn0 : List Nat := hex! "81400A81410A81420A81430A81440A81450A81460A81470A81480A81490A814A0A814B0A814C0A814D0A814E0A814F0A
  81500A81510A81520A81530A81540A81550A81560A81570A81580A81590A815A0A815B0A815C0A815D0A815E0A815F0A
  81600A81610A81620A81630A81640A81650A81660A81670A81680A81690A816A0A816B0A816C0A816D0A816E0A816F0A
  81700A81710A81720A81730A81740A81750A81760A81770A81780A81790A817A0A817B0A817C0A817D0A817E0A81800A
  81810A81820A81830A81840A81850A81860A81870A81880A81890A818A0A818B0A818C0A818D0A818E0A818F0A81900A
  81910A81920A81930A81940A81950A81960A81970A81980A81990A819A0A819B0A819C0A819D0A819E0A819F0A81A00A
  81A10A81A20A81A30A81A40A81A50A81A60A81A70A81A80A81A90A81AA0A81AB0A81AC0A81B80A81B90A81BA0A81BB0A
  81BC0A81BD0A81BE0A81BF0A81C80A81C90A81CA0A81CB0A81CC0A81CD0A81CE0A81DA0A81DB0A81DC0A81DD0A81DE0A
  81DF0A81E00A81E10A81E20A81E30A81E40A81E50A81E60A81E70A81E80A81F00A81F10A81F20A81F30A81F40A81F50A
  81F60A81F70A81FC0A"

/-- tests/test_data/whatwg/shiftjis_whatwg_test_decode_out.txt, part 1 -/
noncomputable def decodeOut0 : List Nat := hex! "E380800AE380810AE380820AEFBC8C0AEFBC8E0AE383BB0AEFBC9A0AEFBC9B0AEFBC9F0AEFBC810AE3829B0AE3829C0A
  C2B40AEFBD800AC2A80AEFBCBE0AEFBFA30AEFBCBF0AE383BD0AE383BE0AE3829D0AE3829E0AE380830AE4BB9D0AE380
  850AE380860AE380870AE383BC0AE280950AE280900AEFBC8F0AEFBCBC0AEFBD9E0AE288A50AEFBD9C0AE280A60AE280
  A50AE280980AE280990AE2809C0AE2809D0AEFBC880AEFBC890AE380940AE380950AEFBCBB0AEFBCBD0AEFBD9B0AEFBD
  9D0AE380880AE380890AE3808A0AE3808B0AE3808C0AE3808D0AE3808E0AE3808F0AE380900AE380910AEFBC8B0AEFBC
  8D0AC2B10AC3970AC3B70AEFBC9D0AE289A00AEFBC9C0AEFBC9E0AE289A60AE289A70AE2889E0AE288B40AE299820AE2
  99800AC2B00AE280B20AE280B30AE284830AEFBFA50AEFBC840AEFBFA00AEFBFA10AEFBC850AEFBC830AEFBC860AEFBC
  8A0AEFBCA00AC2A70AE298860AE298850AE2978B0AE2978F0AE2978E0AE297870AE297860AE296A10AE296A00AE296B3
  0AE296B20AE296BD0AE296BC0AE280BB0AE380920AE286920AE286900AE286910AE286930AE380930AE288880AE2888B
  0AE28A860AE28A870AE28A820AE28A830AE288AA0AE288A90AE288A70AE288A80AEFBFA20AE287920AE287940AE28880
  0AE288830AE288A00AE28AA50AE28C920AE288820AE288870AE289A10AE289920AE289AA0AE289AB0AE2889A0AE288BD
  0AE2889D0AE288B50AE288AB0AE288AC0AE284AB0AE280B00AE299AF0AE299AD0AE299AA0AE280A00AE280A10AC2B60A
  E297AF0A"

/-- tests/test_data/whatwg/shiftjis_whatwg_test_encode_in.txt, part 1 -/
noncomputable def encodeIn0 : List Nat := hex! "E380800AE380810AE380820AEFBC8C0AEFBC8E0AE383BB0AEFBC9A0AEFBC9B0AEFBC9F0AEFBC810AE3829B0AE3829C0A
  C2B40AEFBD800AC2A80AEFBCBE0AEFBFA30AEFBCBF0AE383BD0AE383BE0AE3829D0AE3829E0AE380830AE4BB9D0AE380
  850AE380860AE380870AE383BC0AE280950AE280900AEFBC8F0AEFBCBC0AEFBD9E0AE288A50AEFBD9C0AE280A60AE280
  A50AE280980AE280990AE2809C0AE2809D0AEFBC880AEFBC890AE380940AE380950AEFBCBB0AEFBCBD0AEFBD9B0AEFBD
  9D0AE380880AE380890AE3808A0AE3808B0AE3808C0AE3808D0AE3808E0AE3808F0AE380900AE380910AEFBC8B0AEFBC
  8D0AC2B10AC3970AC3B70AEFBC9D0AE289A00AEFBC9C0AEFBC9E0AE289A60AE289A70AE2889E0AE288B40AE299820AE2
  99800AC2B00AE280B20AE280B30AE284830AEFBFA50AEFBC840AEFBFA00AEFBFA10AEFBC850AEFBC830AEFBC860AEFBC
  8A0AEFBCA00AC2A70AE298860AE298850AE2978B0AE2978F0AE2978E0AE297870AE297860AE296A10AE296A00AE296B3
  0AE296B20AE296BD0AE296BC0AE280BB0AE380920AE286920AE286900AE286910AE286930AE380930AE288880AE2888B
  0AE28A860AE28A870AE28A820AE28A830AE288AA0AE288A90AE288A70AE288A80AEFBFA20AE287920AE287940AE28880
  0AE288830AE288A00AE28AA50AE28C920AE288820AE288870AE289A10AE289920AE289AA0AE289AB0AE2889A0AE288BD
  0AE2889D0AE288B50AE288AB0AE288AC0AE284AB0AE280B00AE299AF0AE299AD0AE299AA0AE280A00AE280A10AC2B60A
  E297AF0A"

/-- tests/test_data/whatwg/shiftjis_whatwg_test_encode_out.txt, part 1 -/
noncomputable def encodeOut0 : List Nat := hex! "81400A81410A81420A81430A81440A81450A81460A81470A81480A81490A814A0A814B0A814C0A814D0A814E0A814F0A
  81500A81510A81520A81530A81540A81550A81560A81570A81580A81590A815A0A815B0A815C0A815D0A815E0A815F0A
  81600A81610A81620A81630A81640A81650A81660A81670A81680A81690A816A0A816B0A816C0A816D0A816E0A816F0A
  81700A81710A81720A81730A81740A81750A81760A81770A81780A81790A817A0A817B0A817C0A817D0A817E0A81800A
  81810A81820A81830A81840A81850A81860A81870A81880A81890A818A0A818B0A818C0A818D0A818E0A818F0A81900A
  81910A81920A81930A81940A81950A81960A81970A81980A81990A819A0A819B0A819C0A819D0A819E0A819F0A81A00A
  81A10A81A20A81A30A81A40A81A50A81A60A81A70A81A80A81A90A81AA0A81AB0A81AC0A81B80A81B90A81BA0A81BB0A
  81BC0A81BD0A81BE0A81BF0A81C80A81C90A81CA0A81CB0A81CC0A81CD0A81CE0A81DA0A81DB0A81DC0A81DD0A81DE0A
  81DF0A81E00A81E10A81E20A81E30A81E40A81E50A81E60A81E70A81E80A81F00A81F10A81F20A81F30A81F40A81F50A
  81F60A81F70A81FC0A"

/-- tests/test_data/whatwg/shiftjis_whatwg_test_decode_in.txt, part 2 -/
noncomputable def decodeIn1 : List Nat := hex! "824F0A82500A82510A82520A82530A82540A82550A82560A82570A82580A82600A82610A82620A82630A82640A82650A
  82660A82670A82680A82690A826A0A826B0A826C0A826D0A826E0A826F0A82700A82710A82720A82730A82740A82750A
  82760A82770A82780A82790A82810A82820A82830A82840A82850A82860A82870A82880A82890A828A0A828B0A828C0A
  828D0A828E0A828F0A82900A82910A82920A82930A82940A82950A82960A82970A82980A82990A829A0A829F0A82A00A
  82A10A82A20A82A30A82A40A82A50A82A60A82A70A82A80A82A90A82AA0A82AB0A82AC0A82AD0A82AE0A82AF0A82B00A
  82B10A82B20A82B30A82B40A82B50A82B60A82B70A82B80A82B90A82BA0A82BB0A82BC0A82BD0A82BE0A82BF0A82C00A
  82C10A82C20A82C30A82C40A82C50A82C60A82C70A82C80A82C90A82CA0A82CB0A82CC0A82CD0A82CE0A82CF0A82D00A
  82D10A82D20A82D30A82D40A82D50A82D60A82D70A82D80A82D90A82DA0A82DB0A82DC0A82DD0A82DE0A82DF0A82E00A
  82E10A82E20A82E30A82E40A82E50A82E60A82E70A82E80A82E90A82EA0A82EB0A82EC0A82ED0A82EE0A82EF0A82F00A
  82F10A"

/-- tests/test_data/whatwg/shiftjis_whatwg_test_decode_out.txt, part 2 -/
noncomputable def decodeOut1 : List Nat := hex! "EFBC900AEFBC910AEFBC920AEFBC930AEFBC940AEFBC950AEFBC960AEFBC970AEFBC980AEFBC990AEFBCA10AEFBCA20A
  EFBCA30AEFBCA40AEFBCA50AEFBCA60AEFBCA70AEFBCA80AEFBCA90AEFBCAA0AEFBCAB0AEFBCAC0AEFBCAD0AEFBCAE0A
  EFBCAF0AEFBCB00AEFBCB10AEFBCB20AEFBCB30AEFBCB40AEFBCB50AEFBCB60AEFBCB70AEFBCB80AEFBCB90AEFBCBA0A
  EFBD810AEFBD820AEFBD830AEFBD840AEFBD850AEFBD860AEFBD870AEFBD880AEFBD890AEFBD8A0AEFBD8B0AEFBD8C0A
  EFBD8D0AEFBD8E0AEFBD8F0AEFBD900AEFBD910AEFBD920AEFBD930AEFBD940AEFBD950AEFBD960AEFBD970AEFBD980A
  EFBD990AEFBD9A0AE381810AE381820AE381830AE381840AE381850AE381860AE381870AE381880AE381890AE3818A0A
  E3818B0AE3818C0AE3818D0AE3818E0AE3818F0AE381900AE381910AE381920AE381930AE381940AE381950AE381960A
  E381970AE381980AE381990AE3819A0AE3819B0AE3819C0AE3819D0AE3819E0AE3819F0AE381A00AE381A10AE381A20A
  E381A30AE381A40AE381A50AE381A60AE381A70AE381A80AE381A90AE381AA0AE381AB0AE381AC0AE381AD0AE381AE0A
  E381AF0AE381B00AE381B10AE381B20AE381B30AE381B40AE381B50AE381B60AE381B70AE381B80AE381B90AE381BA0A
  E381BB0AE381BC0AE381BD0AE381BE0AE381BF0AE382800AE382810AE382820AE382830AE382840AE382850AE382860A
  E382870AE382880AE382890AE3828A0AE3828B0AE3828C0AE3828D0AE3828E0AE3828F0AE382900AE382910AE382920A
  E382930A"

/-- tests/test_data/whatwg/shiftjis_whatwg_test_encode_in.txt, part 2 -/
noncomputable def encodeIn1 : List Nat := hex! "EFBC900AEFBC910AEFBC920AEFBC930AEFBC940AEFBC950AEFBC960AEFBC970AEFBC980AEFBC990AEFBCA10AEFBCA20A
  EFBCA30AEFBCA40AEFBCA50AEFBCA60AEFBCA70AEFBCA80AEFBCA90AEFBCAA0AEFBCAB0AEFBCAC0AEFBCAD0AEFBCAE0A
  EFBCAF0AEFBCB00AEFBCB10AEFBCB20AEFBCB30AEFBCB40AEFBCB50AEFBCB60AEFBCB70AEFBCB80AEFBCB90AEFBCBA0A
  EFBD810AEFBD820AEFBD830AEFBD840AEFBD850AEFBD860AEFBD870AEFBD880AEFBD890AEFBD8A0AEFBD8B0AEFBD8C0A
  EFBD8D0AEFBD8E0AEFBD8F0AEFBD900AEFBD910AEFBD920AEFBD930AEFBD940AEFBD950AEFBD960AEFBD970AEFBD980A
  EFBD990AEFBD9A0AE381810AE381820AE381830AE381840AE381850AE381860AE381870AE381880AE381890AE3818A0A
  E3818B0AE3818C0AE3818D0AE3818E0AE3818F0AE381900AE381910AE381920AE381930AE381940AE381950AE381960A
  E381970AE381980AE381990AE3819A0AE3819B0AE3819C0AE3819D0AE3819E0AE3819F0AE381A00AE381A10AE381A20A
  E381A30AE381A40AE381A50AE381A60AE381A70AE381A80AE381A90AE381AA0AE381AB0AE381AC0AE381AD0AE381AE0A
  E381AF0AE381B00AE381B10AE381B20AE381B30AE381B40AE381B50AE381B60AE381B70AE381B80AE381B90AE381BA0A
  E381BB0AE381BC0AE381BD0AE381BE0AE381BF0AE382800AE382810AE382820AE382830AE382840AE382850AE382860A
  E382870AE382880AE382890AE3828A0AE3828B0AE3828C0AE3828D0AE3828E0AE3828F0AE382900AE382910AE382920A
  E382930A"

/-- tests/test_data/whatwg/shiftjis_whatwg_test_encode_out.txt, part 2 -/
noncomputable def encodeOut1 : List Nat := hex! "824F0A82500A82510A82520A82530A82540A82550A82560A82570A82580A82600A82610A82620A82630A82640A82650A
  82660A82670A82680A82690A826A0A826B0A826C0A826D0A826E0A826F0A82700A82710A82720A82730A82740A82750A
  82760A82770A82780A82790A82810A82820A82830A82840A82850A82860A82870A82880A82890A828A0A828B0A828C0A
  828D0A828E0A828F0A82900A82910A82920A82930A82940A82950A82960A82970A82980A82990A829A0A829F0A82A00A
  82A10A82A20A82A30A82A40A82A50A82A60A82A70A82A80A82A90A82AA0A82AB0A82AC0A82AD0A82AE0A82AF0A82B00A
  82B10A82B20A82B30A82B40A82B50A82B60A82B70A82B80A82B90A82BA0A82BB0A82BC0A82BD0A82BE0A82BF0A82C00A
  82C10A82C20A82C30A82C40A82C50A82C60A82C70A82C80A82C90A82CA0A82CB0A82CC0A82CD0A82CE0A82CF0A82D00A
  82D10A82D20A82D30A82D40A82D50A82D60A82D70A82D80A82D90A82DA0A82DB0A82DC0A82DD0A82DE0A82DF0A82E00A
  82E10A82E20A82E30A82E40A82E50A82E60A82E70A82E80A82E90A82EA0A82EB0A82EC0A82ED0A82EE0A82EF0A82F00A
  82F10A"

/-- tests/test_data/whatwg/shiftjis_whatwg_test_decode_in.txt, part 3 -/
noncomputable def decodeIn2 : List Nat := hex! "83400A83410A83420A83430A83440A83450A83460A83470A83480A83490A834A0A834B0A834C0A834D0A834E0A834F0A
  83500A83510A83520A83530A83540A83550A83560A83570A83580A83590A835A0A835B0A835C0A835D0A835E0A835F0A
  83600A83610A83620A83630A83640A83650A83660A83670A83680A83690A836A0A836B0A836C0A836D0A836E0A836F0A
  83700A83710A83720A83730A83740A83750A83760A83770A83780A83790A837A0A837B0A837C0A837D0A837E0A83800A
  83810A83820A83830A83840A83850A83860A83870A83880A83890A838A0A838B0A838C0A838D0A838E0A838F0A83900A
  83910A83920A83930A83940A83950A83960A839F0A83A00A83A10A83A20A83A30A83A40A83A50A83A60A83A70A83A80A
  83A90A83AA0A83AB0A83AC0A83AD0A83AE0A83AF0A83B00A83B10A83B20A83B30A83B40A83B50A83B60A83BF0A83C00A
  83C10A83C20A83C30A83C40A83C50A83C60A83C70A83C80A83C90A83CA0A83CB0A83CC0A83CD0A83CE0A83CF0A83D00A
  83D10A83D20A83D30A83D40A83D50A83D60A"

/-- tests/test_data/whatwg/shiftjis_whatwg_test_decode_out.txt, part 3 -/
noncomputable def decodeOut2 : List Nat := hex! "E382A10AE382A20AE382A30AE382A40AE382A50AE382A60AE382A70AE382A80AE382A90AE382AA0AE382AB0AE382AC0A
  E382AD0AE382AE0AE382AF0AE382B00AE382B10AE382B20AE382B30AE382B40AE382B50AE382B60AE382B70AE382B80A
  E382B90AE382BA0AE382BB0AE382BC0AE382BD0AE382BE0AE382BF0AE383800AE383810AE383820AE383830AE383840A
  E383850AE383860AE383870AE383880AE383890AE3838A0AE3838B0AE3838C0AE3838D0AE3838E0AE3838F0AE383900A
  E383910AE383920AE383930AE383940AE383950AE383960AE383970AE383980AE383990AE3839A0AE3839B0AE3839C0A
  E3839D0AE3839E0AE3839F0AE383A00AE383A10AE383A20AE383A30AE383A40AE383A50AE383A60AE383A70AE383A80A
  E383A90AE383AA0AE383AB0AE383AC0AE383AD0AE383AE0AE383AF0AE383B00AE383B10AE383B20AE383B30AE383B40A
  E383B50AE383B60ACE910ACE920ACE930ACE940ACE950ACE960ACE970ACE980ACE990ACE9A0ACE9B0ACE9C0ACE9D0ACE
  9E0ACE9F0ACEA00ACEA10ACEA30ACEA40ACEA50ACEA60ACEA70ACEA80ACEA90ACEB10ACEB20ACEB30ACEB40ACEB50ACE
  B60ACEB70ACEB80ACEB90ACEBA0ACEBB0ACEBC0ACEBD0ACEBE0ACEBF0ACF800ACF810ACF830ACF840ACF850ACF860ACF
  870ACF880ACF890A"

/-- tests/test_data/whatwg/shiftjis_whatwg_test_encode_in.txt, part 3 -/
noncomputable def encodeIn2 : List Nat := hex! "E382A10AE382A20AE382A30AE382A40AE382A50AE382A60AE382A70AE382A80AE382A90AE382AA0AE382AB0AE382AC0A
  E382AD0AE382AE0AE382AF0AE382B00AE382B10AE382B20AE382B30AE382B40AE382B50AE382B60AE382B70AE382B80A
  E382B90AE382BA0AE382BB0AE382BC0AE382BD0AE382BE0AE382BF0AE383800AE383810AE383820AE383830AE383840A
  E383850AE383860AE383870AE383880AE383890AE3838A0AE3838B0AE3838C0AE3838D0AE3838E0AE3838F0AE383900A
  E383910AE383920AE383930AE383940AE383950AE383960AE383970AE383980AE383990AE3839A0AE3839B0AE3839C0A
  E3839D0AE3839E0AE3839F0AE383A00AE383A10AE383A20AE383A30AE383A40AE383A50AE383A60AE383A70AE383A80A
  E383A90AE383AA0AE383AB0AE383AC0AE383AD0AE383AE0AE383AF0AE383B00AE383B10AE383B20AE383B30AE383B40A
  E383B50AE383B60ACE910ACE920ACE930ACE940ACE950ACE960ACE970ACE980ACE990ACE9A0ACE9B0ACE9C0ACE9D0ACE
  9E0ACE9F0ACEA00ACEA10ACEA30ACEA40ACEA50ACEA60ACEA70ACEA80ACEA90ACEB10ACEB20ACEB30ACEB40ACEB50ACE
  B60ACEB70ACEB80ACEB90ACEBA0ACEBB0ACEBC0ACEBD0ACEBE0ACEBF0ACF800ACF810ACF830ACF840ACF850ACF860ACF
  870ACF880ACF890A"

/-- tests/test_data/whatwg/shiftjis_whatwg_test_encode_out.txt, part 3 -/
noncomputable def encodeOut2 : List Nat := hex! "83400A83410A83420A83430A83440A83450A83460A83470A83480A83490A834A0A834B0A834C0A834D0A834E0A834F0A
  83500A83510A83520A83530A83540A83550A83560A83570A83580A83590A835A0A835B0A835C0A835D0A835E0A835F0A
  83600A83610A83620A83630A83640A83650A83660A83670A83680A83690A836A0A836B0A836C0A836D0A836E0A836F0A
  83700A83710A83720A83730A83740A83750A83760A83770A83780A83790A837A0A837B0A837C0A837D0A837E0A83800A
  83810A83820A83830A83840A83850A83860A83870A83880A83890A838A0A838B0A838C0A838D0A838E0A838F0A83900A
  83910A83920A83930A83940A83950A83960A839F0A83A00A83A10A83A20A83A30A83A40A83A50A83A60A83A70A83A80A
  83A90A83AA0A83AB0A83AC0A83AD0A83AE0A83AF0A83B00A83B10A83B20A83B30A83B40A83B50A83B60A83BF0A83C00A
  83C10A83C20A83C30A83C40A83C50A83C60A83C70A83C80A83C90A83CA0A83CB0A83CC0A83CD0A83CE0A83CF0A83D00A
  83D10A83D20A83D30A83D40A83D50A83D60A"

/-- tests/test_data/whatwg/shiftjis_whatwg_test_decode_in.txt, part 4 -/
noncomputable def decodeIn3 : List Nat := hex! "84400A84410A84420A84430A84440A84450A84460A84470A84480A84490A844A0A844B0A844C0A844D0A844E0A844F0A
  84500A84510A84520A84530A84540A84550A84560A84570A84580A84590A845A0A845B0A845C0A845D0A845E0A845F0A
  84600A84700A84710A84720A84730A84740A84750A84760A84770A84780A84790A847A0A847B0A847C0A847D0A847E0A
  84800A84810A84820A84830A84840A84850A84860A84870A84880A84890A848A0A848B0A848C0A848D0A848E0A848F0A
  84900A84910A849F0A84A00A84A10A84A20A84A30A84A40A84A50A84A60A84A70A84A80A84A90A84AA0A84AB0A84AC0A
  84AD0A84AE0A84AF0A84B00A84B10A84B20A84B30A84B40A84B50A84B60A84B70A84B80A84B90A84BA0A84BB0A84BC0A
  84BD0A84BE0A"

/-- tests/test_data/whatwg/shiftjis_whatwg_test_decode_out.txt, part 4 -/
noncomputable def decodeOut3 : List Nat := hex! "D0900AD0910AD0920AD0930AD0940AD0950AD0810AD0960AD0970AD0980AD0990AD09A0AD09B0AD09C0AD09D0AD09E0A
  D09F0AD0A00AD0A10AD0A20AD0A30AD0A40AD0A50AD0A60AD0A70AD0A80AD0A90AD0AA0AD0AB0AD0AC0AD0AD0AD0AE0A
  D0AF0AD0B00AD0B10AD0B20AD0B30AD0B40AD0B50AD1910AD0B60AD0B70AD0B80AD0B90AD0BA0AD0BB0AD0BC0AD0BD0A
  D0BE0AD0BF0AD1800AD1810AD1820AD1830AD1840AD1850AD1860AD1870AD1880AD1890AD18A0AD18B0AD18C0AD18D0A
  D18E0AD18F0AE294800AE294820AE2948C0AE294900AE294980AE294940AE2949C0AE294AC0AE294A40AE294B40AE294
  BC0AE294810AE294830AE2948F0AE294930AE2949B0AE294970AE294A30AE294B30AE294AB0AE294BB0AE2958B0AE294
  A00AE294AF0AE294A80AE294B70AE294BF0AE2949D0AE294B00AE294A50AE294B80AE295820A"

/-- tests/test_data/whatwg/shiftjis_whatwg_test_encode_in.txt, part 4 -/
noncomputable def encodeIn3 : List Nat := hex! "D0900AD0910AD0920AD0930AD0940AD0950AD0810AD0960AD0970AD0980AD0990AD09A0AD09B0AD09C0AD09D0AD09E0A
  D09F0AD0A00AD0A10AD0A20AD0A30AD0A40AD0A50AD0A60AD0A70AD0A80AD0A90AD0AA0AD0AB0AD0AC0AD0AD0AD0AE0A
  D0AF0AD0B00AD0B10AD0B20AD0B30AD0B40AD0B50AD1910AD0B60AD0B70AD0B80AD0B90AD0BA0AD0BB0AD0BC0AD0BD0A
  D0BE0AD0BF0AD1800AD1810AD1820AD1830AD1840AD1850AD1860AD1870AD1880AD1890AD18A0AD18B0AD18C0AD18D0A
  D18E0AD18F0AE294800AE294820AE2948C0AE294900AE294980AE294940AE2949C0AE294AC0AE294A40AE294B40AE294
  BC0AE294810AE294830AE2948F0AE294930AE2949B0AE294970AE294A30AE294B30AE294AB0AE294BB0AE2958B0AE294
  A00AE294AF0AE294A80AE294B70AE294BF0AE2949D0AE294B00AE294A50AE294B80AE295820A"

/-- tests/test_data/whatwg/shiftjis_whatwg_test_encode_out.txt, part 4 -/
noncomputable def encodeOut3 : List Nat := hex! "84400A84410A84420A84430A84440A84450A84460A84470A84480A84490A844A0A844B0A844C0A844D0A844E0A844F0A
  84500A84510A84520A84530A84540A84550A84560A84570A84580A84590A845A0A845B0A845C0A845D0A845E0A845F0A
  84600A84700A84710A84720A84730A84740A84750A84760A84770A84780A84790A847A0A847B0A847C0A847D0A847E0A
  84800A84810A84820A84830A84840A84850A84860A84870A84880A84890A848A0A848B0A848C0A848D0A848E0A848F0A
  84900A84910A849F0A84A00A84A10A84A20A84A30A84A40A84A50A84A60A84A70A84A80A84A90A84AA0A84AB0A84AC0A
  84AD0A84AE0A84AF0A84B00A84B10A84B20A84B30A84B40A84B50A84B60A84B70A84B80A84B90A84BA0A84BB0A84BC0A
  84BD0A84BE0A"

/-- tests/test_data/whatwg/shiftjis_whatwg_test_decode_in.txt, part 5 -/
noncomputable def decodeIn4 : List Nat := hex! ""

/-- tests/test_data/whatwg/shiftjis_whatwg_test_decode_out.txt, part 5 -/
noncomputable def decodeOut4 : List Nat := hex! ""

/-- tests/test_data/whatwg/shiftjis_whatwg_test_encode_in.txt, part 5 -/
noncomputable def encodeIn4 : List Nat := hex! ""

/-- tests/test_data/whatwg/shiftjis_whatwg_test_encode_out.txt, part 5 -/
noncomputable def encodeOut4 : List Nat := hex! ""

/-- tests/test_data/whatwg/shiftjis_whatwg_test_decode_in.txt, part 6 -/
noncomputable def decodeIn5 : List Nat := hex! ""

/-- tests/test_data/whatwg/shiftjis_whatwg_test_decode_out.txt, part 6 -/
noncomputable def decodeOut5 : List Nat := hex! ""

/-- tests/test_data/whatwg/shiftjis_whatwg_test_encode_in.txt, part 6 -/
noncomputable def encodeIn5 : List Nat := hex! ""

/-- tests/test_data/whatwg/shiftjis_whatwg_test_encode_out.txt, part 6 -/
noncomputable def encodeOut5 : List Nat := hex! ""

/-- tests/test_data/whatwg/shiftjis_whatwg_test_decode_in.txt, part 7 -/
noncomputable def decodeIn6 : List Nat := hex! "87400A87410A87420A87430A87440A87450A87460A87470A87480A87490A874A0A874B0A874C0A874D0A874E0A874F0A
  87500A87510A87520A87530A87540A87550A87560A87570A87580A87590A875A0A875B0A875C0A875D0A875F0A87600A
  87610A87620A87630A87640A87650A87660A87670A87680A87690A876A0A876B0A876C0A876D0A876E0A876F0A87700A
  87710A87720A87730A87740A87750A877E0A87800A87810A87820A87830A87840A87850A87860A87870A87880A87890A
  878A0A878B0A878C0A878D0A878E0A878F0A87900A87910A87920A87930A87940A87950A87960A87970A87980A87990A
  879A0A879B0A879C0A"

/-- tests/test_data/whatwg/shiftjis_whatwg_test_decode_out.txt, part 7 -/
noncomputable def decodeOut6 : List Nat := hex! "E291A00AE291A10AE291A20AE291A30AE291A40AE291A50AE291A60AE291A70AE291A80AE291A90AE291AA0AE291AB0A
  E291AC0AE291AD0AE291AE0AE291AF0AE291B00AE291B10AE291B20AE291B30AE285A00AE285A10AE285A20AE285A30A
  E285A40AE285A50AE285A60AE285A70AE285A80AE285A90AE38D890AE38C940AE38CA20AE38D8D0AE38C980AE38CA70A
  E38C830AE38CB60AE38D910AE38D970AE38C8D0AE38CA60AE38CA30AE38CAB0AE38D8A0AE38CBB0AE38E9C0AE38E9D0A
  E38E9E0AE38E8E0AE38E8F0AE38F840AE38EA10AE38DBB0AE3809D0AE3809F0AE284960AE38F8D0AE284A10AE38AA40A
  E38AA50AE38AA60AE38AA70AE38AA80AE388B10AE388B20AE388B90AE38DBE0AE38DBD0AE38DBC0AE289920AE289A10A
  E288AB0AE288AE0AE288910AE2889A0AE28AA50AE288A00AE2889F0AE28ABF0AE288B50AE288A90AE288AA0A"

/-- tests/test_data/whatwg/shiftjis_whatwg_test_encode_in.txt, part 7 -/
noncomputable def encodeIn6 : List Nat := hex! "E291A00AE291A10AE291A20AE291A30AE291A40AE291A50AE291A60AE291A70AE291A80AE291A90AE291AA0AE291AB0A
  E291AC0AE291AD0AE291AE0AE291AF0AE291B00AE291B10AE291B20AE291B30AE285A00AE285A10AE285A20AE285A30A
  E285A40AE285A50AE285A60AE285A70AE285A80AE285A90AE38D890AE38C940AE38CA20AE38D8D0AE38C980AE38CA70A
  E38C830AE38CB60AE38D910AE38D970AE38C8D0AE38CA60AE38CA30AE38CAB0AE38D8A0AE38CBB0AE38E9C0AE38E9D0A
  E38E9E0AE38E8E0AE38E8F0AE38F840AE38EA10AE38DBB0AE3809D0AE3809F0AE284960AE38F8D0AE284A10AE38AA40A
  E38AA50AE38AA60AE38AA70AE38AA80AE388B10AE388B20AE388B90AE38DBE0AE38DBD0AE38DBC0AE288AE0AE288910A
  E2889F0AE28ABF0A"

/-- tests/test_data/whatwg/shiftjis_whatwg_test_encode_out.txt, part 7 -/
noncomputable def encodeOut6 : List Nat := hex! "87400A87410A87420A87430A87440A87450A87460A87470A87480A87490A874A0A874B0A874C0A874D0A874E0A874F0A
  87500A87510A87520A87530A87540A87550A87560A87570A87580A87590A875A0A875B0A875C0A875D0A875F0A87600A
  87610A87620A87630A87640A87650A87660A87670A87680A87690A876A0A876B0A876C0A876D0A876E0A876F0A87700A
  87710A87720A87730A87740A87750A877E0A87800A87810A87820A87830A87840A87850A87860A87870A87880A87890A
  878A0A878B0A878C0A878D0A878E0A878F0A87930A87940A87980A87990A"

/-- tests/test_data/whatwg/shiftjis_whatwg_test_decode_in.txt, part 8 -/
noncomputable def decodeIn7 : List Nat := hex! "889F0A88A00A88A10A88A20A88A30A88A40A88A50A88A60A88A70A88A80A88A90A88AA0A88AB0A88AC0A88AD0A88AE0A
  88AF0A88B00A88B10A88B20A88B30A88B40A88B50A88B60A88B70A88B80A88B90A88BA0A88BB0A88BC0A88BD0A88BE0A
  88BF0A88C00A88C10A88C20A88C30A88C40A88C50A88C60A88C70A88C80A88C90A88CA0A88CB0A88CC0A88CD0A88CE0A
  88CF0A88D00A88D10A88D20A88D30A88D40A88D50A88D60A88D70A88D80A88D90A88DA0A88DB0A88DC0A88DD0A88DE0A
  88DF0A88E00A88E10A88E20A88E30A88E40A88E50A88E60A88E70A88E80A88E90A88EA0A88EB0A88EC0A88ED0A88EE0A
  88EF0A88F00A88F10A88F20A88F30A88F40A88F50A88F60A88F70A88F80A88F90A88FA0A88FB0A88FC0A"

/-- tests/test_data/whatwg/shiftjis_whatwg_test_decode_out.txt, part 8 -/
noncomputable def decodeOut7 : List Nat := hex! "E4BA9C0AE594960AE5A8830AE998BF0AE593800AE6849B0AE68CA80AE5A7B60AE980A20AE891B50AE88C9C0AE7A9900A
  E682AA0AE68FA10AE6B8A50AE697AD0AE891A60AE88AA60AE9AFB50AE6A2930AE59CA70AE696A10AE689B10AE5AE9B0A
  E5A7900AE899BB0AE9A3B40AE7B5A20AE7B6BE0AE9AE8E0AE688960AE7B29F0AE8A2B70AE5AE890AE5BAB50AE68C890A
  E69A970AE6A1880AE997870AE99E8D0AE69D8F0AE4BBA50AE4BC8A0AE4BD8D0AE4BE9D0AE581890AE59BB20AE5A4B70A
  E5A7940AE5A8810AE5B0890AE6839F0AE6848F0AE685B00AE698930AE6A4850AE782BA0AE7958F0AE795B00AE7A7BB0A
  E7B6AD0AE7B7AF0AE883830AE8908E0AE8A1A30AE8AC820AE981950AE981BA0AE58CBB0AE4BA950AE4BAA50AE59F9F0A
  E882B20AE983810AE7A3AF0AE4B8800AE5A3B10AE6BAA20AE980B80AE7A8B20AE88CA80AE88A8B0AE9B0AF0AE585810A
  E58DB00AE592BD0AE593A10AE59BA00AE5A7BB0AE5BC950AE9A3B20AE6B7AB0AE883A40AE894AD0A"

/-- tests/test_data/whatwg/shiftjis_whatwg_test_encode_in.txt, part 8 -/
noncomputable def encodeIn7 : List Nat := hex! "E4BA9C0AE594960AE5A8830AE998BF0AE593800AE6849B0AE68CA80AE5A7B60AE980A20AE891B50AE88C9C0AE7A9900A
  E682AA0AE68FA10AE6B8A50AE697AD0AE891A60AE88AA60AE9AFB50AE6A2930AE59CA70AE696A10AE689B10AE5AE9B0A
  E5A7900AE899BB0AE9A3B40AE7B5A20AE7B6BE0AE9AE8E0AE688960AE7B29F0AE8A2B70AE5AE890AE5BAB50AE68C890A
  E69A970AE6A1880AE997870AE99E8D0AE69D8F0AE4BBA50AE4BC8A0AE4BD8D0AE4BE9D0AE581890AE59BB20AE5A4B70A
  E5A7940AE5A8810AE5B0890AE6839F0AE6848F0AE685B00AE698930AE6A4850AE782BA0AE7958F0AE795B00AE7A7BB0A
  E7B6AD0AE7B7AF0AE883830AE8908E0AE8A1A30AE8AC820AE981950AE981BA0AE58CBB0AE4BA950AE4BAA50AE59F9F0A
  E882B20AE983810AE7A3AF0AE4B8800AE5A3B10AE6BAA20AE980B80AE7A8B20AE88CA80AE88A8B0AE9B0AF0AE585810A
  E58DB00AE592BD0AE593A10AE59BA00AE5A7BB0AE5BC950AE9A3B20AE6B7AB0AE883A40AE894AD0A"

/-- tests/test_data/whatwg/shiftjis_whatwg_test_encode_out.txt, part 8 -/
noncomputable def encodeOut7 : List Nat := hex! "889F0A88A00A88A10A88A20A88A30A88A40A88A50A88A60A88A70A88A80A88A90A88AA0A88AB0A88AC0A88AD0A88AE0A
  88AF0A88B00A88B10A88B20A88B30A88B40A88B50A88B60A88B70A88B80A88B90A88BA0A88BB0A88BC0A88BD0A88BE0A
  88BF0A88C00A88C10A88C20A88C30A88C40A88C50A88C60A88C70A88C80A88C90A88CA0A88CB0A88CC0A88CD0A88CE0A
  88CF0A88D00A88D10A88D20A88D30A88D40A88D50A88D60A88D70A88D80A88D90A88DA0A88DB0A88DC0A88DD0A88DE0A
  88DF0A88E00A88E10A88E20A88E30A88E40A88E50A88E60A88E70A88E80A88E90A88EA0A88EB0A88EC0A88ED0A88EE0A
  88EF0A88F00A88F10A88F20A88F30A88F40A88F50A88F60A88F70A88F80A88F90A88FA0A88FB0A88FC0A"

/-- tests/test_data/whatwg/shiftjis_whatwg_test_decode_in.txt, part 9 -/
noncomputable def decodeIn8 : List Nat := hex! "89400A89410A89420A89430A89440A89450A89460A89470A89480A89490A894A0A894B0A894C0A894D0A894E0A894F0A
  89500A89510A89520A89530A89540A89550A89560A89570A89580A89590A895A0A895B0A895C0A895D0A895E0A895F0A
  89600A89610A89620A89630A89640A89650A89660A89670A89680A89690A896A0A896B0A896C0A896D0A896E0A896F0A
  89700A89710A89720A89730A89740A89750A89760A89770A89780A89790A897A0A897B0A897C0A897D0A897E0A89800A
  89810A89820A89830A89840A89850A89860A89870A89880A89890A898A0A898B0A898C0A898D0A898E0A898F0A89900A
  89910A89920A89930A89940A89950A89960A89970A89980A89990A899A0A899B0A899C0A899D0A899E0A899F0A89A00A
  89A10A89A20A89A30A89A40A89A50A89A60A89A70A89A80A89A90A89AA0A89AB0A89AC0A89AD0A89AE0A89AF0A89B00A
  89B10A89B20A89B30A89B40A89B50A89B60A89B70A89B80A89B90A89BA0A89BB0A89BC0A89BD0A89BE0A89BF0A89C00A
  89C10A89C20A89C30A89C40A89C50A89C60A89C70A89C80A89C90A89CA0A89CB0A89CC0A89CD0A89CE0A89CF0A89D00A
  89D10A89D20A89D30A89D40A89D50A89D60A89D70A89D80A89D90A89DA0A89DB0A89DC0A89DD0A89DE0A89DF0A89E00A
  89E10A89E20A89E30A89E40A89E50A89E60A89E70A89E80A89E90A89EA0A89EB0A89EC0A89ED0A89EE0A89EF0A89F00A
  89F10A89F20A89F30A89F40A89F50A89F60A89F70A89F80A89F90A89FA0A89FB0A89FC0A"

/-- tests/test_data/whatwg/shiftjis_whatwg_test_decode_out.txt, part 9 -/
noncomputable def decodeOut8 : List Nat := hex! "E999A20AE999B00AE99AA00AE99FBB0AE5908B0AE58FB30AE5AE870AE7838F0AE7BEBD0AE8BF820AE99BA80AE58DAF0A
  E9B59C0AE7AABA0AE4B8910AE7A2930AE887BC0AE6B8A60AE598980AE594840AE6AC9D0AE8949A0AE9B0BB0AE5A7A50A
  E58EA90AE6B5A60AE7939C0AE9968F0AE599820AE4BA910AE9818B0AE99BB20AE88D8F0AE9A48C0AE58FA10AE596B60A
  E5ACB00AE5BDB10AE698A00AE69BB30AE6A0840AE6B0B80AE6B3B30AE6B4A90AE7919B0AE79B880AE7A98E0AE9A0B40A
  E88BB10AE8A19B0AE8A9A00AE98BAD0AE6B6B20AE796AB0AE79B8A0AE9A7850AE682A60AE8AC810AE8B68A0AE996B20A
  E6A68E0AE58EAD0AE586860AE59C920AE5A0B00AE5A5840AE5AEB40AE5BBB60AE680A80AE68EA90AE68FB40AE6B2BF0A
  E6BC940AE7828E0AE784940AE785990AE787950AE78CBF0AE7B8810AE889B60AE88B910AE896970AE981A00AE9899B0A
  E9B49B0AE5A1A90AE696BC0AE6B19A0AE794A50AE587B90AE5A4AE0AE5A5A50AE5BE800AE5BF9C0AE68ABC0AE697BA0A
  E6A8AA0AE6ACA70AE6AEB40AE78E8B0AE7BF810AE8A5960AE9B4AC0AE9B48E0AE9BB840AE5B2A10AE6B2960AE88DBB0A
  E584840AE5B18B0AE686B60AE887860AE6A1B60AE789A10AE4B9990AE4BFBA0AE58DB80AE681A90AE6B8A90AE7A98F0A
  E99FB30AE4B88B0AE58C960AE4BBAE0AE4BD950AE4BCBD0AE4BEA10AE4BDB30AE58AA00AE58FAF0AE598890AE5A48F0A
  E5AB810AE5AEB60AE5AFA10AE7A7910AE69A870AE69E9C0AE69EB60AE6AD8C0AE6B2B30AE781AB0AE78F820AE7A68D0A
  E7A6BE0AE7A8BC0AE7AE870AE88AB10AE88B9B0AE88C840AE88DB70AE88FAF0AE88F930AE89DA60AE8AAB20AE598A90A
  E8B2A80AE8BFA60AE9818E0AE99C9E0AE89A8A0AE4BF840AE5B3A80AE688910AE789990AE794BB0AE887A50AE88ABD0A
  E89BBE0AE8B3800AE99B850AE9A4930AE9A7950AE4BB8B0AE4BC9A0AE8A7A30AE59B9E0AE5A18A0AE5A38A0AE5BBBB0A
  E5BFAB0AE680AA0AE682940AE681A20AE687900AE688920AE68B900AE694B90A"

/-- tests/test_data/whatwg/shiftjis_whatwg_test_encode_in.txt, part 9 -/
noncomputable def encodeIn8 : List Nat := hex! "E999A20AE999B00AE99AA00AE99FBB0AE5908B0AE58FB30AE5AE870AE7838F0AE7BEBD0AE8BF820AE99BA80AE58DAF0A
  E9B59C0AE7AABA0AE4B8910AE7A2930AE887BC0AE6B8A60AE598980AE594840AE6AC9D0AE8949A0AE9B0BB0AE5A7A50A
  E58EA90AE6B5A60AE7939C0AE9968F0AE599820AE4BA910AE9818B0AE99BB20AE88D8F0AE9A48C0AE58FA10AE596B60A
  E5ACB00AE5BDB10AE698A00AE69BB30AE6A0840AE6B0B80AE6B3B30AE6B4A90AE7919B0AE79B880AE7A98E0AE9A0B40A
  E88BB10AE8A19B0AE8A9A00AE98BAD0AE6B6B20AE796AB0AE79B8A0AE9A7850AE682A60AE8AC810AE8B68A0AE996B20A
  E6A68E0AE58EAD0AE586860AE59C920AE5A0B00AE5A5840AE5AEB40AE5BBB60AE680A80AE68EA90AE68FB40AE6B2BF0A
  E6BC940AE7828E0AE784940AE785990AE787950AE78CBF0AE7B8810AE889B60AE88B910AE896970AE981A00AE9899B0A
  E9B49B0AE5A1A90AE696BC0AE6B19A0AE794A50AE587B90AE5A4AE0AE5A5A50AE5BE800AE5BF9C0AE68ABC0AE697BA0A
  E6A8AA0AE6ACA70AE6AEB40AE78E8B0AE7BF810AE8A5960AE9B4AC0AE9B48E0AE9BB840AE5B2A10AE6B2960AE88DBB0A
  E584840AE5B18B0AE686B60AE887860AE6A1B60AE789A10AE4B9990AE4BFBA0AE58DB80AE681A90AE6B8A90AE7A98F0A
  E99FB30AE4B88B0AE58C960AE4BBAE0AE4BD950AE4BCBD0AE4BEA10AE4BDB30AE58AA00AE58FAF0AE598890AE5A48F0A
  E5AB810AE5AEB60AE5AFA10AE7A7910AE69A870AE69E9C0AE69EB60AE6AD8C0AE6B2B30AE781AB0AE78F820AE7A68D0A
  E7A6BE0AE7A8BC0AE7AE870AE88AB10AE88B9B0AE88C840AE88DB70AE88FAF0AE88F930AE89DA60AE8AAB20AE598A90A
  E8B2A80AE8BFA60AE9818E0AE99C9E0AE89A8A0AE4BF840AE5B3A80AE688910AE789990AE794BB0AE887A50AE88ABD0A
  E89BBE0AE8B3800AE99B850AE9A4930AE9A7950AE4BB8B0AE4BC9A0AE8A7A30AE59B9E0AE5A18A0AE5A38A0AE5BBBB0A
  E5BFAB0AE680AA0AE682940AE681A20AE687900AE688920AE68B900AE694B90A"

/-- tests/test_data/whatwg/shiftjis_whatwg_test_encode_out.txt, part 9 -/
noncomputable def encodeOut8 : List Nat := hex! "89400A89410A89420A89430A89440A89450A89460A89470A89480A89490A894A0A894B0A894C0A894D0A894E0A894F0A
  89500A89510A89520A89530A89540A89550A89560A89570A89580A89590A895A0A895B0A895C0A895D0A895E0A895F0A
  89600A89610A89620A89630A89640A89650A89660A89670A89680A89690A896A0A896B0A896C0A896D0A896E0A896F0A
  89700A89710A89720A89730A89740A89750A89760A89770A89780A89790A897A0A897B0A897C0A897D0A897E0A89800A
  89810A89820A89830A89840A89850A89860A89870A89880A89890A898A0A898B0A898C0A898D0A898E0A898F0A89900A
  89910A89920A89930A89940A89950A89960A89970A89980A89990A899A0A899B0A899C0A899D0A899E0A899F0A89A00A
  89A10A89A20A89A30A89A40A89A50A89A60A89A70A89A80A89A90A89AA0A89AB0A89AC0A89AD0A89AE0A89AF0A89B00A
  89B10A89B20A89B30A89B40A89B50A89B60A89B70A89B80A89B90A89BA0A89BB0A89BC0A89BD0A89BE0A89BF0A89C00A
  89C10A89C20A89C30A89C40A89C50A89C60A89C70A89C80A89C90A89CA0A89CB0A89CC0A89CD0A89CE0A89CF0A89D00A
  89D10A89D20A89D30A89D40A89D50A89D60A89D70A89D80A89D90A89DA0A89DB0A89DC0A89DD0A89DE0A89DF0A89E00A
  89E10A89E20A89E30A89E40A89E50A89E60A89E70A89E80A89E90A89EA0A89EB0A89EC0A89ED0A89EE0A89EF0A89F00A
  89F10A89F20A89F30A89F40A89F50A89F60A89F70A89F80A89F90A89FA0A89FB0A89FC0A"

/-- tests/test_data/whatwg/shiftjis_whatwg_test_decode_in.txt, part 10 -/
noncomputable def decodeIn9 : List Nat := hex! "8A400A8A410A8A420A8A430A8A440A8A450A8A460A8A470A8A480A8A490A8A4A0A8A4B0A8A4C0A8A4D0A8A4E0A8A4F0A
  8A500A8A510A8A520A8A530A8A540A8A550A8A560A8A570A8A580A8A590A8A5A0A8A5B0A8A5C0A8A5D0A8A5E0A8A5F0A
  8A600A8A610A8A620A8A630A8A640A8A650A8A660A8A670A8A680A8A690A8A6A0A8A6B0A8A6C0A8A6D0A8A6E0A8A6F0A
  8A700A8A710A8A720A8A730A8A740A8A750A8A760A8A770A8A780A8A790A8A7A0A8A7B0A8A7C0A8A7D0A8A7E0A8A800A
  8A810A8A820A8A830A8A840A8A850A8A860A8A870A8A880A8A890A8A8A0A8A8B0A8A8C0A8A8D0A8A8E0A8A8F0A8A900A
  8A910A8A920A8A930A8A940A8A950A8A960A8A970A8A980A8A990A8A9A0A8A9B0A8A9C0A8A9D0A8A9E0A8A9F0A8AA00A
  8AA10A8AA20A8AA30A8AA40A8AA50A8AA60A8AA70A8AA80A8AA90A8AAA0A8AAB0A8AAC0A8AAD0A8AAE0A8AAF0A8AB00A
  8AB10A8AB20A8AB30A8AB40A8AB50A8AB60A8AB70A8AB80A8AB90A8ABA0A8ABB0A8ABC0A8ABD0A8ABE0A8ABF0A8AC00A
  8AC10A8AC20A8AC30A8AC40A8AC50A8AC60A8AC70A8AC80A8AC90A8ACA0A8ACB0A8ACC0A8ACD0A8ACE0A8ACF0A8AD00A
  8AD10A8AD20A8AD30A8AD40A8AD50A8AD60A8AD70A8AD80A8AD90A8ADA0A8ADB0A8ADC0A8ADD0A8ADE0A8ADF0A8AE00A
  8AE10A8AE20A8AE30A8AE40A8AE50A8AE60A8AE70A8AE80A8AE90A8AEA0A8AEB0A8AEC0A8AED0A8AEE0A8AEF0A8AF00A
  8AF10A8AF20A8AF30A8AF40A8AF50A8AF60A8AF70A8AF80A8AF90A8AFA0A8AFB0A8AFC0A"

/-- tests/test_data/whatwg/shiftjis_whatwg_test_decode_out.txt, part 10 -/
noncomputable def decodeOut9 : List Nat := hex! "E9AD810AE699A60AE6A2B00AE6B5B70AE781B00AE7958C0AE79A860AE7B5B50AE88AA50AE89FB90AE9968B0AE99A8E0A
  E8B29D0AE587B10AE58ABE0AE5A4960AE592B30AE5AEB30AE5B4960AE685A80AE6A6820AE6B6AF0AE7A28D0AE8938B0A
  E8A1970AE8A9B20AE98EA70AE9AAB80AE6B5AC0AE9A6A80AE89B990AE59EA30AE69FBF0AE89B8E0AE9888E0AE58A830A
  E59A870AE590840AE5BB930AE68BA10AE692B90AE6A0BC0AE6A0B80AE6AEBB0AE78DB20AE7A2BA0AE7A9AB0AE8A69A0A
  E8A7920AE8B5AB0AE8BC830AE983AD0AE996A30AE99A940AE99DA90AE5ADA60AE5B2B30AE6A5BD0AE9A18D0AE9A18E0A
  E68E9B0AE7ACA00AE6A8AB0AE6A9BF0AE6A2B60AE9B08D0AE6BD9F0AE589B20AE5969D0AE681B00AE68BAC0AE6B4BB0A
  E6B8870AE6BB910AE8919B0AE8A4900AE8BD840AE4B8940AE9B0B90AE58FB60AE6A49B0AE6A8BA0AE99E840AE6A0AA0A
  E5859C0AE7AB830AE892B20AE9879C0AE98E8C0AE5999B0AE9B4A80AE6A0A20AE88C850AE890B10AE7B2A50AE588880A
  E88B850AE793A60AE4B9BE0AE4BE830AE586A00AE5AF920AE5888A0AE58B980AE58BA70AE5B7BB0AE5969A0AE5A0AA0A
  E5A7A60AE5AE8C0AE5AE980AE5AF9B0AE5B9B20AE5B9B90AE682A30AE6849F0AE685A30AE686BE0AE68F9B0AE695A20A
  E69F910AE6A1930AE6A3BA0AE6ACBE0AE6AD930AE6B1970AE6BCA20AE6BE970AE6BD850AE792B00AE794980AE79BA30A
  E79C8B0AE7ABBF0AE7AEA10AE7B0A10AE7B7A90AE7BCB60AE7BFB00AE8829D0AE889A60AE88E9E0AE8A6B30AE8AB8C0A
  E8B2AB0AE982840AE991910AE996930AE996910AE996A20AE999A50AE99F930AE9A4A80AE888980AE4B8B80AE590AB0A
  E5B2B80AE5B78C0AE78EA90AE7998C0AE79CBC0AE5B2A90AE7BFAB0AE8B48B0AE99B810AE9A0910AE9A1940AE9A1980A
  E4BC810AE4BC8E0AE58DB10AE5969C0AE599A80AE59FBA0AE5A5870AE5AC890AE5AF840AE5B2900AE5B88C0AE5B9BE0A
  E5BF8C0AE68FAE0AE69CBA0AE697970AE697A20AE69C9F0AE6A38B0AE6A3840A"

/-- tests/test_data/whatwg/shiftjis_whatwg_test_encode_in.txt, part 10 -/
noncomputable def encodeIn9 : List Nat := hex! "E9AD810AE699A60AE6A2B00AE6B5B70AE781B00AE7958C0AE79A860AE7B5B50AE88AA50AE89FB90AE9968B0AE99A8E0A
  E8B29D0AE587B10AE58ABE0AE5A4960AE592B30AE5AEB30AE5B4960AE685A80AE6A6820AE6B6AF0AE7A28D0AE8938B0A
  E8A1970AE8A9B20AE98EA70AE9AAB80AE6B5AC0AE9A6A80AE89B990AE59EA30AE69FBF0AE89B8E0AE9888E0AE58A830A
  E59A870AE590840AE5BB930AE68BA10AE692B90AE6A0BC0AE6A0B80AE6AEBB0AE78DB20AE7A2BA0AE7A9AB0AE8A69A0A
  E8A7920AE8B5AB0AE8BC830AE983AD0AE996A30AE99A940AE99DA90AE5ADA60AE5B2B30AE6A5BD0AE9A18D0AE9A18E0A
  E68E9B0AE7ACA00AE6A8AB0AE6A9BF0AE6A2B60AE9B08D0AE6BD9F0AE589B20AE5969D0AE681B00AE68BAC0AE6B4BB0A
  E6B8870AE6BB910AE8919B0AE8A4900AE8BD840AE4B8940AE9B0B90AE58FB60AE6A49B0AE6A8BA0AE99E840AE6A0AA0A
  E5859C0AE7AB830AE892B20AE9879C0AE98E8C0AE5999B0AE9B4A80AE6A0A20AE88C850AE890B10AE7B2A50AE588880A
  E88B850AE793A60AE4B9BE0AE4BE830AE586A00AE5AF920AE5888A0AE58B980AE58BA70AE5B7BB0AE5969A0AE5A0AA0A
  E5A7A60AE5AE8C0AE5AE980AE5AF9B0AE5B9B20AE5B9B90AE682A30AE6849F0AE685A30AE686BE0AE68F9B0AE695A20A
  E69F910AE6A1930AE6A3BA0AE6ACBE0AE6AD930AE6B1970AE6BCA20AE6BE970AE6BD850AE792B00AE794980AE79BA30A
  E79C8B0AE7ABBF0AE7AEA10AE7B0A10AE7B7A90AE7BCB60AE7BFB00AE8829D0AE889A60AE88E9E0AE8A6B30AE8AB8C0A
  E8B2AB0AE982840AE991910AE996930AE996910AE996A20AE999A50AE99F930AE9A4A80AE888980AE4B8B80AE590AB0A
  E5B2B80AE5B78C0AE78EA90AE7998C0AE79CBC0AE5B2A90AE7BFAB0AE8B48B0AE99B810AE9A0910AE9A1940AE9A1980A
  E4BC810AE4BC8E0AE58DB10AE5969C0AE599A80AE59FBA0AE5A5870AE5AC890AE5AF840AE5B2900AE5B88C0AE5B9BE0A
  E5BF8C0AE68FAE0AE69CBA0AE697970AE697A20AE69C9F0AE6A38B0AE6A3840A"

/-- tests/test_data/whatwg/shiftjis_whatwg_test_encode_out.txt, part 10 -/
noncomputable def encodeOut9 : List Nat := hex! "8A400A8A410A8A420A8A430A8A440A8A450A8A460A8A470A8A480A8A490A8A4A0A8A4B0A8A4C0A8A4D0A8A4E0A8A4F0A
  8A500A8A510A8A520A8A530A8A540A8A550A8A560A8A570A8A580A8A590A8A5A0A8A5B0A8A5C0A8A5D0A8A5E0A8A5F0A
  8A600A8A610A8A620A8A630A8A640A8A650A8A660A8A670A8A680A8A690A8A6A0A8A6B0A8A6C0A8A6D0A8A6E0A8A6F0A
  8A700A8A710A8A720A8A730A8A740A8A750A8A760A8A770A8A780A8A790A8A7A0A8A7B0A8A7C0A8A7D0A8A7E0A8A800A
  8A810A8A820A8A830A8A840A8A850A8A860A8A870A8A880A8A890A8A8A0A8A8B0A8A8C0A8A8D0A8A8E0A8A8F0A8A900A
  8A910A8A920A8A930A8A940A8A950A8A960A8A970A8A980A8A990A8A9A0A8A9B0A8A9C0A8A9D0A8A9E0A8A9F0A8AA00A
  8AA10A8AA20A8AA30A8AA40A8AA50A8AA60A8AA70A8AA80A8AA90A8AAA0A8AAB0A8AAC0A8AAD0A8AAE0A8AAF0A8AB00A
  8AB10A8AB20A8AB30A8AB40A8AB50A8AB60A8AB70A8AB80A8AB90A8ABA0A8ABB0A8ABC0A8ABD0A8ABE0A8ABF0A8AC00A
  8AC10A8AC20A8AC30A8AC40A8AC50A8AC60A8AC70A8AC80A8AC90A8ACA0A8ACB0A8ACC0A8ACD0A8ACE0A8ACF0A8AD00A
  8AD10A8AD20A8AD30A8AD40A8AD50A8AD60A8AD70A8AD80A8AD90A8ADA0A8ADB0A8ADC0A8ADD0A8ADE0A8ADF0A8AE00A
  8AE10A8AE20A8AE30A8AE40A8AE50A8AE60A8AE70A8AE80A8AE90A8AEA0A8AEB0A8AEC0A8AED0A8AEE0A8AEF0A8AF00A
  8AF10A8AF20A8AF30A8AF40A8AF50A8AF60A8AF70A8AF80A8AF90A8AFA0A8AFB0A8AFC0A"

/-- tests/test_data/whatwg/shiftjis_whatwg_test_decode_in.txt, part 11 -/
noncomputable def decodeIn10 : List Nat := hex! "8B400A8B410A8B420A8B430A8B440A8B450A8B460A8B470A8B480A8B490A8B4A0A8B4B0A8B4C0A8B4D0A8B4E0A8B4F0A
  8B500A8B510A8B520A8B530A8B540A8B550A8B560A8B570A8B580A8B590A8B5A0A8B5B0A8B5C0A8B5D0A8B5E0A8B5F0A
  8B600A8B610A8B620A8B630A8B640A8B650A8B660A8B670A8B680A8B690A8B6A0A8B6B0A8B6C0A8B6D0A8B6E0A8B6F0A
  8B700A8B710A8B720A8B730A8B740A8B750A8B760A8B770A8B780A8B790A8B7A0A8B7B0A8B7C0A8B7D0A8B7E0A8B800A
  8B810A8B820A8B830A8B840A8B850A8B860A8B870A8B880A8B890A8B8A0A8B8B0A8B8C0A8B8D0A8B8E0A8B8F0A8B900A
  8B910A8B920A8B930A8B940A8B950A8B960A8B970A8B980A8B990A8B9A0A8B9B0A8B9C0A8B9D0A8B9E0A8B9F0A8BA00A
  8BA10A8BA20A8BA30A8BA40A8BA50A8BA60A8BA70A8BA80A8BA90A8BAA0A8BAB0A8BAC0A8BAD0A8BAE0A8BAF0A8BB00A
  8BB10A8BB20A8BB30A8BB40A8BB50A8BB60A8BB70A8BB80A8BB90A8BBA0A8BBB0A8BBC0A8BBD0A8BBE0A8BBF0A8BC00A
  8BC10A8BC20A8BC30A8BC40A8BC50A8BC60A8BC70A8BC80A8BC90A8BCA0A8BCB0A8BCC0A8BCD0A8BCE0A8BCF0A8BD00A
  8BD10A8BD20A8BD30A8BD40A8BD50A8BD60A8BD70A8BD80A8BD90A8BDA0A8BDB0A8BDC0A8BDD0A8BDE0A8BDF0A8BE00A
  8BE10A8BE20A8BE30A8BE40A8BE50A8BE60A8BE70A8BE80A8BE90A8BEA0A8BEB0A8BEC0A8BED0A8BEE0A8BEF0A8BF00A
  8BF10A8BF20A8BF30A8BF40A8BF50A8BF60A8BF70A8BF80A8BF90A8BFA0A8BFB0A8BFC0A"

/-- tests/test_data/whatwg/shiftjis_whatwg_test_decode_out.txt, part 11 -/
noncomputable def decodeOut10 : List Nat := hex! "E6A99F0AE5B8B00AE6AF850AE6B0970AE6B1BD0AE795BF0AE7A5880AE5ADA30AE7A8800AE7B4800AE5BEBD0AE8A68F0A
  E8A8980AE8B2B40AE8B5B70AE8BB8C0AE8BC9D0AE9A3A20AE9A88E0AE9ACBC0AE4BA800AE581BD0AE584800AE5A6930A
  E5AE9C0AE688AF0AE68A800AE693AC0AE6ACBA0AE78AA00AE796910AE7A5870AE7BEA90AE89FBB0AE8AABC0AE8ADB00A
  E68EAC0AE88F8A0AE99EA00AE590890AE590830AE596AB0AE6A1940AE6A9980AE8A9B00AE7A0A70AE69DB50AE9BB8D0A
  E58DB40AE5AEA20AE8849A0AE899900AE980860AE4B8980AE4B9850AE4BB870AE4BC910AE58F8A0AE590B80AE5AEAE0A
  E5BC930AE680A50AE695910AE69CBD0AE6B1820AE6B1B20AE6B3A30AE781B80AE790830AE7A9B60AE7AAAE0AE7AC880A
  E7B49A0AE7B3BE0AE7B5A60AE697A70AE7899B0AE58EBB0AE5B1850AE5B7A80AE68B920AE68BA00AE68C990AE6B8A00A
  E8999A0AE8A8B10AE8B79D0AE98BB80AE6BC810AE7A6A60AE9AD9A0AE4BAA80AE4BAAB0AE4BAAC0AE4BE9B0AE4BEA00A
  E583910AE585870AE7ABB60AE585B10AE587B60AE58D940AE58CA10AE58DBF0AE58FAB0AE596AC0AE5A2830AE5B3A10A
  E5BCB70AE5BD8A0AE680AF0AE681900AE681AD0AE68C9F0AE695990AE6A98B0AE6B3810AE78B820AE78BAD0AE79FAF0A
  E883B80AE884850AE888880AE8958E0AE983B70AE98FA10AE99FBF0AE9A5970AE9A99A0AE4BBB00AE5879D0AE5B0AD0A
  E69A810AE6A5AD0AE5B1800AE69BB20AE6A5B50AE78E890AE6A1900AE7B2810AE583850AE58BA40AE59D870AE5B7BE0A
  E98CA60AE696A40AE6ACA30AE6ACBD0AE790B40AE7A6810AE7A6BD0AE7AD8B0AE7B78A0AE88AB90AE88F8C0AE8A1BF0A
  E8A59F0AE8ACB90AE8BF910AE987910AE5909F0AE98A800AE4B99D0AE580B60AE58FA50AE58CBA0AE78B970AE78E960A
  E79FA90AE88BA60AE8BAAF0AE9A7860AE9A7880AE9A7920AE585B70AE6849A0AE8999E0AE596B00AE7A9BA0AE581B60A
  E5AF930AE981870AE99A850AE4B8B20AE6AB9B0AE987A70AE5B1910AE5B1880A"

/-- tests/test_data/whatwg/shiftjis_whatwg_test_encode_in.txt, part 11 -/
noncomputable def encodeIn10 : List Nat := hex! "E6A99F0AE5B8B00AE6AF850AE6B0970AE6B1BD0AE795BF0AE7A5880AE5ADA30AE7A8800AE7B4800AE5BEBD0AE8A68F0A
  E8A8980AE8B2B40AE8B5B70AE8BB8C0AE8BC9D0AE9A3A20AE9A88E0AE9ACBC0AE4BA800AE581BD0AE584800AE5A6930A
  E5AE9C0AE688AF0AE68A800AE693AC0AE6ACBA0AE78AA00AE796910AE7A5870AE7BEA90AE89FBB0AE8AABC0AE8ADB00A
  E68EAC0AE88F8A0AE99EA00AE590890AE590830AE596AB0AE6A1940AE6A9980AE8A9B00AE7A0A70AE69DB50AE9BB8D0A
  E58DB40AE5AEA20AE8849A0AE899900AE980860AE4B8980AE4B9850AE4BB870AE4BC910AE58F8A0AE590B80AE5AEAE0A
  E5BC930AE680A50AE695910AE69CBD0AE6B1820AE6B1B20AE6B3A30AE781B80AE790830AE7A9B60AE7AAAE0AE7AC880A
  E7B49A0AE7B3BE0AE7B5A60AE697A70AE7899B0AE58EBB0AE5B1850AE5B7A80AE68B920AE68BA00AE68C990AE6B8A00A
  E8999A0AE8A8B10AE8B79D0AE98BB80AE6BC810AE7A6A60AE9AD9A0AE4BAA80AE4BAAB0AE4BAAC0AE4BE9B0AE4BEA00A
  E583910AE585870AE7ABB60AE585B10AE587B60AE58D940AE58CA10AE58DBF0AE58FAB0AE596AC0AE5A2830AE5B3A10A
  E5BCB70AE5BD8A0AE680AF0AE681900AE681AD0AE68C9F0AE695990AE6A98B0AE6B3810AE78B820AE78BAD0AE79FAF0A
  E883B80AE884850AE888880AE8958E0AE983B70AE98FA10AE99FBF0AE9A5970AE9A99A0AE4BBB00AE5879D0AE5B0AD0A
  E69A810AE6A5AD0AE5B1800AE69BB20AE6A5B50AE78E890AE6A1900AE7B2810AE583850AE58BA40AE59D870AE5B7BE0A
  E98CA60AE696A40AE6ACA30AE6ACBD0AE790B40AE7A6810AE7A6BD0AE7AD8B0AE7B78A0AE88AB90AE88F8C0AE8A1BF0A
  E8A59F0AE8ACB90AE8BF910AE987910AE5909F0AE98A800AE4B99D0AE580B60AE58FA50AE58CBA0AE78B970AE78E960A
  E79FA90AE88BA60AE8BAAF0AE9A7860AE9A7880AE9A7920AE585B70AE6849A0AE8999E0AE596B00AE7A9BA0AE581B60A
  E5AF930AE981870AE99A850AE4B8B20AE6AB9B0AE987A70AE5B1910AE5B1880A"

/-- tests/test_data/whatwg/shiftjis_whatwg_test_encode_out.txt, part 11 -/
noncomputable def encodeOut10 : List Nat := hex! "8B400A8B410A8B420A8B430A8B440A8B450A8B460A8B470A8B480A8B490A8B4A0A8B4B0A8B4C0A8B4D0A8B4E0A8B4F0A
  8B500A8B510A8B520A8B530A8B540A8B550A8B560A8B570A8B580A8B590A8B5A0A8B5B0A8B5C0A8B5D0A8B5E0A8B5F0A
  8B600A8B610A8B620A8B630A8B640A8B650A8B660A8B670A8B680A8B690A8B6A0A8B6B0A8B6C0A8B6D0A8B6E0A8B6F0A
  8B700A8B710A8B720A8B730A8B740A8B750A8B760A8B770A8B780A8B790A8B7A0A8B7B0A8B7C0A8B7D0A8B7E0A8B800A
  8B810A8B820A8B830A8B840A8B850A8B860A8B870A8B880A8B890A8B8A0A8B8B0A8B8C0A8B8D0A8B8E0A8B8F0A8B900A
  8B910A8B920A8B930A8B940A8B950A8B960A8B970A8B980A8B990A8B9A0A8B9B0A8B9C0A8B9D0A8B9E0A8B9F0A8BA00A
  8BA10A8BA20A8BA30A8BA40A8BA50A8BA60A8BA70A8BA80A8BA90A8BAA0A8BAB0A8BAC0A8BAD0A8BAE0A8BAF0A8BB00A
  8BB10A8BB20A8BB30A8BB40A8BB50A8BB60A8BB70A8BB80A8BB90A8BBA0A8BBB0A8BBC0A8BBD0A8BBE0A8BBF0A8BC00A
  8BC10A8BC20A8BC30A8BC40A8BC50A8BC60A8BC70A8BC80A8BC90A8BCA0A8BCB0A8BCC0A8BCD0A8BCE0A8BCF0A8BD00A
  8BD10A8BD20A8BD30A8BD40A8BD50A8BD60A8BD70A8BD80A8BD90A8BDA0A8BDB0A8BDC0A8BDD0A8BDE0A8BDF0A8BE00A
  8BE10A8BE20A8BE30A8BE40A8BE50A8BE60A8BE70A8BE80A8BE90A8BEA0A8BEB0A8BEC0A8BED0A8BEE0A8BEF0A8BF00A
  8BF10A8BF20A8BF30A8BF40A8BF50A8BF60A8BF70A8BF80A8BF90A8BFA0A8BFB0A8BFC0A"

/-- tests/test_data/whatwg/shiftjis_whatwg_test_decode_in.txt, part 12 -/
noncomputable def decodeIn11 : List Nat := hex! "8C400A8C410A8C420A8C430A8C440A8C450A8C460A8C470A8C480A8C490A8C4A0A8C4B0A8C4C0A8C4D0A8C4E0A8C4F0A
  8C500A8C510A8C520A8C530A8C540A8C550A8C560A8C570A8C580A8C590A8C5A0A8C5B0A8C5C0A8C5D0A8C5E0A8C5F0A
  8C600A8C610A8C620A8C630A8C640A8C650A8C660A8C670A8C680A8C690A8C6A0A8C6B0A8C6C0A8C6D0A8C6E0A8C6F0A
  8C700A8C710A8C720A8C730A8C740A8C750A8C760A8C770A8C780A8C790A8C7A0A8C7B0A8C7C0A8C7D0A8C7E0A8C800A
  8C810A8C820A8C830A8C840A8C850A8C860A8C870A8C880A8C890A8C8A0A8C8B0A8C8C0A8C8D0A8C8E0A8C8F0A8C900A
  8C910A8C920A8C930A8C940A8C950A8C960A8C970A8C980A8C990A8C9A0A8C9B0A8C9C0A8C9D0A8C9E0A8C9F0A8CA00A
  8CA10A8CA20A8CA30A8CA40A8CA50A8CA60A8CA70A8CA80A8CA90A8CAA0A8CAB0A8CAC0A8CAD0A8CAE0A8CAF0A8CB00A
  8CB10A8CB20A8CB30A8CB40A8CB50A8CB60A8CB70A8CB80A8CB90A8CBA0A8CBB0A8CBC0A8CBD0A8CBE0A8CBF0A8CC00A
  8CC10A8CC20A8CC30A8CC40A8CC50A8CC60A8CC70A8CC80A8CC90A8CCA0A8CCB0A8CCC0A8CCD0A8CCE0A8CCF0A8CD00A
  8CD10A8CD20A8CD30A8CD40A8CD50A8CD60A8CD70A8CD80A8CD90A8CDA0A8CDB0A8CDC0A8CDD0A8CDE0A8CDF0A8CE00A
  8CE10A8CE20A8CE30A8CE40A8CE50A8CE60A8CE70A8CE80A8CE90A8CEA0A8CEB0A8CEC0A8CED0A8CEE0A8CEF0A8CF00A
  8CF10A8CF20A8CF30A8CF40A8CF50A8CF60A8CF70A8CF80A8CF90A8CFA0A8CFB0A8CFC0A"

/-- tests/test_data/whatwg/shiftjis_whatwg_test_decode_out.txt, part 12 -/
noncomputable def decodeOut11 : List Nat := hex! "E68E980AE7AA9F0AE6B2930AE99DB40AE8BDA10AE7AAAA0AE7868A0AE99A880AE7B2820AE6A0970AE7B9B00AE6A1910A
  E98DAC0AE58BB20AE5909B0AE896AB0AE8A8930AE7BEA40AE8BB8D0AE983A10AE58DA60AE8A2880AE7A5810AE4BF820A
  E582BE0AE588910AE585840AE595930AE59CAD0AE78FAA0AE59E8B0AE5A5910AE5BDA20AE5BE840AE681B50AE685B60A
  E685A70AE686A90AE68EB20AE690BA0AE695AC0AE699AF0AE6A1820AE6B8930AE795A60AE7A8BD0AE7B3BB0AE7B58C0A
  E7B6990AE7B98B0AE7BDAB0AE88C8E0AE88D8A0AE89B8D0AE8A8880AE8A9A30AE8ADA60AE8BBBD0AE9A09A0AE9B68F0A
  E88AB80AE8BF8E0AE9AFA80AE58A870AE6889F0AE692830AE6BF800AE99A990AE6A1810AE582910AE6ACA00AE6B1BA0A
  E6BD940AE7A9B40AE7B5900AE8A1800AE8A8A30AE69C880AE4BBB60AE580B90AE580A60AE581A50AE585BC0AE588B80A
  E589A30AE596A70AE59C8F0AE5A0850AE5AB8C0AE5BBBA0AE686B20AE687B80AE68BB30AE68DB20AE6A49C0AE6A8A90A
  E789BD0AE78AAC0AE78CAE0AE7A0940AE7A1AF0AE7B5B90AE79C8C0AE882A90AE8A68B0AE8AC990AE8B3A20AE8BB920A
  E981A30AE98DB50AE999BA0AE9A1950AE9A8930AE9B9B80AE585830AE58E9F0AE58EB30AE5B9BB0AE5BCA60AE6B89B0A
  E6BA900AE78E840AE78FBE0AE7B5830AE888B70AE8A8800AE8ABBA0AE999900AE4B98E0AE5808B0AE58FA40AE591BC0A
  E59BBA0AE5A7910AE5ADA40AE5B7B10AE5BAAB0AE5BCA70AE688B80AE695850AE69EAF0AE6B9960AE78B900AE7B38A0A
  E8A2B40AE882A10AE883A10AE88FB00AE8998E0AE8AA870AE8B7A80AE988B70AE99B870AE9A1A70AE9BC930AE4BA940A
  E4BA920AE4BC8D0AE58D880AE591890AE590BE0AE5A8AF0AE5BE8C0AE5BEA10AE6829F0AE6A2A70AE6AA8E0AE7919A0A
  E7A2810AE8AA9E0AE8AAA40AE8ADB70AE986900AE4B99E0AE9AF890AE4BAA40AE4BDBC0AE4BEAF0AE580990AE580960A
  E585890AE585AC0AE58A9F0AE58AB90AE58BBE0AE58E9A0AE58FA30AE590910A"

/-- tests/test_data/whatwg/shiftjis_whatwg_test_encode_in.txt, part 12 -/
noncomputable def encodeIn11 : List Nat := hex! "E68E980AE7AA9F0AE6B2930AE99DB40AE8BDA10AE7AAAA0AE7868A0AE99A880AE7B2820AE6A0970AE7B9B00AE6A1910A
  E98DAC0AE58BB20AE5909B0AE896AB0AE8A8930AE7BEA40AE8BB8D0AE983A10AE58DA60AE8A2880AE7A5810AE4BF820A
  E582BE0AE588910AE585840AE595930AE59CAD0AE78FAA0AE59E8B0AE5A5910AE5BDA20AE5BE840AE681B50AE685B60A
  E685A70AE686A90AE68EB20AE690BA0AE695AC0AE699AF0AE6A1820AE6B8930AE795A60AE7A8BD0AE7B3BB0AE7B58C0A
  E7B6990AE7B98B0AE7BDAB0AE88C8E0AE88D8A0AE89B8D0AE8A8880AE8A9A30AE8ADA60AE8BBBD0AE9A09A0AE9B68F0A
  E88AB80AE8BF8E0AE9AFA80AE58A870AE6889F0AE692830AE6BF800AE99A990AE6A1810AE582910AE6ACA00AE6B1BA0A
  E6BD940AE7A9B40AE7B5900AE8A1800AE8A8A30AE69C880AE4BBB60AE580B90AE580A60AE581A50AE585BC0AE588B80A
  E589A30AE596A70AE59C8F0AE5A0850AE5AB8C0AE5BBBA0AE686B20AE687B80AE68BB30AE68DB20AE6A49C0AE6A8A90A
  E789BD0AE78AAC0AE78CAE0AE7A0940AE7A1AF0AE7B5B90AE79C8C0AE882A90AE8A68B0AE8AC990AE8B3A20AE8BB920A
  E981A30AE98DB50AE999BA0AE9A1950AE9A8930AE9B9B80AE585830AE58E9F0AE58EB30AE5B9BB0AE5BCA60AE6B89B0A
  E6BA900AE78E840AE78FBE0AE7B5830AE888B70AE8A8800AE8ABBA0AE999900AE4B98E0AE5808B0AE58FA40AE591BC0A
  E59BBA0AE5A7910AE5ADA40AE5B7B10AE5BAAB0AE5BCA70AE688B80AE695850AE69EAF0AE6B9960AE78B900AE7B38A0A
  E8A2B40AE882A10AE883A10AE88FB00AE8998E0AE8AA870AE8B7A80AE988B70AE99B870AE9A1A70AE9BC930AE4BA940A
  E4BA920AE4BC8D0AE58D880AE591890AE590BE0AE5A8AF0AE5BE8C0AE5BEA10AE6829F0AE6A2A70AE6AA8E0AE7919A0A
  E7A2810AE8AA9E0AE8AAA40AE8ADB70AE986900AE4B99E0AE9AF890AE4BAA40AE4BDBC0AE4BEAF0AE580990AE580960A
  E585890AE585AC0AE58A9F0AE58AB90AE58BBE0AE58E9A0AE58FA30AE590910A"

/-- tests/test_data/whatwg/shiftjis_whatwg_test_encode_out.txt, part 12 -/
noncomputable def encodeOut11 : List Nat := hex! "8C400A8C410A8C420A8C430A8C440A8C450A8C460A8C470A8C480A8C490A8C4A0A8C4B0A8C4C0A8C4D0A8C4E0A8C4F0A
  8C500A8C510A8C520A8C530A8C540A8C550A8C560A8C570A8C580A8C590A8C5A0A8C5B0A8C5C0A8C5D0A8C5E0A8C5F0A
  8C600A8C610A8C620A8C630A8C640A8C650A8C660A8C670A8C680A8C690A8C6A0A8C6B0A8C6C0A8C6D0A8C6E0A8C6F0A
  8C700A8C710A8C720A8C730A8C740A8C750A8C760A8C770A8C780A8C790A8C7A0A8C7B0A8C7C0A8C7D0A8C7E0A8C800A
  8C810A8C820A8C830A8C840A8C850A8C860A8C870A8C880A8C890A8C8A0A8C8B0A8C8C0A8C8D0A8C8E0A8C8F0A8C900A
  8C910A8C920A8C930A8C940A8C950A8C960A8C970A8C980A8C990A8C9A0A8C9B0A8C9C0A8C9D0A8C9E0A8C9F0A8CA00A
  8CA10A8CA20A8CA30A8CA40A8CA50A8CA60A8CA70A8CA80A8CA90A8CAA0A8CAB0A8CAC0A8CAD0A8CAE0A8CAF0A8CB00A
  8CB10A8CB20A8CB30A8CB40A8CB50A8CB60A8CB70A8CB80A8CB90A8CBA0A8CBB0A8CBC0A8CBD0A8CBE0A8CBF0A8CC00A
  8CC10A8CC20A8CC30A8CC40A8CC50A8CC60A8CC70A8CC80A8CC90A8CCA0A8CCB0A8CCC0A8CCD0A8CCE0A8CCF0A8CD00A
  8CD10A8CD20A8CD30A8CD40A8CD50A8CD60A8CD70A8CD80A8CD90A8CDA0A8CDB0A8CDC0A8CDD0A8CDE0A8CDF0A8CE00A
  8CE10A8CE20A8CE30A8CE40A8CE50A8CE60A8CE70A8CE80A8CE90A8CEA0A8CEB0A8CEC0A8CED0A8CEE0A8CEF0A8CF00A
  8CF10A8CF20A8CF30A8CF40A8CF50A8CF60A8CF70A8CF80A8CF90A8CFA0A8CFB0A8CFC0A"

/-- tests/test_data/whatwg/shiftjis_whatwg_test_decode_in.txt, part 13 -/
noncomputable def decodeIn12 : List Nat := hex! "8D400A8D410A8D420A8D430A8D440A8D450A8D460A8D470A8D480A8D490A8D4A0A8D4B0A8D4C0A8D4D0A8D4E0A8D4F0A
  8D500A8D510A8D520A8D530A8D540A8D550A8D560A8D570A8D580A8D590A8D5A0A8D5B0A8D5C0A8D5D0A8D5E0A8D5F0A
  8D600A8D610A8D620A8D630A8D640A8D650A8D660A8D670A8D680A8D690A8D6A0A8D6B0A8D6C0A8D6D0A8D6E0A8D6F0A
  8D700A8D710A8D720A8D730A8D740A8D750A8D760A8D770A8D780A8D790A8D7A0A8D7B0A8D7C0A8D7D0A8D7E0A8D800A
  8D810A8D820A8D830A8D840A8D850A8D860A8D870A8D880A8D890A8D8A0A8D8B0A8D8C0A8D8D0A8D8E0A8D8F0A8D900A
  8D910A8D920A8D930A8D940A8D950A8D960A8D970A8D980A8D990A8D9A0A8D9B0A8D9C0A8D9D0A8D9E0A8D9F0A8DA00A
  8DA10A8DA20A8DA30A8DA40A8DA50A8DA60A8DA70A8DA80A8DA90A8DAA0A8DAB0A8DAC0A8DAD0A8DAE0A8DAF0A8DB00A
  8DB10A8DB20A8DB30A8DB40A8DB50A8DB60A8DB70A8DB80A8DB90A8DBA0A8DBB0A8DBC0A8DBD0A8DBE0A8DBF0A8DC00A
  8DC10A8DC20A8DC30A8DC40A8DC50A8DC60A8DC70A8DC80A8DC90A8DCA0A8DCB0A8DCC0A8DCD0A8DCE0A8DCF0A8DD00A
  8DD10A8DD20A8DD30A8DD40A8DD50A8DD60A8DD70A8DD80A8DD90A8DDA0A8DDB0A8DDC0A8DDD0A8DDE0A8DDF0A8DE00A
  8DE10A8DE20A8DE30A8DE40A8DE50A8DE60A8DE70A8DE80A8DE90A8DEA0A8DEB0A8DEC0A8DED0A8DEE0A8DEF0A8DF00A
  8DF10A8DF20A8DF30A8DF40A8DF50A8DF60A8DF70A8DF80A8DF90A8DFA0A8DFB0A8DFC0A"

/-- tests/test_data/whatwg/shiftjis_whatwg_test_decode_out.txt, part 13 -/
noncomputable def decodeOut12 : List Nat := hex! "E5908E0AE596890AE59D910AE59EA20AE5A5BD0AE5AD940AE5AD9D0AE5AE8F0AE5B7A50AE5B7A70AE5B7B70AE5B9B80A
  E5BA830AE5BA9A0AE5BAB70AE5BC980AE681920AE6858C0AE68A970AE68B980AE68EA70AE694BB0AE698820AE699830A
  E69BB40AE69DAD0AE6A0A10AE6A2970AE6A78B0AE6B19F0AE6B4AA0AE6B5A90AE6B8AF0AE6BA9D0AE794B20AE79A870A
  E7A1AC0AE7A8BF0AE7B3A00AE7B4850AE7B4980AE7B59E0AE7B6B10AE880950AE880830AE882AF0AE882B10AE885940A
  E8868F0AE888AA0AE88D920AE8A18C0AE8A1A10AE8AC9B0AE8B2A20AE8B3BC0AE9838A0AE985B50AE989B10AE7A0BF0A
  E98BBC0AE996A40AE9998D0AE9A0850AE9A6990AE9AB980AE9B4BB0AE5899B0AE58AAB0AE58FB70AE590880AE5A3950A
  E68BB70AE6BFA00AE8B1AA0AE8BD9F0AE9BAB90AE5858B0AE588BB0AE5918A0AE59BBD0AE7A9800AE985B70AE9B5A00A
  E9BB920AE78D840AE6BC890AE885B00AE794910AE5BFBD0AE6839A0AE9AAA80AE78B9B0AE8BEBC0AE6ADA40AE9A0830A
  E4BB8A0AE59BB00AE59DA40AE5A2BE0AE5A99A0AE681A80AE687870AE6988F0AE698860AE6A0B90AE6A2B10AE6B7B70A
  E797950AE7B4BA0AE889AE0AE9AD820AE4BA9B0AE4BD900AE58F890AE594860AE5B5AF0AE5B7A60AE5B7AE0AE69FBB0A
  E6B2990AE791B30AE7A0820AE8A9900AE98E960AE8A39F0AE59D900AE5BAA70AE68CAB0AE582B50AE582AC0AE5868D0A
  E69C800AE593890AE5A19E0AE5A6BB0AE5AEB00AE5BDA90AE6898D0AE68EA10AE6A0BD0AE6ADB30AE6B8880AE781BD0A
  E987870AE78A800AE7A0950AE7A0A60AE7A5AD0AE6968E0AE7B4B00AE88F9C0AE8A3810AE8BC890AE99A9B0AE589A40A
  E59CA80AE69D900AE7BDAA0AE8B2A10AE586B40AE59D820AE998AA0AE5A0BA0AE6A68A0AE882B40AE592B20AE5B48E0A
  E59FBC0AE7A2950AE9B7BA0AE4BD9C0AE5898A0AE5928B0AE690BE0AE698A80AE69C940AE69FB50AE7AA840AE7AD960A
  E7B4A20AE98CAF0AE6A19C0AE9AEAD0AE7ACB90AE58C990AE5868A0AE588B70A"

/-- tests/test_data/whatwg/shiftjis_whatwg_test_encode_in.txt, part 13 -/
noncomputable def encodeIn12 : List Nat := hex! "E5908E0AE596890AE59D910AE59EA20AE5A5BD0AE5AD940AE5AD9D0AE5AE8F0AE5B7A50AE5B7A70AE5B7B70AE5B9B80A
  E5BA830AE5BA9A0AE5BAB70AE5BC980AE681920AE6858C0AE68A970AE68B980AE68EA70AE694BB0AE698820AE699830A
  E69BB40AE69DAD0AE6A0A10AE6A2970AE6A78B0AE6B19F0AE6B4AA0AE6B5A90AE6B8AF0AE6BA9D0AE794B20AE79A870A
  E7A1AC0AE7A8BF0AE7B3A00AE7B4850AE7B4980AE7B59E0AE7B6B10AE880950AE880830AE882AF0AE882B10AE885940A
  E8868F0AE888AA0AE88D920AE8A18C0AE8A1A10AE8AC9B0AE8B2A20AE8B3BC0AE9838A0AE985B50AE989B10AE7A0BF0A
  E98BBC0AE996A40AE9998D0AE9A0850AE9A6990AE9AB980AE9B4BB0AE5899B0AE58AAB0AE58FB70AE590880AE5A3950A
  E68BB70AE6BFA00AE8B1AA0AE8BD9F0AE9BAB90AE5858B0AE588BB0AE5918A0AE59BBD0AE7A9800AE985B70AE9B5A00A
  E9BB920AE78D840AE6BC890AE885B00AE794910AE5BFBD0AE6839A0AE9AAA80AE78B9B0AE8BEBC0AE6ADA40AE9A0830A
  E4BB8A0AE59BB00AE59DA40AE5A2BE0AE5A99A0AE681A80AE687870AE6988F0AE698860AE6A0B90AE6A2B10AE6B7B70A
  E797950AE7B4BA0AE889AE0AE9AD820AE4BA9B0AE4BD900AE58F890AE594860AE5B5AF0AE5B7A60AE5B7AE0AE69FBB0A
  E6B2990AE791B30AE7A0820AE8A9900AE98E960AE8A39F0AE59D900AE5BAA70AE68CAB0AE582B50AE582AC0AE5868D0A
  E69C800AE593890AE5A19E0AE5A6BB0AE5AEB00AE5BDA90AE6898D0AE68EA10AE6A0BD0AE6ADB30AE6B8880AE781BD0A
  E987870AE78A800AE7A0950AE7A0A60AE7A5AD0AE6968E0AE7B4B00AE88F9C0AE8A3810AE8BC890AE99A9B0AE589A40A
  E59CA80AE69D900AE7BDAA0AE8B2A10AE586B40AE59D820AE998AA0AE5A0BA0AE6A68A0AE882B40AE592B20AE5B48E0A
  E59FBC0AE7A2950AE9B7BA0AE4BD9C0AE5898A0AE5928B0AE690BE0AE698A80AE69C940AE69FB50AE7AA840AE7AD960A
  E7B4A20AE98CAF0AE6A19C0AE9AEAD0AE7ACB90AE58C990AE5868A0AE588B70A"

/-- tests/test_data/whatwg/shiftjis_whatwg_test_encode_out.txt, part 13 -/
noncomputable def encodeOut12 : List Nat := hex! "8D400A8D410A8D420A8D430A8D440A8D450A8D460A8D470A8D480A8D490A8D4A0A8D4B0A8D4C0A8D4D0A8D4E0A8D4F0A
  8D500A8D510A8D520A8D530A8D540A8D550A8D560A8D570A8D580A8D590A8D5A0A8D5B0A8D5C0A8D5D0A8D5E0A8D5F0A
  8D600A8D610A8D620A8D630A8D640A8D650A8D660A8D670A8D680A8D690A8D6A0A8D6B0A8D6C0A8D6D0A8D6E0A8D6F0A
  8D700A8D710A8D720A8D730A8D740A8D750A8D760A8D770A8D780A8D790A8D7A0A8D7B0A8D7C0A8D7D0A8D7E0A8D800A
  8D810A8D820A8D830A8D840A8D850A8D860A8D870A8D880A8D890A8D8A0A8D8B0A8D8C0A8D8D0A8D8E0A8D8F0A8D900A
  8D910A8D920A8D930A8D940A8D950A8D960A8D970A8D980A8D990A8D9A0A8D9B0A8D9C0A8D9D0A8D9E0A8D9F0A8DA00A
  8DA10A8DA20A8DA30A8DA40A8DA50A8DA60A8DA70A8DA80A8DA90A8DAA0A8DAB0A8DAC0A8DAD0A8DAE0A8DAF0A8DB00A
  8DB10A8DB20A8DB30A8DB40A8DB50A8DB60A8DB70A8DB80A8DB90A8DBA0A8DBB0A8DBC0A8DBD0A8DBE0A8DBF0A8DC00A
  8DC10A8DC20A8DC30A8DC40A8DC50A8DC60A8DC70A8DC80A8DC90A8DCA0A8DCB0A8DCC0A8DCD0A8DCE0A8DCF0A8DD00A
  8DD10A8DD20A8DD30A8DD40A8DD50A8DD60A8DD70A8DD80A8DD90A8DDA0A8DDB0A8DDC0A8DDD0A8DDE0A8DDF0A8DE00A
  8DE10A8DE20A8DE30A8DE40A8DE50A8DE60A8DE70A8DE80A8DE90A8DEA0A8DEB0A8DEC0A8DED0A8DEE0A8DEF0A8DF00A
  8DF10A8DF20A8DF30A8DF40A8DF50A8DF60A8DF70A8DF80A8DF90A8DFA0A8DFB0A8DFC0A"

/-- tests/test_data/whatwg/shiftjis_whatwg_test_decode_in.txt, part 14 -/
noncomputable def decodeIn13 : List Nat := hex! "8E400A8E410A8E420A8E430A8E440A8E450A8E460A8E470A8E480A8E490A8E4A0A8E4B0A8E4C0A8E4D0A8E4E0A8E4F0A
  8E500A8E510A8E520A8E530A8E540A8E550A8E560A8E570A8E580A8E590A8E5A0A8E5B0A8E5C0A8E5D0A8E5E0A8E5F0A
  8E600A8E610A8E620A8E630A8E640A8E650A8E660A8E670A8E680A8E690A8E6A0A8E6B0A8E6C0A8E6D0A8E6E0A8E6F0A
  8E700A8E710A8E720A8E730A8E740A8E750A8E760A8E770A8E780A8E790A8E7A0A8E7B0A8E7C0A8E7D0A8E7E0A8E800A
  8E810A8E820A8E830A8E840A8E850A8E860A8E870A8E880A8E890A8E8A0A8E8B0A8E8C0A8E8D0A8E8E0A8E8F0A8E900A
  8E910A8E920A8E930A8E940A8E950A8E960A8E970A8E980A8E990A8E9A0A8E9B0A8E9C0A8E9D0A8E9E0A8E9F0A8EA00A
  8EA10A8EA20A8EA30A8EA40A8EA50A8EA60A8EA70A8EA80A8EA90A8EAA0A8EAB0A8EAC0A8EAD0A8EAE0A8EAF0A8EB00A
  8EB10A8EB20A8EB30A8EB40A8EB50A8EB60A8EB70A8EB80A8EB90A8EBA0A8EBB0A8EBC0A8EBD0A8EBE0A8EBF0A8EC00A
  8EC10A8EC20A8EC30A8EC40A8EC50A8EC60A8EC70A8EC80A8EC90A8ECA0A8ECB0A8ECC0A8ECD0A8ECE0A8ECF0A8ED00A
  8ED10A8ED20A8ED30A8ED40A8ED50A8ED60A8ED70A8ED80A8ED90A8EDA0A8EDB0A8EDC0A8EDD0A8EDE0A8EDF0A8EE00A
  8EE10A8EE20A8EE30A8EE40A8EE50A8EE60A8EE70A8EE80A8EE90A8EEA0A8EEB0A8EEC0A8EED0A8EEE0A8EEF0A8EF00A
  8EF10A8EF20A8EF30A8EF40A8EF50A8EF60A8EF70A8EF80A8EF90A8EFA0A8EFB0A8EFC0A"

/-- tests/test_data/whatwg/shiftjis_whatwg_test_decode_out.txt, part 14 -/
noncomputable def decodeOut13 : List Nat := hex! "E5AF9F0AE68BB60AE692AE0AE693A60AE69CAD0AE6AEBA0AE896A90AE99B910AE79A900AE9AF960AE68D8C0AE98C860A
  E9AEAB0AE79ABF0AE699920AE4B8890AE582980AE58F820AE5B1B10AE683A80AE692920AE695A30AE6A19F0AE787A60A
  E78F8A0AE794A30AE7AE970AE7BA820AE89A950AE8AE830AE8B39B0AE985B80AE9A4900AE696AC0AE69AAB0AE6AE8B0A
  E4BB950AE4BB940AE4BCBA0AE4BDBF0AE588BA0AE58FB80AE58FB20AE597A30AE59B9B0AE5A3AB0AE5A78B0AE5A7890A
  E5A7BF0AE5AD900AE5B18D0AE5B8820AE5B8AB0AE5BF970AE6809D0AE68C870AE694AF0AE5AD9C0AE696AF0AE696BD0A
  E697A80AE69E9D0AE6ADA20AE6ADBB0AE6B08F0AE78D850AE7A5890AE7A7810AE7B3B80AE7B4990AE7B4AB0AE882A20A
  E884820AE887B30AE8A6960AE8A99E0AE8A9A90AE8A9A60AE8AA8C0AE8ABAE0AE8B3870AE8B39C0AE99B8C0AE9A3BC0A
  E6ADAF0AE4BA8B0AE4BCBC0AE4BE8D0AE585900AE5AD970AE5AFBA0AE685880AE68C810AE699820AE6ACA10AE6BB8B0A
  E6B2BB0AE788BE0AE792BD0AE797940AE7A3810AE7A4BA0AE8808C0AE880B30AE887AA0AE892940AE8BE9E0AE6B1900A
  E9B9BF0AE5BC8F0AE8AD980AE9B4AB0AE7ABBA0AE8BBB80AE5AE8D0AE99BAB0AE4B8830AE58FB10AE59FB70AE5A4B10A
  E5AB890AE5AEA40AE682890AE6B9BF0AE6BC860AE796BE0AE8B3AA0AE5AE9F0AE894800AE7AFA00AE581B20AE69FB40A
  E88A9D0AE5B1A10AE8958A0AE7B89E0AE8888E0AE586990AE5B0840AE68DA80AE8B5A60AE6969C0AE785AE0AE7A4BE0A
  E7B4970AE880850AE8AC9D0AE8BB8A0AE981AE0AE89B870AE982AA0AE5809F0AE58BBA0AE5B0BA0AE69D930AE781BC0A
  E788B50AE9858C0AE987880AE98CAB0AE88BA50AE5AF820AE5BCB10AE683B90AE4B8BB0AE58F960AE5AE880AE6898B0A
  E69CB10AE6AE8A0AE78BA90AE78FA00AE7A8AE0AE885AB0AE8B6A30AE985920AE9A6960AE584920AE58F970AE591AA0A
  E5AFBF0AE68E880AE6A8B90AE7B6AC0AE99C800AE59B9A0AE58F8E0AE591A80A"

/-- tests/test_data/whatwg/shiftjis_whatwg_test_encode_in.txt, part 14 -/
noncomputable def encodeIn13 : List Nat := hex! "E5AF9F0AE68BB60AE692AE0AE693A60AE69CAD0AE6AEBA0AE896A90AE99B910AE79A900AE9AF960AE68D8C0AE98C860A
  E9AEAB0AE79ABF0AE699920AE4B8890AE582980AE58F820AE5B1B10AE683A80AE692920AE695A30AE6A19F0AE787A60A
  E78F8A0AE794A30AE7AE970AE7BA820AE89A950AE8AE830AE8B39B0AE985B80AE9A4900AE696AC0AE69AAB0AE6AE8B0A
  E4BB950AE4BB940AE4BCBA0AE4BDBF0AE588BA0AE58FB80AE58FB20AE597A30AE59B9B0AE5A3AB0AE5A78B0AE5A7890A
  E5A7BF0AE5AD900AE5B18D0AE5B8820AE5B8AB0AE5BF970AE6809D0AE68C870AE694AF0AE5AD9C0AE696AF0AE696BD0A
  E697A80AE69E9D0AE6ADA20AE6ADBB0AE6B08F0AE78D850AE7A5890AE7A7810AE7B3B80AE7B4990AE7B4AB0AE882A20A
  E884820AE887B30AE8A6960AE8A99E0AE8A9A90AE8A9A60AE8AA8C0AE8ABAE0AE8B3870AE8B39C0AE99B8C0AE9A3BC0A
  E6ADAF0AE4BA8B0AE4BCBC0AE4BE8D0AE585900AE5AD970AE5AFBA0AE685880AE68C810AE699820AE6ACA10AE6BB8B0A
  E6B2BB0AE788BE0AE792BD0AE797940AE7A3810AE7A4BA0AE8808C0AE880B30AE887AA0AE892940AE8BE9E0AE6B1900A
  E9B9BF0AE5BC8F0AE8AD980AE9B4AB0AE7ABBA0AE8BBB80AE5AE8D0AE99BAB0AE4B8830AE58FB10AE59FB70AE5A4B10A
  E5AB890AE5AEA40AE682890AE6B9BF0AE6BC860AE796BE0AE8B3AA0AE5AE9F0AE894800AE7AFA00AE581B20AE69FB40A
  E88A9D0AE5B1A10AE8958A0AE7B89E0AE8888E0AE586990AE5B0840AE68DA80AE8B5A60AE6969C0AE785AE0AE7A4BE0A
  E7B4970AE880850AE8AC9D0AE8BB8A0AE981AE0AE89B870AE982AA0AE5809F0AE58BBA0AE5B0BA0AE69D930AE781BC0A
  E788B50AE9858C0AE987880AE98CAB0AE88BA50AE5AF820AE5BCB10AE683B90AE4B8BB0AE58F960AE5AE880AE6898B0A
  E69CB10AE6AE8A0AE78BA90AE78FA00AE7A8AE0AE885AB0AE8B6A30AE985920AE9A6960AE584920AE58F970AE591AA0A
  E5AFBF0AE68E880AE6A8B90AE7B6AC0AE99C800AE59B9A0AE58F8E0AE591A80A"

/-- tests/test_data/whatwg/shiftjis_whatwg_test_encode_out.txt, part 14 -/
noncomputable def encodeOut13 : List Nat := hex! "8E400A8E410A8E420A8E430A8E440A8E450A8E460A8E470A8E480A8E490A8E4A0A8E4B0A8E4C0A8E4D0A8E4E0A8E4F0A
  8E500A8E510A8E520A8E530A8E540A8E550A8E560A8E570A8E580A8E590A8E5A0A8E5B0A8E5C0A8E5D0A8E5E0A8E5F0A
  8E600A8E610A8E620A8E630A8E640A8E650A8E660A8E670A8E680A8E690A8E6A0A8E6B0A8E6C0A8E6D0A8E6E0A8E6F0A
  8E700A8E710A8E720A8E730A8E740A8E750A8E760A8E770A8E780A8E790A8E7A0A8E7B0A8E7C0A8E7D0A8E7E0A8E800A
  8E810A8E820A8E830A8E840A8E850A8E860A8E870A8E880A8E890A8E8A0A8E8B0A8E8C0A8E8D0A8E8E0A8E8F0A8E900A
  8E910A8E920A8E930A8E940A8E950A8E960A8E970A8E980A8E990A8E9A0A8E9B0A8E9C0A8E9D0A8E9E0A8E9F0A8EA00A
  8EA10A8EA20A8EA30A8EA40A8EA50A8EA60A8EA70A8EA80A8EA90A8EAA0A8EAB0A8EAC0A8EAD0A8EAE0A8EAF0A8EB00A
  8EB10A8EB20A8EB30A8EB40A8EB50A8EB60A8EB70A8EB80A8EB90A8EBA0A8EBB0A8EBC0A8EBD0A8EBE0A8EBF0A8EC00A
  8EC10A8EC20A8EC30A8EC40A8EC50A8EC60A8EC70A8EC80A8EC90A8ECA0A8ECB0A8ECC0A8ECD0A8ECE0A8ECF0A8ED00A
  8ED10A8ED20A8ED30A8ED40A8ED50A8ED60A8ED70A8ED80A8ED90A8EDA0A8EDB0A8EDC0A8EDD0A8EDE0A8EDF0A8EE00A
  8EE10A8EE20A8EE30A8EE40A8EE50A8EE60A8EE70A8EE80A8EE90A8EEA0A8EEB0A8EEC0A8EED0A8EEE0A8EEF0A8EF00A
  8EF10A8EF20A8EF30A8EF40A8EF50A8EF60A8EF70A8EF80A8EF90A8EFA0A8EFB0A8EFC0A"

/-- tests/test_data/whatwg/shiftjis_whatwg_test_decode_in.txt, part 15 -/
noncomputable def decodeIn14 : List Nat := hex! "8F400A8F410A8F420A8F430A8F440A8F450A8F460A8F470A8F480A8F490A8F4A0A8F4B0A8F4C0A8F4D0A8F4E0A8F4F0A
  8F500A8F510A8F520A8F530A8F540A8F550A8F560A8F570A8F580A8F590A8F5A0A8F5B0A8F5C0A8F5D0A8F5E0A8F5F0A
  8F600A8F610A8F620A8F630A8F640A8F650A8F660A8F670A8F680A8F690A8F6A0A8F6B0A8F6C0A8F6D0A8F6E0A8F6F0A
  8F700A8F710A8F720A8F730A8F740A8F750A8F760A8F770A8F780A8F790A8F7A0A8F7B0A8F7C0A8F7D0A8F7E0A8F800A
  8F810A8F820A8F830A8F840A8F850A8F860A8F870A8F880A8F890A8F8A0A8F8B0A8F8C0A8F8D0A8F8E0A8F8F0A8F900A
  8F910A8F920A8F930A8F940A8F950A8F960A8F970A8F980A8F990A8F9A0A8F9B0A8F9C0A8F9D0A8F9E0A8F9F0A8FA00A
  8FA10A8FA20A8FA30A8FA40A8FA50A8FA60A8FA70A8FA80A8FA90A8FAA0A8FAB0A8FAC0A8FAD0A8FAE0A8FAF0A8FB00A
  8FB10A8FB20A8FB30A8FB40A8FB50A8FB60A8FB70A8FB80A8FB90A8FBA0A8FBB0A8FBC0A8FBD0A8FBE0A8FBF0A8FC00A
  8FC10A8FC20A8FC30A8FC40A8FC50A8FC60A8FC70A8FC80A8FC90A8FCA0A8FCB0A8FCC0A8FCD0A8FCE0A8FCF0A8FD00A
  8FD10A8FD20A8FD30A8FD40A8FD50A8FD60A8FD70A8FD80A8FD90A8FDA0A8FDB0A8FDC0A8FDD0A8FDE0A8FDF0A8FE00A
  8FE10A8FE20A8FE30A8FE40A8FE50A8FE60A8FE70A8FE80A8FE90A8FEA0A8FEB0A8FEC0A8FED0A8FEE0A8FEF0A8FF00A
  8FF10A8FF20A8FF30A8FF40A8FF50A8FF60A8FF70A8FF80A8FF90A8FFA0A8FFB0A8FFC0A"

/-- tests/test_data/whatwg/shiftjis_whatwg_test_decode_out.txt, part 15 -/
noncomputable def decodeOut14 : List Nat := hex! "E5AE970AE5B0B10AE5B79E0AE4BFAE0AE684810AE68BBE0AE6B4B20AE7A7800AE7A78B0AE7B5820AE7B98D0AE7BF920A
  E887AD0AE8889F0AE892900AE8A1860AE8A5B20AE8AE900AE8B9B40AE8BCAF0AE980B10AE9858B0AE985AC0AE99B860A
  E9869C0AE4BB800AE4BD8F0AE585850AE58D810AE5BE930AE6888E0AE69F940AE6B1810AE6B88B0AE78DA30AE7B8A60A
  E9878D0AE98A830AE58F940AE5A4990AE5AEBF0AE6B7910AE7A59D0AE7B8AE0AE7B29B0AE5A1BE0AE7869F0AE587BA0A
  E8A1930AE8BFB00AE4BF8A0AE5B3BB0AE698A50AE79EAC0AE7ABA30AE8889C0AE9A7BF0AE587860AE5BEAA0AE697AC0A
  E6A5AF0AE6AE890AE6B7B30AE6BA960AE6BDA40AE79BBE0AE7B4940AE5B7A10AE981B50AE986870AE9A0860AE587A60A
  E5889D0AE689800AE69A910AE69B990AE6B89A0AE5BAB60AE7B7920AE7BDB20AE69BB80AE896AF0AE897B70AE8ABB80A
  E58AA90AE58F990AE5A5B30AE5BA8F0AE5BE900AE681950AE98BA40AE999A40AE582B70AE5849F0AE58B9D0AE58CA00A
  E58D870AE58FAC0AE593A80AE595860AE594B10AE598970AE5A5A80AE5A6BE0AE5A8BC0AE5AEB50AE5B0860AE5B08F0A
  E5B0910AE5B09A0AE5BA840AE5BA8A0AE5BBA00AE5BDB00AE689BF0AE68A840AE68B9B0AE68E8C0AE68DB70AE698870A
  E6988C0AE698AD0AE699B60AE69DBE0AE6A2A20AE6A89F0AE6A8B50AE6B2BC0AE6B6880AE6B8890AE6B9980AE784BC0A
  E784A60AE785A70AE797870AE79C810AE7A19D0AE7A4810AE7A5A50AE7A7B00AE7ABA00AE7AC910AE7B2A70AE7B4B90A
  E882960AE88F960AE8928B0AE895890AE8A19D0AE8A3B30AE8A89F0AE8A8BC0AE8A9940AE8A9B30AE8B1A10AE8B39E0A
  E986A40AE989A60AE98DBE0AE990980AE99A9C0AE99E980AE4B88A0AE4B8880AE4B89E0AE4B9970AE586970AE589B00A
  E59F8E0AE5A0B40AE5A38C0AE5ACA20AE5B8B80AE683850AE693BE0AE69DA10AE69D960AE6B5840AE78AB60AE795B30A
  E7A9A30AE892B80AE8ADB20AE986B80AE98CA00AE598B10AE59FB40AE9A3BE0A"

/-- tests/test_data/whatwg/shiftjis_whatwg_test_encode_in.txt, part 15 -/
noncomputable def encodeIn14 : List Nat := hex! "E5AE970AE5B0B10AE5B79E0AE4BFAE0AE684810AE68BBE0AE6B4B20AE7A7800AE7A78B0AE7B5820AE7B98D0AE7BF920A
  E887AD0AE8889F0AE892900AE8A1860AE8A5B20AE8AE900AE8B9B40AE8BCAF0AE980B10AE9858B0AE985AC0AE99B860A
  E9869C0AE4BB800AE4BD8F0AE585850AE58D810AE5BE930AE6888E0AE69F940AE6B1810AE6B88B0AE78DA30AE7B8A60A
  E9878D0AE98A830AE58F940AE5A4990AE5AEBF0AE6B7910AE7A59D0AE7B8AE0AE7B29B0AE5A1BE0AE7869F0AE587BA0A
  E8A1930AE8BFB00AE4BF8A0AE5B3BB0AE698A50AE79EAC0AE7ABA30AE8889C0AE9A7BF0AE587860AE5BEAA0AE697AC0A
  E6A5AF0AE6AE890AE6B7B30AE6BA960AE6BDA40AE79BBE0AE7B4940AE5B7A10AE981B50AE986870AE9A0860AE587A60A
  E5889D0AE689800AE69A910AE69B990AE6B89A0AE5BAB60AE7B7920AE7BDB20AE69BB80AE896AF0AE897B70AE8ABB80A
  E58AA90AE58F990AE5A5B30AE5BA8F0AE5BE900AE681950AE98BA40AE999A40AE582B70AE5849F0AE58B9D0AE58CA00A
  E58D870AE58FAC0AE593A80AE595860AE594B10AE598970AE5A5A80AE5A6BE0AE5A8BC0AE5AEB50AE5B0860AE5B08F0A
  E5B0910AE5B09A0AE5BA840AE5BA8A0AE5BBA00AE5BDB00AE689BF0AE68A840AE68B9B0AE68E8C0AE68DB70AE698870A
  E6988C0AE698AD0AE699B60AE69DBE0AE6A2A20AE6A89F0AE6A8B50AE6B2BC0AE6B6880AE6B8890AE6B9980AE784BC0A
  E784A60AE785A70AE797870AE79C810AE7A19D0AE7A4810AE7A5A50AE7A7B00AE7ABA00AE7AC910AE7B2A70AE7B4B90A
  E882960AE88F960AE8928B0AE895890AE8A19D0AE8A3B30AE8A89F0AE8A8BC0AE8A9940AE8A9B30AE8B1A10AE8B39E0A
  E986A40AE989A60AE98DBE0AE990980AE99A9C0AE99E980AE4B88A0AE4B8880AE4B89E0AE4B9970AE586970AE589B00A
  E59F8E0AE5A0B40AE5A38C0AE5ACA20AE5B8B80AE683850AE693BE0AE69DA10AE69D960AE6B5840AE78AB60AE795B30A
  E7A9A30AE892B80AE8ADB20AE986B80AE98CA00AE598B10AE59FB40AE9A3BE0A"

/-- tests/test_data/whatwg/shiftjis_whatwg_test_encode_out.txt, part 15 -/
noncomputable def encodeOut14 : List Nat := hex! "8F400A8F410A8F420A8F430A8F440A8F450A8F460A8F470A8F480A8F490A8F4A0A8F4B0A8F4C0A8F4D0A8F4E0A8F4F0A
  8F500A8F510A8F520A8F530A8F540A8F550A8F560A8F570A8F580A8F590A8F5A0A8F5B0A8F5C0A8F5D0A8F5E0A8F5F0A
  8F600A8F610A8F620A8F630A8F640A8F650A8F660A8F670A8F680A8F690A8F6A0A8F6B0A8F6C0A8F6D0A8F6E0A8F6F0A
  8F700A8F710A8F720A8F730A8F740A8F750A8F760A8F770A8F780A8F790A8F7A0A8F7B0A8F7C0A8F7D0A8F7E0A8F800A
  8F810A8F820A8F830A8F840A8F850A8F860A8F870A8F880A8F890A8F8A0A8F8B0A8F8C0A8F8D0A8F8E0A8F8F0A8F900A
  8F910A8F920A8F930A8F940A8F950A8F960A8F970A8F980A8F990A8F9A0A8F9B0A8F9C0A8F9D0A8F9E0A8F9F0A8FA00A
  8FA10A8FA20A8FA30A8FA40A8FA50A8FA60A8FA70A8FA80A8FA90A8FAA0A8FAB0A8FAC0A8FAD0A8FAE0A8FAF0A8FB00A
  8FB10A8FB20A8FB30A8FB40A8FB50A8FB60A8FB70A8FB80A8FB90A8FBA0A8FBB0A8FBC0A8FBD0A8FBE0A8FBF0A8FC00A
  8FC10A8FC20A8FC30A8FC40A8FC50A8FC60A8FC70A8FC80A8FC90A8FCA0A8FCB0A8FCC0A8FCD0A8FCE0A8FCF0A8FD00A
  8FD10A8FD20A8FD30A8FD40A8FD50A8FD60A8FD70A8FD80A8FD90A8FDA0A8FDB0A8FDC0A8FDD0A8FDE0A8FDF0A8FE00A
  8FE10A8FE20A8FE30A8FE40A8FE50A8FE60A8FE70A8FE80A8FE90A8FEA0A8FEB0A8FEC0A8FED0A8FEE0A8FEF0A8FF00A
  8FF10A8FF20A8FF30A8FF40A8FF50A8FF60A8FF70A8FF80A8FF90A8FFA0A8FFB0A8FFC0A"

/-- tests/test_data/whatwg/shiftjis_whatwg_test_decode_in.txt, part 16 -/
noncomputable def decodeIn15 : List Nat := hex! "90400A90410A90420A90430A90440A90450A90460A90470A90480A90490A904A0A904B0A904C0A904D0A904E0A904F0A
  90500A90510A90520A90530A90540A90550A90560A90570A90580A90590A905A0A905B0A905C0A905D0A905E0A905F0A
  90600A90610A90620A90630A90640A90650A90660A90670A90680A90690A906A0A906B0A906C0A906D0A906E0A906F0A
  90700A90710A90720A90730A90740A90750A90760A90770A90780A90790A907A0A907B0A907C0A907D0A907E0A90800A
  90810A90820A90830A90840A90850A90860A90870A90880A90890A908A0A908B0A908C0A908D0A908E0A908F0A90900A
  90910A90920A90930A90940A90950A90960A90970A90980A90990A909A0A909B0A909C0A909D0A909E0A909F0A90A00A
  90A10A90A20A90A30A90A40A90A50A90A60A90A70A90A80A90A90A90AA0A90AB0A90AC0A90AD0A90AE0A90AF0A90B00A
  90B10A90B20A90B30A90B40A90B50A90B60A90B70A90B80A90B90A90BA0A90BB0A90BC0A90BD0A90BE0A90BF0A90C00A
  90C10A90C20A90C30A90C40A90C50A90C60A90C70A90C80A90C90A90CA0A90CB0A90CC0A90CD0A90CE0A90CF0A90D00A
  90D10A90D20A90D30A90D40A90D50A90D60A90D70A90D80A90D90A90DA0A90DB0A90DC0A90DD0A90DE0A90DF0A90E00A
  90E10A90E20A90E30A90E40A90E50A90E60A90E70A90E80A90E90A90EA0A90EB0A90EC0A90ED0A90EE0A90EF0A90F00A
  90F10A90F20A90F30A90F40A90F50A90F60A90F70A90F80A90F90A90FA0A90FB0A90FC0A"

/-- tests/test_data/whatwg/shiftjis_whatwg_test_decode_out.txt, part 16 -/
noncomputable def decodeOut15 : List Nat := hex! "E68BAD0AE6A48D0AE6AE960AE787AD0AE7B9940AE881B70AE889B20AE8A7A60AE9A39F0AE89D950AE8BEB10AE5B0BB0A
  E4BCB80AE4BFA10AE4BEB50AE594870AE5A8A00AE5AF9D0AE5AFA90AE5BF830AE6858E0AE68CAF0AE696B00AE6998B0A
  E6A3AE0AE6A69B0AE6B5B80AE6B7B10AE794B30AE796B90AE79C9F0AE7A59E0AE7A7A60AE7B4B30AE887A30AE88AAF0A
  E896AA0AE8A6AA0AE8A8BA0AE8BAAB0AE8BE9B0AE980B20AE9879D0AE99C870AE4BABA0AE4BB810AE588830AE5A1B50A
  E5A3AC0AE5B08B0AE7949A0AE5B0BD0AE8858E0AE8A88A0AE8BF850AE999A30AE99DAD0AE7ACA50AE8AB8F0AE9A0880A
  E985A20AE59BB30AE58EA80AE980970AE590B90AE59E820AE5B8A50AE68EA80AE6B0B40AE7828A0AE79DA10AE7B28B0A
  E7BFA00AE8A1B00AE981820AE985940AE98C900AE98C980AE99A8F0AE7919E0AE9AB840AE5B4870AE5B5A90AE695B00A
  E69EA20AE8B6A80AE99B9B0AE68DAE0AE69D890AE6A4990AE88F850AE9A0970AE99B800AE8A3BE0AE6BE840AE691BA0A
  E5AFB80AE4B8960AE780AC0AE7959D0AE698AF0AE587840AE588B60AE58BA20AE5A7930AE5BE810AE680A70AE688900A
  E694BF0AE695B40AE6989F0AE699B40AE6A3B20AE6A0960AE6ADA30AE6B8850AE789B20AE7949F0AE79B9B0AE7B2BE0A
  E881960AE5A3B00AE8A3BD0AE8A5BF0AE8AAA00AE8AA930AE8AB8B0AE9809D0AE986920AE99D920AE99D990AE696890A
  E7A88E0AE884860AE99ABB0AE5B8AD0AE6839C0AE6889A0AE696A50AE698940AE69E900AE79FB30AE7A98D0AE7B18D0A
  E7B8BE0AE8848A0AE8B2AC0AE8B5A40AE8B7A10AE8B99F0AE7A2A90AE588870AE68B990AE68EA50AE691820AE68A980A
  E8A8AD0AE7AA830AE7AF800AE8AAAC0AE99BAA0AE7B5B60AE8888C0AE89D890AE4BB990AE585880AE58D830AE58DA00A
  E5AEA30AE5B0820AE5B0960AE5B79D0AE688A60AE689870AE692B00AE6A0930AE6A0B40AE6B3890AE6B5850AE6B4970A
  E69F930AE6BD9C0AE7858E0AE785BD0AE6978B0AE7A9BF0AE7AEAD0AE7B79A0A"

/-- tests/test_data/whatwg/shiftjis_whatwg_test_encode_in.txt, part 16 -/
noncomputable def encodeIn15 : List Nat := hex! "E68BAD0AE6A48D0AE6AE960AE787AD0AE7B9940AE881B70AE889B20AE8A7A60AE9A39F0AE89D950AE8BEB10AE5B0BB0A
  E4BCB80AE4BFA10AE4BEB50AE594870AE5A8A00AE5AF9D0AE5AFA90AE5BF830AE6858E0AE68CAF0AE696B00AE6998B0A
  E6A3AE0AE6A69B0AE6B5B80AE6B7B10AE794B30AE796B90AE79C9F0AE7A59E0AE7A7A60AE7B4B30AE887A30AE88AAF0A
  E896AA0AE8A6AA0AE8A8BA0AE8BAAB0AE8BE9B0AE980B20AE9879D0AE99C870AE4BABA0AE4BB810AE588830AE5A1B50A
  E5A3AC0AE5B08B0AE7949A0AE5B0BD0AE8858E0AE8A88A0AE8BF850AE999A30AE99DAD0AE7ACA50AE8AB8F0AE9A0880A
  E985A20AE59BB30AE58EA80AE980970AE590B90AE59E820AE5B8A50AE68EA80AE6B0B40AE7828A0AE79DA10AE7B28B0A
  E7BFA00AE8A1B00AE981820AE985940AE98C900AE98C980AE99A8F0AE7919E0AE9AB840AE5B4870AE5B5A90AE695B00A
  E69EA20AE8B6A80AE99B9B0AE68DAE0AE69D890AE6A4990AE88F850AE9A0970AE99B800AE8A3BE0AE6BE840AE691BA0A
  E5AFB80AE4B8960AE780AC0AE7959D0AE698AF0AE587840AE588B60AE58BA20AE5A7930AE5BE810AE680A70AE688900A
  E694BF0AE695B40AE6989F0AE699B40AE6A3B20AE6A0960AE6ADA30AE6B8850AE789B20AE7949F0AE79B9B0AE7B2BE0A
  E881960AE5A3B00AE8A3BD0AE8A5BF0AE8AAA00AE8AA930AE8AB8B0AE9809D0AE986920AE99D920AE99D990AE696890A
  E7A88E0AE884860AE99ABB0AE5B8AD0AE6839C0AE6889A0AE696A50AE698940AE69E900AE79FB30AE7A98D0AE7B18D0A
  E7B8BE0AE8848A0AE8B2AC0AE8B5A40AE8B7A10AE8B99F0AE7A2A90AE588870AE68B990AE68EA50AE691820AE68A980A
  E8A8AD0AE7AA830AE7AF800AE8AAAC0AE99BAA0AE7B5B60AE8888C0AE89D890AE4BB990AE585880AE58D830AE58DA00A
  E5AEA30AE5B0820AE5B0960AE5B79D0AE688A60AE689870AE692B00AE6A0930AE6A0B40AE6B3890AE6B5850AE6B4970A
  E69F930AE6BD9C0AE7858E0AE785BD0AE6978B0AE7A9BF0AE7AEAD0AE7B79A0A"

/-- tests/test_data/whatwg/shiftjis_whatwg_test_encode_out.txt, part 16 -/
noncomputable def encodeOut15 : List Nat := hex! "90400A90410A90420A90430A90440A90450A90460A90470A90480A90490A904A0A904B0A904C0A904D0A904E0A904F0A
  90500A90510A90520A90530A90540A90550A90560A90570A90580A90590A905A0A905B0A905C0A905D0A905E0A905F0A
  90600A90610A90620A90630A90640A90650A90660A90670A90680A90690A906A0A906B0A906C0A906D0A906E0A906F0A
  90700A90710A90720A90730A90740A90750A90760A90770A90780A90790A907A0A907B0A907C0A907D0A907E0A90800A
  90810A90820A90830A90840A90850A90860A90870A90880A90890A908A0A908B0A908C0A908D0A908E0A908F0A90900A
  90910A90920A90930A90940A90950A90960A90970A90980A90990A909A0A909B0A909C0A909D0A909E0A909F0A90A00A
  90A10A90A20A90A30A90A40A90A50A90A60A90A70A90A80A90A90A90AA0A90AB0A90AC0A90AD0A90AE0A90AF0A90B00A
  90B10A90B20A90B30A90B40A90B50A90B60A90B70A90B80A90B90A90BA0A90BB0A90BC0A90BD0A90BE0A90BF0A90C00A
  90C10A90C20A90C30A90C40A90C50A90C60A90C70A90C80A90C90A90CA0A90CB0A90CC0A90CD0A90CE0A90CF0A90D00A
  90D10A90D20A90D30A90D40A90D50A90D60A90D70A90D80A90D90A90DA0A90DB0A90DC0A90DD0A90DE0A90DF0A90E00A
  90E10A90E20A90E30A90E40A90E50A90E60A90E70A90E80A90E90A90EA0A90EB0A90EC0A90ED0A90EE0A90EF0A90F00A
  90F10A90F20A90F30A90F40A90F50A90F60A90F70A90F80A90F90A90FA0A90FB0A90FC0A"

/-- tests/test_data/whatwg/shiftjis_whatwg_test_decode_in.txt, part 17 -/
noncomputable def decodeIn16 : List Nat := hex! "91400A91410A91420A91430A91440A91450A91460A91470A91480A91490A914A0A914B0A914C0A914D0A914E0A914F0A
  91500A91510A91520A91530A91540A91550A91560A91570A91580A91590A915A0A915B0A915C0A915D0A915E0A915F0A
  91600A91610A91620A91630A91640A91650A91660A91670A91680A91690A916A0A916B0A916C0A916D0A916E0A916F0A
  91700A91710A91720A91730A91740A91750A91760A91770A91780A91790A917A0A917B0A917C0A917D0A917E0A91800A
  91810A91820A91830A91840A91850A91860A91870A91880A91890A918A0A918B0A918C0A918D0A918E0A918F0A91900A
  91910A91920A91930A91940A91950A91960A91970A91980A91990A919A0A919B0A919C0A919D0A919E0A919F0A91A00A
  91A10A91A20A91A30A91A40A91A50A91A60A91A70A91A80A91A90A91AA0A91AB0A91AC0A91AD0A91AE0A91AF0A91B00A
  91B10A91B20A91B30A91B40A91B50A91B60A91B70A91B80A91B90A91BA0A91BB0A91BC0A91BD0A91BE0A91BF0A91C00A
  91C10A91C20A91C30A91C40A91C50A91C60A91C70A91C80A91C90A91CA0A91CB0A91CC0A91CD0A91CE0A91CF0A91D00A
  91D10A91D20A91D30A91D40A91D50A91D60A91D70A91D80A91D90A91DA0A91DB0A91DC0A91DD0A91DE0A91DF0A91E00A
  91E10A91E20A91E30A91E40A91E50A91E60A91E70A91E80A91E90A91EA0A91EB0A91EC0A91ED0A91EE0A91EF0A91F00A
  91F10A91F20A91F30A91F40A91F50A91F60A91F70A91F80A91F90A91FA0A91FB0A91FC0A"

/-- tests/test_data/whatwg/shiftjis_whatwg_test_decode_out.txt, part 17 -/
noncomputable def decodeOut16 : List Nat := hex! "E7B98A0AE7BEA80AE885BA0AE8889B0AE888B90AE896A60AE8A9AE0AE8B38E0AE8B7B50AE981B80AE981B70AE98AAD0A
  E98A910AE996830AE9AEAE0AE5898D0AE596840AE6BCB80AE784B60AE585A80AE7A6850AE7B9950AE886B30AE7B38E0A
  E5998C0AE5A1910AE5B2A80AE68EAA0AE69BBE0AE69BBD0AE6A59A0AE78B990AE7968F0AE7968E0AE7A48E0AE7A5960A
  E7A79F0AE7B2970AE7B4A00AE7B5840AE898870AE8A8B40AE998BB0AE981A10AE9BCA00AE583A70AE589B50AE58F8C0A
  E58FA20AE580890AE596AA0AE5A3AE0AE5A58F0AE788BD0AE5AE8B0AE5B1A40AE58C9D0AE683A30AE683B30AE68D9C0A
  E68E830AE68CBF0AE68EBB0AE6938D0AE697A90AE69BB90AE5B7A30AE6A78D0AE6A7BD0AE6BC950AE787A50AE4BA890A
  E797A90AE79BB80AE7AA930AE7B39F0AE7B78F0AE7B69C0AE881A10AE88D890AE88D980AE891AC0AE892BC0AE897BB0A
  E8A3850AE8B5B00AE980810AE981AD0AE98E970AE99C9C0AE9A8920AE5838F0AE5A2970AE6868E0AE887930AE894B50A
  E8B4880AE980A00AE4BF830AE581B40AE589870AE58DB30AE681AF0AE68D890AE69D9F0AE6B8AC0AE8B6B30AE9809F0A
  E4BF970AE5B19E0AE8B38A0AE6978F0AE7B69A0AE58D920AE8A2960AE585B60AE68F830AE5AD980AE5ADAB0AE5B08A0A
  E6908D0AE69D910AE9819C0AE4BB960AE5A49A0AE5A4AA0AE6B1B00AE8A9910AE594BE0AE5A0950AE5A6A50AE683B00A
  E689930AE69F810AE888B50AE6A5950AE999800AE9A7840AE9A8A80AE4BD930AE5A0860AE5AFBE0AE880900AE5B2B10A
  E5B8AF0AE5BE850AE680A00AE6858B0AE688B40AE69BBF0AE6B3B00AE6BB9E0AE8838E0AE885BF0AE88B940AE8A28B0A
  E8B2B80AE980800AE980AE0AE99A8A0AE9BB9B0AE9AF9B0AE4BBA30AE58FB00AE5A4A70AE7ACAC0AE9868D0AE9A18C0A
  E9B7B90AE6BB9D0AE780A70AE58D930AE595840AE5AE850AE689980AE68A9E0AE68B930AE6B2A20AE6BFAF0AE790A20A
  E8A8970AE990B80AE6BF810AE8ABBE0AE88CB80AE587A70AE89BB80AE58FAA0A"

/-- tests/test_data/whatwg/shiftjis_whatwg_test_encode_in.txt, part 17 -/
noncomputable def encodeIn16 : List Nat := hex! "E7B98A0AE7BEA80AE885BA0AE8889B0AE888B90AE896A60AE8A9AE0AE8B38E0AE8B7B50AE981B80AE981B70AE98AAD0A
  E98A910AE996830AE9AEAE0AE5898D0AE596840AE6BCB80AE784B60AE585A80AE7A6850AE7B9950AE886B30AE7B38E0A
  E5998C0AE5A1910AE5B2A80AE68EAA0AE69BBE0AE69BBD0AE6A59A0AE78B990AE7968F0AE7968E0AE7A48E0AE7A5960A
  E7A79F0AE7B2970AE7B4A00AE7B5840AE898870AE8A8B40AE998BB0AE981A10AE9BCA00AE583A70AE589B50AE58F8C0A
  E58FA20AE580890AE596AA0AE5A3AE0AE5A58F0AE788BD0AE5AE8B0AE5B1A40AE58C9D0AE683A30AE683B30AE68D9C0A
  E68E830AE68CBF0AE68EBB0AE6938D0AE697A90AE69BB90AE5B7A30AE6A78D0AE6A7BD0AE6BC950AE787A50AE4BA890A
  E797A90AE79BB80AE7AA930AE7B39F0AE7B78F0AE7B69C0AE881A10AE88D890AE88D980AE891AC0AE892BC0AE897BB0A
  E8A3850AE8B5B00AE980810AE981AD0AE98E970AE99C9C0AE9A8920AE5838F0AE5A2970AE6868E0AE887930AE894B50A
  E8B4880AE980A00AE4BF830AE581B40AE589870AE58DB30AE681AF0AE68D890AE69D9F0AE6B8AC0AE8B6B30AE9809F0A
  E4BF970AE5B19E0AE8B38A0AE6978F0AE7B69A0AE58D920AE8A2960AE585B60AE68F830AE5AD980AE5ADAB0AE5B08A0A
  E6908D0AE69D910AE9819C0AE4BB960AE5A49A0AE5A4AA0AE6B1B00AE8A9910AE594BE0AE5A0950AE5A6A50AE683B00A
  E689930AE69F810AE888B50AE6A5950AE999800AE9A7840AE9A8A80AE4BD930AE5A0860AE5AFBE0AE880900AE5B2B10A
  E5B8AF0AE5BE850AE680A00AE6858B0AE688B40AE69BBF0AE6B3B00AE6BB9E0AE8838E0AE885BF0AE88B940AE8A28B0A
  E8B2B80AE980800AE980AE0AE99A8A0AE9BB9B0AE9AF9B0AE4BBA30AE58FB00AE5A4A70AE7ACAC0AE9868D0AE9A18C0A
  E9B7B90AE6BB9D0AE780A70AE58D930AE595840AE5AE850AE689980AE68A9E0AE68B930AE6B2A20AE6BFAF0AE790A20A
  E8A8970AE990B80AE6BF810AE8ABBE0AE88CB80AE587A70AE89BB80AE58FAA0A"

/-- tests/test_data/whatwg/shiftjis_whatwg_test_encode_out.txt, part 17 -/
noncomputable def encodeOut16 : List Nat := hex! "91400A91410A91420A91430A91440A91450A91460A91470A91480A91490A914A0A914B0A914C0A914D0A914E0A914F0A
  91500A91510A91520A91530A91540A91550A91560A91570A91580A91590A915A0A915B0A915C0A915D0A915E0A915F0A
  91600A91610A91620A91630A91640A91650A91660A91670A91680A91690A916A0A916B0A916C0A916D0A916E0A916F0A
  91700A91710A91720A91730A91740A91750A91760A91770A91780A91790A917A0A917B0A917C0A917D0A917E0A91800A
  91810A91820A91830A91840A91850A91860A91870A91880A91890A918A0A918B0A918C0A918D0A918E0A918F0A91900A
  91910A91920A91930A91940A91950A91960A91970A91980A91990A919A0A919B0A919C0A919D0A919E0A919F0A91A00A
  91A10A91A20A91A30A91A40A91A50A91A60A91A70A91A80A91A90A91AA0A91AB0A91AC0A91AD0A91AE0A91AF0A91B00A
  91B10A91B20A91B30A91B40A91B50A91B60A91B70A91B80A91B90A91BA0A91BB0A91BC0A91BD0A91BE0A91BF0A91C00A
  91C10A91C20A91C30A91C40A91C50A91C60A91C70A91C80A91C90A91CA0A91CB0A91CC0A91CD0A91CE0A91CF0A91D00A
  91D10A91D20A91D30A91D40A91D50A91D60A91D70A91D80A91D90A91DA0A91DB0A91DC0A91DD0A91DE0A91DF0A91E00A
  91E10A91E20A91E30A91E40A91E50A91E60A91E70A91E80A91E90A91EA0A91EB0A91EC0A91ED0A91EE0A91EF0A91F00A
  91F10A91F20A91F30A91F40A91F50A91F60A91F70A91F80A91F90A91FA0A91FB0A91FC0A"

/-- tests/test_data/whatwg/shiftjis_whatwg_test_decode_in.txt, part 18 -/
noncomputable def decodeIn17 : List Nat := hex! "92400A92410A92420A92430A92440A92450A92460A92470A92480A92490A924A0A924B0A924C0A924D0A924E0A924F0A
  92500A92510A92520A92530A92540A92550A92560A92570A92580A92590A925A0A925B0A925C0A925D0A925E0A925F0A
  92600A92610A92620A92630A92640A92650A92660A92670A92680A92690A926A0A926B0A926C0A926D0A926E0A926F0A
  92700A92710A92720A92730A92740A92750A92760A92770A92780A92790A927A0A927B0A927C0A927D0A927E0A92800A
  92810A92820A92830A92840A92850A92860A92870A92880A92890A928A0A928B0A928C0A928D0A928E0A928F0A92900A
  92910A92920A92930A92940A92950A92960A92970A92980A92990A929A0A929B0A929C0A929D0A929E0A929F0A92A00A
  92A10A92A20A92A30A92A40A92A50A92A60A92A70A92A80A92A90A92AA0A92AB0A92AC0A92AD0A92AE0A92AF0A92B00A
  92B10A92B20A92B30A92B40A92B50A92B60A92B70A92B80A92B90A92BA0A92BB0A92BC0A92BD0A92BE0A92BF0A92C00A
  92C10A92C20A92C30A92C40A92C50A92C60A92C70A92C80A92C90A92CA0A92CB0A92CC0A92CD0A92CE0A92CF0A92D00A
  92D10A92D20A92D30A92D40A92D50A92D60A92D70A92D80A92D90A92DA0A92DB0A92DC0A92DD0A92DE0A92DF0A92E00A
  92E10A92E20A92E30A92E40A92E50A92E60A92E70A92E80A92E90A92EA0A92EB0A92EC0A92ED0A92EE0A92EF0A92F00A
  92F10A92F20A92F30A92F40A92F50A92F60A92F70A92F80A92F90A92FA0A92FB0A92FC0A"

/-- tests/test_data/whatwg/shiftjis_whatwg_test_decode_out.txt, part 18 -/
noncomputable def decodeOut17 : List Nat := hex! "E58FA90AE4BD860AE981940AE8BEB00AE5A5AA0AE884B10AE5B7BD0AE7ABAA0AE8BEBF0AE6A39A0AE8B0B70AE78BB80A
  E9B1880AE6A8BD0AE8AAB00AE4B8B90AE58D980AE598860AE59DA60AE68B850AE68EA20AE697A60AE6AD8E0AE6B7A10A
  E6B99B0AE782AD0AE79FAD0AE7ABAF0AE7AEAA0AE7B6BB0AE880BD0AE883860AE89B8B0AE8AA950AE98D9B0AE59BA30A
  E5A3870AE5BCBE0AE696AD0AE69A960AE6AA800AE6AEB50AE794B70AE8AB870AE580A40AE79FA50AE59CB00AE5BC9B0A
  E681A50AE699BA0AE6B1A00AE797B40AE7A89A0AE7BDAE0AE887B40AE89C980AE981850AE9A6B30AE7AF890AE7959C0A
  E7ABB90AE7AD910AE893840AE980900AE7A7A90AE7AA920AE88CB60AE5ABA10AE79D800AE4B8AD0AE4BBB20AE5AE990A
  E5BFA00AE68ABD0AE698BC0AE69FB10AE6B3A80AE899AB0AE8A1B70AE8A8BB0AE9858E0AE98BB30AE9A7900AE6A8970A
  E780A60AE78CAA0AE88BA70AE891970AE8B2AF0AE4B8810AE585860AE5878B0AE5968B0AE5AFB50AE5B8960AE5B8B30A
  E5BA810AE5BC940AE5BCB50AE5BDAB0AE5BEB40AE687B20AE68C910AE69AA20AE69C9D0AE6BDAE0AE789920AE794BA0A
  E79CBA0AE881B40AE884B90AE885B80AE89DB60AE8AABF0AE8AB9C0AE8B6850AE8B7B30AE98A9A0AE995B70AE9A0820A
  E9B3A50AE58B850AE68D970AE79BB40AE69C950AE6B2880AE78F8D0AE8B3830AE98EAE0AE999B30AE6B4A50AE5A29C0A
  E6A48E0AE6A78C0AE8BFBD0AE98E9A0AE7979B0AE9809A0AE5A19A0AE6A0820AE68EB40AE6A7BB0AE4BD830AE6BCAC0A
  E69F980AE8BEBB0AE894A60AE7B6B40AE98D940AE6A4BF0AE6BDB00AE59DAA0AE5A3B70AE5ACAC0AE7B4AC0AE788AA0A
  E5908A0AE987A30AE9B6B40AE4BAAD0AE4BD8E0AE5819C0AE581B50AE589830AE8B29E0AE591880AE5A0A40AE5AE9A0A
  E5B89D0AE5BA950AE5BAAD0AE5BBB70AE5BC9F0AE6828C0AE68AB50AE68CBA0AE68F900AE6A2AF0AE6B1800AE7A2870A
  E7A68E0AE7A88B0AE7B7A00AE889870AE8A8820AE8ABA60AE8B9840AE980930A"

/-- tests/test_data/whatwg/shiftjis_whatwg_test_encode_in.txt, part 18 -/
noncomputable def encodeIn17 : List Nat := hex! "E58FA90AE4BD860AE981940AE8BEB00AE5A5AA0AE884B10AE5B7BD0AE7ABAA0AE8BEBF0AE6A39A0AE8B0B70AE78BB80A
  E9B1880AE6A8BD0AE8AAB00AE4B8B90AE58D980AE598860AE59DA60AE68B850AE68EA20AE697A60AE6AD8E0AE6B7A10A
  E6B99B0AE782AD0AE79FAD0AE7ABAF0AE7AEAA0AE7B6BB0AE880BD0AE883860AE89B8B0AE8AA950AE98D9B0AE59BA30A
  E5A3870AE5BCBE0AE696AD0AE69A960AE6AA800AE6AEB50AE794B70AE8AB870AE580A40AE79FA50AE59CB00AE5BC9B0A
  E681A50AE699BA0AE6B1A00AE797B40AE7A89A0AE7BDAE0AE887B40AE89C980AE981850AE9A6B30AE7AF890AE7959C0A
  E7ABB90AE7AD910AE893840AE980900AE7A7A90AE7AA920AE88CB60AE5ABA10AE79D800AE4B8AD0AE4BBB20AE5AE990A
  E5BFA00AE68ABD0AE698BC0AE69FB10AE6B3A80AE899AB0AE8A1B70AE8A8BB0AE9858E0AE98BB30AE9A7900AE6A8970A
  E780A60AE78CAA0AE88BA70AE891970AE8B2AF0AE4B8810AE585860AE5878B0AE5968B0AE5AFB50AE5B8960AE5B8B30A
  E5BA810AE5BC940AE5BCB50AE5BDAB0AE5BEB40AE687B20AE68C910AE69AA20AE69C9D0AE6BDAE0AE789920AE794BA0A
  E79CBA0AE881B40AE884B90AE885B80AE89DB60AE8AABF0AE8AB9C0AE8B6850AE8B7B30AE98A9A0AE995B70AE9A0820A
  E9B3A50AE58B850AE68D970AE79BB40AE69C950AE6B2880AE78F8D0AE8B3830AE98EAE0AE999B30AE6B4A50AE5A29C0A
  E6A48E0AE6A78C0AE8BFBD0AE98E9A0AE7979B0AE9809A0AE5A19A0AE6A0820AE68EB40AE6A7BB0AE4BD830AE6BCAC0A
  E69F980AE8BEBB0AE894A60AE7B6B40AE98D940AE6A4BF0AE6BDB00AE59DAA0AE5A3B70AE5ACAC0AE7B4AC0AE788AA0A
  E5908A0AE987A30AE9B6B40AE4BAAD0AE4BD8E0AE5819C0AE581B50AE589830AE8B29E0AE591880AE5A0A40AE5AE9A0A
  E5B89D0AE5BA950AE5BAAD0AE5BBB70AE5BC9F0AE6828C0AE68AB50AE68CBA0AE68F900AE6A2AF0AE6B1800AE7A2870A
  E7A68E0AE7A88B0AE7B7A00AE889870AE8A8820AE8ABA60AE8B9840AE980930A"

/-- tests/test_data/whatwg/shiftjis_whatwg_test_encode_out.txt, part 18 -/
noncomputable def encodeOut17 : List Nat := hex! "92400A92410A92420A92430A92440A92450A92460A92470A92480A92490A924A0A924B0A924C0A924D0A924E0A924F0A
  92500A92510A92520A92530A92540A92550A92560A92570A92580A92590A925A0A925B0A925C0A925D0A925E0A925F0A
  92600A92610A92620A92630A92640A92650A92660A92670A92680A92690A926A0A926B0A926C0A926D0A926E0A926F0A
  92700A92710A92720A92730A92740A92750A92760A92770A92780A92790A927A0A927B0A927C0A927D0A927E0A92800A
  92810A92820A92830A92840A92850A92860A92870A92880A92890A928A0A928B0A928C0A928D0A928E0A928F0A92900A
  92910A92920A92930A92940A92950A92960A92970A92980A92990A929A0A929B0A929C0A929D0A929E0A929F0A92A00A
  92A10A92A20A92A30A92A40A92A50A92A60A92A70A92A80A92A90A92AA0A92AB0A92AC0A92AD0A92AE0A92AF0A92B00A
  92B10A92B20A92B30A92B40A92B50A92B60A92B70A92B80A92B90A92BA0A92BB0A92BC0A92BD0A92BE0A92BF0A92C00A
  92C10A92C20A92C30A92C40A92C50A92C60A92C70A92C80A92C90A92CA0A92CB0A92CC0A92CD0A92CE0A92CF0A92D00A
  92D10A92D20A92D30A92D40A92D50A92D60A92D70A92D80A92D90A92DA0A92DB0A92DC0A92DD0A92DE0A92DF0A92E00A
  92E10A92E20A92E30A92E40A92E50A92E60A92E70A92E80A92E90A92EA0A92EB0A92EC0A92ED0A92EE0A92EF0A92F00A
  92F10A92F20A92F30A92F40A92F50A92F60A92F70A92F80A92F90A92FA0A92FB0A92FC0A"

/-- tests/test_data/whatwg/shiftjis_whatwg_test_decode_in.txt, part 19 -/
noncomputable def decodeIn18 : List Nat := hex! "93400A93410A93420A93430A93440A93450A93460A93470A93480A93490A934A0A934B0A934C0A934D0A934E0A934F0A
  93500A93510A93520A93530A93540A93550A93560A93570A93580A93590A935A0A935B0A935C0A935D0A935E0A935F0A
  93600A93610A93620A93630A93640A93650A93660A93670A93680A93690A936A0A936B0A936C0A936D0A936E0A936F0A
  93700A93710A93720A93730A93740A93750A93760A93770A93780A93790A937A0A937B0A937C0A937D0A937E0A93800A
  93810A93820A93830A93840A93850A93860A93870A93880A93890A938A0A938B0A938C0A938D0A938E0A938F0A93900A
  93910A93920A93930A93940A93950A93960A93970A93980A93990A939A0A939B0A939C0A939D0A939E0A939F0A93A00A
  93A10A93A20A93A30A93A40A93A50A93A60A93A70A93A80A93A90A93AA0A93AB0A93AC0A93AD0A93AE0A93AF0A93B00A
  93B10A93B20A93B30A93B40A93B50A93B60A93B70A93B80A93B90A93BA0A93BB0A93BC0A93BD0A93BE0A93BF0A93C00A
  93C10A93C20A93C30A93C40A93C50A93C60A93C70A93C80A93C90A93CA0A93CB0A93CC0A93CD0A93CE0A93CF0A93D00A
  93D10A93D20A93D30A93D40A93D50A93D60A93D70A93D80A93D90A93DA0A93DB0A93DC0A93DD0A93DE0A93DF0A93E00A
  93E10A93E20A93E30A93E40A93E50A93E60A93E70A93E80A93E90A93EA0A93EB0A93EC0A93ED0A93EE0A93EF0A93F00A
  93F10A93F20A93F30A93F40A93F50A93F60A93F70A93F80A93F90A93FA0A93FB0A93FC0A"

/-- tests/test_data/whatwg/shiftjis_whatwg_test_decode_out.txt, part 19 -/
noncomputable def decodeOut18 : List Nat := hex! "E982B80AE984AD0AE987980AE9BC8E0AE6B3A50AE691980AE693A20AE695B50AE6BBB40AE79A840AE7AC9B0AE981A90A
  E98F910AE6BABA0AE593B20AE5BEB90AE692A40AE8BD8D0AE8BFAD0AE989840AE585B80AE5A1AB0AE5A4A90AE5B1950A
  E5BA970AE6B7BB0AE7BA8F0AE7949C0AE8B2BC0AE8BBA20AE9A19B0AE782B90AE4BC9D0AE6AEBF0AE6BEB10AE794B00A
  E99BBB0AE5858E0AE590900AE5A0B50AE5A1970AE5A6AC0AE5B1A00AE5BE920AE696970AE69D9C0AE6B8A10AE799BB0A
  E88F9F0AE8B3AD0AE980940AE983BD0AE98D8D0AE7A0A50AE7A0BA0AE58AAA0AE5BAA60AE59C9F0AE5A5B40AE680920A
  E580920AE5859A0AE586AC0AE5878D0AE588800AE594900AE5A1940AE5A1980AE5A5970AE5AE950AE5B3B60AE5B68B0A
  E682BC0AE68A950AE690AD0AE69DB10AE6A1830AE6A2BC0AE6A39F0AE79B970AE6B7980AE6B9AF0AE6B69B0AE781AF0A
  E787880AE5BD930AE797980AE7A5B70AE7AD890AE7AD940AE7AD920AE7B3960AE7B5B10AE588B00AE891A30AE895A90A
  E897A40AE8A88E0AE8AC840AE8B1860AE8B88F0AE980830AE9808F0AE990990AE999B60AE9A0AD0AE9A8B00AE997980A
  E5838D0AE58B950AE5908C0AE5A0820AE5B08E0AE686A70AE6929E0AE6B49E0AE79EB30AE7ABA50AE883B40AE890840A
  E981930AE98A850AE5B3A00AE9B4870AE58CBF0AE5BE970AE5BEB30AE6B69C0AE789B90AE79DA30AE7A6BF0AE7AFA40A
  E6AF920AE78BAC0AE8AAAD0AE6A0830AE6A9A10AE587B80AE7AA810AE6A4B40AE5B18A0AE9B3B60AE88BAB0AE5AF850A
  E985890AE7809E0AE599B80AE5B1AF0AE683870AE695A60AE6B28C0AE8B19A0AE981810AE9A0930AE591910AE69B870A
  E9888D0AE5A5880AE982A30AE586850AE4B98D0AE587AA0AE896990AE8AC8E0AE781980AE68DBA0AE98D8B0AE6A5A20A
  E9A6B40AE7B8840AE795B70AE58D970AE6A5A00AE8BB9F0AE99BA30AE6B19D0AE4BA8C0AE5B0BC0AE5BC900AE8BFA90A
  E58C820AE8B3910AE882890AE899B90AE5BBBF0AE697A50AE4B9B30AE585A50A"

/-- tests/test_data/whatwg/shiftjis_whatwg_test_encode_in.txt, part 19 -/
noncomputable def encodeIn18 : List Nat := hex! "E982B80AE984AD0AE987980AE9BC8E0AE6B3A50AE691980AE693A20AE695B50AE6BBB40AE79A840AE7AC9B0AE981A90A
  E98F910AE6BABA0AE593B20AE5BEB90AE692A40AE8BD8D0AE8BFAD0AE989840AE585B80AE5A1AB0AE5A4A90AE5B1950A
  E5BA970AE6B7BB0AE7BA8F0AE7949C0AE8B2BC0AE8BBA20AE9A19B0AE782B90AE4BC9D0AE6AEBF0AE6BEB10AE794B00A
  E99BBB0AE5858E0AE590900AE5A0B50AE5A1970AE5A6AC0AE5B1A00AE5BE920AE696970AE69D9C0AE6B8A10AE799BB0A
  E88F9F0AE8B3AD0AE980940AE983BD0AE98D8D0AE7A0A50AE7A0BA0AE58AAA0AE5BAA60AE59C9F0AE5A5B40AE680920A
  E580920AE5859A0AE586AC0AE5878D0AE588800AE594900AE5A1940AE5A1980AE5A5970AE5AE950AE5B3B60AE5B68B0A
  E682BC0AE68A950AE690AD0AE69DB10AE6A1830AE6A2BC0AE6A39F0AE79B970AE6B7980AE6B9AF0AE6B69B0AE781AF0A
  E787880AE5BD930AE797980AE7A5B70AE7AD890AE7AD940AE7AD920AE7B3960AE7B5B10AE588B00AE891A30AE895A90A
  E897A40AE8A88E0AE8AC840AE8B1860AE8B88F0AE980830AE9808F0AE990990AE999B60AE9A0AD0AE9A8B00AE997980A
  E5838D0AE58B950AE5908C0AE5A0820AE5B08E0AE686A70AE6929E0AE6B49E0AE79EB30AE7ABA50AE883B40AE890840A
  E981930AE98A850AE5B3A00AE9B4870AE58CBF0AE5BE970AE5BEB30AE6B69C0AE789B90AE79DA30AE7A6BF0AE7AFA40A
  E6AF920AE78BAC0AE8AAAD0AE6A0830AE6A9A10AE587B80AE7AA810AE6A4B40AE5B18A0AE9B3B60AE88BAB0AE5AF850A
  E985890AE7809E0AE599B80AE5B1AF0AE683870AE695A60AE6B28C0AE8B19A0AE981810AE9A0930AE591910AE69B870A
  E9888D0AE5A5880AE982A30AE586850AE4B98D0AE587AA0AE896990AE8AC8E0AE781980AE68DBA0AE98D8B0AE6A5A20A
  E9A6B40AE7B8840AE795B70AE58D970AE6A5A00AE8BB9F0AE99BA30AE6B19D0AE4BA8C0AE5B0BC0AE5BC900AE8BFA90A
  E58C820AE8B3910AE882890AE899B90AE5BBBF0AE697A50AE4B9B30AE585A50A"

/-- tests/test_data/whatwg/shiftjis_whatwg_test_encode_out.txt, part 19 -/
noncomputable def encodeOut18 : List Nat := hex! "93400A93410A93420A93430A93440A93450A93460A93470A93480A93490A934A0A934B0A934C0A934D0A934E0A934F0A
  93500A93510A93520A93530A93540A93550A93560A93570A93580A93590A935A0A935B0A935C0A935D0A935E0A935F0A
  93600A93610A93620A93630A93640A93650A93660A93670A93680A93690A936A0A936B0A936C0A936D0A936E0A936F0A
  93700A93710A93720A93730A93740A93750A93760A93770A93780A93790A937A0A937B0A937C0A937D0A937E0A93800A
  93810A93820A93830A93840A93850A93860A93870A93880A93890A938A0A938B0A938C0A938D0A938E0A938F0A93900A
  93910A93920A93930A93940A93950A93960A93970A93980A93990A939A0A939B0A939C0A939D0A939E0A939F0A93A00A
  93A10A93A20A93A30A93A40A93A50A93A60A93A70A93A80A93A90A93AA0A93AB0A93AC0A93AD0A93AE0A93AF0A93B00A
  93B10A93B20A93B30A93B40A93B50A93B60A93B70A93B80A93B90A93BA0A93BB0A93BC0A93BD0A93BE0A93BF0A93C00A
  93C10A93C20A93C30A93C40A93C50A93C60A93C70A93C80A93C90A93CA0A93CB0A93CC0A93CD0A93CE0A93CF0A93D00A
  93D10A93D20A93D30A93D40A93D50A93D60A93D70A93D80A93D90A93DA0A93DB0A93DC0A93DD0A93DE0A93DF0A93E00A
  93E10A93E20A93E30A93E40A93E50A93E60A93E70A93E80A93E90A93EA0A93EB0A93EC0A93ED0A93EE0A93EF0A93F00A
  93F10A93F20A93F30A93F40A93F50A93F60A93F70A93F80A93F90A93FA0A93FB0A93FC0A"

/-- tests/test_data/whatwg/shiftjis_whatwg_test_decode_in.txt, part 20 -/
noncomputable def decodeIn19 : List Nat := hex! "94400A94410A94420A94430A94440A94450A94460A94470A94480A94490A944A0A944B0A944C0A944D0A944E0A944F0A
  94500A94510A94520A94530A94540A94550A94560A94570A94580A94590A945A0A945B0A945C0A945D0A945E0A945F0A
  94600A94610A94620A94630A94640A94650A94660A94670A94680A94690A946A0A946B0A946C0A946D0A946E0A946F0A
  94700A94710A94720A94730A94740A94750A94760A94770A94780A94790A947A0A947B0A947C0A947D0A947E0A94800A
  94810A94820A94830A94840A94850A94860A94870A94880A94890A948A0A948B0A948C0A948D0A948E0A948F0A94900A
  94910A94920A94930A94940A94950A94960A94970A94980A94990A949A0A949B0A949C0A949D0A949E0A949F0A94A00A
  94A10A94A20A94A30A94A40A94A50A94A60A94A70A94A80A94A90A94AA0A94AB0A94AC0A94AD0A94AE0A94AF0A94B00A
  94B10A94B20A94B30A94B40A94B50A94B60A94B70A94B80A94B90A94BA0A94BB0A94BC0A94BD0A94BE0A94BF0A94C00A
  94C10A94C20A94C30A94C40A94C50A94C60A94C70A94C80A94C90A94CA0A94CB0A94CC0A94CD0A94CE0A94CF0A94D00A
  94D10A94D20A94D30A94D40A94D50A94D60A94D70A94D80A94D90A94DA0A94DB0A94DC0A94DD0A94DE0A94DF0A94E00A
  94E10A94E20A94E30A94E40A94E50A94E60A94E70A94E80A94E90A94EA0A94EB0A94EC0A94ED0A94EE0A94EF0A94F00A
  94F10A94F20A94F30A94F40A94F50A94F60A94F70A94F80A94F90A94FA0A94FB0A94FC0A"

/-- tests/test_data/whatwg/shiftjis_whatwg_test_decode_out.txt, part 20 -/
noncomputable def decodeOut19 : List Nat := hex! "E5A6820AE5B0BF0AE99FAE0AE4BBBB0AE5A68A0AE5BF8D0AE8AA8D0AE6BFA10AE7A6B00AE7A5A20AE5AFA70AE891B10A
  E78CAB0AE786B10AE5B9B40AE5BFB50AE68DBB0AE6929A0AE787830AE7B2980AE4B9830AE5BBBC0AE4B98B0AE59F9C0A
  E59AA20AE682A90AE6BF830AE7B48D0AE883BD0AE884B30AE886BF0AE8BEB20AE8A6970AE89AA40AE5B7B40AE68A8A0A
  E692AD0AE8A6870AE69DB70AE6B3A20AE6B4BE0AE790B60AE7A0B40AE5A9860AE7BDB50AE88AAD0AE9A6AC0AE4BFB30A
  E5BB830AE68B9D0AE68E920AE695970AE69DAF0AE79B830AE7898C0AE8838C0AE882BA0AE8BCA90AE9858D0AE5808D0A
  E59FB90AE5AA920AE6A2850AE6A5B30AE785A40AE78BBD0AE8B2B70AE5A3B20AE8B3A00AE999AA0AE980990AE89DBF0A
  E7A7A40AE79FA70AE890A90AE4BCAF0AE589A50AE58D9A0AE68B8D0AE69F8F0AE6B38A0AE799BD0AE7AE940AE7B2950A
  E888B60AE896840AE8BFAB0AE69B9D0AE6BCA00AE788860AE7B89B0AE88EAB0AE9A7810AE9BAA60AE587BD0AE7AEB10A
  E7A1B20AE7AEB80AE882870AE7AD880AE6ABA80AE5B9A10AE8828C0AE795910AE795A00AE585AB0AE989A20AE6BA8C0A
  E799BA0AE986970AE9ABAA0AE4BC900AE7BDB00AE68A9C0AE7AD8F0AE996A50AE9B3A90AE599BA0AE5A1990AE89BA40A
  E99ABC0AE4BCB40AE588A40AE58D8A0AE58F8D0AE58F9B0AE5B8860AE690AC0AE696910AE69DBF0AE6B0BE0AE6B18E0A
  E789880AE78AAF0AE78FAD0AE795940AE7B9810AE888AC0AE897A90AE8B2A90AE7AF840AE987860AE785A90AE9A0920A
  E9A3AF0AE68CBD0AE699A90AE795AA0AE79BA40AE7A3900AE895830AE89BAE0AE58CAA0AE58D910AE590A60AE5A6830A
  E5BA870AE5BDBC0AE682B20AE689890AE689B90AE68AAB0AE696900AE6AF940AE6B38C0AE796B20AE79AAE0AE7A2910A
  E7A7980AE7B78B0AE7BDB70AE882A50AE8A2AB0AE8AAB90AE8B2BB0AE981BF0AE99D9E0AE9A39B0AE6A88B0AE7B0B80A
  E582990AE5B0BE0AE5BEAE0AE69E870AE6AF980AE790B50AE79C890AE7BE8E0A"

/-- tests/test_data/whatwg/shiftjis_whatwg_test_encode_in.txt, part 20 -/
noncomputable def encodeIn19 : List Nat := hex! "E5A6820AE5B0BF0AE99FAE0AE4BBBB0AE5A68A0AE5BF8D0AE8AA8D0AE6BFA10AE7A6B00AE7A5A20AE5AFA70AE891B10A
  E78CAB0AE786B10AE5B9B40AE5BFB50AE68DBB0AE6929A0AE787830AE7B2980AE4B9830AE5BBBC0AE4B98B0AE59F9C0A
  E59AA20AE682A90AE6BF830AE7B48D0AE883BD0AE884B30AE886BF0AE8BEB20AE8A6970AE89AA40AE5B7B40AE68A8A0A
  E692AD0AE8A6870AE69DB70AE6B3A20AE6B4BE0AE790B60AE7A0B40AE5A9860AE7BDB50AE88AAD0AE9A6AC0AE4BFB30A
  E5BB830AE68B9D0AE68E920AE695970AE69DAF0AE79B830AE7898C0AE8838C0AE882BA0AE8BCA90AE9858D0AE5808D0A
  E59FB90AE5AA920AE6A2850AE6A5B30AE785A40AE78BBD0AE8B2B70AE5A3B20AE8B3A00AE999AA0AE980990AE89DBF0A
  E7A7A40AE79FA70AE890A90AE4BCAF0AE589A50AE58D9A0AE68B8D0AE69F8F0AE6B38A0AE799BD0AE7AE940AE7B2950A
  E888B60AE896840AE8BFAB0AE69B9D0AE6BCA00AE788860AE7B89B0AE88EAB0AE9A7810AE9BAA60AE587BD0AE7AEB10A
  E7A1B20AE7AEB80AE882870AE7AD880AE6ABA80AE5B9A10AE8828C0AE795910AE795A00AE585AB0AE989A20AE6BA8C0A
  E799BA0AE986970AE9ABAA0AE4BC900AE7BDB00AE68A9C0AE7AD8F0AE996A50AE9B3A90AE599BA0AE5A1990AE89BA40A
  E99ABC0AE4BCB40AE588A40AE58D8A0AE58F8D0AE58F9B0AE5B8860AE690AC0AE696910AE69DBF0AE6B0BE0AE6B18E0A
  E789880AE78AAF0AE78FAD0AE795940AE7B9810AE888AC0AE897A90AE8B2A90AE7AF840AE987860AE785A90AE9A0920A
  E9A3AF0AE68CBD0AE699A90AE795AA0AE79BA40AE7A3900AE895830AE89BAE0AE58CAA0AE58D910AE590A60AE5A6830A
  E5BA870AE5BDBC0AE682B20AE689890AE689B90AE68AAB0AE696900AE6AF940AE6B38C0AE796B20AE79AAE0AE7A2910A
  E7A7980AE7B78B0AE7BDB70AE882A50AE8A2AB0AE8AAB90AE8B2BB0AE981BF0AE99D9E0AE9A39B0AE6A88B0AE7B0B80A
  E582990AE5B0BE0AE5BEAE0AE69E870AE6AF980AE790B50AE79C890AE7BE8E0A"

/-- tests/test_data/whatwg/shiftjis_whatwg_test_encode_out.txt, part 20 -/
noncomputable def encodeOut19 : List Nat := hex! "94400A94410A94420A94430A94440A94450A94460A94470A94480A94490A944A0A944B0A944C0A944D0A944E0A944F0A
  94500A94510A94520A94530A94540A94550A94560A94570A94580A94590A945A0A945B0A945C0A945D0A945E0A945F0A
  94600A94610A94620A94630A94640A94650A94660A94670A94680A94690A946A0A946B0A946C0A946D0A946E0A946F0A
  94700A94710A94720A94730A94740A94750A94760A94770A94780A94790A947A0A947B0A947C0A947D0A947E0A94800A
  94810A94820A94830A94840A94850A94860A94870A94880A94890A948A0A948B0A948C0A948D0A948E0A948F0A94900A
  94910A94920A94930A94940A94950A94960A94970A94980A94990A949A0A949B0A949C0A949D0A949E0A949F0A94A00A
  94A10A94A20A94A30A94A40A94A50A94A60A94A70A94A80A94A90A94AA0A94AB0A94AC0A94AD0A94AE0A94AF0A94B00A
  94B10A94B20A94B30A94B40A94B50A94B60A94B70A94B80A94B90A94BA0A94BB0A94BC0A94BD0A94BE0A94BF0A94C00A
  94C10A94C20A94C30A94C40A94C50A94C60A94C70A94C80A94C90A94CA0A94CB0A94CC0A94CD0A94CE0A94CF0A94D00A
  94D10A94D20A94D30A94D40A94D50A94D60A94D70A94D80A94D90A94DA0A94DB0A94DC0A94DD0A94DE0A94DF0A94E00A
  94E10A94E20A94E30A94E40A94E50A94E60A94E70A94E80A94E90A94EA0A94EB0A94EC0A94ED0A94EE0A94EF0A94F00A
  94F10A94F20A94F30A94F40A94F50A94F60A94F70A94F80A94F90A94FA0A94FB0A94FC0A"

/-- tests/test_data/whatwg/shiftjis_whatwg_test_decode_in.txt, part 21 -/
noncomputable def decodeIn20 : List Nat := hex! "95400A95410A95420A95430A95440A95450A95460A95470A95480A95490A954A0A954B0A954C0A954D0A954E0A954F0A
  95500A95510A95520A95530A95540A95550A95560A95570A95580A95590A955A0A955B0A955C0A955D0A955E0A955F0A
  95600A95610A95620A95630A95640A95650A95660A95670A95680A95690A956A0A956B0A956C0A956D0A956E0A956F0A
  95700A95710A95720A95730A95740A95750A95760A95770A95780A95790A957A0A957B0A957C0A957D0A957E0A95800A
  95810A95820A95830A95840A95850A95860A95870A95880A95890A958A0A958B0A958C0A958D0A958E0A958F0A95900A
  95910A95920A95930A95940A95950A95960A95970A95980A95990A959A0A959B0A959C0A959D0A959E0A959F0A95A00A
  95A10A95A20A95A30A95A40A95A50A95A60A95A70A95A80A95A90A95AA0A95AB0A95AC0A95AD0A95AE0A95AF0A95B00A
  95B10A95B20A95B30A95B40A95B50A95B60A95B70A95B80A95B90A95BA0A95BB0A95BC0A95BD0A95BE0A95BF0A95C00A
  95C10A95C20A95C30A95C40A95C50A95C60A95C70A95C80A95C90A95CA0A95CB0A95CC0A95CD0A95CE0A95CF0A95D00A
  95D10A95D20A95D30A95D40A95D50A95D60A95D70A95D80A95D90A95DA0A95DB0A95DC0A95DD0A95DE0A95DF0A95E00A
  95E10A95E20A95E30A95E40A95E50A95E60A95E70A95E80A95E90A95EA0A95EB0A95EC0A95ED0A95EE0A95EF0A95F00A
  95F10A95F20A95F30A95F40A95F50A95F60A95F70A95F80A95F90A95FA0A95FB0A95FC0A"

/-- tests/test_data/whatwg/shiftjis_whatwg_test_decode_out.txt, part 21 -/
noncomputable def decodeOut20 : List Nat := hex! "E9BCBB0AE69F8A0AE7A8970AE58CB90AE7968B0AE9ABAD0AE5BDA60AE8869D0AE88FB10AE882980AE5BCBC0AE5BF850A
  E795A20AE7AD860AE980BC0AE6A1A70AE5A7AB0AE5AA9B0AE7B4900AE799BE0AE8ACAC0AE4BFB50AE5BDAA0AE6A8990A
  E6B0B70AE6BC820AE793A20AE7A5A80AE8A1A80AE8A9950AE8B1B90AE5BB9F0AE68F8F0AE797850AE7A7920AE88B970A
  E98CA80AE98BB20AE8929C0AE89BAD0AE9B0AD0AE593810AE5BDAC0AE6968C0AE6B59C0AE780950AE8B2A70AE8B3930A
  E9A0BB0AE6958F0AE793B60AE4B88D0AE4BB980AE59FA00AE5A4AB0AE5A9A60AE5AF8C0AE586A80AE5B8830AE5BA9C0A
  E680960AE689B60AE695B70AE696A70AE699AE0AE6B5AE0AE788B60AE7ACA60AE885900AE8869A0AE88A990AE8AD9C0A
  E8B2A00AE8B3A60AE8B5B40AE9989C0AE999840AE4BEAE0AE692AB0AE6ADA60AE8889E0AE891A10AE895AA0AE983A80A
  E5B0810AE6A5930AE9A2A80AE891BA0AE895970AE4BC8F0AE589AF0AE5BEA90AE5B9850AE69C8D0AE7A68F0AE885B90A
  E8A4870AE8A6860AE6B7B50AE5BC970AE689950AE6B2B80AE4BB8F0AE789A90AE9AE920AE588860AE590BB0AE599B40A
  E5A2B30AE686A40AE689AE0AE7849A0AE5A5AE0AE7B2890AE7B39E0AE7B49B0AE99BB00AE696870AE8819E0AE4B8990A
  E4BDB50AE585B50AE5A1800AE5B9A30AE5B9B30AE5BC8A0AE69F840AE4B8A60AE894BD0AE996890AE9999B0AE7B1B30A
  E9A0810AE583BB0AE5A3810AE799960AE7A2A70AE588A50AE79EA50AE894910AE7AE860AE5818F0AE5A4890AE789870A
  E7AF870AE7B7A80AE8BEBA0AE8BF940AE9818D0AE4BEBF0AE58B890AE5A8A90AE5BC810AE99EAD0AE4BF9D0AE888970A
  E98BAA0AE59C830AE68D950AE6ADA90AE794AB0AE8A39C0AE8BC940AE7A9820AE58B9F0AE5A2930AE685950AE6888A0A
  E69AAE0AE6AF8D0AE7B0BF0AE88FA90AE580A30AE4BFB80AE58C850AE591860AE5A0B10AE5A5890AE5AE9D0AE5B3B00A
  E5B3AF0AE5B4A90AE5BA960AE68AB10AE68DA70AE694BE0AE696B90AE69C8B0A"

/-- tests/test_data/whatwg/shiftjis_whatwg_test_encode_in.txt, part 21 -/
noncomputable def encodeIn20 : List Nat := hex! "E9BCBB0AE69F8A0AE7A8970AE58CB90AE7968B0AE9ABAD0AE5BDA60AE8869D0AE88FB10AE882980AE5BCBC0AE5BF850A
  E795A20AE7AD860AE980BC0AE6A1A70AE5A7AB0AE5AA9B0AE7B4900AE799BE0AE8ACAC0AE4BFB50AE5BDAA0AE6A8990A
  E6B0B70AE6BC820AE793A20AE7A5A80AE8A1A80AE8A9950AE8B1B90AE5BB9F0AE68F8F0AE797850AE7A7920AE88B970A
  E98CA80AE98BB20AE8929C0AE89BAD0AE9B0AD0AE593810AE5BDAC0AE6968C0AE6B59C0AE780950AE8B2A70AE8B3930A
  E9A0BB0AE6958F0AE793B60AE4B88D0AE4BB980AE59FA00AE5A4AB0AE5A9A60AE5AF8C0AE586A80AE5B8830AE5BA9C0A
  E680960AE689B60AE695B70AE696A70AE699AE0AE6B5AE0AE788B60AE7ACA60AE885900AE8869A0AE88A990AE8AD9C0A
  E8B2A00AE8B3A60AE8B5B40AE9989C0AE999840AE4BEAE0AE692AB0AE6ADA60AE8889E0AE891A10AE895AA0AE983A80A
  E5B0810AE6A5930AE9A2A80AE891BA0AE895970AE4BC8F0AE589AF0AE5BEA90AE5B9850AE69C8D0AE7A68F0AE885B90A
  E8A4870AE8A6860AE6B7B50AE5BC970AE689950AE6B2B80AE4BB8F0AE789A90AE9AE920AE588860AE590BB0AE599B40A
  E5A2B30AE686A40AE689AE0AE7849A0AE5A5AE0AE7B2890AE7B39E0AE7B49B0AE99BB00AE696870AE8819E0AE4B8990A
  E4BDB50AE585B50AE5A1800AE5B9A30AE5B9B30AE5BC8A0AE69F840AE4B8A60AE894BD0AE996890AE9999B0AE7B1B30A
  E9A0810AE583BB0AE5A3810AE799960AE7A2A70AE588A50AE79EA50AE894910AE7AE860AE5818F0AE5A4890AE789870A
  E7AF870AE7B7A80AE8BEBA0AE8BF940AE9818D0AE4BEBF0AE58B890AE5A8A90AE5BC810AE99EAD0AE4BF9D0AE888970A
  E98BAA0AE59C830AE68D950AE6ADA90AE794AB0AE8A39C0AE8BC940AE7A9820AE58B9F0AE5A2930AE685950AE6888A0A
  E69AAE0AE6AF8D0AE7B0BF0AE88FA90AE580A30AE4BFB80AE58C850AE591860AE5A0B10AE5A5890AE5AE9D0AE5B3B00A
  E5B3AF0AE5B4A90AE5BA960AE68AB10AE68DA70AE694BE0AE696B90AE69C8B0A"

/-- tests/test_data/whatwg/shiftjis_whatwg_test_encode_out.txt, part 21 -/
noncomputable def encodeOut20 : List Nat := hex! "95400A95410A95420A95430A95440A95450A95460A95470A95480A95490A954A0A954B0A954C0A954D0A954E0A954F0A
  95500A95510A95520A95530A95540A95550A95560A95570A95580A95590A955A0A955B0A955C0A955D0A955E0A955F0A
  95600A95610A95620A95630A95640A95650A95660A95670A95680A95690A956A0A956B0A956C0A956D0A956E0A956F0A
  95700A95710A95720A95730A95740A95750A95760A95770A95780A95790A957A0A957B0A957C0A957D0A957E0A95800A
  95810A95820A95830A95840A95850A95860A95870A95880A95890A958A0A958B0A958C0A958D0A958E0A958F0A95900A
  95910A95920A95930A95940A95950A95960A95970A95980A95990A959A0A959B0A959C0A959D0A959E0A959F0A95A00A
  95A10A95A20A95A30A95A40A95A50A95A60A95A70A95A80A95A90A95AA0A95AB0A95AC0A95AD0A95AE0A95AF0A95B00A
  95B10A95B20A95B30A95B40A95B50A95B60A95B70A95B80A95B90A95BA0A95BB0A95BC0A95BD0A95BE0A95BF0A95C00A
  95C10A95C20A95C30A95C40A95C50A95C60A95C70A95C80A95C90A95CA0A95CB0A95CC0A95CD0A95CE0A95CF0A95D00A
  95D10A95D20A95D30A95D40A95D50A95D60A95D70A95D80A95D90A95DA0A95DB0A95DC0A95DD0A95DE0A95DF0A95E00A
  95E10A95E20A95E30A95E40A95E50A95E60A95E70A95E80A95E90A95EA0A95EB0A95EC0A95ED0A95EE0A95EF0A95F00A
  95F10A95F20A95F30A95F40A95F50A95F60A95F70A95F80A95F90A95FA0A95FB0A95FC0A"

/-- tests/test_data/whatwg/shiftjis_whatwg_test_decode_in.txt, part 22 -/
noncomputable def decodeIn21 : List Nat := hex! "96400A96410A96420A96430A96440A96450A96460A96470A96480A96490A964A0A964B0A964C0A964D0A964E0A964F0A
  96500A96510A96520A96530A96540A96550A96560A96570A96580A96590A965A0A965B0A965C0A965D0A965E0A965F0A
  96600A96610A96620A96630A96640A96650A96660A96670A96680A96690A966A0A966B0A966C0A966D0A966E0A966F0A
  96700A96710A96720A96730A96740A96750A96760A96770A96780A96790A967A0A967B0A967C0A967D0A967E0A96800A
  96810A96820A96830A96840A96850A96860A96870A96880A96890A968A0A968B0A968C0A968D0A968E0A968F0A96900A
  96910A96920A96930A96940A96950A96960A96970A96980A96990A969A0A969B0A969C0A969D0A969E0A969F0A96A00A
  96A10A96A20A96A30A96A40A96A50A96A60A96A70A96A80A96A90A96AA0A96AB0A96AC0A96AD0A96AE0A96AF0A96B00A
  96B10A96B20A96B30A96B40A96B50A96B60A96B70A96B80A96B90A96BA0A96BB0A96BC0A96BD0A96BE0A96BF0A96C00A
  96C10A96C20A96C30A96C40A96C50A96C60A96C70A96C80A96C90A96CA0A96CB0A96CC0A96CD0A96CE0A96CF0A96D00A
  96D10A96D20A96D30A96D40A96D50A96D60A96D70A96D80A96D90A96DA0A96DB0A96DC0A96DD0A96DE0A96DF0A96E00A
  96E10A96E20A96E30A96E40A96E50A96E60A96E70A96E80A96E90A96EA0A96EB0A96EC0A96ED0A96EE0A96EF0A96F00A
  96F10A96F20A96F30A96F40A96F50A96F60A96F70A96F80A96F90A96FA0A96FB0A96FC0A"

/-- tests/test_data/whatwg/shiftjis_whatwg_test_decode_out.txt, part 22 -/
noncomputable def decodeOut21 : List Nat := hex! "E6B3950AE6B3A10AE783B90AE7A0B20AE7B8AB0AE8839E0AE88AB30AE8908C0AE893AC0AE89C820AE8A4920AE8A8AA0A
  E8B18A0AE982A60AE98B920AE9A3BD0AE9B3B30AE9B5AC0AE4B98F0AE4BAA10AE5828D0AE589960AE59D8A0AE5A6A80A
  E5B8BD0AE5BF980AE5BF990AE688BF0AE69AB40AE69C9B0AE69F900AE6A3920AE586920AE7B4A10AE882AA0AE886A80A
  E8AC800AE8B28C0AE8B2BF0AE989BE0AE998B20AE590A00AE9A0AC0AE58C970AE583950AE58D9C0AE5A2A80AE692B20A
  E69CB40AE789A70AE79DA60AE7A9860AE987A60AE58B830AE6B2A10AE6AE860AE5A0800AE5B98C0AE5A5940AE69CAC0A
  E7BFBB0AE587A10AE79B860AE691A90AE7A3A80AE9AD940AE9BABB0AE59F8B0AE5A6B90AE698A70AE69E9A0AE6AF8E0A
  E593A90AE6A7990AE5B9950AE8869C0AE69E950AE9AEAA0AE69FBE0AE9B1920AE6A19D0AE4BAA60AE4BFA30AE58F880A
  E68AB90AE69CAB0AE6B2AB0AE8BF840AE4BEAD0AE7B9AD0AE9BABF0AE4B8870AE685A20AE6BA800AE6BCAB0AE894930A
  E591B30AE69CAA0AE9AD850AE5B7B30AE7AE950AE5B2AC0AE5AF860AE89C9C0AE6B98A0AE893910AE7A8940AE884880A
  E5A6990AE7B28D0AE6B0910AE79CA00AE58B990AE5A4A20AE784A10AE7899F0AE79F9B0AE99CA70AE9B5A10AE6A48B0A
  E5A9BF0AE5A8980AE586A50AE5908D0AE591BD0AE6988E0AE79B9F0AE8BFB70AE98A980AE9B3B40AE5A7AA0AE7899D0A
  E6BB850AE5858D0AE6A3890AE7B6BF0AE7B7AC0AE99DA20AE9BABA0AE691B80AE6A8A10AE88C820AE5A6840AE5AD9F0A
  E6AF9B0AE78C9B0AE79BB20AE7B6B20AE880970AE892990AE584B20AE69CA80AE9BB990AE79BAE0AE69DA20AE58BBF0A
  E9A4850AE5B0A40AE688BB0AE7B1BE0AE8B2B00AE5958F0AE682B60AE7B48B0AE996800AE58C810AE4B99F0AE586B60A
  E5A49C0AE788BA0AE880B60AE9878E0AE5BCA50AE79FA20AE58E840AE5BDB90AE7B4840AE896AC0AE8A8B30AE8BA8D0A
  E99D960AE69FB30AE896AE0AE991930AE684890AE684880AE6B2B90AE799920A"

/-- tests/test_data/whatwg/shiftjis_whatwg_test_encode_in.txt, part 22 -/
noncomputable def encodeIn21 : List Nat := hex! "E6B3950AE6B3A10AE783B90AE7A0B20AE7B8AB0AE8839E0AE88AB30AE8908C0AE893AC0AE89C820AE8A4920AE8A8AA0A
  E8B18A0AE982A60AE98B920AE9A3BD0AE9B3B30AE9B5AC0AE4B98F0AE4BAA10AE5828D0AE589960AE59D8A0AE5A6A80A
  E5B8BD0AE5BF980AE5BF990AE688BF0AE69AB40AE69C9B0AE69F900AE6A3920AE586920AE7B4A10AE882AA0AE886A80A
  E8AC800AE8B28C0AE8B2BF0AE989BE0AE998B20AE590A00AE9A0AC0AE58C970AE583950AE58D9C0AE5A2A80AE692B20A
  E69CB40AE789A70AE79DA60AE7A9860AE987A60AE58B830AE6B2A10AE6AE860AE5A0800AE5B98C0AE5A5940AE69CAC0A
  E7BFBB0AE587A10AE79B860AE691A90AE7A3A80AE9AD940AE9BABB0AE59F8B0AE5A6B90AE698A70AE69E9A0AE6AF8E0A
  E593A90AE6A7990AE5B9950AE8869C0AE69E950AE9AEAA0AE69FBE0AE9B1920AE6A19D0AE4BAA60AE4BFA30AE58F880A
  E68AB90AE69CAB0AE6B2AB0AE8BF840AE4BEAD0AE7B9AD0AE9BABF0AE4B8870AE685A20AE6BA800AE6BCAB0AE894930A
  E591B30AE69CAA0AE9AD850AE5B7B30AE7AE950AE5B2AC0AE5AF860AE89C9C0AE6B98A0AE893910AE7A8940AE884880A
  E5A6990AE7B28D0AE6B0910AE79CA00AE58B990AE5A4A20AE784A10AE7899F0AE79F9B0AE99CA70AE9B5A10AE6A48B0A
  E5A9BF0AE5A8980AE586A50AE5908D0AE591BD0AE6988E0AE79B9F0AE8BFB70AE98A980AE9B3B40AE5A7AA0AE7899D0A
  E6BB850AE5858D0AE6A3890AE7B6BF0AE7B7AC0AE99DA20AE9BABA0AE691B80AE6A8A10AE88C820AE5A6840AE5AD9F0A
  E6AF9B0AE78C9B0AE79BB20AE7B6B20AE880970AE892990AE584B20AE69CA80AE9BB990AE79BAE0AE69DA20AE58BBF0A
  E9A4850AE5B0A40AE688BB0AE7B1BE0AE8B2B00AE5958F0AE682B60AE7B48B0AE996800AE58C810AE4B99F0AE586B60A
  E5A49C0AE788BA0AE880B60AE9878E0AE5BCA50AE79FA20AE58E840AE5BDB90AE7B4840AE896AC0AE8A8B30AE8BA8D0A
  E99D960AE69FB30AE896AE0AE991930AE684890AE684880AE6B2B90AE799920A"

/-- tests/test_data/whatwg/shiftjis_whatwg_test_encode_out.txt, part 22 -/
noncomputable def encodeOut21 : List Nat := hex! "96400A96410A96420A96430A96440A96450A96460A96470A96480A96490A964A0A964B0A964C0A964D0A964E0A964F0A
  96500A96510A96520A96530A96540A96550A96560A96570A96580A96590A965A0A965B0A965C0A965D0A965E0A965F0A
  96600A96610A96620A96630A96640A96650A96660A96670A96680A96690A966A0A966B0A966C0A966D0A966E0A966F0A
  96700A96710A96720A96730A96740A96750A96760A96770A96780A96790A967A0A967B0A967C0A967D0A967E0A96800A
  96810A96820A96830A96840A96850A96860A96870A96880A96890A968A0A968B0A968C0A968D0A968E0A968F0A96900A
  96910A96920A96930A96940A96950A96960A96970A96980A96990A969A0A969B0A969C0A969D0A969E0A969F0A96A00A
  96A10A96A20A96A30A96A40A96A50A96A60A96A70A96A80A96A90A96AA0A96AB0A96AC0A96AD0A96AE0A96AF0A96B00A
  96B10A96B20A96B30A96B40A96B50A96B60A96B70A96B80A96B90A96BA0A96BB0A96BC0A96BD0A96BE0A96BF0A96C00A
  96C10A96C20A96C30A96C40A96C50A96C60A96C70A96C80A96C90A96CA0A96CB0A96CC0A96CD0A96CE0A96CF0A96D00A
  96D10A96D20A96D30A96D40A96D50A96D60A96D70A96D80A96D90A96DA0A96DB0A96DC0A96DD0A96DE0A96DF0A96E00A
  96E10A96E20A96E30A96E40A96E50A96E60A96E70A96E80A96E90A96EA0A96EB0A96EC0A96ED0A96EE0A96EF0A96F00A
  96F10A96F20A96F30A96F40A96F50A96F60A96F70A96F80A96F90A96FA0A96FB0A96FC0A"

/-- tests/test_data/whatwg/shiftjis_whatwg_test_decode_in.txt, part 23 -/
noncomputable def decodeIn22 : List Nat := hex! "97400A97410A97420A97430A97440A97450A97460A97470A97480A97490A974A0A974B0A974C0A974D0A974E0A974F0A
  97500A97510A97520A97530A97540A97550A97560A97570A97580A97590A975A0A975B0A975C0A975D0A975E0A975F0A
  97600A97610A97620A97630A97640A97650A97660A97670A97680A97690A976A0A976B0A976C0A976D0A976E0A976F0A
  97700A97710A97720A97730A97740A97750A97760A97770A97780A97790A977A0A977B0A977C0A977D0A977E0A97800A
  97810A97820A97830A97840A97850A97860A97870A97880A97890A978A0A978B0A978C0A978D0A978E0A978F0A97900A
  97910A97920A97930A97940A97950A97960A97970A97980A97990A979A0A979B0A979C0A979D0A979E0A979F0A97A00A
  97A10A97A20A97A30A97A40A97A50A97A60A97A70A97A80A97A90A97AA0A97AB0A97AC0A97AD0A97AE0A97AF0A97B00A
  97B10A97B20A97B30A97B40A97B50A97B60A97B70A97B80A97B90A97BA0A97BB0A97BC0A97BD0A97BE0A97BF0A97C00A
  97C10A97C20A97C30A97C40A97C50A97C60A97C70A97C80A97C90A97CA0A97CB0A97CC0A97CD0A97CE0A97CF0A97D00A
  97D10A97D20A97D30A97D40A97D50A97D60A97D70A97D80A97D90A97DA0A97DB0A97DC0A97DD0A97DE0A97DF0A97E00A
  97E10A97E20A97E30A97E40A97E50A97E60A97E70A97E80A97E90A97EA0A97EB0A97EC0A97ED0A97EE0A97EF0A97F00A
  97F10A97F20A97F30A97F40A97F50A97F60A97F70A97F80A97F90A97FA0A97FB0A97FC0A"

/-- tests/test_data/whatwg/shiftjis_whatwg_test_decode_out.txt, part 23 -/
noncomputable def decodeOut22 : List Nat := hex! "E8ABAD0AE8BCB80AE594AF0AE4BD910AE584AA0AE58B870AE58F8B0AE5AEA50AE5B9BD0AE682A00AE686820AE68F960A
  E69C890AE69F9A0AE6B9A70AE6B68C0AE78CB60AE78CB70AE794B10AE7A5900AE8A3950AE8AA980AE9818A0AE982910A
  E983B50AE99B840AE89E8D0AE5A4950AE4BA880AE4BD990AE4B88E0AE8AA890AE8BCBF0AE9A0900AE582AD0AE5B9BC0A
  E5A6960AE5AEB90AE5BAB80AE68F9A0AE68FBA0AE693810AE69B9C0AE6A58A0AE6A7980AE6B48B0AE6BAB60AE786940A
  E794A80AE7AAAF0AE7BE8A0AE880800AE891890AE893890AE8A6810AE8ACA10AE8B88A0AE981A50AE999BD0AE9A48A0A
  E685BE0AE68A910AE6ACB20AE6B2830AE6B5B40AE7BF8C0AE7BFBC0AE6B7800AE7BE850AE89EBA0AE8A3B80AE69DA50A
  E88EB10AE9A0BC0AE99BB70AE6B49B0AE7B5A10AE890BD0AE985AA0AE4B9B10AE58DB50AE5B5900AE6AC840AE6BFAB0A
  E8978D0AE898AD0AE8A6A70AE588A90AE5908F0AE5B1A50AE69D8E0AE6A2A80AE790860AE792830AE797A20AE8A38F0A
  E8A3A10AE9878C0AE99BA20AE999B80AE5BE8B0AE78E870AE7AB8B0AE8918E0AE68EA00AE795A50AE58A890AE6B5810A
  E6BA9C0AE790890AE795990AE7A1AB0AE7B2920AE99A860AE7AB9C0AE9BE8D0AE4BEB60AE685AE0AE697850AE8999C0A
  E4BA860AE4BAAE0AE5839A0AE4B8A10AE5878C0AE5AFAE0AE696990AE6A2810AE6B6BC0AE78C9F0AE799820AE79EAD0A
  E7A89C0AE7B3A70AE889AF0AE8AB920AE981BC0AE9878F0AE999B50AE9A0980AE58A9B0AE7B7910AE580AB0AE58E980A
  E69E970AE6B78B0AE787900AE790B30AE887A80AE8BCAA0AE99AA30AE9B1970AE9BA9F0AE791A00AE5A1810AE6B6990A
  E7B4AF0AE9A19E0AE4BBA40AE4BCB60AE4BE8B0AE586B70AE58AB10AE5B6BA0AE6809C0AE78EB20AE7A4BC0AE88B930A
  E988B40AE99AB70AE99BB60AE99C8A0AE9BA970AE9BDA20AE69AA60AE6ADB40AE588970AE58AA30AE783880AE8A3820A
  E5BB890AE6818B0AE686900AE6BCA30AE785890AE7B0BE0AE7B7B40AE881AF0A"

/-- tests/test_data/whatwg/shiftjis_whatwg_test_encode_in.txt, part 23 -/
noncomputable def encodeIn22 : List Nat := hex! "E8ABAD0AE8BCB80AE594AF0AE4BD910AE584AA0AE58B870AE58F8B0AE5AEA50AE5B9BD0AE682A00AE686820AE68F960A
  E69C890AE69F9A0AE6B9A70AE6B68C0AE78CB60AE78CB70AE794B10AE7A5900AE8A3950AE8AA980AE9818A0AE982910A
  E983B50AE99B840AE89E8D0AE5A4950AE4BA880AE4BD990AE4B88E0AE8AA890AE8BCBF0AE9A0900AE582AD0AE5B9BC0A
  E5A6960AE5AEB90AE5BAB80AE68F9A0AE68FBA0AE693810AE69B9C0AE6A58A0AE6A7980AE6B48B0AE6BAB60AE786940A
  E794A80AE7AAAF0AE7BE8A0AE880800AE891890AE893890AE8A6810AE8ACA10AE8B88A0AE981A50AE999BD0AE9A48A0A
  E685BE0AE68A910AE6ACB20AE6B2830AE6B5B40AE7BF8C0AE7BFBC0AE6B7800AE7BE850AE89EBA0AE8A3B80AE69DA50A
  E88EB10AE9A0BC0AE99BB70AE6B49B0AE7B5A10AE890BD0AE985AA0AE4B9B10AE58DB50AE5B5900AE6AC840AE6BFAB0A
  E8978D0AE898AD0AE8A6A70AE588A90AE5908F0AE5B1A50AE69D8E0AE6A2A80AE790860AE792830AE797A20AE8A38F0A
  E8A3A10AE9878C0AE99BA20AE999B80AE5BE8B0AE78E870AE7AB8B0AE8918E0AE68EA00AE795A50AE58A890AE6B5810A
  E6BA9C0AE790890AE795990AE7A1AB0AE7B2920AE99A860AE7AB9C0AE9BE8D0AE4BEB60AE685AE0AE697850AE8999C0A
  E4BA860AE4BAAE0AE5839A0AE4B8A10AE5878C0AE5AFAE0AE696990AE6A2810AE6B6BC0AE78C9F0AE799820AE79EAD0A
  E7A89C0AE7B3A70AE889AF0AE8AB920AE981BC0AE9878F0AE999B50AE9A0980AE58A9B0AE7B7910AE580AB0AE58E980A
  E69E970AE6B78B0AE787900AE790B30AE887A80AE8BCAA0AE99AA30AE9B1970AE9BA9F0AE791A00AE5A1810AE6B6990A
  E7B4AF0AE9A19E0AE4BBA40AE4BCB60AE4BE8B0AE586B70AE58AB10AE5B6BA0AE6809C0AE78EB20AE7A4BC0AE88B930A
  E988B40AE99AB70AE99BB60AE99C8A0AE9BA970AE9BDA20AE69AA60AE6ADB40AE588970AE58AA30AE783880AE8A3820A
  E5BB890AE6818B0AE686900AE6BCA30AE785890AE7B0BE0AE7B7B40AE881AF0A"

/-- tests/test_data/whatwg/shiftjis_whatwg_test_encode_out.txt, part 23 -/
noncomputable def encodeOut22 : List Nat := hex! "97400A97410A97420A97430A97440A97450A97460A97470A97480A97490A974A0A974B0A974C0A974D0A974E0A974F0A
  97500A97510A97520A97530A97540A97550A97560A97570A97580A97590A975A0A975B0A975C0A975D0A975E0A975F0A
  97600A97610A97620A97630A97640A97650A97660A97670A97680A97690A976A0A976B0A976C0A976D0A976E0A976F0A
  97700A97710A97720A97730A97740A97750A97760A97770A97780A97790A977A0A977B0A977C0A977D0A977E0A97800A
  97810A97820A97830A97840A97850A97860A97870A97880A97890A978A0A978B0A978C0A978D0A978E0A978F0A97900A
  97910A97920A97930A97940A97950A97960A97970A97980A97990A979A0A979B0A979C0A979D0A979E0A979F0A97A00A
  97A10A97A20A97A30A97A40A97A50A97A60A97A70A97A80A97A90A97AA0A97AB0A97AC0A97AD0A97AE0A97AF0A97B00A
  97B10A97B20A97B30A97B40A97B50A97B60A97B70A97B80A97B90A97BA0A97BB0A97BC0A97BD0A97BE0A97BF0A97C00A
  97C10A97C20A97C30A97C40A97C50A97C60A97C70A97C80A97C90A97CA0A97CB0A97CC0A97CD0A97CE0A97CF0A97D00A
  97D10A97D20A97D30A97D40A97D50A97D60A97D70A97D80A97D90A97DA0A97DB0A97DC0A97DD0A97DE0A97DF0A97E00A
  97E10A97E20A97E30A97E40A97E50A97E60A97E70A97E80A97E90A97EA0A97EB0A97EC0A97ED0A97EE0A97EF0A97F00A
  97F10A97F20A97F30A97F40A97F50A97F60A97F70A97F80A97F90A97FA0A97FB0A97FC0A"

/-- tests/test_data/whatwg/shiftjis_whatwg_test_decode_in.txt, part 24 -/
noncomputable def decodeIn23 : List Nat := hex! "98400A98410A98420A98430A98440A98450A98460A98470A98480A98490A984A0A984B0A984C0A984D0A984E0A984F0A
  98500A98510A98520A98530A98540A98550A98560A98570A98580A98590A985A0A985B0A985C0A985D0A985E0A985F0A
  98600A98610A98620A98630A98640A98650A98660A98670A98680A98690A986A0A986B0A986C0A986D0A986E0A986F0A
  98700A98710A98720A989F0A98A00A98A10A98A20A98A30A98A40A98A50A98A60A98A70A98A80A98A90A98AA0A98AB0A
  98AC0A98AD0A98AE0A98AF0A98B00A98B10A98B20A98B30A98B40A98B50A98B60A98B70A98B80A98B90A98BA0A98BB0A
  98BC0A98BD0A98BE0A98BF0A98C00A98C10A98C20A98C30A98C40A98C50A98C60A98C70A98C80A98C90A98CA0A98CB0A
  98CC0A98CD0A98CE0A98CF0A98D00A98D10A98D20A98D30A98D40A98D50A98D60A98D70A98D80A98D90A98DA0A98DB0A
  98DC0A98DD0A98DE0A98DF0A98E00A98E10A98E20A98E30A98E40A98E50A98E60A98E70A98E80A98E90A98EA0A98EB0A
  98EC0A98ED0A98EE0A98EF0A98F00A98F10A98F20A98F30A98F40A98F50A98F60A98F70A98F80A98F90A98FA0A98FB0A
  98FC0A"

/-- tests/test_data/whatwg/shiftjis_whatwg_test_decode_out.txt, part 24 -/
noncomputable def decodeOut23 : List Nat := hex! "E893AE0AE980A30AE98CAC0AE591820AE9ADAF0AE6AB930AE782890AE8B3820AE8B7AF0AE99CB20AE58AB40AE5A9810A
  E5BB8A0AE5BC840AE69C970AE6A5BC0AE6A6940AE6B5AA0AE6BC8F0AE789A20AE78BBC0AE7AFAD0AE880810AE881BE0A
  E89D8B0AE9838E0AE585AD0AE9BA930AE7A6840AE8828B0AE98CB20AE8AB960AE580AD0AE5928C0AE8A9B10AE6ADAA0A
  E8B3840AE884870AE683910AE69EA00AE9B7B20AE4BA990AE4BA980AE9B0900AE8A9AB0AE897810AE895A80AE6A4800A
  E6B9BE0AE7A2970AE885950AE5BC8C0AE4B8900AE4B8950AE4B8AA0AE4B8B10AE4B8B60AE4B8BC0AE4B8BF0AE4B9820A
  E4B9960AE4B9980AE4BA820AE4BA850AE8B1AB0AE4BA8A0AE888920AE5BC8D0AE4BA8E0AE4BA9E0AE4BA9F0AE4BAA00A
  E4BAA20AE4BAB00AE4BAB30AE4BAB60AE4BB8E0AE4BB8D0AE4BB840AE4BB860AE4BB820AE4BB970AE4BB9E0AE4BBAD0A
  E4BB9F0AE4BBB70AE4BC890AE4BD9A0AE4BCB00AE4BD9B0AE4BD9D0AE4BD970AE4BD870AE4BDB60AE4BE880AE4BE8F0A
  E4BE980AE4BDBB0AE4BDA90AE4BDB00AE4BE910AE4BDAF0AE4BE860AE4BE960AE584980AE4BF940AE4BF9F0AE4BF8E0A
  E4BF980AE4BF9B0AE4BF910AE4BF9A0AE4BF900AE4BFA40AE4BFA50AE5809A0AE580A80AE580940AE580AA0AE580A50A
  E580850AE4BC9C0AE4BFB60AE580A10AE580A90AE580AC0AE4BFBE0AE4BFAF0AE580910AE580860AE581830AE581870A
  E69C830AE581950AE581900AE581880AE5819A0AE581960AE581AC0AE581B80AE582800AE5829A0AE582850AE582B40A
  E582B20A"

/-- tests/test_data/whatwg/shiftjis_whatwg_test_encode_in.txt, part 24 -/
noncomputable def encodeIn23 : List Nat := hex! "E893AE0AE980A30AE98CAC0AE591820AE9ADAF0AE6AB930AE782890AE8B3820AE8B7AF0AE99CB20AE58AB40AE5A9810A
  E5BB8A0AE5BC840AE69C970AE6A5BC0AE6A6940AE6B5AA0AE6BC8F0AE789A20AE78BBC0AE7AFAD0AE880810AE881BE0A
  E89D8B0AE9838E0AE585AD0AE9BA930AE7A6840AE8828B0AE98CB20AE8AB960AE580AD0AE5928C0AE8A9B10AE6ADAA0A
  E8B3840AE884870AE683910AE69EA00AE9B7B20AE4BA990AE4BA980AE9B0900AE8A9AB0AE897810AE895A80AE6A4800A
  E6B9BE0AE7A2970AE885950AE5BC8C0AE4B8900AE4B8950AE4B8AA0AE4B8B10AE4B8B60AE4B8BC0AE4B8BF0AE4B9820A
  E4B9960AE4B9980AE4BA820AE4BA850AE8B1AB0AE4BA8A0AE888920AE5BC8D0AE4BA8E0AE4BA9E0AE4BA9F0AE4BAA00A
  E4BAA20AE4BAB00AE4BAB30AE4BAB60AE4BB8E0AE4BB8D0AE4BB840AE4BB860AE4BB820AE4BB970AE4BB9E0AE4BBAD0A
  E4BB9F0AE4BBB70AE4BC890AE4BD9A0AE4BCB00AE4BD9B0AE4BD9D0AE4BD970AE4BD870AE4BDB60AE4BE880AE4BE8F0A
  E4BE980AE4BDBB0AE4BDA90AE4BDB00AE4BE910AE4BDAF0AE4BE860AE4BE960AE584980AE4BF940AE4BF9F0AE4BF8E0A
  E4BF980AE4BF9B0AE4BF910AE4BF9A0AE4BF900AE4BFA40AE4BFA50AE5809A0AE580A80AE580940AE580AA0AE580A50A
  E580850AE4BC9C0AE4BFB60AE580A10AE580A90AE580AC0AE4BFBE0AE4BFAF0AE580910AE580860AE581830AE581870A
  E69C830AE581950AE581900AE581880AE5819A0AE581960AE581AC0AE581B80AE582800AE5829A0AE582850AE582B40A
  E582B20A"

/-- tests/test_data/whatwg/shiftjis_whatwg_test_encode_out.txt, part 24 -/
noncomputable def encodeOut23 : List Nat := hex! "98400A98410A98420A98430A98440A98450A98460A98470A98480A98490A984A0A984B0A984C0A984D0A984E0A984F0A
  98500A98510A98520A98530A98540A98550A98560A98570A98580A98590A985A0A985B0A985C0A985D0A985E0A985F0A
  98600A98610A98620A98630A98640A98650A98660A98670A98680A98690A986A0A986B0A986C0A986D0A986E0A986F0A
  98700A98710A98720A989F0A98A00A98A10A98A20A98A30A98A40A98A50A98A60A98A70A98A80A98A90A98AA0A98AB0A
  98AC0A98AD0A98AE0A98AF0A98B00A98B10A98B20A98B30A98B40A98B50A98B60A98B70A98B80A98B90A98BA0A98BB0A
  98BC0A98BD0A98BE0A98BF0A98C00A98C10A98C20A98C30A98C40A98C50A98C60A98C70A98C80A98C90A98CA0A98CB0A
  98CC0A98CD0A98CE0A98CF0A98D00A98D10A98D20A98D30A98D40A98D50A98D60A98D70A98D80A98D90A98DA0A98DB0A
  98DC0A98DD0A98DE0A98DF0A98E00A98E10A98E20A98E30A98E40A98E50A98E60A98E70A98E80A98E90A98EA0A98EB0A
  98EC0A98ED0A98EE0A98EF0A98F00A98F10A98F20A98F30A98F40A98F50A98F60A98F70A98F80A98F90A98FA0A98FB0A
  98FC0A"

/-- tests/test_data/whatwg/shiftjis_whatwg_test_decode_in.txt, part 25 -/
noncomputable def decodeIn24 : List Nat := hex! "99400A99410A99420A99430A99440A99450A99460A99470A99480A99490A994A0A994B0A994C0A994D0A994E0A994F0A
  99500A99510A99520A99530A99540A99550A99560A99570A99580A99590A995A0A995B0A995C0A995D0A995E0A995F0A
  99600A99610A99620A99630A99640A99650A99660A99670A99680A99690A996A0A996B0A996C0A996D0A996E0A996F0A
  99700A99710A99720A99730A99740A99750A99760A99770A99780A99790A997A0A997B0A997C0A997D0A997E0A99800A
  99810A99820A99830A99840A99850A99860A99870A99880A99890A998A0A998B0A998C0A998D0A998E0A998F0A99900A
  99910A99920A99930A99940A99950A99960A99970A99980A99990A999A0A999B0A999C0A999D0A999E0A999F0A99A00A
  99A10A99A20A99A30A99A40A99A50A99A60A99A70A99A80A99A90A99AA0A99AB0A99AC0A99AD0A99AE0A99AF0A99B00A
  99B10A99B20A99B30A99B40A99B50A99B60A99B70A99B80A99B90A99BA0A99BB0A99BC0A99BD0A99BE0A99BF0A99C00A
  99C10A99C20A99C30A99C40A99C50A99C60A99C70A99C80A99C90A99CA0A99CB0A99CC0A99CD0A99CE0A99CF0A99D00A
  99D10A99D20A99D30A99D40A99D50A99D60A99D70A99D80A99D90A99DA0A99DB0A99DC0A99DD0A99DE0A99DF0A99E00A
  99E10A99E20A99E30A99E40A99E50A99E60A99E70A99E80A99E90A99EA0A99EB0A99EC0A99ED0A99EE0A99EF0A99F00A
  99F10A99F20A99F30A99F40A99F50A99F60A99F70A99F80A99F90A99FA0A99FB0A99FC0A"

/-- tests/test_data/whatwg/shiftjis_whatwg_test_decode_out.txt, part 25 -/
noncomputable def decodeOut24 : List Nat := hex! "E583890AE5838A0AE582B30AE583820AE583960AE5839E0AE583A50AE583AD0AE583A30AE583AE0AE583B90AE583B50A
  E584890AE584810AE584820AE584960AE584950AE584940AE5849A0AE584A10AE584BA0AE584B70AE584BC0AE584BB0A
  E584BF0AE585800AE585920AE5858C0AE585940AE585A20AE7ABB80AE585A90AE585AA0AE585AE0AE586800AE586820A
  E59B980AE5868C0AE586890AE5868F0AE586910AE586930AE586950AE586960AE586A40AE586A60AE586A20AE586A90A
  E586AA0AE586AB0AE586B30AE586B10AE586B20AE586B00AE586B50AE586BD0AE587850AE587890AE5879B0AE587A00A
  E899950AE587A90AE587AD0AE587B00AE587B50AE587BE0AE588840AE5888B0AE588940AE5888E0AE588A70AE588AA0A
  E588AE0AE588B30AE588B90AE5898F0AE589840AE5898B0AE5898C0AE5899E0AE589940AE589AA0AE589B40AE589A90A
  E589B30AE589BF0AE589BD0AE58A8D0AE58A940AE58A920AE589B10AE58A880AE58A910AE8BEA80AE8BEA70AE58AAC0A
  E58AAD0AE58ABC0AE58AB50AE58B810AE58B8D0AE58B970AE58B9E0AE58BA30AE58BA60AE9A3AD0AE58BA00AE58BB30A
  E58BB50AE58BB80AE58BB90AE58C860AE58C880AE794B80AE58C8D0AE58C900AE58C8F0AE58C950AE58C9A0AE58CA30A
  E58CAF0AE58CB10AE58CB30AE58CB80AE58D800AE58D860AE58D850AE4B8970AE58D890AE58D8D0AE587960AE58D9E0A
  E58DA90AE58DAE0AE5A4980AE58DBB0AE58DB70AE58E820AE58E960AE58EA00AE58EA60AE58EA50AE58EAE0AE58EB00A
  E58EB60AE58F830AE7B0920AE99B990AE58F9F0AE69BBC0AE787AE0AE58FAE0AE58FA80AE58FAD0AE58FBA0AE590810A
  E590BD0AE591800AE590AC0AE590AD0AE590BC0AE590AE0AE590B60AE590A90AE5909D0AE5918E0AE5928F0AE591B50A
  E5928E0AE5919F0AE591B10AE591B70AE591B00AE592920AE591BB0AE592800AE591B60AE592840AE592900AE592860A
  E593870AE592A20AE592B80AE592A50AE592AC0AE593840AE593880AE592A80A"

/-- tests/test_data/whatwg/shiftjis_whatwg_test_encode_in.txt, part 25 -/
noncomputable def encodeIn24 : List Nat := hex! "E583890AE5838A0AE582B30AE583820AE583960AE5839E0AE583A50AE583AD0AE583A30AE583AE0AE583B90AE583B50A
  E584890AE584810AE584820AE584960AE584950AE584940AE5849A0AE584A10AE584BA0AE584B70AE584BC0AE584BB0A
  E584BF0AE585800AE585920AE5858C0AE585940AE585A20AE7ABB80AE585A90AE585AA0AE585AE0AE586800AE586820A
  E59B980AE5868C0AE586890AE5868F0AE586910AE586930AE586950AE586960AE586A40AE586A60AE586A20AE586A90A
  E586AA0AE586AB0AE586B30AE586B10AE586B20AE586B00AE586B50AE586BD0AE587850AE587890AE5879B0AE587A00A
  E899950AE587A90AE587AD0AE587B00AE587B50AE587BE0AE588840AE5888B0AE588940AE5888E0AE588A70AE588AA0A
  E588AE0AE588B30AE588B90AE5898F0AE589840AE5898B0AE5898C0AE5899E0AE589940AE589AA0AE589B40AE589A90A
  E589B30AE589BF0AE589BD0AE58A8D0AE58A940AE58A920AE589B10AE58A880AE58A910AE8BEA80AE8BEA70AE58AAC0A
  E58AAD0AE58ABC0AE58AB50AE58B810AE58B8D0AE58B970AE58B9E0AE58BA30AE58BA60AE9A3AD0AE58BA00AE58BB30A
  E58BB50AE58BB80AE58BB90AE58C860AE58C880AE794B80AE58C8D0AE58C900AE58C8F0AE58C950AE58C9A0AE58CA30A
  E58CAF0AE58CB10AE58CB30AE58CB80AE58D800AE58D860AE58D850AE4B8970AE58D890AE58D8D0AE587960AE58D9E0A
  E58DA90AE58DAE0AE5A4980AE58DBB0AE58DB70AE58E820AE58E960AE58EA00AE58EA60AE58EA50AE58EAE0AE58EB00A
  E58EB60AE58F830AE7B0920AE99B990AE58F9F0AE69BBC0AE787AE0AE58FAE0AE58FA80AE58FAD0AE58FBA0AE590810A
  E590BD0AE591800AE590AC0AE590AD0AE590BC0AE590AE0AE590B60AE590A90AE5909D0AE5918E0AE5928F0AE591B50A
  E5928E0AE5919F0AE591B10AE591B70AE591B00AE592920AE591BB0AE592800AE591B60AE592840AE592900AE592860A
  E593870AE592A20AE592B80AE592A50AE592AC0AE593840AE593880AE592A80A"

/-- tests/test_data/whatwg/shiftjis_whatwg_test_encode_out.txt, part 25 -/
noncomputable def encodeOut24 : List Nat := hex! "99400A99410A99420A99430A99440A99450A99460A99470A99480A99490A994A0A994B0A994C0A994D0A994E0A994F0A
  99500A99510A99520A99530A99540A99550A99560A99570A99580A99590A995A0A995B0A995C0A995D0A995E0A995F0A
  99600A99610A99620A99630A99640A99650A99660A99670A99680A99690A996A0A996B0A996C0A996D0A996E0A996F0A
  99700A99710A99720A99730A99740A99750A99760A99770A99780A99790A997A0A997B0A997C0A997D0A997E0A99800A
  99810A99820A99830A99840A99850A99860A99870A99880A99890A998A0A998B0A998C0A998D0A998E0A998F0A99900A
  99910A99920A99930A99940A99950A99960A99970A99980A99990A999A0A999B0A999C0A999D0A999E0A999F0A99A00A
  99A10A99A20A99A30A99A40A99A50A99A60A99A70A99A80A99A90A99AA0A99AB0A99AC0A99AD0A99AE0A99AF0A99B00A
  99B10A99B20A99B30A99B40A99B50A99B60A99B70A99B80A99B90A99BA0A99BB0A99BC0A99BD0A99BE0A99BF0A99C00A
  99C10A99C20A99C30A99C40A99C50A99C60A99C70A99C80A99C90A99CA0A99CB0A99CC0A99CD0A99CE0A99CF0A99D00A
  99D10A99D20A99D30A99D40A99D50A99D60A99D70A99D80A99D90A99DA0A99DB0A99DC0A99DD0A99DE0A99DF0A99E00A
  99E10A99E20A99E30A99E40A99E50A99E60A99E70A99E80A99E90A99EA0A99EB0A99EC0A99ED0A99EE0A99EF0A99F00A
  99F10A99F20A99F30A99F40A99F50A99F60A99F70A99F80A99F90A99FA0A99FB0A99FC0A"

/-- tests/test_data/whatwg/shiftjis_whatwg_test_decode_in.txt, part 26 -/
noncomputable def decodeIn25 : List Nat := hex! "9A400A9A410A9A420A9A430A9A440A9A450A9A460A9A470A9A480A9A490A9A4A0A9A4B0A9A4C0A9A4D0A9A4E0A9A4F0A
  9A500A9A510A9A520A9A530A9A540A9A550A9A560A9A570A9A580A9A590A9A5A0A9A5B0A9A5C0A9A5D0A9A5E0A9A5F0A
  9A600A9A610A9A620A9A630A9A640A9A650A9A660A9A670A9A680A9A690A9A6A0A9A6B0A9A6C0A9A6D0A9A6E0A9A6F0A
  9A700A9A710A9A720A9A730A9A740A9A750A9A760A9A770A9A780A9A790A9A7A0A9A7B0A9A7C0A9A7D0A9A7E0A9A800A
  9A810A9A820A9A830A9A840A9A850A9A860A9A870A9A880A9A890A9A8A0A9A8B0A9A8C0A9A8D0A9A8E0A9A8F0A9A900A
  9A910A9A920A9A930A9A940A9A950A9A960A9A970A9A980A9A990A9A9A0A9A9B0A9A9C0A9A9D0A9A9E0A9A9F0A9AA00A
  9AA10A9AA20A9AA30A9AA40A9AA50A9AA60A9AA70A9AA80A9AA90A9AAA0A9AAB0A9AAC0A9AAD0A9AAE0A9AAF0A9AB00A
  9AB10A9AB20A9AB30A9AB40A9AB50A9AB60A9AB70A9AB80A9AB90A9ABA0A9ABB0A9ABC0A9ABD0A9ABE0A9ABF0A9AC00A
  9AC10A9AC20A9AC30A9AC40A9AC50A9AC60A9AC70A9AC80A9AC90A9ACA0A9ACB0A9ACC0A9ACD0A9ACE0A9ACF0A9AD00A
  9AD10A9AD20A9AD30A9AD40A9AD50A9AD60A9AD70A9AD80A9AD90A9ADA0A9ADB0A9ADC0A9ADD0A9ADE0A9ADF0A9AE00A
  9AE10A9AE20A9AE30A9AE40A9AE50A9AE60A9AE70A9AE80A9AE90A9AEA0A9AEB0A9AEC0A9AED0A9AEE0A9AEF0A9AF00A
  9AF10A9AF20A9AF30A9AF40A9AF50A9AF60A9AF70A9AF80A9AF90A9AFA0A9AFB0A9AFC0A"

/-- tests/test_data/whatwg/shiftjis_whatwg_test_decode_out.txt, part 26 -/
noncomputable def decodeOut25 : List Nat := hex! "E592AB0AE593820AE592A40AE592BE0AE592BC0AE593980AE593A50AE593A60AE5948F0AE594940AE593BD0AE593AE0A
  E593AD0AE593BA0AE593A20AE594B90AE595800AE595A30AE5958C0AE594AE0AE5959C0AE595850AE595960AE595970A
  E594B80AE594B30AE5959D0AE596990AE596800AE592AF0AE5968A0AE5969F0AE595BB0AE595BE0AE596980AE5969E0A
  E596AE0AE595BC0AE596830AE596A90AE596870AE596A80AE5979A0AE597850AE5979F0AE597840AE5979C0AE597A40A
  E597940AE598940AE597B70AE598960AE597BE0AE597BD0AE5989B0AE597B90AE5998E0AE599900AE7879F0AE598B40A
  E598B60AE598B20AE598B80AE599AB0AE599A40AE598AF0AE599AC0AE599AA0AE59A860AE59A800AE59A8A0AE59AA00A
  E59A940AE59A8F0AE59AA50AE59AAE0AE59AB60AE59AB40AE59B820AE59ABC0AE59B810AE59B830AE59B800AE59B880A
  E59B8E0AE59B910AE59B930AE59B970AE59BAE0AE59BB90AE59C800AE59BBF0AE59C840AE59C890AE59C880AE59C8B0A
  E59C8D0AE59C930AE59C980AE59C960AE597870AE59C9C0AE59CA60AE59CB70AE59CB80AE59D8E0AE59CBB0AE59D800A
  E59D8F0AE59DA90AE59F800AE59E880AE59DA10AE59DBF0AE59E890AE59E930AE59EA00AE59EB30AE59EA40AE59EAA0A
  E59EB00AE59F830AE59F860AE59F940AE59F920AE59F930AE5A08A0AE59F960AE59FA30AE5A08B0AE5A0990AE5A09D0A
  E5A1B20AE5A0A10AE5A1A20AE5A18B0AE5A1B00AE6AF800AE5A1920AE5A0BD0AE5A1B90AE5A2850AE5A2B90AE5A29F0A
  E5A2AB0AE5A2BA0AE5A39E0AE5A2BB0AE5A2B80AE5A2AE0AE5A3850AE5A3930AE5A3910AE5A3970AE5A3990AE5A3980A
  E5A3A50AE5A39C0AE5A3A40AE5A39F0AE5A3AF0AE5A3BA0AE5A3B90AE5A3BB0AE5A3BC0AE5A3BD0AE5A4820AE5A48A0A
  E5A4900AE5A49B0AE6A2A60AE5A4A50AE5A4AC0AE5A4AD0AE5A4B20AE5A4B80AE5A4BE0AE7AB920AE5A5950AE5A5900A
  E5A58E0AE5A59A0AE5A5980AE5A5A20AE5A5A00AE5A5A70AE5A5AC0AE5A5A90A"

/-- tests/test_data/whatwg/shiftjis_whatwg_test_encode_in.txt, part 26 -/
noncomputable def encodeIn25 : List Nat := hex! "E592AB0AE593820AE592A40AE592BE0AE592BC0AE593980AE593A50AE593A60AE5948F0AE594940AE593BD0AE593AE0A
  E593AD0AE593BA0AE593A20AE594B90AE595800AE595A30AE5958C0AE594AE0AE5959C0AE595850AE595960AE595970A
  E594B80AE594B30AE5959D0AE596990AE596800AE592AF0AE5968A0AE5969F0AE595BB0AE595BE0AE596980AE5969E0A
  E596AE0AE595BC0AE596830AE596A90AE596870AE596A80AE5979A0AE597850AE5979F0AE597840AE5979C0AE597A40A
  E597940AE598940AE597B70AE598960AE597BE0AE597BD0AE5989B0AE597B90AE5998E0AE599900AE7879F0AE598B40A
  E598B60AE598B20AE598B80AE599AB0AE599A40AE598AF0AE599AC0AE599AA0AE59A860AE59A800AE59A8A0AE59AA00A
  E59A940AE59A8F0AE59AA50AE59AAE0AE59AB60AE59AB40AE59B820AE59ABC0AE59B810AE59B830AE59B800AE59B880A
  E59B8E0AE59B910AE59B930AE59B970AE59BAE0AE59BB90AE59C800AE59BBF0AE59C840AE59C890AE59C880AE59C8B0A
  E59C8D0AE59C930AE59C980AE59C960AE597870AE59C9C0AE59CA60AE59CB70AE59CB80AE59D8E0AE59CBB0AE59D800A
  E59D8F0AE59DA90AE59F800AE59E880AE59DA10AE59DBF0AE59E890AE59E930AE59EA00AE59EB30AE59EA40AE59EAA0A
  E59EB00AE59F830AE59F860AE59F940AE59F920AE59F930AE5A08A0AE59F960AE59FA30AE5A08B0AE5A0990AE5A09D0A
  E5A1B20AE5A0A10AE5A1A20AE5A18B0AE5A1B00AE6AF800AE5A1920AE5A0BD0AE5A1B90AE5A2850AE5A2B90AE5A29F0A
  E5A2AB0AE5A2BA0AE5A39E0AE5A2BB0AE5A2B80AE5A2AE0AE5A3850AE5A3930AE5A3910AE5A3970AE5A3990AE5A3980A
  E5A3A50AE5A39C0AE5A3A40AE5A39F0AE5A3AF0AE5A3BA0AE5A3B90AE5A3BB0AE5A3BC0AE5A3BD0AE5A4820AE5A48A0A
  E5A4900AE5A49B0AE6A2A60AE5A4A50AE5A4AC0AE5A4AD0AE5A4B20AE5A4B80AE5A4BE0AE7AB920AE5A5950AE5A5900A
  E5A58E0AE5A59A0AE5A5980AE5A5A20AE5A5A00AE5A5A70AE5A5AC0AE5A5A90A"

/-- tests/test_data/whatwg/shiftjis_whatwg_test_encode_out.txt, part 26 -/
noncomputable def encodeOut25 : List Nat := hex! "9A400A9A410A9A420A9A430A9A440A9A450A9A460A9A470A9A480A9A490A9A4A0A9A4B0A9A4C0A9A4D0A9A4E0A9A4F0A
  9A500A9A510A9A520A9A530A9A540A9A550A9A560A9A570A9A580A9A590A9A5A0A9A5B0A9A5C0A9A5D0A9A5E0A9A5F0A
  9A600A9A610A9A620A9A630A9A640A9A650A9A660A9A670A9A680A9A690A9A6A0A9A6B0A9A6C0A9A6D0A9A6E0A9A6F0A
  9A700A9A710A9A720A9A730A9A740A9A750A9A760A9A770A9A780A9A790A9A7A0A9A7B0A9A7C0A9A7D0A9A7E0A9A800A
  9A810A9A820A9A830A9A840A9A850A9A860A9A870A9A880A9A890A9A8A0A9A8B0A9A8C0A9A8D0A9A8E0A9A8F0A9A900A
  9A910A9A920A9A930A9A940A9A950A9A960A9A970A9A980A9A990A9A9A0A9A9B0A9A9C0A9A9D0A9A9E0A9A9F0A9AA00A
  9AA10A9AA20A9AA30A9AA40A9AA50A9AA60A9AA70A9AA80A9AA90A9AAA0A9AAB0A9AAC0A9AAD0A9AAE0A9AAF0A9AB00A
  9AB10A9AB20A9AB30A9AB40A9AB50A9AB60A9AB70A9AB80A9AB90A9ABA0A9ABB0A9ABC0A9ABD0A9ABE0A9ABF0A9AC00A
  9AC10A9AC20A9AC30A9AC40A9AC50A9AC60A9AC70A9AC80A9AC90A9ACA0A9ACB0A9ACC0A9ACD0A9ACE0A9ACF0A9AD00A
  9AD10A9AD20A9AD30A9AD40A9AD50A9AD60A9AD70A9AD80A9AD90A9ADA0A9ADB0A9ADC0A9ADD0A9ADE0A9ADF0A9AE00A
  9AE10A9AE20A9AE30A9AE40A9AE50A9AE60A9AE70A9AE80A9AE90A9AEA0A9AEB0A9AEC0A9AED0A9AEE0A9AEF0A9AF00A
  9AF10A9AF20A9AF30A9AF40A9AF50A9AF60A9AF70A9AF80A9AF90A9AFA0A9AFB0A9AFC0A"

/-- tests/test_data/whatwg/shiftjis_whatwg_test_decode_in.txt, part 27 -/
noncomputable def decodeIn26 : List Nat := hex! "9B400A9B410A9B420A9B430A9B440A9B450A9B460A9B470A9B480A9B490A9B4A0A9B4B0A9B4C0A9B4D0A9B4E0A9B4F0A
  9B500A9B510A9B520A9B530A9B540A9B550A9B560A9B570A9B580A9B590A9B5A0A9B5B0A9B5C0A9B5D0A9B5E0A9B5F0A
  9B600A9B610A9B620A9B630A9B640A9B650A9B660A9B670A9B680A9B690A9B6A0A9B6B0A9B6C0A9B6D0A9B6E0A9B6F0A
  9B700A9B710A9B720A9B730A9B740A9B750A9B760A9B770A9B780A9B790A9B7A0A9B7B0A9B7C0A9B7D0A9B7E0A9B800A
  9B810A9B820A9B830A9B840A9B850A9B860A9B870A9B880A9B890A9B8A0A9B8B0A9B8C0A9B8D0A9B8E0A9B8F0A9B900A
  9B910A9B920A9B930A9B940A9B950A9B960A9B970A9B980A9B990A9B9A0A9B9B0A9B9C0A9B9D0A9B9E0A9B9F0A9BA00A
  9BA10A9BA20A9BA30A9BA40A9BA50A9BA60A9BA70A9BA80A9BA90A9BAA0A9BAB0A9BAC0A9BAD0A9BAE0A9BAF0A9BB00A
  9BB10A9BB20A9BB30A9BB40A9BB50A9BB60A9BB70A9BB80A9BB90A9BBA0A9BBB0A9BBC0A9BBD0A9BBE0A9BBF0A9BC00A
  9BC10A9BC20A9BC30A9BC40A9BC50A9BC60A9BC70A9BC80A9BC90A9BCA0A9BCB0A9BCC0A9BCD0A9BCE0A9BCF0A9BD00A
  9BD10A9BD20A9BD30A9BD40A9BD50A9BD60A9BD70A9BD80A9BD90A9BDA0A9BDB0A9BDC0A9BDD0A9BDE0A9BDF0A9BE00A
  9BE10A9BE20A9BE30A9BE40A9BE50A9BE60A9BE70A9BE80A9BE90A9BEA0A9BEB0A9BEC0A9BED0A9BEE0A9BEF0A9BF00A
  9BF10A9BF20A9BF30A9BF40A9BF50A9BF60A9BF70A9BF80A9BF90A9BFA0A9BFB0A9BFC0A"

/-- tests/test_data/whatwg/shiftjis_whatwg_test_decode_out.txt, part 27 -/
noncomputable def decodeOut26 : List Nat := hex! "E5A5B80AE5A6810AE5A69D0AE4BD9E0AE4BEAB0AE5A6A30AE5A6B20AE5A7860AE5A7A80AE5A79C0AE5A68D0AE5A7990A
  E5A79A0AE5A8A50AE5A89F0AE5A8910AE5A89C0AE5A8890AE5A89A0AE5A9800AE5A9AC0AE5A9890AE5A8B50AE5A8B60A
  E5A9A20AE5A9AA0AE5AA9A0AE5AABC0AE5AABE0AE5AB8B0AE5AB820AE5AABD0AE5ABA30AE5AB970AE5ABA60AE5ABA90A
  E5AB960AE5ABBA0AE5ABBB0AE5AC8C0AE5AC8B0AE5AC960AE5ACB20AE5AB900AE5ACAA0AE5ACB60AE5ACBE0AE5AD830A
  E5AD850AE5AD800AE5AD910AE5AD950AE5AD9A0AE5AD9B0AE5ADA50AE5ADA90AE5ADB00AE5ADB30AE5ADB50AE5ADB80A
  E696880AE5ADBA0AE5AE800AE5AE830AE5AEA60AE5AEB80AE5AF830AE5AF870AE5AF890AE5AF940AE5AF900AE5AFA40A
  E5AFA60AE5AFA20AE5AF9E0AE5AFA50AE5AFAB0AE5AFB00AE5AFB60AE5AFB30AE5B0850AE5B0870AE5B0880AE5B08D0A
  E5B0930AE5B0A00AE5B0A20AE5B0A80AE5B0B80AE5B0B90AE5B1810AE5B1860AE5B18E0AE5B1930AE5B1900AE5B18F0A
  E5ADB10AE5B1AC0AE5B1AE0AE4B9A20AE5B1B60AE5B1B90AE5B28C0AE5B2910AE5B2940AE5A69B0AE5B2AB0AE5B2BB0A
  E5B2B60AE5B2BC0AE5B2B70AE5B3850AE5B2BE0AE5B3870AE5B3990AE5B3A90AE5B3BD0AE5B3BA0AE5B3AD0AE5B68C0A
  E5B3AA0AE5B48B0AE5B4950AE5B4970AE5B59C0AE5B49F0AE5B49B0AE5B4910AE5B4940AE5B4A20AE5B49A0AE5B4990A
  E5B4980AE5B58C0AE5B5920AE5B58E0AE5B58B0AE5B5AC0AE5B5B30AE5B5B60AE5B6870AE5B6840AE5B6820AE5B6A20A
  E5B69D0AE5B6AC0AE5B6AE0AE5B6BD0AE5B6900AE5B6B70AE5B6BC0AE5B7890AE5B78D0AE5B7930AE5B7920AE5B7960A
  E5B79B0AE5B7AB0AE5B7B20AE5B7B50AE5B88B0AE5B89A0AE5B8990AE5B8910AE5B89B0AE5B8B60AE5B8B70AE5B9840A
  E5B9830AE5B9800AE5B98E0AE5B9970AE5B9940AE5B99F0AE5B9A20AE5B9A40AE5B9870AE5B9B50AE5B9B60AE5B9BA0A
  E9BABC0AE5B9BF0AE5BAA00AE5BB810AE5BB820AE5BB880AE5BB900AE5BB8F0A"

/-- tests/test_data/whatwg/shiftjis_whatwg_test_encode_in.txt, part 27 -/
noncomputable def encodeIn26 : List Nat := hex! "E5A5B80AE5A6810AE5A69D0AE4BD9E0AE4BEAB0AE5A6A30AE5A6B20AE5A7860AE5A7A80AE5A79C0AE5A68D0AE5A7990A
  E5A79A0AE5A8A50AE5A89F0AE5A8910AE5A89C0AE5A8890AE5A89A0AE5A9800AE5A9AC0AE5A9890AE5A8B50AE5A8B60A
  E5A9A20AE5A9AA0AE5AA9A0AE5AABC0AE5AABE0AE5AB8B0AE5AB820AE5AABD0AE5ABA30AE5AB970AE5ABA60AE5ABA90A
  E5AB960AE5ABBA0AE5ABBB0AE5AC8C0AE5AC8B0AE5AC960AE5ACB20AE5AB900AE5ACAA0AE5ACB60AE5ACBE0AE5AD830A
  E5AD850AE5AD800AE5AD910AE5AD950AE5AD9A0AE5AD9B0AE5ADA50AE5ADA90AE5ADB00AE5ADB30AE5ADB50AE5ADB80A
  E696880AE5ADBA0AE5AE800AE5AE830AE5AEA60AE5AEB80AE5AF830AE5AF870AE5AF890AE5AF940AE5AF900AE5AFA40A
  E5AFA60AE5AFA20AE5AF9E0AE5AFA50AE5AFAB0AE5AFB00AE5AFB60AE5AFB30AE5B0850AE5B0870AE5B0880AE5B08D0A
  E5B0930AE5B0A00AE5B0A20AE5B0A80AE5B0B80AE5B0B90AE5B1810AE5B1860AE5B18E0AE5B1930AE5B1900AE5B18F0A
  E5ADB10AE5B1AC0AE5B1AE0AE4B9A20AE5B1B60AE5B1B90AE5B28C0AE5B2910AE5B2940AE5A69B0AE5B2AB0AE5B2BB0A
  E5B2B60AE5B2BC0AE5B2B70AE5B3850AE5B2BE0AE5B3870AE5B3990AE5B3A90AE5B3BD0AE5B3BA0AE5B3AD0AE5B68C0A
  E5B3AA0AE5B48B0AE5B4950AE5B4970AE5B59C0AE5B49F0AE5B49B0AE5B4910AE5B4940AE5B4A20AE5B49A0AE5B4990A
  E5B4980AE5B58C0AE5B5920AE5B58E0AE5B58B0AE5B5AC0AE5B5B30AE5B5B60AE5B6870AE5B6840AE5B6820AE5B6A20A
  E5B69D0AE5B6AC0AE5B6AE0AE5B6BD0AE5B6900AE5B6B70AE5B6BC0AE5B7890AE5B78D0AE5B7930AE5B7920AE5B7960A
  E5B79B0AE5B7AB0AE5B7B20AE5B7B50AE5B88B0AE5B89A0AE5B8990AE5B8910AE5B89B0AE5B8B60AE5B8B70AE5B9840A
  E5B9830AE5B9800AE5B98E0AE5B9970AE5B9940AE5B99F0AE5B9A20AE5B9A40AE5B9870AE5B9B50AE5B9B60AE5B9BA0A
  E9BABC0AE5B9BF0AE5BAA00AE5BB810AE5BB820AE5BB880AE5BB900AE5BB8F0A"

/-- tests/test_data/whatwg/shiftjis_whatwg_test_encode_out.txt, part 27 -/
noncomputable def encodeOut26 : List Nat := hex! "9B400A9B410A9B420A9B430A9B440A9B450A9B460A9B470A9B480A9B490A9B4A0A9B4B0A9B4C0A9B4D0A9B4E0A9B4F0A
  9B500A9B510A9B520A9B530A9B540A9B550A9B560A9B570A9B580A9B590A9B5A0A9B5B0A9B5C0A9B5D0A9B5E0A9B5F0A
  9B600A9B610A9B620A9B630A9B640A9B650A9B660A9B670A9B680A9B690A9B6A0A9B6B0A9B6C0A9B6D0A9B6E0A9B6F0A
  9B700A9B710A9B720A9B730A9B740A9B750A9B760A9B770A9B780A9B790A9B7A0A9B7B0A9B7C0A9B7D0A9B7E0A9B800A
  9B810A9B820A9B830A9B840A9B850A9B860A9B870A9B880A9B890A9B8A0A9B8B0A9B8C0A9B8D0A9B8E0A9B8F0A9B900A
  9B910A9B920A9B930A9B940A9B950A9B960A9B970A9B980A9B990A9B9A0A9B9B0A9B9C0A9B9D0A9B9E0A9B9F0A9BA00A
  9BA10A9BA20A9BA30A9BA40A9BA50A9BA60A9BA70A9BA80A9BA90A9BAA0A9BAB0A9BAC0A9BAD0A9BAE0A9BAF0A9BB00A
  9BB10A9BB20A9BB30A9BB40A9BB50A9BB60A9BB70A9BB80A9BB90A9BBA0A9BBB0A9BBC0A9BBD0A9BBE0A9BBF0A9BC00A
  9BC10A9BC20A9BC30A9BC40A9BC50A9BC60A9BC70A9BC80A9BC90A9BCA0A9BCB0A9BCC0A9BCD0A9BCE0A9BCF0A9BD00A
  9BD10A9BD20A9BD30A9BD40A9BD50A9BD60A9BD70A9BD80A9BD90A9BDA0A9BDB0A9BDC0A9BDD0A9BDE0A9BDF0A9BE00A
  9BE10A9BE20A9BE30A9BE40A9BE50A9BE60A9BE70A9BE80A9BE90A9BEA0A9BEB0A9BEC0A9BED0A9BEE0A9BEF0A9BF00A
  9BF10A9BF20A9BF30A9BF40A9BF50A9BF60A9BF70A9BF80A9BF90A9BFA0A9BFB0A9BFC0A"

/-- tests/test_data/whatwg/shiftjis_whatwg_test_decode_in.txt, part 28 -/
noncomputable def decodeIn27 : List Nat := hex! "9C400A9C410A9C420A9C430A9C440A9C450A9C460A9C470A9C480A9C490A9C4A0A9C4B0A9C4C0A9C4D0A9C4E0A9C4F0A
  9C500A9C510A9C520A9C530A9C540A9C550A9C560A9C570A9C580A9C590A9C5A0A9C5B0A9C5C0A9C5D0A9C5E0A9C5F0A
  9C600A9C610A9C620A9C630A9C640A9C650A9C660A9C670A9C680A9C690A9C6A0A9C6B0A9C6C0A9C6D0A9C6E0A9C6F0A
  9C700A9C710A9C720A9C730A9C740A9C750A9C760A9C770A9C780A9C790A9C7A0A9C7B0A9C7C0A9C7D0A9C7E0A9C800A
  9C810A9C820A9C830A9C840A9C850A9C860A9C870A9C880A9C890A9C8A0A9C8B0A9C8C0A9C8D0A9C8E0A9C8F0A9C900A
  9C910A9C920A9C930A9C940A9C950A9C960A9C970A9C980A9C990A9C9A0A9C9B0A9C9C0A9C9D0A9C9E0A9C9F0A9CA00A
  9CA10A9CA20A9CA30A9CA40A9CA50A9CA60A9CA70A9CA80A9CA90A9CAA0A9CAB0A9CAC0A9CAD0A9CAE0A9CAF0A9CB00A
  9CB10A9CB20A9CB30A9CB40A9CB50A9CB60A9CB70A9CB80A9CB90A9CBA0A9CBB0A9CBC0A9CBD0A9CBE0A9CBF0A9CC00A
  9CC10A9CC20A9CC30A9CC40A9CC50A9CC60A9CC70A9CC80A9CC90A9CCA0A9CCB0A9CCC0A9CCD0A9CCE0A9CCF0A9CD00A
  9CD10A9CD20A9CD30A9CD40A9CD50A9CD60A9CD70A9CD80A9CD90A9CDA0A9CDB0A9CDC0A9CDD0A9CDE0A9CDF0A9CE00A
  9CE10A9CE20A9CE30A9CE40A9CE50A9CE60A9CE70A9CE80A9CE90A9CEA0A9CEB0A9CEC0A9CED0A9CEE0A9CEF0A9CF00A
  9CF10A9CF20A9CF30A9CF40A9CF50A9CF60A9CF70A9CF80A9CF90A9CFA0A9CFB0A9CFC0A"

/-- tests/test_data/whatwg/shiftjis_whatwg_test_decode_out.txt, part 28 -/
noncomputable def decodeOut27 : List Nat := hex! "E5BB960AE5BBA30AE5BB9D0AE5BB9A0AE5BB9B0AE5BBA20AE5BBA10AE5BBA80AE5BBA90AE5BBAC0AE5BBB10AE5BBB30A
  E5BBB00AE5BBB40AE5BBB80AE5BBBE0AE5BC830AE5BC890AE5BD9D0AE5BD9C0AE5BC8B0AE5BC910AE5BC960AE5BCA90A
  E5BCAD0AE5BCB80AE5BD810AE5BD880AE5BD8C0AE5BD8E0AE5BCAF0AE5BD910AE5BD960AE5BD970AE5BD990AE5BDA10A
  E5BDAD0AE5BDB30AE5BDB70AE5BE830AE5BE820AE5BDBF0AE5BE8A0AE5BE880AE5BE910AE5BE870AE5BE9E0AE5BE990A
  E5BE980AE5BEA00AE5BEA80AE5BEAD0AE5BEBC0AE5BF960AE5BFBB0AE5BFA40AE5BFB80AE5BFB10AE5BF9D0AE682B30A
  E5BFBF0AE680A10AE681A00AE680990AE680900AE680A90AE6808E0AE680B10AE6809B0AE680950AE680AB0AE680A60A
  E6808F0AE680BA0AE6819A0AE681810AE681AA0AE681B70AE6819F0AE6818A0AE681860AE6818D0AE681A30AE681830A
  E681A40AE681820AE681AC0AE681AB0AE681990AE682810AE6828D0AE683A70AE682830AE6829A0AE682840AE6829B0A
  E682960AE682970AE682920AE682A70AE6828B0AE683A10AE682B80AE683A00AE683930AE682B40AE5BFB00AE682BD0A
  E683860AE682B50AE683980AE6858D0AE684950AE684860AE683B60AE683B70AE684800AE683B40AE683BA0AE684830A
  E684A10AE683BB0AE683B10AE6848D0AE6848E0AE685870AE684BE0AE684A80AE684A70AE6858A0AE684BF0AE684BC0A
  E684AC0AE684B40AE684BD0AE685820AE685840AE685B30AE685B70AE685980AE685990AE6859A0AE685AB0AE685B40A
  E685AF0AE685A50AE685B10AE6859F0AE6859D0AE685930AE685B50AE686990AE686960AE686870AE686AC0AE686940A
  E6869A0AE6868A0AE686910AE686AB0AE686AE0AE6878C0AE6878A0AE687890AE687B70AE687880AE687830AE687860A
  E686BA0AE6878B0AE7BDB90AE6878D0AE687A60AE687A30AE687B60AE687BA0AE687B40AE687BF0AE687BD0AE687BC0A
  E687BE0AE688800AE688880AE688890AE6888D0AE6888C0AE688940AE6889B0A"

/-- tests/test_data/whatwg/shiftjis_whatwg_test_encode_in.txt, part 28 -/
noncomputable def encodeIn27 : List Nat := hex! "E5BB960AE5BBA30AE5BB9D0AE5BB9A0AE5BB9B0AE5BBA20AE5BBA10AE5BBA80AE5BBA90AE5BBAC0AE5BBB10AE5BBB30A
  E5BBB00AE5BBB40AE5BBB80AE5BBBE0AE5BC830AE5BC890AE5BD9D0AE5BD9C0AE5BC8B0AE5BC910AE5BC960AE5BCA90A
  E5BCAD0AE5BCB80AE5BD810AE5BD880AE5BD8C0AE5BD8E0AE5BCAF0AE5BD910AE5BD960AE5BD970AE5BD990AE5BDA10A
  E5BDAD0AE5BDB30AE5BDB70AE5BE830AE5BE820AE5BDBF0AE5BE8A0AE5BE880AE5BE910AE5BE870AE5BE9E0AE5BE990A
  E5BE980AE5BEA00AE5BEA80AE5BEAD0AE5BEBC0AE5BF960AE5BFBB0AE5BFA40AE5BFB80AE5BFB10AE5BF9D0AE682B30A
  E5BFBF0AE680A10AE681A00AE680990AE680900AE680A90AE6808E0AE680B10AE6809B0AE680950AE680AB0AE680A60A
  E6808F0AE680BA0AE6819A0AE681810AE681AA0AE681B70AE6819F0AE6818A0AE681860AE6818D0AE681A30AE681830A
  E681A40AE681820AE681AC0AE681AB0AE681990AE682810AE6828D0AE683A70AE682830AE6829A0AE682840AE6829B0A
  E682960AE682970AE682920AE682A70AE6828B0AE683A10AE682B80AE683A00AE683930AE682B40AE5BFB00AE682BD0A
  E683860AE682B50AE683980AE6858D0AE684950AE684860AE683B60AE683B70AE684800AE683B40AE683BA0AE684830A
  E684A10AE683BB0AE683B10AE6848D0AE6848E0AE685870AE684BE0AE684A80AE684A70AE6858A0AE684BF0AE684BC0A
  E684AC0AE684B40AE684BD0AE685820AE685840AE685B30AE685B70AE685980AE685990AE6859A0AE685AB0AE685B40A
  E685AF0AE685A50AE685B10AE6859F0AE6859D0AE685930AE685B50AE686990AE686960AE686870AE686AC0AE686940A
  E6869A0AE6868A0AE686910AE686AB0AE686AE0AE6878C0AE6878A0AE687890AE687B70AE687880AE687830AE687860A
  E686BA0AE6878B0AE7BDB90AE6878D0AE687A60AE687A30AE687B60AE687BA0AE687B40AE687BF0AE687BD0AE687BC0A
  E687BE0AE688800AE688880AE688890AE6888D0AE6888C0AE688940AE6889B0A"

/-- tests/test_data/whatwg/shiftjis_whatwg_test_encode_out.txt, part 28 -/
noncomputable def encodeOut27 : List Nat := hex! "9C400A9C410A9C420A9C430A9C440A9C450A9C460A9C470A9C480A9C490A9C4A0A9C4B0A9C4C0A9C4D0A9C4E0A9C4F0A
  9C500A9C510A9C520A9C530A9C540A9C550A9C560A9C570A9C580A9C590A9C5A0A9C5B0A9C5C0A9C5D0A9C5E0A9C5F0A
  9C600A9C610A9C620A9C630A9C640A9C650A9C660A9C670A9C680A9C690A9C6A0A9C6B0A9C6C0A9C6D0A9C6E0A9C6F0A
  9C700A9C710A9C720A9C730A9C740A9C750A9C760A9C770A9C780A9C790A9C7A0A9C7B0A9C7C0A9C7D0A9C7E0A9C800A
  9C810A9C820A9C830A9C840A9C850A9C860A9C870A9C880A9C890A9C8A0A9C8B0A9C8C0A9C8D0A9C8E0A9C8F0A9C900A
  9C910A9C920A9C930A9C940A9C950A9C960A9C970A9C980A9C990A9C9A0A9C9B0A9C9C0A9C9D0A9C9E0A9C9F0A9CA00A
  9CA10A9CA20A9CA30A9CA40A9CA50A9CA60A9CA70A9CA80A9CA90A9CAA0A9CAB0A9CAC0A9CAD0A9CAE0A9CAF0A9CB00A
  9CB10A9CB20A9CB30A9CB40A9CB50A9CB60A9CB70A9CB80A9CB90A9CBA0A9CBB0A9CBC0A9CBD0A9CBE0A9CBF0A9CC00A
  9CC10A9CC20A9CC30A9CC40A9CC50A9CC60A9CC70A9CC80A9CC90A9CCA0A9CCB0A9CCC0A9CCD0A9CCE0A9CCF0A9CD00A
  9CD10A9CD20A9CD30A9CD40A9CD50A9CD60A9CD70A9CD80A9CD90A9CDA0A9CDB0A9CDC0A9CDD0A9CDE0A9CDF0A9CE00A
  9CE10A9CE20A9CE30A9CE40A9CE50A9CE60A9CE70A9CE80A9CE90A9CEA0A9CEB0A9CEC0A9CED0A9CEE0A9CEF0A9CF00A
  9CF10A9CF20A9CF30A9CF40A9CF50A9CF60A9CF70A9CF80A9CF90A9CFA0A9CFB0A9CFC0A"

/-- tests/test_data/whatwg/shiftjis_whatwg_test_decode_in.txt, part 29 -/
noncomputable def decodeIn28 : List Nat := hex! "9D400A9D410A9D420A9D430A9D440A9D450A9D460A9D470A9D480A9D490A9D4A0A9D4B0A9D4C0A9D4D0A9D4E0A9D4F0A
  9D500A9D510A9D520A9D530A9D540A9D550A9D560A9D570A9D580A9D590A9D5A0A9D5B0A9D5C0A9D5D0A9D5E0A9D5F0A
  9D600A9D610A9D620A9D630A9D640A9D650A9D660A9D670A9D680A9D690A9D6A0A9D6B0A9D6C0A9D6D0A9D6E0A9D6F0A
  9D700A9D710A9D720A9D730A9D740A9D750A9D760A9D770A9D780A9D790A9D7A0A9D7B0A9D7C0A9D7D0A9D7E0A9D800A
  9D810A9D820A9D830A9D840A9D850A9D860A9D870A9D880A9D890A9D8A0A9D8B0A9D8C0A9D8D0A9D8E0A9D8F0A9D900A
  9D910A9D920A9D930A9D940A9D950A9D960A9D970A9D980A9D990A9D9A0A9D9B0A9D9C0A9D9D0A9D9E0A9D9F0A9DA00A
  9DA10A9DA20A9DA30A9DA40A9DA50A9DA60A9DA70A9DA80A9DA90A9DAA0A9DAB0A9DAC0A9DAD0A9DAE0A9DAF0A9DB00A
  9DB10A9DB20A9DB30A9DB40A9DB50A9DB60A9DB70A9DB80A9DB90A9DBA0A9DBB0A9DBC0A9DBD0A9DBE0A9DBF0A9DC00A
  9DC10A9DC20A9DC30A9DC40A9DC50A9DC60A9DC70A9DC80A9DC90A9DCA0A9DCB0A9DCC0A9DCD0A9DCE0A9DCF0A9DD00A
  9DD10A9DD20A9DD30A9DD40A9DD50A9DD60A9DD70A9DD80A9DD90A9DDA0A9DDB0A9DDC0A9DDD0A9DDE0A9DDF0A9DE00A
  9DE10A9DE20A9DE30A9DE40A9DE50A9DE60A9DE70A9DE80A9DE90A9DEA0A9DEB0A9DEC0A9DED0A9DEE0A9DEF0A9DF00A
  9DF10A9DF20A9DF30A9DF40A9DF50A9DF60A9DF70A9DF80A9DF90A9DFA0A9DFB0A9DFC0A"

/-- tests/test_data/whatwg/shiftjis_whatwg_test_decode_out.txt, part 29 -/
noncomputable def decodeOut28 : List Nat := hex! "E6889E0AE688A10AE688AA0AE688AE0AE688B00AE688B20AE688B30AE689810AE6898E0AE6899E0AE689A30AE6899B0A
  E689A00AE689A80AE689BC0AE68A820AE68A890AE689BE0AE68A920AE68A930AE68A960AE68B940AE68A830AE68A940A
  E68B970AE68B910AE68ABB0AE68B8F0AE68BBF0AE68B860AE693940AE68B880AE68B9C0AE68B8C0AE68B8A0AE68B820A
  E68B870AE68A9B0AE68B890AE68C8C0AE68BAE0AE68BB10AE68CA70AE68C820AE68C880AE68BAF0AE68BB50AE68D900A
  E68CBE0AE68D8D0AE6909C0AE68D8F0AE68E960AE68E8E0AE68E800AE68EAB0AE68DB60AE68EA30AE68E8F0AE68E890A
  E68E9F0AE68EB50AE68DAB0AE68DA90AE68EBE0AE68FA90AE68F800AE68F860AE68FA30AE68F890AE68F920AE68FB60A
  E68F840AE690960AE690B40AE690860AE690930AE690A60AE690B60AE6949D0AE690970AE690A80AE6908F0AE691A70A
  E691AF0AE691B60AE6918E0AE694AA0AE692950AE692930AE692A50AE692A90AE692880AE692BC0AE6939A0AE693920A
  E693850AE693870AE692BB0AE693980AE693820AE693B10AE693A70AE888890AE693A00AE693A10AE68AAC0AE693A30A
  E693AF0AE694AC0AE693B60AE693B40AE693B20AE693BA0AE694800AE693BD0AE694980AE6949C0AE694850AE694A40A
  E694A30AE694AB0AE694B40AE694B50AE694B70AE694B60AE694B80AE7958B0AE695880AE695960AE695950AE6958D0A
  E695980AE6959E0AE6959D0AE695B20AE695B80AE696820AE696830AE8AE8A0AE6969B0AE6969F0AE696AB0AE696B70A
  E697830AE697860AE697810AE697840AE6978C0AE697920AE6979B0AE697990AE697A00AE697A10AE697B10AE69DB20A
  E6988A0AE698830AE697BB0AE69DB30AE698B50AE698B60AE698B40AE6989C0AE6998F0AE699840AE699890AE699810A
  E6999E0AE6999D0AE699A40AE699A70AE699A80AE6999F0AE699A20AE699B00AE69A830AE69A880AE69A8E0AE69A890A
  E69A840AE69A980AE69A9D0AE69B810AE69AB90AE69B890AE69ABE0AE69ABC0A"

/-- tests/test_data/whatwg/shiftjis_whatwg_test_encode_in.txt, part 29 -/
noncomputable def encodeIn28 : List Nat := hex! "E6889E0AE688A10AE688AA0AE688AE0AE688B00AE688B20AE688B30AE689810AE6898E0AE6899E0AE689A30AE6899B0A
  E689A00AE689A80AE689BC0AE68A820AE68A890AE689BE0AE68A920AE68A930AE68A960AE68B940AE68A830AE68A940A
  E68B970AE68B910AE68ABB0AE68B8F0AE68BBF0AE68B860AE693940AE68B880AE68B9C0AE68B8C0AE68B8A0AE68B820A
  E68B870AE68A9B0AE68B890AE68C8C0AE68BAE0AE68BB10AE68CA70AE68C820AE68C880AE68BAF0AE68BB50AE68D900A
  E68CBE0AE68D8D0AE6909C0AE68D8F0AE68E960AE68E8E0AE68E800AE68EAB0AE68DB60AE68EA30AE68E8F0AE68E890A
  E68E9F0AE68EB50AE68DAB0AE68DA90AE68EBE0AE68FA90AE68F800AE68F860AE68FA30AE68F890AE68F920AE68FB60A
  E68F840AE690960AE690B40AE690860AE690930AE690A60AE690B60AE6949D0AE690970AE690A80AE6908F0AE691A70A
  E691AF0AE691B60AE6918E0AE694AA0AE692950AE692930AE692A50AE692A90AE692880AE692BC0AE6939A0AE693920A
  E693850AE693870AE692BB0AE693980AE693820AE693B10AE693A70AE888890AE693A00AE693A10AE68AAC0AE693A30A
  E693AF0AE694AC0AE693B60AE693B40AE693B20AE693BA0AE694800AE693BD0AE694980AE6949C0AE694850AE694A40A
  E694A30AE694AB0AE694B40AE694B50AE694B70AE694B60AE694B80AE7958B0AE695880AE695960AE695950AE6958D0A
  E695980AE6959E0AE6959D0AE695B20AE695B80AE696820AE696830AE8AE8A0AE6969B0AE6969F0AE696AB0AE696B70A
  E697830AE697860AE697810AE697840AE6978C0AE697920AE6979B0AE697990AE697A00AE697A10AE697B10AE69DB20A
  E6988A0AE698830AE697BB0AE69DB30AE698B50AE698B60AE698B40AE6989C0AE6998F0AE699840AE699890AE699810A
  E6999E0AE6999D0AE699A40AE699A70AE699A80AE6999F0AE699A20AE699B00AE69A830AE69A880AE69A8E0AE69A890A
  E69A840AE69A980AE69A9D0AE69B810AE69AB90AE69B890AE69ABE0AE69ABC0A"

/-- tests/test_data/whatwg/shiftjis_whatwg_test_encode_out.txt, part 29 -/
noncomputable def encodeOut28 : List Nat := hex! "9D400A9D410A9D420A9D430A9D440A9D450A9D460A9D470A9D480A9D490A9D4A0A9D4B0A9D4C0A9D4D0A9D4E0A9D4F0A
  9D500A9D510A9D520A9D530A9D540A9D550A9D560A9D570A9D580A9D590A9D5A0A9D5B0A9D5C0A9D5D0A9D5E0A9D5F0A
  9D600A9D610A9D620A9D630A9D640A9D650A9D660A9D670A9D680A9D690A9D6A0A9D6B0A9D6C0A9D6D0A9D6E0A9D6F0A
  9D700A9D710A9D720A9D730A9D740A9D750A9D760A9D770A9D780A9D790A9D7A0A9D7B0A9D7C0A9D7D0A9D7E0A9D800A
  9D810A9D820A9D830A9D840A9D850A9D860A9D870A9D880A9D890A9D8A0A9D8B0A9D8C0A9D8D0A9D8E0A9D8F0A9D900A
  9D910A9D920A9D930A9D940A9D950A9D960A9D970A9D980A9D990A9D9A0A9D9B0A9D9C0A9D9D0A9D9E0A9D9F0A9DA00A
  9DA10A9DA20A9DA30A9DA40A9DA50A9DA60A9DA70A9DA80A9DA90A9DAA0A9DAB0A9DAC0A9DAD0A9DAE0A9DAF0A9DB00A
  9DB10A9DB20A9DB30A9DB40A9DB50A9DB60A9DB70A9DB80A9DB90A9DBA0A9DBB0A9DBC0A9DBD0A9DBE0A9DBF0A9DC00A
  9DC10A9DC20A9DC30A9DC40A9DC50A9DC60A9DC70A9DC80A9DC90A9DCA0A9DCB0A9DCC0A9DCD0A9DCE0A9DCF0A9DD00A
  9DD10A9DD20A9DD30A9DD40A9DD50A9DD60A9DD70A9DD80A9DD90A9DDA0A9DDB0A9DDC0A9DDD0A9DDE0A9DDF0A9DE00A
  9DE10A9DE20A9DE30A9DE40A9DE50A9DE60A9DE70A9DE80A9DE90A9DEA0A9DEB0A9DEC0A9DED0A9DEE0A9DEF0A9DF00A
  9DF10A9DF20A9DF30A9DF40A9DF50A9DF60A9DF70A9DF80A9DF90A9DFA0A9DFB0A9DFC0A"

/-- tests/test_data/whatwg/shiftjis_whatwg_test_decode_in.txt, part 30 -/
noncomputable def decodeIn29 : List Nat := hex! "9E400A9E410A9E420A9E430A9E440A9E450A9E460A9E470A9E480A9E490A9E4A0A9E4B0A9E4C0A9E4D0A9E4E0A9E4F0A
  9E500A9E510A9E520A9E530A9E540A9E550A9E560A9E570A9E580A9E590A9E5A0A9E5B0A9E5C0A9E5D0A9E5E0A9E5F0A
  9E600A9E610A9E620A9E630A9E640A9E650A9E660A9E670A9E680A9E690A9E6A0A9E6B0A9E6C0A9E6D0A9E6E0A9E6F0A
  9E700A9E710A9E720A9E730A9E740A9E750A9E760A9E770A9E780A9E790A9E7A0A9E7B0A9E7C0A9E7D0A9E7E0A9E800A
  9E810A9E820A9E830A9E840A9E850A9E860A9E870A9E880A9E890A9E8A0A9E8B0A9E8C0A9E8D0A9E8E0A9E8F0A9E900A
  9E910A9E920A9E930A9E940A9E950A9E960A9E970A9E980A9E990A9E9A0A9E9B0A9E9C0A9E9D0A9E9E0A9E9F0A9EA00A
  9EA10A9EA20A9EA30A9EA40A9EA50A9EA60A9EA70A9EA80A9EA90A9EAA0A9EAB0A9EAC0A9EAD0A9EAE0A9EAF0A9EB00A
  9EB10A9EB20A9EB30A9EB40A9EB50A9EB60A9EB70A9EB80A9EB90A9EBA0A9EBB0A9EBC0A9EBD0A9EBE0A9EBF0A9EC00A
  9EC10A9EC20A9EC30A9EC40A9EC50A9EC60A9EC70A9EC80A9EC90A9ECA0A9ECB0A9ECC0A9ECD0A9ECE0A9ECF0A9ED00A
  9ED10A9ED20A9ED30A9ED40A9ED50A9ED60A9ED70A9ED80A9ED90A9EDA0A9EDB0A9EDC0A9EDD0A9EDE0A9EDF0A9EE00A
  9EE10A9EE20A9EE30A9EE40A9EE50A9EE60A9EE70A9EE80A9EE90A9EEA0A9EEB0A9EEC0A9EED0A9EEE0A9EEF0A9EF00A
  9EF10A9EF20A9EF30A9EF40A9EF50A9EF60A9EF70A9EF80A9EF90A9EFA0A9EFB0A9EFC0A"

/-- tests/test_data/whatwg/shiftjis_whatwg_test_decode_out.txt, part 30 -/
noncomputable def decodeOut29 : List Nat := hex! "E69B840AE69AB80AE69B960AE69B9A0AE69BA00AE698BF0AE69BA60AE69BA90AE69BB00AE69BB50AE69BB70AE69C8F0A
  E69C960AE69C9E0AE69CA60AE69CA70AE99CB80AE69CAE0AE69CBF0AE69CB60AE69D810AE69CB80AE69CB70AE69D860A
  E69D9E0AE69DA00AE69D990AE69DA30AE69DA40AE69E890AE69DB00AE69EA90AE69DBC0AE69DAA0AE69E8C0AE69E8B0A
  E69EA60AE69EA10AE69E850AE69EB70AE69FAF0AE69EB40AE69FAC0AE69EB30AE69FA90AE69EB80AE69FA40AE69F9E0A
  E69F9D0AE69FA20AE69FAE0AE69EB90AE69F8E0AE69F860AE69FA70AE6AA9C0AE6A09E0AE6A1860AE6A0A90AE6A1800A
  E6A18D0AE6A0B20AE6A18E0AE6A2B30AE6A0AB0AE6A1990AE6A1A30AE6A1B70AE6A1BF0AE6A29F0AE6A28F0AE6A2AD0A
  E6A2940AE6A29D0AE6A29B0AE6A2830AE6AAAE0AE6A2B90AE6A1B40AE6A2B50AE6A2A00AE6A2BA0AE6A48F0AE6A28D0A
  E6A1BE0AE6A4810AE6A38A0AE6A4880AE6A3980AE6A4A20AE6A4A60AE6A3A10AE6A48C0AE6A38D0AE6A3940AE6A3A70A
  E6A3950AE6A4B60AE6A4920AE6A4840AE6A3970AE6A3A30AE6A4A50AE6A3B90AE6A3A00AE6A3AF0AE6A4A80AE6A4AA0A
  E6A49A0AE6A4A30AE6A4A10AE6A3860AE6A5B90AE6A5B70AE6A59C0AE6A5B80AE6A5AB0AE6A5940AE6A5BE0AE6A5AE0A
  E6A4B90AE6A5B40AE6A4BD0AE6A5990AE6A4B00AE6A5A10AE6A59E0AE6A59D0AE6A6810AE6A5AA0AE6A6B20AE6A6AE0A
  E6A7900AE6A6BF0AE6A7810AE6A7930AE6A6BE0AE6A78E0AE5AFA80AE6A78A0AE6A79D0AE6A6BB0AE6A7830AE6A6A70A
  E6A8AE0AE6A6910AE6A6A00AE6A69C0AE6A6950AE6A6B40AE6A79E0AE6A7A80AE6A8820AE6A89B0AE6A7BF0AE6AC8A0A
  E6A7B90AE6A7B20AE6A7A70AE6A8850AE6A6B10AE6A89E0AE6A7AD0AE6A8940AE6A7AB0AE6A88A0AE6A8920AE6AB810A
  E6A8A30AE6A8930AE6A9840AE6A88C0AE6A9B20AE6A8B60AE6A9B80AE6A9870AE6A9A20AE6A9990AE6A9A60AE6A9880A
  E6A8B80AE6A8A20AE6AA900AE6AA8D0AE6AAA00AE6AA840AE6AAA20AE6AAA30A"

/-- tests/test_data/whatwg/shiftjis_whatwg_test_encode_in.txt, part 30 -/
noncomputable def encodeIn29 : List Nat := hex! "E69B840AE69AB80AE69B960AE69B9A0AE69BA00AE698BF0AE69BA60AE69BA90AE69BB00AE69BB50AE69BB70AE69C8F0A
  E69C960AE69C9E0AE69CA60AE69CA70AE99CB80AE69CAE0AE69CBF0AE69CB60AE69D810AE69CB80AE69CB70AE69D860A
  E69D9E0AE69DA00AE69D990AE69DA30AE69DA40AE69E890AE69DB00AE69EA90AE69DBC0AE69DAA0AE69E8C0AE69E8B0A
  E69EA60AE69EA10AE69E850AE69EB70AE69FAF0AE69EB40AE69FAC0AE69EB30AE69FA90AE69EB80AE69FA40AE69F9E0A
  E69F9D0AE69FA20AE69FAE0AE69EB90AE69F8E0AE69F860AE69FA70AE6AA9C0AE6A09E0AE6A1860AE6A0A90AE6A1800A
  E6A18D0AE6A0B20AE6A18E0AE6A2B30AE6A0AB0AE6A1990AE6A1A30AE6A1B70AE6A1BF0AE6A29F0AE6A28F0AE6A2AD0A
  E6A2940AE6A29D0AE6A29B0AE6A2830AE6AAAE0AE6A2B90AE6A1B40AE6A2B50AE6A2A00AE6A2BA0AE6A48F0AE6A28D0A
  E6A1BE0AE6A4810AE6A38A0AE6A4880AE6A3980AE6A4A20AE6A4A60AE6A3A10AE6A48C0AE6A38D0AE6A3940AE6A3A70A
  E6A3950AE6A4B60AE6A4920AE6A4840AE6A3970AE6A3A30AE6A4A50AE6A3B90AE6A3A00AE6A3AF0AE6A4A80AE6A4AA0A
  E6A49A0AE6A4A30AE6A4A10AE6A3860AE6A5B90AE6A5B70AE6A59C0AE6A5B80AE6A5AB0AE6A5940AE6A5BE0AE6A5AE0A
  E6A4B90AE6A5B40AE6A4BD0AE6A5990AE6A4B00AE6A5A10AE6A59E0AE6A59D0AE6A6810AE6A5AA0AE6A6B20AE6A6AE0A
  E6A7900AE6A6BF0AE6A7810AE6A7930AE6A6BE0AE6A78E0AE5AFA80AE6A78A0AE6A79D0AE6A6BB0AE6A7830AE6A6A70A
  E6A8AE0AE6A6910AE6A6A00AE6A69C0AE6A6950AE6A6B40AE6A79E0AE6A7A80AE6A8820AE6A89B0AE6A7BF0AE6AC8A0A
  E6A7B90AE6A7B20AE6A7A70AE6A8850AE6A6B10AE6A89E0AE6A7AD0AE6A8940AE6A7AB0AE6A88A0AE6A8920AE6AB810A
  E6A8A30AE6A8930AE6A9840AE6A88C0AE6A9B20AE6A8B60AE6A9B80AE6A9870AE6A9A20AE6A9990AE6A9A60AE6A9880A
  E6A8B80AE6A8A20AE6AA900AE6AA8D0AE6AAA00AE6AA840AE6AAA20AE6AAA30A"

/-- tests/test_data/whatwg/shiftjis_whatwg_test_encode_out.txt, part 30 -/
noncomputable def encodeOut29 : List Nat := hex! "9E400A9E410A9E420A9E430A9E440A9E450A9E460A9E470A9E480A9E490A9E4A0A9E4B0A9E4C0A9E4D0A9E4E0A9E4F0A
  9E500A9E510A9E520A9E530A9E540A9E550A9E560A9E570A9E580A9E590A9E5A0A9E5B0A9E5C0A9E5D0A9E5E0A9E5F0A
  9E600A9E610A9E620A9E630A9E640A9E650A9E660A9E670A9E680A9E690A9E6A0A9E6B0A9E6C0A9E6D0A9E6E0A9E6F0A
  9E700A9E710A9E720A9E730A9E740A9E750A9E760A9E770A9E780A9E790A9E7A0A9E7B0A9E7C0A9E7D0A9E7E0A9E800A
  9E810A9E820A9E830A9E840A9E850A9E860A9E870A9E880A9E890A9E8A0A9E8B0A9E8C0A9E8D0A9E8E0A9E8F0A9E900A
  9E910A9E920A9E930A9E940A9E950A9E960A9E970A9E980A9E990A9E9A0A9E9B0A9E9C0A9E9D0A9E9E0A9E9F0A9EA00A
  9EA10A9EA20A9EA30A9EA40A9EA50A9EA60A9EA70A9EA80A9EA90A9EAA0A9EAB0A9EAC0A9EAD0A9EAE0A9EAF0A9EB00A
  9EB10A9EB20A9EB30A9EB40A9EB50A9EB60A9EB70A9EB80A9EB90A9EBA0A9EBB0A9EBC0A9EBD0A9EBE0A9EBF0A9EC00A
  9EC10A9EC20A9EC30A9EC40A9EC50A9EC60A9EC70A9EC80A9EC90A9ECA0A9ECB0A9ECC0A9ECD0A9ECE0A9ECF0A9ED00A
  9ED10A9ED20A9ED30A9ED40A9ED50A9ED60A9ED70A9ED80A9ED90A9EDA0A9EDB0A9EDC0A9EDD0A9EDE0A9EDF0A9EE00A
  9EE10A9EE20A9EE30A9EE40A9EE50A9EE60A9EE70A9EE80A9EE90A9EEA0A9EEB0A9EEC0A9EED0A9EEE0A9EEF0A9EF00A
  9EF10A9EF20A9EF30A9EF40A9EF50A9EF60A9EF70A9EF80A9EF90A9EFA0A9EFB0A9EFC0A"

end Verif.Files.ShiftJis
