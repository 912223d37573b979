import Verif.Hex

/-! Generated by tools/gen_files.py: verbatim copies of parts of files of /repo. -/

namespace Verif.Files.Big5

/-- tests/test_data/whatwg/big5_whatwg_test_decode_in.txt, part 33 -/
noncomputable def decodeIn32 : List Nat := hex! "A1400AA1410AA1420AA1430AA1440AA1450AA1460AA1470AA1480AA1490AA14A0AA14B0AA14C0AA14D0AA14E0AA14F0A
  A1500AA1510AA1520AA1530AA1540AA1550AA1560AA1570AA1580AA1590AA15A0AA15B0AA15C0AA15D0AA15E0AA15F0A
  A1600AA1610AA1620AA1630AA1640AA1650AA1660AA1670AA1680AA1690AA16A0AA16B0AA16C0AA16D0AA16E0AA16F0A
  A1700AA1710AA1720AA1730AA1740AA1750AA1760AA1770AA1780AA1790AA17A0AA17B0AA17C0AA17D0AA17E0AA1A10A
  A1A20AA1A30AA1A40AA1A50AA1A60AA1A70AA1A80AA1A90AA1AA0AA1AB0AA1AC0AA1AD0AA1AE0AA1AF0AA1B00AA1B10A
  A1B20AA1B30AA1B40AA1B50AA1B60AA1B70AA1B80AA1B90AA1BA0AA1BB0AA1BC0AA1BD0AA1BE0AA1BF0AA1C00AA1C10A
  A1C20AA1C30AA1C40AA1C50AA1C60AA1C70AA1C80AA1C90AA1CA0AA1CB0AA1CC0AA1CD0AA1CE0AA1CF0AA1D00AA1D10A
  A1D20AA1D30AA1D40AA1D50AA1D60AA1D70AA1D80AA1D90AA1DA0AA1DB0AA1DC0AA1DD0AA1DE0AA1DF0AA1E00AA1E10A
  A1E20AA1E30AA1E40AA1E50AA1E60AA1E70AA1E80AA1E90AA1EA0AA1EB0AA1EC0AA1ED0AA1EE0AA1EF0AA1F00AA1F10A
  A1F20AA1F30AA1F40AA1F50AA1F60AA1F70AA1F80AA1F90AA1FA0AA1FB0AA1FC0AA1FD0AA1FE0A"

/-- tests/test_data/whatwg/big5_whatwg_test_decode_out.txt, part 33 -/
noncomputable def decodeOut32 : List Nat := hex! "E380800AEFBC8C0AE380810AE380820AEFBC8E0AE280A70AEFBC9B0AEFBC9A0AEFBC9F0AEFBC810AEFB8B00AE280A60A
  E280A50AEFB9900AEFB9910AEFB9920AC2B70AEFB9940AEFB9950AEFB9960AEFB9970AEFBD9C0AE280930AEFB8B10AE2
  80940AEFB8B30AE295B40AEFB8B40AEFB98F0AEFBC880AEFBC890AEFB8B50AEFB8B60AEFBD9B0AEFBD9D0AEFB8B70AEF
  B8B80AE380940AE380950AEFB8B90AEFB8BA0AE380900AE380910AEFB8BB0AEFB8BC0AE3808A0AE3808B0AEFB8BD0AEF
  B8BE0AE380880AE380890AEFB8BF0AEFB9800AE3808C0AE3808D0AEFB9810AEFB9820AE3808E0AE3808F0AEFB9830AEF
  B9840AEFB9990AEFB99A0AEFB99B0AEFB99C0AEFB99D0AEFB99E0AE280980AE280990AE2809C0AE2809D0AE3809D0AE3
  809E0AE280B50AE280B20AEFBC830AEFBC860AEFBC8A0AE280BB0AC2A70AE380830AE2978B0AE2978F0AE296B30AE296
  B20AE2978E0AE298860AE298850AE297870AE297860AE296A10AE296A00AE296BD0AE296BC0AE38AA30AE284850AC2AF
  0AEFBFA30AEFBCBF0ACB8D0AEFB9890AEFB98A0AEFB98D0AEFB98E0AEFB98B0AEFB98C0AEFB99F0AEFB9A00AEFB9A10A
  EFBC8B0AEFBC8D0AC3970AC3B70AC2B10AE2889A0AEFBC9C0AEFBC9E0AEFBC9D0AE289A60AE289A70AE289A00AE2889E
  0AE289920AE289A10AEFB9A20AEFB9A30AEFB9A40AEFB9A50AEFB9A60AEFBD9E0AE288A90AE288AA0AE28AA50AE288A0
  0AE2889F0AE28ABF0AE38F920AE38F910AE288AB0AE288AE0AE288B50AE288B40AE299800AE299820AE28A950AE28A99
  0AE286910AE286930AE286900AE286920AE286960AE286970AE286990AE286980AE288A50AE288A30AEFBC8F0A"

/-- tests/test_data/whatwg/big5_whatwg_test_encode_in.txt, part 33 -/
noncomputable def encodeIn32 : List Nat := hex! "E380800AEFBC8C0AE380810AE380820AEFBC8E0AE280A70AEFBC9B0AEFBC9A0AEFBC9F0AEFBC810AEFB8B00AE280A60A
  E280A50AEFB9900AEFB9910AEFB9920AC2B70AEFB9940AEFB9950AEFB9960AEFB9970AEFBD9C0AE280930AEFB8B10AE2
  80940AEFB8B30AE295B40AEFB8B40AEFB98F0AEFBC880AEFBC890AEFB8B50AEFB8B60AEFBD9B0AEFBD9D0AEFB8B70AEF
  B8B80AE380940AE380950AEFB8B90AEFB8BA0AE380900AE380910AEFB8BB0AEFB8BC0AE3808A0AE3808B0AEFB8BD0AEF
  B8BE0AE380880AE380890AEFB8BF0AEFB9800AE3808C0AE3808D0AEFB9810AEFB9820AE3808E0AE3808F0AEFB9830AEF
  B9840AEFB9990AEFB99A0AEFB99B0AEFB99C0AEFB99D0AEFB99E0AE280980AE280990AE2809C0AE2809D0AE3809D0AE3
  809E0AE280B50AE280B20AEFBC830AEFBC860AEFBC8A0AE280BB0AC2A70AE380830AE2978B0AE2978F0AE296B30AE296
  B20AE2978E0AE298860AE298850AE297870AE297860AE296A10AE296A00AE296BD0AE296BC0AE38AA30AE284850AC2AF
  0AEFBFA30AEFBCBF0ACB8D0AEFB9890AEFB98A0AEFB98D0AEFB98E0AEFB98B0AEFB98C0AEFB99F0AEFB9A00AEFB9A10A
  EFBC8B0AEFBC8D0AC3970AC3B70AC2B10AE2889A0AEFBC9C0AEFBC9E0AEFBC9D0AE289A60AE289A70AE289A00AE2889E
  0AE289920AE289A10AEFB9A20AEFB9A30AEFB9A40AEFB9A50AEFB9A60AEFBD9E0AE288A90AE288AA0AE28AA50AE288A0
  0AE2889F0AE28ABF0AE38F920AE38F910AE288AB0AE288AE0AE288B50AE288B40AE299800AE299820AE28A950AE28A99
  0AE286910AE286930AE286900AE286920AE286960AE286970AE286990AE286980AE288A50AE288A30AEFBC8F0A"

/-- tests/test_data/whatwg/big5_whatwg_test_encode_out.txt, part 33 -/
noncomputable def encodeOut32 : List Nat := hex! "A1400AA1410AA1420AA1430AA1440AA1450AA1460AA1470AA1480AA1490AA14A0AA14B0AA14C0AA14D0AA14E0AA14F0A
  A1500AA1510AA1520AA1530AA1540AA1550AA1560AA1570AA1580AA1590AA15A0AA15B0AA15C0AA15D0AA15E0AA15F0A
  A1600AA1610AA1620AA1630AA1640AA1650AA1660AA1670AA1680AA1690AA16A0AA16B0AA16C0AA16D0AA16E0AA16F0A
  A1700AA1710AA1720AA1730AA1740AA1750AA1760AA1770AA1780AA1790AA17A0AA17B0AA17C0AA17D0AA17E0AA1A10A
  A1A20AA1A30AA1A40AA1A50AA1A60AA1A70AA1A80AA1A90AA1AA0AA1AB0AA1AC0AA1AD0AA1AE0AA1AF0AA1B00AA1B10A
  A1B20AA1B30AA1B40AA1B50AA1B60AA1B70AA1B80AA1B90AA1BA0AA1BB0AA1BC0AA1BD0AA1BE0AA1BF0AA1C00AA1C10A
  A1C20AA1C30AA1C40AA1C50AA1C60AA1C70AA1C80AA1C90AA1CA0AA1CB0AA1CC0AA1CD0AA1CE0AA1CF0AA1D00AA1D10A
  A1D20AA1D30AA1D40AA1D50AA1D60AA1D70AA1D80AA1D90AA1DA0AA1DB0AA1DC0AA1DD0AA1DE0AA1DF0AA1E00AA1E10A
  A1E20AA1E30AA1E40AA1E50AA1E60AA1E70AA1E80AA1E90AA1EA0AA1EB0AA1EC0AA1ED0AA1EE0AA1EF0AA1F00AA1F10A
  A1F20AA1F30AA1F40AA1F50AA1F60AA1F70AA1F80AA1F90AA1FA0AA1FB0AA1FC0AA1FD0AA1FE0A"

/-- tests/test_data/whatwg/big5_whatwg_test_decode_in.txt, part 34 -/
noncomputable def decodeIn33 : List Nat := hex! "A2400AA2410AA2420AA2430AA2440AA2450AA2460AA2470AA2480AA2490AA24A0AA24B0AA24C0AA24D0AA24E0AA24F0A
  A2500AA2510AA2520AA2530AA2540AA2550AA2560AA2570AA2580AA2590AA25A0AA25B0AA25C0AA25D0AA25E0AA25F0A
  A2600AA2610AA2620AA2630AA2640AA2650AA2660AA2670AA2680AA2690AA26A0AA26B0AA26C0AA26D0AA26E0AA26F0A
  A2700AA2710AA2720AA2730AA2740AA2750AA2760AA2770AA2780AA2790AA27A0AA27B0AA27C0AA27D0AA27E0AA2A10A
  A2A20AA2A30AA2A40AA2A50AA2A60AA2A70AA2A80AA2A90AA2AA0AA2AB0AA2AC0AA2AD0AA2AE0AA2AF0AA2B00AA2B10A
  A2B20AA2B30AA2B40AA2B50AA2B60AA2B70AA2B80AA2B90AA2BA0AA2BB0AA2BC0AA2BD0AA2BE0AA2BF0AA2C00AA2C10A
  A2C20AA2C30AA2C40AA2C50AA2C60AA2C70AA2C80AA2C90AA2CA0AA2CB0AA2CC0AA2CD0AA2CE0AA2CF0AA2D00AA2D10A
  A2D20AA2D30AA2D40AA2D50AA2D60AA2D70AA2D80AA2D90AA2DA0AA2DB0AA2DC0AA2DD0AA2DE0AA2DF0AA2E00AA2E10A
  A2E20AA2E30AA2E40AA2E50AA2E60AA2E70AA2E80AA2E90AA2EA0AA2EB0AA2EC0AA2ED0AA2EE0AA2EF0AA2F00AA2F10A
  A2F20AA2F30AA2F40AA2F50AA2F60AA2F70AA2F80AA2F90AA2FA0AA2FB0AA2FC0AA2FD0AA2FE0A"

/-- tests/test_data/whatwg/big5_whatwg_test_decode_out.txt, part 34 -/
noncomputable def decodeOut33 : List Nat := hex! "EFBCBC0AE288950AEFB9A80AEFBC840AEFBFA50AE380920AEFBFA00AEFBFA10AEFBC850AEFBCA00AE284830AE284890A
  EFB9A90AEFB9AA0AEFB9AB0AE38F950AE38E9C0AE38E9D0AE38E9E0AE38F8E0AE38EA10AE38E8E0AE38E8F0AE38F840A
  C2B00AE585990AE5859B0AE5859E0AE5859D0AE585A10AE585A30AE597A70AE793A90AE7B38E0AE296810AE296820AE2
  96830AE296840AE296850AE296860AE296870AE296880AE2968F0AE2968E0AE2968D0AE2968C0AE2968B0AE2968A0AE2
  96890AE294BC0AE294B40AE294AC0AE294A40AE2949C0AE296940AE294800AE294820AE296950AE2948C0AE294900AE2
  94940AE294980AE295AD0AE295AE0AE295B00AE295AF0AE295900AE2959E0AE295AA0AE295A10AE297A20AE297A30AE2
  97A50AE297A40AE295B10AE295B20AE295B30AEFBC900AEFBC910AEFBC920AEFBC930AEFBC940AEFBC950AEFBC960AEF
  BC970AEFBC980AEFBC990AE285A00AE285A10AE285A20AE285A30AE285A40AE285A50AE285A60AE285A70AE285A80AE2
  85A90AE380A10AE380A20AE380A30AE380A40AE380A50AE380A60AE380A70AE380A80AE380A90AE58D810AE58D840AE5
  8D850AEFBCA10AEFBCA20AEFBCA30AEFBCA40AEFBCA50AEFBCA60AEFBCA70AEFBCA80AEFBCA90AEFBCAA0AEFBCAB0AEF
  BCAC0AEFBCAD0AEFBCAE0AEFBCAF0AEFBCB00AEFBCB10AEFBCB20AEFBCB30AEFBCB40AEFBCB50AEFBCB60AEFBCB70AEF
  BCB80AEFBCB90AEFBCBA0AEFBD810AEFBD820AEFBD830AEFBD840AEFBD850AEFBD860AEFBD870AEFBD880AEFBD890AEF
  BD8A0AEFBD8B0AEFBD8C0AEFBD8D0AEFBD8E0AEFBD8F0AEFBD900AEFBD910AEFBD920AEFBD930AEFBD940AEFBD950AEF
  BD960A"

/-- tests/test_data/whatwg/big5_whatwg_test_encode_in.txt, part 34 -/
noncomputable def encodeIn33 : List Nat := hex! "EFBCBC0AE288950AEFB9A80AEFBC840AEFBFA50AE380920AEFBFA00AEFBFA10AEFBC850AEFBCA00AE284830AE284890A
  EFB9A90AEFB9AA0AEFB9AB0AE38F950AE38E9C0AE38E9D0AE38E9E0AE38F8E0AE38EA10AE38E8E0AE38E8F0AE38F840A
  C2B00AE585A10AE585A30AE597A70AE793A90AE296810AE296820AE296830AE296840AE296850AE296860AE296870AE2
  96880AE2968F0AE2968E0AE2968D0AE2968C0AE2968B0AE2968A0AE296890AE294BC0AE294B40AE294AC0AE294A40AE2
  949C0AE296940AE294800AE294820AE296950AE2948C0AE294900AE294940AE294980AE295AD0AE295AE0AE295B00AE2
  95AF0AE297A20AE297A30AE297A50AE297A40AE295B10AE295B20AE295B30AEFBC900AEFBC910AEFBC920AEFBC930AEF
  BC940AEFBC950AEFBC960AEFBC970AEFBC980AEFBC990AE285A00AE285A10AE285A20AE285A30AE285A40AE285A50AE2
  85A60AE285A70AE285A80AE285A90AE380A10AE380A20AE380A30AE380A40AE380A50AE380A60AE380A70AE380A80AE3
  80A90AE58D840AEFBCA10AEFBCA20AEFBCA30AEFBCA40AEFBCA50AEFBCA60AEFBCA70AEFBCA80AEFBCA90AEFBCAA0AEF
  BCAB0AEFBCAC0AEFBCAD0AEFBCAE0AEFBCAF0AEFBCB00AEFBCB10AEFBCB20AEFBCB30AEFBCB40AEFBCB50AEFBCB60AEF
  BCB70AEFBCB80AEFBCB90AEFBCBA0AEFBD810AEFBD820AEFBD830AEFBD840AEFBD850AEFBD860AEFBD870AEFBD880AEF
  BD890AEFBD8A0AEFBD8B0AEFBD8C0AEFBD8D0AEFBD8E0AEFBD8F0AEFBD900AEFBD910AEFBD920AEFBD930AEFBD940AEF
  BD950AEFBD960A"

/-- tests/test_data/whatwg/big5_whatwg_test_encode_out.txt, part 34 -/
noncomputable def encodeOut33 : List Nat := hex! "A2400AA2410AA2420AA2430AA2440AA2450AA2460AA2470AA2480AA2490AA24A0AA24B0AA24C0AA24D0AA24E0AA24F0A
  A2500AA2510AA2520AA2530AA2540AA2550AA2560AA2570AA2580AA25D0AA25E0AA25F0AA2600AA2620AA2630AA2640A
  A2650AA2660AA2670AA2680AA2690AA26A0AA26B0AA26C0AA26D0AA26E0AA26F0AA2700AA2710AA2720AA2730AA2740A
  A2750AA2760AA2770AA2780AA2790AA27A0AA27B0AA27C0AA27D0AA27E0AA2A10AA2A20AA2A30AA2A80AA2A90AA2AA0A
  A2AB0AA2AC0AA2AD0AA2AE0AA2AF0AA2B00AA2B10AA2B20AA2B30AA2B40AA2B50AA2B60AA2B70AA2B80AA2B90AA2BA0A
  A2BB0AA2BC0AA2BD0AA2BE0AA2BF0AA2C00AA2C10AA2C20AA2C30AA2C40AA2C50AA2C60AA2C70AA2C80AA2C90AA2CA0A
  A2CB0AA2CD0AA2CF0AA2D00AA2D10AA2D20AA2D30AA2D40AA2D50AA2D60AA2D70AA2D80AA2D90AA2DA0AA2DB0AA2DC0A
  A2DD0AA2DE0AA2DF0AA2E00AA2E10AA2E20AA2E30AA2E40AA2E50AA2E60AA2E70AA2E80AA2E90AA2EA0AA2EB0AA2EC0A
  A2ED0AA2EE0AA2EF0AA2F00AA2F10AA2F20AA2F30AA2F40AA2F50AA2F60AA2F70AA2F80AA2F90AA2FA0AA2FB0AA2FC0A
  A2FD0AA2FE0A"

/-- tests/test_data/whatwg/big5_whatwg_test_decode_in.txt, part 35 -/
noncomputable def decodeIn34 : List Nat := hex! "A3400AA3410AA3420AA3430AA3440AA3450AA3460AA3470AA3480AA3490AA34A0AA34B0AA34C0AA34D0AA34E0AA34F0A
  A3500AA3510AA3520AA3530AA3540AA3550AA3560AA3570AA3580AA3590AA35A0AA35B0AA35C0AA35D0AA35E0AA35F0A
  A3600AA3610AA3620AA3630AA3640AA3650AA3660AA3670AA3680AA3690AA36A0AA36B0AA36C0AA36D0AA36E0AA36F0A
  A3700AA3710AA3720AA3730AA3740AA3750AA3760AA3770AA3780AA3790AA37A0AA37B0AA37C0AA37D0AA37E0AA3A10A
  A3A20AA3A30AA3A40AA3A50AA3A60AA3A70AA3A80AA3A90AA3AA0AA3AB0AA3AC0AA3AD0AA3AE0AA3AF0AA3B00AA3B10A
  A3B20AA3B30AA3B40AA3B50AA3B60AA3B70AA3B80AA3B90AA3BA0AA3BB0AA3BC0AA3BD0AA3BE0AA3BF0AA3C00AA3C10A
  A3C20AA3C30AA3C40AA3C50AA3C60AA3C70AA3C80AA3C90AA3CA0AA3CB0AA3CC0AA3CD0AA3CE0AA3CF0AA3D00AA3D10A
  A3D20AA3D30AA3D40AA3D50AA3D60AA3D70AA3D80AA3D90AA3DA0AA3DB0AA3DC0AA3DD0AA3DE0AA3DF0AA3E00AA3E10A"

/-- tests/test_data/whatwg/big5_whatwg_test_decode_out.txt, part 35 -/
noncomputable def decodeOut34 : List Nat := hex! "EFBD970AEFBD980AEFBD990AEFBD9A0ACE910ACE920ACE930ACE940ACE950ACE960ACE970ACE980ACE990ACE9A0ACE9B
  0ACE9C0ACE9D0ACE9E0ACE9F0ACEA00ACEA10ACEA30ACEA40ACEA50ACEA60ACEA70ACEA80ACEA90ACEB10ACEB20ACEB3
  0ACEB40ACEB50ACEB60ACEB70ACEB80ACEB90ACEBA0ACEBB0ACEBC0ACEBD0ACEBE0ACEBF0ACF800ACF810ACF830ACF84
  0ACF850ACF860ACF870ACF880ACF890AE384850AE384860AE384870AE384880AE384890AE3848A0AE3848B0AE3848C0A
  E3848D0AE3848E0AE3848F0AE384900AE384910AE384920AE384930AE384940AE384950AE384960AE384970AE384980A
  E384990AE3849A0AE3849B0AE3849C0AE3849D0AE3849E0AE3849F0AE384A00AE384A10AE384A20AE384A30AE384A40A
  E384A50AE384A60AE384A70AE384A80AE384A90ACB990ACB890ACB8A0ACB870ACB8B0AE290800AE290810AE290820AE2
  90830AE290840AE290850AE290860AE290870AE290880AE290890AE2908A0AE2908B0AE2908C0AE2908D0AE2908E0AE2
  908F0AE290900AE290910AE290920AE290930AE290940AE290950AE290960AE290970AE290980AE290990AE2909A0AE2
  909B0AE2909C0AE2909D0AE2909E0AE2909F0AE290A10AE282AC0A"

/-- tests/test_data/whatwg/big5_whatwg_test_encode_in.txt, part 35 -/
noncomputable def encodeIn34 : List Nat := hex! "EFBD970AEFBD980AEFBD990AEFBD9A0ACE910ACE920ACE930ACE940ACE950ACE960ACE970ACE980ACE990ACE9A0ACE9B
  0ACE9C0ACE9D0ACE9E0ACE9F0ACEA00ACEA10ACEA30ACEA40ACEA50ACEA60ACEA70ACEA80ACEA90ACEB10ACEB20ACEB3
  0ACEB40ACEB50ACEB60ACEB70ACEB80ACEB90ACEBA0ACEBB0ACEBC0ACEBD0ACEBE0ACEBF0ACF800ACF810ACF830ACF84
  0ACF850ACF860ACF870ACF880ACF890AE384850AE384860AE384870AE384880AE384890AE3848A0AE3848B0AE3848C0A
  E3848D0AE3848E0AE3848F0AE384900AE384910AE384920AE384930AE384940AE384950AE384960AE384970AE384980A
  E384990AE3849A0AE3849B0AE3849C0AE3849D0AE3849E0AE3849F0AE384A00AE384A10AE384A20AE384A30AE384A40A
  E384A50AE384A60AE384A70AE384A80AE384A90ACB990ACB890ACB8A0ACB870ACB8B0AE290800AE290810AE290820AE2
  90830AE290840AE290850AE290860AE290870AE290880AE290890AE2908A0AE2908B0AE2908C0AE2908D0AE2908E0AE2
  908F0AE290900AE290910AE290920AE290930AE290940AE290950AE290960AE290970AE290980AE290990AE2909A0AE2
  909B0AE2909C0AE2909D0AE2909E0AE2909F0AE290A10AE282AC0A"

/-- tests/test_data/whatwg/big5_whatwg_test_encode_out.txt, part 35 -/
noncomputable def encodeOut34 : List Nat := hex! "A3400AA3410AA3420AA3430AA3440AA3450AA3460AA3470AA3480AA3490AA34A0AA34B0AA34C0AA34D0AA34E0AA34F0A
  A3500AA3510AA3520AA3530AA3540AA3550AA3560AA3570AA3580AA3590AA35A0AA35B0AA35C0AA35D0AA35E0AA35F0A
  A3600AA3610AA3620AA3630AA3640AA3650AA3660AA3670AA3680AA3690AA36A0AA36B0AA36C0AA36D0AA36E0AA36F0A
  A3700AA3710AA3720AA3730AA3740AA3750AA3760AA3770AA3780AA3790AA37A0AA37B0AA37C0AA37D0AA37E0AA3A10A
  A3A20AA3A30AA3A40AA3A50AA3A60AA3A70AA3A80AA3A90AA3AA0AA3AB0AA3AC0AA3AD0AA3AE0AA3AF0AA3B00AA3B10A
  A3B20AA3B30AA3B40AA3B50AA3B60AA3B70AA3B80AA3B90AA3BA0AA3BB0AA3BC0AA3BD0AA3BE0AA3BF0AA3C00AA3C10A
  A3C20AA3C30AA3C40AA3C50AA3C60AA3C70AA3C80AA3C90AA3CA0AA3CB0AA3CC0AA3CD0AA3CE0AA3CF0AA3D00AA3D10A
  A3D20AA3D30AA3D40AA3D50AA3D60AA3D70AA3D80AA3D90AA3DA0AA3DB0AA3DC0AA3DD0AA3DE0AA3DF0AA3E00AA3E10A"

/-- tests/test_data/whatwg/big5_whatwg_test_decode_in.txt, part 36 -/
noncomputable def decodeIn35 : List Nat := hex! "A4400AA4410AA4420AA4430AA4440AA4450AA4460AA4470AA4480AA4490AA44A0AA44B0AA44C0AA44D0AA44E0AA44F0A
  A4500AA4510AA4520AA4530AA4540AA4550AA4560AA4570AA4580AA4590AA45A0AA45B0AA45C0AA45D0AA45E0AA45F0A
  A4600AA4610AA4620AA4630AA4640AA4650AA4660AA4670AA4680AA4690AA46A0AA46B0AA46C0AA46D0AA46E0AA46F0A
  A4700AA4710AA4720AA4730AA4740AA4750AA4760AA4770AA4780AA4790AA47A0AA47B0AA47C0AA47D0AA47E0AA4A10A
  A4A20AA4A30AA4A40AA4A50AA4A60AA4A70AA4A80AA4A90AA4AA0AA4AB0AA4AC0AA4AD0AA4AE0AA4AF0AA4B00AA4B10A
  A4B20AA4B30AA4B40AA4B50AA4B60AA4B70AA4B80AA4B90AA4BA0AA4BB0AA4BC0AA4BD0AA4BE0AA4BF0AA4C00AA4C10A
  A4C20AA4C30AA4C40AA4C50AA4C60AA4C70AA4C80AA4C90AA4CA0AA4CB0AA4CC0AA4CD0AA4CE0AA4CF0AA4D00AA4D10A
  A4D20AA4D30AA4D40AA4D50AA4D60AA4D70AA4D80AA4D90AA4DA0AA4DB0AA4DC0AA4DD0AA4DE0AA4DF0AA4E00AA4E10A
  A4E20AA4E30AA4E40AA4E50AA4E60AA4E70AA4E80AA4E90AA4EA0AA4EB0AA4EC0AA4ED0AA4EE0AA4EF0AA4F00AA4F10A
  A4F20AA4F30AA4F40AA4F50AA4F60AA4F70AA4F80AA4F90AA4FA0AA4FB0AA4FC0AA4FD0AA4FE0A"

/-- tests/test_data/whatwg/big5_whatwg_test_decode_out.txt, part 36 -/
noncomputable def decodeOut35 : List Nat := hex! "E4B8800AE4B9990AE4B8810AE4B8830AE4B9830AE4B99D0AE4BA860AE4BA8C0AE4BABA0AE584BF0AE585A50AE585AB0A
  E587A00AE588800AE588810AE58A9B0AE58C950AE58D810AE58D9C0AE58F880AE4B8890AE4B88B0AE4B8880AE4B88A0A
  E4B8AB0AE4B8B80AE587A10AE4B9850AE4B9880AE4B99F0AE4B99E0AE4BA8E0AE4BAA10AE585800AE588830AE58BBA0A
  E58D830AE58F890AE58FA30AE59C9F0AE5A3AB0AE5A4950AE5A4A70AE5A5B30AE5AD900AE5AD910AE5AD930AE5AFB80A
  E5B08F0AE5B0A20AE5B0B80AE5B1B10AE5B79D0AE5B7A50AE5B7B10AE5B7B20AE5B7B30AE5B7BE0AE5B9B20AE5BBBE0A
  E5BC8B0AE5BC930AE6898D0AE4B8910AE4B8900AE4B88D0AE4B8AD0AE4B8B00AE4B8B90AE4B98B0AE5B0B90AE4BA880A
  E4BA910AE4BA950AE4BA920AE4BA940AE4BAA20AE4BB810AE4BB800AE4BB830AE4BB860AE4BB870AE4BB8D0AE4BB8A0A
  E4BB8B0AE4BB840AE585830AE585810AE585A70AE585AD0AE585AE0AE585AC0AE586970AE587B60AE588860AE588870A
  E588880AE58BBB0AE58BBE0AE58BBF0AE58C960AE58CB90AE58D880AE58D870AE58D850AE58D9E0AE58E840AE58F8B0A
  E58F8A0AE58F8D0AE5A3AC0AE5A4A90AE5A4AB0AE5A4AA0AE5A4AD0AE5AD940AE5B0910AE5B0A40AE5B0BA0AE5B1AF0A
  E5B7B40AE5B9BB0AE5BBBF0AE5BC940AE5BC950AE5BF830AE688880AE688B60AE6898B0AE6898E0AE694AF0AE696870A
  E696970AE696A40AE696B90AE697A50AE69BB00AE69C880AE69CA80AE6ACA00AE6ADA20AE6ADB90AE6AF8B0AE6AF940A
  E6AF9B0AE6B08F0AE6B0B40AE781AB0AE788AA0AE788B60AE788BB0AE789870AE789990AE7899B0AE78AAC0AE78E8B0A
  E4B8990A"

/-- tests/test_data/whatwg/big5_whatwg_test_encode_in.txt, part 36 -/
noncomputable def encodeIn35 : List Nat := hex! "E4B8800AE4B9990AE4B8810AE4B8830AE4B9830AE4B99D0AE4BA860AE4BA8C0AE4BABA0AE584BF0AE585A50AE585AB0A
  E587A00AE588800AE588810AE58A9B0AE58C950AE58D810AE58D9C0AE58F880AE4B8890AE4B88B0AE4B8880AE4B88A0A
  E4B8AB0AE4B8B80AE587A10AE4B9850AE4B9880AE4B99F0AE4B99E0AE4BA8E0AE4BAA10AE585800AE588830AE58BBA0A
  E58D830AE58F890AE58FA30AE59C9F0AE5A3AB0AE5A4950AE5A4A70AE5A5B30AE5AD900AE5AD910AE5AD930AE5AFB80A
  E5B08F0AE5B0A20AE5B0B80AE5B1B10AE5B79D0AE5B7A50AE5B7B10AE5B7B20AE5B7B30AE5B7BE0AE5B9B20AE5BBBE0A
  E5BC8B0AE5BC930AE6898D0AE4B8910AE4B8900AE4B88D0AE4B8AD0AE4B8B00AE4B8B90AE4B98B0AE5B0B90AE4BA880A
  E4BA910AE4BA950AE4BA920AE4BA940AE4BAA20AE4BB810AE4BB800AE4BB830AE4BB860AE4BB870AE4BB8D0AE4BB8A0A
  E4BB8B0AE4BB840AE585830AE585810AE585A70AE585AD0AE585AE0AE585AC0AE586970AE587B60AE588860AE588870A
  E588880AE58BBB0AE58BBE0AE58BBF0AE58C960AE58CB90AE58D880AE58D870AE58D850AE58D9E0AE58E840AE58F8B0A
  E58F8A0AE58F8D0AE5A3AC0AE5A4A90AE5A4AB0AE5A4AA0AE5A4AD0AE5AD940AE5B0910AE5B0A40AE5B0BA0AE5B1AF0A
  E5B7B40AE5B9BB0AE5BBBF0AE5BC940AE5BC950AE5BF830AE688880AE688B60AE6898B0AE6898E0AE694AF0AE696870A
  E696970AE696A40AE696B90AE697A50AE69BB00AE69C880AE69CA80AE6ACA00AE6ADA20AE6ADB90AE6AF8B0AE6AF940A
  E6AF9B0AE6B08F0AE6B0B40AE781AB0AE788AA0AE788B60AE788BB0AE789870AE789990AE7899B0AE78AAC0AE78E8B0A
  E4B8990A"

/-- tests/test_data/whatwg/big5_whatwg_test_encode_out.txt, part 36 -/
noncomputable def encodeOut35 : List Nat := hex! "A4400AA4410AA4420AA4430AA4440AA4450AA4460AA4470AA4480AA4490AA44A0AA44B0AA44C0AA44D0AA44E0AA44F0A
  A4500AA4510AA4520AA4530AA4540AA4550AA4560AA4570AA4580AA4590AA45A0AA45B0AA45C0AA45D0AA45E0AA45F0A
  A4600AA4610AA4620AA4630AA4640AA4650AA4660AA4670AA4680AA4690AA46A0AA46B0AA46C0AA46D0AA46E0AA46F0A
  A4700AA4710AA4720AA4730AA4740AA4750AA4760AA4770AA4780AA4790AA47A0AA47B0AA47C0AA47D0AA47E0AA4A10A
  A4A20AA4A30AA4A40AA4A50AA4A60AA4A70AA4A80AA4A90AA4AA0AA4AB0AA4AC0AA4AD0AA4AE0AA4AF0AA4B00AA4B10A
  A4B20AA4B30AA4B40AA4B50AA4B60AA4B70AA4B80AA4B90AA4BA0AA4BB0AA4BC0AA4BD0AA4BE0AA4BF0AA4C00AA4C10A
  A4C20AA4C30AA4C40AA4C50AA4C60AA4C70AA4C80AA4C90AA4CA0AA4CB0AA4CC0AA4CD0AA4CE0AA4CF0AA4D00AA4D10A
  A4D20AA4D30AA4D40AA4D50AA4D60AA4D70AA4D80AA4D90AA4DA0AA4DB0AA4DC0AA4DD0AA4DE0AA4DF0AA4E00AA4E10A
  A4E20AA4E30AA4E40AA4E50AA4E60AA4E70AA4E80AA4E90AA4EA0AA4EB0AA4EC0AA4ED0AA4EE0AA4EF0AA4F00AA4F10A
  A4F20AA4F30AA4F40AA4F50AA4F60AA4F70AA4F80AA4F90AA4FA0AA4FB0AA4FC0AA4FD0AA4FE0A"

/-- tests/test_data/whatwg/big5_whatwg_test_decode_in.txt, part 37 -/
noncomputable def decodeIn36 : List Nat := hex! "A5400AA5410AA5420AA5430AA5440AA5450AA5460AA5470AA5480AA5490AA54A0AA54B0AA54C0AA54D0AA54E0AA54F0A
  A5500AA5510AA5520AA5530AA5540AA5550AA5560AA5570AA5580AA5590AA55A0AA55B0AA55C0AA55D0AA55E0AA55F0A
  A5600AA5610AA5620AA5630AA5640AA5650AA5660AA5670AA5680AA5690AA56A0AA56B0AA56C0AA56D0AA56E0AA56F0A
  A5700AA5710AA5720AA5730AA5740AA5750AA5760AA5770AA5780AA5790AA57A0AA57B0AA57C0AA57D0AA57E0AA5A10A
  A5A20AA5A30AA5A40AA5A50AA5A60AA5A70AA5A80AA5A90AA5AA0AA5AB0AA5AC0AA5AD0AA5AE0AA5AF0AA5B00AA5B10A
  A5B20AA5B30AA5B40AA5B50AA5B60AA5B70AA5B80AA5B90AA5BA0AA5BB0AA5BC0AA5BD0AA5BE0AA5BF0AA5C00AA5C10A
  A5C20AA5C30AA5C40AA5C50AA5C60AA5C70AA5C80AA5C90AA5CA0AA5CB0AA5CC0AA5CD0AA5CE0AA5CF0AA5D00AA5D10A
  A5D20AA5D30AA5D40AA5D50AA5D60AA5D70AA5D80AA5D90AA5DA0AA5DB0AA5DC0AA5DD0AA5DE0AA5DF0AA5E00AA5E10A
  A5E20AA5E30AA5E40AA5E50AA5E60AA5E70AA5E80AA5E90AA5EA0AA5EB0AA5EC0AA5ED0AA5EE0AA5EF0AA5F00AA5F10A
  A5F20AA5F30AA5F40AA5F50AA5F60AA5F70AA5F80AA5F90AA5FA0AA5FB0AA5FC0AA5FD0AA5FE0A"

/-- tests/test_data/whatwg/big5_whatwg_test_decode_out.txt, part 37 -/
noncomputable def decodeOut36 : List Nat := hex! "E4B8960AE4B8950AE4B8940AE4B8980AE4B8BB0AE4B98D0AE4B98F0AE4B98E0AE4BBA50AE4BB980AE4BB940AE4BB950A
  E4BB960AE4BB970AE4BBA30AE4BBA40AE4BB990AE4BB9E0AE585850AE585840AE586890AE5868A0AE586AC0AE587B90A
  E587BA0AE587B80AE5888A0AE58AA00AE58A9F0AE58C850AE58C860AE58C970AE58C9D0AE4BB9F0AE58D8A0AE58D890A
  E58DA10AE58DA00AE58DAF0AE58DAE0AE58EBB0AE58FAF0AE58FA40AE58FB30AE58FAC0AE58FAE0AE58FA90AE58FA80A
  E58FBC0AE58FB80AE58FB50AE58FAB0AE58FA60AE58FAA0AE58FB20AE58FB10AE58FB00AE58FA50AE58FAD0AE58FBB0A
  E59B9B0AE59B9A0AE5A4960AE5A4AE0AE5A4B10AE5A5B40AE5A5B60AE5AD950AE5AE830AE5B0BC0AE5B7A80AE5B7A70A
  E5B7A60AE5B8820AE5B8830AE5B9B30AE5B9BC0AE5BC810AE5BC980AE5BC970AE5BF850AE6888A0AE689930AE689940A
  E689920AE689910AE696A50AE697A60AE69CAE0AE69CAC0AE69CAA0AE69CAB0AE69CAD0AE6ADA30AE6AF8D0AE6B0910A
  E6B0900AE6B0B80AE6B1810AE6B1800AE6B0BE0AE78AAF0AE78E840AE78E890AE7939C0AE793A60AE794980AE7949F0A
  E794A80AE794A90AE794B00AE794B10AE794B20AE794B30AE7968B0AE799BD0AE79AAE0AE79ABF0AE79BAE0AE79F9B0A
  E79FA20AE79FB30AE7A4BA0AE7A6BE0AE7A9B40AE7AB8B0AE4B89E0AE4B89F0AE4B9920AE4B9930AE4B9A90AE4BA990A
  E4BAA40AE4BAA60AE4BAA50AE4BBBF0AE4BC890AE4BC990AE4BC8A0AE4BC950AE4BC8D0AE4BC900AE4BC910AE4BC8F0A
  E4BBB20AE4BBB60AE4BBBB0AE4BBB00AE4BBB30AE4BBBD0AE4BC810AE4BC8B0AE585890AE585870AE585860AE585880A
  E585A80A"

/-- tests/test_data/whatwg/big5_whatwg_test_encode_in.txt, part 37 -/
noncomputable def encodeIn36 : List Nat := hex! "E4B8960AE4B8950AE4B8940AE4B8980AE4B8BB0AE4B98D0AE4B98F0AE4B98E0AE4BBA50AE4BB980AE4BB940AE4BB950A
  E4BB960AE4BB970AE4BBA30AE4BBA40AE4BB990AE4BB9E0AE585850AE585840AE586890AE5868A0AE586AC0AE587B90A
  E587BA0AE587B80AE5888A0AE58AA00AE58A9F0AE58C850AE58C860AE58C970AE58C9D0AE4BB9F0AE58D8A0AE58D890A
  E58DA10AE58DA00AE58DAF0AE58DAE0AE58EBB0AE58FAF0AE58FA40AE58FB30AE58FAC0AE58FAE0AE58FA90AE58FA80A
  E58FBC0AE58FB80AE58FB50AE58FAB0AE58FA60AE58FAA0AE58FB20AE58FB10AE58FB00AE58FA50AE58FAD0AE58FBB0A
  E59B9B0AE59B9A0AE5A4960AE5A4AE0AE5A4B10AE5A5B40AE5A5B60AE5AD950AE5AE830AE5B0BC0AE5B7A80AE5B7A70A
  E5B7A60AE5B8820AE5B8830AE5B9B30AE5B9BC0AE5BC810AE5BC980AE5BC970AE5BF850AE6888A0AE689930AE689940A
  E689920AE689910AE696A50AE697A60AE69CAE0AE69CAC0AE69CAA0AE69CAB0AE69CAD0AE6ADA30AE6AF8D0AE6B0910A
  E6B0900AE6B0B80AE6B1810AE6B1800AE6B0BE0AE78AAF0AE78E840AE78E890AE7939C0AE793A60AE794980AE7949F0A
  E794A80AE794A90AE794B00AE794B10AE794B20AE794B30AE7968B0AE799BD0AE79AAE0AE79ABF0AE79BAE0AE79F9B0A
  E79FA20AE79FB30AE7A4BA0AE7A6BE0AE7A9B40AE7AB8B0AE4B89E0AE4B89F0AE4B9920AE4B9930AE4B9A90AE4BA990A
  E4BAA40AE4BAA60AE4BAA50AE4BBBF0AE4BC890AE4BC990AE4BC8A0AE4BC950AE4BC8D0AE4BC900AE4BC910AE4BC8F0A
  E4BBB20AE4BBB60AE4BBBB0AE4BBB00AE4BBB30AE4BBBD0AE4BC810AE4BC8B0AE585890AE585870AE585860AE585880A
  E585A80A"

/-- tests/test_data/whatwg/big5_whatwg_test_encode_out.txt, part 37 -/
noncomputable def encodeOut36 : List Nat := hex! "A5400AA5410AA5420AA5430AA5440AA5450AA5460AA5470AA5480AA5490AA54A0AA54B0AA54C0AA54D0AA54E0AA54F0A
  A5500AA5510AA5520AA5530AA5540AA5550AA5560AA5570AA5580AA5590AA55A0AA55B0AA55C0AA55D0AA55E0AA55F0A
  A5600AA5610AA5620AA5630AA5640AA5650AA5660AA5670AA5680AA5690AA56A0AA56B0AA56C0AA56D0AA56E0AA56F0A
  A5700AA5710AA5720AA5730AA5740AA5750AA5760AA5770AA5780AA5790AA57A0AA57B0AA57C0AA57D0AA57E0AA5A10A
  A5A20AA5A30AA5A40AA5A50AA5A60AA5A70AA5A80AA5A90AA5AA0AA5AB0AA5AC0AA5AD0AA5AE0AA5AF0AA5B00AA5B10A
  A5B20AA5B30AA5B40AA5B50AA5B60AA5B70AA5B80AA5B90AA5BA0AA5BB0AA5BC0AA5BD0AA5BE0AA5BF0AA5C00AA5C10A
  A5C20AA5C30AA5C40AA5C50AA5C60AA5C70AA5C80AA5C90AA5CA0AA5CB0AA5CC0AA5CD0AA5CE0AA5CF0AA5D00AA5D10A
  A5D20AA5D30AA5D40AA5D50AA5D60AA5D70AA5D80AA5D90AA5DA0AA5DB0AA5DC0AA5DD0AA5DE0AA5DF0AA5E00AA5E10A
  A5E20AA5E30AA5E40AA5E50AA5E60AA5E70AA5E80AA5E90AA5EA0AA5EB0AA5EC0AA5ED0AA5EE0AA5EF0AA5F00AA5F10A
  A5F20AA5F30AA5F40AA5F50AA5F60AA5F70AA5F80AA5F90AA5FA0AA5FB0AA5FC0AA5FD0AA5FE0A"

/-- tests/test_data/whatwg/big5_whatwg_test_decode_in.txt, part 38 -/
noncomputable def decodeIn37 : List Nat := hex! "A6400AA6410AA6420AA6430AA6440AA6450AA6460AA6470AA6480AA6490AA64A0AA64B0AA64C0AA64D0AA64E0AA64F0A
  A6500AA6510AA6520AA6530AA6540AA6550AA6560AA6570AA6580AA6590AA65A0AA65B0AA65C0AA65D0AA65E0AA65F0A
  A6600AA6610AA6620AA6630AA6640AA6650AA6660AA6670AA6680AA6690AA66A0AA66B0AA66C0AA66D0AA66E0AA66F0A
  A6700AA6710AA6720AA6730AA6740AA6750AA6760AA6770AA6780AA6790AA67A0AA67B0AA67C0AA67D0AA67E0AA6A10A
  A6A20AA6A30AA6A40AA6A50AA6A60AA6A70AA6A80AA6A90AA6AA0AA6AB0AA6AC0AA6AD0AA6AE0AA6AF0AA6B00AA6B10A
  A6B20AA6B30AA6B40AA6B50AA6B60AA6B70AA6B80AA6B90AA6BA0AA6BB0AA6BC0AA6BD0AA6BE0AA6BF0AA6C00AA6C10A
  A6C20AA6C30AA6C40AA6C50AA6C60AA6C70AA6C80AA6C90AA6CA0AA6CB0AA6CC0AA6CD0AA6CE0AA6CF0AA6D00AA6D10A
  A6D20AA6D30AA6D40AA6D50AA6D60AA6D70AA6D80AA6D90AA6DA0AA6DB0AA6DC0AA6DD0AA6DE0AA6DF0AA6E00AA6E10A
  A6E20AA6E30AA6E40AA6E50AA6E60AA6E70AA6E80AA6E90AA6EA0AA6EB0AA6EC0AA6ED0AA6EE0AA6EF0AA6F00AA6F10A
  A6F20AA6F30AA6F40AA6F50AA6F60AA6F70AA6F80AA6F90AA6FA0AA6FB0AA6FC0AA6FD0AA6FE0A"

/-- tests/test_data/whatwg/big5_whatwg_test_decode_out.txt, part 38 -/
noncomputable def decodeOut37 : List Nat := hex! "E585B10AE5868D0AE586B00AE588970AE588910AE588920AE5888E0AE588960AE58AA30AE58C880AE58CA10AE58CA00A
  E58DB00AE58DB10AE590890AE5908F0AE5908C0AE5908A0AE590900AE590810AE5908B0AE590840AE590910AE5908D0A
  E590880AE590830AE5908E0AE590860AE590920AE59BA00AE59B9E0AE59B9D0AE59CB30AE59CB00AE59CA80AE59CAD0A
  E59CAC0AE59CAF0AE59CA90AE5A4990AE5A49A0AE5A4B70AE5A4B80AE5A6840AE5A5B80AE5A6830AE5A5BD0AE5A5B90A
  E5A6820AE5A6810AE5AD970AE5AD980AE5AE870AE5AE880AE5AE850AE5AE890AE5AFBA0AE5B0960AE5B1B90AE5B79E0A
  E5B8860AE5B9B60AE5B9B40AE5BC8F0AE5BC9B0AE5BF990AE5BF960AE6888E0AE6888C0AE6888D0AE688900AE689A30A
  E6899B0AE689980AE694B60AE697A90AE697A80AE697AC0AE697AD0AE69BB20AE69BB30AE69C890AE69CBD0AE69CB40A
  E69CB10AE69CB50AE6ACA10AE6ADA40AE6ADBB0AE6B0960AE6B19D0AE6B1970AE6B1990AE6B19F0AE6B1A00AE6B1900A
  E6B1950AE6B1A10AE6B19B0AE6B18D0AE6B18E0AE781B00AE7899F0AE7899D0AE799BE0AE7ABB90AE7B1B30AE7B3B80A
  E7BCB60AE7BE8A0AE7BEBD0AE880810AE880830AE8808C0AE880920AE880B30AE881BF0AE882890AE8828B0AE8828C0A
  E887A30AE887AA0AE887B30AE887BC0AE8888C0AE8889B0AE8889F0AE889AE0AE889B20AE889BE0AE899AB0AE8A1800A
  E8A18C0AE8A1A30AE8A5BF0AE998A10AE4B8B20AE4BAA80AE4BD8D0AE4BD8F0AE4BD870AE4BD970AE4BD9E0AE4BCB40A
  E4BD9B0AE4BD950AE4BCB00AE4BD900AE4BD910AE4BCBD0AE4BCBA0AE4BCB80AE4BD830AE4BD940AE4BCBC0AE4BD860A
  E4BDA30A"

/-- tests/test_data/whatwg/big5_whatwg_test_encode_in.txt, part 38 -/
noncomputable def encodeIn37 : List Nat := hex! "E585B10AE5868D0AE586B00AE588970AE588910AE588920AE5888E0AE588960AE58AA30AE58C880AE58CA10AE58CA00A
  E58DB00AE58DB10AE590890AE5908F0AE5908C0AE5908A0AE590900AE590810AE5908B0AE590840AE590910AE5908D0A
  E590880AE590830AE5908E0AE590860AE590920AE59BA00AE59B9E0AE59B9D0AE59CB30AE59CB00AE59CA80AE59CAD0A
  E59CAC0AE59CAF0AE59CA90AE5A4990AE5A49A0AE5A4B70AE5A4B80AE5A6840AE5A5B80AE5A6830AE5A5BD0AE5A5B90A
  E5A6820AE5A6810AE5AD970AE5AD980AE5AE870AE5AE880AE5AE850AE5AE890AE5AFBA0AE5B0960AE5B1B90AE5B79E0A
  E5B8860AE5B9B60AE5B9B40AE5BC8F0AE5BC9B0AE5BF990AE5BF960AE6888E0AE6888C0AE6888D0AE688900AE689A30A
  E6899B0AE689980AE694B60AE697A90AE697A80AE697AC0AE697AD0AE69BB20AE69BB30AE69C890AE69CBD0AE69CB40A
  E69CB10AE69CB50AE6ACA10AE6ADA40AE6ADBB0AE6B0960AE6B19D0AE6B1970AE6B1990AE6B19F0AE6B1A00AE6B1900A
  E6B1950AE6B1A10AE6B19B0AE6B18D0AE6B18E0AE781B00AE7899F0AE7899D0AE799BE0AE7ABB90AE7B1B30AE7B3B80A
  E7BCB60AE7BE8A0AE7BEBD0AE880810AE880830AE8808C0AE880920AE880B30AE881BF0AE882890AE8828B0AE8828C0A
  E887A30AE887AA0AE887B30AE887BC0AE8888C0AE8889B0AE8889F0AE889AE0AE889B20AE889BE0AE899AB0AE8A1800A
  E8A18C0AE8A1A30AE8A5BF0AE998A10AE4B8B20AE4BAA80AE4BD8D0AE4BD8F0AE4BD870AE4BD970AE4BD9E0AE4BCB40A
  E4BD9B0AE4BD950AE4BCB00AE4BD900AE4BD910AE4BCBD0AE4BCBA0AE4BCB80AE4BD830AE4BD940AE4BCBC0AE4BD860A
  E4BDA30A"

/-- tests/test_data/whatwg/big5_whatwg_test_encode_out.txt, part 38 -/
noncomputable def encodeOut37 : List Nat := hex! "A6400AA6410AA6420AA6430AA6440AA6450AA6460AA6470AA6480AA6490AA64A0AA64B0AA64C0AA64D0AA64E0AA64F0A
  A6500AA6510AA6520AA6530AA6540AA6550AA6560AA6570AA6580AA6590AA65A0AA65B0AA65C0AA65D0AA65E0AA65F0A
  A6600AA6610AA6620AA6630AA6640AA6650AA6660AA6670AA6680AA6690AA66A0AA66B0AA66C0AA66D0AA66E0AA66F0A
  A6700AA6710AA6720AA6730AA6740AA6750AA6760AA6770AA6780AA6790AA67A0AA67B0AA67C0AA67D0AA67E0AA6A10A
  A6A20AA6A30AA6A40AA6A50AA6A60AA6A70AA6A80AA6A90AA6AA0AA6AB0AA6AC0AA6AD0AA6AE0AA6AF0AA6B00AA6B10A
  A6B20AA6B30AA6B40AA6B50AA6B60AA6B70AA6B80AA6B90AA6BA0AA6BB0AA6BC0AA6BD0AA6BE0AA6BF0AA6C00AA6C10A
  A6C20AA6C30AA6C40AA6C50AA6C60AA6C70AA6C80AA6C90AA6CA0AA6CB0AA6CC0AA6CD0AA6CE0AA6CF0AA6D00AA6D10A
  A6D20AA6D30AA6D40AA6D50AA6D60AA6D70AA6D80AA6D90AA6DA0AA6DB0AA6DC0AA6DD0AA6DE0AA6DF0AA6E00AA6E10A
  A6E20AA6E30AA6E40AA6E50AA6E60AA6E70AA6E80AA6E90AA6EA0AA6EB0AA6EC0AA6ED0AA6EE0AA6EF0AA6F00AA6F10A
  A6F20AA6F30AA6F40AA6F50AA6F60AA6F70AA6F80AA6F90AA6FA0AA6FB0AA6FC0AA6FD0AA6FE0A"

/-- tests/test_data/whatwg/big5_whatwg_test_decode_in.txt, part 39 -/
noncomputable def decodeIn38 : List Nat := hex! "A7400AA7410AA7420AA7430AA7440AA7450AA7460AA7470AA7480AA7490AA74A0AA74B0AA74C0AA74D0AA74E0AA74F0A
  A7500AA7510AA7520AA7530AA7540AA7550AA7560AA7570AA7580AA7590AA75A0AA75B0AA75C0AA75D0AA75E0AA75F0A
  A7600AA7610AA7620AA7630AA7640AA7650AA7660AA7670AA7680AA7690AA76A0AA76B0AA76C0AA76D0AA76E0AA76F0A
  A7700AA7710AA7720AA7730AA7740AA7750AA7760AA7770AA7780AA7790AA77A0AA77B0AA77C0AA77D0AA77E0AA7A10A
  A7A20AA7A30AA7A40AA7A50AA7A60AA7A70AA7A80AA7A90AA7AA0AA7AB0AA7AC0AA7AD0AA7AE0AA7AF0AA7B00AA7B10A
  A7B20AA7B30AA7B40AA7B50AA7B60AA7B70AA7B80AA7B90AA7BA0AA7BB0AA7BC0AA7BD0AA7BE0AA7BF0AA7C00AA7C10A
  A7C20AA7C30AA7C40AA7C50AA7C60AA7C70AA7C80AA7C90AA7CA0AA7CB0AA7CC0AA7CD0AA7CE0AA7CF0AA7D00AA7D10A
  A7D20AA7D30AA7D40AA7D50AA7D60AA7D70AA7D80AA7D90AA7DA0AA7DB0AA7DC0AA7DD0AA7DE0AA7DF0AA7E00AA7E10A
  A7E20AA7E30AA7E40AA7E50AA7E60AA7E70AA7E80AA7E90AA7EA0AA7EB0AA7EC0AA7ED0AA7EE0AA7EF0AA7F00AA7F10A
  A7F20AA7F30AA7F40AA7F50AA7F60AA7F70AA7F80AA7F90AA7FA0AA7FB0AA7FC0AA7FD0AA7FE0A"

/-- tests/test_data/whatwg/big5_whatwg_test_decode_out.txt, part 39 -/
noncomputable def decodeOut38 : List Nat := hex! "E4BD9C0AE4BDA00AE4BCAF0AE4BD8E0AE4BCB60AE4BD990AE4BD9D0AE4BD880AE4BD9A0AE5858C0AE5858B0AE5858D0A
  E585B50AE586B60AE586B70AE588A50AE588A40AE588A90AE588AA0AE588A80AE58AAB0AE58AA90AE58AAA0AE58AAC0A
  E58CA30AE58DB30AE58DB50AE5909D0AE590AD0AE5909E0AE590BE0AE590A60AE5918E0AE590A70AE591860AE591830A
  E590B30AE591880AE591820AE5909B0AE590A90AE5918A0AE590B90AE590BB0AE590B80AE590AE0AE590B50AE590B60A
  E590A00AE590BC0AE591800AE590B10AE590AB0AE5909F0AE590AC0AE59BAA0AE59BB00AE59BA40AE59BAB0AE59D8A0A
  E59D910AE59D800AE59D8D0AE59D870AE59D8E0AE59CBE0AE59D900AE59D8F0AE59CBB0AE5A3AF0AE5A4BE0AE5A69D0A
  E5A6920AE5A6A80AE5A69E0AE5A6A30AE5A6990AE5A6960AE5A68D0AE5A6A40AE5A6930AE5A68A0AE5A6A50AE5AD9D0A
  E5AD9C0AE5AD9A0AE5AD9B0AE5AE8C0AE5AE8B0AE5AE8F0AE5B0AC0AE5B1800AE5B1810AE5B0BF0AE5B0BE0AE5B2900A
  E5B2910AE5B2940AE5B28C0AE5B7AB0AE5B88C0AE5BA8F0AE5BA870AE5BA8A0AE5BBB70AE5BC840AE5BC9F0AE5BDA40A
  E5BDA20AE5BDB70AE5BDB90AE5BF980AE5BF8C0AE5BF970AE5BF8D0AE5BFB10AE5BFAB0AE5BFB80AE5BFAA0AE688920A
  E688910AE68A840AE68A970AE68A960AE68A800AE689B60AE68A890AE689AD0AE68A8A0AE689BC0AE689BE0AE689B90A
  E689B30AE68A920AE689AF0AE68A980AE689AE0AE68A950AE68A930AE68A910AE68A860AE694B90AE694BB0AE694B80A
  E697B10AE69BB40AE69D9F0AE69D8E0AE69D8F0AE69D900AE69D910AE69D9C0AE69D960AE69D9E0AE69D890AE69D860A
  E69DA00A"

/-- tests/test_data/whatwg/big5_whatwg_test_encode_in.txt, part 39 -/
noncomputable def encodeIn38 : List Nat := hex! "E4BD9C0AE4BDA00AE4BCAF0AE4BD8E0AE4BCB60AE4BD990AE4BD9D0AE4BD880AE4BD9A0AE5858C0AE5858B0AE5858D0A
  E585B50AE586B60AE586B70AE588A50AE588A40AE588A90AE588AA0AE588A80AE58AAB0AE58AA90AE58AAA0AE58AAC0A
  E58CA30AE58DB30AE58DB50AE5909D0AE590AD0AE5909E0AE590BE0AE590A60AE5918E0AE590A70AE591860AE591830A
  E590B30AE591880AE591820AE5909B0AE590A90AE5918A0AE590B90AE590BB0AE590B80AE590AE0AE590B50AE590B60A
  E590A00AE590BC0AE591800AE590B10AE590AB0AE5909F0AE590AC0AE59BAA0AE59BB00AE59BA40AE59BAB0AE59D8A0A
  E59D910AE59D800AE59D8D0AE59D870AE59D8E0AE59CBE0AE59D900AE59D8F0AE59CBB0AE5A3AF0AE5A4BE0AE5A69D0A
  E5A6920AE5A6A80AE5A69E0AE5A6A30AE5A6990AE5A6960AE5A68D0AE5A6A40AE5A6930AE5A68A0AE5A6A50AE5AD9D0A
  E5AD9C0AE5AD9A0AE5AD9B0AE5AE8C0AE5AE8B0AE5AE8F0AE5B0AC0AE5B1800AE5B1810AE5B0BF0AE5B0BE0AE5B2900A
  E5B2910AE5B2940AE5B28C0AE5B7AB0AE5B88C0AE5BA8F0AE5BA870AE5BA8A0AE5BBB70AE5BC840AE5BC9F0AE5BDA40A
  E5BDA20AE5BDB70AE5BDB90AE5BF980AE5BF8C0AE5BF970AE5BF8D0AE5BFB10AE5BFAB0AE5BFB80AE5BFAA0AE688920A
  E688910AE68A840AE68A970AE68A960AE68A800AE689B60AE68A890AE689AD0AE68A8A0AE689BC0AE689BE0AE689B90A
  E689B30AE68A920AE689AF0AE68A980AE689AE0AE68A950AE68A930AE68A910AE68A860AE694B90AE694BB0AE694B80A
  E697B10AE69BB40AE69D9F0AE69D8E0AE69D8F0AE69D900AE69D910AE69D9C0AE69D960AE69D9E0AE69D890AE69D860A
  E69DA00A"

/-- tests/test_data/whatwg/big5_whatwg_test_encode_out.txt, part 39 -/
noncomputable def encodeOut38 : List Nat := hex! "A7400AA7410AA7420AA7430AA7440AA7450AA7460AA7470AA7480AA7490AA74A0AA74B0AA74C0AA74D0AA74E0AA74F0A
  A7500AA7510AA7520AA7530AA7540AA7550AA7560AA7570AA7580AA7590AA75A0AA75B0AA75C0AA75D0AA75E0AA75F0A
  A7600AA7610AA7620AA7630AA7640AA7650AA7660AA7670AA7680AA7690AA76A0AA76B0AA76C0AA76D0AA76E0AA76F0A
  A7700AA7710AA7720AA7730AA7740AA7750AA7760AA7770AA7780AA7790AA77A0AA77B0AA77C0AA77D0AA77E0AA7A10A
  A7A20AA7A30AA7A40AA7A50AA7A60AA7A70AA7A80AA7A90AA7AA0AA7AB0AA7AC0AA7AD0AA7AE0AA7AF0AA7B00AA7B10A
  A7B20AA7B30AA7B40AA7B50AA7B60AA7B70AA7B80AA7B90AA7BA0AA7BB0AA7BC0AA7BD0AA7BE0AA7BF0AA7C00AA7C10A
  A7C20AA7C30AA7C40AA7C50AA7C60AA7C70AA7C80AA7C90AA7CA0AA7CB0AA7CC0AA7CD0AA7CE0AA7CF0AA7D00AA7D10A
  A7D20AA7D30AA7D40AA7D50AA7D60AA7D70AA7D80AA7D90AA7DA0AA7DB0AA7DC0AA7DD0AA7DE0AA7DF0AA7E00AA7E10A
  A7E20AA7E30AA7E40AA7E50AA7E60AA7E70AA7E80AA7E90AA7EA0AA7EB0AA7EC0AA7ED0AA7EE0AA7EF0AA7F00AA7F10A
  A7F20AA7F30AA7F40AA7F50AA7F60AA7F70AA7F80AA7F90AA7FA0AA7FB0AA7FC0AA7FD0AA7FE0A"

/-- tests/test_data/whatwg/big5_whatwg_test_decode_in.txt, part 40 -/
noncomputable def decodeIn39 : List Nat := hex! "A8400AA8410AA8420AA8430AA8440AA8450AA8460AA8470AA8480AA8490AA84A0AA84B0AA84C0AA84D0AA84E0AA84F0A
  A8500AA8510AA8520AA8530AA8540AA8550AA8560AA8570AA8580AA8590AA85A0AA85B0AA85C0AA85D0AA85E0AA85F0A
  A8600AA8610AA8620AA8630AA8640AA8650AA8660AA8670AA8680AA8690AA86A0AA86B0AA86C0AA86D0AA86E0AA86F0A
  A8700AA8710AA8720AA8730AA8740AA8750AA8760AA8770AA8780AA8790AA87A0AA87B0AA87C0AA87D0AA87E0AA8A10A
  A8A20AA8A30AA8A40AA8A50AA8A60AA8A70AA8A80AA8A90AA8AA0AA8AB0AA8AC0AA8AD0AA8AE0AA8AF0AA8B00AA8B10A
  A8B20AA8B30AA8B40AA8B50AA8B60AA8B70AA8B80AA8B90AA8BA0AA8BB0AA8BC0AA8BD0AA8BE0AA8BF0AA8C00AA8C10A
  A8C20AA8C30AA8C40AA8C50AA8C60AA8C70AA8C80AA8C90AA8CA0AA8CB0AA8CC0AA8CD0AA8CE0AA8CF0AA8D00AA8D10A
  A8D20AA8D30AA8D40AA8D50AA8D60AA8D70AA8D80AA8D90AA8DA0AA8DB0AA8DC0AA8DD0AA8DE0AA8DF0AA8E00AA8E10A
  A8E20AA8E30AA8E40AA8E50AA8E60AA8E70AA8E80AA8E90AA8EA0AA8EB0AA8EC0AA8ED0AA8EE0AA8EF0AA8F00AA8F10A
  A8F20AA8F30AA8F40AA8F50AA8F60AA8F70AA8F80AA8F90AA8FA0AA8FB0AA8FC0AA8FD0AA8FE0A"

/-- tests/test_data/whatwg/big5_whatwg_test_decode_out.txt, part 40 -/
noncomputable def decodeOut39 : List Nat := hex! "E69D930AE69D970AE6ADA50AE6AF8F0AE6B1820AE6B19E0AE6B2990AE6B2810AE6B2880AE6B2890AE6B2850AE6B29B0A
  E6B1AA0AE6B1BA0AE6B2900AE6B1B00AE6B28C0AE6B1A80AE6B2960AE6B2920AE6B1BD0AE6B2830AE6B1B20AE6B1BE0A
  E6B1B40AE6B2860AE6B1B60AE6B28D0AE6B2940AE6B2980AE6B2820AE781B60AE781BC0AE781BD0AE781B80AE789A20A
  E789A10AE789A00AE78B840AE78B820AE78E960AE794AC0AE794AB0AE794B70AE794B80AE79A820AE79BAF0AE79FA30A
  E7A7810AE7A7800AE7A6BF0AE7A9B60AE7B3BB0AE7BD950AE882960AE882930AE8829D0AE882980AE8829B0AE8829A0A
  E882B20AE889AF0AE88A920AE88A8B0AE88A8D0AE8A68B0AE8A7920AE8A8800AE8B0B70AE8B1860AE8B1950AE8B29D0A
  E8B5A40AE8B5B00AE8B6B30AE8BAAB0AE8BB8A0AE8BE9B0AE8BEB00AE8BF820AE8BF860AE8BF850AE8BF840AE5B7A10A
  E982910AE982A20AE982AA0AE982A60AE982A30AE985890AE987860AE9878C0AE998B20AE998AE0AE998B10AE998AA0A
  E998AC0AE4B8A60AE4B9960AE4B9B30AE4BA8B0AE4BA9B0AE4BA9E0AE4BAAB0AE4BAAC0AE4BDAF0AE4BE9D0AE4BE8D0A
  E4BDB30AE4BDBF0AE4BDAC0AE4BE9B0AE4BE8B0AE4BE860AE4BE830AE4BDB00AE4BDB50AE4BE880AE4BDA90AE4BDBB0A
  E4BE960AE4BDBE0AE4BE8F0AE4BE910AE4BDBA0AE585940AE585920AE585950AE585A90AE585B70AE585B60AE585B80A
  E586BD0AE587BD0AE588BB0AE588B80AE588B70AE588BA0AE588B00AE588AE0AE588B60AE589810AE58ABE0AE58ABB0A
  E58D920AE58D940AE58D930AE58D910AE58DA60AE58DB70AE58DB80AE58DB90AE58F960AE58F940AE58F970AE591B30A
  E591B50A"

/-- tests/test_data/whatwg/big5_whatwg_test_encode_in.txt, part 40 -/
noncomputable def encodeIn39 : List Nat := hex! "E69D930AE69D970AE6ADA50AE6AF8F0AE6B1820AE6B19E0AE6B2990AE6B2810AE6B2880AE6B2890AE6B2850AE6B29B0A
  E6B1AA0AE6B1BA0AE6B2900AE6B1B00AE6B28C0AE6B1A80AE6B2960AE6B2920AE6B1BD0AE6B2830AE6B1B20AE6B1BE0A
  E6B1B40AE6B2860AE6B1B60AE6B28D0AE6B2940AE6B2980AE6B2820AE781B60AE781BC0AE781BD0AE781B80AE789A20A
  E789A10AE789A00AE78B840AE78B820AE78E960AE794AC0AE794AB0AE794B70AE794B80AE79A820AE79BAF0AE79FA30A
  E7A7810AE7A7800AE7A6BF0AE7A9B60AE7B3BB0AE7BD950AE882960AE882930AE8829D0AE882980AE8829B0AE8829A0A
  E882B20AE889AF0AE88A920AE88A8B0AE88A8D0AE8A68B0AE8A7920AE8A8800AE8B0B70AE8B1860AE8B1950AE8B29D0A
  E8B5A40AE8B5B00AE8B6B30AE8BAAB0AE8BB8A0AE8BE9B0AE8BEB00AE8BF820AE8BF860AE8BF850AE8BF840AE5B7A10A
  E982910AE982A20AE982AA0AE982A60AE982A30AE985890AE987860AE9878C0AE998B20AE998AE0AE998B10AE998AA0A
  E998AC0AE4B8A60AE4B9960AE4B9B30AE4BA8B0AE4BA9B0AE4BA9E0AE4BAAB0AE4BAAC0AE4BDAF0AE4BE9D0AE4BE8D0A
  E4BDB30AE4BDBF0AE4BDAC0AE4BE9B0AE4BE8B0AE4BE860AE4BE830AE4BDB00AE4BDB50AE4BE880AE4BDA90AE4BDBB0A
  E4BE960AE4BDBE0AE4BE8F0AE4BE910AE4BDBA0AE585940AE585920AE585950AE585A90AE585B70AE585B60AE585B80A
  E586BD0AE587BD0AE588BB0AE588B80AE588B70AE588BA0AE588B00AE588AE0AE588B60AE589810AE58ABE0AE58ABB0A
  E58D920AE58D940AE58D930AE58D910AE58DA60AE58DB70AE58DB80AE58DB90AE58F960AE58F940AE58F970AE591B30A
  E591B50A"

/-- tests/test_data/whatwg/big5_whatwg_test_encode_out.txt, part 40 -/
noncomputable def encodeOut39 : List Nat := hex! "A8400AA8410AA8420AA8430AA8440AA8450AA8460AA8470AA8480AA8490AA84A0AA84B0AA84C0AA84D0AA84E0AA84F0A
  A8500AA8510AA8520AA8530AA8540AA8550AA8560AA8570AA8580AA8590AA85A0AA85B0AA85C0AA85D0AA85E0AA85F0A
  A8600AA8610AA8620AA8630AA8640AA8650AA8660AA8670AA8680AA8690AA86A0AA86B0AA86C0AA86D0AA86E0AA86F0A
  A8700AA8710AA8720AA8730AA8740AA8750AA8760AA8770AA8780AA8790AA87A0AA87B0AA87C0AA87D0AA87E0AA8A10A
  A8A20AA8A30AA8A40AA8A50AA8A60AA8A70AA8A80AA8A90AA8AA0AA8AB0AA8AC0AA8AD0AA8AE0AA8AF0AA8B00AA8B10A
  A8B20AA8B30AA8B40AA8B50AA8B60AA8B70AA8B80AA8B90AA8BA0AA8BB0AA8BC0AA8BD0AA8BE0AA8BF0AA8C00AA8C10A
  A8C20AA8C30AA8C40AA8C50AA8C60AA8C70AA8C80AA8C90AA8CA0AA8CB0AA8CC0AA8CD0AA8CE0AA8CF0AA8D00AA8D10A
  A8D20AA8D30AA8D40AA8D50AA8D60AA8D70AA8D80AA8D90AA8DA0AA8DB0AA8DC0AA8DD0AA8DE0AA8DF0AA8E00AA8E10A
  A8E20AA8E30AA8E40AA8E50AA8E60AA8E70AA8E80AA8E90AA8EA0AA8EB0AA8EC0AA8ED0AA8EE0AA8EF0AA8F00AA8F10A
  A8F20AA8F30AA8F40AA8F50AA8F60AA8F70AA8F80AA8F90AA8FA0AA8FB0AA8FC0AA8FD0AA8FE0A"

/-- tests/test_data/whatwg/big5_whatwg_test_decode_in.txt, part 41 -/
noncomputable def decodeIn40 : List Nat := hex! "A9400AA9410AA9420AA9430AA9440AA9450AA9460AA9470AA9480AA9490AA94A0AA94B0AA94C0AA94D0AA94E0AA94F0A
  A9500AA9510AA9520AA9530AA9540AA9550AA9560AA9570AA9580AA9590AA95A0AA95B0AA95C0AA95D0AA95E0AA95F0A
  A9600AA9610AA9620AA9630AA9640AA9650AA9660AA9670AA9680AA9690AA96A0AA96B0AA96C0AA96D0AA96E0AA96F0A
  A9700AA9710AA9720AA9730AA9740AA9750AA9760AA9770AA9780AA9790AA97A0AA97B0AA97C0AA97D0AA97E0AA9A10A
  A9A20AA9A30AA9A40AA9A50AA9A60AA9A70AA9A80AA9A90AA9AA0AA9AB0AA9AC0AA9AD0AA9AE0AA9AF0AA9B00AA9B10A
  A9B20AA9B30AA9B40AA9B50AA9B60AA9B70AA9B80AA9B90AA9BA0AA9BB0AA9BC0AA9BD0AA9BE0AA9BF0AA9C00AA9C10A
  A9C20AA9C30AA9C40AA9C50AA9C60AA9C70AA9C80AA9C90AA9CA0AA9CB0AA9CC0AA9CD0AA9CE0AA9CF0AA9D00AA9D10A
  A9D20AA9D30AA9D40AA9D50AA9D60AA9D70AA9D80AA9D90AA9DA0AA9DB0AA9DC0AA9DD0AA9DE0AA9DF0AA9E00AA9E10A
  A9E20AA9E30AA9E40AA9E50AA9E60AA9E70AA9E80AA9E90AA9EA0AA9EB0AA9EC0AA9ED0AA9EE0AA9EF0AA9F00AA9F10A
  A9F20AA9F30AA9F40AA9F50AA9F60AA9F70AA9F80AA9F90AA9FA0AA9FB0AA9FC0AA9FD0AA9FE0A"

/-- tests/test_data/whatwg/big5_whatwg_test_decode_out.txt, part 41 -/
noncomputable def decodeOut40 : List Nat := hex! "E592960AE591B80AE592950AE592800AE591BB0AE591B70AE592840AE592920AE592860AE591BC0AE592900AE591B10A
  E591B60AE5928C0AE5929A0AE591A20AE591A80AE5928B0AE591BD0AE5928E0AE59BBA0AE59E830AE59DB70AE59DAA0A
  E59DA90AE59DA10AE59DA60AE59DA40AE59DBC0AE5A49C0AE5A5890AE5A5870AE5A5880AE5A5840AE5A5940AE5A6BE0A
  E5A6BB0AE5A7940AE5A6B90AE5A6AE0AE5A7910AE5A7860AE5A7900AE5A78D0AE5A78B0AE5A7930AE5A78A0AE5A6AF0A
  E5A6B30AE5A7920AE5A7850AE5AD9F0AE5ADA40AE5ADA30AE5AE970AE5AE9A0AE5AE980AE5AE9C0AE5AE990AE5AE9B0A
  E5B09A0AE5B1880AE5B1850AE5B1860AE5B2B70AE5B2A10AE5B2B80AE5B2A90AE5B2AB0AE5B2B10AE5B2B30AE5B8980A
  E5B89A0AE5B8960AE5B8950AE5B89B0AE5B8910AE5B9B80AE5BA9A0AE5BA970AE5BA9C0AE5BA950AE5BA960AE5BBB60A
  E5BCA60AE5BCA70AE5BCA90AE5BE800AE5BE810AE5BDBF0AE5BDBC0AE5BF9D0AE5BFA00AE5BFBD0AE5BFB50AE5BFBF0A
  E6808F0AE680940AE680AF0AE680B50AE680960AE680AA0AE680950AE680A10AE680A70AE680A90AE680AB0AE6809B0A
  E688960AE688950AE688BF0AE688BE0AE689800AE689BF0AE68B890AE68B8C0AE68B840AE68ABF0AE68B820AE68AB90A
  E68B920AE68B9B0AE68AAB0AE68B930AE68B940AE68B8B0AE68B880AE68AA80AE68ABD0AE68ABC0AE68B900AE68B990A
  E68B870AE68B8D0AE68AB50AE68B9A0AE68AB10AE68B980AE68B960AE68B970AE68B860AE68AAC0AE68B8E0AE694BE0A
  E696A70AE696BC0AE697BA0AE698940AE698930AE6988C0AE698860AE698820AE6988E0AE698800AE6988F0AE698950A
  E6988A0A"

/-- tests/test_data/whatwg/big5_whatwg_test_encode_in.txt, part 41 -/
noncomputable def encodeIn40 : List Nat := hex! "E592960AE591B80AE592950AE592800AE591BB0AE591B70AE592840AE592920AE592860AE591BC0AE592900AE591B10A
  E591B60AE5928C0AE5929A0AE591A20AE591A80AE5928B0AE591BD0AE5928E0AE59BBA0AE59E830AE59DB70AE59DAA0A
  E59DA90AE59DA10AE59DA60AE59DA40AE59DBC0AE5A49C0AE5A5890AE5A5870AE5A5880AE5A5840AE5A5940AE5A6BE0A
  E5A6BB0AE5A7940AE5A6B90AE5A6AE0AE5A7910AE5A7860AE5A7900AE5A78D0AE5A78B0AE5A7930AE5A78A0AE5A6AF0A
  E5A6B30AE5A7920AE5A7850AE5AD9F0AE5ADA40AE5ADA30AE5AE970AE5AE9A0AE5AE980AE5AE9C0AE5AE990AE5AE9B0A
  E5B09A0AE5B1880AE5B1850AE5B1860AE5B2B70AE5B2A10AE5B2B80AE5B2A90AE5B2AB0AE5B2B10AE5B2B30AE5B8980A
  E5B89A0AE5B8960AE5B8950AE5B89B0AE5B8910AE5B9B80AE5BA9A0AE5BA970AE5BA9C0AE5BA950AE5BA960AE5BBB60A
  E5BCA60AE5BCA70AE5BCA90AE5BE800AE5BE810AE5BDBF0AE5BDBC0AE5BF9D0AE5BFA00AE5BFBD0AE5BFB50AE5BFBF0A
  E6808F0AE680940AE680AF0AE680B50AE680960AE680AA0AE680950AE680A10AE680A70AE680A90AE680AB0AE6809B0A
  E688960AE688950AE688BF0AE688BE0AE689800AE689BF0AE68B890AE68B8C0AE68B840AE68ABF0AE68B820AE68AB90A
  E68B920AE68B9B0AE68AAB0AE68B930AE68B940AE68B8B0AE68B880AE68AA80AE68ABD0AE68ABC0AE68B990AE68B870A
  E68B8D0AE68AB50AE68B9A0AE68AB10AE68B980AE68B960AE68B970AE68B860AE68AAC0AE694BE0AE696A70AE696BC0A
  E697BA0AE698940AE698930AE6988C0AE698860AE698820AE6988E0AE698800AE6988F0AE698950AE6988A0A"

/-- tests/test_data/whatwg/big5_whatwg_test_encode_out.txt, part 41 -/
noncomputable def encodeOut40 : List Nat := hex! "A9400AA9410AA9420AA9430AA9440AA9450AA9460AA9470AA9480AA9490AA94A0AA94B0AA94C0AA94D0AA94E0AA94F0A
  A9500AA9510AA9520AA9530AA9540AA9550AA9560AA9570AA9580AA9590AA95A0AA95B0AA95C0AA95D0AA95E0AA95F0A
  A9600AA9610AA9620AA9630AA9640AA9650AA9660AA9670AA9680AA9690AA96A0AA96B0AA96C0AA96D0AA96E0AA96F0A
  A9700AA9710AA9720AA9730AA9740AA9750AA9760AA9770AA9780AA9790AA97A0AA97B0AA97C0AA97D0AA97E0AA9A10A
  A9A20AA9A30AA9A40AA9A50AA9A60AA9A70AA9A80AA9A90AA9AA0AA9AB0AA9AC0AA9AD0AA9AE0AA9AF0AA9B00AA9B10A
  A9B20AA9B30AA9B40AA9B50AA9B60AA9B70AA9B80AA9B90AA9BA0AA9BB0AA9BC0AA9BD0AA9BE0AA9BF0AA9C00AA9C10A
  A9C20AA9C30AA9C40AA9C50AA9C60AA9C70AA9C80AA9C90AA9CA0AA9CB0AA9CC0AA9CD0AA9CE0AA9CF0AA9D00AA9D10A
  A9D20AA9D30AA9D40AA9D50AA9D60AA9D70AA9D80AA9D90AA9DA0AA9DB0AA9DC0AA9DD0AA9DE0AA9DF0AA9E00AA9E10A
  A9E20AA9E30AA9E50AA9E60AA9E70AA9E80AA9E90AA9EA0AA9EB0AA9EC0AA9ED0AA9EE0AA9EF0AA9F10AA9F20AA9F30A
  A9F40AA9F50AA9F60AA9F70AA9F80AA9F90AA9FA0AA9FB0AA9FC0AA9FD0AA9FE0A"

/-- tests/test_data/whatwg/big5_whatwg_test_decode_in.txt, part 42 -/
noncomputable def decodeIn41 : List Nat := hex! "AA400AAA410AAA420AAA430AAA440AAA450AAA460AAA470AAA480AAA490AAA4A0AAA4B0AAA4C0AAA4D0AAA4E0AAA4F0A
  AA500AAA510AAA520AAA530AAA540AAA550AAA560AAA570AAA580AAA590AAA5A0AAA5B0AAA5C0AAA5D0AAA5E0AAA5F0A
  AA600AAA610AAA620AAA630AAA640AAA650AAA660AAA670AAA680AAA690AAA6A0AAA6B0AAA6C0AAA6D0AAA6E0AAA6F0A
  AA700AAA710AAA720AAA730AAA740AAA750AAA760AAA770AAA780AAA790AAA7A0AAA7B0AAA7C0AAA7D0AAA7E0AAAA10A
  AAA20AAAA30AAAA40AAAA50AAAA60AAAA70AAAA80AAAA90AAAAA0AAAAB0AAAAC0AAAAD0AAAAE0AAAAF0AAAB00AAAB10A
  AAB20AAAB30AAAB40AAAB50AAAB60AAAB70AAAB80AAAB90AAABA0AAABB0AAABC0AAABD0AAABE0AAABF0AAAC00AAAC10A
  AAC20AAAC30AAAC40AAAC50AAAC60AAAC70AAAC80AAAC90AAACA0AAACB0AAACC0AAACD0AAACE0AAACF0AAAD00AAAD10A
  AAD20AAAD30AAAD40AAAD50AAAD60AAAD70AAAD80AAAD90AAADA0AAADB0AAADC0AAADD0AAADE0AAADF0AAAE00AAAE10A
  AAE20AAAE30AAAE40AAAE50AAAE60AAAE70AAAE80AAAE90AAAEA0AAAEB0AAAEC0AAAED0AAAEE0AAAEF0AAAF00AAAF10A
  AAF20AAAF30AAAF40AAAF50AAAF60AAAF70AAAF80AAAF90AAAFA0AAAFB0AAAFC0AAAFD0AAAFE0A"

/-- tests/test_data/whatwg/big5_whatwg_test_decode_out.txt, part 42 -/
noncomputable def decodeOut41 : List Nat := hex! "E698870AE69C8D0AE69C8B0AE69DAD0AE69E8B0AE69E950AE69DB10AE69E9C0AE69DB30AE69DB70AE69E870AE69E9D0A
  E69E970AE69DAF0AE69DB00AE69DBF0AE69E890AE69DBE0AE69E900AE69DB50AE69E9A0AE69E930AE69DBC0AE69DAA0A
  E69DB20AE6ACA30AE6ADA60AE6ADA70AE6ADBF0AE6B0930AE6B09B0AE6B3A30AE6B3A80AE6B3B30AE6B2B10AE6B38C0A
  E6B3A50AE6B2B30AE6B2BD0AE6B2BE0AE6B2BC0AE6B3A20AE6B2AB0AE6B3950AE6B3930AE6B2B80AE6B3840AE6B2B90A
  E6B3810AE6B2AE0AE6B3970AE6B3850AE6B3B10AE6B2BF0AE6B2BB0AE6B3A10AE6B39B0AE6B38A0AE6B2AC0AE6B3AF0A
  E6B39C0AE6B3960AE6B3A00AE782950AE7828E0AE782920AE7828A0AE782990AE788AC0AE788AD0AE788B80AE789880A
  E789A70AE789A90AE78B800AE78B8E0AE78B990AE78B970AE78B900AE78EA90AE78EA80AE78E9F0AE78EAB0AE78EA50A
  E794BD0AE7969D0AE796990AE7969A0AE79A840AE79B820AE79BB20AE79BB40AE79FA50AE79FBD0AE7A4BE0AE7A5800A
  E7A5810AE7A7890AE7A7880AE7A9BA0AE7A9B90AE7ABBA0AE7B3BE0AE7BD940AE7BE8C0AE7BE8B0AE880850AE882BA0A
  E882A50AE882A20AE882B10AE882A10AE882AB0AE882A90AE882B40AE882AA0AE882AF0AE887A50AE887BE0AE8888D0A
  E88AB30AE88A9D0AE88A990AE88AAD0AE88ABD0AE88A9F0AE88AB90AE88AB10AE88AAC0AE88AA50AE88AAF0AE88AB80A
  E88AA30AE88AB00AE88ABE0AE88AB70AE8998E0AE899B10AE5889D0AE8A1A80AE8BB8B0AE8BF8E0AE8BF940AE8BF910A
  E982B50AE982B80AE982B10AE982B60AE987870AE987910AE995B70AE996800AE9989C0AE999800AE998BF0AE998BB0A
  E999840A"

/-- tests/test_data/whatwg/big5_whatwg_test_encode_in.txt, part 42 -/
noncomputable def encodeIn41 : List Nat := hex! "E698870AE69C8D0AE69C8B0AE69DAD0AE69E8B0AE69E950AE69DB10AE69E9C0AE69DB30AE69DB70AE69E870AE69E9D0A
  E69E970AE69DAF0AE69DB00AE69DBF0AE69E890AE69DBE0AE69E900AE69DB50AE69E9A0AE69E930AE69DBC0AE69DAA0A
  E69DB20AE6ACA30AE6ADA60AE6ADA70AE6ADBF0AE6B0930AE6B09B0AE6B3A30AE6B3A80AE6B3B30AE6B2B10AE6B38C0A
  E6B3A50AE6B2B30AE6B2BD0AE6B2BE0AE6B2BC0AE6B3A20AE6B2AB0AE6B3950AE6B3930AE6B2B80AE6B3840AE6B2B90A
  E6B3810AE6B2AE0AE6B3970AE6B3850AE6B3B10AE6B2BF0AE6B2BB0AE6B3A10AE6B39B0AE6B38A0AE6B2AC0AE6B3AF0A
  E6B39C0AE6B3960AE6B3A00AE782950AE7828E0AE782920AE7828A0AE782990AE788AC0AE788AD0AE788B80AE789880A
  E789A70AE789A90AE78B800AE78B8E0AE78B990AE78B970AE78B900AE78EA90AE78EA80AE78E9F0AE78EAB0AE78EA50A
  E794BD0AE7969D0AE796990AE7969A0AE79A840AE79B820AE79BB20AE79BB40AE79FA50AE79FBD0AE7A4BE0AE7A5800A
  E7A5810AE7A7890AE7A7880AE7A9BA0AE7A9B90AE7ABBA0AE7B3BE0AE7BD940AE7BE8C0AE7BE8B0AE882BA0AE882A50A
  E882A20AE882B10AE882A10AE882AB0AE882A90AE882B40AE882AA0AE882AF0AE887A50AE887BE0AE8888D0AE88AB30A
  E88A9D0AE88A990AE88AAD0AE88ABD0AE88A9F0AE88AB90AE88AB10AE88AAC0AE88AA50AE88AAF0AE88AB80AE88AA30A
  E88AB00AE88ABE0AE88AB70AE8998E0AE899B10AE5889D0AE8A1A80AE8BB8B0AE8BF8E0AE8BF940AE8BF910AE982B50A
  E982B80AE982B10AE982B60AE987870AE987910AE995B70AE996800AE9989C0AE999800AE998BF0AE998BB0AE999840A"

/-- tests/test_data/whatwg/big5_whatwg_test_encode_out.txt, part 42 -/
noncomputable def encodeOut41 : List Nat := hex! "AA400AAA410AAA420AAA430AAA440AAA450AAA460AAA470AAA480AAA490AAA4A0AAA4B0AAA4C0AAA4D0AAA4E0AAA4F0A
  AA500AAA510AAA520AAA530AAA540AAA550AAA560AAA570AAA580AAA590AAA5A0AAA5B0AAA5C0AAA5D0AAA5E0AAA5F0A
  AA600AAA610AAA620AAA630AAA640AAA650AAA660AAA670AAA680AAA690AAA6A0AAA6B0AAA6C0AAA6D0AAA6E0AAA6F0A
  AA700AAA710AAA720AAA730AAA740AAA750AAA760AAA770AAA780AAA790AAA7A0AAA7B0AAA7C0AAA7D0AAA7E0AAAA10A
  AAA20AAAA30AAAA40AAAA50AAAA60AAAA70AAAA80AAAA90AAAAA0AAAAB0AAAAC0AAAAD0AAAAE0AAAAF0AAAB00AAAB10A
  AAB20AAAB30AAAB40AAAB50AAAB60AAAB70AAAB80AAAB90AAABA0AAABB0AAABC0AAABD0AAABE0AAABF0AAAC00AAAC10A
  AAC20AAAC30AAAC40AAAC50AAAC60AAAC70AAAC80AAAC90AAACA0AAACB0AAACD0AAACE0AAACF0AAAD00AAAD10AAAD20A
  AAD30AAAD40AAAD50AAAD60AAAD70AAAD80AAAD90AAADA0AAADB0AAADC0AAADD0AAADE0AAADF0AAAE00AAAE10AAAE20A
  AAE30AAAE40AAAE50AAAE60AAAE70AAAE80AAAE90AAAEA0AAAEB0AAAEC0AAAED0AAAEE0AAAEF0AAAF00AAAF10AAAF20A
  AAF30AAAF40AAAF50AAAF60AAAF70AAAF80AAAF90AAAFA0AAAFB0AAAFC0AAAFD0AAAFE0A"

/-- tests/test_data/whatwg/big5_whatwg_test_decode_in.txt, part 43 -/
noncomputable def decodeIn42 : List Nat := hex! "AB400AAB410AAB420AAB430AAB440AAB450AAB460AAB470AAB480AAB490AAB4A0AAB4B0AAB4C0AAB4D0AAB4E0AAB4F0A
  AB500AAB510AAB520AAB530AAB540AAB550AAB560AAB570AAB580AAB590AAB5A0AAB5B0AAB5C0AAB5D0AAB5E0AAB5F0A
  AB600AAB610AAB620AAB630AAB640AAB650AAB660AAB670AAB680AAB690AAB6A0AAB6B0AAB6C0AAB6D0AAB6E0AAB6F0A
  AB700AAB710AAB720AAB730AAB740AAB750AAB760AAB770AAB780AAB790AAB7A0AAB7B0AAB7C0AAB7D0AAB7E0AABA10A
  ABA20AABA30AABA40AABA50AABA60AABA70AABA80AABA90AABAA0AABAB0AABAC0AABAD0AABAE0AABAF0AABB00AABB10A
  ABB20AABB30AABB40AABB50AABB60AABB70AABB80AABB90AABBA0AABBB0AABBC0AABBD0AABBE0AABBF0AABC00AABC10A
  ABC20AABC30AABC40AABC50AABC60AABC70AABC80AABC90AABCA0AABCB0AABCC0AABCD0AABCE0AABCF0AABD00AABD10A
  ABD20AABD30AABD40AABD50AABD60AABD70AABD80AABD90AABDA0AABDB0AABDC0AABDD0AABDE0AABDF0AABE00AABE10A
  ABE20AABE30AABE40AABE50AABE60AABE70AABE80AABE90AABEA0AABEB0AABEC0AABED0AABEE0AABEF0AABF00AABF10A
  ABF20AABF30AABF40AABF50AABF60AABF70AABF80AABF90AABFA0AABFB0AABFC0AABFD0AABFE0A"

/-- tests/test_data/whatwg/big5_whatwg_test_decode_out.txt, part 43 -/
noncomputable def decodeOut42 : List Nat := hex! "E999820AE99AB90AE99BA80AE99D920AE99D9E0AE4BA9F0AE4BAAD0AE4BAAE0AE4BFA10AE4BEB50AE4BEAF0AE4BEBF0A
  E4BFA00AE4BF910AE4BF8F0AE4BF9D0AE4BF830AE4BEB60AE4BF980AE4BF9F0AE4BF8A0AE4BF970AE4BEAE0AE4BF900A
  E4BF840AE4BF820AE4BF9A0AE4BF8E0AE4BF9E0AE4BEB70AE585970AE586920AE586910AE586A00AE5898E0AE589830A
  E5898A0AE5898D0AE5898C0AE5898B0AE589870AE58B870AE58B890AE58B830AE58B810AE58C8D0AE58D970AE58DBB0A
  E58E9A0AE58F9B0AE592AC0AE593800AE592A80AE5938E0AE593890AE592B80AE592A60AE592B30AE593870AE593820A
  E592BD0AE592AA0AE593810AE593840AE593880AE592AF0AE592AB0AE592B10AE592BB0AE592A90AE592A70AE592BF0A
  E59BBF0AE59E820AE59E8B0AE59EA00AE59EA30AE59EA20AE59F8E0AE59EAE0AE59E930AE5A5950AE5A5910AE5A58F0A
  E5A58E0AE5A5900AE5A79C0AE5A7980AE5A7BF0AE5A7A30AE5A7A80AE5A8830AE5A7A50AE5A7AA0AE5A79A0AE5A7A60A
  E5A8810AE5A7BB0AE5ADA90AE5AEA30AE5AEA60AE5AEA40AE5AEA20AE5AEA50AE5B0810AE5B18E0AE5B18F0AE5B18D0A
  E5B18B0AE5B3990AE5B3920AE5B7B70AE5B89D0AE5B8A50AE5B89F0AE5B9BD0AE5BAA00AE5BAA60AE5BBBA0AE5BC880A
  E5BCAD0AE5BDA50AE5BE880AE5BE850AE5BE8A0AE5BE8B0AE5BE870AE5BE8C0AE5BE890AE680920AE6809D0AE680A00A
  E680A50AE6808E0AE680A80AE6818D0AE681B00AE681A80AE681A20AE681860AE681830AE681AC0AE681AB0AE681AA0A
  E681A40AE689810AE68B9C0AE68C960AE68C890AE68BBC0AE68BAD0AE68C810AE68BAE0AE68BBD0AE68C870AE68BB10A
  E68BB70A"

/-- tests/test_data/whatwg/big5_whatwg_test_encode_in.txt, part 43 -/
noncomputable def encodeIn42 : List Nat := hex! "E999820AE99AB90AE99BA80AE99D920AE99D9E0AE4BA9F0AE4BAAD0AE4BAAE0AE4BFA10AE4BEB50AE4BEAF0AE4BEBF0A
  E4BFA00AE4BF910AE4BF8F0AE4BF9D0AE4BF830AE4BEB60AE4BF980AE4BF9F0AE4BF8A0AE4BF970AE4BEAE0AE4BF900A
  E4BF840AE4BF820AE4BF9A0AE4BF8E0AE4BF9E0AE4BEB70AE585970AE586920AE586910AE586A00AE5898E0AE589830A
  E5898A0AE5898D0AE5898C0AE5898B0AE589870AE58B870AE58B890AE58B830AE58B810AE58C8D0AE58D970AE58DBB0A
  E58E9A0AE58F9B0AE592AC0AE593800AE592A80AE5938E0AE593890AE592B80AE592A60AE592B30AE593870AE593820A
  E592BD0AE592AA0AE593810AE593840AE593880AE592AF0AE592AB0AE592B10AE592BB0AE592A90AE592A70AE592BF0A
  E59BBF0AE59E820AE59E8B0AE59EA00AE59EA30AE59EA20AE59F8E0AE59EAE0AE59E930AE5A5950AE5A5910AE5A58F0A
  E5A58E0AE5A5900AE5A79C0AE5A7980AE5A7BF0AE5A7A30AE5A7A80AE5A8830AE5A7A50AE5A7AA0AE5A79A0AE5A7A60A
  E5A8810AE5A7BB0AE5ADA90AE5AEA30AE5AEA60AE5AEA40AE5AEA20AE5AEA50AE5B0810AE5B18E0AE5B18F0AE5B18D0A
  E5B18B0AE5B3990AE5B3920AE5B7B70AE5B89D0AE5B8A50AE5B89F0AE5B9BD0AE5BAA00AE5BAA60AE5BBBA0AE5BC880A
  E5BCAD0AE5BDA50AE5BE880AE5BE850AE5BE8A0AE5BE8B0AE5BE870AE5BE8C0AE5BE890AE680920AE6809D0AE680A00A
  E680A50AE6808E0AE680A80AE6818D0AE681B00AE681A80AE681860AE681830AE681AC0AE681AB0AE681AA0AE681A40A
  E689810AE68B9C0AE68C960AE68C890AE68BBC0AE68BAD0AE68C810AE68BAE0AE68BBD0AE68C870AE68BB10AE68BB70A"

/-- tests/test_data/whatwg/big5_whatwg_test_encode_out.txt, part 43 -/
noncomputable def encodeOut42 : List Nat := hex! "AB400AAB410AAB420AAB430AAB440AAB450AAB460AAB470AAB480AAB490AAB4A0AAB4B0AAB4C0AAB4D0AAB4E0AAB4F0A
  AB500AAB510AAB520AAB530AAB540AAB550AAB560AAB570AAB580AAB590AAB5A0AAB5B0AAB5C0AAB5D0AAB5E0AAB5F0A
  AB600AAB610AAB620AAB630AAB640AAB650AAB660AAB670AAB680AAB690AAB6A0AAB6B0AAB6C0AAB6D0AAB6E0AAB6F0A
  AB700AAB710AAB720AAB730AAB740AAB750AAB760AAB770AAB780AAB790AAB7A0AAB7B0AAB7C0AAB7D0AAB7E0AABA10A
  ABA20AABA30AABA40AABA50AABA60AABA70AABA80AABA90AABAA0AABAB0AABAC0AABAD0AABAE0AABAF0AABB00AABB10A
  ABB20AABB30AABB40AABB50AABB60AABB70AABB80AABB90AABBA0AABBB0AABBC0AABBD0AABBE0AABBF0AABC00AABC10A
  ABC20AABC30AABC40AABC50AABC60AABC70AABC80AABC90AABCA0AABCB0AABCC0AABCD0AABCE0AABCF0AABD00AABD10A
  ABD20AABD30AABD40AABD50AABD60AABD70AABD80AABD90AABDA0AABDB0AABDC0AABDD0AABDE0AABDF0AABE00AABE10A
  ABE20AABE30AABE40AABE50AABE60AABE70AABE80AABE90AABEA0AABEB0AABED0AABEE0AABEF0AABF00AABF10AABF20A
  ABF30AABF40AABF50AABF60AABF70AABF80AABF90AABFA0AABFB0AABFC0AABFD0AABFE0A"

/-- tests/test_data/whatwg/big5_whatwg_test_decode_in.txt, part 44 -/
noncomputable def decodeIn43 : List Nat := hex! "AC400AAC410AAC420AAC430AAC440AAC450AAC460AAC470AAC480AAC490AAC4A0AAC4B0AAC4C0AAC4D0AAC4E0AAC4F0A
  AC500AAC510AAC520AAC530AAC540AAC550AAC560AAC570AAC580AAC590AAC5A0AAC5B0AAC5C0AAC5D0AAC5E0AAC5F0A
  AC600AAC610AAC620AAC630AAC640AAC650AAC660AAC670AAC680AAC690AAC6A0AAC6B0AAC6C0AAC6D0AAC6E0AAC6F0A
  AC700AAC710AAC720AAC730AAC740AAC750AAC760AAC770AAC780AAC790AAC7A0AAC7B0AAC7C0AAC7D0AAC7E0AACA10A
  ACA20AACA30AACA40AACA50AACA60AACA70AACA80AACA90AACAA0AACAB0AACAC0AACAD0AACAE0AACAF0AACB00AACB10A
  ACB20AACB30AACB40AACB50AACB60AACB70AACB80AACB90AACBA0AACBB0AACBC0AACBD0AACBE0AACBF0AACC00AACC10A
  ACC20AACC30AACC40AACC50AACC60AACC70AACC80AACC90AACCA0AACCB0AACCC0AACCD0AACCE0AACCF0AACD00AACD10A
  ACD20AACD30AACD40AACD50AACD60AACD70AACD80AACD90AACDA0AACDB0AACDC0AACDD0AACDE0AACDF0AACE00AACE10A
  ACE20AACE30AACE40AACE50AACE60AACE70AACE80AACE90AACEA0AACEB0AACEC0AACED0AACEE0AACEF0AACF00AACF10A
  ACF20AACF30AACF40AACF50AACF60AACF70AACF80AACF90AACFA0AACFB0AACFC0AACFD0AACFE0A"

/-- tests/test_data/whatwg/big5_whatwg_test_decode_out.txt, part 44 -/
noncomputable def decodeOut43 : List Nat := hex! "E68BAF0AE68BAC0AE68BBE0AE68BB40AE68C910AE68C820AE694BF0AE695850AE696AB0AE696BD0AE697A20AE698A50A
  E698AD0AE698A00AE698A70AE698AF0AE6989F0AE698A80AE698B10AE698A40AE69BB70AE69FBF0AE69F930AE69FB10A
  E69F940AE69F900AE69FAC0AE69EB60AE69EAF0AE69FB50AE69FA90AE69FAF0AE69F840AE69F910AE69EB40AE69F9A0A
  E69FA50AE69EB80AE69F8F0AE69F9E0AE69FB30AE69EB00AE69F990AE69FA20AE69F9D0AE69F920AE6ADAA0AE6AE830A
  E6AE860AE6AEB50AE6AF920AE6AF970AE6B09F0AE6B3890AE6B48B0AE6B4B20AE6B4AA0AE6B5810AE6B4A50AE6B48C0A
  E6B4B10AE6B49E0AE6B4970AE6B4BB0AE6B4BD0AE6B4BE0AE6B4B60AE6B49B0AE6B3B50AE6B4B90AE6B4A70AE6B4B80A
  E6B4A90AE6B4AE0AE6B4B50AE6B48E0AE6B4AB0AE782AB0AE782BA0AE782B30AE782AC0AE782AF0AE782AD0AE782B80A
  E782AE0AE782A40AE788B00AE789B20AE789AF0AE789B40AE78BA90AE78BA00AE78BA10AE78EB70AE78F8A0AE78EBB0A
  E78EB20AE78F8D0AE78F800AE78EB30AE7949A0AE794AD0AE7958F0AE7958C0AE7958E0AE7958B0AE796AB0AE796A40A
  E796A50AE796A20AE796A30AE799B80AE79A860AE79A870AE79A880AE79B880AE79B860AE79B830AE79B850AE79C810A
  E79BB90AE79BB80AE79C890AE79C8B0AE79BBE0AE79BBC0AE79C870AE79F9C0AE7A0820AE7A0940AE7A08C0AE7A08D0A
  E7A5860AE7A5890AE7A5880AE7A5870AE7A6B90AE7A6BA0AE7A7910AE7A7920AE7A78B0AE7A9BF0AE7AA810AE7ABBF0A
  E7ABBD0AE7B1BD0AE7B4820AE7B4850AE7B4800AE7B4890AE7B4870AE7B4840AE7B4860AE7BCB80AE7BE8E0AE7BEBF0A
  E880840A"

/-- tests/test_data/whatwg/big5_whatwg_test_encode_in.txt, part 44 -/
noncomputable def encodeIn43 : List Nat := hex! "E68BAF0AE68BAC0AE68BBE0AE68BB40AE68C910AE68C820AE694BF0AE695850AE696AB0AE696BD0AE697A20AE698A50A
  E698AD0AE698A00AE698A70AE698AF0AE6989F0AE698A80AE698B10AE698A40AE69BB70AE69FBF0AE69F930AE69FB10A
  E69F940AE69F900AE69FAC0AE69EB60AE69EAF0AE69FB50AE69FA90AE69FAF0AE69F840AE69F910AE69EB40AE69F9A0A
  E69FA50AE69EB80AE69F8F0AE69F9E0AE69FB30AE69EB00AE69F990AE69FA20AE69F9D0AE69F920AE6ADAA0AE6AE830A
  E6AE860AE6AEB50AE6AF920AE6AF970AE6B09F0AE6B3890AE6B48B0AE6B4B20AE6B4AA0AE6B5810AE6B4A50AE6B48C0A
  E6B4B10AE6B49E0AE6B4970AE6B4BB0AE6B4BD0AE6B4BE0AE6B4B60AE6B49B0AE6B3B50AE6B4B90AE6B4A70AE6B4B80A
  E6B4A90AE6B4AE0AE6B4B50AE6B48E0AE6B4AB0AE782AB0AE782BA0AE782B30AE782AC0AE782AF0AE782AD0AE782B80A
  E782AE0AE782A40AE788B00AE789B20AE789AF0AE789B40AE78BA90AE78BA00AE78BA10AE78EB70AE78F8A0AE78EBB0A
  E78EB20AE78F8D0AE78F800AE78EB30AE7949A0AE794AD0AE7958F0AE7958C0AE7958E0AE7958B0AE796AB0AE796A40A
  E796A50AE796A20AE796A30AE799B80AE79A860AE79A870AE79A880AE79B880AE79B860AE79B830AE79B850AE79C810A
  E79BB90AE79BB80AE79C890AE79C8B0AE79BBE0AE79BBC0AE79C870AE79F9C0AE7A0820AE7A0940AE7A08C0AE7A08D0A
  E7A5860AE7A5890AE7A5880AE7A5870AE7A6B90AE7A6BA0AE7A7910AE7A7920AE7A78B0AE7A9BF0AE7AA810AE7ABBF0A
  E7ABBD0AE7B1BD0AE7B4820AE7B4850AE7B4800AE7B4890AE7B4870AE7B4840AE7B4860AE7BCB80AE7BE8E0AE7BEBF0A
  E880840A"

/-- tests/test_data/whatwg/big5_whatwg_test_encode_out.txt, part 44 -/
noncomputable def encodeOut43 : List Nat := hex! "AC400AAC410AAC420AAC430AAC440AAC450AAC460AAC470AAC480AAC490AAC4A0AAC4B0AAC4C0AAC4D0AAC4E0AAC4F0A
  AC500AAC510AAC520AAC530AAC540AAC550AAC560AAC570AAC580AAC590AAC5A0AAC5B0AAC5C0AAC5D0AAC5E0AAC5F0A
  AC600AAC610AAC620AAC630AAC640AAC650AAC660AAC670AAC680AAC690AAC6A0AAC6B0AAC6C0AAC6D0AAC6E0AAC6F0A
  AC700AAC710AAC720AAC730AAC740AAC750AAC760AAC770AAC780AAC790AAC7A0AAC7B0AAC7C0AAC7D0AAC7E0AACA10A
  ACA20AACA30AACA40AACA50AACA60AACA70AACA80AACA90AACAA0AACAB0AACAC0AACAD0AACAE0AACAF0AACB00AACB10A
  ACB20AACB30AACB40AACB50AACB60AACB70AACB80AACB90AACBA0AACBB0AACBC0AACBD0AACBE0AACBF0AACC00AACC10A
  ACC20AACC30AACC40AACC50AACC60AACC70AACC80AACC90AACCA0AACCB0AACCC0AACCD0AACCE0AACCF0AACD00AACD10A
  ACD20AACD30AACD40AACD50AACD60AACD70AACD80AACD90AACDA0AACDB0AACDC0AACDD0AACDE0AACDF0AACE00AACE10A
  ACE20AACE30AACE40AACE50AACE60AACE70AACE80AACE90AACEA0AACEB0AACEC0AACED0AACEE0AACEF0AACF00AACF10A
  ACF20AACF30AACF40AACF50AACF60AACF70AACF80AACF90AACFA0AACFB0AACFC0AACFD0AACFE0A"

/-- tests/test_data/whatwg/big5_whatwg_test_decode_in.txt, part 45 -/
noncomputable def decodeIn44 : List Nat := hex! "AD400AAD410AAD420AAD430AAD440AAD450AAD460AAD470AAD480AAD490AAD4A0AAD4B0AAD4C0AAD4D0AAD4E0AAD4F0A
  AD500AAD510AAD520AAD530AAD540AAD550AAD560AAD570AAD580AAD590AAD5A0AAD5B0AAD5C0AAD5D0AAD5E0AAD5F0A
  AD600AAD610AAD620AAD630AAD640AAD650AAD660AAD670AAD680AAD690AAD6A0AAD6B0AAD6C0AAD6D0AAD6E0AAD6F0A
  AD700AAD710AAD720AAD730AAD740AAD750AAD760AAD770AAD780AAD790AAD7A0AAD7B0AAD7C0AAD7D0AAD7E0AADA10A
  ADA20AADA30AADA40AADA50AADA60AADA70AADA80AADA90AADAA0AADAB0AADAC0AADAD0AADAE0AADAF0AADB00AADB10A
  ADB20AADB30AADB40AADB50AADB60AADB70AADB80AADB90AADBA0AADBB0AADBC0AADBD0AADBE0AADBF0AADC00AADC10A
  ADC20AADC30AADC40AADC50AADC60AADC70AADC80AADC90AADCA0AADCB0AADCC0AADCD0AADCE0AADCF0AADD00AADD10A
  ADD20AADD30AADD40AADD50AADD60AADD70AADD80AADD90AADDA0AADDB0AADDC0AADDD0AADDE0AADDF0AADE00AADE10A
  ADE20AADE30AADE40AADE50AADE60AADE70AADE80AADE90AADEA0AADEB0AADEC0AADED0AADEE0AADEF0AADF00AADF10A
  ADF20AADF30AADF40AADF50AADF60AADF70AADF80AADF90AADFA0AADFB0AADFC0AADFD0AADFE0A"

/-- tests/test_data/whatwg/big5_whatwg_test_decode_out.txt, part 45 -/
noncomputable def decodeOut44 : List Nat := hex! "E880900AE8808D0AE880910AE880B60AE883960AE883A50AE8839A0AE883830AE883840AE8838C0AE883A10AE8839B0A
  E8838E0AE8839E0AE883A40AE8839D0AE887B40AE888A20AE88BA70AE88C830AE88C850AE88BA30AE88B9B0AE88BA60A
  E88C840AE88BA50AE88C820AE88C890AE88B920AE88B970AE88BB10AE88C810AE88B9C0AE88B940AE88B910AE88B9E0A
  E88B930AE88B9F0AE88BAF0AE88C860AE899900AE899B90AE899BB0AE899BA0AE8A18D0AE8A1AB0AE8A6810AE8A7940A
  E8A8880AE8A8820AE8A8830AE8B29E0AE8B2A00AE8B5B40AE8B5B30AE8B6B40AE8BB8D0AE8BB8C0AE8BFB00AE8BFA60A
  E8BFA20AE8BFAA0AE8BFA50AE8BFAD0AE8BFAB0AE8BFA40AE8BFA80AE9838A0AE9838E0AE983810AE983830AE9858B0A
  E9858A0AE9878D0AE996820AE999900AE9998B0AE9998C0AE9998D0AE99DA20AE99DA90AE99F8B0AE99FAD0AE99FB30A
  E9A0810AE9A2A80AE9A39B0AE9A39F0AE9A6960AE9A6990AE4B9980AE4BAB30AE5808C0AE5808D0AE580A30AE4BFAF0A
  E580A60AE580A50AE4BFB80AE580A90AE580960AE580860AE580BC0AE5809F0AE5809A0AE580920AE580910AE4BFBA0A
  E580800AE580940AE580A80AE4BFB10AE580A10AE5808B0AE580990AE580980AE4BFB30AE4BFAE0AE580AD0AE580AA0A
  E4BFBE0AE580AB0AE580890AE585BC0AE586A40AE586A50AE586A20AE5878D0AE5878C0AE587860AE5878B0AE589960A
  E5899C0AE589940AE5899B0AE5899D0AE58CAA0AE58DBF0AE58E9F0AE58E9D0AE58F9F0AE593A80AE594900AE594810A
  E594B70AE593BC0AE593A50AE593B20AE594860AE593BA0AE594940AE593A90AE593AD0AE593A10AE594890AE593AE0A
  E593AA0A"

/-- tests/test_data/whatwg/big5_whatwg_test_encode_in.txt, part 45 -/
noncomputable def encodeIn44 : List Nat := hex! "E880900AE8808D0AE880910AE880B60AE883960AE883A50AE8839A0AE883830AE883840AE8838C0AE883A10AE8839B0A
  E8838E0AE8839E0AE883A40AE8839D0AE887B40AE888A20AE88BA70AE88C830AE88C850AE88BA30AE88B9B0AE88BA60A
  E88C840AE88BA50AE88C820AE88C890AE88B920AE88B970AE88BB10AE88C810AE88B9C0AE88B940AE88B910AE88B9E0A
  E88B930AE88B9F0AE88BAF0AE88C860AE899900AE899B90AE899BB0AE899BA0AE8A18D0AE8A1AB0AE8A6810AE8A7940A
  E8A8880AE8A8820AE8A8830AE8B29E0AE8B2A00AE8B5B40AE8B5B30AE8B6B40AE8BB8D0AE8BB8C0AE8BFB00AE8BFA60A
  E8BFA20AE8BFAA0AE8BFA50AE8BFAD0AE8BFAB0AE8BFA40AE8BFA80AE9838A0AE9838E0AE983810AE983830AE9858B0A
  E9858A0AE9878D0AE996820AE999900AE9998B0AE9998C0AE9998D0AE99DA20AE99DA90AE99F8B0AE99FAD0AE99FB30A
  E9A0810AE9A2A80AE9A39B0AE9A39F0AE9A6960AE9A6990AE4B9980AE4BAB30AE5808C0AE5808D0AE580A30AE4BFAF0A
  E580A60AE580A50AE4BFB80AE580A90AE580960AE580860AE580BC0AE5809F0AE5809A0AE580920AE580910AE4BFBA0A
  E580800AE580940AE580A80AE4BFB10AE580A10AE5808B0AE580990AE580980AE4BFB30AE4BFAE0AE580AD0AE580AA0A
  E4BFBE0AE580AB0AE580890AE585BC0AE586A40AE586A50AE586A20AE5878D0AE5878C0AE587860AE5878B0AE589960A
  E5899C0AE589940AE5899B0AE5899D0AE58CAA0AE58DBF0AE58E9F0AE58E9D0AE58F9F0AE593A80AE594900AE594810A
  E594B70AE593BC0AE593A50AE593B20AE594860AE593BA0AE594940AE593A90AE593AD0AE593A10AE594890AE593AE0A
  E593AA0A"

/-- tests/test_data/whatwg/big5_whatwg_test_encode_out.txt, part 45 -/
noncomputable def encodeOut44 : List Nat := hex! "AD400AAD410AAD420AAD430AAD440AAD450AAD460AAD470AAD480AAD490AAD4A0AAD4B0AAD4C0AAD4D0AAD4E0AAD4F0A
  AD500AAD510AAD520AAD530AAD540AAD550AAD560AAD570AAD580AAD590AAD5A0AAD5B0AAD5C0AAD5D0AAD5E0AAD5F0A
  AD600AAD610AAD620AAD630AAD640AAD650AAD660AAD670AAD680AAD690AAD6A0AAD6B0AAD6C0AAD6D0AAD6E0AAD6F0A
  AD700AAD710AAD720AAD730AAD740AAD750AAD760AAD770AAD780AAD790AAD7A0AAD7B0AAD7C0AAD7D0AAD7E0AADA10A
  ADA20AADA30AADA40AADA50AADA60AADA70AADA80AADA90AADAA0AADAB0AADAC0AADAD0AADAE0AADAF0AADB00AADB10A
  ADB20AADB30AADB40AADB50AADB60AADB70AADB80AADB90AADBA0AADBB0AADBC0AADBD0AADBE0AADBF0AADC00AADC10A
  ADC20AADC30AADC40AADC50AADC60AADC70AADC80AADC90AADCA0AADCB0AADCC0AADCD0AADCE0AADCF0AADD00AADD10A
  ADD20AADD30AADD40AADD50AADD60AADD70AADD80AADD90AADDA0AADDB0AADDC0AADDD0AADDE0AADDF0AADE00AADE10A
  ADE20AADE30AADE40AADE50AADE60AADE70AADE80AADE90AADEA0AADEB0AADEC0AADED0AADEE0AADEF0AADF00AADF10A
  ADF20AADF30AADF40AADF50AADF60AADF70AADF80AADF90AADFA0AADFB0AADFC0AADFD0AADFE0A"

/-- tests/test_data/whatwg/big5_whatwg_test_decode_in.txt, part 46 -/
noncomputable def decodeIn45 : List Nat := hex! "AE400AAE410AAE420AAE430AAE440AAE450AAE460AAE470AAE480AAE490AAE4A0AAE4B0AAE4C0AAE4D0AAE4E0AAE4F0A
  AE500AAE510AAE520AAE530AAE540AAE550AAE560AAE570AAE580AAE590AAE5A0AAE5B0AAE5C0AAE5D0AAE5E0AAE5F0A
  AE600AAE610AAE620AAE630AAE640AAE650AAE660AAE670AAE680AAE690AAE6A0AAE6B0AAE6C0AAE6D0AAE6E0AAE6F0A
  AE700AAE710AAE720AAE730AAE740AAE750AAE760AAE770AAE780AAE790AAE7A0AAE7B0AAE7C0AAE7D0AAE7E0AAEA10A
  AEA20AAEA30AAEA40AAEA50AAEA60AAEA70AAEA80AAEA90AAEAA0AAEAB0AAEAC0AAEAD0AAEAE0AAEAF0AAEB00AAEB10A
  AEB20AAEB30AAEB40AAEB50AAEB60AAEB70AAEB80AAEB90AAEBA0AAEBB0AAEBC0AAEBD0AAEBE0AAEBF0AAEC00AAEC10A
  AEC20AAEC30AAEC40AAEC50AAEC60AAEC70AAEC80AAEC90AAECA0AAECB0AAECC0AAECD0AAECE0AAECF0AAED00AAED10A
  AED20AAED30AAED40AAED50AAED60AAED70AAED80AAED90AAEDA0AAEDB0AAEDC0AAEDD0AAEDE0AAEDF0AAEE00AAEE10A
  AEE20AAEE30AAEE40AAEE50AAEE60AAEE70AAEE80AAEE90AAEEA0AAEEB0AAEEC0AAEED0AAEEE0AAEEF0AAEF00AAEF10A
  AEF20AAEF30AAEF40AAEF50AAEF60AAEF70AAEF80AAEF90AAEFA0AAEFB0AAEFC0AAEFD0AAEFE0A"

/-- tests/test_data/whatwg/big5_whatwg_test_decode_out.txt, part 46 -/
noncomputable def decodeOut45 : List Nat := hex! "E593A60AE594A70AE594870AE593BD0AE5948F0AE59C830AE59C840AE59F820AE59F940AE59F8B0AE59F830AE5A0890A
  E5A48F0AE5A5970AE5A5980AE5A59A0AE5A8910AE5A8980AE5A89C0AE5A89F0AE5A89B0AE5A8930AE5A7AC0AE5A8A00A
  E5A8A30AE5A8A90AE5A8A50AE5A88C0AE5A8890AE5ADAB0AE5B1980AE5AEB00AE5AEB30AE5AEB60AE5AEB40AE5AEAE0A
  E5AEB50AE5AEB90AE5AEB80AE5B0840AE5B1910AE5B1950AE5B1900AE5B3AD0AE5B3BD0AE5B3BB0AE5B3AA0AE5B3A80A
  E5B3B00AE5B3B60AE5B4810AE5B3B40AE5B7AE0AE5B8AD0AE5B8AB0AE5BAAB0AE5BAAD0AE5BAA70AE5BCB10AE5BE920A
  E5BE910AE5BE900AE681990AE681A30AE681A50AE681900AE681950AE681AD0AE681A90AE681AF0AE682840AE6829F0A
  E6829A0AE6828D0AE682940AE6828C0AE682850AE682960AE689870AE68BB30AE68C880AE68BBF0AE68D8E0AE68CBE0A
  E68CAF0AE68D950AE68D820AE68D860AE68D8F0AE68D890AE68CBA0AE68D900AE68CBD0AE68CAA0AE68CAB0AE68CA80A
  E68D8D0AE68D8C0AE695880AE695890AE696990AE697810AE697850AE699820AE699890AE6998F0AE699830AE699920A
  E6998C0AE699850AE699810AE69BB80AE69C940AE69C950AE69C970AE6A0A10AE6A0B80AE6A1880AE6A1860AE6A1930A
  E6A0B90AE6A1820AE6A1940AE6A0A90AE6A2B30AE6A0970AE6A18C0AE6A1910AE6A0BD0AE69FB40AE6A1900AE6A1800A
  E6A0BC0AE6A1830AE6A0AA0AE6A1850AE6A0930AE6A0980AE6A1810AE6AE8A0AE6AE890AE6AEB70AE6B0A30AE6B0A70A
  E6B0A80AE6B0A60AE6B0A40AE6B3B00AE6B5AA0AE6B6950AE6B6880AE6B6870AE6B5A60AE6B5B80AE6B5B70AE6B5990A
  E6B6930A"

/-- tests/test_data/whatwg/big5_whatwg_test_encode_in.txt, part 46 -/
noncomputable def encodeIn45 : List Nat := hex! "E593A60AE594A70AE594870AE593BD0AE5948F0AE59C830AE59C840AE59F820AE59F940AE59F8B0AE59F830AE5A0890A
  E5A48F0AE5A5970AE5A5980AE5A59A0AE5A8910AE5A8980AE5A89C0AE5A89F0AE5A89B0AE5A8930AE5A7AC0AE5A8A00A
  E5A8A30AE5A8A90AE5A8A50AE5A88C0AE5A8890AE5ADAB0AE5B1980AE5AEB00AE5AEB30AE5AEB60AE5AEB40AE5AEAE0A
  E5AEB50AE5AEB90AE5AEB80AE5B0840AE5B1910AE5B1950AE5B1900AE5B3AD0AE5B3BD0AE5B3BB0AE5B3AA0AE5B3A80A
  E5B3B00AE5B3B60AE5B4810AE5B3B40AE5B7AE0AE5B8AD0AE5B8AB0AE5BAAB0AE5BAAD0AE5BAA70AE5BCB10AE5BE920A
  E5BE910AE5BE900AE681990AE681A30AE681A50AE681900AE681950AE681AD0AE681A90AE681AF0AE682840AE6829F0A
  E6829A0AE6828D0AE682940AE6828C0AE682850AE682960AE689870AE68BB30AE68C880AE68BBF0AE68D8E0AE68CBE0A
  E68CAF0AE68D950AE68D820AE68D860AE68D8F0AE68D890AE68CBA0AE68D900AE68CBD0AE68CAA0AE68CAB0AE68CA80A
  E68D8D0AE68D8C0AE695880AE695890AE696990AE697810AE697850AE699820AE699890AE6998F0AE699830AE699920A
  E6998C0AE699850AE699810AE69BB80AE69C940AE69C950AE69C970AE6A0A10AE6A0B80AE6A1880AE6A1860AE6A1930A
  E6A0B90AE6A1820AE6A1940AE6A0A90AE6A2B30AE6A0970AE6A18C0AE6A1910AE6A0BD0AE69FB40AE6A1900AE6A1800A
  E6A0BC0AE6A1830AE6A0AA0AE6A1850AE6A0930AE6A0980AE6A1810AE6AE8A0AE6AE890AE6AEB70AE6B0A30AE6B0A70A
  E6B0A80AE6B0A60AE6B0A40AE6B3B00AE6B5AA0AE6B6950AE6B6880AE6B6870AE6B5A60AE6B5B80AE6B5B70AE6B5990A
  E6B6930A"

/-- tests/test_data/whatwg/big5_whatwg_test_encode_out.txt, part 46 -/
noncomputable def encodeOut45 : List Nat := hex! "AE400AAE410AAE420AAE430AAE440AAE450AAE460AAE470AAE480AAE490AAE4A0AAE4B0AAE4C0AAE4D0AAE4E0AAE4F0A
  AE500AAE510AAE520AAE530AAE540AAE550AAE560AAE570AAE580AAE590AAE5A0AAE5B0AAE5C0AAE5D0AAE5E0AAE5F0A
  AE600AAE610AAE620AAE630AAE640AAE650AAE660AAE670AAE680AAE690AAE6A0AAE6B0AAE6C0AAE6D0AAE6E0AAE6F0A
  AE700AAE710AAE720AAE730AAE740AAE750AAE760AAE770AAE780AAE790AAE7A0AAE7B0AAE7C0AAE7D0AAE7E0AAEA10A
  AEA20AAEA30AAEA40AAEA50AAEA60AAEA70AAEA80AAEA90AAEAA0AAEAB0AAEAC0AAEAD0AAEAE0AAEAF0AAEB00AAEB10A
  AEB20AAEB30AAEB40AAEB50AAEB60AAEB70AAEB80AAEB90AAEBA0AAEBB0AAEBC0AAEBD0AAEBE0AAEBF0AAEC00AAEC10A
  AEC20AAEC30AAEC40AAEC50AAEC60AAEC70AAEC80AAEC90AAECA0AAECB0AAECC0AAECD0AAECE0AAECF0AAED00AAED10A
  AED20AAED30AAED40AAED50AAED60AAED70AAED80AAED90AAEDA0AAEDB0AAEDC0AAEDD0AAEDE0AAEDF0AAEE00AAEE10A
  AEE20AAEE30AAEE40AAEE50AAEE60AAEE70AAEE80AAEE90AAEEA0AAEEB0AAEEC0AAEED0AAEEE0AAEEF0AAEF00AAEF10A
  AEF20AAEF30AAEF40AAEF50AAEF60AAEF70AAEF80AAEF90AAEFA0AAEFB0AAEFC0AAEFD0AAEFE0A"

/-- tests/test_data/whatwg/big5_whatwg_test_decode_in.txt, part 47 -/
noncomputable def decodeIn46 : List Nat := hex! "AF400AAF410AAF420AAF430AAF440AAF450AAF460AAF470AAF480AAF490AAF4A0AAF4B0AAF4C0AAF4D0AAF4E0AAF4F0A
  AF500AAF510AAF520AAF530AAF540AAF550AAF560AAF570AAF580AAF590AAF5A0AAF5B0AAF5C0AAF5D0AAF5E0AAF5F0A
  AF600AAF610AAF620AAF630AAF640AAF650AAF660AAF670AAF680AAF690AAF6A0AAF6B0AAF6C0AAF6D0AAF6E0AAF6F0A
  AF700AAF710AAF720AAF730AAF740AAF750AAF760AAF770AAF780AAF790AAF7A0AAF7B0AAF7C0AAF7D0AAF7E0AAFA10A
  AFA20AAFA30AAFA40AAFA50AAFA60AAFA70AAFA80AAFA90AAFAA0AAFAB0AAFAC0AAFAD0AAFAE0AAFAF0AAFB00AAFB10A
  AFB20AAFB30AAFB40AAFB50AAFB60AAFB70AAFB80AAFB90AAFBA0AAFBB0AAFBC0AAFBD0AAFBE0AAFBF0AAFC00AAFC10A
  AFC20AAFC30AAFC40AAFC50AAFC60AAFC70AAFC80AAFC90AAFCA0AAFCB0AAFCC0AAFCD0AAFCE0AAFCF0AAFD00AAFD10A
  AFD20AAFD30AAFD40AAFD50AAFD60AAFD70AAFD80AAFD90AAFDA0AAFDB0AAFDC0AAFDD0AAFDE0AAFDF0AAFE00AAFE10A
  AFE20AAFE30AAFE40AAFE50AAFE60AAFE70AAFE80AAFE90AAFEA0AAFEB0AAFEC0AAFED0AAFEE0AAFEF0AAFF00AAFF10A
  AFF20AAFF30AAFF40AAFF50AAFF60AAFF70AAFF80AAFF90AAFFA0AAFFB0AAFFC0AAFFD0AAFFE0A"

/-- tests/test_data/whatwg/big5_whatwg_test_decode_out.txt, part 47 -/
noncomputable def decodeOut46 : List Nat := hex! "E6B5AC0AE6B6890AE6B5AE0AE6B59A0AE6B5B40AE6B5A90AE6B68C0AE6B68A0AE6B5B90AE6B6850AE6B5A50AE6B6940A
  E7838A0AE783980AE783A40AE783990AE783880AE7838F0AE788B90AE789B90AE78BBC0AE78BB90AE78BBD0AE78BB80A
  E78BB70AE78E860AE78FAD0AE790890AE78FAE0AE78FA00AE78FAA0AE78F9E0AE795940AE7959D0AE7959C0AE7959A0A
  E795990AE796BE0AE797850AE797870AE796B20AE796B30AE796BD0AE796BC0AE796B90AE797820AE796B80AE79A8B0A
  E79AB00AE79B8A0AE79B8D0AE79B8E0AE79CA90AE79C9F0AE79CA00AE79CA80AE79FA90AE7A0B00AE7A0A70AE7A0B80A
  E7A09D0AE7A0B40AE7A0B70AE7A0A50AE7A0AD0AE7A0A00AE7A09F0AE7A0B20AE7A5950AE7A5900AE7A5A00AE7A59F0A
  E7A5960AE7A59E0AE7A59D0AE7A5970AE7A59A0AE7A7A40AE7A7A30AE7A7A70AE7A79F0AE7A7A60AE7A7A90AE7A7980A
  E7AA840AE7AA880AE7AB990AE7AC860AE7AC910AE7B2890AE7B4A10AE7B4970AE7B48B0AE7B48A0AE7B4A00AE7B4A20A
  E7B4940AE7B4900AE7B4950AE7B49A0AE7B49C0AE7B48D0AE7B4990AE7B49B0AE7BCBA0AE7BD9F0AE7BE940AE7BF850A
  E7BF810AE880860AE880980AE880950AE880990AE880970AE880BD0AE880BF0AE883B10AE884820AE883B00AE884850A
  E883AD0AE883B40AE884860AE883B80AE883B30AE884880AE883BD0AE8848A0AE883BC0AE883AF0AE887AD0AE887AC0A
  E888800AE888900AE888AA0AE888AB0AE888A80AE888AC0AE88ABB0AE88CAB0AE88D920AE88D940AE88D8A0AE88CB80A
  E88D900AE88D890AE88CB50AE88CB40AE88D8F0AE88CB20AE88CB90AE88CB60AE88C970AE88D800AE88CB10AE88CA80A
  E88D830A"

/-- tests/test_data/whatwg/big5_whatwg_test_encode_in.txt, part 47 -/
noncomputable def encodeIn46 : List Nat := hex! "E6B5AC0AE6B6890AE6B5AE0AE6B59A0AE6B5B40AE6B5A90AE6B68C0AE6B68A0AE6B5B90AE6B6850AE6B5A50AE6B6940A
  E7838A0AE783980AE783A40AE783990AE783880AE7838F0AE788B90AE789B90AE78BBC0AE78BB90AE78BBD0AE78BB80A
  E78BB70AE78E860AE78FAD0AE790890AE78FAE0AE78FA00AE78FAA0AE78F9E0AE795940AE7959D0AE7959C0AE7959A0A
  E795990AE796BE0AE797850AE797870AE796B20AE796B30AE796BD0AE796BC0AE796B90AE797820AE796B80AE79A8B0A
  E79AB00AE79B8A0AE79B8D0AE79B8E0AE79CA90AE79C9F0AE79CA00AE79CA80AE79FA90AE7A0B00AE7A0A70AE7A0B80A
  E7A09D0AE7A0B40AE7A0B70AE7A0A50AE7A0AD0AE7A0A00AE7A09F0AE7A0B20AE7A5950AE7A5900AE7A5A00AE7A59F0A
  E7A5960AE7A59E0AE7A59D0AE7A5970AE7A59A0AE7A7A40AE7A7A70AE7A79F0AE7A7A60AE7A7A90AE7A7980AE7AA840A
  E7AA880AE7AB990AE7AC860AE7AC910AE7B2890AE7B4A10AE7B4970AE7B48B0AE7B48A0AE7B4A00AE7B4A20AE7B4940A
  E7B4900AE7B4950AE7B49A0AE7B49C0AE7B48D0AE7B4990AE7B49B0AE7BCBA0AE7BD9F0AE7BE940AE7BF850AE7BF810A
  E880860AE880980AE880950AE880990AE880970AE880BD0AE880BF0AE883B10AE884820AE883B00AE884850AE883AD0A
  E883B40AE884860AE883B80AE883B30AE884880AE883BD0AE8848A0AE883BC0AE883AF0AE887AD0AE887AC0AE888800A
  E888900AE888AA0AE888AB0AE888A80AE888AC0AE88ABB0AE88CAB0AE88D920AE88D940AE88D8A0AE88CB80AE88D900A
  E88D890AE88CB50AE88CB40AE88D8F0AE88CB20AE88CB90AE88CB60AE88C970AE88D800AE88CB10AE88CA80AE88D830A"

/-- tests/test_data/whatwg/big5_whatwg_test_encode_out.txt, part 47 -/
noncomputable def encodeOut46 : List Nat := hex! "AF400AAF410AAF420AAF430AAF440AAF450AAF460AAF470AAF480AAF490AAF4A0AAF4B0AAF4C0AAF4D0AAF4E0AAF4F0A
  AF500AAF510AAF520AAF530AAF540AAF550AAF560AAF570AAF580AAF590AAF5A0AAF5B0AAF5C0AAF5D0AAF5E0AAF5F0A
  AF600AAF610AAF620AAF630AAF640AAF650AAF660AAF670AAF680AAF690AAF6A0AAF6B0AAF6C0AAF6D0AAF6E0AAF6F0A
  AF700AAF710AAF720AAF730AAF740AAF750AAF760AAF770AAF780AAF790AAF7A0AAF7B0AAF7C0AAF7D0AAF7E0AAFA10A
  AFA20AAFA30AAFA40AAFA50AAFA60AAFA70AAFA80AAFA90AAFAA0AAFAB0AAFAC0AAFAD0AAFAE0AAFAF0AAFB10AAFB20A
  AFB30AAFB40AAFB50AAFB60AAFB70AAFB80AAFB90AAFBA0AAFBB0AAFBC0AAFBD0AAFBE0AAFBF0AAFC00AAFC10AAFC20A
  AFC30AAFC40AAFC50AAFC60AAFC70AAFC80AAFC90AAFCA0AAFCB0AAFCC0AAFCD0AAFCE0AAFCF0AAFD00AAFD10AAFD20A
  AFD30AAFD40AAFD50AAFD60AAFD70AAFD80AAFD90AAFDA0AAFDB0AAFDC0AAFDD0AAFDE0AAFDF0AAFE00AAFE10AAFE20A
  AFE30AAFE40AAFE50AAFE60AAFE70AAFE80AAFE90AAFEA0AAFEB0AAFEC0AAFED0AAFEE0AAFEF0AAFF00AAFF10AAFF20A
  AFF30AAFF40AAFF50AAFF60AAFF70AAFF80AAFF90AAFFA0AAFFB0AAFFC0AAFFD0AAFFE0A"

/-- tests/test_data/whatwg/big5_whatwg_test_decode_in.txt, part 48 -/
noncomputable def decodeIn47 : List Nat := hex! "B0400AB0410AB0420AB0430AB0440AB0450AB0460AB0470AB0480AB0490AB04A0AB04B0AB04C0AB04D0AB04E0AB04F0A
  B0500AB0510AB0520AB0530AB0540AB0550AB0560AB0570AB0580AB0590AB05A0AB05B0AB05C0AB05D0AB05E0AB05F0A
  B0600AB0610AB0620AB0630AB0640AB0650AB0660AB0670AB0680AB0690AB06A0AB06B0AB06C0AB06D0AB06E0AB06F0A
  B0700AB0710AB0720AB0730AB0740AB0750AB0760AB0770AB0780AB0790AB07A0AB07B0AB07C0AB07D0AB07E0AB0A10A
  B0A20AB0A30AB0A40AB0A50AB0A60AB0A70AB0A80AB0A90AB0AA0AB0AB0AB0AC0AB0AD0AB0AE0AB0AF0AB0B00AB0B10A
  B0B20AB0B30AB0B40AB0B50AB0B60AB0B70AB0B80AB0B90AB0BA0AB0BB0AB0BC0AB0BD0AB0BE0AB0BF0AB0C00AB0C10A
  B0C20AB0C30AB0C40AB0C50AB0C60AB0C70AB0C80AB0C90AB0CA0AB0CB0AB0CC0AB0CD0AB0CE0AB0CF0AB0D00AB0D10A
  B0D20AB0D30AB0D40AB0D50AB0D60AB0D70AB0D80AB0D90AB0DA0AB0DB0AB0DC0AB0DD0AB0DE0AB0DF0AB0E00AB0E10A
  B0E20AB0E30AB0E40AB0E50AB0E60AB0E70AB0E80AB0E90AB0EA0AB0EB0AB0EC0AB0ED0AB0EE0AB0EF0AB0F00AB0F10A
  B0F20AB0F30AB0F40AB0F50AB0F60AB0F70AB0F80AB0F90AB0FA0AB0FB0AB0FC0AB0FD0AB0FE0A"

/-- tests/test_data/whatwg/big5_whatwg_test_decode_out.txt, part 48 -/
noncomputable def decodeOut47 : List Nat := hex! "E899940AE89A8A0AE89AAA0AE89A930AE89AA40AE89AA90AE89A8C0AE89AA30AE89A9C0AE8A1B00AE8A1B70AE8A2810A
  E8A2820AE8A1BD0AE8A1B90AE8A8980AE8A8900AE8A88E0AE8A88C0AE8A8950AE8A88A0AE8A8970AE8A8930AE8A8960A
  E8A88F0AE8A8910AE8B1880AE8B1BA0AE8B1B90AE8B2A10AE8B2A20AE8B5B70AE8BAAC0AE8BB920AE8BB940AE8BB8F0A
  E8BEB10AE980810AE980860AE8BFB70AE980800AE8BFBA0AE8BFB40AE980830AE8BFBD0AE980850AE8BFB80AE982950A
  E983A10AE9839D0AE983A20AE985920AE9858D0AE9858C0AE987980AE9879D0AE987970AE9879C0AE987990AE996830A
  E999A20AE999A30AE999A10AE9999B0AE9999D0AE999A40AE999980AE9999E0AE99ABB0AE9A3A20AE9A6AC0AE9AAA80A
  E9AB980AE9ACA50AE9ACB20AE9ACBC0AE4B9BE0AE581BA0AE581BD0AE5819C0AE581870AE581830AE5818C0AE5819A0A
  E581890AE581A50AE581B60AE5818E0AE581950AE581B50AE581B40AE581B70AE5818F0AE5808F0AE581AF0AE581AD0A
  E5859C0AE586950AE587B00AE589AA0AE589AF0AE58B920AE58B990AE58B980AE58B950AE58C900AE58C8F0AE58C990A
  E58CBF0AE58D800AE58CBE0AE58F830AE69BBC0AE595860AE595AA0AE595A60AE595840AE5959E0AE595A10AE595830A
  E5958A0AE594B10AE595960AE5958F0AE595950AE594AF0AE595A40AE594B80AE594AE0AE5959C0AE594AC0AE595A30A
  E594B30AE595810AE595970AE59C880AE59C8B0AE59C890AE59F9F0AE5A0850AE5A08A0AE5A0860AE59FA00AE59FA40A
  E59FBA0AE5A0820AE5A0B50AE59FB70AE59FB90AE5A4A00AE5A5A20AE5A8B60AE5A9810AE5A9890AE5A9A60AE5A9AA0A
  E5A9800A"

/-- tests/test_data/whatwg/big5_whatwg_test_encode_in.txt, part 48 -/
noncomputable def encodeIn47 : List Nat := hex! "E899940AE89A8A0AE89AAA0AE89A930AE89AA40AE89AA90AE89A8C0AE89AA30AE89A9C0AE8A1B00AE8A1B70AE8A2810A
  E8A2820AE8A1BD0AE8A1B90AE8A8980AE8A8900AE8A88E0AE8A88C0AE8A8950AE8A88A0AE8A8970AE8A8930AE8A8960A
  E8A88F0AE8A8910AE8B1880AE8B1BA0AE8B1B90AE8B2A10AE8B2A20AE8BAAC0AE8BB920AE8BB940AE8BB8F0AE8BEB10A
  E980810AE980860AE8BFB70AE980800AE8BFBA0AE8BFB40AE980830AE8BFBD0AE980850AE8BFB80AE982950AE983A10A
  E9839D0AE983A20AE985920AE9858D0AE9858C0AE987980AE9879D0AE987970AE9879C0AE987990AE996830AE999A20A
  E999A30AE999A10AE9999B0AE9999D0AE999A40AE999980AE9999E0AE99ABB0AE9A3A20AE9A6AC0AE9AAA80AE9AB980A
  E9ACA50AE9ACB20AE9ACBC0AE4B9BE0AE581BA0AE581BD0AE5819C0AE581870AE581830AE5818C0AE5819A0AE581890A
  E581A50AE581B60AE5818E0AE581950AE581B50AE581B40AE581B70AE5818F0AE5808F0AE581AF0AE581AD0AE5859C0A
  E586950AE587B00AE589AA0AE589AF0AE58B920AE58B990AE58B980AE58B950AE58C900AE58C8F0AE58C990AE58CBF0A
  E58D800AE58CBE0AE58F830AE69BBC0AE595860AE595AA0AE595A60AE595840AE5959E0AE595A10AE595830AE5958A0A
  E594B10AE595960AE5958F0AE595950AE594AF0AE595A40AE594B80AE594AE0AE5959C0AE594AC0AE595A30AE594B30A
  E595810AE595970AE59C880AE59C8B0AE59C890AE59F9F0AE5A0850AE5A08A0AE5A0860AE59FA00AE59FA40AE59FBA0A
  E5A0820AE5A0B50AE59FB70AE59FB90AE5A4A00AE5A5A20AE5A8B60AE5A9810AE5A9890AE5A9A60AE5A9AA0AE5A9800A"

/-- tests/test_data/whatwg/big5_whatwg_test_encode_out.txt, part 48 -/
noncomputable def encodeOut47 : List Nat := hex! "B0400AB0410AB0420AB0430AB0440AB0450AB0460AB0470AB0480AB0490AB04A0AB04B0AB04C0AB04D0AB04E0AB04F0A
  B0500AB0510AB0520AB0530AB0540AB0550AB0560AB0570AB0580AB0590AB05A0AB05B0AB05C0AB05D0AB05E0AB0600A
  B0610AB0620AB0630AB0640AB0650AB0660AB0670AB0680AB0690AB06A0AB06B0AB06C0AB06D0AB06E0AB06F0AB0700A
  B0710AB0720AB0730AB0740AB0750AB0760AB0770AB0780AB0790AB07A0AB07B0AB07C0AB07D0AB07E0AB0A10AB0A20A
  B0A30AB0A40AB0A50AB0A60AB0A70AB0A80AB0A90AB0AA0AB0AB0AB0AC0AB0AD0AB0AE0AB0AF0AB0B00AB0B10AB0B20A
  B0B30AB0B40AB0B50AB0B60AB0B70AB0B80AB0B90AB0BA0AB0BB0AB0BC0AB0BD0AB0BE0AB0BF0AB0C00AB0C10AB0C20A
  B0C30AB0C40AB0C50AB0C60AB0C70AB0C80AB0C90AB0CA0AB0CB0AB0CC0AB0CD0AB0CE0AB0CF0AB0D00AB0D10AB0D20A
  B0D30AB0D40AB0D50AB0D60AB0D70AB0D80AB0D90AB0DA0AB0DB0AB0DC0AB0DD0AB0DE0AB0DF0AB0E00AB0E10AB0E20A
  B0E30AB0E40AB0E50AB0E60AB0E70AB0E80AB0E90AB0EA0AB0EB0AB0EC0AB0ED0AB0EE0AB0EF0AB0F00AB0F10AB0F20A
  B0F30AB0F40AB0F50AB0F60AB0F70AB0F80AB0F90AB0FA0AB0FB0AB0FC0AB0FD0AB0FE0A"

/-- tests/test_data/whatwg/big5_whatwg_test_decode_in.txt, part 49 -/
noncomputable def decodeIn48 : List Nat := hex! "B1400AB1410AB1420AB1430AB1440AB1450AB1460AB1470AB1480AB1490AB14A0AB14B0AB14C0AB14D0AB14E0AB14F0A
  B1500AB1510AB1520AB1530AB1540AB1550AB1560AB1570AB1580AB1590AB15A0AB15B0AB15C0AB15D0AB15E0AB15F0A
  B1600AB1610AB1620AB1630AB1640AB1650AB1660AB1670AB1680AB1690AB16A0AB16B0AB16C0AB16D0AB16E0AB16F0A
  B1700AB1710AB1720AB1730AB1740AB1750AB1760AB1770AB1780AB1790AB17A0AB17B0AB17C0AB17D0AB17E0AB1A10A
  B1A20AB1A30AB1A40AB1A50AB1A60AB1A70AB1A80AB1A90AB1AA0AB1AB0AB1AC0AB1AD0AB1AE0AB1AF0AB1B00AB1B10A
  B1B20AB1B30AB1B40AB1B50AB1B60AB1B70AB1B80AB1B90AB1BA0AB1BB0AB1BC0AB1BD0AB1BE0AB1BF0AB1C00AB1C10A
  B1C20AB1C30AB1C40AB1C50AB1C60AB1C70AB1C80AB1C90AB1CA0AB1CB0AB1CC0AB1CD0AB1CE0AB1CF0AB1D00AB1D10A
  B1D20AB1D30AB1D40AB1D50AB1D60AB1D70AB1D80AB1D90AB1DA0AB1DB0AB1DC0AB1DD0AB1DE0AB1DF0AB1E00AB1E10A
  B1E20AB1E30AB1E40AB1E50AB1E60AB1E70AB1E80AB1E90AB1EA0AB1EB0AB1EC0AB1ED0AB1EE0AB1EF0AB1F00AB1F10A
  B1F20AB1F30AB1F40AB1F50AB1F60AB1F70AB1F80AB1F90AB1FA0AB1FB0AB1FC0AB1FD0AB1FE0A"

/-- tests/test_data/whatwg/big5_whatwg_test_decode_out.txt, part 49 -/
noncomputable def decodeOut48 : List Nat := hex! "E5A8BC0AE5A9A20AE5A99A0AE5A9860AE5A98A0AE5ADB00AE5AF870AE5AF850AE5AF840AE5AF820AE5AEBF0AE5AF860A
  E5B0890AE5B0880AE5B0870AE5B1A00AE5B19C0AE5B19D0AE5B4870AE5B4860AE5B48E0AE5B49B0AE5B4960AE5B4A20A
  E5B4910AE5B4A90AE5B4940AE5B4990AE5B4A40AE5B4A70AE5B4970AE5B7A20AE5B8B80AE5B8B60AE5B8B30AE5B8B70A
  E5BAB70AE5BAB80AE5BAB60AE5BAB50AE5BABE0AE5BCB50AE5BCB70AE5BD970AE5BDAC0AE5BDA90AE5BDAB0AE5BE970A
  E5BE990AE5BE9E0AE5BE980AE5BEA10AE5BEA00AE5BE9C0AE681BF0AE682A30AE682890AE682A00AE682A80AE6838B0A
  E682B40AE683A60AE682BD0AE683850AE682BB0AE682B50AE6839C0AE682BC0AE683980AE683950AE683860AE6839F0A
  E682B80AE6839A0AE683870AE6889A0AE6889B0AE689880AE68EA00AE68EA70AE68DB20AE68E960AE68EA20AE68EA50A
  E68DB70AE68DA70AE68E980AE68EAA0AE68DB10AE68EA90AE68E890AE68E830AE68E9B0AE68DAB0AE68EA80AE68E840A
  E68E880AE68E990AE68EA10AE68EAC0AE68E920AE68E8F0AE68E800AE68DBB0AE68DA90AE68DA80AE68DBA0AE6959D0A
  E695960AE695910AE695990AE695970AE5959F0AE6958F0AE695980AE695950AE695940AE6969C0AE6969B0AE696AC0A
  E6978F0AE6978B0AE6978C0AE6978E0AE6999D0AE6999A0AE699A40AE699A80AE699A60AE6999E0AE69BB90AE58B970A
  E69C9B0AE6A2810AE6A2AF0AE6A2A20AE6A2930AE6A2B50AE6A1BF0AE6A1B60AE6A2B10AE6A2A70AE6A2970AE6A2B00A
  E6A2830AE6A3840AE6A2AD0AE6A2860AE6A2850AE6A2940AE6A29D0AE6A2A80AE6A29F0AE6A2A10AE6A2820AE6ACB20A
  E6AEBA0A"

/-- tests/test_data/whatwg/big5_whatwg_test_encode_in.txt, part 49 -/
noncomputable def encodeIn48 : List Nat := hex! "E5A8BC0AE5A9A20AE5A99A0AE5A9860AE5A98A0AE5ADB00AE5AF870AE5AF850AE5AF840AE5AF820AE5AEBF0AE5AF860A
  E5B0890AE5B0880AE5B0870AE5B1A00AE5B19C0AE5B19D0AE5B4870AE5B4860AE5B48E0AE5B49B0AE5B4960AE5B4A20A
  E5B4910AE5B4A90AE5B4940AE5B4990AE5B4A40AE5B4A70AE5B4970AE5B7A20AE5B8B80AE5B8B60AE5B8B30AE5B8B70A
  E5BAB70AE5BAB80AE5BAB60AE5BAB50AE5BABE0AE5BCB50AE5BCB70AE5BD970AE5BDAC0AE5BDA90AE5BDAB0AE5BE970A
  E5BE990AE5BE9E0AE5BE980AE5BEA10AE5BEA00AE5BE9C0AE681BF0AE682A30AE682890AE682A00AE682A80AE6838B0A
  E682B40AE683A60AE682BD0AE683850AE682BB0AE682B50AE6839C0AE682BC0AE683980AE683950AE683860AE6839F0A
  E682B80AE6839A0AE683870AE6889A0AE6889B0AE689880AE68EA00AE68EA70AE68DB20AE68E960AE68EA20AE68EA50A
  E68DB70AE68DA70AE68E980AE68EAA0AE68DB10AE68EA90AE68E890AE68E830AE68E9B0AE68DAB0AE68EA80AE68E840A
  E68E880AE68E990AE68EA10AE68EAC0AE68E920AE68E8F0AE68E800AE68DBB0AE68DA90AE68DA80AE68DBA0AE6959D0A
  E695960AE695910AE695990AE695970AE5959F0AE6958F0AE695980AE695950AE695940AE6969C0AE6969B0AE696AC0A
  E6978F0AE6978B0AE6978C0AE6978E0AE6999D0AE6999A0AE699A40AE699A80AE699A60AE6999E0AE69BB90AE58B970A
  E69C9B0AE6A2810AE6A2AF0AE6A2A20AE6A2930AE6A2B50AE6A1BF0AE6A1B60AE6A2B10AE6A2A70AE6A2970AE6A2B00A
  E6A2830AE6A3840AE6A2AD0AE6A2860AE6A2850AE6A2940AE6A29D0AE6A2A80AE6A29F0AE6A2A10AE6A2820AE6ACB20A
  E6AEBA0A"

/-- tests/test_data/whatwg/big5_whatwg_test_encode_out.txt, part 49 -/
noncomputable def encodeOut48 : List Nat := hex! "B1400AB1410AB1420AB1430AB1440AB1450AB1460AB1470AB1480AB1490AB14A0AB14B0AB14C0AB14D0AB14E0AB14F0A
  B1500AB1510AB1520AB1530AB1540AB1550AB1560AB1570AB1580AB1590AB15A0AB15B0AB15C0AB15D0AB15E0AB15F0A
  B1600AB1610AB1620AB1630AB1640AB1650AB1660AB1670AB1680AB1690AB16A0AB16B0AB16C0AB16D0AB16E0AB16F0A
  B1700AB1710AB1720AB1730AB1740AB1750AB1760AB1770AB1780AB1790AB17A0AB17B0AB17C0AB17D0AB17E0AB1A10A
  B1A20AB1A30AB1A40AB1A50AB1A60AB1A70AB1A80AB1A90AB1AA0AB1AB0AB1AC0AB1AD0AB1AE0AB1AF0AB1B00AB1B10A
  B1B20AB1B30AB1B40AB1B50AB1B60AB1B70AB1B80AB1B90AB1BA0AB1BB0AB1BC0AB1BD0AB1BE0AB1BF0AB1C00AB1C10A
  B1C20AB1C30AB1C40AB1C50AB1C60AB1C70AB1C80AB1C90AB1CA0AB1CB0AB1CC0AB1CD0AB1CE0AB1CF0AB1D00AB1D10A
  B1D20AB1D30AB1D40AB1D50AB1D60AB1D70AB1D80AB1D90AB1DA0AB1DB0AB1DC0AB1DD0AB1DE0AB1DF0AB1E00AB1E10A
  B1E20AB1E30AB1E40AB1E50AB1E60AB1E70AB1E80AB1E90AB1EA0AB1EB0AB1EC0AB1ED0AB1EE0AB1EF0AB1F00AB1F10A
  B1F20AB1F30AB1F40AB1F50AB1F60AB1F70AB1F80AB1F90AB1FA0AB1FB0AB1FC0AB1FD0AB1FE0A"

/-- tests/test_data/whatwg/big5_whatwg_test_decode_in.txt, part 50 -/
noncomputable def decodeIn49 : List Nat := hex! "B2400AB2410AB2420AB2430AB2440AB2450AB2460AB2470AB2480AB2490AB24A0AB24B0AB24C0AB24D0AB24E0AB24F0A
  B2500AB2510AB2520AB2530AB2540AB2550AB2560AB2570AB2580AB2590AB25A0AB25B0AB25C0AB25D0AB25E0AB25F0A
  B2600AB2610AB2620AB2630AB2640AB2650AB2660AB2670AB2680AB2690AB26A0AB26B0AB26C0AB26D0AB26E0AB26F0A
  B2700AB2710AB2720AB2730AB2740AB2750AB2760AB2770AB2780AB2790AB27A0AB27B0AB27C0AB27D0AB27E0AB2A10A
  B2A20AB2A30AB2A40AB2A50AB2A60AB2A70AB2A80AB2A90AB2AA0AB2AB0AB2AC0AB2AD0AB2AE0AB2AF0AB2B00AB2B10A
  B2B20AB2B30AB2B40AB2B50AB2B60AB2B70AB2B80AB2B90AB2BA0AB2BB0AB2BC0AB2BD0AB2BE0AB2BF0AB2C00AB2C10A
  B2C20AB2C30AB2C40AB2C50AB2C60AB2C70AB2C80AB2C90AB2CA0AB2CB0AB2CC0AB2CD0AB2CE0AB2CF0AB2D00AB2D10A
  B2D20AB2D30AB2D40AB2D50AB2D60AB2D70AB2D80AB2D90AB2DA0AB2DB0AB2DC0AB2DD0AB2DE0AB2DF0AB2E00AB2E10A
  B2E20AB2E30AB2E40AB2E50AB2E60AB2E70AB2E80AB2E90AB2EA0AB2EB0AB2EC0AB2ED0AB2EE0AB2EF0AB2F00AB2F10A
  B2F20AB2F30AB2F40AB2F50AB2F60AB2F70AB2F80AB2F90AB2FA0AB2FB0AB2FC0AB2FD0AB2FE0A"

/-- tests/test_data/whatwg/big5_whatwg_test_decode_out.txt, part 50 -/
noncomputable def decodeOut49 : List Nat := hex! "E6AFAB0AE6AFAC0AE6B0AB0AE6B68E0AE6B6BC0AE6B7B30AE6B7990AE6B6B20AE6B7A10AE6B78C0AE6B7A40AE6B7BB0A
  E6B7BA0AE6B8850AE6B7870AE6B78B0AE6B6AF0AE6B7910AE6B6AE0AE6B79E0AE6B7B90AE6B6B80AE6B7B70AE6B7B50A
  E6B7850AE6B7920AE6B89A0AE6B6B50AE6B79A0AE6B7AB0AE6B7980AE6B7AA0AE6B7B10AE6B7AE0AE6B7A80AE6B7860A
  E6B7840AE6B6AA0AE6B7AC0AE6B6BF0AE6B7A60AE783B90AE784890AE7848A0AE783BD0AE783AF0AE788BD0AE789BD0A
  E78A810AE78C9C0AE78C9B0AE78C960AE78C930AE78C990AE78E870AE790850AE7908A0AE790830AE790860AE78FBE0A
  E7908D0AE793A00AE793B60AE793B70AE7949C0AE794A20AE795A50AE795A60AE795A20AE795B00AE7968F0AE797940A
  E797950AE796B50AE7978A0AE7978D0AE79A8E0AE79B940AE79B920AE79B9B0AE79CB70AE79CBE0AE79CBC0AE79CB60A
  E79CB80AE79CBA0AE7A1AB0AE7A1830AE7A18E0AE7A5A50AE7A5A80AE7A5AD0AE7A7BB0AE7AA920AE7AA950AE7ACA00A
  E7ACA80AE7AC9B0AE7ACAC0AE7ACA60AE7AC990AE7AC9E0AE7ACAE0AE7B2920AE7B2970AE7B2950AE7B5860AE7B5830A
  E7B5B10AE7B4AE0AE7B4B90AE7B4BC0AE7B5800AE7B4B00AE7B4B30AE7B5840AE7B4AF0AE7B5820AE7B4B20AE7B4B10A
  E7BCBD0AE7BE9E0AE7BE9A0AE7BF8C0AE7BF8E0AE7BF920AE8809C0AE8818A0AE881860AE884AF0AE884960AE884A30A
  E884AB0AE884A90AE884B00AE884A40AE888820AE888B50AE888B70AE888B60AE888B90AE88E8E0AE88E9E0AE88E980A
  E88DB80AE88EA20AE88E960AE88EBD0AE88EAB0AE88E920AE88E8A0AE88E930AE88E890AE88EA00AE88DB70AE88DBB0A
  E88DBC0A"

/-- tests/test_data/whatwg/big5_whatwg_test_encode_in.txt, part 50 -/
noncomputable def encodeIn49 : List Nat := hex! "E6AFAB0AE6AFAC0AE6B0AB0AE6B68E0AE6B6BC0AE6B7B30AE6B7990AE6B6B20AE6B7A10AE6B78C0AE6B7A40AE6B7BB0A
  E6B7BA0AE6B8850AE6B7870AE6B78B0AE6B6AF0AE6B7910AE6B6AE0AE6B79E0AE6B7B90AE6B6B80AE6B7B70AE6B7B50A
  E6B7850AE6B7920AE6B89A0AE6B6B50AE6B79A0AE6B7AB0AE6B7980AE6B7AA0AE6B7B10AE6B7AE0AE6B7A80AE6B7860A
  E6B7840AE6B6AA0AE6B7AC0AE6B6BF0AE6B7A60AE783B90AE784890AE7848A0AE783BD0AE783AF0AE788BD0AE789BD0A
  E78A810AE78C9C0AE78C9B0AE78C960AE78C930AE78C990AE78E870AE790850AE7908A0AE790830AE790860AE78FBE0A
  E7908D0AE793A00AE793B60AE793B70AE7949C0AE794A20AE795A50AE795A60AE795A20AE795B00AE7968F0AE797940A
  E797950AE796B50AE7978A0AE7978D0AE79A8E0AE79B940AE79B920AE79B9B0AE79CB70AE79CBE0AE79CBC0AE79CB60A
  E79CB80AE79CBA0AE7A1AB0AE7A1830AE7A18E0AE7A5A50AE7A5A80AE7A5AD0AE7A7BB0AE7AA920AE7AA950AE7ACA00A
  E7ACA80AE7AC9B0AE7ACAC0AE7ACA60AE7AC990AE7AC9E0AE7ACAE0AE7B2920AE7B2970AE7B2950AE7B5860AE7B5830A
  E7B5B10AE7B4AE0AE7B4B90AE7B4BC0AE7B5800AE7B4B00AE7B4B30AE7B5840AE7B4AF0AE7B5820AE7B4B20AE7B4B10A
  E7BCBD0AE7BE9E0AE7BE9A0AE7BF8C0AE7BF8E0AE7BF920AE8809C0AE8818A0AE881860AE884AF0AE884960AE884A30A
  E884AB0AE884A90AE884B00AE884A40AE888820AE888B50AE888B70AE888B60AE888B90AE88E8E0AE88E9E0AE88E980A
  E88DB80AE88EA20AE88E960AE88EBD0AE88EAB0AE88E920AE88E8A0AE88E930AE88E890AE88EA00AE88DB70AE88DBB0A
  E88DBC0A"

/-- tests/test_data/whatwg/big5_whatwg_test_encode_out.txt, part 50 -/
noncomputable def encodeOut49 : List Nat := hex! "B2400AB2410AB2420AB2430AB2440AB2450AB2460AB2470AB2480AB2490AB24A0AB24B0AB24C0AB24D0AB24E0AB24F0A
  B2500AB2510AB2520AB2530AB2540AB2550AB2560AB2570AB2580AB2590AB25A0AB25B0AB25C0AB25D0AB25E0AB25F0A
  B2600AB2610AB2620AB2630AB2640AB2650AB2660AB2670AB2680AB2690AB26A0AB26B0AB26C0AB26D0AB26E0AB26F0A
  B2700AB2710AB2720AB2730AB2740AB2750AB2760AB2770AB2780AB2790AB27A0AB27B0AB27C0AB27D0AB27E0AB2A10A
  B2A20AB2A30AB2A40AB2A50AB2A60AB2A70AB2A80AB2A90AB2AA0AB2AB0AB2AC0AB2AD0AB2AE0AB2AF0AB2B00AB2B10A
  B2B20AB2B30AB2B40AB2B50AB2B60AB2B70AB2B80AB2B90AB2BA0AB2BB0AB2BC0AB2BD0AB2BE0AB2BF0AB2C00AB2C10A
  B2C20AB2C30AB2C40AB2C50AB2C60AB2C70AB2C80AB2C90AB2CA0AB2CB0AB2CC0AB2CD0AB2CE0AB2CF0AB2D00AB2D10A
  B2D20AB2D30AB2D40AB2D50AB2D60AB2D70AB2D80AB2D90AB2DA0AB2DB0AB2DC0AB2DD0AB2DE0AB2DF0AB2E00AB2E10A
  B2E20AB2E30AB2E40AB2E50AB2E60AB2E70AB2E80AB2E90AB2EA0AB2EB0AB2EC0AB2ED0AB2EE0AB2EF0AB2F00AB2F10A
  B2F20AB2F30AB2F40AB2F50AB2F60AB2F70AB2F80AB2F90AB2FA0AB2FB0AB2FC0AB2FD0AB2FE0A"

/-- tests/test_data/whatwg/big5_whatwg_test_decode_in.txt, part 51 -/
noncomputable def decodeIn50 : List Nat := hex! "B3400AB3410AB3420AB3430AB3440AB3450AB3460AB3470AB3480AB3490AB34A0AB34B0AB34C0AB34D0AB34E0AB34F0A
  B3500AB3510AB3520AB3530AB3540AB3550AB3560AB3570AB3580AB3590AB35A0AB35B0AB35C0AB35D0AB35E0AB35F0A
  B3600AB3610AB3620AB3630AB3640AB3650AB3660AB3670AB3680AB3690AB36A0AB36B0AB36C0AB36D0AB36E0AB36F0A
  B3700AB3710AB3720AB3730AB3740AB3750AB3760AB3770AB3780AB3790AB37A0AB37B0AB37C0AB37D0AB37E0AB3A10A
  B3A20AB3A30AB3A40AB3A50AB3A60AB3A70AB3A80AB3A90AB3AA0AB3AB0AB3AC0AB3AD0AB3AE0AB3AF0AB3B00AB3B10A
  B3B20AB3B30AB3B40AB3B50AB3B60AB3B70AB3B80AB3B90AB3BA0AB3BB0AB3BC0AB3BD0AB3BE0AB3BF0AB3C00AB3C10A
  B3C20AB3C30AB3C40AB3C50AB3C60AB3C70AB3C80AB3C90AB3CA0AB3CB0AB3CC0AB3CD0AB3CE0AB3CF0AB3D00AB3D10A
  B3D20AB3D30AB3D40AB3D50AB3D60AB3D70AB3D80AB3D90AB3DA0AB3DB0AB3DC0AB3DD0AB3DE0AB3DF0AB3E00AB3E10A
  B3E20AB3E30AB3E40AB3E50AB3E60AB3E70AB3E80AB3E90AB3EA0AB3EB0AB3EC0AB3ED0AB3EE0AB3EF0AB3F00AB3F10A
  B3F20AB3F30AB3F40AB3F50AB3F60AB3F70AB3F80AB3F90AB3FA0AB3FB0AB3FC0AB3FD0AB3FE0A"

/-- tests/test_data/whatwg/big5_whatwg_test_decode_out.txt, part 51 -/
noncomputable def decodeOut50 : List Nat := hex! "E88E860AE88EA70AE899950AE5BDAA0AE89B870AE89B800AE89AB60AE89B840AE89AB50AE89B860AE89B8B0AE89AB10A
  E89AAF0AE89B890AE8A1930AE8A29E0AE8A2880AE8A2AB0AE8A2920AE8A2960AE8A28D0AE8A28B0AE8A6930AE8A68F0A
  E8A8AA0AE8A89D0AE8A8A30AE8A8A50AE8A8B10AE8A8AD0AE8A89F0AE8A89B0AE8A8A20AE8B1890AE8B19A0AE8B2A90A
  E8B2AC0AE8B2AB0AE8B2A80AE8B2AA0AE8B2A70AE8B5A70AE8B5A60AE8B6BE0AE8B6BA0AE8BB9B0AE8BB9F0AE980990A
  E9808D0AE9809A0AE980970AE980A30AE9809F0AE9809D0AE980900AE980950AE9809E0AE980A00AE9808F0AE980A20A
  E980960AE9809B0AE980940AE983A80AE983AD0AE983BD0AE985970AE9878E0AE987B50AE987A60AE987A30AE987A70A
  E987AD0AE987A90AE996890AE999AA0AE999B50AE999B30AE999B80AE999B00AE999B40AE999B60AE999B70AE999AC0A
  E99B800AE99BAA0AE99BA90AE7ABA00AE7AB9F0AE9A0820AE9A0830AE9AD9A0AE9B3A50AE9B9B50AE9B9BF0AE9BAA50A
  E9BABB0AE582A20AE5828D0AE582850AE582990AE582910AE582800AE582960AE582980AE5829A0AE69C800AE587B10A
  E589B20AE589B40AE589B50AE589A90AE58B9E0AE58B9D0AE58B9B0AE58D9A0AE58EA50AE595BB0AE596800AE596A70A
  E595BC0AE5968A0AE5969D0AE596980AE596820AE5969C0AE596AA0AE596940AE596870AE5968B0AE596830AE596B30A
  E596AE0AE5969F0AE594BE0AE596B20AE5969A0AE596BB0AE596AC0AE596B10AE595BE0AE596890AE596AB0AE596990A
  E59C8D0AE5A0AF0AE5A0AA0AE5A0B40AE5A0A40AE5A0B00AE5A0B10AE5A0A10AE5A09D0AE5A0A00AE5A3B90AE5A3BA0A
  E5A5A00A"

/-- tests/test_data/whatwg/big5_whatwg_test_encode_in.txt, part 51 -/
noncomputable def encodeIn50 : List Nat := hex! "E88E860AE88EA70AE899950AE5BDAA0AE89B870AE89B800AE89AB60AE89B840AE89AB50AE89B860AE89B8B0AE89AB10A
  E89AAF0AE89B890AE8A1930AE8A29E0AE8A2880AE8A2AB0AE8A2920AE8A2960AE8A28D0AE8A28B0AE8A6930AE8A68F0A
  E8A8AA0AE8A89D0AE8A8A30AE8A8A50AE8A8B10AE8A8AD0AE8A89F0AE8A89B0AE8A8A20AE8B1890AE8B19A0AE8B2A90A
  E8B2AC0AE8B2AB0AE8B2A80AE8B2AA0AE8B2A70AE8B5A70AE8B5A60AE8B6BE0AE8B6BA0AE8BB9B0AE8BB9F0AE980990A
  E9808D0AE9809A0AE980970AE980A30AE9809F0AE9809D0AE980900AE980950AE9809E0AE980A00AE9808F0AE980A20A
  E980960AE9809B0AE980940AE983A80AE983AD0AE985970AE9878E0AE987B50AE987A60AE987A30AE987A70AE987AD0A
  E987A90AE996890AE999AA0AE999B50AE999B30AE999B80AE999B00AE999B40AE999B60AE999B70AE999AC0AE99B800A
  E99BAA0AE99BA90AE7ABA00AE7AB9F0AE9A0820AE9A0830AE9AD9A0AE9B3A50AE9B9B50AE9B9BF0AE9BAA50AE9BABB0A
  E582A20AE5828D0AE582850AE582990AE582910AE582800AE582960AE582980AE5829A0AE69C800AE587B10AE589B20A
  E589B40AE589B50AE589A90AE58B9E0AE58B9D0AE58B9B0AE58D9A0AE58EA50AE595BB0AE596800AE596A70AE595BC0A
  E5968A0AE5969D0AE596980AE596820AE5969C0AE596AA0AE596940AE596870AE5968B0AE596830AE596B30AE596AE0A
  E5969F0AE594BE0AE596B20AE5969A0AE596BB0AE596AC0AE596B10AE595BE0AE596890AE596AB0AE596990AE59C8D0A
  E5A0AF0AE5A0AA0AE5A0B40AE5A0A40AE5A0B00AE5A0B10AE5A0A10AE5A09D0AE5A0A00AE5A3B90AE5A3BA0AE5A5A00A"

/-- tests/test_data/whatwg/big5_whatwg_test_encode_out.txt, part 51 -/
noncomputable def encodeOut50 : List Nat := hex! "B3400AB3410AB3420AB3430AB3440AB3450AB3460AB3470AB3480AB3490AB34A0AB34B0AB34C0AB34D0AB34E0AB34F0A
  B3500AB3510AB3520AB3530AB3540AB3550AB3560AB3570AB3580AB3590AB35A0AB35B0AB35C0AB35D0AB35E0AB35F0A
  B3600AB3610AB3620AB3630AB3640AB3650AB3660AB3670AB3680AB3690AB36A0AB36B0AB36C0AB36D0AB36E0AB36F0A
  B3700AB3710AB3720AB3730AB3740AB3750AB3760AB3770AB3780AB3790AB37A0AB37B0AB37C0AB37D0AB37E0AB3A10A
  B3A20AB3A40AB3A50AB3A60AB3A70AB3A80AB3A90AB3AA0AB3AB0AB3AC0AB3AD0AB3AE0AB3AF0AB3B00AB3B10AB3B20A
  B3B30AB3B40AB3B50AB3B60AB3B70AB3B80AB3B90AB3BA0AB3BB0AB3BC0AB3BD0AB3BE0AB3BF0AB3C00AB3C10AB3C20A
  B3C30AB3C40AB3C50AB3C60AB3C70AB3C80AB3C90AB3CA0AB3CB0AB3CC0AB3CD0AB3CE0AB3CF0AB3D00AB3D10AB3D20A
  B3D30AB3D40AB3D50AB3D60AB3D70AB3D80AB3D90AB3DA0AB3DB0AB3DC0AB3DD0AB3DE0AB3DF0AB3E00AB3E10AB3E20A
  B3E30AB3E40AB3E50AB3E60AB3E70AB3E80AB3E90AB3EA0AB3EB0AB3EC0AB3ED0AB3EE0AB3EF0AB3F00AB3F10AB3F20A
  B3F30AB3F40AB3F50AB3F60AB3F70AB3F80AB3F90AB3FA0AB3FB0AB3FC0AB3FD0AB3FE0A"

/-- tests/test_data/whatwg/big5_whatwg_test_decode_in.txt, part 52 -/
noncomputable def decodeIn51 : List Nat := hex! "B4400AB4410AB4420AB4430AB4440AB4450AB4460AB4470AB4480AB4490AB44A0AB44B0AB44C0AB44D0AB44E0AB44F0A
  B4500AB4510AB4520AB4530AB4540AB4550AB4560AB4570AB4580AB4590AB45A0AB45B0AB45C0AB45D0AB45E0AB45F0A
  B4600AB4610AB4620AB4630AB4640AB4650AB4660AB4670AB4680AB4690AB46A0AB46B0AB46C0AB46D0AB46E0AB46F0A
  B4700AB4710AB4720AB4730AB4740AB4750AB4760AB4770AB4780AB4790AB47A0AB47B0AB47C0AB47D0AB47E0AB4A10A
  B4A20AB4A30AB4A40AB4A50AB4A60AB4A70AB4A80AB4A90AB4AA0AB4AB0AB4AC0AB4AD0AB4AE0AB4AF0AB4B00AB4B10A
  B4B20AB4B30AB4B40AB4B50AB4B60AB4B70AB4B80AB4B90AB4BA0AB4BB0AB4BC0AB4BD0AB4BE0AB4BF0AB4C00AB4C10A
  B4C20AB4C30AB4C40AB4C50AB4C60AB4C70AB4C80AB4C90AB4CA0AB4CB0AB4CC0AB4CD0AB4CE0AB4CF0AB4D00AB4D10A
  B4D20AB4D30AB4D40AB4D50AB4D60AB4D70AB4D80AB4D90AB4DA0AB4DB0AB4DC0AB4DD0AB4DE0AB4DF0AB4E00AB4E10A
  B4E20AB4E30AB4E40AB4E50AB4E60AB4E70AB4E80AB4E90AB4EA0AB4EB0AB4EC0AB4ED0AB4EE0AB4EF0AB4F00AB4F10A
  B4F20AB4F30AB4F40AB4F50AB4F60AB4F70AB4F80AB4F90AB4FA0AB4FB0AB4FC0AB4FD0AB4FE0A"

/-- tests/test_data/whatwg/big5_whatwg_test_decode_out.txt, part 52 -/
noncomputable def decodeOut51 : List Nat := hex! "E5A9B70AE5AA9A0AE5A9BF0AE5AA920AE5AA9B0AE5AAA70AE5ADB30AE5ADB10AE5AF920AE5AF8C0AE5AF930AE5AF900A
  E5B08A0AE5B08B0AE5B0B10AE5B58C0AE5B5900AE5B4B40AE5B5870AE5B7BD0AE5B9850AE5B8BD0AE5B9800AE5B9830A
  E5B9BE0AE5BB8A0AE5BB810AE5BB820AE5BB840AE5BCBC0AE5BDAD0AE5BEA90AE5BEAA0AE5BEA80AE683910AE683A10A
  E682B20AE682B60AE683A00AE6849C0AE684A30AE683BA0AE684950AE683B00AE683BB0AE683B40AE685A80AE683B10A
  E6848E0AE683B60AE684890AE684800AE684920AE6889F0AE689890AE68EA30AE68E8C0AE68F8F0AE68F800AE68FA90A
  E68F890AE68F860AE68F8D0AE68F920AE68FA30AE68F900AE68FA10AE68F960AE68FAD0AE68FAE0AE68DB60AE68FB40A
  E68FAA0AE68F9B0AE691920AE68F9A0AE68FB90AE6959E0AE695A60AE695A20AE695A30AE696910AE696900AE696AF0A
  E699AE0AE699B00AE699B40AE699B60AE699AF0AE69A910AE699BA0AE699BE0AE699B70AE69BBE0AE69BBF0AE69C9F0A
  E69C9D0AE6A3BA0AE6A3950AE6A3A00AE6A3980AE6A3970AE6A4850AE6A39F0AE6A3B50AE6A3AE0AE6A3A70AE6A3B90A
  E6A3920AE6A3B20AE6A3A30AE6A38B0AE6A38D0AE6A48D0AE6A4920AE6A48E0AE6A3890AE6A39A0AE6A5AE0AE6A3BB0A
  E6ACBE0AE6ACBA0AE6ACBD0AE6AE980AE6AE960AE6AEBC0AE6AFAF0AE6B0AE0AE6B0AF0AE6B0AC0AE6B8AF0AE6B8B80A
  E6B9940AE6B8A10AE6B8B20AE6B9A70AE6B98A0AE6B8A00AE6B8A50AE6B8A30AE6B89B0AE6B99B0AE6B9980AE6B8A40A
  E6B9960AE6B9AE0AE6B8AD0AE6B8A60AE6B9AF0AE6B8B40AE6B98D0AE6B8BA0AE6B8AC0AE6B9830AE6B89D0AE6B8BE0A
  E6BB8B0A"

/-- tests/test_data/whatwg/big5_whatwg_test_encode_in.txt, part 52 -/
noncomputable def encodeIn51 : List Nat := hex! "E5A9B70AE5AA9A0AE5A9BF0AE5AA920AE5AA9B0AE5AAA70AE5ADB30AE5ADB10AE5AF920AE5AF8C0AE5AF930AE5AF900A
  E5B08A0AE5B08B0AE5B0B10AE5B58C0AE5B5900AE5B4B40AE5B5870AE5B7BD0AE5B9850AE5B8BD0AE5B9800AE5B9830A
  E5B9BE0AE5BB8A0AE5BB810AE5BB820AE5BB840AE5BCBC0AE5BDAD0AE5BEA90AE5BEAA0AE5BEA80AE683910AE683A10A
  E682B20AE682B60AE683A00AE6849C0AE684A30AE683BA0AE684950AE683B00AE683BB0AE683B40AE685A80AE683B10A
  E6848E0AE683B60AE684890AE684800AE684920AE6889F0AE689890AE68EA30AE68E8C0AE68F8F0AE68F800AE68FA90A
  E68F890AE68F860AE68F8D0AE68F920AE68FA30AE68F900AE68FA10AE68F960AE68FAD0AE68FAE0AE68DB60AE68FB40A
  E68FAA0AE68F9B0AE691920AE68F9A0AE68FB90AE6959E0AE695A60AE695A20AE695A30AE696910AE696900AE696AF0A
  E699AE0AE699B00AE699B40AE699B60AE699AF0AE69A910AE699BA0AE699BE0AE699B70AE69BBE0AE69BBF0AE69C9F0A
  E69C9D0AE6A3BA0AE6A3950AE6A3A00AE6A3980AE6A3970AE6A4850AE6A39F0AE6A3B50AE6A3AE0AE6A3A70AE6A3B90A
  E6A3920AE6A3B20AE6A3A30AE6A38B0AE6A38D0AE6A48D0AE6A4920AE6A48E0AE6A3890AE6A39A0AE6A5AE0AE6A3BB0A
  E6ACBE0AE6ACBA0AE6ACBD0AE6AE980AE6AE960AE6AEBC0AE6AFAF0AE6B0AE0AE6B0AF0AE6B0AC0AE6B8AF0AE6B8B80A
  E6B9940AE6B8A10AE6B8B20AE6B9A70AE6B98A0AE6B8A00AE6B8A50AE6B8A30AE6B89B0AE6B99B0AE6B9980AE6B8A40A
  E6B9960AE6B9AE0AE6B8AD0AE6B8A60AE6B9AF0AE6B8B40AE6B98D0AE6B8BA0AE6B8AC0AE6B9830AE6B89D0AE6B8BE0A
  E6BB8B0A"

/-- tests/test_data/whatwg/big5_whatwg_test_encode_out.txt, part 52 -/
noncomputable def encodeOut51 : List Nat := hex! "B4400AB4410AB4420AB4430AB4440AB4450AB4460AB4470AB4480AB4490AB44A0AB44B0AB44C0AB44D0AB44E0AB44F0A
  B4500AB4510AB4520AB4530AB4540AB4550AB4560AB4570AB4580AB4590AB45A0AB45B0AB45C0AB45D0AB45E0AB45F0A
  B4600AB4610AB4620AB4630AB4640AB4650AB4660AB4670AB4680AB4690AB46A0AB46B0AB46C0AB46D0AB46E0AB46F0A
  B4700AB4710AB4720AB4730AB4740AB4750AB4760AB4770AB4780AB4790AB47A0AB47B0AB47C0AB47D0AB47E0AB4A10A
  B4A20AB4A30AB4A40AB4A50AB4A60AB4A70AB4A80AB4A90AB4AA0AB4AB0AB4AC0AB4AD0AB4AE0AB4AF0AB4B00AB4B10A
  B4B20AB4B30AB4B40AB4B50AB4B60AB4B70AB4B80AB4B90AB4BA0AB4BB0AB4BC0AB4BD0AB4BE0AB4BF0AB4C00AB4C10A
  B4C20AB4C30AB4C40AB4C50AB4C60AB4C70AB4C80AB4C90AB4CA0AB4CB0AB4CC0AB4CD0AB4CE0AB4CF0AB4D00AB4D10A
  B4D20AB4D30AB4D40AB4D50AB4D60AB4D70AB4D80AB4D90AB4DA0AB4DB0AB4DC0AB4DD0AB4DE0AB4DF0AB4E00AB4E10A
  B4E20AB4E30AB4E40AB4E50AB4E60AB4E70AB4E80AB4E90AB4EA0AB4EB0AB4EC0AB4ED0AB4EE0AB4EF0AB4F00AB4F10A
  B4F20AB4F30AB4F40AB4F50AB4F60AB4F70AB4F80AB4F90AB4FA0AB4FB0AB4FC0AB4FD0AB4FE0A"

/-- tests/test_data/whatwg/big5_whatwg_test_decode_in.txt, part 53 -/
noncomputable def decodeIn52 : List Nat := hex! "B5400AB5410AB5420AB5430AB5440AB5450AB5460AB5470AB5480AB5490AB54A0AB54B0AB54C0AB54D0AB54E0AB54F0A
  B5500AB5510AB5520AB5530AB5540AB5550AB5560AB5570AB5580AB5590AB55A0AB55B0AB55C0AB55D0AB55E0AB55F0A
  B5600AB5610AB5620AB5630AB5640AB5650AB5660AB5670AB5680AB5690AB56A0AB56B0AB56C0AB56D0AB56E0AB56F0A
  B5700AB5710AB5720AB5730AB5740AB5750AB5760AB5770AB5780AB5790AB57A0AB57B0AB57C0AB57D0AB57E0AB5A10A
  B5A20AB5A30AB5A40AB5A50AB5A60AB5A70AB5A80AB5A90AB5AA0AB5AB0AB5AC0AB5AD0AB5AE0AB5AF0AB5B00AB5B10A
  B5B20AB5B30AB5B40AB5B50AB5B60AB5B70AB5B80AB5B90AB5BA0AB5BB0AB5BC0AB5BD0AB5BE0AB5BF0AB5C00AB5C10A
  B5C20AB5C30AB5C40AB5C50AB5C60AB5C70AB5C80AB5C90AB5CA0AB5CB0AB5CC0AB5CD0AB5CE0AB5CF0AB5D00AB5D10A
  B5D20AB5D30AB5D40AB5D50AB5D60AB5D70AB5D80AB5D90AB5DA0AB5DB0AB5DC0AB5DD0AB5DE0AB5DF0AB5E00AB5E10A
  B5E20AB5E30AB5E40AB5E50AB5E60AB5E70AB5E80AB5E90AB5EA0AB5EB0AB5EC0AB5ED0AB5EE0AB5EF0AB5F00AB5F10A
  B5F20AB5F30AB5F40AB5F50AB5F60AB5F70AB5F80AB5F90AB5FA0AB5FB0AB5FC0AB5FD0AB5FE0A"

/-- tests/test_data/whatwg/big5_whatwg_test_decode_out.txt, part 53 -/
noncomputable def decodeOut52 : List Nat := hex! "E6BA890AE6B8990AE6B98E0AE6B9A30AE6B9840AE6B9B20AE6B9A90AE6B99F0AE784990AE7849A0AE784A60AE784B00A
  E784A10AE784B60AE785AE0AE7849C0AE7898C0AE78A840AE78A800AE78CB60AE78CA50AE78CB40AE78CA90AE790BA0A
  E790AA0AE790B30AE790A20AE790A50AE790B50AE790B60AE790B40AE790AF0AE7909B0AE790A60AE790A80AE794A50A
  E794A60AE795AB0AE795AA0AE797A20AE7979B0AE797A30AE797990AE797980AE7979E0AE797A00AE799BB0AE799BC0A
  E79A960AE79A930AE79AB40AE79B9C0AE79D8F0AE79FAD0AE7A19D0AE7A1AC0AE7A1AF0AE7A88D0AE7A8880AE7A88B0A
  E7A8850AE7A8800AE7AA980AE7AA970AE7AA960AE7ABA50AE7ABA30AE7AD890AE7AD960AE7AD860AE7AD900AE7AD920A
  E7AD940AE7AD8D0AE7AD8B0AE7AD8F0AE7AD910AE7B29F0AE7B2A50AE7B59E0AE7B5900AE7B5A80AE7B5950AE7B4AB0A
  E7B5AE0AE7B5B20AE7B5A10AE7B5A60AE7B5A20AE7B5B00AE7B5B30AE596840AE7BF940AE7BF950AE8808B0AE881920A
  E882850AE885950AE885940AE8858B0AE885910AE8858E0AE884B90AE885860AE884BE0AE8858C0AE885930AE885B40A
  E888920AE8889C0AE88FA90AE890830AE88FB80AE8908D0AE88FA00AE88F850AE8908B0AE88F810AE88FAF0AE88FB10A
  E88FB40AE891970AE8908A0AE88FB00AE8908C0AE88F8C0AE88FBD0AE88FB20AE88F8A0AE890B80AE8908E0AE890840A
  E88F9C0AE890870AE88F940AE88F9F0AE8999B0AE89B9F0AE89B990AE89BAD0AE89B940AE89B9B0AE89BA40AE89B900A
  E89B9E0AE8A1970AE8A3810AE8A3820AE8A2B10AE8A6830AE8A6960AE8A8BB0AE8A9A00AE8A9950AE8A99E0AE8A8BC0A
  E8A9810A"

/-- tests/test_data/whatwg/big5_whatwg_test_encode_in.txt, part 53 -/
noncomputable def encodeIn52 : List Nat := hex! "E6BA890AE6B8990AE6B98E0AE6B9A30AE6B9840AE6B9B20AE6B9A90AE6B99F0AE784990AE7849A0AE784A60AE784B00A
  E784A10AE784B60AE785AE0AE7849C0AE7898C0AE78A840AE78A800AE78CB60AE78CA50AE78CB40AE78CA90AE790BA0A
  E790AA0AE790B30AE790A20AE790A50AE790B50AE790B60AE790B40AE790AF0AE7909B0AE790A60AE790A80AE794A50A
  E794A60AE795AB0AE795AA0AE797A20AE7979B0AE797A30AE797990AE797980AE7979E0AE797A00AE799BB0AE799BC0A
  E79A960AE79A930AE79AB40AE79B9C0AE79D8F0AE79FAD0AE7A19D0AE7A1AC0AE7A1AF0AE7A88D0AE7A8880AE7A88B0A
  E7A8850AE7A8800AE7AA980AE7AA970AE7AA960AE7ABA50AE7ABA30AE7AD890AE7AD960AE7AD860AE7AD900AE7AD920A
  E7AD940AE7AD8D0AE7AD8B0AE7AD8F0AE7B29F0AE7B2A50AE7B59E0AE7B5900AE7B5A80AE7B5950AE7B4AB0AE7B5AE0A
  E7B5B20AE7B5A10AE7B5A60AE7B5A20AE7B5B00AE7B5B30AE596840AE7BF940AE7BF950AE8808B0AE881920AE882850A
  E885950AE885940AE8858B0AE885910AE8858E0AE884B90AE885860AE884BE0AE8858C0AE885930AE885B40AE888920A
  E8889C0AE88FA90AE890830AE88FB80AE8908D0AE88FA00AE88F850AE8908B0AE88FAF0AE88FB10AE88FB40AE891970A
  E8908A0AE88FB00AE8908C0AE88F8C0AE88FBD0AE88FB20AE88F8A0AE890B80AE8908E0AE890840AE88F9C0AE890870A
  E88F940AE88F9F0AE8999B0AE89B9F0AE89B990AE89BAD0AE89B940AE89B9B0AE89BA40AE89B900AE89B9E0AE8A1970A
  E8A3810AE8A3820AE8A2B10AE8A6830AE8A6960AE8A8BB0AE8A9A00AE8A9950AE8A99E0AE8A8BC0AE8A9810A"

/-- tests/test_data/whatwg/big5_whatwg_test_encode_out.txt, part 53 -/
noncomputable def encodeOut52 : List Nat := hex! "B5400AB5410AB5420AB5430AB5440AB5450AB5460AB5470AB5480AB5490AB54A0AB54B0AB54C0AB54D0AB54E0AB54F0A
  B5500AB5510AB5520AB5530AB5540AB5550AB5560AB5570AB5580AB5590AB55A0AB55B0AB55C0AB55D0AB55E0AB55F0A
  B5600AB5610AB5620AB5630AB5640AB5650AB5660AB5670AB5680AB5690AB56A0AB56B0AB56C0AB56D0AB56E0AB56F0A
  B5700AB5710AB5720AB5730AB5740AB5750AB5760AB5770AB5780AB5790AB57A0AB57B0AB57C0AB57D0AB57E0AB5A10A
  B5A20AB5A30AB5A40AB5A50AB5A60AB5A70AB5A80AB5A90AB5AA0AB5AB0AB5AC0AB5AD0AB5AF0AB5B00AB5B10AB5B20A
  B5B30AB5B40AB5B50AB5B60AB5B70AB5B80AB5B90AB5BA0AB5BB0AB5BC0AB5BD0AB5BE0AB5BF0AB5C00AB5C10AB5C20A
  B5C30AB5C40AB5C50AB5C60AB5C70AB5C80AB5C90AB5CA0AB5CB0AB5CC0AB5CD0AB5CE0AB5CF0AB5D00AB5D10AB5D20A
  B5D30AB5D40AB5D50AB5D60AB5D80AB5D90AB5DA0AB5DB0AB5DC0AB5DD0AB5DE0AB5DF0AB5E00AB5E10AB5E20AB5E30A
  B5E40AB5E50AB5E60AB5E70AB5E80AB5E90AB5EA0AB5EB0AB5EC0AB5ED0AB5EE0AB5EF0AB5F00AB5F10AB5F20AB5F30A
  B5F40AB5F50AB5F60AB5F70AB5F80AB5F90AB5FA0AB5FB0AB5FC0AB5FD0AB5FE0A"

/-- tests/test_data/whatwg/big5_whatwg_test_decode_in.txt, part 54 -/
noncomputable def decodeIn53 : List Nat := hex! "B6400AB6410AB6420AB6430AB6440AB6450AB6460AB6470AB6480AB6490AB64A0AB64B0AB64C0AB64D0AB64E0AB64F0A
  B6500AB6510AB6520AB6530AB6540AB6550AB6560AB6570AB6580AB6590AB65A0AB65B0AB65C0AB65D0AB65E0AB65F0A
  B6600AB6610AB6620AB6630AB6640AB6650AB6660AB6670AB6680AB6690AB66A0AB66B0AB66C0AB66D0AB66E0AB66F0A
  B6700AB6710AB6720AB6730AB6740AB6750AB6760AB6770AB6780AB6790AB67A0AB67B0AB67C0AB67D0AB67E0AB6A10A
  B6A20AB6A30AB6A40AB6A50AB6A60AB6A70AB6A80AB6A90AB6AA0AB6AB0AB6AC0AB6AD0AB6AE0AB6AF0AB6B00AB6B10A
  B6B20AB6B30AB6B40AB6B50AB6B60AB6B70AB6B80AB6B90AB6BA0AB6BB0AB6BC0AB6BD0AB6BE0AB6BF0AB6C00AB6C10A
  B6C20AB6C30AB6C40AB6C50AB6C60AB6C70AB6C80AB6C90AB6CA0AB6CB0AB6CC0AB6CD0AB6CE0AB6CF0AB6D00AB6D10A
  B6D20AB6D30AB6D40AB6D50AB6D60AB6D70AB6D80AB6D90AB6DA0AB6DB0AB6DC0AB6DD0AB6DE0AB6DF0AB6E00AB6E10A
  B6E20AB6E30AB6E40AB6E50AB6E60AB6E70AB6E80AB6E90AB6EA0AB6EB0AB6EC0AB6ED0AB6EE0AB6EF0AB6F00AB6F10A
  B6F20AB6F30AB6F40AB6F50AB6F60AB6F70AB6F80AB6F90AB6FA0AB6FB0AB6FC0AB6FD0AB6FE0A"

/-- tests/test_data/whatwg/big5_whatwg_test_decode_out.txt, part 54 -/
noncomputable def decodeOut53 : List Nat := hex! "E8A9940AE8A99B0AE8A9900AE8A9860AE8A8B40AE8A8BA0AE8A8B60AE8A9960AE8B1A10AE8B2820AE8B2AF0AE8B2BC0A
  E8B2B30AE8B2BD0AE8B3810AE8B2BB0AE8B3800AE8B2B40AE8B2B70AE8B2B60AE8B2BF0AE8B2B80AE8B68A0AE8B6850A
  E8B6810AE8B78E0AE8B79D0AE8B78B0AE8B79A0AE8B7910AE8B78C0AE8B79B0AE8B7860AE8BBBB0AE8BBB80AE8BBBC0A
  E8BE9C0AE980AE0AE980B50AE980B10AE980B80AE980B20AE980B60AE984820AE983B50AE984890AE983BE0AE985A30A
  E985A50AE9878F0AE988940AE988950AE988A30AE988890AE9889E0AE9888D0AE988900AE988870AE988910AE996940A
  E9968F0AE9968B0AE996910AE996930AE996920AE9968E0AE99A8A0AE99A8E0AE99A8B0AE999BD0AE99A850AE99A860A
  E99A8D0AE999B20AE99A840AE99B810AE99B850AE99B840AE99B860AE99B870AE99BAF0AE99BB20AE99F8C0AE9A0850A
  E9A0860AE9A0880AE9A3A70AE9A3AA0AE9A3AF0AE9A3A90AE9A3B20AE9A3AD0AE9A6AE0AE9A6AD0AE9BB830AE9BB8D0A
  E9BB910AE4BA820AE582AD0AE582B50AE582B20AE582B30AE583850AE582BE0AE582AC0AE582B70AE582BB0AE582AF0A
  E583870AE589BF0AE589B70AE589BD0AE58B9F0AE58BA60AE58BA40AE58BA20AE58BA30AE58CAF0AE5979F0AE597A80A
  E597930AE597A60AE5978E0AE5979C0AE597870AE597910AE597A30AE597A40AE597AF0AE5979A0AE597A10AE597850A
  E597860AE597A50AE597890AE59C920AE59C930AE5A19E0AE5A1910AE5A1980AE5A1970AE5A19A0AE5A1940AE5A1AB0A
  E5A18C0AE5A1AD0AE5A18A0AE5A1A20AE5A1920AE5A18B0AE5A5A70AE5AB810AE5AB890AE5AB8C0AE5AABE0AE5AABD0A
  E5AABC0A"

/-- tests/test_data/whatwg/big5_whatwg_test_encode_in.txt, part 54 -/
noncomputable def encodeIn53 : List Nat := hex! "E8A9940AE8A99B0AE8A9900AE8A9860AE8A8B40AE8A8BA0AE8A8B60AE8A9960AE8B1A10AE8B2820AE8B2AF0AE8B2BC0A
  E8B2B30AE8B2BD0AE8B3810AE8B2BB0AE8B3800AE8B2B40AE8B2B70AE8B2B60AE8B2BF0AE8B2B80AE8B68A0AE8B6850A
  E8B6810AE8B78E0AE8B79D0AE8B78B0AE8B79A0AE8B7910AE8B78C0AE8B79B0AE8B7860AE8BBBB0AE8BBB80AE8BBBC0A
  E8BE9C0AE980AE0AE980B50AE980B10AE980B80AE980B20AE980B60AE984820AE983B50AE984890AE983BE0AE985A30A
  E985A50AE9878F0AE988940AE988950AE988A30AE988890AE9889E0AE9888D0AE988900AE988870AE988910AE996940A
  E9968F0AE9968B0AE996910AE996930AE996920AE9968E0AE99A8A0AE99A8E0AE99A8B0AE999BD0AE99A850AE99A860A
  E99A8D0AE999B20AE99A840AE99B810AE99B850AE99B840AE99B860AE99B870AE99BAF0AE99BB20AE99F8C0AE9A0850A
  E9A0860AE9A0880AE9A3A70AE9A3AA0AE9A3AF0AE9A3A90AE9A3B20AE9A3AD0AE9A6AE0AE9A6AD0AE9BB830AE9BB8D0A
  E9BB910AE4BA820AE582AD0AE582B50AE582B20AE582B30AE583850AE582BE0AE582AC0AE582B70AE582BB0AE582AF0A
  E583870AE589BF0AE589B70AE589BD0AE58B9F0AE58BA60AE58BA40AE58BA20AE58BA30AE58CAF0AE5979F0AE597A80A
  E597930AE597A60AE5978E0AE5979C0AE597870AE597910AE597A30AE597A40AE597AF0AE5979A0AE597A10AE597850A
  E597860AE597A50AE597890AE59C920AE59C930AE5A19E0AE5A1910AE5A1980AE5A1970AE5A19A0AE5A1940AE5A1AB0A
  E5A18C0AE5A1AD0AE5A18A0AE5A1A20AE5A1920AE5A18B0AE5A5A70AE5AB810AE5AB890AE5AB8C0AE5AABE0AE5AABD0A
  E5AABC0A"

/-- tests/test_data/whatwg/big5_whatwg_test_encode_out.txt, part 54 -/
noncomputable def encodeOut53 : List Nat := hex! "B6400AB6410AB6420AB6430AB6440AB6450AB6460AB6470AB6480AB6490AB64A0AB64B0AB64C0AB64D0AB64E0AB64F0A
  B6500AB6510AB6520AB6530AB6540AB6550AB6560AB6570AB6580AB6590AB65A0AB65B0AB65C0AB65D0AB65E0AB65F0A
  B6600AB6610AB6620AB6630AB6640AB6650AB6660AB6670AB6680AB6690AB66A0AB66B0AB66C0AB66D0AB66E0AB66F0A
  B6700AB6710AB6720AB6730AB6740AB6750AB6760AB6770AB6780AB6790AB67A0AB67B0AB67C0AB67D0AB67E0AB6A10A
  B6A20AB6A30AB6A40AB6A50AB6A60AB6A70AB6A80AB6A90AB6AA0AB6AB0AB6AC0AB6AD0AB6AE0AB6AF0AB6B00AB6B10A
  B6B20AB6B30AB6B40AB6B50AB6B60AB6B70AB6B80AB6B90AB6BA0AB6BB0AB6BC0AB6BD0AB6BE0AB6BF0AB6C00AB6C10A
  B6C20AB6C30AB6C40AB6C50AB6C60AB6C70AB6C80AB6C90AB6CA0AB6CB0AB6CC0AB6CD0AB6CE0AB6CF0AB6D00AB6D10A
  B6D20AB6D30AB6D40AB6D50AB6D60AB6D70AB6D80AB6D90AB6DA0AB6DB0AB6DC0AB6DD0AB6DE0AB6DF0AB6E00AB6E10A
  B6E20AB6E30AB6E40AB6E50AB6E60AB6E70AB6E80AB6E90AB6EA0AB6EB0AB6EC0AB6ED0AB6EE0AB6EF0AB6F00AB6F10A
  B6F20AB6F30AB6F40AB6F50AB6F60AB6F70AB6F80AB6F90AB6FA0AB6FB0AB6FC0AB6FD0AB6FE0A"

/-- tests/test_data/whatwg/big5_whatwg_test_decode_in.txt, part 55 -/
noncomputable def decodeIn54 : List Nat := hex! "B7400AB7410AB7420AB7430AB7440AB7450AB7460AB7470AB7480AB7490AB74A0AB74B0AB74C0AB74D0AB74E0AB74F0A
  B7500AB7510AB7520AB7530AB7540AB7550AB7560AB7570AB7580AB7590AB75A0AB75B0AB75C0AB75D0AB75E0AB75F0A
  B7600AB7610AB7620AB7630AB7640AB7650AB7660AB7670AB7680AB7690AB76A0AB76B0AB76C0AB76D0AB76E0AB76F0A
  B7700AB7710AB7720AB7730AB7740AB7750AB7760AB7770AB7780AB7790AB77A0AB77B0AB77C0AB77D0AB77E0AB7A10A
  B7A20AB7A30AB7A40AB7A50AB7A60AB7A70AB7A80AB7A90AB7AA0AB7AB0AB7AC0AB7AD0AB7AE0AB7AF0AB7B00AB7B10A
  B7B20AB7B30AB7B40AB7B50AB7B60AB7B70AB7B80AB7B90AB7BA0AB7BB0AB7BC0AB7BD0AB7BE0AB7BF0AB7C00AB7C10A
  B7C20AB7C30AB7C40AB7C50AB7C60AB7C70AB7C80AB7C90AB7CA0AB7CB0AB7CC0AB7CD0AB7CE0AB7CF0AB7D00AB7D10A
  B7D20AB7D30AB7D40AB7D50AB7D60AB7D70AB7D80AB7D90AB7DA0AB7DB0AB7DC0AB7DD0AB7DE0AB7DF0AB7E00AB7E10A
  B7E20AB7E30AB7E40AB7E50AB7E60AB7E70AB7E80AB7E90AB7EA0AB7EB0AB7EC0AB7ED0AB7EE0AB7EF0AB7F00AB7F10A
  B7F20AB7F30AB7F40AB7F50AB7F60AB7F70AB7F80AB7F90AB7FA0AB7FB0AB7FC0AB7FD0AB7FE0A"

/-- tests/test_data/whatwg/big5_whatwg_test_decode_out.txt, part 55 -/
noncomputable def decodeOut54 : List Nat := hex! "E5AAB30AE5AB820AE5AAB20AE5B5A90AE5B5AF0AE5B98C0AE5B9B90AE5BB890AE5BB880AE5BC920AE5BD990AE5BEAC0A
  E5BEAE0AE6849A0AE6848F0AE685880AE6849F0AE683B30AE6849B0AE683B90AE684810AE684880AE6858E0AE6858C0A
  E685840AE6858D0AE684BE0AE684B40AE684A70AE6848D0AE684860AE684B70AE688A10AE688A20AE690930AE690BE0A
  E6909E0AE690AA0AE690AD0AE690BD0AE690AC0AE6908F0AE6909C0AE690940AE6908D0AE690B60AE690960AE690970A
  E690860AE695AC0AE6969F0AE696B00AE69A970AE69A890AE69A870AE69A880AE69A960AE69A840AE69A980AE69A8D0A
  E69C830AE6A6940AE6A5AD0AE6A59A0AE6A5B70AE6A5A00AE6A5940AE6A5B50AE6A4B00AE6A6820AE6A58A0AE6A5A80A
  E6A5AB0AE6A59E0AE6A5930AE6A5B90AE6A6860AE6A59D0AE6A5A30AE6A59B0AE6AD870AE6ADB20AE6AF800AE6AEBF0A
  E6AF930AE6AFBD0AE6BAA20AE6BAAF0AE6BB930AE6BAB60AE6BB820AE6BA900AE6BA9D0AE6BB870AE6BB850AE6BAA50A
  E6BA980AE6BABC0AE6BABA0AE6BAAB0AE6BB910AE6BA960AE6BA9C0AE6BB840AE6BB940AE6BAAA0AE6BAA70AE6BAB40A
  E7858E0AE785990AE785A90AE785A40AE785890AE785A70AE7859C0AE785AC0AE785A60AE7858C0AE785A50AE7859E0A
  E785860AE785A80AE785960AE788BA0AE789920AE78CB70AE78D850AE78CBF0AE78CBE0AE791AF0AE7919A0AE791950A
  E7919F0AE7919E0AE791810AE790BF0AE791990AE7919B0AE7919C0AE795B60AE795B80AE798800AE797B00AE798810A
  E797B20AE797B10AE797BA0AE797BF0AE797B40AE797B30AE79B9E0AE79B9F0AE79D9B0AE79DAB0AE79DA60AE79D9E0A
  E79DA30A"

/-- tests/test_data/whatwg/big5_whatwg_test_encode_in.txt, part 55 -/
noncomputable def encodeIn54 : List Nat := hex! "E5AAB30AE5AB820AE5AAB20AE5B5A90AE5B5AF0AE5B98C0AE5B9B90AE5BB890AE5BB880AE5BC920AE5BD990AE5BEAC0A
  E5BEAE0AE6849A0AE6848F0AE685880AE6849F0AE683B30AE6849B0AE683B90AE684810AE684880AE6858E0AE6858C0A
  E685840AE6858D0AE684BE0AE684B40AE684A70AE6848D0AE684860AE684B70AE688A10AE688A20AE690930AE690BE0A
  E6909E0AE690AA0AE690AD0AE690BD0AE690AC0AE6908F0AE6909C0AE690940AE6908D0AE690B60AE690960AE690970A
  E690860AE695AC0AE6969F0AE696B00AE69A970AE69A890AE69A870AE69A880AE69A960AE69A840AE69A980AE69A8D0A
  E69C830AE6A6940AE6A5AD0AE6A59A0AE6A5B70AE6A5A00AE6A5940AE6A5B50AE6A4B00AE6A6820AE6A58A0AE6A5A80A
  E6A5AB0AE6A59E0AE6A5930AE6A5B90AE6A6860AE6A59D0AE6A5A30AE6A59B0AE6AD870AE6ADB20AE6AF800AE6AEBF0A
  E6AF930AE6AFBD0AE6BAA20AE6BAAF0AE6BB930AE6BAB60AE6BB820AE6BA900AE6BA9D0AE6BB870AE6BB850AE6BAA50A
  E6BA980AE6BABC0AE6BABA0AE6BAAB0AE6BB910AE6BA960AE6BA9C0AE6BB840AE6BB940AE6BAAA0AE6BAA70AE6BAB40A
  E7858E0AE785990AE785A90AE785A40AE785890AE785A70AE7859C0AE785AC0AE785A60AE7858C0AE785A50AE7859E0A
  E785860AE785A80AE785960AE788BA0AE789920AE78CB70AE78D850AE78CBF0AE78CBE0AE791AF0AE7919A0AE791950A
  E7919F0AE7919E0AE791810AE790BF0AE791990AE7919B0AE7919C0AE795B60AE795B80AE798800AE797B00AE798810A
  E797B20AE797B10AE797BA0AE797BF0AE797B40AE797B30AE79B9E0AE79B9F0AE79D9B0AE79DAB0AE79DA60AE79D9E0A
  E79DA30A"

/-- tests/test_data/whatwg/big5_whatwg_test_encode_out.txt, part 55 -/
noncomputable def encodeOut54 : List Nat := hex! "B7400AB7410AB7420AB7430AB7440AB7450AB7460AB7470AB7480AB7490AB74A0AB74B0AB74C0AB74D0AB74E0AB74F0A
  B7500AB7510AB7520AB7530AB7540AB7550AB7560AB7570AB7580AB7590AB75A0AB75B0AB75C0AB75D0AB75E0AB75F0A
  B7600AB7610AB7620AB7630AB7640AB7650AB7660AB7670AB7680AB7690AB76A0AB76B0AB76C0AB76D0AB76E0AB76F0A
  B7700AB7710AB7720AB7730AB7740AB7750AB7760AB7770AB7780AB7790AB77A0AB77B0AB77C0AB77D0AB77E0AB7A10A
  B7A20AB7A30AB7A40AB7A50AB7A60AB7A70AB7A80AB7A90AB7AA0AB7AB0AB7AC0AB7AD0AB7AE0AB7AF0AB7B00AB7B10A
  B7B20AB7B30AB7B40AB7B50AB7B60AB7B70AB7B80AB7B90AB7BA0AB7BB0AB7BC0AB7BD0AB7BE0AB7BF0AB7C00AB7C10A
  B7C20AB7C30AB7C40AB7C50AB7C60AB7C70AB7C80AB7C90AB7CA0AB7CB0AB7CC0AB7CD0AB7CE0AB7CF0AB7D00AB7D10A
  B7D20AB7D30AB7D40AB7D50AB7D60AB7D70AB7D80AB7D90AB7DA0AB7DB0AB7DC0AB7DD0AB7DE0AB7DF0AB7E00AB7E10A
  B7E20AB7E30AB7E40AB7E50AB7E60AB7E70AB7E80AB7E90AB7EA0AB7EB0AB7EC0AB7ED0AB7EE0AB7EF0AB7F00AB7F10A
  B7F20AB7F30AB7F40AB7F50AB7F60AB7F70AB7F80AB7F90AB7FA0AB7FB0AB7FC0AB7FD0AB7FE0A"

/-- tests/test_data/whatwg/big5_whatwg_test_decode_in.txt, part 56 -/
noncomputable def decodeIn55 : List Nat := hex! "B8400AB8410AB8420AB8430AB8440AB8450AB8460AB8470AB8480AB8490AB84A0AB84B0AB84C0AB84D0AB84E0AB84F0A
  B8500AB8510AB8520AB8530AB8540AB8550AB8560AB8570AB8580AB8590AB85A0AB85B0AB85C0AB85D0AB85E0AB85F0A
  B8600AB8610AB8620AB8630AB8640AB8650AB8660AB8670AB8680AB8690AB86A0AB86B0AB86C0AB86D0AB86E0AB86F0A
  B8700AB8710AB8720AB8730AB8740AB8750AB8760AB8770AB8780AB8790AB87A0AB87B0AB87C0AB87D0AB87E0AB8A10A
  B8A20AB8A30AB8A40AB8A50AB8A60AB8A70AB8A80AB8A90AB8AA0AB8AB0AB8AC0AB8AD0AB8AE0AB8AF0AB8B00AB8B10A
  B8B20AB8B30AB8B40AB8B50AB8B60AB8B70AB8B80AB8B90AB8BA0AB8BB0AB8BC0AB8BD0AB8BE0AB8BF0AB8C00AB8C10A
  B8C20AB8C30AB8C40AB8C50AB8C60AB8C70AB8C80AB8C90AB8CA0AB8CB0AB8CC0AB8CD0AB8CE0AB8CF0AB8D00AB8D10A
  B8D20AB8D30AB8D40AB8D50AB8D60AB8D70AB8D80AB8D90AB8DA0AB8DB0AB8DC0AB8DD0AB8DE0AB8DF0AB8E00AB8E10A
  B8E20AB8E30AB8E40AB8E50AB8E60AB8E70AB8E80AB8E90AB8EA0AB8EB0AB8EC0AB8ED0AB8EE0AB8EF0AB8F00AB8F10A
  B8F20AB8F30AB8F40AB8F50AB8F60AB8F70AB8F80AB8F90AB8FA0AB8FB0AB8FC0AB8FD0AB8FE0A"

/-- tests/test_data/whatwg/big5_whatwg_test_decode_out.txt, part 56 -/
noncomputable def decodeOut55 : List Nat := hex! "E79DB90AE79DAA0AE79DAC0AE79D9C0AE79DA50AE79DA80AE79DA20AE79FAE0AE7A28E0AE7A2B00AE7A2970AE7A2980A
  E7A28C0AE7A2890AE7A1BC0AE7A2910AE7A2930AE7A1BF0AE7A5BA0AE7A5BF0AE7A6810AE890AC0AE7A6BD0AE7A89C0A
  E7A89A0AE7A8A00AE7A8940AE7A89F0AE7A89E0AE7AA9F0AE7AAA00AE7ADB70AE7AF800AE7ADA00AE7ADAE0AE7ADA70A
  E7B2B10AE7B2B30AE7B2B50AE7B6930AE7B5B90AE7B6910AE7B6810AE7B68F0AE7B59B0AE7BDAE0AE7BDA90AE7BDAA0A
  E7BDB20AE7BEA90AE7BEA80AE7BEA40AE881960AE881980AE882860AE882840AE885B10AE885B00AE885B80AE885A50A
  E885AE0AE885B30AE885AB0AE885B90AE885BA0AE885A60AE888850AE889870AE892820AE891B70AE890BD0AE890B10A
  E891B50AE891A60AE891AB0AE891890AE891AC0AE8919B0AE890BC0AE890B50AE891A10AE891A30AE891A90AE891AD0A
  E891860AE8999E0AE8999C0AE8999F0AE89BB90AE89C930AE89C880AE89C870AE89C800AE89BBE0AE89BBB0AE89C820A
  E89C830AE89C860AE89C8A0AE8A1990AE8A39F0AE8A3940AE8A3990AE8A39C0AE8A3980AE8A39D0AE8A3A10AE8A38A0A
  E8A3950AE8A3920AE8A69C0AE8A7A30AE8A9AB0AE8A9B20AE8A9B30AE8A9A60AE8A9A90AE8A9B00AE8AA870AE8A9BC0A
  E8A9A30AE8AAA00AE8A9B10AE8AA850AE8A9AD0AE8A9A20AE8A9AE0AE8A9AC0AE8A9B90AE8A9BB0AE8A8BE0AE8A9A80A
  E8B1A20AE8B28A0AE8B2890AE8B38A0AE8B3870AE8B3880AE8B3840AE8B2B20AE8B3830AE8B3820AE8B3850AE8B7A10A
  E8B79F0AE8B7A80AE8B7AF0AE8B7B30AE8B7BA0AE8B7AA0AE8B7A40AE8B7A60AE8BAB20AE8BC830AE8BC890AE8BBBE0A
  E8BC8A0A"

/-- tests/test_data/whatwg/big5_whatwg_test_encode_in.txt, part 56 -/
noncomputable def encodeIn55 : List Nat := hex! "E79DB90AE79DAA0AE79DAC0AE79D9C0AE79DA50AE79DA80AE79DA20AE79FAE0AE7A28E0AE7A2B00AE7A2970AE7A2980A
  E7A28C0AE7A2890AE7A1BC0AE7A2910AE7A2930AE7A1BF0AE7A5BA0AE7A5BF0AE7A6810AE890AC0AE7A6BD0AE7A89C0A
  E7A89A0AE7A8A00AE7A8940AE7A89F0AE7A89E0AE7AA9F0AE7AAA00AE7ADB70AE7AF800AE7ADA00AE7ADAE0AE7ADA70A
  E7B2B10AE7B2B30AE7B2B50AE7B6930AE7B5B90AE7B6910AE7B6810AE7B68F0AE7B59B0AE7BDAE0AE7BDA90AE7BDAA0A
  E7BDB20AE7BEA90AE7BEA80AE7BEA40AE881960AE881980AE882860AE882840AE885B10AE885B00AE885B80AE885A50A
  E885AE0AE885B30AE885AB0AE885B90AE885BA0AE885A60AE888850AE889870AE892820AE891B70AE890BD0AE890B10A
  E891B50AE891A60AE891AB0AE891890AE891AC0AE8919B0AE890BC0AE890B50AE891A10AE891A30AE891A90AE891AD0A
  E891860AE8999E0AE8999C0AE8999F0AE89BB90AE89C930AE89C880AE89C870AE89C800AE89BBE0AE89BBB0AE89C820A
  E89C830AE89C860AE89C8A0AE8A1990AE8A39F0AE8A3940AE8A3990AE8A39C0AE8A3980AE8A39D0AE8A3A10AE8A38A0A
  E8A3950AE8A3920AE8A69C0AE8A7A30AE8A9AB0AE8A9B20AE8A9B30AE8A9A60AE8A9A90AE8A9B00AE8AA870AE8A9BC0A
  E8A9A30AE8AAA00AE8A9B10AE8AA850AE8A9AD0AE8A9A20AE8A9AE0AE8A9AC0AE8A9B90AE8A9BB0AE8A8BE0AE8A9A80A
  E8B1A20AE8B28A0AE8B2890AE8B38A0AE8B3870AE8B3880AE8B3840AE8B2B20AE8B3830AE8B3820AE8B3850AE8B7A10A
  E8B79F0AE8B7A80AE8B7AF0AE8B7B30AE8B7BA0AE8B7AA0AE8B7A40AE8B7A60AE8BAB20AE8BC830AE8BC890AE8BBBE0A
  E8BC8A0A"

/-- tests/test_data/whatwg/big5_whatwg_test_encode_out.txt, part 56 -/
noncomputable def encodeOut55 : List Nat := hex! "B8400AB8410AB8420AB8430AB8440AB8450AB8460AB8470AB8480AB8490AB84A0AB84B0AB84C0AB84D0AB84E0AB84F0A
  B8500AB8510AB8520AB8530AB8540AB8550AB8560AB8570AB8580AB8590AB85A0AB85B0AB85C0AB85D0AB85E0AB85F0A
  B8600AB8610AB8620AB8630AB8640AB8650AB8660AB8670AB8680AB8690AB86A0AB86B0AB86C0AB86D0AB86E0AB86F0A
  B8700AB8710AB8720AB8730AB8740AB8750AB8760AB8770AB8780AB8790AB87A0AB87B0AB87C0AB87D0AB87E0AB8A10A
  B8A20AB8A30AB8A40AB8A50AB8A60AB8A70AB8A80AB8A90AB8AA0AB8AB0AB8AC0AB8AD0AB8AE0AB8AF0AB8B00AB8B10A
  B8B20AB8B30AB8B40AB8B50AB8B60AB8B70AB8B80AB8B90AB8BA0AB8BB0AB8BC0AB8BD0AB8BE0AB8BF0AB8C00AB8C10A
  B8C20AB8C30AB8C40AB8C50AB8C60AB8C70AB8C80AB8C90AB8CA0AB8CB0AB8CC0AB8CD0AB8CE0AB8CF0AB8D00AB8D10A
  B8D20AB8D30AB8D40AB8D50AB8D60AB8D70AB8D80AB8D90AB8DA0AB8DB0AB8DC0AB8DD0AB8DE0AB8DF0AB8E00AB8E10A
  B8E20AB8E30AB8E40AB8E50AB8E60AB8E70AB8E80AB8E90AB8EA0AB8EB0AB8EC0AB8ED0AB8EE0AB8EF0AB8F00AB8F10A
  B8F20AB8F30AB8F40AB8F50AB8F60AB8F70AB8F80AB8F90AB8FA0AB8FB0AB8FC0AB8FD0AB8FE0A"

/-- tests/test_data/whatwg/big5_whatwg_test_decode_in.txt, part 57 -/
noncomputable def decodeIn56 : List Nat := hex! "B9400AB9410AB9420AB9430AB9440AB9450AB9460AB9470AB9480AB9490AB94A0AB94B0AB94C0AB94D0AB94E0AB94F0A
  B9500AB9510AB9520AB9530AB9540AB9550AB9560AB9570AB9580AB9590AB95A0AB95B0AB95C0AB95D0AB95E0AB95F0A
  B9600AB9610AB9620AB9630AB9640AB9650AB9660AB9670AB9680AB9690AB96A0AB96B0AB96C0AB96D0AB96E0AB96F0A
  B9700AB9710AB9720AB9730AB9740AB9750AB9760AB9770AB9780AB9790AB97A0AB97B0AB97C0AB97D0AB97E0AB9A10A
  B9A20AB9A30AB9A40AB9A50AB9A60AB9A70AB9A80AB9A90AB9AA0AB9AB0AB9AC0AB9AD0AB9AE0AB9AF0AB9B00AB9B10A
  B9B20AB9B30AB9B40AB9B50AB9B60AB9B70AB9B80AB9B90AB9BA0AB9BB0AB9BC0AB9BD0AB9BE0AB9BF0AB9C00AB9C10A
  B9C20AB9C30AB9C40AB9C50AB9C60AB9C70AB9C80AB9C90AB9CA0AB9CB0AB9CC0AB9CD0AB9CE0AB9CF0AB9D00AB9D10A
  B9D20AB9D30AB9D40AB9D50AB9D60AB9D70AB9D80AB9D90AB9DA0AB9DB0AB9DC0AB9DD0AB9DE0AB9DF0AB9E00AB9E10A
  B9E20AB9E30AB9E40AB9E50AB9E60AB9E70AB9E80AB9E90AB9EA0AB9EB0AB9EC0AB9ED0AB9EE0AB9EF0AB9F00AB9F10A
  B9F20AB9F30AB9F40AB9F50AB9F60AB9F70AB9F80AB9F90AB9FA0AB9FB0AB9FC0AB9FD0AB9FE0A"

/-- tests/test_data/whatwg/big5_whatwg_test_decode_out.txt, part 57 -/
noncomputable def decodeOut56 : List Nat := hex! "E8BE9F0AE8BEB20AE9818B0AE9818A0AE981930AE981820AE981940AE980BC0AE981950AE981900AE981870AE9818F0A
  E9818E0AE9818D0AE981910AE980BE0AE981810AE984920AE984970AE985AC0AE985AA0AE985A90AE987890AE988B70A
  E989970AE988B80AE988BD0AE989800AE988BE0AE9899B0AE9898B0AE989A40AE989910AE988B40AE989890AE9898D0A
  E989850AE988B90AE988BF0AE9899A0AE996980AE99A980AE99A940AE99A950AE99B8D0AE99B8B0AE99B890AE99B8A0A
  E99BB70AE99BBB0AE99BB90AE99BB60AE99D960AE99DB40AE99DB60AE9A0900AE9A0910AE9A0930AE9A08A0AE9A0920A
  E9A08C0AE9A3BC0AE9A3B40AE9A3BD0AE9A3BE0AE9A6B30AE9A6B10AE9A6B40AE9ABA10AE9B3A90AE9BA820AE9BC8E0A
  E9BC930AE9BCA00AE583A70AE583AE0AE583A50AE583960AE583AD0AE5839A0AE583950AE5838F0AE583910AE583B10A
  E5838E0AE583A90AE585A20AE587B30AE58A830AE58A820AE58CB10AE58EAD0AE597BE0AE598800AE5989B0AE598970A
  E597BD0AE598940AE598860AE598890AE5988D0AE5988E0AE597B70AE598960AE5989F0AE598880AE598900AE597B60A
  E59C980AE59C960AE5A1B50AE5A1BE0AE5A2830AE5A2930AE5A28A0AE5A1B90AE5A2850AE5A1BD0AE5A3BD0AE5A4A50A
  E5A4A20AE5A4A40AE5A5AA0AE5A5A90AE5ABA10AE5ABA60AE5ABA90AE5AB970AE5AB960AE5AB980AE5ABA30AE5ADB50A
  E5AF9E0AE5AFA70AE5AFA10AE5AFA50AE5AFA60AE5AFA80AE5AFA20AE5AFA40AE5AF9F0AE5B08D0AE5B1A20AE5B6840A
  E5B6870AE5B99B0AE5B9A30AE5B9950AE5B9970AE5B9940AE5BB930AE5BB960AE5BC8A0AE5BD860AE5BDB00AE5BEB90A
  E685870A"

/-- tests/test_data/whatwg/big5_whatwg_test_encode_in.txt, part 57 -/
noncomputable def encodeIn56 : List Nat := hex! "E8BE9F0AE8BEB20AE9818B0AE9818A0AE981930AE981820AE981940AE980BC0AE981950AE981900AE981870AE9818F0A
  E9818E0AE9818D0AE981910AE980BE0AE981810AE984920AE984970AE985AC0AE985AA0AE985A90AE987890AE988B70A
  E989970AE988B80AE988BD0AE989800AE988BE0AE9899B0AE9898B0AE989A40AE989910AE988B40AE989890AE9898D0A
  E989850AE988B90AE988BF0AE9899A0AE996980AE99A980AE99A940AE99A950AE99B8D0AE99B8B0AE99B890AE99B8A0A
  E99BB70AE99BBB0AE99BB90AE99BB60AE99D960AE99DB40AE99DB60AE9A0900AE9A0910AE9A0930AE9A08A0AE9A0920A
  E9A08C0AE9A3BC0AE9A3B40AE9A3BD0AE9A3BE0AE9A6B30AE9A6B10AE9A6B40AE9ABA10AE9B3A90AE9BA820AE9BC8E0A
  E9BC930AE9BCA00AE583A70AE583AE0AE583A50AE583960AE5839A0AE583950AE5838F0AE583910AE583B10AE5838E0A
  E583A90AE585A20AE587B30AE58A830AE58A820AE58CB10AE58EAD0AE597BE0AE598800AE5989B0AE598970AE597BD0A
  E598940AE598860AE598890AE5988D0AE5988E0AE597B70AE598960AE5989F0AE598880AE598900AE597B60AE59C980A
  E59C960AE5A1B50AE5A1BE0AE5A2830AE5A2930AE5A28A0AE5A1B90AE5A2850AE5A1BD0AE5A3BD0AE5A4A50AE5A4A20A
  E5A4A40AE5A5AA0AE5A5A90AE5ABA10AE5ABA60AE5ABA90AE5AB970AE5AB960AE5AB980AE5ABA30AE5ADB50AE5AF9E0A
  E5AFA70AE5AFA10AE5AFA50AE5AFA60AE5AFA80AE5AFA20AE5AFA40AE5AF9F0AE5B08D0AE5B1A20AE5B6840AE5B6870A
  E5B99B0AE5B9A30AE5B9950AE5B9970AE5B9940AE5BB930AE5BB960AE5BC8A0AE5BD860AE5BDB00AE5BEB90AE685870A"

/-- tests/test_data/whatwg/big5_whatwg_test_encode_out.txt, part 57 -/
noncomputable def encodeOut56 : List Nat := hex! "B9400AB9410AB9420AB9430AB9440AB9450AB9460AB9470AB9480AB9490AB94A0AB94B0AB94C0AB94D0AB94E0AB94F0A
  B9500AB9510AB9520AB9530AB9540AB9550AB9560AB9570AB9580AB9590AB95A0AB95B0AB95C0AB95D0AB95E0AB95F0A
  B9600AB9610AB9620AB9630AB9640AB9650AB9660AB9670AB9680AB9690AB96A0AB96B0AB96C0AB96D0AB96E0AB96F0A
  B9700AB9710AB9720AB9730AB9740AB9750AB9760AB9770AB9780AB9790AB97A0AB97B0AB97C0AB97D0AB97E0AB9A10A
  B9A20AB9A30AB9A40AB9A50AB9A60AB9A70AB9A80AB9A90AB9AA0AB9AB0AB9AC0AB9AD0AB9AE0AB9AF0AB9B10AB9B20A
  B9B30AB9B40AB9B50AB9B60AB9B70AB9B80AB9B90AB9BA0AB9BB0AB9BC0AB9BD0AB9BE0AB9BF0AB9C00AB9C10AB9C20A
  B9C30AB9C40AB9C50AB9C60AB9C70AB9C80AB9C90AB9CA0AB9CB0AB9CC0AB9CD0AB9CE0AB9CF0AB9D00AB9D10AB9D20A
  B9D30AB9D40AB9D50AB9D60AB9D70AB9D80AB9D90AB9DA0AB9DB0AB9DC0AB9DD0AB9DE0AB9DF0AB9E00AB9E10AB9E20A
  B9E30AB9E40AB9E50AB9E60AB9E70AB9E80AB9E90AB9EA0AB9EB0AB9EC0AB9ED0AB9EE0AB9EF0AB9F00AB9F10AB9F20A
  B9F30AB9F40AB9F50AB9F60AB9F70AB9F80AB9F90AB9FA0AB9FB0AB9FC0AB9FD0AB9FE0A"

/-- tests/test_data/whatwg/big5_whatwg_test_decode_in.txt, part 58 -/
noncomputable def decodeIn57 : List Nat := hex! "BA400ABA410ABA420ABA430ABA440ABA450ABA460ABA470ABA480ABA490ABA4A0ABA4B0ABA4C0ABA4D0ABA4E0ABA4F0A
  BA500ABA510ABA520ABA530ABA540ABA550ABA560ABA570ABA580ABA590ABA5A0ABA5B0ABA5C0ABA5D0ABA5E0ABA5F0A
  BA600ABA610ABA620ABA630ABA640ABA650ABA660ABA670ABA680ABA690ABA6A0ABA6B0ABA6C0ABA6D0ABA6E0ABA6F0A
  BA700ABA710ABA720ABA730ABA740ABA750ABA760ABA770ABA780ABA790ABA7A0ABA7B0ABA7C0ABA7D0ABA7E0ABAA10A
  BAA20ABAA30ABAA40ABAA50ABAA60ABAA70ABAA80ABAA90ABAAA0ABAAB0ABAAC0ABAAD0ABAAE0ABAAF0ABAB00ABAB10A
  BAB20ABAB30ABAB40ABAB50ABAB60ABAB70ABAB80ABAB90ABABA0ABABB0ABABC0ABABD0ABABE0ABABF0ABAC00ABAC10A
  BAC20ABAC30ABAC40ABAC50ABAC60ABAC70ABAC80ABAC90ABACA0ABACB0ABACC0ABACD0ABACE0ABACF0ABAD00ABAD10A
  BAD20ABAD30ABAD40ABAD50ABAD60ABAD70ABAD80ABAD90ABADA0ABADB0ABADC0ABADD0ABADE0ABADF0ABAE00ABAE10A
  BAE20ABAE30ABAE40ABAE50ABAE60ABAE70ABAE80ABAE90ABAEA0ABAEB0ABAEC0ABAED0ABAEE0ABAEF0ABAF00ABAF10A
  BAF20ABAF30ABAF40ABAF50ABAF60ABAF70ABAF80ABAF90ABAFA0ABAFB0ABAFC0ABAFD0ABAFE0A"

/-- tests/test_data/whatwg/big5_whatwg_test_decode_out.txt, part 58 -/
noncomputable def decodeOut57 : List Nat := hex! "E684BF0AE6858B0AE685B70AE685A20AE685A30AE6859F0AE6859A0AE685980AE685B50AE688AA0AE692870AE691980A
  E691940AE692A40AE691B80AE6919F0AE691BA0AE691910AE691A70AE690B40AE691AD0AE691BB0AE695B20AE696A10A
  E697970AE697960AE69AA20AE69AA80AE69A9D0AE6A69C0AE6A6A80AE6A6950AE6A7810AE6A6AE0AE6A7930AE6A78B0A
  E6A69B0AE6A6B70AE6A6BB0AE6A6AB0AE6A6B40AE6A7900AE6A78D0AE6A6AD0AE6A78C0AE6A6A60AE6A7830AE6A6A30A
  E6AD890AE6AD8C0AE6B0B30AE6BCB30AE6BC940AE6BBBE0AE6BC930AE6BBB40AE6BCA90AE6BCBE0AE6BCA00AE6BCAC0A
  E6BC8F0AE6BC820AE6BCA20AE6BBBF0AE6BBAF0AE6BC860AE6BCB10AE6BCB80AE6BCB20AE6BCA30AE6BC950AE6BCAB0A
  E6BCAF0AE6BE880AE6BCAA0AE6BBAC0AE6BC810AE6BBB20AE6BB8C0AE6BBB70AE786940AE786990AE785BD0AE7868A0A
  E786840AE786920AE788BE0AE78A920AE78A960AE78D840AE78D900AE791A40AE791A30AE791AA0AE791B00AE791AD0A
  E794840AE796910AE798A70AE7988D0AE7988B0AE798890AE798930AE79BA10AE79BA30AE79E840AE79DBD0AE79DBF0A
  E79DA10AE7A3810AE7A29F0AE7A2A70AE7A2B30AE7A2A90AE7A2A30AE7A68E0AE7A68F0AE7A68D0AE7A8AE0AE7A8B10A
  E7AAAA0AE7AAA90AE7ABAD0AE7ABAF0AE7AEA10AE7AE950AE7AE8B0AE7ADB50AE7AE970AE7AE9D0AE7AE940AE7AE8F0A
  E7AEB80AE7AE870AE7AE840AE7B2B90AE7B2BD0AE7B2BE0AE7B6BB0AE7B6B00AE7B69C0AE7B6BD0AE7B6BE0AE7B6A00A
  E7B78A0AE7B6B40AE7B6B20AE7B6B10AE7B6BA0AE7B6A20AE7B6BF0AE7B6B50AE7B6B80AE7B6AD0AE7B7920AE7B7870A
  E7B6AC0A"

/-- tests/test_data/whatwg/big5_whatwg_test_encode_in.txt, part 58 -/
noncomputable def encodeIn57 : List Nat := hex! "E684BF0AE6858B0AE685B70AE685A20AE685A30AE6859F0AE6859A0AE685980AE685B50AE688AA0AE692870AE691980A
  E691940AE692A40AE691B80AE6919F0AE691BA0AE691910AE691A70AE690B40AE691AD0AE691BB0AE695B20AE696A10A
  E697970AE697960AE69AA20AE69AA80AE69A9D0AE6A69C0AE6A6A80AE6A6950AE6A7810AE6A6AE0AE6A7930AE6A78B0A
  E6A69B0AE6A6B70AE6A6BB0AE6A6AB0AE6A6B40AE6A7900AE6A78D0AE6A6AD0AE6A78C0AE6A6A60AE6A7830AE6A6A30A
  E6AD890AE6AD8C0AE6B0B30AE6BCB30AE6BC940AE6BBBE0AE6BC930AE6BBB40AE6BCA90AE6BCBE0AE6BCA00AE6BCAC0A
  E6BC8F0AE6BC820AE6BCA20AE6BBBF0AE6BBAF0AE6BC860AE6BCB10AE6BCB80AE6BCB20AE6BCA30AE6BC950AE6BCAB0A
  E6BCAF0AE6BE880AE6BCAA0AE6BBAC0AE6BC810AE6BBB20AE6BB8C0AE6BBB70AE786940AE786990AE785BD0AE7868A0A
  E786840AE786920AE788BE0AE78A920AE78A960AE78D840AE78D900AE791A40AE791A30AE791AA0AE791B00AE791AD0A
  E794840AE796910AE798A70AE7988D0AE7988B0AE798890AE798930AE79BA10AE79BA30AE79E840AE79DBD0AE79DBF0A
  E79DA10AE7A3810AE7A29F0AE7A2A70AE7A2B30AE7A2A90AE7A2A30AE7A68E0AE7A68F0AE7A68D0AE7A8AE0AE7A8B10A
  E7AAAA0AE7AAA90AE7ABAD0AE7ABAF0AE7AEA10AE7AE950AE7AE8B0AE7ADB50AE7AE970AE7AE9D0AE7AE940AE7AE8F0A
  E7AE870AE7AE840AE7B2B90AE7B2BD0AE7B2BE0AE7B6BB0AE7B6B00AE7B69C0AE7B6BD0AE7B6BE0AE7B6A00AE7B78A0A
  E7B6B40AE7B6B20AE7B6B10AE7B6BA0AE7B6A20AE7B6BF0AE7B6B50AE7B6B80AE7B6AD0AE7B7870AE7B6AC0A"

/-- tests/test_data/whatwg/big5_whatwg_test_encode_out.txt, part 58 -/
noncomputable def encodeOut57 : List Nat := hex! "BA400ABA410ABA420ABA430ABA440ABA450ABA460ABA470ABA480ABA490ABA4A0ABA4B0ABA4C0ABA4D0ABA4E0ABA4F0A
  BA500ABA510ABA520ABA530ABA540ABA550ABA560ABA570ABA580ABA590ABA5A0ABA5B0ABA5C0ABA5D0ABA5E0ABA5F0A
  BA600ABA610ABA620ABA630ABA640ABA650ABA660ABA670ABA680ABA690ABA6A0ABA6B0ABA6C0ABA6D0ABA6E0ABA6F0A
  BA700ABA710ABA720ABA730ABA740ABA750ABA760ABA770ABA780ABA790ABA7A0ABA7B0ABA7C0ABA7D0ABA7E0ABAA10A
  BAA20ABAA30ABAA40ABAA50ABAA60ABAA70ABAA80ABAA90ABAAA0ABAAB0ABAAC0ABAAD0ABAAE0ABAAF0ABAB00ABAB10A
  BAB20ABAB30ABAB40ABAB50ABAB60ABAB70ABAB80ABAB90ABABA0ABABB0ABABC0ABABD0ABABE0ABABF0ABAC00ABAC10A
  BAC20ABAC30ABAC40ABAC50ABAC60ABAC70ABAC80ABAC90ABACA0ABACB0ABACC0ABACD0ABACE0ABACF0ABAD00ABAD10A
  BAD20ABAD30ABAD40ABAD50ABAD60ABAD70ABAD80ABAD90ABADA0ABADB0ABADC0ABADD0ABADE0ABADF0ABAE00ABAE10A
  BAE20ABAE30ABAE40ABAE50ABAE70ABAE80ABAE90ABAEA0ABAEB0ABAEC0ABAED0ABAEE0ABAEF0ABAF00ABAF10ABAF20A
  BAF30ABAF40ABAF50ABAF60ABAF70ABAF80ABAF90ABAFA0ABAFB0ABAFD0ABAFE0A"

/-- tests/test_data/whatwg/big5_whatwg_test_decode_in.txt, part 59 -/
noncomputable def decodeIn58 : List Nat := hex! "BB400ABB410ABB420ABB430ABB440ABB450ABB460ABB470ABB480ABB490ABB4A0ABB4B0ABB4C0ABB4D0ABB4E0ABB4F0A
  BB500ABB510ABB520ABB530ABB540ABB550ABB560ABB570ABB580ABB590ABB5A0ABB5B0ABB5C0ABB5D0ABB5E0ABB5F0A
  BB600ABB610ABB620ABB630ABB640ABB650ABB660ABB670ABB680ABB690ABB6A0ABB6B0ABB6C0ABB6D0ABB6E0ABB6F0A
  BB700ABB710ABB720ABB730ABB740ABB750ABB760ABB770ABB780ABB790ABB7A0ABB7B0ABB7C0ABB7D0ABB7E0ABBA10A
  BBA20ABBA30ABBA40ABBA50ABBA60ABBA70ABBA80ABBA90ABBAA0ABBAB0ABBAC0ABBAD0ABBAE0ABBAF0ABBB00ABBB10A
  BBB20ABBB30ABBB40ABBB50ABBB60ABBB70ABBB80ABBB90ABBBA0ABBBB0ABBBC0ABBBD0ABBBE0ABBBF0ABBC00ABBC10A
  BBC20ABBC30ABBC40ABBC50ABBC60ABBC70ABBC80ABBC90ABBCA0ABBCB0ABBCC0ABBCD0ABBCE0ABBCF0ABBD00ABBD10A
  BBD20ABBD30ABBD40ABBD50ABBD60ABBD70ABBD80ABBD90ABBDA0ABBDB0ABBDC0ABBDD0ABBDE0ABBDF0ABBE00ABBE10A
  BBE20ABBE30ABBE40ABBE50ABBE60ABBE70ABBE80ABBE90ABBEA0ABBEB0ABBEC0ABBED0ABBEE0ABBEF0ABBF00ABBF10A
  BBF20ABBF30ABBF40ABBF50ABBF60ABBF70ABBF80ABBF90ABBFA0ABBFB0ABBFC0ABBFD0ABBFE0A"

/-- tests/test_data/whatwg/big5_whatwg_test_decode_out.txt, part 59 -/
noncomputable def decodeOut58 : List Nat := hex! "E7BDB00AE7BFA00AE7BFA10AE7BF9F0AE8819E0AE8819A0AE882870AE885900AE886800AE8868F0AE886880AE8868A0A
  E885BF0AE886820AE887A70AE887BA0AE888870AE888940AE8889E0AE8898B0AE893890AE892BF0AE893860AE893840A
  E892990AE8929E0AE892B20AE8929C0AE8938B0AE892B80AE893800AE893930AE892900AE892BC0AE893910AE8938A0A
  E89CBF0AE89C9C0AE89CBB0AE89CA20AE89CA50AE89CB40AE89C980AE89D950AE89CB70AE89CA90AE8A3B30AE8A4820A
  E8A3B40AE8A3B90AE8A3B80AE8A3BD0AE8A3A80AE8A49A0AE8A3AF0AE8AAA60AE8AA8C0AE8AA9E0AE8AAA30AE8AA8D0A
  E8AAA10AE8AA930AE8AAA40AE8AAAA0AE8AAA50AE8AAA80AE8AA980AE8AA910AE8AA9A0AE8AAA70AE8B1AA0AE8B28D0A
  E8B28C0AE8B3930AE8B3910AE8B3920AE8B5AB0AE8B6990AE8B6950AE8B7BC0AE8BC940AE8BC920AE8BC950AE8BC930A
  E8BEA30AE981A00AE981980AE9819C0AE981A30AE981990AE9819E0AE981A20AE9819D0AE9819B0AE984990AE984980A
  E9849E0AE985B50AE985B80AE985B70AE985B40AE989B80AE98A800AE98A850AE98A980AE98A960AE989BB0AE98A930A
  E98A9C0AE98AA80AE989BC0AE98A910AE996A10AE996A80AE996A90AE996A30AE996A50AE996A40AE99A990AE99A9C0A
  E99A9B0AE99B8C0AE99B920AE99C800AE99DBC0AE99E850AE99FB60AE9A0970AE9A0980AE9A2AF0AE9A2B10AE9A4830A
  E9A4850AE9A48C0AE9A4890AE9A7810AE9AAAF0AE9AAB00AE9ABA60AE9AD810AE9AD820AE9B3B40AE9B3B60AE9B3B30A
  E9BABC0AE9BCBB0AE9BD8A0AE584840AE584800AE583BB0AE583B50AE583B90AE584820AE584880AE584890AE584850A
  E5879C0A"

/-- tests/test_data/whatwg/big5_whatwg_test_encode_in.txt, part 59 -/
noncomputable def encodeIn58 : List Nat := hex! "E7BDB00AE7BFA00AE7BFA10AE7BF9F0AE8819E0AE8819A0AE882870AE885900AE886800AE8868F0AE886880AE8868A0A
  E885BF0AE886820AE887A70AE887BA0AE888870AE888940AE8889E0AE8898B0AE893890AE892BF0AE893860AE893840A
  E892990AE8929E0AE892B20AE8929C0AE8938B0AE892B80AE893800AE893930AE892900AE892BC0AE893910AE8938A0A
  E89CBF0AE89C9C0AE89CBB0AE89CA20AE89CA50AE89CB40AE89C980AE89D950AE89CB70AE89CA90AE8A3B30AE8A4820A
  E8A3B40AE8A3B90AE8A3B80AE8A3BD0AE8A3A80AE8A49A0AE8A3AF0AE8AAA60AE8AA8C0AE8AA9E0AE8AAA30AE8AA8D0A
  E8AAA10AE8AA930AE8AAA40AE8AAAA0AE8AAA50AE8AAA80AE8AA980AE8AA910AE8AA9A0AE8AAA70AE8B1AA0AE8B28D0A
  E8B28C0AE8B3930AE8B3910AE8B3920AE8B5AB0AE8B6990AE8B6950AE8B7BC0AE8BC940AE8BC920AE8BC950AE8BC930A
  E8BEA30AE981A00AE981980AE9819C0AE981A30AE981990AE9819E0AE981A20AE9819D0AE9819B0AE984990AE984980A
  E9849E0AE985B50AE985B80AE985B70AE985B40AE989B80AE98A800AE98A850AE98A980AE98A960AE989BB0AE98A930A
  E98A9C0AE98AA80AE989BC0AE98A910AE996A10AE996A80AE996A90AE996A30AE996A50AE996A40AE99A990AE99A9C0A
  E99A9B0AE99B8C0AE99B920AE99C800AE99DBC0AE99E850AE99FB60AE9A0970AE9A0980AE9A2AF0AE9A2B10AE9A4830A
  E9A4850AE9A48C0AE9A4890AE9A7810AE9AAAF0AE9AAB00AE9ABA60AE9AD810AE9AD820AE9B3B40AE9B3B60AE9B3B30A
  E9BABC0AE9BCBB0AE9BD8A0AE584840AE584800AE583BB0AE583B50AE583B90AE584820AE584880AE584890AE584850A
  E5879C0A"

/-- tests/test_data/whatwg/big5_whatwg_test_encode_out.txt, part 59 -/
noncomputable def encodeOut58 : List Nat := hex! "BB400ABB410ABB420ABB430ABB440ABB450ABB460ABB470ABB480ABB490ABB4A0ABB4B0ABB4C0ABB4D0ABB4E0ABB4F0A
  BB500ABB510ABB520ABB530ABB540ABB550ABB560ABB570ABB580ABB590ABB5A0ABB5B0ABB5C0ABB5D0ABB5E0ABB5F0A
  BB600ABB610ABB620ABB630ABB640ABB650ABB660ABB670ABB680ABB690ABB6A0ABB6B0ABB6C0ABB6D0ABB6E0ABB6F0A
  BB700ABB710ABB720ABB730ABB740ABB750ABB760ABB770ABB780ABB790ABB7A0ABB7B0ABB7C0ABB7D0ABB7E0ABBA10A
  BBA20ABBA30ABBA40ABBA50ABBA60ABBA70ABBA80ABBA90ABBAA0ABBAB0ABBAC0ABBAD0ABBAE0ABBAF0ABBB00ABBB10A
  BBB20ABBB30ABBB40ABBB50ABBB60ABBB70ABBB80ABBB90ABBBA0ABBBB0ABBBC0ABBBD0ABBBE0ABBBF0ABBC00ABBC10A
  BBC20ABBC30ABBC40ABBC50ABBC60ABBC70ABBC80ABBC90ABBCA0ABBCB0ABBCC0ABBCD0ABBCE0ABBCF0ABBD00ABBD10A
  BBD20ABBD30ABBD40ABBD50ABBD60ABBD70ABBD80ABBD90ABBDA0ABBDB0ABBDC0ABBDD0ABBDE0ABBDF0ABBE00ABBE10A
  BBE20ABBE30ABBE40ABBE50ABBE60ABBE70ABBE80ABBE90ABBEA0ABBEB0ABBEC0ABBED0ABBEE0ABBEF0ABBF00ABBF10A
  BBF20ABBF30ABBF40ABBF50ABBF60ABBF70ABBF80ABBF90ABBFA0ABBFB0ABBFC0ABBFD0ABBFE0A"

/-- tests/test_data/whatwg/big5_whatwg_test_decode_in.txt, part 60 -/
noncomputable def decodeIn59 : List Nat := hex! "BC400ABC410ABC420ABC430ABC440ABC450ABC460ABC470ABC480ABC490ABC4A0ABC4B0ABC4C0ABC4D0ABC4E0ABC4F0A
  BC500ABC510ABC520ABC530ABC540ABC550ABC560ABC570ABC580ABC590ABC5A0ABC5B0ABC5C0ABC5D0ABC5E0ABC5F0A
  BC600ABC610ABC620ABC630ABC640ABC650ABC660ABC670ABC680ABC690ABC6A0ABC6B0ABC6C0ABC6D0ABC6E0ABC6F0A
  BC700ABC710ABC720ABC730ABC740ABC750ABC760ABC770ABC780ABC790ABC7A0ABC7B0ABC7C0ABC7D0ABC7E0ABCA10A
  BCA20ABCA30ABCA40ABCA50ABCA60ABCA70ABCA80ABCA90ABCAA0ABCAB0ABCAC0ABCAD0ABCAE0ABCAF0ABCB00ABCB10A
  BCB20ABCB30ABCB40ABCB50ABCB60ABCB70ABCB80ABCB90ABCBA0ABCBB0ABCBC0ABCBD0ABCBE0ABCBF0ABCC00ABCC10A
  BCC20ABCC30ABCC40ABCC50ABCC60ABCC70ABCC80ABCC90ABCCA0ABCCB0ABCCC0ABCCD0ABCCE0ABCCF0ABCD00ABCD10A
  BCD20ABCD30ABCD40ABCD50ABCD60ABCD70ABCD80ABCD90ABCDA0ABCDB0ABCDC0ABCDD0ABCDE0ABCDF0ABCE00ABCE10A
  BCE20ABCE30ABCE40ABCE50ABCE60ABCE70ABCE80ABCE90ABCEA0ABCEB0ABCEC0ABCED0ABCEE0ABCEF0ABCF00ABCF10A
  BCF20ABCF30ABCF40ABCF50ABCF60ABCF70ABCF80ABCF90ABCFA0ABCFB0ABCFC0ABCFD0ABCFE0A"

/-- tests/test_data/whatwg/big5_whatwg_test_decode_out.txt, part 60 -/
noncomputable def decodeOut59 : List Nat := hex! "E58A870AE58A880AE58A890AE58A8D0AE58A8A0AE58BB00AE58EB20AE598AE0AE598BB0AE598B90AE598B20AE598BF0A
  E598B40AE598A90AE599930AE5998E0AE599970AE599B40AE598B60AE598AF0AE598B00AE5A2800AE5A29F0AE5A29E0A
  E5A2B30AE5A29C0AE5A2AE0AE5A2A90AE5A2A60AE5A5AD0AE5AC890AE5ABBB0AE5AC8B0AE5ABB50AE5AC8C0AE5AC880A
  E5AFAE0AE5AFAC0AE5AFA90AE5AFAB0AE5B1A40AE5B1A50AE5B69D0AE5B6940AE5B9A20AE5B99F0AE5B9A10AE5BBA20A
  E5BB9A0AE5BB9F0AE5BB9D0AE5BBA30AE5BBA00AE5BD880AE5BDB10AE5BEB70AE5BEB50AE685B60AE685A70AE685AE0A
  E6859D0AE685950AE686820AE685BC0AE685B00AE685AB0AE685BE0AE686A70AE686900AE686AB0AE6868E0AE686AC0A
  E6869A0AE686A40AE686940AE686AE0AE688AE0AE691A90AE691AF0AE691B90AE6929E0AE692B20AE692880AE692900A
  E692B00AE692A50AE692930AE692950AE692A90AE692920AE692AE0AE692AD0AE692AB0AE6929A0AE692AC0AE692990A
  E692A20AE692B30AE695B50AE695B70AE695B80AE69AAE0AE69AAB0AE69AB40AE69AB10AE6A8A30AE6A89F0AE6A7A80A
  E6A8810AE6A89E0AE6A8990AE6A7BD0AE6A8A10AE6A8930AE6A88A0AE6A7B30AE6A8820AE6A8850AE6A7AD0AE6A8910A
  E6AD900AE6AD8E0AE6AEA40AE6AF850AE6AF860AE6BCBF0AE6BDBC0AE6BE840AE6BD910AE6BDA60AE6BD940AE6BE860A
  E6BDAD0AE6BD9B0AE6BDB80AE6BDAE0AE6BE8E0AE6BDBA0AE6BDB00AE6BDA40AE6BE970AE6BD980AE6BB950AE6BDAF0A
  E6BDA00AE6BD9F0AE7869F0AE786AC0AE786B10AE786A80AE789960AE78A9B0AE78D8E0AE78D970AE791A90AE7928B0A
  E792830A"

/-- tests/test_data/whatwg/big5_whatwg_test_encode_in.txt, part 60 -/
noncomputable def encodeIn59 : List Nat := hex! "E58A870AE58A880AE58A890AE58A8D0AE58A8A0AE58BB00AE58EB20AE598AE0AE598BB0AE598B90AE598B20AE598BF0A
  E598B40AE598A90AE599930AE5998E0AE599970AE599B40AE598B60AE598AF0AE598B00AE5A2800AE5A29F0AE5A29E0A
  E5A2B30AE5A29C0AE5A2AE0AE5A2A90AE5A2A60AE5A5AD0AE5AC890AE5ABBB0AE5AC8B0AE5ABB50AE5AC8C0AE5AC880A
  E5AFAE0AE5AFAC0AE5AFA90AE5AFAB0AE5B1A40AE5B1A50AE5B69D0AE5B6940AE5B9A20AE5B99F0AE5B9A10AE5BBA20A
  E5BB9A0AE5BB9F0AE5BB9D0AE5BBA30AE5BBA00AE5BD880AE5BDB10AE5BEB70AE5BEB50AE685B60AE685A70AE685AE0A
  E6859D0AE685950AE686820AE685BC0AE685B00AE685AB0AE685BE0AE686A70AE686900AE686AB0AE6868E0AE686AC0A
  E6869A0AE686A40AE686940AE686AE0AE688AE0AE691A90AE691AF0AE691B90AE6929E0AE692B20AE692880AE692900A
  E692B00AE692A50AE692930AE692950AE692A90AE692920AE692AE0AE692AD0AE692AB0AE6929A0AE692AC0AE692990A
  E692A20AE692B30AE695B50AE695B70AE695B80AE69AAE0AE69AAB0AE69AB40AE69AB10AE6A8A30AE6A89F0AE6A7A80A
  E6A8810AE6A89E0AE6A8990AE6A7BD0AE6A8A10AE6A8930AE6A88A0AE6A7B30AE6A8820AE6A8850AE6A7AD0AE6A8910A
  E6AD900AE6AD8E0AE6AEA40AE6AF850AE6AF860AE6BCBF0AE6BDBC0AE6BE840AE6BD910AE6BDA60AE6BD940AE6BE860A
  E6BDAD0AE6BD9B0AE6BDB80AE6BDAE0AE6BE8E0AE6BDBA0AE6BDB00AE6BDA40AE6BE970AE6BD980AE6BB950AE6BDAF0A
  E6BDA00AE6BD9F0AE7869F0AE786AC0AE786B10AE786A80AE789960AE78A9B0AE78D8E0AE78D970AE791A90AE7928B0A
  E792830A"

/-- tests/test_data/whatwg/big5_whatwg_test_encode_out.txt, part 60 -/
noncomputable def encodeOut59 : List Nat := hex! "BC400ABC410ABC420ABC430ABC440ABC450ABC460ABC470ABC480ABC490ABC4A0ABC4B0ABC4C0ABC4D0ABC4E0ABC4F0A
  BC500ABC510ABC520ABC530ABC540ABC550ABC560ABC570ABC580ABC590ABC5A0ABC5B0ABC5C0ABC5D0ABC5E0ABC5F0A
  BC600ABC610ABC620ABC630ABC640ABC650ABC660ABC670ABC680ABC690ABC6A0ABC6B0ABC6C0ABC6D0ABC6E0ABC6F0A
  BC700ABC710ABC720ABC730ABC740ABC750ABC760ABC770ABC780ABC790ABC7A0ABC7B0ABC7C0ABC7D0ABC7E0ABCA10A
  BCA20ABCA30ABCA40ABCA50ABCA60ABCA70ABCA80ABCA90ABCAA0ABCAB0ABCAC0ABCAD0ABCAE0ABCAF0ABCB00ABCB10A
  BCB20ABCB30ABCB40ABCB50ABCB60ABCB70ABCB80ABCB90ABCBA0ABCBB0ABCBC0ABCBD0ABCBE0ABCBF0ABCC00ABCC10A
  BCC20ABCC30ABCC40ABCC50ABCC60ABCC70ABCC80ABCC90ABCCA0ABCCB0ABCCC0ABCCD0ABCCE0ABCCF0ABCD00ABCD10A
  BCD20ABCD30ABCD40ABCD50ABCD60ABCD70ABCD80ABCD90ABCDA0ABCDB0ABCDC0ABCDD0ABCDE0ABCDF0ABCE00ABCE10A
  BCE20ABCE30ABCE40ABCE50ABCE60ABCE70ABCE80ABCE90ABCEA0ABCEB0ABCEC0ABCED0ABCEE0ABCEF0ABCF00ABCF10A
  BCF20ABCF30ABCF40ABCF50ABCF60ABCF70ABCF80ABCF90ABCFA0ABCFB0ABCFC0ABCFD0ABCFE0A"

/-- tests/test_data/whatwg/big5_whatwg_test_decode_in.txt, part 61 -/
noncomputable def decodeIn60 : List Nat := hex! "BD400ABD410ABD420ABD430ABD440ABD450ABD460ABD470ABD480ABD490ABD4A0ABD4B0ABD4C0ABD4D0ABD4E0ABD4F0A
  BD500ABD510ABD520ABD530ABD540ABD550ABD560ABD570ABD580ABD590ABD5A0ABD5B0ABD5C0ABD5D0ABD5E0ABD5F0A
  BD600ABD610ABD620ABD630ABD640ABD650ABD660ABD670ABD680ABD690ABD6A0ABD6B0ABD6C0ABD6D0ABD6E0ABD6F0A
  BD700ABD710ABD720ABD730ABD740ABD750ABD760ABD770ABD780ABD790ABD7A0ABD7B0ABD7C0ABD7D0ABD7E0ABDA10A
  BDA20ABDA30ABDA40ABDA50ABDA60ABDA70ABDA80ABDA90ABDAA0ABDAB0ABDAC0ABDAD0ABDAE0ABDAF0ABDB00ABDB10A
  BDB20ABDB30ABDB40ABDB50ABDB60ABDB70ABDB80ABDB90ABDBA0ABDBB0ABDBC0ABDBD0ABDBE0ABDBF0ABDC00ABDC10A
  BDC20ABDC30ABDC40ABDC50ABDC60ABDC70ABDC80ABDC90ABDCA0ABDCB0ABDCC0ABDCD0ABDCE0ABDCF0ABDD00ABDD10A
  BDD20ABDD30ABDD40ABDD50ABDD60ABDD70ABDD80ABDD90ABDDA0ABDDB0ABDDC0ABDDD0ABDDE0ABDDF0ABDE00ABDE10A
  BDE20ABDE30ABDE40ABDE50ABDE60ABDE70ABDE80ABDE90ABDEA0ABDEB0ABDEC0ABDED0ABDEE0ABDEF0ABDF00ABDF10A
  BDF20ABDF30ABDF40ABDF50ABDF60ABDF70ABDF80ABDF90ABDFA0ABDFB0ABDFC0ABDFD0ABDFE0A"

/-- tests/test_data/whatwg/big5_whatwg_test_decode_out.txt, part 61 -/
noncomputable def decodeOut60 : List Nat := hex! "E791BE0AE792800AE795BF0AE798A00AE798A90AE7989F0AE798A40AE798A60AE798A10AE798A20AE79A9A0AE79ABA0A
  E79BA40AE79E8E0AE79E870AE79E8C0AE79E910AE79E8B0AE7A38B0AE7A3850AE7A2BA0AE7A38A0AE7A2BE0AE7A3950A
  E7A2BC0AE7A3900AE7A8BF0AE7A8BC0AE7A9800AE7A8BD0AE7A8B70AE7A8BB0AE7AAAF0AE7AAAE0AE7AEAD0AE7AEB10A
  E7AF840AE7AEB40AE7AF860AE7AF870AE7AF810AE7AEA00AE7AF8C0AE7B38A0AE7B7A00AE7B7B40AE7B7AF0AE7B7BB0A
  E7B7980AE7B7AC0AE7B79D0AE7B7A80AE7B7A30AE7B79A0AE7B79E0AE7B7A90AE7B69E0AE7B7990AE7B7B20AE7B7B90A
  E7BDB50AE7BDB70AE7BEAF0AE7BFA90AE880A60AE8869B0AE8869C0AE8869D0AE886A00AE8869A0AE886980AE894970A
  E894BD0AE8949A0AE893AE0AE894AC0AE894AD0AE894930AE894910AE894A30AE894A10AE894940AE893AC0AE894A50A
  E893BF0AE894860AE89E820AE89DB40AE89DB60AE89DA00AE89DA60AE89DB80AE89DA80AE89D990AE89D970AE89D8C0A
  E89D930AE8A19B0AE8A19D0AE8A4900AE8A4870AE8A4920AE8A4930AE8A4950AE8A48A0AE8AABC0AE8AB920AE8AB870A
  E8AB840AE8AA950AE8AB8B0AE8ABB80AE8AAB20AE8AB890AE8AB820AE8AABF0AE8AAB00AE8AB960AE8AB8D0AE8AAB60A
  E8AAB90AE8AB9B0AE8B18C0AE8B18E0AE8B1AC0AE8B3A00AE8B39E0AE8B3A60AE8B3A40AE8B3AC0AE8B3AD0AE8B3A20A
  E8B3A30AE8B39C0AE8B3AA0AE8B3A10AE8B5AD0AE8B69F0AE8B6A30AE8B8AB0AE8B8900AE8B89D0AE8B8A20AE8B88F0A
  E8B8A90AE8B89F0AE8B8A10AE8B89E0AE8BABA0AE8BC9D0AE8BC9B0AE8BC9F0AE8BCA90AE8BCA60AE8BCAA0AE8BC9C0A
  E8BC9E0A"

/-- tests/test_data/whatwg/big5_whatwg_test_encode_in.txt, part 61 -/
noncomputable def encodeIn60 : List Nat := hex! "E791BE0AE792800AE795BF0AE798A00AE798A90AE7989F0AE798A40AE798A60AE798A10AE798A20AE79A9A0AE79ABA0A
  E79BA40AE79E8E0AE79E870AE79E8C0AE79E910AE79E8B0AE7A38B0AE7A3850AE7A2BA0AE7A38A0AE7A2BE0AE7A3950A
  E7A2BC0AE7A3900AE7A8BF0AE7A8BC0AE7A9800AE7A8BD0AE7A8B70AE7A8BB0AE7AAAF0AE7AAAE0AE7AEAD0AE7AEB10A
  E7AF840AE7AEB40AE7AF860AE7AF870AE7AF810AE7AEA00AE7AF8C0AE7B38A0AE7B7A00AE7B7B40AE7B7AF0AE7B7BB0A
  E7B7980AE7B7AC0AE7B79D0AE7B7A80AE7B7A30AE7B79A0AE7B79E0AE7B7A90AE7B69E0AE7B7990AE7B7B20AE7B7B90A
  E7BDB50AE7BDB70AE7BEAF0AE7BFA90AE880A60AE8869B0AE8869C0AE8869D0AE886A00AE8869A0AE886980AE894970A
  E894BD0AE8949A0AE893AE0AE894AC0AE894AD0AE894930AE894910AE894A30AE894A10AE894940AE893AC0AE894A50A
  E893BF0AE894860AE89E820AE89DB40AE89DB60AE89DA00AE89DA60AE89DB80AE89DA80AE89D990AE89D970AE89D8C0A
  E89D930AE8A19B0AE8A19D0AE8A4900AE8A4870AE8A4920AE8A4930AE8A4950AE8A48A0AE8AABC0AE8AB920AE8AB870A
  E8AB840AE8AA950AE8AB8B0AE8ABB80AE8AAB20AE8AB890AE8AB820AE8AABF0AE8AAB00AE8AB960AE8AB8D0AE8AAB60A
  E8AAB90AE8AB9B0AE8B18C0AE8B18E0AE8B1AC0AE8B3A00AE8B39E0AE8B3A60AE8B3A40AE8B3AC0AE8B3AD0AE8B3A20A
  E8B3A30AE8B39C0AE8B3AA0AE8B3A10AE8B5AD0AE8B69F0AE8B6A30AE8B8AB0AE8B8900AE8B89D0AE8B8A20AE8B88F0A
  E8B8A90AE8B89F0AE8B8A10AE8B89E0AE8BABA0AE8BC9D0AE8BC9B0AE8BC9F0AE8BCA90AE8BCA60AE8BCAA0AE8BC9C0A
  E8BC9E0A"

/-- tests/test_data/whatwg/big5_whatwg_test_encode_out.txt, part 61 -/
noncomputable def encodeOut60 : List Nat := hex! "BD400ABD410ABD420ABD430ABD440ABD450ABD460ABD470ABD480ABD490ABD4A0ABD4B0ABD4C0ABD4D0ABD4E0ABD4F0A
  BD500ABD510ABD520ABD530ABD540ABD550ABD560ABD570ABD580ABD590ABD5A0ABD5B0ABD5C0ABD5D0ABD5E0ABD5F0A
  BD600ABD610ABD620ABD630ABD640ABD650ABD660ABD670ABD680ABD690ABD6A0ABD6B0ABD6C0ABD6D0ABD6E0ABD6F0A
  BD700ABD710ABD720ABD730ABD740ABD750ABD760ABD770ABD780ABD790ABD7A0ABD7B0ABD7C0ABD7D0ABD7E0ABDA10A
  BDA20ABDA30ABDA40ABDA50ABDA60ABDA70ABDA80ABDA90ABDAA0ABDAB0ABDAC0ABDAD0ABDAE0ABDAF0ABDB00ABDB10A
  BDB20ABDB30ABDB40ABDB50ABDB60ABDB70ABDB80ABDB90ABDBA0ABDBB0ABDBC0ABDBD0ABDBE0ABDBF0ABDC00ABDC10A
  BDC20ABDC30ABDC40ABDC50ABDC60ABDC70ABDC80ABDC90ABDCA0ABDCB0ABDCC0ABDCD0ABDCE0ABDCF0ABDD00ABDD10A
  BDD20ABDD30ABDD40ABDD50ABDD60ABDD70ABDD80ABDD90ABDDA0ABDDB0ABDDC0ABDDD0ABDDE0ABDDF0ABDE00ABDE10A
  BDE20ABDE30ABDE40ABDE50ABDE60ABDE70ABDE80ABDE90ABDEA0ABDEB0ABDEC0ABDED0ABDEE0ABDEF0ABDF00ABDF10A
  BDF20ABDF30ABDF40ABDF50ABDF60ABDF70ABDF80ABDF90ABDFA0ABDFB0ABDFC0ABDFD0ABDFE0A"

/-- tests/test_data/whatwg/big5_whatwg_test_decode_in.txt, part 62 -/
noncomputable def decodeIn61 : List Nat := hex! "BE400ABE410ABE420ABE430ABE440ABE450ABE460ABE470ABE480ABE490ABE4A0ABE4B0ABE4C0ABE4D0ABE4E0ABE4F0A
  BE500ABE510ABE520ABE530ABE540ABE550ABE560ABE570ABE580ABE590ABE5A0ABE5B0ABE5C0ABE5D0ABE5E0ABE5F0A
  BE600ABE610ABE620ABE630ABE640ABE650ABE660ABE670ABE680ABE690ABE6A0ABE6B0ABE6C0ABE6D0ABE6E0ABE6F0A
  BE700ABE710ABE720ABE730ABE740ABE750ABE760ABE770ABE780ABE790ABE7A0ABE7B0ABE7C0ABE7D0ABE7E0ABEA10A
  BEA20ABEA30ABEA40ABEA50ABEA60ABEA70ABEA80ABEA90ABEAA0ABEAB0ABEAC0ABEAD0ABEAE0ABEAF0ABEB00ABEB10A
  BEB20ABEB30ABEB40ABEB50ABEB60ABEB70ABEB80ABEB90ABEBA0ABEBB0ABEBC0ABEBD0ABEBE0ABEBF0ABEC00ABEC10A
  BEC20ABEC30ABEC40ABEC50ABEC60ABEC70ABEC80ABEC90ABECA0ABECB0ABECC0ABECD0ABECE0ABECF0ABED00ABED10A
  BED20ABED30ABED40ABED50ABED60ABED70ABED80ABED90ABEDA0ABEDB0ABEDC0ABEDD0ABEDE0ABEDF0ABEE00ABEE10A
  BEE20ABEE30ABEE40ABEE50ABEE60ABEE70ABEE80ABEE90ABEEA0ABEEB0ABEEC0ABEED0ABEEE0ABEEF0ABEF00ABEF10A
  BEF20ABEF30ABEF40ABEF50ABEF60ABEF70ABEF80ABEF90ABEFA0ABEFB0ABEFC0ABEFD0ABEFE0A"

/-- tests/test_data/whatwg/big5_whatwg_test_decode_out.txt, part 62 -/
noncomputable def decodeOut61 : List Nat := hex! "E8BCA50AE981A90AE981AE0AE981A80AE981AD0AE981B70AE984B00AE984AD0AE984A70AE984B10AE986870AE986890A
  E9868B0AE986830AE98B850AE98ABB0AE98AB70AE98BAA0AE98AAC0AE98BA40AE98B810AE98AB30AE98ABC0AE98B920A
  E98B870AE98BB00AE98AB20AE996AD0AE996B10AE99C840AE99C860AE99C870AE99C890AE99DA00AE99E8D0AE99E8B0A
  E99E8F0AE9A0A10AE9A0AB0AE9A09C0AE9A2B30AE9A48A0AE9A4930AE9A4920AE9A4980AE9A79D0AE9A7900AE9A79F0A
  E9A79B0AE9A7910AE9A7950AE9A7920AE9A7990AE9AAB70AE9ABAE0AE9ABAF0AE9ACA70AE9AD850AE9AD840AE9ADB70A
  E9ADAF0AE9B4860AE9B4890AE9B4830AE9BAA90AE9BABE0AE9BB8E0AE5A2A80AE9BD920AE584920AE584980AE584940A
  E584900AE584950AE586800AE586AA0AE5879D0AE58A910AE58A930AE58BB30AE599990AE599AB0AE599B90AE599A90A
  E599A40AE599B80AE599AA0AE599A80AE599A50AE599B10AE599AF0AE599AC0AE599A20AE599B60AE5A3810AE5A2BE0A
  E5A3870AE5A3850AE5A5AE0AE5AC9D0AE5ACB40AE5ADB80AE5AFB00AE5B08E0AE5BD8A0AE686B20AE686910AE686A90A
  E6868A0AE6878D0AE686B60AE686BE0AE6878A0AE687880AE688B00AE693850AE693810AE6938B0AE692BB0AE692BC0A
  E6939A0AE693840AE693870AE693820AE6938D0AE692BF0AE693920AE693940AE692BE0AE695B40AE69B860AE69B890A
  E69AB90AE69B840AE69B870AE69AB80AE6A8BD0AE6A8B80AE6A8BA0AE6A9990AE6A9AB0AE6A9980AE6A8B90AE6A9840A
  E6A9A20AE6A9A10AE6A98B0AE6A9870AE6A8B50AE6A99F0AE6A9880AE6AD990AE6ADB70AE6B0850AE6BF820AE6BEB10A
  E6BEA10A"

/-- tests/test_data/whatwg/big5_whatwg_test_encode_in.txt, part 62 -/
noncomputable def encodeIn61 : List Nat := hex! "E8BCA50AE981A90AE981AE0AE981A80AE981AD0AE981B70AE984B00AE984AD0AE984A70AE984B10AE986870AE986890A
  E9868B0AE986830AE98B850AE98ABB0AE98AB70AE98BAA0AE98AAC0AE98BA40AE98B810AE98AB30AE98ABC0AE98B920A
  E98B870AE98BB00AE98AB20AE996AD0AE996B10AE99C840AE99C860AE99C870AE99C890AE99DA00AE99E8D0AE99E8B0A
  E99E8F0AE9A0A10AE9A0AB0AE9A09C0AE9A2B30AE9A48A0AE9A4930AE9A4920AE9A4980AE9A79D0AE9A7900AE9A79F0A
  E9A79B0AE9A7910AE9A7950AE9A7920AE9A7990AE9AAB70AE9ABAE0AE9ABAF0AE9ACA70AE9AD850AE9AD840AE9ADB70A
  E9ADAF0AE9B4860AE9B4890AE9B4830AE9BAA90AE9BABE0AE9BB8E0AE5A2A80AE9BD920AE584920AE584980AE584940A
  E584900AE584950AE586800AE586AA0AE5879D0AE58A910AE58A930AE58BB30AE599990AE599AB0AE599B90AE599A90A
  E599A40AE599B80AE599AA0AE599A80AE599A50AE599B10AE599AF0AE599AC0AE599A20AE599B60AE5A3810AE5A2BE0A
  E5A3870AE5A3850AE5A5AE0AE5AC9D0AE5ACB40AE5ADB80AE5AFB00AE5B08E0AE5BD8A0AE686B20AE686910AE686A90A
  E6868A0AE6878D0AE686B60AE686BE0AE6878A0AE687880AE688B00AE693850AE693810AE6938B0AE692BB0AE692BC0A
  E6939A0AE693840AE693870AE693820AE6938D0AE692BF0AE693920AE693940AE692BE0AE695B40AE69B860AE69B890A
  E69AB90AE69B840AE69B870AE69AB80AE6A8BD0AE6A8B80AE6A8BA0AE6A9990AE6A9AB0AE6A9980AE6A8B90AE6A9840A
  E6A9A20AE6A9A10AE6A98B0AE6A9870AE6A8B50AE6A99F0AE6A9880AE6AD990AE6ADB70AE6B0850AE6BF820AE6BEB10A
  E6BEA10A"

/-- tests/test_data/whatwg/big5_whatwg_test_encode_out.txt, part 62 -/
noncomputable def encodeOut61 : List Nat := hex! "BE400ABE410ABE420ABE430ABE440ABE450ABE460ABE470ABE480ABE490ABE4A0ABE4B0ABE4C0ABE4D0ABE4E0ABE4F0A
  BE500ABE510ABE520ABE530ABE540ABE550ABE560ABE570ABE580ABE590ABE5A0ABE5B0ABE5C0ABE5D0ABE5E0ABE5F0A
  BE600ABE610ABE620ABE630ABE640ABE650ABE660ABE670ABE680ABE690ABE6A0ABE6B0ABE6C0ABE6D0ABE6E0ABE6F0A
  BE700ABE710ABE720ABE730ABE740ABE750ABE760ABE770ABE780ABE790ABE7A0ABE7B0ABE7C0ABE7D0ABE7E0ABEA10A
  BEA20ABEA30ABEA40ABEA50ABEA60ABEA70ABEA80ABEA90ABEAA0ABEAB0ABEAC0ABEAD0ABEAE0ABEAF0ABEB00ABEB10A
  BEB20ABEB30ABEB40ABEB50ABEB60ABEB70ABEB80ABEB90ABEBA0ABEBB0ABEBC0ABEBD0ABEBE0ABEBF0ABEC00ABEC10A
  BEC20ABEC30ABEC40ABEC50ABEC60ABEC70ABEC80ABEC90ABECA0ABECB0ABECC0ABECD0ABECE0ABECF0ABED00ABED10A
  BED20ABED30ABED40ABED50ABED60ABED70ABED80ABED90ABEDA0ABEDB0ABEDC0ABEDD0ABEDE0ABEDF0ABEE00ABEE10A
  BEE20ABEE30ABEE40ABEE50ABEE60ABEE70ABEE80ABEE90ABEEA0ABEEB0ABEEC0ABEED0ABEEE0ABEEF0ABEF00ABEF10A
  BEF20ABEF30ABEF40ABEF50ABEF60ABEF70ABEF80ABEF90ABEFA0ABEFB0ABEFC0ABEFD0ABEFE0A"

/-- tests/test_data/whatwg/big5_whatwg_test_decode_in.txt, part 63 -/
noncomputable def decodeIn62 : List Nat := hex! "BF400ABF410ABF420ABF430ABF440ABF450ABF460ABF470ABF480ABF490ABF4A0ABF4B0ABF4C0ABF4D0ABF4E0ABF4F0A
  BF500ABF510ABF520ABF530ABF540ABF550ABF560ABF570ABF580ABF590ABF5A0ABF5B0ABF5C0ABF5D0ABF5E0ABF5F0A
  BF600ABF610ABF620ABF630ABF640ABF650ABF660ABF670ABF680ABF690ABF6A0ABF6B0ABF6C0ABF6D0ABF6E0ABF6F0A
  BF700ABF710ABF720ABF730ABF740ABF750ABF760ABF770ABF780ABF790ABF7A0ABF7B0ABF7C0ABF7D0ABF7E0ABFA10A
  BFA20ABFA30ABFA40ABFA50ABFA60ABFA70ABFA80ABFA90ABFAA0ABFAB0ABFAC0ABFAD0ABFAE0ABFAF0ABFB00ABFB10A
  BFB20ABFB30ABFB40ABFB50ABFB60ABFB70ABFB80ABFB90ABFBA0ABFBB0ABFBC0ABFBD0ABFBE0ABFBF0ABFC00ABFC10A
  BFC20ABFC30ABFC40ABFC50ABFC60ABFC70ABFC80ABFC90ABFCA0ABFCB0ABFCC0ABFCD0ABFCE0ABFCF0ABFD00ABFD10A
  BFD20ABFD30ABFD40ABFD50ABFD60ABFD70ABFD80ABFD90ABFDA0ABFDB0ABFDC0ABFDD0ABFDE0ABFDF0ABFE00ABFE10A
  BFE20ABFE30ABFE40ABFE50ABFE60ABFE70ABFE80ABFE90ABFEA0ABFEB0ABFEC0ABFED0ABFEE0ABFEF0ABFF00ABFF10A
  BFF20ABFF30ABFF40ABFF50ABFF60ABFF70ABFF80ABFF90ABFFA0ABFFB0ABFFC0ABFFD0ABFFE0A"

/-- tests/test_data/whatwg/big5_whatwg_test_decode_out.txt, part 63 -/
noncomputable def decodeOut62 : List Nat := hex! "E6BF830AE6BEA40AE6BF810AE6BEA70AE6BEB30AE6BF800AE6BEB90AE6BEB60AE6BEA60AE6BEA00AE6BEB40AE786BE0A
  E787890AE787900AE787920AE787880AE787950AE786B90AE7878E0AE787990AE7879C0AE787830AE787840AE78DA80A
  E7929C0AE792A30AE792980AE7929F0AE7929E0AE793A20AE7948C0AE7948D0AE798B40AE798B80AE798BA0AE79BA70A
  E79BA50AE79EA00AE79E9E0AE79E9F0AE79EA50AE7A3A80AE7A39A0AE7A3AC0AE7A3A70AE7A6A60AE7A98D0AE7A98E0A
  E7A9860AE7A98C0AE7A98B0AE7AABA0AE7AF990AE7B0910AE7AF890AE7AFA40AE7AF9B0AE7AFA10AE7AFA90AE7AFA60A
  E7B3950AE7B3960AE7B88A0AE7B8910AE7B8880AE7B89B0AE7B8A30AE7B89E0AE7B89D0AE7B8890AE7B8900AE7BDB90A
  E7BEB20AE7BFB00AE7BFB10AE7BFAE0AE880A80AE886B30AE886A90AE886A80AE887BB0AE888880AE889980AE889990A
  E8958A0AE895990AE895880AE895A80AE895A90AE895830AE895890AE895AD0AE895AA0AE8959E0AE89E830AE89E9F0A
  E89E9E0AE89EA20AE89E8D0AE8A1A10AE8A4AA0AE8A4B20AE8A4A50AE8A4AB0AE8A4A10AE8A6AA0AE8A6A60AE8ABA60A
  E8ABBA0AE8ABAB0AE8ABB10AE8AC800AE8AB9C0AE8ABA70AE8ABAE0AE8ABBE0AE8AC810AE8AC820AE8ABB70AE8ABAD0A
  E8ABB30AE8ABB60AE8ABBC0AE8B1AB0AE8B1AD0AE8B2930AE8B3B40AE8B9840AE8B8B10AE8B8B40AE8B9820AE8B8B90A
  E8B8B50AE8BCBB0AE8BCAF0AE8BCB80AE8BCB30AE8BEA80AE8BEA60AE981B50AE981B40AE981B80AE981B20AE981BC0A
  E981BA0AE984B40AE986920AE98CA00AE98CB60AE98BB80AE98CB30AE98CAF0AE98CA20AE98BBC0AE98CAB0AE98C840A
  E98C9A0A"

/-- tests/test_data/whatwg/big5_whatwg_test_encode_in.txt, part 63 -/
noncomputable def encodeIn62 : List Nat := hex! "E6BF830AE6BEA40AE6BF810AE6BEA70AE6BEB30AE6BF800AE6BEB90AE6BEA60AE6BEA00AE6BEB40AE786BE0AE787890A
  E787900AE787920AE787880AE787950AE786B90AE7878E0AE787990AE7879C0AE787830AE787840AE78DA80AE7929C0A
  E792A30AE792980AE7929F0AE7929E0AE793A20AE7948C0AE7948D0AE798B40AE798B80AE798BA0AE79BA70AE79BA50A
  E79EA00AE79E9E0AE79E9F0AE79EA50AE7A3A80AE7A39A0AE7A3AC0AE7A3A70AE7A6A60AE7A98D0AE7A98E0AE7A9860A
  E7A98C0AE7A98B0AE7AABA0AE7AF990AE7B0910AE7AF890AE7AFA40AE7AF9B0AE7AFA10AE7AFA90AE7AFA60AE7B3950A
  E7B3960AE7B88A0AE7B8910AE7B8880AE7B89B0AE7B8A30AE7B89E0AE7B8890AE7B8900AE7BDB90AE7BEB20AE7BFB00A
  E7BFB10AE7BFAE0AE886B30AE886A90AE886A80AE887BB0AE888880AE889980AE889990AE8958A0AE895990AE895880A
  E895A80AE895A90AE895830AE895890AE895AD0AE895AA0AE8959E0AE89E830AE89E9F0AE89E9E0AE89EA20AE89E8D0A
  E8A1A10AE8A4AA0AE8A4B20AE8A4A50AE8A4AB0AE8A4A10AE8A6AA0AE8ABA60AE8ABBA0AE8ABAB0AE8ABB10AE8AC800A
  E8AB9C0AE8ABA70AE8ABAE0AE8ABBE0AE8AC810AE8AC820AE8ABB70AE8ABAD0AE8ABB30AE8ABB60AE8ABBC0AE8B1AB0A
  E8B1AD0AE8B2930AE8B3B40AE8B9840AE8B8B10AE8B8B40AE8B9820AE8B8B90AE8B8B50AE8BCBB0AE8BCAF0AE8BCB80A
  E8BCB30AE8BEA80AE8BEA60AE981B50AE981B40AE981B80AE981B20AE981BC0AE981BA0AE984B40AE986920AE98CA00A
  E98CB60AE98BB80AE98CB30AE98CAF0AE98CA20AE98BBC0AE98CAB0AE98C840AE98C9A0A"

/-- tests/test_data/whatwg/big5_whatwg_test_encode_out.txt, part 63 -/
noncomputable def encodeOut62 : List Nat := hex! "BF400ABF410ABF420ABF430ABF440ABF450ABF460ABF480ABF490ABF4A0ABF4B0ABF4C0ABF4D0ABF4E0ABF4F0ABF500A
  BF510ABF520ABF530ABF540ABF550ABF560ABF570ABF580ABF590ABF5A0ABF5B0ABF5C0ABF5D0ABF5E0ABF5F0ABF600A
  BF610ABF620ABF630ABF640ABF650ABF660ABF670ABF680ABF690ABF6A0ABF6B0ABF6C0ABF6D0ABF6E0ABF6F0ABF700A
  BF710ABF720ABF730ABF740ABF750ABF760ABF770ABF780ABF790ABF7A0ABF7B0ABF7C0ABF7D0ABF7E0ABFA10ABFA20A
  BFA30ABFA40ABFA50ABFA70ABFA80ABFA90ABFAA0ABFAB0ABFAC0ABFAD0ABFAF0ABFB00ABFB10ABFB20ABFB30ABFB40A
  BFB50ABFB60ABFB70ABFB80ABFB90ABFBA0ABFBB0ABFBC0ABFBD0ABFBE0ABFBF0ABFC00ABFC10ABFC20ABFC30ABFC40A
  BFC50ABFC60ABFC70ABFC80ABFC90ABFCA0ABFCB0ABFCD0ABFCE0ABFCF0ABFD00ABFD10ABFD20ABFD30ABFD40ABFD50A
  BFD60ABFD70ABFD80ABFD90ABFDA0ABFDB0ABFDC0ABFDD0ABFDE0ABFDF0ABFE00ABFE10ABFE20ABFE30ABFE40ABFE50A
  BFE60ABFE70ABFE80ABFE90ABFEA0ABFEB0ABFEC0ABFED0ABFEE0ABFEF0ABFF00ABFF10ABFF20ABFF30ABFF40ABFF50A
  BFF60ABFF70ABFF80ABFF90ABFFA0ABFFB0ABFFC0ABFFD0ABFFE0A"

/-- tests/test_data/whatwg/big5_whatwg_test_decode_in.txt, part 64 -/
noncomputable def decodeIn63 : List Nat := hex! "C0400AC0410AC0420AC0430AC0440AC0450AC0460AC0470AC0480AC0490AC04A0AC04B0AC04C0AC04D0AC04E0AC04F0A
  C0500AC0510AC0520AC0530AC0540AC0550AC0560AC0570AC0580AC0590AC05A0AC05B0AC05C0AC05D0AC05E0AC05F0A
  C0600AC0610AC0620AC0630AC0640AC0650AC0660AC0670AC0680AC0690AC06A0AC06B0AC06C0AC06D0AC06E0AC06F0A
  C0700AC0710AC0720AC0730AC0740AC0750AC0760AC0770AC0780AC0790AC07A0AC07B0AC07C0AC07D0AC07E0AC0A10A
  C0A20AC0A30AC0A40AC0A50AC0A60AC0A70AC0A80AC0A90AC0AA0AC0AB0AC0AC0AC0AD0AC0AE0AC0AF0AC0B00AC0B10A
  C0B20AC0B30AC0B40AC0B50AC0B60AC0B70AC0B80AC0B90AC0BA0AC0BB0AC0BC0AC0BD0AC0BE0AC0BF0AC0C00AC0C10A
  C0C20AC0C30AC0C40AC0C50AC0C60AC0C70AC0C80AC0C90AC0CA0AC0CB0AC0CC0AC0CD0AC0CE0AC0CF0AC0D00AC0D10A
  C0D20AC0D30AC0D40AC0D50AC0D60AC0D70AC0D80AC0D90AC0DA0AC0DB0AC0DC0AC0DD0AC0DE0AC0DF0AC0E00AC0E10A
  C0E20AC0E30AC0E40AC0E50AC0E60AC0E70AC0E80AC0E90AC0EA0AC0EB0AC0EC0AC0ED0AC0EE0AC0EF0AC0F00AC0F10A
  C0F20AC0F30AC0F40AC0F50AC0F60AC0F70AC0F80AC0F90AC0FA0AC0FB0AC0FC0AC0FD0AC0FE0A"

/-- tests/test_data/whatwg/big5_whatwg_test_decode_out.txt, part 64 -/
noncomputable def decodeOut63 : List Nat := hex! "E98C900AE98CA60AE98CA10AE98C950AE98CAE0AE98C990AE996BB0AE99AA70AE99AA80AE99AAA0AE99B950AE99C8E0A
  E99C910AE99C960AE99C8D0AE99C930AE99C8F0AE99D9B0AE99D9C0AE99DA60AE99E980AE9A0B00AE9A0B80AE9A0BB0A
  E9A0B70AE9A0AD0AE9A0B90AE9A0A40AE9A4900AE9A4A80AE9A49E0AE9A49B0AE9A4A10AE9A49A0AE9A7AD0AE9A7A20A
  E9A7B10AE9AAB80AE9AABC0AE9ABBB0AE9ABAD0AE9ACA80AE9AE910AE9B4950AE9B4A30AE9B4A60AE9B4A80AE9B4920A
  E9B49B0AE9BB980AE9BB940AE9BE8D0AE9BE9C0AE584AA0AE5849F0AE584A10AE584B20AE58BB50AE59A8E0AE59A800A
  E59A900AE59A850AE59A870AE59A8F0AE5A3950AE5A3930AE5A3910AE5A38E0AE5ACB00AE5ACAA0AE5ACA40AE5ADBA0A
  E5B0B70AE5B1A80AE5B6BC0AE5B6BA0AE5B6BD0AE5B6B80AE5B9AB0AE5BD8C0AE5BEBD0AE687890AE687820AE687870A
  E687A60AE6878B0AE688B20AE688B40AE6938E0AE6938A0AE693980AE693A00AE693B00AE693A60AE693AC0AE693B10A
  E693A20AE693AD0AE696820AE696830AE69B990AE69B960AE6AA800AE6AA940AE6AA840AE6AAA20AE6AA9C0AE6AB9B0A
  E6AAA30AE6A9BE0AE6AA970AE6AA900AE6AAA00AE6AD9C0AE6AEAE0AE6AF9A0AE6B0880AE6BF980AE6BFB10AE6BF9F0A
  E6BFA00AE6BF9B0AE6BFA40AE6BFAB0AE6BFAF0AE6BE800AE6BFAC0AE6BFA10AE6BFA90AE6BF950AE6BFAE0AE6BFB00A
  E787A70AE7879F0AE787AE0AE787A60AE787A50AE787AD0AE787AC0AE787B40AE787A00AE788B50AE789860AE78DB00A
  E78DB20AE792A90AE792B00AE792A60AE792A80AE799860AE799820AE7998C0AE79BAA0AE79EB30AE79EAA0AE79EB00A
  E79EAC0A"

/-- tests/test_data/whatwg/big5_whatwg_test_encode_in.txt, part 64 -/
noncomputable def encodeIn63 : List Nat := hex! "E98C900AE98CA60AE98CA10AE98C950AE98CAE0AE98C990AE996BB0AE99AA70AE99AA80AE99AAA0AE99B950AE99C8E0A
  E99C910AE99C960AE99C8D0AE99C930AE99C8F0AE99D9B0AE99DA60AE99E980AE9A0B00AE9A0B80AE9A0BB0AE9A0B70A
  E9A0AD0AE9A0B90AE9A0A40AE9A4900AE9A4A80AE9A49E0AE9A49B0AE9A4A10AE9A49A0AE9A7AD0AE9A7A20AE9A7B10A
  E9AAB80AE9AABC0AE9ABBB0AE9ABAD0AE9ACA80AE9AE910AE9B4950AE9B4A30AE9B4A60AE9B4A80AE9B4920AE9B49B0A
  E9BB980AE9BB940AE9BE8D0AE9BE9C0AE584AA0AE5849F0AE584A10AE584B20AE58BB50AE59A8E0AE59A800AE59A900A
  E59A850AE59A870AE59A8F0AE5A3950AE5A3930AE5A3910AE5A38E0AE5ACB00AE5ACAA0AE5ACA40AE5ADBA0AE5B0B70A
  E5B1A80AE5B6BC0AE5B6BA0AE5B6BD0AE5B6B80AE5B9AB0AE5BD8C0AE5BEBD0AE687890AE687820AE687870AE687A60A
  E6878B0AE688B20AE688B40AE6938E0AE6938A0AE693980AE693A00AE693B00AE693A60AE693AC0AE693B10AE693A20A
  E693AD0AE696820AE696830AE69B990AE69B960AE6AA800AE6AA940AE6AA840AE6AAA20AE6AA9C0AE6AB9B0AE6AAA30A
  E6A9BE0AE6AA970AE6AA900AE6AAA00AE6AD9C0AE6AEAE0AE6AF9A0AE6B0880AE6BF980AE6BFB10AE6BF9F0AE6BFA00A
  E6BF9B0AE6BFA40AE6BFAB0AE6BFAF0AE6BE800AE6BFAC0AE6BFA10AE6BFA90AE6BF950AE6BFAE0AE6BFB00AE787A70A
  E787AE0AE787A60AE787A50AE787AD0AE787AC0AE787B40AE787A00AE788B50AE789860AE78DB00AE78DB20AE792A90A
  E792B00AE792A60AE792A80AE799860AE799820AE7998C0AE79BAA0AE79EB30AE79EAA0AE79EB00AE79EAC0A"

/-- tests/test_data/whatwg/big5_whatwg_test_encode_out.txt, part 64 -/
noncomputable def encodeOut63 : List Nat := hex! "C0400AC0410AC0420AC0430AC0440AC0450AC0460AC0470AC0480AC0490AC04A0AC04B0AC04C0AC04D0AC04E0AC04F0A
  C0500AC0510AC0530AC0540AC0550AC0560AC0570AC0580AC0590AC05A0AC05B0AC05C0AC05D0AC05E0AC05F0AC0600A
  C0610AC0620AC0630AC0640AC0650AC0660AC0670AC0680AC0690AC06A0AC06B0AC06C0AC06D0AC06E0AC06F0AC0700A
  C0710AC0720AC0730AC0740AC0750AC0760AC0770AC0780AC0790AC07A0AC07B0AC07C0AC07D0AC07E0AC0A10AC0A20A
  C0A30AC0A40AC0A50AC0A60AC0A70AC0A80AC0A90AC0AA0AC0AB0AC0AC0AC0AD0AC0AE0AC0AF0AC0B00AC0B10AC0B20A
  C0B30AC0B40AC0B50AC0B60AC0B70AC0B80AC0B90AC0BA0AC0BB0AC0BC0AC0BD0AC0BE0AC0BF0AC0C00AC0C10AC0C20A
  C0C30AC0C40AC0C50AC0C60AC0C70AC0C80AC0C90AC0CA0AC0CB0AC0CC0AC0CD0AC0CE0AC0CF0AC0D00AC0D10AC0D20A
  C0D30AC0D40AC0D50AC0D60AC0D70AC0D80AC0D90AC0DA0AC0DB0AC0DC0AC0DD0AC0DE0AC0DF0AC0E00AC0E10AC0E20A
  C0E30AC0E40AC0E50AC0E60AC0E80AC0E90AC0EA0AC0EB0AC0EC0AC0ED0AC0EE0AC0EF0AC0F00AC0F10AC0F20AC0F30A
  C0F40AC0F50AC0F60AC0F70AC0F80AC0F90AC0FA0AC0FB0AC0FC0AC0FD0AC0FE0A"

end Verif.Files.Big5
