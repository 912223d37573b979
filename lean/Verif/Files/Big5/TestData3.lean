import Verif.Hex

/-! Generated by tools/gen_files.py: verbatim copies of parts of files of /repo. -/

namespace Verif.Files.Big5

/-- tests/test_data/whatwg/big5_whatwg_test_decode_in.txt, part 65 -/
noncomputable def decodeIn64 : List Nat := hex! "C1400AC1410AC1420AC1430AC1440AC1450AC1460AC1470AC1480AC1490AC14A0AC14B0AC14C0AC14D0AC14E0AC14F0A
  C1500AC1510AC1520AC1530AC1540AC1550AC1560AC1570AC1580AC1590AC15A0AC15B0AC15C0AC15D0AC15E0AC15F0A
  C1600AC1610AC1620AC1630AC1640AC1650AC1660AC1670AC1680AC1690AC16A0AC16B0AC16C0AC16D0AC16E0AC16F0A
  C1700AC1710AC1720AC1730AC1740AC1750AC1760AC1770AC1780AC1790AC17A0AC17B0AC17C0AC17D0AC17E0AC1A10A
  C1A20AC1A30AC1A40AC1A50AC1A60AC1A70AC1A80AC1A90AC1AA0AC1AB0AC1AC0AC1AD0AC1AE0AC1AF0AC1B00AC1B10A
  C1B20AC1B30AC1B40AC1B50AC1B60AC1B70AC1B80AC1B90AC1BA0AC1BB0AC1BC0AC1BD0AC1BE0AC1BF0AC1C00AC1C10A
  C1C20AC1C30AC1C40AC1C50AC1C60AC1C70AC1C80AC1C90AC1CA0AC1CB0AC1CC0AC1CD0AC1CE0AC1CF0AC1D00AC1D10A
  C1D20AC1D30AC1D40AC1D50AC1D60AC1D70AC1D80AC1D90AC1DA0AC1DB0AC1DC0AC1DD0AC1DE0AC1DF0AC1E00AC1E10A
  C1E20AC1E30AC1E40AC1E50AC1E60AC1E70AC1E80AC1E90AC1EA0AC1EB0AC1EC0AC1ED0AC1EE0AC1EF0AC1F00AC1F10A
  C1F20AC1F30AC1F40AC1F50AC1F60AC1F70AC1F80AC1F90AC1FA0AC1FB0AC1FC0AC1FD0AC1FE0A"

/-- tests/test_data/whatwg/big5_whatwg_test_decode_out.txt, part 65 -/
noncomputable def decodeOut64 : List Nat := hex! "E79EA70AE79EAD0AE79FAF0AE7A3B70AE7A3BA0AE7A3B40AE7A3AF0AE7A4810AE7A6A70AE7A6AA0AE7A9970AE7AABF0A
  E7B0870AE7B08D0AE7AFBE0AE7AFB70AE7B08C0AE7AFA00AE7B3A00AE7B39C0AE7B39E0AE7B3A20AE7B39F0AE7B3990A
  E7B39D0AE7B8AE0AE7B8BE0AE7B9860AE7B8B70AE7B8B20AE7B9830AE7B8AB0AE7B8BD0AE7B8B10AE7B9850AE7B9810A
  E7B8B40AE7B8B90AE7B9880AE7B8B50AE7B8BF0AE7B8AF0AE7BD840AE7BFB30AE7BFBC0AE881B10AE881B20AE881B00A
  E881AF0AE881B30AE887860AE887830AE886BA0AE887820AE887800AE886BF0AE886BD0AE887890AE886BE0AE887A80A
  E888890AE889B10AE896AA0AE896840AE895BE0AE8969C0AE896910AE896940AE896AF0AE8969B0AE896870AE896A80A
  E8968A0AE899A70AE89F800AE89F910AE89EB30AE89F920AE89F860AE89EAB0AE89EBB0AE89EBA0AE89F880AE89F8B0A
  E8A4BB0AE8A4B60AE8A5840AE8A4B80AE8A4BD0AE8A6AC0AE8AC8E0AE8AC970AE8AC990AE8AC9B0AE8AC8A0AE8ACA00A
  E8AC9D0AE8AC840AE8AC900AE8B1810AE8B0BF0AE8B1B30AE8B3BA0AE8B3BD0AE8B3BC0AE8B3B80AE8B3BB0AE8B6A80A
  E8B9890AE8B98B0AE8B9880AE8B98A0AE8BD840AE8BCBE0AE8BD820AE8BD850AE8BCBF0AE981BF0AE981BD0AE982840A
  E982810AE982820AE982800AE984B90AE986A30AE9869E0AE9869C0AE98D8D0AE98E820AE98CA80AE98DB50AE98D8A0A
  E98DA50AE98D8B0AE98C980AE98DBE0AE98DAC0AE98D9B0AE98DB00AE98D9A0AE98D940AE9978A0AE9978B0AE9978C0A
  E997880AE997860AE99AB10AE99AB80AE99B960AE99C9C0AE99C9E0AE99EA00AE99F930AE9A1860AE9A2B60AE9A4B50A
  E9A8810A"

/-- tests/test_data/whatwg/big5_whatwg_test_encode_in.txt, part 65 -/
noncomputable def encodeIn64 : List Nat := hex! "E79EA70AE79EAD0AE79FAF0AE7A3B70AE7A3BA0AE7A3B40AE7A3AF0AE7A4810AE7A6A70AE7A6AA0AE7A9970AE7AABF0A
  E7B0870AE7B08D0AE7AFBE0AE7AFB70AE7B08C0AE7AFA00AE7B3A00AE7B39C0AE7B39E0AE7B3A20AE7B39F0AE7B3990A
  E7B39D0AE7B8AE0AE7B8BE0AE7B9860AE7B8B70AE7B8B20AE7B9830AE7B8AB0AE7B8BD0AE7B8B10AE7B9850AE7B9810A
  E7B8B40AE7B8B90AE7B9880AE7B8B50AE7B8BF0AE7B8AF0AE7BD840AE7BFB30AE7BFBC0AE881B10AE881B20AE881B00A
  E881AF0AE881B30AE887860AE887830AE886BA0AE887820AE887800AE886BF0AE886BD0AE887890AE886BE0AE887A80A
  E888890AE889B10AE896AA0AE896840AE895BE0AE8969C0AE896910AE896940AE896AF0AE8969B0AE896870AE896A80A
  E8968A0AE899A70AE89F800AE89F910AE89EB30AE89F920AE89F860AE89EAB0AE89EBB0AE89EBA0AE89F880AE89F8B0A
  E8A4BB0AE8A4B60AE8A5840AE8A4B80AE8A4BD0AE8A6AC0AE8AC8E0AE8AC970AE8AC990AE8AC9B0AE8AC8A0AE8ACA00A
  E8AC9D0AE8AC840AE8AC900AE8B1810AE8B0BF0AE8B1B30AE8B3BA0AE8B3BD0AE8B3BC0AE8B3B80AE8B3BB0AE8B6A80A
  E8B9890AE8B98B0AE8B9880AE8B98A0AE8BD840AE8BCBE0AE8BD820AE8BD850AE8BCBF0AE981BF0AE981BD0AE982840A
  E982810AE982820AE982800AE984B90AE986A30AE9869E0AE9869C0AE98D8D0AE98E820AE98CA80AE98DB50AE98D8A0A
  E98DA50AE98D8B0AE98C980AE98DBE0AE98DAC0AE98D9B0AE98DB00AE98D9A0AE98D940AE9978A0AE9978B0AE9978C0A
  E997880AE997860AE99AB10AE99AB80AE99B960AE99C9C0AE99C9E0AE99EA00AE99F930AE9A1860AE9A2B60AE9A4B50A
  E9A8810A"

/-- tests/test_data/whatwg/big5_whatwg_test_encode_out.txt, part 65 -/
noncomputable def encodeOut64 : List Nat := hex! "C1400AC1410AC1420AC1430AC1440AC1450AC1460AC1470AC1480AC1490AC14A0AC14B0AC14C0AC14D0AC14E0AC14F0A
  C1500AC1510AC1520AC1530AC1540AC1550AC1560AC1570AC1580AC1590AC15A0AC15B0AC15C0AC15D0AC15E0AC15F0A
  C1600AC1610AC1620AC1630AC1640AC1650AC1660AC1670AC1680AC1690AC16A0AC16B0AC16C0AC16D0AC16E0AC16F0A
  C1700AC1710AC1720AC1730AC1740AC1750AC1760AC1770AC1780AC1790AC17A0AC17B0AC17C0AC17D0AC17E0AC1A10A
  C1A20AC1A30AC1A40AC1A50AC1A60AC1A70AC1A80AC1A90AC1AA0AC1AB0AC1AC0AC1AD0AC1AE0AC1AF0AC1B00AC1B10A
  C1B20AC1B30AC1B40AC1B50AC1B60AC1B70AC1B80AC1B90AC1BA0AC1BB0AC1BC0AC1BD0AC1BE0AC1BF0AC1C00AC1C10A
  C1C20AC1C30AC1C40AC1C50AC1C60AC1C70AC1C80AC1C90AC1CA0AC1CB0AC1CC0AC1CD0AC1CE0AC1CF0AC1D00AC1D10A
  C1D20AC1D30AC1D40AC1D50AC1D60AC1D70AC1D80AC1D90AC1DA0AC1DB0AC1DC0AC1DD0AC1DE0AC1DF0AC1E00AC1E10A
  C1E20AC1E30AC1E40AC1E50AC1E60AC1E70AC1E80AC1E90AC1EA0AC1EB0AC1EC0AC1ED0AC1EE0AC1EF0AC1F00AC1F10A
  C1F20AC1F30AC1F40AC1F50AC1F60AC1F70AC1F80AC1F90AC1FA0AC1FB0AC1FC0AC1FD0AC1FE0A"

/-- tests/test_data/whatwg/big5_whatwg_test_decode_in.txt, part 66 -/
noncomputable def decodeIn65 : List Nat := hex! "C2400AC2410AC2420AC2430AC2440AC2450AC2460AC2470AC2480AC2490AC24A0AC24B0AC24C0AC24D0AC24E0AC24F0A
  C2500AC2510AC2520AC2530AC2540AC2550AC2560AC2570AC2580AC2590AC25A0AC25B0AC25C0AC25D0AC25E0AC25F0A
  C2600AC2610AC2620AC2630AC2640AC2650AC2660AC2670AC2680AC2690AC26A0AC26B0AC26C0AC26D0AC26E0AC26F0A
  C2700AC2710AC2720AC2730AC2740AC2750AC2760AC2770AC2780AC2790AC27A0AC27B0AC27C0AC27D0AC27E0AC2A10A
  C2A20AC2A30AC2A40AC2A50AC2A60AC2A70AC2A80AC2A90AC2AA0AC2AB0AC2AC0AC2AD0AC2AE0AC2AF0AC2B00AC2B10A
  C2B20AC2B30AC2B40AC2B50AC2B60AC2B70AC2B80AC2B90AC2BA0AC2BB0AC2BC0AC2BD0AC2BE0AC2BF0AC2C00AC2C10A
  C2C20AC2C30AC2C40AC2C50AC2C60AC2C70AC2C80AC2C90AC2CA0AC2CB0AC2CC0AC2CD0AC2CE0AC2CF0AC2D00AC2D10A
  C2D20AC2D30AC2D40AC2D50AC2D60AC2D70AC2D80AC2D90AC2DA0AC2DB0AC2DC0AC2DD0AC2DE0AC2DF0AC2E00AC2E10A
  C2E20AC2E30AC2E40AC2E50AC2E60AC2E70AC2E80AC2E90AC2EA0AC2EB0AC2EC0AC2ED0AC2EE0AC2EF0AC2F00AC2F10A
  C2F20AC2F30AC2F40AC2F50AC2F60AC2F70AC2F80AC2F90AC2FA0AC2FB0AC2FC0AC2FD0AC2FE0A"

/-- tests/test_data/whatwg/big5_whatwg_test_decode_out.txt, part 66 -/
noncomputable def decodeOut65 : List Nat := hex! "E9A7BF0AE9AEAE0AE9AEAB0AE9AEAA0AE9AEAD0AE9B4BB0AE9B4BF0AE9BA8B0AE9BB8F0AE9BB9E0AE9BB9C0AE9BB9D0A
  E9BB9B0AE9BCBE0AE9BD8B0AE58FA20AE59A950AE59AAE0AE5A3990AE5A3980AE5ACB80AE5BD9D0AE687A30AE688B30A
  E693B40AE693B20AE693BE0AE694860AE693BA0AE693BB0AE693B70AE696B70AE69B9C0AE69CA60AE6AAB30AE6AAAC0A
  E6AB830AE6AABB0AE6AAB80AE6AB820AE6AAAE0AE6AAAF0AE6AD9F0AE6ADB80AE6AEAF0AE780890AE7808B0AE6BFBE0A
  E780860AE6BFBA0AE780910AE7808F0AE787BB0AE787BC0AE787BE0AE787B80AE78DB70AE78DB50AE792A70AE792BF0A
  E794950AE799960AE799980AE799920AE79EBD0AE79EBF0AE79EBB0AE79EBC0AE7A48E0AE7A6AE0AE7A9A10AE7A9A20A
  E7A9A00AE7AB840AE7AB850AE7B0AB0AE7B0A70AE7B0AA0AE7B09E0AE7B0A30AE7B0A10AE7B3A70AE7B9940AE7B9950A
  E7B99E0AE7B99A0AE7B9A10AE7B9920AE7B9990AE7BD880AE7BFB90AE7BFBB0AE881B70AE881B60AE8878D0AE8878F0A
  E8888A0AE8978F0AE896A90AE8978D0AE897900AE897890AE896B00AE896BA0AE896B90AE896A60AE89FAF0AE89FAC0A
  E89FB20AE89FA00AE8A6860AE8A6B20AE8A7B40AE8ACA80AE8ACB90AE8ACAC0AE8ACAB0AE8B1900AE8B4850AE8B9990A
  E8B9A30AE8B9A60AE8B9A40AE8B99F0AE8B9950AE8BB800AE8BD890AE8BD8D0AE982870AE982830AE982880AE986AB0A
  E986AC0AE987900AE98E940AE98E8A0AE98E960AE98EA20AE98EB30AE98EAE0AE98EAC0AE98EB00AE98E980AE98E9A0A
  E98E970AE997940AE997960AE997900AE997950AE99BA20AE99B9C0AE99B990AE99B9B0AE99B9E0AE99CA40AE99EA30A
  E99EA60A"

/-- tests/test_data/whatwg/big5_whatwg_test_encode_in.txt, part 66 -/
noncomputable def encodeIn65 : List Nat := hex! "E9A7BF0AE9AEAE0AE9AEAB0AE9AEAA0AE9AEAD0AE9B4BB0AE9B4BF0AE9BA8B0AE9BB8F0AE9BB9E0AE9BB9C0AE9BB9D0A
  E9BB9B0AE9BCBE0AE9BD8B0AE58FA20AE59A950AE59AAE0AE5A3990AE5A3980AE5ACB80AE5BD9D0AE687A30AE688B30A
  E693B40AE693B20AE693BE0AE694860AE693BA0AE693BB0AE693B70AE696B70AE69B9C0AE69CA60AE6AAB30AE6AAAC0A
  E6AB830AE6AABB0AE6AAB80AE6AB820AE6AAAE0AE6AAAF0AE6AD9F0AE6ADB80AE6AEAF0AE780890AE7808B0AE6BFBE0A
  E780860AE6BFBA0AE780910AE7808F0AE787BB0AE787BC0AE787BE0AE787B80AE78DB70AE78DB50AE792A70AE792BF0A
  E794950AE799960AE799980AE799920AE79EBD0AE79EBF0AE79EBB0AE79EBC0AE7A48E0AE7A6AE0AE7A9A10AE7A9A20A
  E7A9A00AE7AB840AE7AB850AE7B0AB0AE7B0A70AE7B0AA0AE7B09E0AE7B0A30AE7B0A10AE7B3A70AE7B9940AE7B9950A
  E7B99E0AE7B99A0AE7B9A10AE7B9920AE7B9990AE7BD880AE7BFB90AE7BFBB0AE881B70AE881B60AE8878D0AE8878F0A
  E8888A0AE8978F0AE896A90AE8978D0AE897900AE897890AE896B00AE896BA0AE896B90AE896A60AE89FAF0AE89FAC0A
  E89FB20AE89FA00AE8A6860AE8A6B20AE8A7B40AE8ACA80AE8ACB90AE8ACAC0AE8ACAB0AE8B1900AE8B4850AE8B9990A
  E8B9A30AE8B9A60AE8B9A40AE8B99F0AE8B9950AE8BB800AE8BD890AE8BD8D0AE982870AE982830AE982880AE986AB0A
  E986AC0AE987900AE98E940AE98E8A0AE98E960AE98EA20AE98EB30AE98EAE0AE98EAC0AE98EB00AE98E980AE98E9A0A
  E98E970AE997940AE997960AE997900AE997950AE99BA20AE99B9C0AE99B990AE99B9B0AE99B9E0AE99CA40AE99EA30A
  E99EA60A"

/-- tests/test_data/whatwg/big5_whatwg_test_encode_out.txt, part 66 -/
noncomputable def encodeOut65 : List Nat := hex! "C2400AC2410AC2420AC2430AC2440AC2450AC2460AC2470AC2480AC2490AC24A0AC24B0AC24C0AC24D0AC24E0AC24F0A
  C2500AC2510AC2520AC2530AC2540AC2550AC2560AC2570AC2580AC2590AC25A0AC25B0AC25C0AC25D0AC25E0AC25F0A
  C2600AC2610AC2620AC2630AC2640AC2650AC2660AC2670AC2680AC2690AC26A0AC26B0AC26C0AC26D0AC26E0AC26F0A
  C2700AC2710AC2720AC2730AC2740AC2750AC2760AC2770AC2780AC2790AC27A0AC27B0AC27C0AC27D0AC27E0AC2A10A
  C2A20AC2A30AC2A40AC2A50AC2A60AC2A70AC2A80AC2A90AC2AA0AC2AB0AC2AC0AC2AD0AC2AE0AC2AF0AC2B00AC2B10A
  C2B20AC2B30AC2B40AC2B50AC2B60AC2B70AC2B80AC2B90AC2BA0AC2BB0AC2BC0AC2BD0AC2BE0AC2BF0AC2C00AC2C10A
  C2C20AC2C30AC2C40AC2C50AC2C60AC2C70AC2C80AC2C90AC2CA0AC2CB0AC2CC0AC2CD0AC2CE0AC2CF0AC2D00AC2D10A
  C2D20AC2D30AC2D40AC2D50AC2D60AC2D70AC2D80AC2D90AC2DA0AC2DB0AC2DC0AC2DD0AC2DE0AC2DF0AC2E00AC2E10A
  C2E20AC2E30AC2E40AC2E50AC2E60AC2E70AC2E80AC2E90AC2EA0AC2EB0AC2EC0AC2ED0AC2EE0AC2EF0AC2F00AC2F10A
  C2F20AC2F30AC2F40AC2F50AC2F60AC2F70AC2F80AC2F90AC2FA0AC2FB0AC2FC0AC2FD0AC2FE0A"

/-- tests/test_data/whatwg/big5_whatwg_test_decode_in.txt, part 67 -/
noncomputable def decodeIn66 : List Nat := hex! "C3400AC3410AC3420AC3430AC3440AC3450AC3460AC3470AC3480AC3490AC34A0AC34B0AC34C0AC34D0AC34E0AC34F0A
  C3500AC3510AC3520AC3530AC3540AC3550AC3560AC3570AC3580AC3590AC35A0AC35B0AC35C0AC35D0AC35E0AC35F0A
  C3600AC3610AC3620AC3630AC3640AC3650AC3660AC3670AC3680AC3690AC36A0AC36B0AC36C0AC36D0AC36E0AC36F0A
  C3700AC3710AC3720AC3730AC3740AC3750AC3760AC3770AC3780AC3790AC37A0AC37B0AC37C0AC37D0AC37E0AC3A10A
  C3A20AC3A30AC3A40AC3A50AC3A60AC3A70AC3A80AC3A90AC3AA0AC3AB0AC3AC0AC3AD0AC3AE0AC3AF0AC3B00AC3B10A
  C3B20AC3B30AC3B40AC3B50AC3B60AC3B70AC3B80AC3B90AC3BA0AC3BB0AC3BC0AC3BD0AC3BE0AC3BF0AC3C00AC3C10A
  C3C20AC3C30AC3C40AC3C50AC3C60AC3C70AC3C80AC3C90AC3CA0AC3CB0AC3CC0AC3CD0AC3CE0AC3CF0AC3D00AC3D10A
  C3D20AC3D30AC3D40AC3D50AC3D60AC3D70AC3D80AC3D90AC3DA0AC3DB0AC3DC0AC3DD0AC3DE0AC3DF0AC3E00AC3E10A
  C3E20AC3E30AC3E40AC3E50AC3E60AC3E70AC3E80AC3E90AC3EA0AC3EB0AC3EC0AC3ED0AC3EE0AC3EF0AC3F00AC3F10A
  C3F20AC3F30AC3F40AC3F50AC3F60AC3F70AC3F80AC3F90AC3FA0AC3FB0AC3FC0AC3FD0AC3FE0A"

/-- tests/test_data/whatwg/big5_whatwg_test_decode_out.txt, part 67 -/
noncomputable def decodeOut66 : List Nat := hex! "E99EAD0AE99FB90AE9A18D0AE9A18F0AE9A18C0AE9A18E0AE9A1930AE9A2BA0AE9A4BE0AE9A4BF0AE9A4BD0AE9A4AE0A
  E9A6A50AE9A88E0AE9AB810AE9AC830AE9AC860AE9AD8F0AE9AD8E0AE9AD8D0AE9AF8A0AE9AF890AE9AFBD0AE9AF880A
  E9AF800AE9B5910AE9B59D0AE9B5A00AE9BBA00AE9BC950AE9BCAC0AE584B30AE59AA50AE5A39E0AE5A39F0AE5A3A20A
  E5AFB50AE9BE900AE5BBAC0AE687B20AE687B70AE687B60AE687B50AE694800AE6948F0AE69BA00AE69B9D0AE6ABA50A
  E6AB9D0AE6AB9A0AE6AB930AE7809B0AE7809F0AE780A80AE7809A0AE7809D0AE780950AE780980AE788860AE7888D0A
  E789980AE78AA20AE78DB80AE78DBA0AE792BD0AE7938A0AE793A30AE796870AE796860AE7999F0AE799A10AE79F870A
  E7A4990AE7A6B10AE7A9AB0AE7A9A90AE7B0BE0AE7B0BF0AE7B0B80AE7B0BD0AE7B0B70AE7B1800AE7B9AB0AE7B9AD0A
  E7B9B90AE7B9A90AE7B9AA0AE7BE850AE7B9B30AE7BEB60AE7BEB90AE7BEB80AE887980AE897A90AE8979D0AE897AA0A
  E897950AE897A40AE897A50AE897B70AE89FBB0AE8A0850AE8A08D0AE89FB90AE89FBE0AE8A5A00AE8A59F0AE8A5960A
  E8A59E0AE8AD810AE8AD9C0AE8AD980AE8AD890AE8AD9A0AE8AD8E0AE8AD8F0AE8AD860AE8AD990AE8B4880AE8B48A0A
  E8B9BC0AE8B9B20AE8BA870AE8B9B60AE8B9AC0AE8B9BA0AE8B9B40AE8BD940AE8BD8E0AE8BEAD0AE9828A0AE9828B0A
  E986B10AE986AE0AE98FA10AE98F910AE98F9F0AE98F830AE98F880AE98F9C0AE98F9D0AE98F960AE98FA20AE98F8D0A
  E98F980AE98FA40AE98F970AE98FA80AE9979C0AE99AB40AE99BA30AE99CAA0AE99CA70AE99DA10AE99F9C0AE99FBB0A
  E9A19E0A"

/-- tests/test_data/whatwg/big5_whatwg_test_encode_in.txt, part 67 -/
noncomputable def encodeIn66 : List Nat := hex! "E99EAD0AE99FB90AE9A18D0AE9A18F0AE9A18C0AE9A18E0AE9A1930AE9A2BA0AE9A4BE0AE9A4BF0AE9A4BD0AE9A4AE0A
  E9A6A50AE9A88E0AE9AB810AE9AC830AE9AC860AE9AD8F0AE9AD8E0AE9AD8D0AE9AF8A0AE9AF890AE9AFBD0AE9AF880A
  E9AF800AE9B5910AE9B59D0AE9B5A00AE9BBA00AE9BC950AE9BCAC0AE584B30AE59AA50AE5A39E0AE5A39F0AE5A3A20A
  E5AFB50AE9BE900AE5BBAC0AE687B20AE687B70AE687B60AE687B50AE694800AE6948F0AE69BA00AE69B9D0AE6ABA50A
  E6AB9D0AE6AB9A0AE6AB930AE7809B0AE7809F0AE780A80AE7809A0AE7809D0AE780950AE780980AE788860AE7888D0A
  E789980AE78AA20AE78DB80AE78DBA0AE792BD0AE7938A0AE793A30AE796870AE796860AE7999F0AE799A10AE79F870A
  E7A4990AE7A6B10AE7A9AB0AE7A9A90AE7B0BE0AE7B0BF0AE7B0B80AE7B0BD0AE7B0B70AE7B1800AE7B9AB0AE7B9AD0A
  E7B9B90AE7B9A90AE7B9AA0AE7BE850AE7B9B30AE7BEB60AE7BEB90AE7BEB80AE887980AE897A90AE8979D0AE897AA0A
  E897950AE897A40AE897A50AE897B70AE89FBB0AE8A0850AE8A08D0AE89FB90AE89FBE0AE8A5A00AE8A59F0AE8A5960A
  E8A59E0AE8AD810AE8AD9C0AE8AD980AE8AD890AE8AD9A0AE8AD8E0AE8AD8F0AE8AD860AE8AD990AE8B4880AE8B48A0A
  E8B9BC0AE8B9B20AE8BA870AE8B9B60AE8B9AC0AE8B9BA0AE8B9B40AE8BD940AE8BD8E0AE8BEAD0AE9828A0AE9828B0A
  E986B10AE986AE0AE98FA10AE98F910AE98F9F0AE98F830AE98F880AE98F9C0AE98F9D0AE98F960AE98FA20AE98F8D0A
  E98F980AE98FA40AE98F970AE98FA80AE9979C0AE99AB40AE99BA30AE99CAA0AE99CA70AE99DA10AE99F9C0AE99FBB0A
  E9A19E0A"

/-- tests/test_data/whatwg/big5_whatwg_test_encode_out.txt, part 67 -/
noncomputable def encodeOut66 : List Nat := hex! "C3400AC3410AC3420AC3430AC3440AC3450AC3460AC3470AC3480AC3490AC34A0AC34B0AC34C0AC34D0AC34E0AC34F0A
  C3500AC3510AC3520AC3530AC3540AC3550AC3560AC3570AC3580AC3590AC35A0AC35B0AC35C0AC35D0AC35E0AC35F0A
  C3600AC3610AC3620AC3630AC3640AC3650AC3660AC3670AC3680AC3690AC36A0AC36B0AC36C0AC36D0AC36E0AC36F0A
  C3700AC3710AC3720AC3730AC3740AC3750AC3760AC3770AC3780AC3790AC37A0AC37B0AC37C0AC37D0AC37E0AC3A10A
  C3A20AC3A30AC3A40AC3A50AC3A60AC3A70AC3A80AC3A90AC3AA0AC3AB0AC3AC0AC3AD0AC3AE0AC3AF0AC3B00AC3B10A
  C3B20AC3B30AC3B40AC3B50AC3B60AC3B70AC3B80AC3B90AC3BA0AC3BB0AC3BC0AC3BD0AC3BE0AC3BF0AC3C00AC3C10A
  C3C20AC3C30AC3C40AC3C50AC3C60AC3C70AC3C80AC3C90AC3CA0AC3CB0AC3CC0AC3CD0AC3CE0AC3CF0AC3D00AC3D10A
  C3D20AC3D30AC3D40AC3D50AC3D60AC3D70AC3D80AC3D90AC3DA0AC3DB0AC3DC0AC3DD0AC3DE0AC3DF0AC3E00AC3E10A
  C3E20AC3E30AC3E40AC3E50AC3E60AC3E70AC3E80AC3E90AC3EA0AC3EB0AC3EC0AC3ED0AC3EE0AC3EF0AC3F00AC3F10A
  C3F20AC3F30AC3F40AC3F50AC3F60AC3F70AC3F80AC3F90AC3FA0AC3FB0AC3FC0AC3FD0AC3FE0A"

/-- tests/test_data/whatwg/big5_whatwg_test_decode_in.txt, part 68 -/
noncomputable def decodeIn67 : List Nat := hex! "C4400AC4410AC4420AC4430AC4440AC4450AC4460AC4470AC4480AC4490AC44A0AC44B0AC44C0AC44D0AC44E0AC44F0A
  C4500AC4510AC4520AC4530AC4540AC4550AC4560AC4570AC4580AC4590AC45A0AC45B0AC45C0AC45D0AC45E0AC45F0A
  C4600AC4610AC4620AC4630AC4640AC4650AC4660AC4670AC4680AC4690AC46A0AC46B0AC46C0AC46D0AC46E0AC46F0A
  C4700AC4710AC4720AC4730AC4740AC4750AC4760AC4770AC4780AC4790AC47A0AC47B0AC47C0AC47D0AC47E0AC4A10A
  C4A20AC4A30AC4A40AC4A50AC4A60AC4A70AC4A80AC4A90AC4AA0AC4AB0AC4AC0AC4AD0AC4AE0AC4AF0AC4B00AC4B10A
  C4B20AC4B30AC4B40AC4B50AC4B60AC4B70AC4B80AC4B90AC4BA0AC4BB0AC4BC0AC4BD0AC4BE0AC4BF0AC4C00AC4C10A
  C4C20AC4C30AC4C40AC4C50AC4C60AC4C70AC4C80AC4C90AC4CA0AC4CB0AC4CC0AC4CD0AC4CE0AC4CF0AC4D00AC4D10A
  C4D20AC4D30AC4D40AC4D50AC4D60AC4D70AC4D80AC4D90AC4DA0AC4DB0AC4DC0AC4DD0AC4DE0AC4DF0AC4E00AC4E10A
  C4E20AC4E30AC4E40AC4E50AC4E60AC4E70AC4E80AC4E90AC4EA0AC4EB0AC4EC0AC4ED0AC4EE0AC4EF0AC4F00AC4F10A
  C4F20AC4F30AC4F40AC4F50AC4F60AC4F70AC4F80AC4F90AC4FA0AC4FB0AC4FC0AC4FD0AC4FE0A"

/-- tests/test_data/whatwg/big5_whatwg_test_decode_out.txt, part 68 -/
noncomputable def decodeOut67 : List Nat := hex! "E9A1980AE9A19B0AE9A2BC0AE9A5850AE9A5890AE9A8960AE9A8990AE9AC8D0AE9AFA80AE9AFA70AE9AF960AE9AF9B0A
  E9B6890AE9B5A10AE9B5B20AE9B5AA0AE9B5AC0AE9BA920AE9BA970AE9BA930AE9BAB40AE58BB80AE59AA80AE59AB70A
  E59AB60AE59AB40AE59ABC0AE5A3A40AE5AD800AE5AD830AE5ADBD0AE5AFB60AE5B7890AE687B80AE687BA0AE694980A
  E694940AE694990AE69BA60AE69CA70AE6ABAC0AE780BE0AE780B00AE780B20AE788900AE78DBB0AE7938F0AE799A20A
  E799A50AE7A4A60AE7A4AA0AE7A4AC0AE7A4AB0AE7AB870AE7ABB60AE7B18C0AE7B1830AE7B18D0AE7B3AF0AE7B3B00A
  E8BEAE0AE7B9BD0AE7B9BC0AE7BA820AE7BD8C0AE880800AE8879A0AE889A60AE897BB0AE897B90AE898910AE897BA0A
  E898860AE8988B0AE898870AE8988A0AE8A0940AE8A0950AE8A5A40AE8A6BA0AE8A7B80AE8ADB00AE8ADAC0AE8ADA60A
  E8ADAF0AE8AD9F0AE8ADAB0AE8B48F0AE8B48D0AE8BA890AE8BA810AE8BA850AE8BA820AE986B40AE9878B0AE990980A
  E990830AE98FBD0AE997A10AE99CB00AE9A3840AE9A5920AE9A5910AE9A6A80AE9A8AB0AE9A8B00AE9A8B70AE9A8B50A
  E9B0930AE9B08D0AE9B9B90AE9BAB50AE9BBA80AE9BCAF0AE9BD9F0AE9BDA30AE9BDA10AE584B70AE584B80AE59B810A
  E59B800AE59B820AE5A4940AE5B1AC0AE5B78D0AE687BC0AE687BE0AE6949D0AE6949C0AE696950AE69BA90AE6ABBB0A
  E6AC840AE6ABBA0AE6AEB20AE7818C0AE7889B0AE78AA70AE793960AE793940AE799A90AE79F930AE7B1900AE7BA8F0A
  E7BA8C0AE7BEBC0AE898970AE898AD0AE8989A0AE8A0A30AE8A0A20AE8A0A10AE8A09F0AE8A5AA0AE8A5AC0AE8A6BD0A
  E8ADB40A"

/-- tests/test_data/whatwg/big5_whatwg_test_encode_in.txt, part 68 -/
noncomputable def encodeIn67 : List Nat := hex! "E9A1980AE9A19B0AE9A2BC0AE9A5850AE9A5890AE9A8960AE9A8990AE9AC8D0AE9AFA80AE9AFA70AE9AF960AE9AF9B0A
  E9B6890AE9B5A10AE9B5B20AE9B5AA0AE9B5AC0AE9BA920AE9BA970AE9BA930AE9BAB40AE58BB80AE59AA80AE59AB70A
  E59AB60AE59AB40AE59ABC0AE5A3A40AE5AD800AE5AD830AE5ADBD0AE5AFB60AE5B7890AE687B80AE687BA0AE694980A
  E694940AE694990AE69BA60AE69CA70AE6ABAC0AE780BE0AE780B00AE780B20AE788900AE78DBB0AE7938F0AE799A20A
  E799A50AE7A4A60AE7A4AA0AE7A4AC0AE7A4AB0AE7AB870AE7ABB60AE7B18C0AE7B1830AE7B18D0AE7B3AF0AE7B3B00A
  E8BEAE0AE7B9BD0AE7B9BC0AE7BA820AE7BD8C0AE880800AE8879A0AE889A60AE897BB0AE897B90AE898910AE897BA0A
  E898860AE8988B0AE898870AE8988A0AE8A0940AE8A0950AE8A5A40AE8A6BA0AE8A7B80AE8ADB00AE8ADAC0AE8ADA60A
  E8ADAF0AE8AD9F0AE8ADAB0AE8B48F0AE8B48D0AE8BA890AE8BA810AE8BA850AE8BA820AE986B40AE9878B0AE990980A
  E990830AE98FBD0AE997A10AE99CB00AE9A3840AE9A5920AE9A5910AE9A6A80AE9A8AB0AE9A8B00AE9A8B70AE9A8B50A
  E9B0930AE9B08D0AE9B9B90AE9BAB50AE9BBA80AE9BCAF0AE9BD9F0AE9BDA30AE9BDA10AE584B70AE584B80AE59B810A
  E59B800AE59B820AE5A4940AE5B1AC0AE5B78D0AE687BC0AE687BE0AE6949D0AE6949C0AE696950AE69BA90AE6ABBB0A
  E6AC840AE6ABBA0AE6AEB20AE7818C0AE7889B0AE78AA70AE793960AE793940AE799A90AE79F930AE7B1900AE7BA8F0A
  E7BA8C0AE7BEBC0AE898970AE898AD0AE8989A0AE8A0A30AE8A0A20AE8A0A10AE8A09F0AE8A5AA0AE8A5AC0AE8A6BD0A
  E8ADB40A"

/-- tests/test_data/whatwg/big5_whatwg_test_encode_out.txt, part 68 -/
noncomputable def encodeOut67 : List Nat := hex! "C4400AC4410AC4420AC4430AC4440AC4450AC4460AC4470AC4480AC4490AC44A0AC44B0AC44C0AC44D0AC44E0AC44F0A
  C4500AC4510AC4520AC4530AC4540AC4550AC4560AC4570AC4580AC4590AC45A0AC45B0AC45C0AC45D0AC45E0AC45F0A
  C4600AC4610AC4620AC4630AC4640AC4650AC4660AC4670AC4680AC4690AC46A0AC46B0AC46C0AC46D0AC46E0AC46F0A
  C4700AC4710AC4720AC4730AC4740AC4750AC4760AC4770AC4780AC4790AC47A0AC47B0AC47C0AC47D0AC47E0AC4A10A
  C4A20AC4A30AC4A40AC4A50AC4A60AC4A70AC4A80AC4A90AC4AA0AC4AB0AC4AC0AC4AD0AC4AE0AC4AF0AC4B00AC4B10A
  C4B20AC4B30AC4B40AC4B50AC4B60AC4B70AC4B80AC4B90AC4BA0AC4BB0AC4BC0AC4BD0AC4BE0AC4BF0AC4C00AC4C10A
  C4C20AC4C30AC4C40AC4C50AC4C60AC4C70AC4C80AC4C90AC4CA0AC4CB0AC4CC0AC4CD0AC4CE0AC4CF0AC4D00AC4D10A
  C4D20AC4D30AC4D40AC4D50AC4D60AC4D70AC4D80AC4D90AC4DA0AC4DB0AC4DC0AC4DD0AC4DE0AC4DF0AC4E00AC4E10A
  C4E20AC4E30AC4E40AC4E50AC4E60AC4E70AC4E80AC4E90AC4EA0AC4EB0AC4EC0AC4ED0AC4EE0AC4EF0AC4F00AC4F10A
  C4F20AC4F30AC4F40AC4F50AC4F60AC4F70AC4F80AC4F90AC4FA0AC4FB0AC4FC0AC4FD0AC4FE0A"

/-- tests/test_data/whatwg/big5_whatwg_test_decode_in.txt, part 69 -/
noncomputable def decodeIn68 : List Nat := hex! "C5400AC5410AC5420AC5430AC5440AC5450AC5460AC5470AC5480AC5490AC54A0AC54B0AC54C0AC54D0AC54E0AC54F0A
  C5500AC5510AC5520AC5530AC5540AC5550AC5560AC5570AC5580AC5590AC55A0AC55B0AC55C0AC55D0AC55E0AC55F0A
  C5600AC5610AC5620AC5630AC5640AC5650AC5660AC5670AC5680AC5690AC56A0AC56B0AC56C0AC56D0AC56E0AC56F0A
  C5700AC5710AC5720AC5730AC5740AC5750AC5760AC5770AC5780AC5790AC57A0AC57B0AC57C0AC57D0AC57E0AC5A10A
  C5A20AC5A30AC5A40AC5A50AC5A60AC5A70AC5A80AC5A90AC5AA0AC5AB0AC5AC0AC5AD0AC5AE0AC5AF0AC5B00AC5B10A
  C5B20AC5B30AC5B40AC5B50AC5B60AC5B70AC5B80AC5B90AC5BA0AC5BB0AC5BC0AC5BD0AC5BE0AC5BF0AC5C00AC5C10A
  C5C20AC5C30AC5C40AC5C50AC5C60AC5C70AC5C80AC5C90AC5CA0AC5CB0AC5CC0AC5CD0AC5CE0AC5CF0AC5D00AC5D10A
  C5D20AC5D30AC5D40AC5D50AC5D60AC5D70AC5D80AC5D90AC5DA0AC5DB0AC5DC0AC5DD0AC5DE0AC5DF0AC5E00AC5E10A
  C5E20AC5E30AC5E40AC5E50AC5E60AC5E70AC5E80AC5E90AC5EA0AC5EB0AC5EC0AC5ED0AC5EE0AC5EF0AC5F00AC5F10A
  C5F20AC5F30AC5F40AC5F50AC5F60AC5F70AC5F80AC5F90AC5FA0AC5FB0AC5FC0AC5FD0AC5FE0A"

/-- tests/test_data/whatwg/big5_whatwg_test_decode_out.txt, part 69 -/
noncomputable def decodeOut68 : List Nat := hex! "E8ADB70AE8ADBD0AE8B4930AE8BA8A0AE8BA8D0AE8BA8B0AE8BD9F0AE8BEAF0AE986BA0AE990AE0AE990B30AE990B50A
  E990BA0AE990B80AE990B20AE990AB0AE997A20AE99CB80AE99CB90AE99CB20AE99FBF0AE9A1A70AE9A1A50AE9A5970A
  E9A9850AE9A9830AE9A9800AE9A8BE0AE9AB8F0AE9AD940AE9AD910AE9B0AD0AE9B0A50AE9B6AF0AE9B6B40AE9B7820A
  E9B6B80AE9BA9D0AE9BBAF0AE9BC990AE9BD9C0AE9BDA60AE9BDA70AE584BC0AE584BB0AE59B880AE59B8A0AE59B890A
  E5ADBF0AE5B7940AE5B7920AE5BD8E0AE687BF0AE694A40AE6AC8A0AE6ADA10AE781910AE781980AE78E800AE793A40A
  E7968A0AE799AE0AE799AC0AE7A6B30AE7B1A00AE7B19F0AE881BE0AE881BD0AE8879F0AE8A5B20AE8A5AF0AE8A7BC0A
  E8AE800AE8B4960AE8B4970AE8BA910AE8BA930AE8BDA10AE985880AE991840AE991910AE991920AE99CBD0AE99CBE0A
  E99F830AE99F810AE9A1AB0AE9A5950AE9A9950AE9A98D0AE9AB920AE9AC9A0AE9B1890AE9B0B10AE9B0BE0AE9B0BB0A
  E9B7930AE9B7970AE9BCB40AE9BDAC0AE9BDAA0AE9BE940AE59B8C0AE5B7960AE688800AE694A30AE694AB0AE694AA0A
  E69BAC0AE6AC900AE7939A0AE7AB8A0AE7B1A40AE7B1A30AE7B1A50AE7BA930AE7BA960AE7BA940AE887A20AE898B80A
  E898BF0AE8A0B10AE8AE8A0AE982900AE9828F0AE991A30AE991A00AE991A40AE99DA80AE9A1AF0AE9A59C0AE9A99A0A
  E9A99B0AE9A9970AE9AB930AE9AB940AE9AB910AE9B1940AE9B1970AE9B1960AE9B7A50AE9BA9F0AE9BBB40AE59B910A
  E5A3A90AE694AC0AE7819E0AE799B10AE799B20AE79F970AE7BD900AE7BE880AE8A0B60AE8A0B90AE8A1A20AE8AE930A
  E8AE920A"

/-- tests/test_data/whatwg/big5_whatwg_test_encode_in.txt, part 69 -/
noncomputable def encodeIn68 : List Nat := hex! "E8ADB70AE8ADBD0AE8B4930AE8BA8A0AE8BA8D0AE8BA8B0AE8BD9F0AE8BEAF0AE986BA0AE990AE0AE990B30AE990B50A
  E990BA0AE990B80AE990B20AE990AB0AE997A20AE99CB80AE99CB90AE99CB20AE9A1A70AE9A1A50AE9A5970AE9A9850A
  E9A9830AE9A9800AE9A8BE0AE9AB8F0AE9AD940AE9AD910AE9B0AD0AE9B0A50AE9B6AF0AE9B6B40AE9B7820AE9B6B80A
  E9BA9D0AE9BBAF0AE9BC990AE9BD9C0AE9BDA60AE9BDA70AE584BC0AE584BB0AE59B880AE59B8A0AE59B890AE5ADBF0A
  E5B7940AE5B7920AE5BD8E0AE687BF0AE694A40AE6AC8A0AE6ADA10AE781910AE781980AE78E800AE793A40AE7968A0A
  E799AE0AE799AC0AE7A6B30AE7B1A00AE7B19F0AE881BE0AE881BD0AE8879F0AE8A5B20AE8A5AF0AE8A7BC0AE8AE800A
  E8B4960AE8B4970AE8BA910AE8BA930AE8BDA10AE985880AE991840AE991910AE991920AE99CBD0AE99CBE0AE99F830A
  E99F810AE9A1AB0AE9A5950AE9A9950AE9A98D0AE9AB920AE9AC9A0AE9B1890AE9B0B10AE9B0BE0AE9B0BB0AE9B7930A
  E9B7970AE9BCB40AE9BDAC0AE9BDAA0AE9BE940AE59B8C0AE5B7960AE688800AE694A30AE694AB0AE694AA0AE69BAC0A
  E6AC900AE7939A0AE7AB8A0AE7B1A40AE7B1A30AE7B1A50AE7BA930AE7BA960AE7BA940AE887A20AE898B80AE898BF0A
  E8A0B10AE8AE8A0AE982900AE9828F0AE991A30AE991A00AE991A40AE99DA80AE9A1AF0AE9A59C0AE9A99A0AE9A99B0A
  E9A9970AE9AB930AE9AB940AE9AB910AE9B1940AE9B1970AE9B1960AE9B7A50AE9BA9F0AE9BBB40AE59B910AE5A3A90A
  E694AC0AE7819E0AE799B10AE799B20AE7BD900AE7BE880AE8A0B60AE8A0B90AE8A1A20AE8AE930AE8AE920A"

/-- tests/test_data/whatwg/big5_whatwg_test_encode_out.txt, part 69 -/
noncomputable def encodeOut68 : List Nat := hex! "C5400AC5410AC5420AC5430AC5440AC5450AC5460AC5470AC5480AC5490AC54A0AC54B0AC54C0AC54D0AC54E0AC54F0A
  C5500AC5510AC5520AC5530AC5550AC5560AC5570AC5580AC5590AC55A0AC55B0AC55C0AC55D0AC55E0AC55F0AC5600A
  C5610AC5620AC5630AC5640AC5650AC5660AC5670AC5680AC5690AC56A0AC56B0AC56C0AC56D0AC56E0AC56F0AC5700A
  C5710AC5720AC5730AC5740AC5750AC5760AC5770AC5780AC5790AC57A0AC57B0AC57C0AC57D0AC57E0AC5A10AC5A20A
  C5A30AC5A40AC5A50AC5A60AC5A70AC5A80AC5A90AC5AA0AC5AB0AC5AC0AC5AD0AC5AE0AC5AF0AC5B00AC5B10AC5B20A
  C5B30AC5B40AC5B50AC5B60AC5B70AC5B80AC5B90AC5BA0AC5BB0AC5BC0AC5BD0AC5BE0AC5BF0AC5C00AC5C10AC5C20A
  C5C30AC5C40AC5C50AC5C60AC5C70AC5C80AC5C90AC5CA0AC5CB0AC5CC0AC5CD0AC5CE0AC5CF0AC5D00AC5D10AC5D20A
  C5D30AC5D40AC5D50AC5D60AC5D70AC5D80AC5D90AC5DA0AC5DB0AC5DC0AC5DD0AC5DE0AC5DF0AC5E00AC5E10AC5E20A
  C5E30AC5E40AC5E50AC5E60AC5E70AC5E80AC5E90AC5EA0AC5EB0AC5EC0AC5ED0AC5EE0AC5EF0AC5F00AC5F10AC5F20A
  C5F30AC5F40AC5F50AC5F60AC5F80AC5F90AC5FA0AC5FB0AC5FC0AC5FD0AC5FE0A"

/-- tests/test_data/whatwg/big5_whatwg_test_decode_in.txt, part 70 -/
noncomputable def decodeIn69 : List Nat := hex! "C6400AC6410AC6420AC6430AC6440AC6450AC6460AC6470AC6480AC6490AC64A0AC64B0AC64C0AC64D0AC64E0AC64F0A
  C6500AC6510AC6520AC6530AC6540AC6550AC6560AC6570AC6580AC6590AC65A0AC65B0AC65C0AC65D0AC65E0AC65F0A
  C6600AC6610AC6620AC6630AC6640AC6650AC6660AC6670AC6680AC6690AC66A0AC66B0AC66C0AC66D0AC66E0AC66F0A
  C6700AC6710AC6720AC6730AC6740AC6750AC6760AC6770AC6780AC6790AC67A0AC67B0AC67C0AC67D0AC67E0AC6A10A
  C6A20AC6A30AC6A40AC6A50AC6A60AC6A70AC6A80AC6A90AC6AA0AC6AB0AC6AC0AC6AD0AC6AE0AC6AF0AC6B00AC6B10A
  C6B20AC6B30AC6B40AC6B50AC6B60AC6B70AC6B80AC6B90AC6BA0AC6BB0AC6BC0AC6BD0AC6BE0AC6BF0AC6C00AC6C10A
  C6C20AC6C30AC6C40AC6C50AC6C60AC6C70AC6C80AC6C90AC6CA0AC6CB0AC6CC0AC6CD0AC6CE0AC6CF0AC6D00AC6D10A
  C6D20AC6D30AC6D40AC6D50AC6D60AC6D70AC6D80AC6D90AC6DA0AC6DB0AC6DC0AC6DD0AC6DE0AC6DF0AC6E00AC6E10A
  C6E20AC6E30AC6E40AC6E50AC6E60AC6E70AC6E80AC6E90AC6EA0AC6EB0AC6EC0AC6ED0AC6EE0AC6EF0AC6F00AC6F10A
  C6F20AC6F30AC6F40AC6F50AC6F60AC6F70AC6F80AC6F90AC6FA0AC6FB0AC6FC0AC6FD0AC6FE0A"

/-- tests/test_data/whatwg/big5_whatwg_test_decode_out.txt, part 70 -/
noncomputable def decodeOut69 : List Nat := hex! "E8AE960AE889B70AE8B49B0AE987800AE991AA0AE99D820AE99D880AE99D840AE99F860AE9A1B00AE9A99F0AE9ACA20A
  E9AD980AE9B19F0AE9B7B90AE9B7BA0AE9B9BC0AE9B9BD0AE9BC870AE9BDB70AE9BDB20AE5BBB30AE6AC960AE781A30A
  E7B1AC0AE7B1AE0AE8A0BB0AE8A7800AE8BAA10AE987810AE991B20AE991B00AE9A1B10AE9A59E0AE9AB960AE9ACA30A
  E9BB8C0AE781A40AE79F9A0AE8AE9A0AE991B70AE99F890AE9A9A20AE9A9A50AE7BA9C0AE8AE9C0AE8BAAA0AE987850A
  E991BD0AE991BE0AE991BC0AE9B1B70AE9B1B80AE9BBB70AE8B1940AE991BF0AE9B89A0AE788A80AE9A9AA0AE9ACB10A
  E9B89B0AE9B89E0AE7B1B20AE291A00AE291A10AE291A20AE291A30AE291A40AE291A50AE291A60AE291A70AE291A80A
  E291A90AE291B40AE291B50AE291B60AE291B70AE291B80AE291B90AE291BA0AE291BB0AE291BC0AE291BD0AE285B00A
  E285B10AE285B20AE285B30AE285B40AE285B50AE285B60AE285B70AE285B80AE285B90AE4B8B60AE4B8BF0AE4BA850A
  E4BAA00AE586820AE586960AE586AB0AE58BB90AE58CB80AE58DA90AE58EB60AE5A48A0AE5AE800AE5B79B0AE2BCB30A
  E5B9BF0AE5BBB40AE5BD900AE5BDA10AE694B40AE697A00AE796920AE799B60AE8BEB50AE99AB60AC2A80ACB860AE383
  BD0AE383BE0AE3829D0AE3829E0AE380830AE4BB9D0AE380850AE380860AE380870AE383BC0AEFBCBB0AEFBCBD0AE29C
  BD0AE381810AE381820AE381830AE381840AE381850AE381860AE381870AE381880AE381890AE3818A0AE3818B0AE381
  8C0AE3818D0AE3818E0AE3818F0AE381900AE381910AE381920AE381930AE381940AE381950AE381960AE381970AE381
  980A"

/-- tests/test_data/whatwg/big5_whatwg_test_encode_in.txt, part 70 -/
noncomputable def encodeIn69 : List Nat := hex! "E8AE960AE889B70AE8B49B0AE987800AE991AA0AE99D820AE99D880AE99D840AE99F860AE9A1B00AE9A99F0AE9ACA20A
  E9AD980AE9B19F0AE9B7B90AE9B7BA0AE9B9BC0AE9B9BD0AE9BC870AE9BDB70AE9BDB20AE5BBB30AE6AC960AE781A30A
  E7B1AC0AE7B1AE0AE8A0BB0AE8A7800AE8BAA10AE987810AE991B20AE991B00AE9A1B10AE9A59E0AE9AB960AE9ACA30A
  E9BB8C0AE781A40AE79F9A0AE8AE9A0AE991B70AE99F890AE9A9A20AE9A9A50AE7BA9C0AE8AE9C0AE8BAAA0AE987850A
  E991BD0AE991BE0AE991BC0AE9B1B70AE9B1B80AE9BBB70AE8B1940AE991BF0AE9B89A0AE788A80AE9A9AA0AE9ACB10A
  E9B89B0AE9B89E0AE7B1B20AE291A00AE291A10AE291A20AE291A30AE291A40AE291A50AE291A60AE291A70AE291A80A
  E291A90AE291B40AE291B50AE291B60AE291B70AE291B80AE291B90AE291BA0AE291BB0AE291BC0AE291BD0AE285B00A
  E285B10AE285B20AE285B30AE285B40AE285B50AE285B60AE285B70AE285B80AE285B90AE4B8B60AE4B8BF0AE4BA850A
  E4BAA00AE586820AE586960AE586AB0AE58BB90AE58CB80AE58DA90AE58EB60AE5A48A0AE5AE800AE5B79B0AE2BCB30A
  E5B9BF0AE5BBB40AE5BD900AE5BDA10AE694B40AE697A00AE796920AE799B60AE8BEB50AC2A80ACB860AE383BD0AE383
  BE0AE3829D0AE3829E0AE4BB9D0AE380850AE380860AE380870AE383BC0AEFBCBB0AEFBCBD0AE29CBD0AE381810AE381
  820AE381830AE381840AE381850AE381860AE381870AE381880AE381890AE3818A0AE3818B0AE3818C0AE3818D0AE381
  8E0AE3818F0AE381900AE381910AE381920AE381930AE381940AE381950AE381960AE381970AE381980A"

/-- tests/test_data/whatwg/big5_whatwg_test_encode_out.txt, part 70 -/
noncomputable def encodeOut69 : List Nat := hex! "C6400AC6410AC6420AC6430AC6440AC6450AC6460AC6470AC6480AC6490AC64A0AC64B0AC64C0AC64D0AC64E0AC64F0A
  C6500AC6510AC6520AC6530AC6540AC6550AC6560AC6570AC6580AC6590AC65A0AC65B0AC65C0AC65D0AC65E0AC65F0A
  C6600AC6610AC6620AC6630AC6640AC6650AC6660AC6670AC6680AC6690AC66A0AC66B0AC66C0AC66D0AC66E0AC66F0A
  C6700AC6710AC6720AC6730AC6740AC6750AC6760AC6770AC6780AC6790AC67A0AC67B0AC67C0AC67D0AC67E0AC6A10A
  C6A20AC6A30AC6A40AC6A50AC6A60AC6A70AC6A80AC6A90AC6AA0AC6AB0AC6AC0AC6AD0AC6AE0AC6AF0AC6B00AC6B10A
  C6B20AC6B30AC6B40AC6B50AC6B60AC6B70AC6B80AC6B90AC6BA0AC6BB0AC6BC0AC6BD0AC6BE0AC6BF0AC6C00AC6C10A
  C6C20AC6C30AC6C40AC6C50AC6C60AC6C70AC6C80AC6C90AC6CA0AC6CB0AC6CC0AC6CD0AC6CE0AC6CF0AC6D00AC6D10A
  C6D20AC6D30AC6D40AC6D50AC6D60AC6D80AC6D90AC6DA0AC6DB0AC6DC0AC6DD0AC6DF0AC6E00AC6E10AC6E20AC6E30A
  C6E40AC6E50AC6E60AC6E70AC6E80AC6E90AC6EA0AC6EB0AC6EC0AC6ED0AC6EE0AC6EF0AC6F00AC6F10AC6F20AC6F30A
  C6F40AC6F50AC6F60AC6F70AC6F80AC6F90AC6FA0AC6FB0AC6FC0AC6FD0AC6FE0A"

/-- tests/test_data/whatwg/big5_whatwg_test_decode_in.txt, part 71 -/
noncomputable def decodeIn70 : List Nat := hex! "C7400AC7410AC7420AC7430AC7440AC7450AC7460AC7470AC7480AC7490AC74A0AC74B0AC74C0AC74D0AC74E0AC74F0A
  C7500AC7510AC7520AC7530AC7540AC7550AC7560AC7570AC7580AC7590AC75A0AC75B0AC75C0AC75D0AC75E0AC75F0A
  C7600AC7610AC7620AC7630AC7640AC7650AC7660AC7670AC7680AC7690AC76A0AC76B0AC76C0AC76D0AC76E0AC76F0A
  C7700AC7710AC7720AC7730AC7740AC7750AC7760AC7770AC7780AC7790AC77A0AC77B0AC77C0AC77D0AC77E0AC7A10A
  C7A20AC7A30AC7A40AC7A50AC7A60AC7A70AC7A80AC7A90AC7AA0AC7AB0AC7AC0AC7AD0AC7AE0AC7AF0AC7B00AC7B10A
  C7B20AC7B30AC7B40AC7B50AC7B60AC7B70AC7B80AC7B90AC7BA0AC7BB0AC7BC0AC7BD0AC7BE0AC7BF0AC7C00AC7C10A
  C7C20AC7C30AC7C40AC7C50AC7C60AC7C70AC7C80AC7C90AC7CA0AC7CB0AC7CC0AC7CD0AC7CE0AC7CF0AC7D00AC7D10A
  C7D20AC7D30AC7D40AC7D50AC7D60AC7D70AC7D80AC7D90AC7DA0AC7DB0AC7DC0AC7DD0AC7DE0AC7DF0AC7E00AC7E10A
  C7E20AC7E30AC7E40AC7E50AC7E60AC7E70AC7E80AC7E90AC7EA0AC7EB0AC7EC0AC7ED0AC7EE0AC7EF0AC7F00AC7F10A
  C7F20AC7F30AC7F40AC7F50AC7F60AC7F70AC7F80AC7F90AC7FA0AC7FB0AC7FC0AC7FD0AC7FE0A"

/-- tests/test_data/whatwg/big5_whatwg_test_decode_out.txt, part 71 -/
noncomputable def decodeOut70 : List Nat := hex! "E381990AE3819A0AE3819B0AE3819C0AE3819D0AE3819E0AE3819F0AE381A00AE381A10AE381A20AE381A30AE381A40A
  E381A50AE381A60AE381A70AE381A80AE381A90AE381AA0AE381AB0AE381AC0AE381AD0AE381AE0AE381AF0AE381B00A
  E381B10AE381B20AE381B30AE381B40AE381B50AE381B60AE381B70AE381B80AE381B90AE381BA0AE381BB0AE381BC0A
  E381BD0AE381BE0AE381BF0AE382800AE382810AE382820AE382830AE382840AE382850AE382860AE382870AE382880A
  E382890AE3828A0AE3828B0AE3828C0AE3828D0AE3828E0AE3828F0AE382900AE382910AE382920AE382930AE382A10A
  E382A20AE382A30AE382A40AE382A50AE382A60AE382A70AE382A80AE382A90AE382AA0AE382AB0AE382AC0AE382AD0A
  E382AE0AE382AF0AE382B00AE382B10AE382B20AE382B30AE382B40AE382B50AE382B60AE382B70AE382B80AE382B90A
  E382BA0AE382BB0AE382BC0AE382BD0AE382BE0AE382BF0AE383800AE383810AE383820AE383830AE383840AE383850A
  E383860AE383870AE383880AE383890AE3838A0AE3838B0AE3838C0AE3838D0AE3838E0AE3838F0AE383900AE383910A
  E383920AE383930AE383940AE383950AE383960AE383970AE383980AE383990AE3839A0AE3839B0AE3839C0AE3839D0A
  E3839E0AE3839F0AE383A00AE383A10AE383A20AE383A30AE383A40AE383A50AE383A60AE383A70AE383A80AE383A90A
  E383AA0AE383AB0AE383AC0AE383AD0AE383AE0AE383AF0AE383B00AE383B10AE383B20AE383B30AE383B40AE383B50A
  E383B60AD0900AD0910AD0920AD0930AD0940AD0950AD0810AD0960AD0970AD0980AD0990AD09A0A"

/-- tests/test_data/whatwg/big5_whatwg_test_encode_in.txt, part 71 -/
noncomputable def encodeIn70 : List Nat := hex! "E381990AE3819A0AE3819B0AE3819C0AE3819D0AE3819E0AE3819F0AE381A00AE381A10AE381A20AE381A30AE381A40A
  E381A50AE381A60AE381A70AE381A80AE381A90AE381AA0AE381AB0AE381AC0AE381AD0AE381AE0AE381AF0AE381B00A
  E381B10AE381B20AE381B30AE381B40AE381B50AE381B60AE381B70AE381B80AE381B90AE381BA0AE381BB0AE381BC0A
  E381BD0AE381BE0AE381BF0AE382800AE382810AE382820AE382830AE382840AE382850AE382860AE382870AE382880A
  E382890AE3828A0AE3828B0AE3828C0AE3828D0AE3828E0AE3828F0AE382900AE382910AE382920AE382930AE382A10A
  E382A20AE382A30AE382A40AE382A50AE382A60AE382A70AE382A80AE382A90AE382AA0AE382AB0AE382AC0AE382AD0A
  E382AE0AE382AF0AE382B00AE382B10AE382B20AE382B30AE382B40AE382B50AE382B60AE382B70AE382B80AE382B90A
  E382BA0AE382BB0AE382BC0AE382BD0AE382BE0AE382BF0AE383800AE383810AE383820AE383830AE383840AE383850A
  E383860AE383870AE383880AE383890AE3838A0AE3838B0AE3838C0AE3838D0AE3838E0AE3838F0AE383900AE383910A
  E383920AE383930AE383940AE383950AE383960AE383970AE383980AE383990AE3839A0AE3839B0AE3839C0AE3839D0A
  E3839E0AE3839F0AE383A00AE383A10AE383A20AE383A30AE383A40AE383A50AE383A60AE383A70AE383A80AE383A90A
  E383AA0AE383AB0AE383AC0AE383AD0AE383AE0AE383AF0AE383B00AE383B10AE383B20AE383B30AE383B40AE383B50A
  E383B60AD0900AD0910AD0920AD0930AD0940AD0950AD0810AD0960AD0970AD0980AD0990AD09A0A"

/-- tests/test_data/whatwg/big5_whatwg_test_encode_out.txt, part 71 -/
noncomputable def encodeOut70 : List Nat := hex! "C7400AC7410AC7420AC7430AC7440AC7450AC7460AC7470AC7480AC7490AC74A0AC74B0AC74C0AC74D0AC74E0AC74F0A
  C7500AC7510AC7520AC7530AC7540AC7550AC7560AC7570AC7580AC7590AC75A0AC75B0AC75C0AC75D0AC75E0AC75F0A
  C7600AC7610AC7620AC7630AC7640AC7650AC7660AC7670AC7680AC7690AC76A0AC76B0AC76C0AC76D0AC76E0AC76F0A
  C7700AC7710AC7720AC7730AC7740AC7750AC7760AC7770AC7780AC7790AC77A0AC77B0AC77C0AC77D0AC77E0AC7A10A
  C7A20AC7A30AC7A40AC7A50AC7A60AC7A70AC7A80AC7A90AC7AA0AC7AB0AC7AC0AC7AD0AC7AE0AC7AF0AC7B00AC7B10A
  C7B20AC7B30AC7B40AC7B50AC7B60AC7B70AC7B80AC7B90AC7BA0AC7BB0AC7BC0AC7BD0AC7BE0AC7BF0AC7C00AC7C10A
  C7C20AC7C30AC7C40AC7C50AC7C60AC7C70AC7C80AC7C90AC7CA0AC7CB0AC7CC0AC7CD0AC7CE0AC7CF0AC7D00AC7D10A
  C7D20AC7D30AC7D40AC7D50AC7D60AC7D70AC7D80AC7D90AC7DA0AC7DB0AC7DC0AC7DD0AC7DE0AC7DF0AC7E00AC7E10A
  C7E20AC7E30AC7E40AC7E50AC7E60AC7E70AC7E80AC7E90AC7EA0AC7EB0AC7EC0AC7ED0AC7EE0AC7EF0AC7F00AC7F10A
  C7F20AC7F30AC7F40AC7F50AC7F60AC7F70AC7F80AC7F90AC7FA0AC7FB0AC7FC0AC7FD0AC7FE0A"

/-- tests/test_data/whatwg/big5_whatwg_test_decode_in.txt, part 72 -/
noncomputable def decodeIn71 : List Nat := hex! "C8400AC8410AC8420AC8430AC8440AC8450AC8460AC8470AC8480AC8490AC84A0AC84B0AC84C0AC84D0AC84E0AC84F0A
  C8500AC8510AC8520AC8530AC8540AC8550AC8560AC8570AC8580AC8590AC85A0AC85B0AC85C0AC85D0AC85E0AC85F0A
  C8600AC8610AC8620AC8630AC8640AC8650AC8660AC8670AC8680AC8690AC86A0AC86B0AC86C0AC86D0AC86E0AC86F0A
  C8700AC8710AC8720AC8730AC8740AC8750AC8760AC8770AC8780AC8790AC87A0AC87B0AC87C0AC87D0AC87E0AC8A10A
  C8A20AC8A30AC8A40AC8CD0AC8CE0AC8CF0AC8D00AC8D10AC8D20AC8D30AC8D40AC8D50AC8D60AC8D70AC8D80AC8D90A
  C8DA0AC8DB0AC8DC0AC8DD0AC8DE0AC8DF0AC8E00AC8E10AC8E20AC8E30AC8E40AC8E50AC8E60AC8E70AC8E80AC8E90A
  C8EA0AC8EB0AC8EC0AC8ED0AC8EE0AC8EF0AC8F00AC8F10AC8F50AC8F60AC8F70AC8F80AC8F90AC8FA0AC8FB0AC8FC0A
  C8FD0AC8FE0A"

/-- tests/test_data/whatwg/big5_whatwg_test_decode_out.txt, part 72 -/
noncomputable def decodeOut71 : List Nat := hex! "D09B0AD09C0AD09D0AD09E0AD09F0AD0A00AD0A10AD0A20AD0A30AD0A40AD0A50AD0A60AD0A70AD0A80AD0A90AD0AA0A
  D0AB0AD0AC0AD0AD0AD0AE0AD0AF0AD0B00AD0B10AD0B20AD0B30AD0B40AD0B50AD1910AD0B60AD0B70AD0B80AD0B90A
  D0BA0AD0BB0AD0BC0AD0BD0AD0BE0AD0BF0AD1800AD1810AD1820AD1830AD1840AD1850AD1860AD1870AD1880AD1890A
  D18A0AD18B0AD18C0AD18D0AD18E0AD18F0AE287A70AE286B80AE286B90AE3878F0AF0A0838C0AE4B99A0AF0A0828A0A
  E588820AE492910AE9BEB00AE586880AE9BEB10AF0A798870AEFBFA20AEFBFA40AEFBC870AEFBC820AE388B10AE28496
  0AE284A10AE3829B0AE3829C0AE2BA800AE2BA840AE2BA860AE2BA870AE2BA880AE2BA8A0AE2BA8C0AE2BA8D0AE2BA95
  0AE2BA9C0AE2BA9D0AE2BAA50AE2BAA70AE2BAAA0AE2BAAC0AE2BAAE0AE2BAB60AE2BABC0AE2BABE0AE2BB860AE2BB8A
  0AE2BB8C0AE2BB8D0AE2BB8F0AE2BB960AE2BB970AE2BB9E0AE2BBA30ACA830AC9900AC99B0AC9940AC9B50AC5930AC3
  B80AC58B0ACA8A0AC9AA0A"

/-- tests/test_data/whatwg/big5_whatwg_test_encode_in.txt, part 72 -/
noncomputable def encodeIn71 : List Nat := hex! "D09B0AD09C0AD09D0AD09E0AD09F0AD0A00AD0A10AD0A20AD0A30AD0A40AD0A50AD0A60AD0A70AD0A80AD0A90AD0AA0A
  D0AB0AD0AC0AD0AD0AD0AE0AD0AF0AD0B00AD0B10AD0B20AD0B30AD0B40AD0B50AD1910AD0B60AD0B70AD0B80AD0B90A
  D0BA0AD0BB0AD0BC0AD0BD0AD0BE0AD0BF0AD1800AD1810AD1820AD1830AD1840AD1850AD1860AD1870AD1880AD1890A
  D18A0AD18B0AD18C0AD18D0AD18E0AD18F0AE287A70AE286B80AE286B90AE3878F0AF0A0838C0AE4B99A0AF0A0828A0A
  E588820AE492910AE9BEB00AE586880AE9BEB10AF0A798870AEFBFA20AEFBFA40AEFBC870AEFBC820AE388B10AE28496
  0AE284A10AE3829B0AE3829C0AE2BA800AE2BA840AE2BA860AE2BA870AE2BA880AE2BA8A0AE2BA8C0AE2BA8D0AE2BA95
  0AE2BA9C0AE2BA9D0AE2BAA50AE2BAA70AE2BAAA0AE2BAAC0AE2BAAE0AE2BAB60AE2BABC0AE2BABE0AE2BB860AE2BB8A
  0AE2BB8C0AE2BB8D0AE2BB8F0AE2BB960AE2BB970AE2BB9E0AE2BBA30ACA830AC9900AC99B0AC9940AC9B50AC5930AC3
  B80AC58B0ACA8A0AC9AA0A"

/-- tests/test_data/whatwg/big5_whatwg_test_encode_out.txt, part 72 -/
noncomputable def encodeOut71 : List Nat := hex! "C8400AC8410AC8420AC8430AC8440AC8450AC8460AC8470AC8480AC8490AC84A0AC84B0AC84C0AC84D0AC84E0AC84F0A
  C8500AC8510AC8520AC8530AC8540AC8550AC8560AC8570AC8580AC8590AC85A0AC85B0AC85C0AC85D0AC85E0AC85F0A
  C8600AC8610AC8620AC8630AC8640AC8650AC8660AC8670AC8680AC8690AC86A0AC86B0AC86C0AC86D0AC86E0AC86F0A
  C8700AC8710AC8720AC8730AC8740AC8750AC8760AC8770AC8780AC8790AC87A0AC87B0AC87C0AC87D0AC87E0AC8A10A
  C8A20AC8A30AC8A40AC8CD0AC8CE0AC8CF0AC8D00AC8D10AC8D20AC8D30AC8D40AC8D50AC8D60AC8D70AC8D80AC8D90A
  C8DA0AC8DB0AC8DC0AC8DD0AC8DE0AC8DF0AC8E00AC8E10AC8E20AC8E30AC8E40AC8E50AC8E60AC8E70AC8E80AC8E90A
  C8EA0AC8EB0AC8EC0AC8ED0AC8EE0AC8EF0AC8F00AC8F10AC8F50AC8F60AC8F70AC8F80AC8F90AC8FA0AC8FB0AC8FC0A
  C8FD0AC8FE0A"

/-- tests/test_data/whatwg/big5_whatwg_test_decode_in.txt, part 73 -/
noncomputable def decodeIn72 : List Nat := hex! "C9400AC9410AC9420AC9430AC9440AC9450AC9460AC9470AC9480AC9490AC94A0AC94B0AC94C0AC94D0AC94E0AC94F0A
  C9500AC9510AC9520AC9530AC9540AC9550AC9560AC9570AC9580AC9590AC95A0AC95B0AC95C0AC95D0AC95E0AC95F0A
  C9600AC9610AC9620AC9630AC9640AC9650AC9660AC9670AC9680AC9690AC96A0AC96B0AC96C0AC96D0AC96E0AC96F0A
  C9700AC9710AC9720AC9730AC9740AC9750AC9760AC9770AC9780AC9790AC97A0AC97B0AC97C0AC97D0AC97E0AC9A10A
  C9A20AC9A30AC9A40AC9A50AC9A60AC9A70AC9A80AC9A90AC9AA0AC9AB0AC9AC0AC9AD0AC9AE0AC9AF0AC9B00AC9B10A
  C9B20AC9B30AC9B40AC9B50AC9B60AC9B70AC9B80AC9B90AC9BA0AC9BB0AC9BC0AC9BD0AC9BE0AC9BF0AC9C00AC9C10A
  C9C20AC9C30AC9C40AC9C50AC9C60AC9C70AC9C80AC9C90AC9CA0AC9CB0AC9CC0AC9CD0AC9CE0AC9CF0AC9D00AC9D10A
  C9D20AC9D30AC9D40AC9D50AC9D60AC9D70AC9D80AC9D90AC9DA0AC9DB0AC9DC0AC9DD0AC9DE0AC9DF0AC9E00AC9E10A
  C9E20AC9E30AC9E40AC9E50AC9E60AC9E70AC9E80AC9E90AC9EA0AC9EB0AC9EC0AC9ED0AC9EE0AC9EF0AC9F00AC9F10A
  C9F20AC9F30AC9F40AC9F50AC9F60AC9F70AC9F80AC9F90AC9FA0AC9FB0AC9FC0AC9FD0AC9FE0A"

/-- tests/test_data/whatwg/big5_whatwg_test_decode_out.txt, part 73 -/
noncomputable def decodeOut72 : List Nat := hex! "E4B9820AE4B99C0AE587B50AE58C9A0AE58E820AE4B8870AE4B88C0AE4B9870AE4BA8D0AE59B970AEFA88C0AE5B1AE0A
  E5BDB30AE4B88F0AE586870AE4B88E0AE4B8AE0AE4BA930AE4BB820AE4BB890AE4BB880AE586980AE58BBC0AE58DAC0A
  E58EB90AE59CA00AE5A4830AE5A4AC0AE5B0900AE5B7BF0AE697A10AE6AEB30AE6AF8C0AE6B0940AE788BF0AE4B8B10A
  E4B8BC0AE4BBA80AE4BB9C0AE4BBA90AE4BBA10AE4BB9D0AE4BB9A0AE5888C0AE58C9C0AE58D8C0AE59CA20AE59CA30A
  E5A4970AE5A4AF0AE5AE810AE5AE840AE5B0920AE5B0BB0AE5B1B40AE5B1B30AE5B8840AE5BA800AE5BA820AE5BF890A
  E688890AE689900AE6B0950AE6B0B60AE6B1830AE6B0BF0AE6B0BB0AE78AAE0AE78AB00AE78E8A0AE7A6B80AE8828A0A
  E9989E0AE4BC8E0AE4BC980AE4BCAC0AE4BBB50AE4BC940AE4BBB10AE4BC800AE4BBB70AE4BC880AE4BC9D0AE4BC820A
  E4BC850AE4BCA20AE4BC930AE4BC840AE4BBB40AE4BC920AE586B10AE588930AE588890AE588900AE58AA60AE58CA20A
  E58C9F0AE58D8D0AE58E8A0AE590870AE59BA10AE59B9F0AE59CAE0AE59CAA0AE59CB40AE5A4BC0AE5A6800AE5A5BC0A
  E5A6850AE5A5BB0AE5A5BE0AE5A5B70AE5A5BF0AE5AD960AE5B0950AE5B0A50AE5B1BC0AE5B1BA0AE5B1BB0AE5B1BE0A
  E5B79F0AE5B9B50AE5BA840AE5BC820AE5BC9A0AE5BDB40AE5BF950AE5BF940AE5BF8F0AE6899C0AE6899E0AE689A40A
  E689A10AE689A60AE689A20AE689990AE689A00AE6899A0AE689A50AE697AF0AE697AE0AE69CBE0AE69CB90AE69CB80A
  E69CBB0AE69CBA0AE69CBF0AE69CBC0AE69CB30AE6B0980AE6B1860AE6B1920AE6B19C0AE6B18F0AE6B18A0AE6B1940A
  E6B18B0A"

/-- tests/test_data/whatwg/big5_whatwg_test_encode_in.txt, part 73 -/
noncomputable def encodeIn72 : List Nat := hex! "E4B9820AE4B99C0AE587B50AE58C9A0AE58E820AE4B8870AE4B88C0AE4B9870AE4BA8D0AE59B970AEFA88C0AE5B1AE0A
  E5BDB30AE4B88F0AE586870AE4B88E0AE4B8AE0AE4BA930AE4BB820AE4BB890AE4BB880AE586980AE58BBC0AE58DAC0A
  E58EB90AE59CA00AE5A4830AE5A4AC0AE5B7BF0AE697A10AE6AEB30AE6AF8C0AE6B0940AE788BF0AE4B8B10AE4B8BC0A
  E4BBA80AE4BB9C0AE4BBA90AE4BBA10AE4BB9A0AE5888C0AE58C9C0AE58D8C0AE59CA20AE59CA30AE5A4970AE5A4AF0A
  E5AE810AE5AE840AE5B0920AE5B0BB0AE5B1B40AE5B1B30AE5B8840AE5BA800AE5BA820AE5BF890AE688890AE689900A
  E6B0950AE6B0B60AE6B1830AE6B0BF0AE6B0BB0AE78AAE0AE78AB00AE78E8A0AE7A6B80AE8828A0AE9989E0AE4BC8E0A
  E4BC980AE4BCAC0AE4BBB50AE4BC940AE4BBB10AE4BC800AE4BBB70AE4BC880AE4BC9D0AE4BC820AE4BC850AE4BCA20A
  E4BC930AE4BC840AE4BBB40AE4BC920AE586B10AE588930AE588890AE588900AE58AA60AE58CA20AE58C9F0AE58D8D0A
  E58E8A0AE590870AE59BA10AE59B9F0AE59CAE0AE59CAA0AE59CB40AE5A4BC0AE5A6800AE5A5BC0AE5A6850AE5A5BB0A
  E5A5BE0AE5A5B70AE5A5BF0AE5AD960AE5B0950AE5B0A50AE5B1BC0AE5B1BA0AE5B1BB0AE5B1BE0AE5B79F0AE5B9B50A
  E5BA840AE5BC820AE5BC9A0AE5BDB40AE5BF950AE5BF940AE5BF8F0AE6899C0AE6899E0AE689A40AE689A10AE689A60A
  E689A20AE689990AE689A00AE6899A0AE689A50AE697AF0AE697AE0AE69CBE0AE69CB90AE69CB80AE69CBB0AE69CBA0A
  E69CBF0AE69CBC0AE69CB30AE6B0980AE6B1860AE6B1920AE6B19C0AE6B18F0AE6B1940AE6B18B0A"

/-- tests/test_data/whatwg/big5_whatwg_test_encode_out.txt, part 73 -/
noncomputable def encodeOut72 : List Nat := hex! "C9400AC9410AC9420AC9430AC9440AC9450AC9460AC9470AC9480AC9490AC94A0AC94B0AC94C0AC94D0AC94E0AC94F0A
  C9500AC9510AC9520AC9530AC9540AC9550AC9560AC9570AC9580AC9590AC95A0AC95B0AC95D0AC95E0AC95F0AC9600A
  C9610AC9620AC9630AC9640AC9650AC9660AC9670AC9680AC96A0AC96B0AC96C0AC96D0AC96E0AC96F0AC9700AC9710A
  C9720AC9730AC9740AC9750AC9760AC9770AC9780AC9790AC97A0AC97B0AC97C0AC97D0AC97E0AC9A10AC9A20AC9A30A
  C9A40AC9A50AC9A60AC9A70AC9A80AC9A90AC9AA0AC9AB0AC9AC0AC9AD0AC9AE0AC9AF0AC9B00AC9B10AC9B20AC9B30A
  C9B40AC9B50AC9B60AC9B70AC9B80AC9B90AC9BA0AC9BB0AC9BC0AC9BD0AC9BE0AC9BF0AC9C00AC9C10AC9C20AC9C30A
  C9C40AC9C50AC9C60AC9C70AC9C80AC9C90AC9CA0AC9CB0AC9CC0AC9CD0AC9CE0AC9CF0AC9D00AC9D10AC9D20AC9D30A
  C9D40AC9D50AC9D60AC9D70AC9D80AC9D90AC9DA0AC9DB0AC9DC0AC9DD0AC9DE0AC9DF0AC9E00AC9E10AC9E20AC9E30A
  C9E40AC9E50AC9E60AC9E70AC9E80AC9E90AC9EA0AC9EB0AC9EC0AC9ED0AC9EE0AC9EF0AC9F00AC9F10AC9F20AC9F30A
  C9F40AC9F50AC9F60AC9F70AC9F80AC9F90AC9FA0AC9FB0AC9FD0AC9FE0A"

/-- tests/test_data/whatwg/big5_whatwg_test_decode_in.txt, part 74 -/
noncomputable def decodeIn73 : List Nat := hex! "CA400ACA410ACA420ACA430ACA440ACA450ACA460ACA470ACA480ACA490ACA4A0ACA4B0ACA4C0ACA4D0ACA4E0ACA4F0A
  CA500ACA510ACA520ACA530ACA540ACA550ACA560ACA570ACA580ACA590ACA5A0ACA5B0ACA5C0ACA5D0ACA5E0ACA5F0A
  CA600ACA610ACA620ACA630ACA640ACA650ACA660ACA670ACA680ACA690ACA6A0ACA6B0ACA6C0ACA6D0ACA6E0ACA6F0A
  CA700ACA710ACA720ACA730ACA740ACA750ACA760ACA770ACA780ACA790ACA7A0ACA7B0ACA7C0ACA7D0ACA7E0ACAA10A
  CAA20ACAA30ACAA40ACAA50ACAA60ACAA70ACAA80ACAA90ACAAA0ACAAB0ACAAC0ACAAD0ACAAE0ACAAF0ACAB00ACAB10A
  CAB20ACAB30ACAB40ACAB50ACAB60ACAB70ACAB80ACAB90ACABA0ACABB0ACABC0ACABD0ACABE0ACABF0ACAC00ACAC10A
  CAC20ACAC30ACAC40ACAC50ACAC60ACAC70ACAC80ACAC90ACACA0ACACB0ACACC0ACACD0ACACE0ACACF0ACAD00ACAD10A
  CAD20ACAD30ACAD40ACAD50ACAD60ACAD70ACAD80ACAD90ACADA0ACADB0ACADC0ACADD0ACADE0ACADF0ACAE00ACAE10A
  CAE20ACAE30ACAE40ACAE50ACAE60ACAE70ACAE80ACAE90ACAEA0ACAEB0ACAEC0ACAED0ACAEE0ACAEF0ACAF00ACAF10A
  CAF20ACAF30ACAF40ACAF50ACAF60ACAF70ACAF80ACAF90ACAFA0ACAFB0ACAFC0ACAFD0ACAFE0A"

/-- tests/test_data/whatwg/big5_whatwg_test_decode_out.txt, part 74 -/
noncomputable def decodeOut73 : List Nat := hex! "E6B18C0AE781B10AE7899E0AE78AB40AE78AB50AE78E8E0AE794AA0AE799BF0AE7A9B50AE7BD910AE889B80AE889BC0A
  E88A800AE889BD0AE889BF0AE8998D0AE8A5BE0AE982990AE982970AE982980AE9829B0AE982940AE998A20AE998A40A
  E998A00AE998A30AE4BD960AE4BCBB0AE4BDA20AE4BD890AE4BD930AE4BDA40AE4BCBE0AE4BDA70AE4BD920AE4BD9F0A
  E4BD810AE4BD980AE4BCAD0AE4BCB30AE4BCBF0AE4BDA10AE5868F0AE586B90AE5889C0AE5889E0AE588A10AE58AAD0A
  E58AAE0AE58C890AE58DA30AE58DB20AE58E8E0AE58E8F0AE590B00AE590B70AE590AA0AE591940AE591850AE590990A
  E5909C0AE590A50AE590980AE590BD0AE5918F0AE591810AE590A80AE590A40AE591870AE59BAE0AE59BA70AE59BA50A
  E59D810AE59D850AE59D8C0AE59D890AE59D8B0AE59D920AE5A4860AE5A5800AE5A6A60AE5A6980AE5A6A00AE5A6970A
  E5A68E0AE5A6A20AE5A6900AE5A68F0AE5A6A70AE5A6A10AE5AE8E0AE5AE920AE5B0A80AE5B0AA0AE5B28D0AE5B28F0A
  E5B2880AE5B28B0AE5B2890AE5B2920AE5B28A0AE5B2860AE5B2930AE5B2950AE5B7A00AE5B88A0AE5B88E0AE5BA8B0A
  E5BA890AE5BA8C0AE5BA880AE5BA8D0AE5BC850AE5BC9D0AE5BDB80AE5BDB60AE5BF920AE5BF910AE5BF900AE5BFAD0A
  E5BFA80AE5BFAE0AE5BFB30AE5BFA10AE5BFA40AE5BFA30AE5BFBA0AE5BFAF0AE5BFB70AE5BFBB0AE680800AE5BFB40A
  E688BA0AE68A830AE68A8C0AE68A8E0AE68A8F0AE68A940AE68A870AE689B10AE689BB0AE689BA0AE689B00AE68A810A
  E68A880AE689B70AE689BD0AE689B20AE689B40AE694B70AE697B00AE697B40AE697B30AE697B20AE697B50AE69D850A
  E69D870A"

/-- tests/test_data/whatwg/big5_whatwg_test_encode_in.txt, part 74 -/
noncomputable def encodeIn73 : List Nat := hex! "E6B18C0AE781B10AE7899E0AE78AB40AE78AB50AE78E8E0AE794AA0AE799BF0AE7A9B50AE7BD910AE889B80AE889BC0A
  E88A800AE889BD0AE889BF0AE8998D0AE8A5BE0AE982990AE982980AE9829B0AE982940AE998A20AE998A40AE998A00A
  E998A30AE4BD960AE4BCBB0AE4BDA20AE4BD890AE4BD930AE4BDA40AE4BCBE0AE4BDA70AE4BD920AE4BD9F0AE4BD810A
  E4BD980AE4BCAD0AE4BCB30AE4BCBF0AE4BDA10AE5868F0AE586B90AE5889C0AE5889E0AE588A10AE58AAD0AE58AAE0A
  E58C890AE58DA30AE58DB20AE58E8E0AE58E8F0AE590B00AE590B70AE590AA0AE591940AE591850AE590990AE5909C0A
  E590A50AE590980AE590BD0AE5918F0AE591810AE590A80AE590A40AE591870AE59BAE0AE59BA70AE59BA50AE59D810A
  E59D850AE59D8C0AE59D890AE59D8B0AE59D920AE5A4860AE5A5800AE5A6A60AE5A6980AE5A6A00AE5A6970AE5A68E0A
  E5A6A20AE5A6900AE5A68F0AE5A6A70AE5A6A10AE5AE8E0AE5AE920AE5B0A80AE5B0AA0AE5B28D0AE5B28F0AE5B2880A
  E5B28B0AE5B2890AE5B2920AE5B28A0AE5B2860AE5B2930AE5B2950AE5B7A00AE5B88A0AE5B88E0AE5BA8B0AE5BA890A
  E5BA8C0AE5BA880AE5BA8D0AE5BC850AE5BC9D0AE5BDB80AE5BDB60AE5BF920AE5BF910AE5BF900AE5BFAD0AE5BFA80A
  E5BFAE0AE5BFB30AE5BFA10AE5BFA40AE5BFA30AE5BFBA0AE5BFAF0AE5BFB70AE5BFBB0AE680800AE5BFB40AE688BA0A
  E68A830AE68A8C0AE68A8E0AE68A8F0AE68A940AE68A870AE689B10AE689BB0AE689BA0AE689B00AE68A810AE68A880A
  E689B70AE689BD0AE689B20AE689B40AE694B70AE697B00AE697B40AE697B30AE697B20AE697B50AE69D850AE69D870A"

/-- tests/test_data/whatwg/big5_whatwg_test_encode_out.txt, part 74 -/
noncomputable def encodeOut73 : List Nat := hex! "CA400ACA410ACA420ACA430ACA440ACA450ACA460ACA470ACA480ACA490ACA4A0ACA4B0ACA4C0ACA4D0ACA4E0ACA4F0A
  CA500ACA510ACA530ACA540ACA550ACA560ACA570ACA580ACA590ACA5A0ACA5B0ACA5C0ACA5D0ACA5E0ACA5F0ACA600A
  CA610ACA620ACA630ACA640ACA650ACA660ACA670ACA680ACA690ACA6A0ACA6B0ACA6C0ACA6D0ACA6E0ACA6F0ACA700A
  CA710ACA720ACA730ACA740ACA750ACA760ACA770ACA780ACA790ACA7A0ACA7B0ACA7C0ACA7D0ACA7E0ACAA10ACAA20A
  CAA30ACAA40ACAA50ACAA60ACAA70ACAA80ACAA90ACAAA0ACAAB0ACAAC0ACAAD0ACAAE0ACAAF0ACAB00ACAB10ACAB20A
  CAB30ACAB40ACAB50ACAB60ACAB70ACAB80ACAB90ACABA0ACABB0ACABC0ACABD0ACABE0ACABF0ACAC00ACAC10ACAC20A
  CAC30ACAC40ACAC50ACAC60ACAC70ACAC80ACAC90ACACA0ACACB0ACACC0ACACD0ACACE0ACACF0ACAD00ACAD10ACAD20A
  CAD30ACAD40ACAD50ACAD60ACAD70ACAD80ACAD90ACADA0ACADB0ACADC0ACADD0ACADE0ACADF0ACAE00ACAE10ACAE20A
  CAE30ACAE40ACAE50ACAE60ACAE70ACAE80ACAE90ACAEA0ACAEB0ACAEC0ACAED0ACAEE0ACAEF0ACAF00ACAF10ACAF20A
  CAF30ACAF40ACAF50ACAF60ACAF70ACAF80ACAF90ACAFA0ACAFB0ACAFC0ACAFD0ACAFE0A"

/-- tests/test_data/whatwg/big5_whatwg_test_decode_in.txt, part 75 -/
noncomputable def decodeIn74 : List Nat := hex! "CB400ACB410ACB420ACB430ACB440ACB450ACB460ACB470ACB480ACB490ACB4A0ACB4B0ACB4C0ACB4D0ACB4E0ACB4F0A
  CB500ACB510ACB520ACB530ACB540ACB550ACB560ACB570ACB580ACB590ACB5A0ACB5B0ACB5C0ACB5D0ACB5E0ACB5F0A
  CB600ACB610ACB620ACB630ACB640ACB650ACB660ACB670ACB680ACB690ACB6A0ACB6B0ACB6C0ACB6D0ACB6E0ACB6F0A
  CB700ACB710ACB720ACB730ACB740ACB750ACB760ACB770ACB780ACB790ACB7A0ACB7B0ACB7C0ACB7D0ACB7E0ACBA10A
  CBA20ACBA30ACBA40ACBA50ACBA60ACBA70ACBA80ACBA90ACBAA0ACBAB0ACBAC0ACBAD0ACBAE0ACBAF0ACBB00ACBB10A
  CBB20ACBB30ACBB40ACBB50ACBB60ACBB70ACBB80ACBB90ACBBA0ACBBB0ACBBC0ACBBD0ACBBE0ACBBF0ACBC00ACBC10A
  CBC20ACBC30ACBC40ACBC50ACBC60ACBC70ACBC80ACBC90ACBCA0ACBCB0ACBCC0ACBCD0ACBCE0ACBCF0ACBD00ACBD10A
  CBD20ACBD30ACBD40ACBD50ACBD60ACBD70ACBD80ACBD90ACBDA0ACBDB0ACBDC0ACBDD0ACBDE0ACBDF0ACBE00ACBE10A
  CBE20ACBE30ACBE40ACBE50ACBE60ACBE70ACBE80ACBE90ACBEA0ACBEB0ACBEC0ACBED0ACBEE0ACBEF0ACBF00ACBF10A
  CBF20ACBF30ACBF40ACBF50ACBF60ACBF70ACBF80ACBF90ACBFA0ACBFB0ACBFC0ACBFD0ACBFE0A"

/-- tests/test_data/whatwg/big5_whatwg_test_decode_out.txt, part 75 -/
noncomputable def decodeOut74 : List Nat := hex! "E69D990AE69D950AE69D8C0AE69D880AE69D9D0AE69D8D0AE69D9A0AE69D8B0AE6AF900AE6B0990AE6B09A0AE6B1B80A
  E6B1A70AE6B1AB0AE6B2840AE6B28B0AE6B28F0AE6B1B10AE6B1AF0AE6B1A90AE6B29A0AE6B1AD0AE6B2870AE6B2950A
  E6B29C0AE6B1A60AE6B1B30AE6B1A50AE6B1BB0AE6B28E0AE781B40AE781BA0AE789A30AE78ABF0AE78ABD0AE78B830A
  E78B860AE78B810AE78ABA0AE78B850AE78E950AE78E970AE78E930AE78E940AE78E920AE794BA0AE794B90AE796940A
  E796950AE79A810AE7A4BD0AE880B40AE882950AE882990AE882900AE882920AE8829C0AE88A900AE88A8F0AE88A850A
  E88A8E0AE88A910AE88A930AE88A8A0AE88A830AE88A840AE8B1B80AE8BF890AE8BEBF0AE9829F0AE982A10AE982A50A
  E9829E0AE982A70AE982A00AE998B00AE998A80AE998AF0AE998AD0AE4B8B30AE4BE980AE4BDBC0AE4BE850AE4BDBD0A
  E4BE800AE4BE870AE4BDB60AE4BDB40AE4BE890AE4BE840AE4BDB70AE4BD8C0AE4BE970AE4BDAA0AE4BE9A0AE4BDB90A
  E4BE810AE4BDB80AE4BE900AE4BE9C0AE4BE940AE4BE9E0AE4BE920AE4BE820AE4BE950AE4BDAB0AE4BDAE0AE5869E0A
  E586BC0AE586BE0AE588B50AE588B20AE588B30AE589860AE588B10AE58ABC0AE58C8A0AE58C8B0AE58CBC0AE58E920A
  E58E940AE592870AE591BF0AE592810AE592910AE592820AE592880AE591AB0AE591BA0AE591BE0AE591A50AE591AC0A
  E591B40AE591A60AE5928D0AE591AF0AE591A10AE591A00AE592980AE591A30AE591A70AE591A40AE59BB70AE59BB90A
  E59DAF0AE59DB20AE59DAD0AE59DAB0AE59DB10AE59DB00AE59DB60AE59E800AE59DB50AE59DBB0AE59DB30AE59DB40A
  E59DA20A"

/-- tests/test_data/whatwg/big5_whatwg_test_encode_in.txt, part 75 -/
noncomputable def encodeIn74 : List Nat := hex! "E69D990AE69D950AE69D8C0AE69D880AE69D9D0AE69D8D0AE69D9A0AE69D8B0AE6AF900AE6B0990AE6B09A0AE6B1B80A
  E6B1A70AE6B1AB0AE6B2840AE6B28B0AE6B28F0AE6B1B10AE6B1AF0AE6B1A90AE6B29A0AE6B1AD0AE6B2870AE6B2950A
  E6B29C0AE6B1A60AE6B1B30AE6B1A50AE6B1BB0AE6B28E0AE781B40AE781BA0AE789A30AE78ABF0AE78ABD0AE78B830A
  E78B860AE78B810AE78ABA0AE78B850AE78E950AE78E970AE78E930AE78E940AE78E920AE794BA0AE794B90AE796940A
  E796950AE79A810AE7A4BD0AE880B40AE882950AE882990AE882900AE882920AE8829C0AE88A900AE88A8F0AE88A850A
  E88A8E0AE88A910AE88A930AE88A8A0AE88A830AE88A840AE8B1B80AE8BF890AE8BEBF0AE9829F0AE982A10AE982A50A
  E9829E0AE982A70AE982A00AE998B00AE998A80AE998AF0AE998AD0AE4B8B30AE4BE980AE4BDBC0AE4BE850AE4BDBD0A
  E4BE800AE4BE870AE4BDB60AE4BDB40AE4BE890AE4BE840AE4BDB70AE4BD8C0AE4BE970AE4BDAA0AE4BE9A0AE4BDB90A
  E4BE810AE4BDB80AE4BE900AE4BE9C0AE4BE940AE4BE9E0AE4BE920AE4BE820AE4BE950AE4BDAB0AE4BDAE0AE5869E0A
  E586BC0AE586BE0AE588B50AE588B20AE588B30AE589860AE588B10AE58ABC0AE58C8A0AE58C8B0AE58CBC0AE58E920A
  E58E940AE592870AE591BF0AE592810AE592910AE592820AE592880AE591AB0AE591BA0AE591BE0AE591A50AE591AC0A
  E591B40AE591A60AE5928D0AE591AF0AE591A10AE591A00AE592980AE591A30AE591A70AE591A40AE59BB70AE59BB90A
  E59DAF0AE59DB20AE59DAD0AE59DAB0AE59DB10AE59DB00AE59DB60AE59E800AE59DB50AE59DBB0AE59DB30AE59DB40A
  E59DA20A"

/-- tests/test_data/whatwg/big5_whatwg_test_encode_out.txt, part 75 -/
noncomputable def encodeOut74 : List Nat := hex! "CB400ACB410ACB420ACB430ACB440ACB450ACB460ACB470ACB480ACB490ACB4A0ACB4B0ACB4C0ACB4D0ACB4E0ACB4F0A
  CB500ACB510ACB520ACB530ACB540ACB550ACB560ACB570ACB580ACB590ACB5A0ACB5B0ACB5C0ACB5D0ACB5E0ACB5F0A
  CB600ACB610ACB620ACB630ACB640ACB650ACB660ACB670ACB680ACB690ACB6A0ACB6B0ACB6C0ACB6D0ACB6E0ACB6F0A
  CB700ACB710ACB720ACB730ACB740ACB750ACB760ACB770ACB780ACB790ACB7A0ACB7B0ACB7C0ACB7D0ACB7E0ACBA10A
  CBA20ACBA30ACBA40ACBA50ACBA60ACBA70ACBA80ACBA90ACBAA0ACBAB0ACBAC0ACBAD0ACBAE0ACBAF0ACBB00ACBB10A
  CBB20ACBB30ACBB40ACBB50ACBB60ACBB70ACBB80ACBB90ACBBA0ACBBB0ACBBC0ACBBD0ACBBE0ACBBF0ACBC00ACBC10A
  CBC20ACBC30ACBC40ACBC50ACBC60ACBC70ACBC80ACBC90ACBCA0ACBCB0ACBCC0ACBCD0ACBCE0ACBCF0ACBD00ACBD10A
  CBD20ACBD30ACBD40ACBD50ACBD60ACBD70ACBD80ACBD90ACBDA0ACBDB0ACBDC0ACBDD0ACBDE0ACBDF0ACBE00ACBE10A
  CBE20ACBE30ACBE40ACBE50ACBE60ACBE70ACBE80ACBE90ACBEA0ACBEB0ACBEC0ACBED0ACBEE0ACBEF0ACBF00ACBF10A
  CBF20ACBF30ACBF40ACBF50ACBF60ACBF70ACBF80ACBF90ACBFA0ACBFB0ACBFC0ACBFD0ACBFE0A"

/-- tests/test_data/whatwg/big5_whatwg_test_decode_in.txt, part 76 -/
noncomputable def decodeIn75 : List Nat := hex! "CC400ACC410ACC420ACC430ACC440ACC450ACC460ACC470ACC480ACC490ACC4A0ACC4B0ACC4C0ACC4D0ACC4E0ACC4F0A
  CC500ACC510ACC520ACC530ACC540ACC550ACC560ACC570ACC580ACC590ACC5A0ACC5B0ACC5C0ACC5D0ACC5E0ACC5F0A
  CC600ACC610ACC620ACC630ACC640ACC650ACC660ACC670ACC680ACC690ACC6A0ACC6B0ACC6C0ACC6D0ACC6E0ACC6F0A
  CC700ACC710ACC720ACC730ACC740ACC750ACC760ACC770ACC780ACC790ACC7A0ACC7B0ACC7C0ACC7D0ACC7E0ACCA10A
  CCA20ACCA30ACCA40ACCA50ACCA60ACCA70ACCA80ACCA90ACCAA0ACCAB0ACCAC0ACCAD0ACCAE0ACCAF0ACCB00ACCB10A
  CCB20ACCB30ACCB40ACCB50ACCB60ACCB70ACCB80ACCB90ACCBA0ACCBB0ACCBC0ACCBD0ACCBE0ACCBF0ACCC00ACCC10A
  CCC20ACCC30ACCC40ACCC50ACCC60ACCC70ACCC80ACCC90ACCCA0ACCCB0ACCCC0ACCCD0ACCCE0ACCCF0ACCD00ACCD10A
  CCD20ACCD30ACCD40ACCD50ACCD60ACCD70ACCD80ACCD90ACCDA0ACCDB0ACCDC0ACCDD0ACCDE0ACCDF0ACCE00ACCE10A
  CCE20ACCE30ACCE40ACCE50ACCE60ACCE70ACCE80ACCE90ACCEA0ACCEB0ACCEC0ACCED0ACCEE0ACCEF0ACCF00ACCF10A
  CCF20ACCF30ACCF40ACCF50ACCF60ACCF70ACCF80ACCF90ACCFA0ACCFB0ACCFC0ACCFD0ACCFE0A"

/-- tests/test_data/whatwg/big5_whatwg_test_decode_out.txt, part 76 -/
noncomputable def decodeOut75 : List Nat := hex! "E59DA80AE59DBD0AE5A48C0AE5A5850AE5A6B50AE5A6BA0AE5A78F0AE5A78E0AE5A6B20AE5A78C0AE5A7810AE5A6B60A
  E5A6BC0AE5A7830AE5A7960AE5A6B10AE5A6BD0AE5A7800AE5A7880AE5A6B40AE5A7870AE5ADA20AE5ADA50AE5AE930A
  E5AE950AE5B1840AE5B1870AE5B2AE0AE5B2A40AE5B2A00AE5B2B50AE5B2AF0AE5B2A80AE5B2AC0AE5B29F0AE5B2A30A
  E5B2AD0AE5B2A20AE5B2AA0AE5B2A70AE5B29D0AE5B2A50AE5B2B60AE5B2B00AE5B2A60AE5B8970AE5B8940AE5B8990A
  E5BCA80AE5BCA20AE5BCA30AE5BCA40AE5BD940AE5BE820AE5BDBE0AE5BDBD0AE5BF9E0AE5BFA50AE680AD0AE680A60A
  E680990AE680B20AE6808B0AE680B40AE6808A0AE680970AE680B30AE6809A0AE6809E0AE680AC0AE680A20AE6808D0A
  E680900AE680AE0AE680930AE680910AE6808C0AE680890AE6809C0AE688940AE688BD0AE68AAD0AE68AB40AE68B910A
  E68ABE0AE68AAA0AE68AB60AE68B8A0AE68AAE0AE68AB30AE68AAF0AE68ABB0AE68AA90AE68AB00AE68AB80AE694BD0A
  E696A80AE696BB0AE698890AE697BC0AE698840AE698920AE698880AE697BB0AE698830AE6988B0AE6988D0AE698850A
  E697BD0AE698910AE698900AE69BB60AE69C8A0AE69E850AE69DAC0AE69E8E0AE69E920AE69DB60AE69DBB0AE69E980A
  E69E860AE69E840AE69DB40AE69E8D0AE69E8C0AE69DBA0AE69E9F0AE69E910AE69E990AE69E830AE69DBD0AE69E810A
  E69DB80AE69DB90AE69E940AE6ACA50AE6AE800AE6ADBE0AE6AF9E0AE6B09D0AE6B2930AE6B3AC0AE6B3AB0AE6B3AE0A
  E6B3990AE6B2B60AE6B3940AE6B2AD0AE6B3A70AE6B2B70AE6B3900AE6B3820AE6B2BA0AE6B3830AE6B3860AE6B3AD0A
  E6B3B20A"

/-- tests/test_data/whatwg/big5_whatwg_test_encode_in.txt, part 76 -/
noncomputable def encodeIn75 : List Nat := hex! "E59DA80AE59DBD0AE5A48C0AE5A5850AE5A6B50AE5A6BA0AE5A78F0AE5A78E0AE5A6B20AE5A78C0AE5A7810AE5A6B60A
  E5A6BC0AE5A7830AE5A7960AE5A6B10AE5A6BD0AE5A7800AE5A7880AE5A6B40AE5A7870AE5ADA20AE5ADA50AE5AE930A
  E5AE950AE5B1840AE5B1870AE5B2AE0AE5B2A40AE5B2A00AE5B2B50AE5B2AF0AE5B2A80AE5B2AC0AE5B29F0AE5B2A30A
  E5B2AD0AE5B2A20AE5B2AA0AE5B2A70AE5B29D0AE5B2A50AE5B2B60AE5B2B00AE5B2A60AE5B8970AE5B8940AE5B8990A
  E5BCA80AE5BCA20AE5BCA30AE5BCA40AE5BD940AE5BE820AE5BDBE0AE5BDBD0AE5BF9E0AE5BFA50AE680AD0AE680A60A
  E680990AE680B20AE6808B0AE680B40AE6808A0AE680970AE680B30AE6809A0AE6809E0AE680AC0AE680A20AE6808D0A
  E680900AE680AE0AE680930AE680910AE6808C0AE680890AE6809C0AE688940AE688BD0AE68AAD0AE68AB40AE68B910A
  E68ABE0AE68AAA0AE68AB60AE68B8A0AE68AAE0AE68AB30AE68AAF0AE68ABB0AE68AA90AE68AB00AE68AB80AE694BD0A
  E696A80AE696BB0AE698890AE697BC0AE698840AE698920AE698880AE697BB0AE698830AE6988B0AE6988D0AE698850A
  E697BD0AE698910AE698900AE69BB60AE69C8A0AE69E850AE69DAC0AE69E8E0AE69E920AE69DB60AE69DBB0AE69E980A
  E69E860AE69E840AE69DB40AE69E8D0AE69E8C0AE69DBA0AE69E9F0AE69E910AE69E990AE69E830AE69DBD0AE69E810A
  E69DB80AE69DB90AE69E940AE6ACA50AE6AE800AE6ADBE0AE6AF9E0AE6B09D0AE6B2930AE6B3AC0AE6B3AB0AE6B3AE0A
  E6B3990AE6B2B60AE6B3940AE6B2AD0AE6B3A70AE6B2B70AE6B3900AE6B3820AE6B2BA0AE6B3830AE6B3860AE6B3AD0A
  E6B3B20A"

/-- tests/test_data/whatwg/big5_whatwg_test_encode_out.txt, part 76 -/
noncomputable def encodeOut75 : List Nat := hex! "CC400ACC410ACC420ACC430ACC440ACC450ACC460ACC470ACC480ACC490ACC4A0ACC4B0ACC4C0ACC4D0ACC4E0ACC4F0A
  CC500ACC510ACC520ACC530ACC540ACC550ACC560ACC570ACC580ACC590ACC5A0ACC5B0ACC5C0ACC5D0ACC5E0ACC5F0A
  CC600ACC610ACC620ACC630ACC640ACC650ACC660ACC670ACC680ACC690ACC6A0ACC6B0ACC6C0ACC6D0ACC6E0ACC6F0A
  CC700ACC710ACC720ACC730ACC740ACC750ACC760ACC770ACC780ACC790ACC7A0ACC7B0ACC7C0ACC7D0ACC7E0ACCA10A
  CCA20ACCA30ACCA40ACCA50ACCA60ACCA70ACCA80ACCA90ACCAA0ACCAB0ACCAC0ACCAD0ACCAE0ACCAF0ACCB00ACCB10A
  CCB20ACCB30ACCB40ACCB50ACCB60ACCB70ACCB80ACCB90ACCBA0ACCBB0ACCBC0ACCBD0ACCBE0ACCBF0ACCC00ACCC10A
  CCC20ACCC30ACCC40ACCC50ACCC60ACCC70ACCC80ACCC90ACCCA0ACCCB0ACCCC0ACCCD0ACCCE0ACCCF0ACCD00ACCD10A
  CCD20ACCD30ACCD40ACCD50ACCD60ACCD70ACCD80ACCD90ACCDA0ACCDB0ACCDC0ACCDD0ACCDE0ACCDF0ACCE00ACCE10A
  CCE20ACCE30ACCE40ACCE50ACCE60ACCE70ACCE80ACCE90ACCEA0ACCEB0ACCEC0ACCED0ACCEE0ACCEF0ACCF00ACCF10A
  CCF20ACCF30ACCF40ACCF50ACCF60ACCF70ACCF80ACCF90ACCFA0ACCFB0ACCFC0ACCFD0ACCFE0A"

/-- tests/test_data/whatwg/big5_whatwg_test_decode_in.txt, part 77 -/
noncomputable def decodeIn76 : List Nat := hex! "CD400ACD410ACD420ACD430ACD440ACD450ACD460ACD470ACD480ACD490ACD4A0ACD4B0ACD4C0ACD4D0ACD4E0ACD4F0A
  CD500ACD510ACD520ACD530ACD540ACD550ACD560ACD570ACD580ACD590ACD5A0ACD5B0ACD5C0ACD5D0ACD5E0ACD5F0A
  CD600ACD610ACD620ACD630ACD640ACD650ACD660ACD670ACD680ACD690ACD6A0ACD6B0ACD6C0ACD6D0ACD6E0ACD6F0A
  CD700ACD710ACD720ACD730ACD740ACD750ACD760ACD770ACD780ACD790ACD7A0ACD7B0ACD7C0ACD7D0ACD7E0ACDA10A
  CDA20ACDA30ACDA40ACDA50ACDA60ACDA70ACDA80ACDA90ACDAA0ACDAB0ACDAC0ACDAD0ACDAE0ACDAF0ACDB00ACDB10A
  CDB20ACDB30ACDB40ACDB50ACDB60ACDB70ACDB80ACDB90ACDBA0ACDBB0ACDBC0ACDBD0ACDBE0ACDBF0ACDC00ACDC10A
  CDC20ACDC30ACDC40ACDC50ACDC60ACDC70ACDC80ACDC90ACDCA0ACDCB0ACDCC0ACDCD0ACDCE0ACDCF0ACDD00ACDD10A
  CDD20ACDD30ACDD40ACDD50ACDD60ACDD70ACDD80ACDD90ACDDA0ACDDB0ACDDC0ACDDD0ACDDE0ACDDF0ACDE00ACDE10A
  CDE20ACDE30ACDE40ACDE50ACDE60ACDE70ACDE80ACDE90ACDEA0ACDEB0ACDEC0ACDED0ACDEE0ACDEF0ACDF00ACDF10A
  CDF20ACDF30ACDF40ACDF50ACDF60ACDF70ACDF80ACDF90ACDFA0ACDFB0ACDFC0ACDFD0ACDFE0A"

/-- tests/test_data/whatwg/big5_whatwg_test_decode_out.txt, part 77 -/
noncomputable def decodeOut76 : List Nat := hex! "E6B3920AE6B39D0AE6B2B40AE6B28A0AE6B29D0AE6B2800AE6B39E0AE6B3800AE6B4B00AE6B38D0AE6B3870AE6B2B00A
  E6B3B90AE6B38F0AE6B3A90AE6B3910AE782940AE782980AE782850AE782930AE782860AE782840AE782910AE782960A
  E782820AE7829A0AE782830AE789AA0AE78B960AE78B8B0AE78B980AE78B890AE78B9C0AE78B920AE78B940AE78B9A0A
  E78B8C0AE78B910AE78EA40AE78EA10AE78EAD0AE78EA60AE78EA20AE78EA00AE78EAC0AE78E9D0AE7939D0AE793A80A
  E794BF0AE795800AE794BE0AE7968C0AE796980AE79AAF0AE79BB30AE79BB10AE79BB00AE79BB50AE79FB80AE79FBC0A
  E79FB90AE79FBB0AE79FBA0AE79FB70AE7A5820AE7A4BF0AE7A7850AE7A9B80AE7A9BB0AE7ABBB0AE7B1B50AE7B3BD0A
  E880B50AE8828F0AE882AE0AE882A30AE882B80AE882B50AE882AD0AE888A00AE88AA00AE88B800AE88AAB0AE88A9A0A
  E88A980AE88A9B0AE88AB50AE88AA70AE88AAE0AE88ABC0AE88A9E0AE88ABA0AE88AB40AE88AA80AE88AA10AE88AA90A
  E88B820AE88AA40AE88B830AE88AB60AE88AA20AE899B00AE899AF0AE899AD0AE899AE0AE8B1960AE8BF920AE8BF8B0A
  E8BF930AE8BF8D0AE8BF960AE8BF950AE8BF970AE982B20AE982B40AE982AF0AE982B30AE982B00AE998B90AE998BD0A
  E998BC0AE998BA0AE999830AE4BF8D0AE4BF850AE4BF930AE4BEB20AE4BF890AE4BF8B0AE4BF810AE4BF940AE4BF9C0A
  E4BF990AE4BEBB0AE4BEB30AE4BF9B0AE4BF870AE4BF960AE4BEBA0AE4BF800AE4BEB90AE4BFAC0AE589840AE589890A
  E58B800AE58B820AE58CBD0AE58DBC0AE58E970AE58E960AE58E990AE58E980AE592BA0AE592A10AE592AD0AE592A50A
  E5938F0A"

/-- tests/test_data/whatwg/big5_whatwg_test_encode_in.txt, part 77 -/
noncomputable def encodeIn76 : List Nat := hex! "E6B3920AE6B39D0AE6B2B40AE6B28A0AE6B29D0AE6B2800AE6B39E0AE6B3800AE6B4B00AE6B38D0AE6B3870AE6B2B00A
  E6B3B90AE6B38F0AE6B3A90AE6B3910AE782940AE782980AE782850AE782930AE782860AE782840AE782910AE782960A
  E782820AE7829A0AE782830AE789AA0AE78B960AE78B8B0AE78B980AE78B890AE78B9C0AE78B920AE78B940AE78B9A0A
  E78B8C0AE78B910AE78EA40AE78EA10AE78EAD0AE78EA60AE78EA20AE78EA00AE78EAC0AE78E9D0AE7939D0AE793A80A
  E794BF0AE795800AE794BE0AE7968C0AE796980AE79AAF0AE79BB30AE79BB10AE79BB00AE79BB50AE79FB80AE79FBC0A
  E79FB90AE79FBB0AE79FBA0AE79FB70AE7A5820AE7A4BF0AE7A7850AE7A9B80AE7A9BB0AE7ABBB0AE7B1B50AE7B3BD0A
  E880B50AE8828F0AE882AE0AE882A30AE882B80AE882B50AE882AD0AE888A00AE88AA00AE88B800AE88AAB0AE88A9A0A
  E88A980AE88A9B0AE88AB50AE88AA70AE88AAE0AE88ABC0AE88A9E0AE88ABA0AE88AB40AE88AA80AE88AA10AE88AA90A
  E88B820AE88AA40AE88B830AE88AB60AE88AA20AE899B00AE899AF0AE899AD0AE899AE0AE8B1960AE8BF920AE8BF8B0A
  E8BF930AE8BF8D0AE8BF960AE8BF950AE8BF970AE982B20AE982B40AE982AF0AE982B30AE982B00AE998B90AE998BD0A
  E998BC0AE998BA0AE999830AE4BF8D0AE4BF850AE4BF930AE4BEB20AE4BF890AE4BF8B0AE4BF810AE4BF940AE4BF9C0A
  E4BF990AE4BEB30AE4BF9B0AE4BF870AE4BF960AE4BEBA0AE4BF800AE4BEB90AE4BFAC0AE589840AE589890AE58B800A
  E58B820AE58CBD0AE58DBC0AE58E970AE58E960AE58E990AE58E980AE592BA0AE592A10AE592AD0AE592A50AE5938F0A"

/-- tests/test_data/whatwg/big5_whatwg_test_encode_out.txt, part 77 -/
noncomputable def encodeOut76 : List Nat := hex! "CD400ACD410ACD420ACD430ACD440ACD450ACD460ACD470ACD480ACD490ACD4A0ACD4B0ACD4C0ACD4D0ACD4E0ACD4F0A
  CD500ACD510ACD520ACD530ACD540ACD550ACD560ACD570ACD580ACD590ACD5A0ACD5B0ACD5C0ACD5D0ACD5E0ACD5F0A
  CD600ACD610ACD620ACD630ACD640ACD650ACD660ACD670ACD680ACD690ACD6A0ACD6B0ACD6C0ACD6D0ACD6E0ACD6F0A
  CD700ACD710ACD720ACD730ACD740ACD750ACD760ACD770ACD780ACD790ACD7A0ACD7B0ACD7C0ACD7D0ACD7E0ACDA10A
  CDA20ACDA30ACDA40ACDA50ACDA60ACDA70ACDA80ACDA90ACDAA0ACDAB0ACDAC0ACDAD0ACDAE0ACDAF0ACDB00ACDB10A
  CDB20ACDB30ACDB40ACDB50ACDB60ACDB70ACDB80ACDB90ACDBA0ACDBB0ACDBC0ACDBD0ACDBE0ACDBF0ACDC00ACDC10A
  CDC20ACDC30ACDC40ACDC50ACDC60ACDC70ACDC80ACDC90ACDCA0ACDCB0ACDCC0ACDCD0ACDCE0ACDCF0ACDD00ACDD10A
  CDD20ACDD30ACDD40ACDD50ACDD60ACDD70ACDD80ACDD90ACDDA0ACDDB0ACDDC0ACDDD0ACDDE0ACDDF0ACDE00ACDE10A
  CDE20ACDE30ACDE40ACDE50ACDE60ACDE80ACDE90ACDEA0ACDEB0ACDEC0ACDED0ACDEE0ACDEF0ACDF00ACDF10ACDF20A
  CDF30ACDF40ACDF50ACDF60ACDF70ACDF80ACDF90ACDFA0ACDFB0ACDFC0ACDFD0ACDFE0A"

/-- tests/test_data/whatwg/big5_whatwg_test_decode_in.txt, part 78 -/
noncomputable def decodeIn77 : List Nat := hex! "CE400ACE410ACE420ACE430ACE440ACE450ACE460ACE470ACE480ACE490ACE4A0ACE4B0ACE4C0ACE4D0ACE4E0ACE4F0A
  CE500ACE510ACE520ACE530ACE540ACE550ACE560ACE570ACE580ACE590ACE5A0ACE5B0ACE5C0ACE5D0ACE5E0ACE5F0A
  CE600ACE610ACE620ACE630ACE640ACE650ACE660ACE670ACE680ACE690ACE6A0ACE6B0ACE6C0ACE6D0ACE6E0ACE6F0A
  CE700ACE710ACE720ACE730ACE740ACE750ACE760ACE770ACE780ACE790ACE7A0ACE7B0ACE7C0ACE7D0ACE7E0ACEA10A
  CEA20ACEA30ACEA40ACEA50ACEA60ACEA70ACEA80ACEA90ACEAA0ACEAB0ACEAC0ACEAD0ACEAE0ACEAF0ACEB00ACEB10A
  CEB20ACEB30ACEB40ACEB50ACEB60ACEB70ACEB80ACEB90ACEBA0ACEBB0ACEBC0ACEBD0ACEBE0ACEBF0ACEC00ACEC10A
  CEC20ACEC30ACEC40ACEC50ACEC60ACEC70ACEC80ACEC90ACECA0ACECB0ACECC0ACECD0ACECE0ACECF0ACED00ACED10A
  CED20ACED30ACED40ACED50ACED60ACED70ACED80ACED90ACEDA0ACEDB0ACEDC0ACEDD0ACEDE0ACEDF0ACEE00ACEE10A
  CEE20ACEE30ACEE40ACEE50ACEE60ACEE70ACEE80ACEE90ACEEA0ACEEB0ACEEC0ACEED0ACEEE0ACEEF0ACEF00ACEF10A
  CEF20ACEF30ACEF40ACEF50ACEF60ACEF70ACEF80ACEF90ACEFA0ACEFB0ACEFC0ACEFD0ACEFE0A"

/-- tests/test_data/whatwg/big5_whatwg_test_decode_out.txt, part 78 -/
noncomputable def decodeOut77 : List Nat := hex! "E593830AE88C8D0AE592B70AE592AE0AE593960AE592B60AE593850AE593860AE592A00AE591B00AE592BC0AE592A20A
  E592BE0AE591B20AE5939E0AE592B00AE59EB50AE59E9E0AE59E9F0AE59EA40AE59E8C0AE59E970AE59E9D0AE59E9B0A
  E59E940AE59E980AE59E8F0AE59E990AE59EA50AE59E9A0AE59E950AE5A3B40AE5A48D0AE5A5930AE5A7A10AE5A79E0A
  E5A7AE0AE5A8800AE5A7B10AE5A79D0AE5A7BA0AE5A7BD0AE5A7BC0AE5A7B60AE5A7A40AE5A7B20AE5A7B70AE5A79B0A
  E5A7A90AE5A7B30AE5A7B50AE5A7A00AE5A7BE0AE5A7B40AE5A7AD0AE5AEA80AE5B18C0AE5B3900AE5B3980AE5B38C0A
  E5B3970AE5B38B0AE5B39B0AE5B39E0AE5B39A0AE5B3890AE5B3870AE5B38A0AE5B3960AE5B3930AE5B3940AE5B38F0A
  E5B3880AE5B3860AE5B38E0AE5B39F0AE5B3B80AE5B7B90AE5B8A10AE5B8A20AE5B8A30AE5B8A00AE5B8A40AE5BAB00A
  E5BAA40AE5BAA20AE5BA9B0AE5BAA30AE5BAA50AE5BC870AE5BCAE0AE5BD960AE5BE860AE680B70AE680B90AE681940A
  E681B20AE6819E0AE681850AE681930AE681870AE681890AE6819B0AE6818C0AE681800AE681820AE6819F0AE680A40A
  E681840AE681980AE681A60AE681AE0AE689820AE689830AE68B8F0AE68C8D0AE68C8B0AE68BB50AE68C8E0AE68C830A
  E68BAB0AE68BB90AE68C8F0AE68C8C0AE68BB80AE68BB60AE68C800AE68C930AE68C940AE68BBA0AE68C950AE68BBB0A
  E68BB00AE695810AE695830AE696AA0AE696BF0AE698B60AE698A10AE698B20AE698B50AE6989C0AE698A60AE698A20A
  E698B30AE698AB0AE698BA0AE6989D0AE698B40AE698B90AE698AE0AE69C8F0AE69C900AE69F810AE69FB20AE69F880A
  E69EBA0A"

/-- tests/test_data/whatwg/big5_whatwg_test_encode_in.txt, part 78 -/
noncomputable def encodeIn77 : List Nat := hex! "E593830AE88C8D0AE592B70AE592AE0AE593960AE592B60AE593850AE593860AE592A00AE591B00AE592BC0AE592A20A
  E592BE0AE591B20AE5939E0AE592B00AE59EB50AE59E9E0AE59E9F0AE59EA40AE59E8C0AE59E970AE59E9D0AE59E9B0A
  E59E940AE59E980AE59E8F0AE59E990AE59EA50AE59E9A0AE59E950AE5A3B40AE5A48D0AE5A5930AE5A7A10AE5A79E0A
  E5A7AE0AE5A8800AE5A7B10AE5A79D0AE5A7BA0AE5A7BD0AE5A7BC0AE5A7B60AE5A7A40AE5A7B20AE5A7B70AE5A79B0A
  E5A7A90AE5A7B30AE5A7B50AE5A7A00AE5A7BE0AE5A7B40AE5A7AD0AE5AEA80AE5B18C0AE5B3900AE5B3980AE5B38C0A
  E5B3970AE5B38B0AE5B39B0AE5B39E0AE5B39A0AE5B3890AE5B3870AE5B38A0AE5B3960AE5B3930AE5B3940AE5B38F0A
  E5B3880AE5B3860AE5B38E0AE5B39F0AE5B3B80AE5B7B90AE5B8A10AE5B8A20AE5B8A30AE5B8A00AE5B8A40AE5BAB00A
  E5BAA40AE5BAA20AE5BA9B0AE5BAA30AE5BAA50AE5BC870AE5BCAE0AE5BD960AE5BE860AE680B70AE680B90AE681940A
  E681B20AE6819E0AE681850AE681930AE681870AE681890AE6819B0AE6818C0AE681800AE681820AE6819F0AE680A40A
  E681840AE681980AE681A60AE681AE0AE689820AE689830AE68B8F0AE68C8D0AE68C8B0AE68BB50AE68C8E0AE68C830A
  E68BAB0AE68BB90AE68C8F0AE68C8C0AE68BB80AE68BB60AE68C800AE68C930AE68C940AE68BBA0AE68C950AE68BBB0A
  E68BB00AE695810AE695830AE696AA0AE696BF0AE698B60AE698A10AE698B20AE698B50AE6989C0AE698A60AE698A20A
  E698B30AE698AB0AE698BA0AE6989D0AE698B40AE698B90AE698AE0AE69C8F0AE69C900AE69F810AE69FB20AE69F880A
  E69EBA0A"

/-- tests/test_data/whatwg/big5_whatwg_test_encode_out.txt, part 78 -/
noncomputable def encodeOut77 : List Nat := hex! "CE400ACE410ACE420ACE430ACE440ACE450ACE460ACE470ACE480ACE490ACE4A0ACE4B0ACE4C0ACE4D0ACE4E0ACE4F0A
  CE500ACE510ACE520ACE530ACE540ACE550ACE560ACE570ACE580ACE590ACE5A0ACE5B0ACE5C0ACE5D0ACE5E0ACE5F0A
  CE600ACE610ACE620ACE630ACE640ACE650ACE660ACE670ACE680ACE690ACE6A0ACE6B0ACE6C0ACE6D0ACE6E0ACE6F0A
  CE700ACE710ACE720ACE730ACE740ACE750ACE760ACE770ACE780ACE790ACE7A0ACE7B0ACE7C0ACE7D0ACE7E0ACEA10A
  CEA20ACEA30ACEA40ACEA50ACEA60ACEA70ACEA80ACEA90ACEAA0ACEAB0ACEAC0ACEAD0ACEAE0ACEAF0ACEB00ACEB10A
  CEB20ACEB30ACEB40ACEB50ACEB60ACEB70ACEB80ACEB90ACEBA0ACEBB0ACEBC0ACEBD0ACEBE0ACEBF0ACEC00ACEC10A
  CEC20ACEC30ACEC40ACEC50ACEC60ACEC70ACEC80ACEC90ACECA0ACECB0ACECC0ACECD0ACECE0ACECF0ACED00ACED10A
  CED20ACED30ACED40ACED50ACED60ACED70ACED80ACED90ACEDA0ACEDB0ACEDC0ACEDD0ACEDE0ACEDF0ACEE00ACEE10A
  CEE20ACEE30ACEE40ACEE50ACEE60ACEE70ACEE80ACEE90ACEEA0ACEEB0ACEEC0ACEED0ACEEE0ACEEF0ACEF00ACEF10A
  CEF20ACEF30ACEF40ACEF50ACEF60ACEF70ACEF80ACEF90ACEFA0ACEFB0ACEFC0ACEFD0ACEFE0A"

/-- tests/test_data/whatwg/big5_whatwg_test_decode_in.txt, part 79 -/
noncomputable def decodeIn78 : List Nat := hex! "CF400ACF410ACF420ACF430ACF440ACF450ACF460ACF470ACF480ACF490ACF4A0ACF4B0ACF4C0ACF4D0ACF4E0ACF4F0A
  CF500ACF510ACF520ACF530ACF540ACF550ACF560ACF570ACF580ACF590ACF5A0ACF5B0ACF5C0ACF5D0ACF5E0ACF5F0A
  CF600ACF610ACF620ACF630ACF640ACF650ACF660ACF670ACF680ACF690ACF6A0ACF6B0ACF6C0ACF6D0ACF6E0ACF6F0A
  CF700ACF710ACF720ACF730ACF740ACF750ACF760ACF770ACF780ACF790ACF7A0ACF7B0ACF7C0ACF7D0ACF7E0ACFA10A
  CFA20ACFA30ACFA40ACFA50ACFA60ACFA70ACFA80ACFA90ACFAA0ACFAB0ACFAC0ACFAD0ACFAE0ACFAF0ACFB00ACFB10A
  CFB20ACFB30ACFB40ACFB50ACFB60ACFB70ACFB80ACFB90ACFBA0ACFBB0ACFBC0ACFBD0ACFBE0ACFBF0ACFC00ACFC10A
  CFC20ACFC30ACFC40ACFC50ACFC60ACFC70ACFC80ACFC90ACFCA0ACFCB0ACFCC0ACFCD0ACFCE0ACFCF0ACFD00ACFD10A
  CFD20ACFD30ACFD40ACFD50ACFD60ACFD70ACFD80ACFD90ACFDA0ACFDB0ACFDC0ACFDD0ACFDE0ACFDF0ACFE00ACFE10A
  CFE20ACFE30ACFE40ACFE50ACFE60ACFE70ACFE80ACFE90ACFEA0ACFEB0ACFEC0ACFED0ACFEE0ACFEF0ACFF00ACFF10A
  CFF20ACFF30ACFF40ACFF50ACFF60ACFF70ACFF80ACFF90ACFFA0ACFFB0ACFFC0ACFFD0ACFFE0A"

/-- tests/test_data/whatwg/big5_whatwg_test_decode_out.txt, part 79 -/
noncomputable def decodeOut78 : List Nat := hex! "E69F9C0AE69EBB0AE69FB80AE69F980AE69F800AE69EB70AE69F850AE69FAB0AE69FA40AE69F9F0AE69EB50AE69F8D0A
  E69EB30AE69FB70AE69FB60AE69FAE0AE69FA30AE69F820AE69EB90AE69F8E0AE69FA70AE69FB00AE69EB20AE69FBC0A
  E69F860AE69FAD0AE69F8C0AE69EAE0AE69FA60AE69F9B0AE69FBA0AE69F890AE69F8A0AE69F830AE69FAA0AE69F8B0A
  E6ACA80AE6AE820AE6AE840AE6AEB60AE6AF960AE6AF980AE6AFA00AE6B0A00AE6B0A10AE6B4A80AE6B4B40AE6B4AD0A
  E6B49F0AE6B4BC0AE6B4BF0AE6B4920AE6B48A0AE6B39A0AE6B4B30AE6B4840AE6B4990AE6B4BA0AE6B49A0AE6B4910A
  E6B4800AE6B49D0AE6B5820AE6B4810AE6B4980AE6B4B70AE6B4830AE6B48F0AE6B5800AE6B4870AE6B4A00AE6B4AC0A
  E6B4880AE6B4A20AE6B4890AE6B4900AE782B70AE7829F0AE782BE0AE782B10AE782B00AE782A10AE782B40AE782B50A
  E782A90AE789810AE789890AE7898A0AE789AC0AE789B00AE789B30AE789AE0AE78B8A0AE78BA40AE78BA80AE78BAB0A
  E78B9F0AE78BAA0AE78BA60AE78BA30AE78E850AE78F8C0AE78F820AE78F880AE78F850AE78EB90AE78EB60AE78EB50A
  E78EB40AE78FAB0AE78EBF0AE78F870AE78EBE0AE78F830AE78F860AE78EB80AE78F8B0AE793AC0AE793AE0AE794AE0A
  E795870AE795880AE796A70AE796AA0AE799B90AE79B840AE79C880AE79C830AE79C840AE79C850AE79C8A0AE79BB70A
  E79BBB0AE79BBA0AE79FA70AE79FA80AE7A0860AE7A0910AE7A0920AE7A0850AE7A0900AE7A08F0AE7A08E0AE7A0890A
  E7A0830AE7A0930AE7A58A0AE7A58C0AE7A58B0AE7A5850AE7A5840AE7A7950AE7A78D0AE7A78F0AE7A7960AE7A78E0A
  E7AA800A"

/-- tests/test_data/whatwg/big5_whatwg_test_encode_in.txt, part 79 -/
noncomputable def encodeIn78 : List Nat := hex! "E69F9C0AE69EBB0AE69FB80AE69F980AE69F800AE69EB70AE69F850AE69FAB0AE69FA40AE69F9F0AE69EB50AE69F8D0A
  E69EB30AE69FB70AE69FB60AE69FAE0AE69FA30AE69F820AE69EB90AE69F8E0AE69FA70AE69FB00AE69EB20AE69FBC0A
  E69F860AE69FAD0AE69F8C0AE69EAE0AE69FA60AE69F9B0AE69FBA0AE69F890AE69F8A0AE69F830AE69FAA0AE69F8B0A
  E6ACA80AE6AE820AE6AE840AE6AEB60AE6AF960AE6AF980AE6AFA00AE6B0A00AE6B0A10AE6B4A80AE6B4B40AE6B4AD0A
  E6B49F0AE6B4BC0AE6B4BF0AE6B4920AE6B48A0AE6B39A0AE6B4B30AE6B4840AE6B4990AE6B4BA0AE6B49A0AE6B4910A
  E6B4800AE6B49D0AE6B5820AE6B4810AE6B4980AE6B4B70AE6B4830AE6B48F0AE6B5800AE6B4870AE6B4A00AE6B4AC0A
  E6B4880AE6B4A20AE6B4890AE6B4900AE782B70AE7829F0AE782BE0AE782B10AE782B00AE782A10AE782B40AE782B50A
  E782A90AE789810AE789890AE7898A0AE789AC0AE789B00AE789B30AE789AE0AE78B8A0AE78BA40AE78BA80AE78BAB0A
  E78B9F0AE78BAA0AE78BA60AE78BA30AE78E850AE78F8C0AE78F820AE78F880AE78F850AE78EB90AE78EB60AE78EB50A
  E78EB40AE78FAB0AE78EBF0AE78F870AE78EBE0AE78F830AE78F860AE78EB80AE78F8B0AE793AC0AE793AE0AE794AE0A
  E795870AE795880AE796A70AE796AA0AE799B90AE79B840AE79C880AE79C830AE79C840AE79C850AE79C8A0AE79BB70A
  E79BBB0AE79BBA0AE79FA70AE79FA80AE7A0860AE7A0910AE7A0920AE7A0850AE7A0900AE7A08F0AE7A08E0AE7A0890A
  E7A0830AE7A0930AE7A58A0AE7A58C0AE7A58B0AE7A5850AE7A5840AE7A7950AE7A78D0AE7A78F0AE7A7960AE7A78E0A
  E7AA800A"

/-- tests/test_data/whatwg/big5_whatwg_test_encode_out.txt, part 79 -/
noncomputable def encodeOut78 : List Nat := hex! "CF400ACF410ACF420ACF430ACF440ACF450ACF460ACF470ACF480ACF490ACF4A0ACF4B0ACF4C0ACF4D0ACF4E0ACF4F0A
  CF500ACF510ACF520ACF530ACF540ACF550ACF560ACF570ACF580ACF590ACF5A0ACF5B0ACF5C0ACF5D0ACF5E0ACF5F0A
  CF600ACF610ACF620ACF630ACF640ACF650ACF660ACF670ACF680ACF690ACF6A0ACF6B0ACF6C0ACF6D0ACF6E0ACF6F0A
  CF700ACF710ACF720ACF730ACF740ACF750ACF760ACF770ACF780ACF790ACF7A0ACF7B0ACF7C0ACF7D0ACF7E0ACFA10A
  CFA20ACFA30ACFA40ACFA50ACFA60ACFA70ACFA80ACFA90ACFAA0ACFAB0ACFAC0ACFAD0ACFAE0ACFAF0ACFB00ACFB10A
  CFB20ACFB30ACFB40ACFB50ACFB60ACFB70ACFB80ACFB90ACFBA0ACFBB0ACFBC0ACFBD0ACFBE0ACFBF0ACFC00ACFC10A
  CFC20ACFC30ACFC40ACFC50ACFC60ACFC70ACFC80ACFC90ACFCA0ACFCB0ACFCC0ACFCD0ACFCE0ACFCF0ACFD00ACFD10A
  CFD20ACFD30ACFD40ACFD50ACFD60ACFD70ACFD80ACFD90ACFDA0ACFDB0ACFDC0ACFDD0ACFDE0ACFDF0ACFE00ACFE10A
  CFE20ACFE30ACFE40ACFE50ACFE60ACFE70ACFE80ACFE90ACFEA0ACFEB0ACFEC0ACFED0ACFEE0ACFEF0ACFF00ACFF10A
  CFF20ACFF30ACFF40ACFF50ACFF60ACFF70ACFF80ACFF90ACFFA0ACFFB0ACFFC0ACFFD0ACFFE0A"

/-- tests/test_data/whatwg/big5_whatwg_test_decode_in.txt, part 80 -/
noncomputable def decodeIn79 : List Nat := hex! "D0400AD0410AD0420AD0430AD0440AD0450AD0460AD0470AD0480AD0490AD04A0AD04B0AD04C0AD04D0AD04E0AD04F0A
  D0500AD0510AD0520AD0530AD0540AD0550AD0560AD0570AD0580AD0590AD05A0AD05B0AD05C0AD05D0AD05E0AD05F0A
  D0600AD0610AD0620AD0630AD0640AD0650AD0660AD0670AD0680AD0690AD06A0AD06B0AD06C0AD06D0AD06E0AD06F0A
  D0700AD0710AD0720AD0730AD0740AD0750AD0760AD0770AD0780AD0790AD07A0AD07B0AD07C0AD07D0AD07E0AD0A10A
  D0A20AD0A30AD0A40AD0A50AD0A60AD0A70AD0A80AD0A90AD0AA0AD0AB0AD0AC0AD0AD0AD0AE0AD0AF0AD0B00AD0B10A
  D0B20AD0B30AD0B40AD0B50AD0B60AD0B70AD0B80AD0B90AD0BA0AD0BB0AD0BC0AD0BD0AD0BE0AD0BF0AD0C00AD0C10A
  D0C20AD0C30AD0C40AD0C50AD0C60AD0C70AD0C80AD0C90AD0CA0AD0CB0AD0CC0AD0CD0AD0CE0AD0CF0AD0D00AD0D10A
  D0D20AD0D30AD0D40AD0D50AD0D60AD0D70AD0D80AD0D90AD0DA0AD0DB0AD0DC0AD0DD0AD0DE0AD0DF0AD0E00AD0E10A
  D0E20AD0E30AD0E40AD0E50AD0E60AD0E70AD0E80AD0E90AD0EA0AD0EB0AD0EC0AD0ED0AD0EE0AD0EF0AD0F00AD0F10A
  D0F20AD0F30AD0F40AD0F50AD0F60AD0F70AD0F80AD0F90AD0FA0AD0FB0AD0FC0AD0FD0AD0FE0A"

/-- tests/test_data/whatwg/big5_whatwg_test_decode_out.txt, part 80 -/
noncomputable def decodeOut79 : List Nat := hex! "E7A9BE0AE7AB910AE7AC800AE7AC810AE7B1BA0AE7B1B80AE7B1B90AE7B1BF0AE7B2800AE7B2810AE7B4830AE7B4880A
  E7B4810AE7BD980AE7BE910AE7BE8D0AE7BEBE0AE880870AE8808E0AE8808F0AE880940AE880B70AE883980AE883870A
  E883A00AE883910AE883880AE883820AE883900AE883850AE883A30AE883990AE8839C0AE8838A0AE883950AE883890A
  E8838F0AE883970AE883A60AE8838D0AE887BF0AE888A10AE88A940AE88B990AE88BBE0AE88BB90AE88C870AE88BA80A
  E88C800AE88B950AE88CBA0AE88BAB0AE88B960AE88BB40AE88BAC0AE88BA10AE88BB20AE88BB50AE88C8C0AE88BBB0A
  E88BB60AE88BB00AE88BAA0AE88BA40AE88BA00AE88BBA0AE88BB30AE88BAD0AE899B70AE899B40AE899BC0AE899B30A
  E8A1810AE8A18E0AE8A1A70AE8A1AA0AE8A1A90AE8A7930AE8A8840AE8A8870AE8B5B20AE8BFA30AE8BFA10AE8BFAE0A
  E8BFA00AE983B10AE982BD0AE982BF0AE983950AE983850AE982BE0AE983870AE9838B0AE983880AE987940AE987930A
  E999940AE9998F0AE999910AE999930AE9998A0AE9998E0AE5809E0AE580850AE580870AE580930AE580A20AE580B00A
  E5809B0AE4BFB50AE4BFB40AE580B30AE580B70AE580AC0AE4BFB60AE4BFB70AE580970AE5809C0AE580A00AE580A70A
  E580B50AE580AF0AE580B10AE5808E0AE5859A0AE586940AE586930AE5878A0AE587840AE587850AE587880AE5878E0A
  E589A10AE5899A0AE589920AE5899E0AE5899F0AE589950AE589A20AE58B8D0AE58C8E0AE58E9E0AE594A60AE593A20A
  E594970AE594920AE593A70AE593B30AE593A40AE5949A0AE593BF0AE594840AE594880AE593AB0AE594910AE594850A
  E593B10A"

/-- tests/test_data/whatwg/big5_whatwg_test_encode_in.txt, part 80 -/
noncomputable def encodeIn79 : List Nat := hex! "E7A9BE0AE7AB910AE7AC800AE7AC810AE7B1BA0AE7B1B80AE7B1B90AE7B1BF0AE7B2800AE7B2810AE7B4830AE7B4880A
  E7B4810AE7BD980AE7BE910AE7BE8D0AE7BEBE0AE880870AE8808E0AE8808F0AE880940AE880B70AE883980AE883870A
  E883A00AE883910AE883880AE883820AE883900AE883850AE883A30AE883990AE8839C0AE8838A0AE883950AE883890A
  E8838F0AE883970AE883A60AE8838D0AE887BF0AE888A10AE88A940AE88B990AE88BBE0AE88BB90AE88C870AE88BA80A
  E88C800AE88B950AE88CBA0AE88BAB0AE88B960AE88BB40AE88BAC0AE88BA10AE88BB20AE88BB50AE88C8C0AE88BBB0A
  E88BB60AE88BB00AE88BAA0AE88BA40AE88BA00AE88BBA0AE88BB30AE88BAD0AE899B70AE899B40AE899BC0AE899B30A
  E8A1810AE8A18E0AE8A1A70AE8A1AA0AE8A1A90AE8A7930AE8A8840AE8A8870AE8B5B20AE8BFA30AE8BFA10AE8BFAE0A
  E8BFA00AE983B10AE982BD0AE982BF0AE983950AE983850AE982BE0AE983870AE9838B0AE983880AE987930AE999940A
  E9998F0AE999910AE999930AE9998A0AE9998E0AE5809E0AE580850AE580870AE580930AE580A20AE580B00AE5809B0A
  E4BFB50AE4BFB40AE580B30AE580B70AE580AC0AE4BFB60AE4BFB70AE580970AE5809C0AE580A00AE580A70AE580B50A
  E580AF0AE580B10AE5808E0AE5859A0AE586940AE586930AE5878A0AE587840AE587850AE587880AE5878E0AE589A10A
  E5899A0AE589920AE5899E0AE5899F0AE589950AE589A20AE58B8D0AE58C8E0AE58E9E0AE594A60AE593A20AE594970A
  E594920AE593A70AE593B30AE593A40AE5949A0AE593BF0AE594840AE594880AE593AB0AE594910AE594850AE593B10A"

/-- tests/test_data/whatwg/big5_whatwg_test_encode_out.txt, part 80 -/
noncomputable def encodeOut79 : List Nat := hex! "D0400AD0410AD0420AD0430AD0440AD0450AD0460AD0470AD0480AD0490AD04A0AD04B0AD04C0AD04D0AD04E0AD04F0A
  D0500AD0510AD0520AD0530AD0540AD0550AD0560AD0570AD0580AD0590AD05A0AD05B0AD05C0AD05D0AD05E0AD05F0A
  D0600AD0610AD0620AD0630AD0640AD0650AD0660AD0670AD0680AD0690AD06A0AD06B0AD06C0AD06D0AD06E0AD06F0A
  D0700AD0710AD0720AD0730AD0740AD0750AD0760AD0770AD0780AD0790AD07A0AD07B0AD07C0AD07D0AD07E0AD0A10A
  D0A20AD0A30AD0A40AD0A50AD0A60AD0A70AD0A80AD0A90AD0AA0AD0AB0AD0AC0AD0AD0AD0AE0AD0AF0AD0B00AD0B10A
  D0B20AD0B30AD0B40AD0B50AD0B60AD0B70AD0B80AD0B90AD0BA0AD0BB0AD0BC0AD0BD0AD0BE0AD0BF0AD0C10AD0C20A
  D0C30AD0C40AD0C50AD0C60AD0C70AD0C80AD0C90AD0CA0AD0CB0AD0CC0AD0CD0AD0CE0AD0CF0AD0D00AD0D10AD0D20A
  D0D30AD0D40AD0D50AD0D60AD0D70AD0D80AD0D90AD0DA0AD0DB0AD0DC0AD0DD0AD0DE0AD0DF0AD0E00AD0E10AD0E20A
  D0E30AD0E40AD0E50AD0E60AD0E70AD0E80AD0E90AD0EA0AD0EB0AD0EC0AD0ED0AD0EE0AD0EF0AD0F00AD0F10AD0F20A
  D0F30AD0F40AD0F50AD0F60AD0F70AD0F80AD0F90AD0FA0AD0FB0AD0FC0AD0FD0AD0FE0A"

/-- tests/test_data/whatwg/big5_whatwg_test_decode_in.txt, part 81 -/
noncomputable def decodeIn80 : List Nat := hex! "D1400AD1410AD1420AD1430AD1440AD1450AD1460AD1470AD1480AD1490AD14A0AD14B0AD14C0AD14D0AD14E0AD14F0A
  D1500AD1510AD1520AD1530AD1540AD1550AD1560AD1570AD1580AD1590AD15A0AD15B0AD15C0AD15D0AD15E0AD15F0A
  D1600AD1610AD1620AD1630AD1640AD1650AD1660AD1670AD1680AD1690AD16A0AD16B0AD16C0AD16D0AD16E0AD16F0A
  D1700AD1710AD1720AD1730AD1740AD1750AD1760AD1770AD1780AD1790AD17A0AD17B0AD17C0AD17D0AD17E0AD1A10A
  D1A20AD1A30AD1A40AD1A50AD1A60AD1A70AD1A80AD1A90AD1AA0AD1AB0AD1AC0AD1AD0AD1AE0AD1AF0AD1B00AD1B10A
  D1B20AD1B30AD1B40AD1B50AD1B60AD1B70AD1B80AD1B90AD1BA0AD1BB0AD1BC0AD1BD0AD1BE0AD1BF0AD1C00AD1C10A
  D1C20AD1C30AD1C40AD1C50AD1C60AD1C70AD1C80AD1C90AD1CA0AD1CB0AD1CC0AD1CD0AD1CE0AD1CF0AD1D00AD1D10A
  D1D20AD1D30AD1D40AD1D50AD1D60AD1D70AD1D80AD1D90AD1DA0AD1DB0AD1DC0AD1DD0AD1DE0AD1DF0AD1E00AD1E10A
  D1E20AD1E30AD1E40AD1E50AD1E60AD1E70AD1E80AD1E90AD1EA0AD1EB0AD1EC0AD1ED0AD1EE0AD1EF0AD1F00AD1F10A
  D1F20AD1F30AD1F40AD1F50AD1F60AD1F70AD1F80AD1F90AD1FA0AD1FB0AD1FC0AD1FD0AD1FE0A"

/-- tests/test_data/whatwg/big5_whatwg_test_decode_out.txt, part 81 -/
noncomputable def decodeOut80 : List Nat := hex! "E5948A0AE593BB0AE593B70AE593B80AE593A00AE5948E0AE594830AE5948B0AE59C810AE59C820AE59F8C0AE5A0B20A
  E59F950AE59F920AE59EBA0AE59F860AE59EBD0AE59EBC0AE59EB80AE59EB60AE59EBF0AE59F870AE59F900AE59EB90A
  E59F810AE5A48E0AE5A58A0AE5A8990AE5A8960AE5A8AD0AE5A8AE0AE5A8950AE5A88F0AE5A8970AE5A88A0AE5A89E0A
  E5A8B30AE5ADAC0AE5AEA70AE5AEAD0AE5AEAC0AE5B0830AE5B1960AE5B1940AE5B3AC0AE5B3BF0AE5B3AE0AE5B3B10A
  E5B3B70AE5B4800AE5B3B90AE5B8A90AE5B8A80AE5BAA80AE5BAAE0AE5BAAA0AE5BAAC0AE5BCB30AE5BCB00AE5BDA70A
  E6819D0AE6819A0AE681A70AE681810AE682A20AE682880AE682800AE682920AE682810AE6829D0AE682830AE682950A
  E6829B0AE682970AE682870AE6829C0AE6828E0AE688990AE689860AE68BB20AE68C900AE68D960AE68CAC0AE68D840A
  E68D850AE68CB60AE68D830AE68FA40AE68CB90AE68D8B0AE68D8A0AE68CBC0AE68CA90AE68D810AE68CB40AE68D980A
  E68D940AE68D990AE68CAD0AE68D870AE68CB30AE68D9A0AE68D910AE68CB80AE68D970AE68D800AE68D880AE6958A0A
  E695860AE697860AE697830AE697840AE697820AE6998A0AE6999F0AE699870AE699910AE69C920AE69C930AE6A09F0A
  E6A09A0AE6A1890AE6A0B20AE6A0B30AE6A0BB0AE6A18B0AE6A18F0AE6A0960AE6A0B10AE6A09C0AE6A0B50AE6A0AB0A
  E6A0AD0AE6A0AF0AE6A18E0AE6A1840AE6A0B40AE6A09D0AE6A0920AE6A0940AE6A0A60AE6A0A80AE6A0AE0AE6A18D0A
  E6A0BA0AE6A0A50AE6A0A00AE6ACAC0AE6ACAF0AE6ACAD0AE6ACB10AE6ACB40AE6ADAD0AE882820AE6AE880AE6AFA60A
  E6AFA40A"

/-- tests/test_data/whatwg/big5_whatwg_test_encode_in.txt, part 81 -/
noncomputable def encodeIn80 : List Nat := hex! "E5948A0AE593BB0AE593B70AE593B80AE593A00AE5948E0AE594830AE5948B0AE59C810AE59C820AE59F8C0AE5A0B20A
  E59F950AE59F920AE59EBA0AE59F860AE59EBD0AE59EBC0AE59EB80AE59EB60AE59EBF0AE59F870AE59F900AE59EB90A
  E59F810AE5A48E0AE5A58A0AE5A8990AE5A8960AE5A8AD0AE5A8AE0AE5A8950AE5A88F0AE5A8970AE5A88A0AE5A89E0A
  E5A8B30AE5ADAC0AE5AEA70AE5AEAD0AE5AEAC0AE5B0830AE5B1960AE5B1940AE5B3AC0AE5B3BF0AE5B3AE0AE5B3B10A
  E5B3B70AE5B4800AE5B3B90AE5B8A90AE5B8A80AE5BAA80AE5BAAE0AE5BAAA0AE5BAAC0AE5BCB30AE5BCB00AE5BDA70A
  E6819D0AE6819A0AE681A70AE681810AE682A20AE682880AE682800AE682920AE682810AE6829D0AE682830AE682950A
  E6829B0AE682970AE682870AE6829C0AE6828E0AE688990AE689860AE68BB20AE68C900AE68D960AE68CAC0AE68D840A
  E68D850AE68CB60AE68D830AE68FA40AE68CB90AE68D8B0AE68D8A0AE68CBC0AE68CA90AE68D810AE68CB40AE68D980A
  E68D940AE68D990AE68CAD0AE68D870AE68CB30AE68D9A0AE68D910AE68CB80AE68D970AE68D800AE68D880AE6958A0A
  E695860AE697860AE697830AE697840AE697820AE6998A0AE6999F0AE699870AE699910AE69C920AE69C930AE6A09F0A
  E6A09A0AE6A1890AE6A0B20AE6A0B30AE6A0BB0AE6A18B0AE6A18F0AE6A0960AE6A0B10AE6A09C0AE6A0B50AE6A0AB0A
  E6A0AD0AE6A0AF0AE6A18E0AE6A1840AE6A0B40AE6A09D0AE6A0920AE6A0940AE6A0A60AE6A0A80AE6A0AE0AE6A18D0A
  E6A0BA0AE6A0A50AE6A0A00AE6ACAC0AE6ACAF0AE6ACAD0AE6ACB10AE6ACB40AE6ADAD0AE882820AE6AE880AE6AFA60A
  E6AFA40A"

/-- tests/test_data/whatwg/big5_whatwg_test_encode_out.txt, part 81 -/
noncomputable def encodeOut80 : List Nat := hex! "D1400AD1410AD1420AD1430AD1440AD1450AD1460AD1470AD1480AD1490AD14A0AD14B0AD14C0AD14D0AD14E0AD14F0A
  D1500AD1510AD1520AD1530AD1540AD1550AD1560AD1570AD1580AD1590AD15A0AD15B0AD15C0AD15D0AD15E0AD15F0A
  D1600AD1610AD1620AD1630AD1640AD1650AD1660AD1670AD1680AD1690AD16A0AD16B0AD16C0AD16D0AD16E0AD16F0A
  D1700AD1710AD1720AD1730AD1740AD1750AD1760AD1770AD1780AD1790AD17A0AD17B0AD17C0AD17D0AD17E0AD1A10A
  D1A20AD1A30AD1A40AD1A50AD1A60AD1A70AD1A80AD1A90AD1AA0AD1AB0AD1AC0AD1AD0AD1AE0AD1AF0AD1B00AD1B10A
  D1B20AD1B30AD1B40AD1B50AD1B60AD1B70AD1B80AD1B90AD1BA0AD1BB0AD1BC0AD1BD0AD1BE0AD1BF0AD1C00AD1C10A
  D1C20AD1C30AD1C40AD1C50AD1C60AD1C70AD1C80AD1C90AD1CA0AD1CB0AD1CC0AD1CD0AD1CE0AD1CF0AD1D00AD1D10A
  D1D20AD1D30AD1D40AD1D50AD1D60AD1D70AD1D80AD1D90AD1DA0AD1DB0AD1DC0AD1DD0AD1DE0AD1DF0AD1E00AD1E10A
  D1E20AD1E30AD1E40AD1E50AD1E60AD1E70AD1E80AD1E90AD1EA0AD1EB0AD1EC0AD1ED0AD1EE0AD1EF0AD1F00AD1F10A
  D1F20AD1F30AD1F40AD1F50AD1F60AD1F70AD1F80AD1F90AD1FA0AD1FB0AD1FC0AD1FD0AD1FE0A"

/-- tests/test_data/whatwg/big5_whatwg_test_decode_in.txt, part 82 -/
noncomputable def decodeIn81 : List Nat := hex! "D2400AD2410AD2420AD2430AD2440AD2450AD2460AD2470AD2480AD2490AD24A0AD24B0AD24C0AD24D0AD24E0AD24F0A
  D2500AD2510AD2520AD2530AD2540AD2550AD2560AD2570AD2580AD2590AD25A0AD25B0AD25C0AD25D0AD25E0AD25F0A
  D2600AD2610AD2620AD2630AD2640AD2650AD2660AD2670AD2680AD2690AD26A0AD26B0AD26C0AD26D0AD26E0AD26F0A
  D2700AD2710AD2720AD2730AD2740AD2750AD2760AD2770AD2780AD2790AD27A0AD27B0AD27C0AD27D0AD27E0AD2A10A
  D2A20AD2A30AD2A40AD2A50AD2A60AD2A70AD2A80AD2A90AD2AA0AD2AB0AD2AC0AD2AD0AD2AE0AD2AF0AD2B00AD2B10A
  D2B20AD2B30AD2B40AD2B50AD2B60AD2B70AD2B80AD2B90AD2BA0AD2BB0AD2BC0AD2BD0AD2BE0AD2BF0AD2C00AD2C10A
  D2C20AD2C30AD2C40AD2C50AD2C60AD2C70AD2C80AD2C90AD2CA0AD2CB0AD2CC0AD2CD0AD2CE0AD2CF0AD2D00AD2D10A
  D2D20AD2D30AD2D40AD2D50AD2D60AD2D70AD2D80AD2D90AD2DA0AD2DB0AD2DC0AD2DD0AD2DE0AD2DF0AD2E00AD2E10A
  D2E20AD2E30AD2E40AD2E50AD2E60AD2E70AD2E80AD2E90AD2EA0AD2EB0AD2EC0AD2ED0AD2EE0AD2EF0AD2F00AD2F10A
  D2F20AD2F30AD2F40AD2F50AD2F60AD2F70AD2F80AD2F90AD2FA0AD2FB0AD2FC0AD2FD0AD2FE0A"

/-- tests/test_data/whatwg/big5_whatwg_test_decode_out.txt, part 82 -/
noncomputable def decodeOut81 : List Nat := hex! "E6AFA80AE6AFA30AE6AFA20AE6AFA70AE6B0A50AE6B5BA0AE6B5A30AE6B5A40AE6B5B60AE6B48D0AE6B5A10AE6B6920A
  E6B5980AE6B5A20AE6B5AD0AE6B5AF0AE6B6910AE6B68D0AE6B7AF0AE6B5BF0AE6B6860AE6B59E0AE6B5A70AE6B5A00A
  E6B6970AE6B5B00AE6B5BC0AE6B59F0AE6B6820AE6B6980AE6B4AF0AE6B5A80AE6B68B0AE6B5BE0AE6B6800AE6B6840A
  E6B4960AE6B6830AE6B5BB0AE6B5BD0AE6B5B50AE6B6900AE7839C0AE783930AE783910AE7839D0AE7838B0AE7BCB90A
  E783A20AE783970AE783920AE7839E0AE783A00AE783940AE7838D0AE783850AE783860AE783870AE7839A0AE7838E0A
  E783A10AE789820AE789B80AE789B70AE789B60AE78C800AE78BBA0AE78BB40AE78BBE0AE78BB60AE78BB30AE78BBB0A
  E78C810AE78F930AE78F990AE78FA50AE78F960AE78EBC0AE78FA70AE78FA30AE78FA90AE78F9C0AE78F920AE78F9B0A
  E78F940AE78F9D0AE78F9A0AE78F970AE78F980AE78FA80AE7939E0AE7939F0AE793B40AE793B50AE794A10AE7959B0A
  E7959F0AE796B00AE797810AE796BB0AE797840AE797800AE796BF0AE796B60AE796BA0AE79A8A0AE79B890AE79C9D0A
  E79C9B0AE79C900AE79C930AE79C920AE79CA30AE79C910AE79C950AE79C990AE79C9A0AE79CA20AE79CA70AE7A0A30A
  E7A0AC0AE7A0A20AE7A0B50AE7A0AF0AE7A0A80AE7A0AE0AE7A0AB0AE7A0A10AE7A0A90AE7A0B30AE7A0AA0AE7A0B10A
  E7A5940AE7A59B0AE7A58F0AE7A59C0AE7A5930AE7A5920AE7A5910AE7A7AB0AE7A7AC0AE7A7A00AE7A7AE0AE7A7AD0A
  E7A7AA0AE7A79C0AE7A79E0AE7A79D0AE7AA860AE7AA890AE7AA850AE7AA8B0AE7AA8C0AE7AA8A0AE7AA870AE7AB980A
  E7AC900A"

/-- tests/test_data/whatwg/big5_whatwg_test_encode_in.txt, part 82 -/
noncomputable def encodeIn81 : List Nat := hex! "E6AFA80AE6AFA30AE6AFA20AE6AFA70AE6B0A50AE6B5BA0AE6B5A30AE6B5A40AE6B5B60AE6B48D0AE6B5A10AE6B6920A
  E6B5980AE6B5A20AE6B5AD0AE6B5AF0AE6B6910AE6B68D0AE6B7AF0AE6B5BF0AE6B6860AE6B59E0AE6B5A00AE6B6970A
  E6B5B00AE6B5BC0AE6B59F0AE6B6820AE6B6980AE6B4AF0AE6B5A80AE6B68B0AE6B5BE0AE6B6800AE6B6840AE6B4960A
  E6B6830AE6B5BB0AE6B5BD0AE6B5B50AE6B6900AE7839C0AE783930AE783910AE7839D0AE7838B0AE7BCB90AE783A20A
  E783970AE783920AE7839E0AE783A00AE783940AE7838D0AE783850AE783860AE783870AE7839A0AE7838E0AE783A10A
  E789820AE789B80AE789B70AE789B60AE78C800AE78BBA0AE78BB40AE78BBE0AE78BB60AE78BB30AE78BBB0AE78C810A
  E78F930AE78F990AE78FA50AE78F960AE78EBC0AE78FA70AE78FA30AE78FA90AE78F9C0AE78F920AE78F9B0AE78F940A
  E78F9D0AE78F9A0AE78F970AE78F980AE78FA80AE7939E0AE7939F0AE793B40AE793B50AE794A10AE7959B0AE7959F0A
  E796B00AE797810AE796BB0AE797840AE797800AE796BF0AE796B60AE796BA0AE79A8A0AE79B890AE79C9D0AE79C9B0A
  E79C900AE79C930AE79C920AE79CA30AE79C910AE79C950AE79C990AE79C9A0AE79CA20AE79CA70AE7A0A30AE7A0AC0A
  E7A0A20AE7A0B50AE7A0AF0AE7A0A80AE7A0AE0AE7A0AB0AE7A0A10AE7A0A90AE7A0B30AE7A0AA0AE7A0B10AE7A5940A
  E7A59B0AE7A58F0AE7A59C0AE7A5930AE7A5920AE7A5910AE7A7AB0AE7A7AC0AE7A7A00AE7A7AE0AE7A7AD0AE7A7AA0A
  E7A79C0AE7A79E0AE7A79D0AE7AA860AE7AA890AE7AA850AE7AA8B0AE7AA8C0AE7AA8A0AE7AA870AE7AB980AE7AC900A"

/-- tests/test_data/whatwg/big5_whatwg_test_encode_out.txt, part 82 -/
noncomputable def encodeOut81 : List Nat := hex! "D2400AD2410AD2420AD2430AD2440AD2450AD2460AD2470AD2480AD2490AD24A0AD24B0AD24C0AD24D0AD24E0AD24F0A
  D2500AD2510AD2520AD2530AD2540AD2550AD2570AD2580AD2590AD25A0AD25B0AD25C0AD25D0AD25E0AD25F0AD2600A
  D2610AD2620AD2630AD2640AD2650AD2660AD2670AD2680AD2690AD26A0AD26B0AD26C0AD26D0AD26E0AD26F0AD2700A
  D2710AD2720AD2730AD2740AD2750AD2760AD2770AD2780AD2790AD27A0AD27B0AD27C0AD27D0AD27E0AD2A10AD2A20A
  D2A30AD2A40AD2A50AD2A60AD2A70AD2A80AD2A90AD2AA0AD2AB0AD2AC0AD2AD0AD2AE0AD2AF0AD2B00AD2B10AD2B20A
  D2B30AD2B40AD2B50AD2B60AD2B70AD2B80AD2B90AD2BA0AD2BB0AD2BC0AD2BD0AD2BE0AD2BF0AD2C00AD2C10AD2C20A
  D2C30AD2C40AD2C50AD2C60AD2C70AD2C80AD2C90AD2CA0AD2CB0AD2CC0AD2CD0AD2CE0AD2CF0AD2D00AD2D10AD2D20A
  D2D30AD2D40AD2D50AD2D60AD2D70AD2D80AD2D90AD2DA0AD2DB0AD2DC0AD2DD0AD2DE0AD2DF0AD2E00AD2E10AD2E20A
  D2E30AD2E40AD2E50AD2E60AD2E70AD2E80AD2E90AD2EA0AD2EB0AD2EC0AD2ED0AD2EE0AD2EF0AD2F00AD2F10AD2F20A
  D2F30AD2F40AD2F50AD2F60AD2F70AD2F80AD2F90AD2FA0AD2FB0AD2FC0AD2FD0AD2FE0A"

/-- tests/test_data/whatwg/big5_whatwg_test_decode_in.txt, part 83 -/
noncomputable def decodeIn82 : List Nat := hex! "D3400AD3410AD3420AD3430AD3440AD3450AD3460AD3470AD3480AD3490AD34A0AD34B0AD34C0AD34D0AD34E0AD34F0A
  D3500AD3510AD3520AD3530AD3540AD3550AD3560AD3570AD3580AD3590AD35A0AD35B0AD35C0AD35D0AD35E0AD35F0A
  D3600AD3610AD3620AD3630AD3640AD3650AD3660AD3670AD3680AD3690AD36A0AD36B0AD36C0AD36D0AD36E0AD36F0A
  D3700AD3710AD3720AD3730AD3740AD3750AD3760AD3770AD3780AD3790AD37A0AD37B0AD37C0AD37D0AD37E0AD3A10A
  D3A20AD3A30AD3A40AD3A50AD3A60AD3A70AD3A80AD3A90AD3AA0AD3AB0AD3AC0AD3AD0AD3AE0AD3AF0AD3B00AD3B10A
  D3B20AD3B30AD3B40AD3B50AD3B60AD3B70AD3B80AD3B90AD3BA0AD3BB0AD3BC0AD3BD0AD3BE0AD3BF0AD3C00AD3C10A
  D3C20AD3C30AD3C40AD3C50AD3C60AD3C70AD3C80AD3C90AD3CA0AD3CB0AD3CC0AD3CD0AD3CE0AD3CF0AD3D00AD3D10A
  D3D20AD3D30AD3D40AD3D50AD3D60AD3D70AD3D80AD3D90AD3DA0AD3DB0AD3DC0AD3DD0AD3DE0AD3DF0AD3E00AD3E10A
  D3E20AD3E30AD3E40AD3E50AD3E60AD3E70AD3E80AD3E90AD3EA0AD3EB0AD3EC0AD3ED0AD3EE0AD3EF0AD3F00AD3F10A
  D3F20AD3F30AD3F40AD3F50AD3F60AD3F70AD3F80AD3F90AD3FA0AD3FB0AD3FC0AD3FD0AD3FE0A"

/-- tests/test_data/whatwg/big5_whatwg_test_decode_out.txt, part 83 -/
noncomputable def decodeOut82 : List Nat := hex! "E7AC840AE7AC930AE7AC850AE7AC8F0AE7AC880AE7AC8A0AE7AC8E0AE7AC890AE7AC920AE7B2840AE7B2910AE7B28A0A
  E7B28C0AE7B2880AE7B28D0AE7B2850AE7B49E0AE7B49D0AE7B4910AE7B48E0AE7B4980AE7B4960AE7B4930AE7B49F0A
  E7B4920AE7B48F0AE7B48C0AE7BD9C0AE7BDA10AE7BD9E0AE7BDA00AE7BD9D0AE7BD9B0AE7BE960AE7BE920AE7BF830A
  E7BF820AE7BF800AE880960AE880BE0AE880B90AE883BA0AE883B20AE883B90AE883B50AE884810AE883BB0AE884800A
  E888810AE888AF0AE888A50AE88CB30AE88CAD0AE88D840AE88C990AE88D910AE88CA50AE88D960AE88CBF0AE88D810A
  E88CA60AE88C9C0AE88CA20AE88D820AE88D8E0AE88C9B0AE88CAA0AE88C880AE88CBC0AE88D8D0AE88C960AE88CA40A
  E88CA00AE88CB70AE88CAF0AE88CA90AE88D870AE88D850AE88D8C0AE88D930AE88C9E0AE88CAC0AE88D8B0AE88CA70A
  E88D880AE899930AE899920AE89AA20AE89AA80AE89A960AE89A8D0AE89A910AE89A9E0AE89A870AE89A970AE89A860A
  E89A8B0AE89A9A0AE89A850AE89AA50AE89A990AE89AA10AE89AA70AE89A950AE89A980AE89A8E0AE89A9D0AE89A900A
  E89A940AE8A1830AE8A1840AE8A1AD0AE8A1B50AE8A1B60AE8A1B20AE8A2800AE8A1B10AE8A1BF0AE8A1AF0AE8A2830A
  E8A1BE0AE8A1B40AE8A1BC0AE8A8920AE8B1870AE8B1970AE8B1BB0AE8B2A40AE8B2A30AE8B5B60AE8B5B80AE8B6B50A
  E8B6B70AE8B6B60AE8BB910AE8BB930AE8BFBE0AE8BFB50AE980820AE8BFBF0AE8BFBB0AE980840AE8BFBC0AE8BFB60A
  E983960AE983A00AE983990AE9839A0AE983A30AE9839F0AE983A50AE983980AE9839B0AE983970AE9839C0AE983A40A
  E985900A"

/-- tests/test_data/whatwg/big5_whatwg_test_encode_in.txt, part 83 -/
noncomputable def encodeIn82 : List Nat := hex! "E7AC840AE7AC930AE7AC850AE7AC8F0AE7AC880AE7AC8A0AE7AC8E0AE7AC890AE7AC920AE7B2840AE7B2910AE7B28A0A
  E7B28C0AE7B2880AE7B28D0AE7B2850AE7B49E0AE7B49D0AE7B4910AE7B48E0AE7B4980AE7B4960AE7B4930AE7B49F0A
  E7B4920AE7B48F0AE7B48C0AE7BD9C0AE7BDA10AE7BD9E0AE7BDA00AE7BD9D0AE7BD9B0AE7BE960AE7BE920AE7BF830A
  E7BF820AE7BF800AE880960AE880BE0AE880B90AE883BA0AE883B20AE883B90AE883B50AE884810AE883BB0AE884800A
  E888810AE888AF0AE888A50AE88CB30AE88CAD0AE88D840AE88C990AE88D910AE88CA50AE88D960AE88CBF0AE88D810A
  E88CA60AE88C9C0AE88CA20AE88D820AE88D8E0AE88C9B0AE88CAA0AE88C880AE88CBC0AE88D8D0AE88C960AE88CA40A
  E88CA00AE88CB70AE88CAF0AE88CA90AE88D870AE88D850AE88D8C0AE88D930AE88C9E0AE88CAC0AE88D8B0AE88CA70A
  E88D880AE899930AE899920AE89AA20AE89AA80AE89A960AE89A8D0AE89A910AE89A9E0AE89A870AE89A970AE89A860A
  E89A8B0AE89A9A0AE89A850AE89AA50AE89A990AE89AA10AE89AA70AE89A950AE89A980AE89A8E0AE89A9D0AE89A900A
  E89A940AE8A1830AE8A1840AE8A1AD0AE8A1B50AE8A1B60AE8A1B20AE8A2800AE8A1B10AE8A1BF0AE8A1AF0AE8A2830A
  E8A1BE0AE8A1B40AE8A1BC0AE8A8920AE8B1870AE8B1970AE8B1BB0AE8B2A40AE8B2A30AE8B5B60AE8B5B80AE8B6B50A
  E8B6B70AE8B6B60AE8BB910AE8BB930AE8BFBE0AE8BFB50AE980820AE8BFBF0AE8BFBB0AE980840AE8BFBC0AE8BFB60A
  E983960AE983A00AE983990AE9839A0AE983A30AE9839F0AE983A50AE983980AE9839B0AE983970AE9839C0AE983A40A
  E985900A"

/-- tests/test_data/whatwg/big5_whatwg_test_encode_out.txt, part 83 -/
noncomputable def encodeOut82 : List Nat := hex! "D3400AD3410AD3420AD3430AD3440AD3450AD3460AD3470AD3480AD3490AD34A0AD34B0AD34C0AD34D0AD34E0AD34F0A
  D3500AD3510AD3520AD3530AD3540AD3550AD3560AD3570AD3580AD3590AD35A0AD35B0AD35C0AD35D0AD35E0AD35F0A
  D3600AD3610AD3620AD3630AD3640AD3650AD3660AD3670AD3680AD3690AD36A0AD36B0AD36C0AD36D0AD36E0AD36F0A
  D3700AD3710AD3720AD3730AD3740AD3750AD3760AD3770AD3780AD3790AD37A0AD37B0AD37C0AD37D0AD37E0AD3A10A
  D3A20AD3A30AD3A40AD3A50AD3A60AD3A70AD3A80AD3A90AD3AA0AD3AB0AD3AC0AD3AD0AD3AE0AD3AF0AD3B00AD3B10A
  D3B20AD3B30AD3B40AD3B50AD3B60AD3B70AD3B80AD3B90AD3BA0AD3BB0AD3BC0AD3BD0AD3BE0AD3BF0AD3C00AD3C10A
  D3C20AD3C30AD3C40AD3C50AD3C60AD3C70AD3C80AD3C90AD3CA0AD3CB0AD3CC0AD3CD0AD3CE0AD3CF0AD3D00AD3D10A
  D3D20AD3D30AD3D40AD3D50AD3D60AD3D70AD3D80AD3D90AD3DA0AD3DB0AD3DC0AD3DD0AD3DE0AD3DF0AD3E00AD3E10A
  D3E20AD3E30AD3E40AD3E50AD3E60AD3E70AD3E80AD3E90AD3EA0AD3EB0AD3EC0AD3ED0AD3EE0AD3EF0AD3F00AD3F10A
  D3F20AD3F30AD3F40AD3F50AD3F60AD3F70AD3F80AD3F90AD3FA0AD3FB0AD3FC0AD3FD0AD3FE0A"

/-- tests/test_data/whatwg/big5_whatwg_test_decode_in.txt, part 84 -/
noncomputable def decodeIn83 : List Nat := hex! "D4400AD4410AD4420AD4430AD4440AD4450AD4460AD4470AD4480AD4490AD44A0AD44B0AD44C0AD44D0AD44E0AD44F0A
  D4500AD4510AD4520AD4530AD4540AD4550AD4560AD4570AD4580AD4590AD45A0AD45B0AD45C0AD45D0AD45E0AD45F0A
  D4600AD4610AD4620AD4630AD4640AD4650AD4660AD4670AD4680AD4690AD46A0AD46B0AD46C0AD46D0AD46E0AD46F0A
  D4700AD4710AD4720AD4730AD4740AD4750AD4760AD4770AD4780AD4790AD47A0AD47B0AD47C0AD47D0AD47E0AD4A10A
  D4A20AD4A30AD4A40AD4A50AD4A60AD4A70AD4A80AD4A90AD4AA0AD4AB0AD4AC0AD4AD0AD4AE0AD4AF0AD4B00AD4B10A
  D4B20AD4B30AD4B40AD4B50AD4B60AD4B70AD4B80AD4B90AD4BA0AD4BB0AD4BC0AD4BD0AD4BE0AD4BF0AD4C00AD4C10A
  D4C20AD4C30AD4C40AD4C50AD4C60AD4C70AD4C80AD4C90AD4CA0AD4CB0AD4CC0AD4CD0AD4CE0AD4CF0AD4D00AD4D10A
  D4D20AD4D30AD4D40AD4D50AD4D60AD4D70AD4D80AD4D90AD4DA0AD4DB0AD4DC0AD4DD0AD4DE0AD4DF0AD4E00AD4E10A
  D4E20AD4E30AD4E40AD4E50AD4E60AD4E70AD4E80AD4E90AD4EA0AD4EB0AD4EC0AD4ED0AD4EE0AD4EF0AD4F00AD4F10A
  D4F20AD4F30AD4F40AD4F50AD4F60AD4F70AD4F80AD4F90AD4FA0AD4FB0AD4FC0AD4FD0AD4FE0A"

/-- tests/test_data/whatwg/big5_whatwg_test_decode_out.txt, part 84 -/
noncomputable def decodeOut83 : List Nat := hex! "E9858E0AE9858F0AE987950AE987A20AE9879A0AE9999C0AE9999F0AE99ABC0AE9A3A30AE9AB9F0AE9ACAF0AE4B9BF0A
  E581B00AE581AA0AE581A10AE5819E0AE581A00AE581930AE5818B0AE5819D0AE581B20AE581880AE5818D0AE581810A
  E5819B0AE5818A0AE581A20AE580950AE581850AE5819F0AE581A90AE581AB0AE581A30AE581A40AE581860AE581800A
  E581AE0AE581B30AE581970AE581910AE587900AE589AB0AE589AD0AE589AC0AE589AE0AE58B960AE58B930AE58CAD0A
  E58E9C0AE595B50AE595B60AE594BC0AE5958D0AE595900AE594B40AE594AA0AE595910AE595A20AE594B60AE594B50A
  E594B00AE595920AE595850AE5948C0AE594B20AE595A50AE5958E0AE594B90AE595880AE594AD0AE594BB0AE595800A
  E5958B0AE59C8A0AE59C870AE59FBB0AE5A0940AE59FA20AE59FB60AE59F9C0AE59FB40AE5A0800AE59FAD0AE59FBD0A
  E5A0880AE59FB80AE5A08B0AE59FB30AE59F8F0AE5A0870AE59FAE0AE59FA30AE59FB20AE59FA50AE59FAC0AE59FA10A
  E5A08E0AE59FBC0AE5A0900AE59FA70AE5A0810AE5A08C0AE59FB10AE59FA90AE59FB00AE5A08D0AE5A0840AE5A59C0A
  E5A9A00AE5A9980AE5A9950AE5A9A70AE5A99E0AE5A8B80AE5A8B50AE5A9AD0AE5A9900AE5A99F0AE5A9A50AE5A9AC0A
  E5A9930AE5A9A40AE5A9970AE5A9830AE5A99D0AE5A9920AE5A9840AE5A99B0AE5A9880AE5AA8E0AE5A8BE0AE5A98D0A
  E5A8B90AE5A98C0AE5A9B00AE5A9A90AE5A9870AE5A9910AE5A9960AE5A9820AE5A99C0AE5ADB20AE5ADAE0AE5AF810A
  E5AF800AE5B1990AE5B49E0AE5B48B0AE5B49D0AE5B49A0AE5B4A00AE5B48C0AE5B4A80AE5B48D0AE5B4A60AE5B4A50A
  E5B48F0A"

/-- tests/test_data/whatwg/big5_whatwg_test_encode_in.txt, part 84 -/
noncomputable def encodeIn83 : List Nat := hex! "E9858E0AE9858F0AE987950AE987A20AE9879A0AE9999C0AE9999F0AE99ABC0AE9A3A30AE9AB9F0AE9ACAF0AE4B9BF0A
  E581B00AE581AA0AE581A10AE5819E0AE581A00AE581930AE5818B0AE5819D0AE581B20AE581880AE5818D0AE581810A
  E5819B0AE5818A0AE581A20AE580950AE581850AE5819F0AE581A90AE581AB0AE581A30AE581A40AE581860AE581800A
  E581AE0AE581B30AE581970AE581910AE587900AE589AB0AE589AD0AE589AC0AE589AE0AE58B960AE58B930AE58CAD0A
  E58E9C0AE595B50AE595B60AE594BC0AE5958D0AE595900AE594B40AE594AA0AE595910AE595A20AE594B60AE594B50A
  E594B00AE595920AE595850AE5948C0AE594B20AE595A50AE5958E0AE594B90AE595880AE594AD0AE594BB0AE595800A
  E5958B0AE59C8A0AE59C870AE59FBB0AE5A0940AE59FA20AE59FB60AE59F9C0AE59FB40AE5A0800AE59FAD0AE59FBD0A
  E5A0880AE59FB80AE5A08B0AE59FB30AE59F8F0AE5A0870AE59FAE0AE59FA30AE59FB20AE59FA50AE59FAC0AE59FA10A
  E5A08E0AE59FBC0AE5A0900AE59FA70AE5A0810AE5A08C0AE59FB10AE59FA90AE59FB00AE5A08D0AE5A0840AE5A59C0A
  E5A9A00AE5A9980AE5A9950AE5A99E0AE5A8B80AE5A8B50AE5A9AD0AE5A9900AE5A99F0AE5A9A50AE5A9AC0AE5A9930A
  E5A9A40AE5A9970AE5A9830AE5A99D0AE5A9920AE5A9840AE5A99B0AE5A9880AE5AA8E0AE5A8BE0AE5A98D0AE5A8B90A
  E5A98C0AE5A9B00AE5A9A90AE5A9870AE5A9910AE5A9960AE5A9820AE5A99C0AE5ADB20AE5ADAE0AE5AF810AE5AF800A
  E5B1990AE5B49E0AE5B48B0AE5B49D0AE5B49A0AE5B4A00AE5B48C0AE5B4A80AE5B48D0AE5B4A60AE5B4A50AE5B48F0A"

/-- tests/test_data/whatwg/big5_whatwg_test_encode_out.txt, part 84 -/
noncomputable def encodeOut83 : List Nat := hex! "D4400AD4410AD4420AD4430AD4440AD4450AD4460AD4470AD4480AD4490AD44A0AD44B0AD44C0AD44D0AD44E0AD44F0A
  D4500AD4510AD4520AD4530AD4540AD4550AD4560AD4570AD4580AD4590AD45A0AD45B0AD45C0AD45D0AD45E0AD45F0A
  D4600AD4610AD4620AD4630AD4640AD4650AD4660AD4670AD4680AD4690AD46A0AD46B0AD46C0AD46D0AD46E0AD46F0A
  D4700AD4710AD4720AD4730AD4740AD4750AD4760AD4770AD4780AD4790AD47A0AD47B0AD47C0AD47D0AD47E0AD4A10A
  D4A20AD4A30AD4A40AD4A50AD4A60AD4A70AD4A80AD4A90AD4AA0AD4AB0AD4AC0AD4AD0AD4AE0AD4AF0AD4B00AD4B10A
  D4B20AD4B30AD4B40AD4B50AD4B60AD4B70AD4B80AD4B90AD4BA0AD4BB0AD4BC0AD4BD0AD4BE0AD4BF0AD4C00AD4C10A
  D4C20AD4C30AD4C40AD4C50AD4C60AD4C70AD4C80AD4C90AD4CA0AD4CB0AD4CC0AD4CD0AD4CE0AD4CF0AD4D00AD4D20A
  D4D30AD4D40AD4D50AD4D60AD4D70AD4D80AD4D90AD4DA0AD4DB0AD4DC0AD4DD0AD4DE0AD4DF0AD4E00AD4E10AD4E20A
  D4E30AD4E40AD4E50AD4E60AD4E70AD4E80AD4E90AD4EA0AD4EB0AD4EC0AD4ED0AD4EE0AD4EF0AD4F00AD4F10AD4F20A
  D4F30AD4F40AD4F50AD4F60AD4F70AD4F80AD4F90AD4FA0AD4FB0AD4FC0AD4FD0AD4FE0A"

/-- tests/test_data/whatwg/big5_whatwg_test_decode_in.txt, part 85 -/
noncomputable def decodeIn84 : List Nat := hex! "D5400AD5410AD5420AD5430AD5440AD5450AD5460AD5470AD5480AD5490AD54A0AD54B0AD54C0AD54D0AD54E0AD54F0A
  D5500AD5510AD5520AD5530AD5540AD5550AD5560AD5570AD5580AD5590AD55A0AD55B0AD55C0AD55D0AD55E0AD55F0A
  D5600AD5610AD5620AD5630AD5640AD5650AD5660AD5670AD5680AD5690AD56A0AD56B0AD56C0AD56D0AD56E0AD56F0A
  D5700AD5710AD5720AD5730AD5740AD5750AD5760AD5770AD5780AD5790AD57A0AD57B0AD57C0AD57D0AD57E0AD5A10A
  D5A20AD5A30AD5A40AD5A50AD5A60AD5A70AD5A80AD5A90AD5AA0AD5AB0AD5AC0AD5AD0AD5AE0AD5AF0AD5B00AD5B10A
  D5B20AD5B30AD5B40AD5B50AD5B60AD5B70AD5B80AD5B90AD5BA0AD5BB0AD5BC0AD5BD0AD5BE0AD5BF0AD5C00AD5C10A
  D5C20AD5C30AD5C40AD5C50AD5C60AD5C70AD5C80AD5C90AD5CA0AD5CB0AD5CC0AD5CD0AD5CE0AD5CF0AD5D00AD5D10A
  D5D20AD5D30AD5D40AD5D50AD5D60AD5D70AD5D80AD5D90AD5DA0AD5DB0AD5DC0AD5DD0AD5DE0AD5DF0AD5E00AD5E10A
  D5E20AD5E30AD5E40AD5E50AD5E60AD5E70AD5E80AD5E90AD5EA0AD5EB0AD5EC0AD5ED0AD5EE0AD5EF0AD5F00AD5F10A
  D5F20AD5F30AD5F40AD5F50AD5F60AD5F70AD5F80AD5F90AD5FA0AD5FB0AD5FC0AD5FD0AD5FE0A"

/-- tests/test_data/whatwg/big5_whatwg_test_decode_out.txt, part 85 -/
noncomputable def decodeOut84 : List Nat := hex! "E5B4B00AE5B4920AE5B4A30AE5B49F0AE5B4AE0AE5B8BE0AE5B8B40AE5BAB10AE5BAB40AE5BAB90AE5BAB20AE5BAB30A
  E5BCB60AE5BCB80AE5BE9B0AE5BE960AE5BE9F0AE6828A0AE682900AE682860AE682BE0AE682B00AE682BA0AE683930A
  E683940AE6838F0AE683A40AE683990AE6839D0AE683880AE682B10AE6839B0AE682B70AE6838A0AE682BF0AE683830A
  E6838D0AE683800AE68CB20AE68DA50AE68E8A0AE68E820AE68DBD0AE68EBD0AE68E9E0AE68EAD0AE68E9D0AE68E970A
  E68EAB0AE68E8E0AE68DAF0AE68E870AE68E900AE68DAE0AE68EAF0AE68DB50AE68E9C0AE68DAD0AE68EAE0AE68DBC0A
  E68EA40AE68CBB0AE68E9F0AE68DB80AE68E850AE68E810AE68E910AE68E8D0AE68DB00AE695930AE6978D0AE699A50A
  E699A10AE6999B0AE699990AE6999C0AE699A20AE69C980AE6A1B90AE6A2870AE6A2900AE6A29C0AE6A1AD0AE6A1AE0A
  E6A2AE0AE6A2AB0AE6A5960AE6A1AF0AE6A2A30AE6A2AC0AE6A2A90AE6A1B50AE6A1B40AE6A2B20AE6A28F0AE6A1B70A
  E6A2920AE6A1BC0AE6A1AB0AE6A1B20AE6A2AA0AE6A2800AE6A1B10AE6A1BE0AE6A29B0AE6A2960AE6A28B0AE6A2A00A
  E6A2890AE6A2A40AE6A1B80AE6A1BB0AE6A2910AE6A28C0AE6A28A0AE6A1BD0AE6ACB60AE6ACB30AE6ACB70AE6ACB80A
  E6AE910AE6AE8F0AE6AE8D0AE6AE8E0AE6AE8C0AE6B0AA0AE6B7800AE6B6AB0AE6B6B40AE6B6B30AE6B9B40AE6B6AC0A
  E6B7A90AE6B7A20AE6B6B70AE6B7B60AE6B7940AE6B8800AE6B7880AE6B7A00AE6B79F0AE6B7960AE6B6BE0AE6B7A50A
  E6B79C0AE6B79D0AE6B79B0AE6B7B40AE6B78A0AE6B6BD0AE6B7AD0AE6B7B00AE6B6BA0AE6B7950AE6B7820AE6B78F0A
  E6B7890A"

/-- tests/test_data/whatwg/big5_whatwg_test_encode_in.txt, part 85 -/
noncomputable def encodeIn84 : List Nat := hex! "E5B4B00AE5B4920AE5B4A30AE5B49F0AE5B4AE0AE5B8BE0AE5B8B40AE5BAB10AE5BAB40AE5BAB90AE5BAB20AE5BAB30A
  E5BCB60AE5BCB80AE5BE9B0AE5BE960AE5BE9F0AE6828A0AE682900AE682860AE682BE0AE682B00AE682BA0AE683930A
  E683940AE6838F0AE683A40AE683990AE6839D0AE683880AE682B10AE6839B0AE682B70AE6838A0AE682BF0AE683830A
  E6838D0AE683800AE68CB20AE68DA50AE68E8A0AE68E820AE68DBD0AE68EBD0AE68E9E0AE68EAD0AE68E9D0AE68E970A
  E68EAB0AE68E8E0AE68DAF0AE68E870AE68E900AE68DAE0AE68EAF0AE68DB50AE68E9C0AE68DAD0AE68EAE0AE68DBC0A
  E68EA40AE68CBB0AE68E9F0AE68DB80AE68E850AE68E810AE68E910AE68E8D0AE68DB00AE695930AE6978D0AE699A50A
  E699A10AE6999B0AE699990AE6999C0AE699A20AE69C980AE6A1B90AE6A2870AE6A2900AE6A29C0AE6A1AD0AE6A1AE0A
  E6A2AE0AE6A2AB0AE6A5960AE6A1AF0AE6A2A30AE6A2AC0AE6A2A90AE6A1B50AE6A1B40AE6A2B20AE6A28F0AE6A1B70A
  E6A2920AE6A1BC0AE6A1AB0AE6A1B20AE6A2AA0AE6A2800AE6A1B10AE6A1BE0AE6A29B0AE6A2960AE6A28B0AE6A2A00A
  E6A2890AE6A2A40AE6A1B80AE6A1BB0AE6A2910AE6A28C0AE6A28A0AE6A1BD0AE6ACB60AE6ACB30AE6ACB70AE6ACB80A
  E6AE910AE6AE8F0AE6AE8D0AE6AE8E0AE6AE8C0AE6B0AA0AE6B7800AE6B6AB0AE6B6B40AE6B6B30AE6B9B40AE6B6AC0A
  E6B7A90AE6B7A20AE6B6B70AE6B7B60AE6B7940AE6B8800AE6B7880AE6B7A00AE6B79F0AE6B7960AE6B6BE0AE6B7A50A
  E6B79C0AE6B79D0AE6B79B0AE6B7B40AE6B78A0AE6B6BD0AE6B7AD0AE6B7B00AE6B6BA0AE6B7950AE6B7820AE6B78F0A
  E6B7890A"

/-- tests/test_data/whatwg/big5_whatwg_test_encode_out.txt, part 85 -/
noncomputable def encodeOut84 : List Nat := hex! "D5400AD5410AD5420AD5430AD5440AD5450AD5460AD5470AD5480AD5490AD54A0AD54B0AD54C0AD54D0AD54E0AD54F0A
  D5500AD5510AD5520AD5530AD5540AD5550AD5560AD5570AD5580AD5590AD55A0AD55B0AD55C0AD55D0AD55E0AD55F0A
  D5600AD5610AD5620AD5630AD5640AD5650AD5660AD5670AD5680AD5690AD56A0AD56B0AD56C0AD56D0AD56E0AD56F0A
  D5700AD5710AD5720AD5730AD5740AD5750AD5760AD5770AD5780AD5790AD57A0AD57B0AD57C0AD57D0AD57E0AD5A10A
  D5A20AD5A30AD5A40AD5A50AD5A60AD5A70AD5A80AD5A90AD5AA0AD5AB0AD5AC0AD5AD0AD5AE0AD5AF0AD5B00AD5B10A
  D5B20AD5B30AD5B40AD5B50AD5B60AD5B70AD5B80AD5B90AD5BA0AD5BB0AD5BC0AD5BD0AD5BE0AD5BF0AD5C00AD5C10A
  D5C20AD5C30AD5C40AD5C50AD5C60AD5C70AD5C80AD5C90AD5CA0AD5CB0AD5CC0AD5CD0AD5CE0AD5CF0AD5D00AD5D10A
  D5D20AD5D30AD5D40AD5D50AD5D60AD5D70AD5D80AD5D90AD5DA0AD5DB0AD5DC0AD5DD0AD5DE0AD5DF0AD5E00AD5E10A
  D5E20AD5E30AD5E40AD5E50AD5E60AD5E70AD5E80AD5E90AD5EA0AD5EB0AD5EC0AD5ED0AD5EE0AD5EF0AD5F00AD5F10A
  D5F20AD5F30AD5F40AD5F50AD5F60AD5F70AD5F80AD5F90AD5FA0AD5FB0AD5FC0AD5FD0AD5FE0A"

/-- tests/test_data/whatwg/big5_whatwg_test_decode_in.txt, part 86 -/
noncomputable def decodeIn85 : List Nat := hex! "D6400AD6410AD6420AD6430AD6440AD6450AD6460AD6470AD6480AD6490AD64A0AD64B0AD64C0AD64D0AD64E0AD64F0A
  D6500AD6510AD6520AD6530AD6540AD6550AD6560AD6570AD6580AD6590AD65A0AD65B0AD65C0AD65D0AD65E0AD65F0A
  D6600AD6610AD6620AD6630AD6640AD6650AD6660AD6670AD6680AD6690AD66A0AD66B0AD66C0AD66D0AD66E0AD66F0A
  D6700AD6710AD6720AD6730AD6740AD6750AD6760AD6770AD6780AD6790AD67A0AD67B0AD67C0AD67D0AD67E0AD6A10A
  D6A20AD6A30AD6A40AD6A50AD6A60AD6A70AD6A80AD6A90AD6AA0AD6AB0AD6AC0AD6AD0AD6AE0AD6AF0AD6B00AD6B10A
  D6B20AD6B30AD6B40AD6B50AD6B60AD6B70AD6B80AD6B90AD6BA0AD6BB0AD6BC0AD6BD0AD6BE0AD6BF0AD6C00AD6C10A
  D6C20AD6C30AD6C40AD6C50AD6C60AD6C70AD6C80AD6C90AD6CA0AD6CB0AD6CC0AD6CD0AD6CE0AD6CF0AD6D00AD6D10A
  D6D20AD6D30AD6D40AD6D50AD6D60AD6D70AD6D80AD6D90AD6DA0AD6DB0AD6DC0AD6DD0AD6DE0AD6DF0AD6E00AD6E10A
  D6E20AD6E30AD6E40AD6E50AD6E60AD6E70AD6E80AD6E90AD6EA0AD6EB0AD6EC0AD6ED0AD6EE0AD6EF0AD6F00AD6F10A
  D6F20AD6F30AD6F40AD6F50AD6F60AD6F70AD6F80AD6F90AD6FA0AD6FB0AD6FC0AD6FD0AD6FE0A"

/-- tests/test_data/whatwg/big5_whatwg_test_decode_out.txt, part 86 -/
noncomputable def decodeOut85 : List Nat := hex! "E6B7900AE6B7B20AE6B7930AE6B7BD0AE6B7970AE6B78D0AE6B7A30AE6B6BB0AE783BA0AE7848D0AE783B70AE784970A
  E783B40AE7848C0AE783B00AE784840AE783B30AE784900AE783BC0AE783BF0AE784860AE784930AE784800AE783B80A
  E783B60AE7848B0AE784820AE7848E0AE789BE0AE789BB0AE789BC0AE789BF0AE78C9D0AE78C970AE78C870AE78C910A
  E78C980AE78C8A0AE78C880AE78BBF0AE78C8F0AE78C9E0AE78E880AE78FB60AE78FB80AE78FB50AE790840AE790810A
  E78FBD0AE790870AE790800AE78FBA0AE78FBC0AE78FBF0AE7908C0AE7908B0AE78FB40AE790880AE795A40AE795A30A
  E7978E0AE797920AE7978F0AE7978B0AE7978C0AE797910AE797900AE79A8F0AE79A890AE79B930AE79CB90AE79CAF0A
  E79CAD0AE79CB10AE79CB20AE79CB40AE79CB30AE79CBD0AE79CA50AE79CBB0AE79CB50AE7A1880AE7A1920AE7A1890A
  E7A18D0AE7A18A0AE7A18C0AE7A0A60AE7A1850AE7A1900AE7A5A40AE7A5A70AE7A5A90AE7A5AA0AE7A5A30AE7A5AB0A
  E7A5A10AE7A6BB0AE7A7BA0AE7A7B80AE7A7B60AE7A7B70AE7AA8F0AE7AA940AE7AA900AE7ACB50AE7AD870AE7ACB40A
  E7ACA50AE7ACB00AE7ACA20AE7ACA40AE7ACB30AE7AC980AE7ACAA0AE7AC9D0AE7ACB10AE7ACAB0AE7ACAD0AE7ACAF0A
  E7ACB20AE7ACB80AE7AC9A0AE7ACA30AE7B2940AE7B2980AE7B2960AE7B2A30AE7B4B50AE7B4BD0AE7B4B80AE7B4B60A
  E7B4BA0AE7B5850AE7B4AC0AE7B4A90AE7B5810AE7B5870AE7B4BE0AE7B4BF0AE7B58A0AE7B4BB0AE7B4A80AE7BDA30A
  E7BE950AE7BE9C0AE7BE9D0AE7BE9B0AE7BF8A0AE7BF8B0AE7BF8D0AE7BF900AE7BF910AE7BF870AE7BF8F0AE7BF890A
  E8809F0A"

/-- tests/test_data/whatwg/big5_whatwg_test_encode_in.txt, part 86 -/
noncomputable def encodeIn85 : List Nat := hex! "E6B7900AE6B7B20AE6B7930AE6B7BD0AE6B7970AE6B78D0AE6B7A30AE6B6BB0AE783BA0AE7848D0AE783B70AE784970A
  E783B40AE7848C0AE783B00AE784840AE783B30AE784900AE783BC0AE783BF0AE784860AE784930AE784800AE783B80A
  E783B60AE7848B0AE784820AE7848E0AE789BE0AE789BB0AE789BC0AE789BF0AE78C9D0AE78C970AE78C870AE78C910A
  E78C980AE78C8A0AE78C880AE78BBF0AE78C8F0AE78C9E0AE78E880AE78FB60AE78FB80AE78FB50AE790840AE790810A
  E78FBD0AE790870AE790800AE78FBA0AE78FBC0AE78FBF0AE7908C0AE7908B0AE78FB40AE790880AE795A40AE795A30A
  E7978E0AE797920AE7978F0AE7978B0AE7978C0AE797910AE797900AE79A8F0AE79A890AE79B930AE79CB90AE79CAF0A
  E79CAD0AE79CB10AE79CB20AE79CB40AE79CB30AE79CBD0AE79CA50AE79CBB0AE79CB50AE7A1880AE7A1920AE7A1890A
  E7A18D0AE7A18A0AE7A18C0AE7A0A60AE7A1850AE7A1900AE7A5A40AE7A5A70AE7A5A90AE7A5AA0AE7A5A30AE7A5AB0A
  E7A5A10AE7A6BB0AE7A7BA0AE7A7B80AE7A7B60AE7A7B70AE7AA8F0AE7AA940AE7AA900AE7ACB50AE7AD870AE7ACB40A
  E7ACA50AE7ACB00AE7ACA20AE7ACA40AE7ACB30AE7AC980AE7ACAA0AE7AC9D0AE7ACB10AE7ACAB0AE7ACAD0AE7ACAF0A
  E7ACB20AE7ACB80AE7AC9A0AE7ACA30AE7B2940AE7B2980AE7B2960AE7B2A30AE7B4B50AE7B4BD0AE7B4B80AE7B4B60A
  E7B4BA0AE7B5850AE7B4AC0AE7B4A90AE7B5810AE7B5870AE7B4BE0AE7B4BF0AE7B58A0AE7B4BB0AE7B4A80AE7BDA30A
  E7BE950AE7BE9C0AE7BE9D0AE7BE9B0AE7BF8A0AE7BF8B0AE7BF8D0AE7BF900AE7BF910AE7BF870AE7BF8F0AE7BF890A
  E8809F0A"

/-- tests/test_data/whatwg/big5_whatwg_test_encode_out.txt, part 86 -/
noncomputable def encodeOut85 : List Nat := hex! "D6400AD6410AD6420AD6430AD6440AD6450AD6460AD6470AD6480AD6490AD64A0AD64B0AD64C0AD64D0AD64E0AD64F0A
  D6500AD6510AD6520AD6530AD6540AD6550AD6560AD6570AD6580AD6590AD65A0AD65B0AD65C0AD65D0AD65E0AD65F0A
  D6600AD6610AD6620AD6630AD6640AD6650AD6660AD6670AD6680AD6690AD66A0AD66B0AD66C0AD66D0AD66E0AD66F0A
  D6700AD6710AD6720AD6730AD6740AD6750AD6760AD6770AD6780AD6790AD67A0AD67B0AD67C0AD67D0AD67E0AD6A10A
  D6A20AD6A30AD6A40AD6A50AD6A60AD6A70AD6A80AD6A90AD6AA0AD6AB0AD6AC0AD6AD0AD6AE0AD6AF0AD6B00AD6B10A
  D6B20AD6B30AD6B40AD6B50AD6B60AD6B70AD6B80AD6B90AD6BA0AD6BB0AD6BC0AD6BD0AD6BE0AD6BF0AD6C00AD6C10A
  D6C20AD6C30AD6C40AD6C50AD6C60AD6C70AD6C80AD6C90AD6CA0AD6CB0AD6CC0AD6CD0AD6CE0AD6CF0AD6D00AD6D10A
  D6D20AD6D30AD6D40AD6D50AD6D60AD6D70AD6D80AD6D90AD6DA0AD6DB0AD6DC0AD6DD0AD6DE0AD6DF0AD6E00AD6E10A
  D6E20AD6E30AD6E40AD6E50AD6E60AD6E70AD6E80AD6E90AD6EA0AD6EB0AD6EC0AD6ED0AD6EE0AD6EF0AD6F00AD6F10A
  D6F20AD6F30AD6F40AD6F50AD6F60AD6F70AD6F80AD6F90AD6FA0AD6FB0AD6FC0AD6FD0AD6FE0A"

/-- tests/test_data/whatwg/big5_whatwg_test_decode_in.txt, part 87 -/
noncomputable def decodeIn86 : List Nat := hex! "D7400AD7410AD7420AD7430AD7440AD7450AD7460AD7470AD7480AD7490AD74A0AD74B0AD74C0AD74D0AD74E0AD74F0A
  D7500AD7510AD7520AD7530AD7540AD7550AD7560AD7570AD7580AD7590AD75A0AD75B0AD75C0AD75D0AD75E0AD75F0A
  D7600AD7610AD7620AD7630AD7640AD7650AD7660AD7670AD7680AD7690AD76A0AD76B0AD76C0AD76D0AD76E0AD76F0A
  D7700AD7710AD7720AD7730AD7740AD7750AD7760AD7770AD7780AD7790AD77A0AD77B0AD77C0AD77D0AD77E0AD7A10A
  D7A20AD7A30AD7A40AD7A50AD7A60AD7A70AD7A80AD7A90AD7AA0AD7AB0AD7AC0AD7AD0AD7AE0AD7AF0AD7B00AD7B10A
  D7B20AD7B30AD7B40AD7B50AD7B60AD7B70AD7B80AD7B90AD7BA0AD7BB0AD7BC0AD7BD0AD7BE0AD7BF0AD7C00AD7C10A
  D7C20AD7C30AD7C40AD7C50AD7C60AD7C70AD7C80AD7C90AD7CA0AD7CB0AD7CC0AD7CD0AD7CE0AD7CF0AD7D00AD7D10A
  D7D20AD7D30AD7D40AD7D50AD7D60AD7D70AD7D80AD7D90AD7DA0AD7DB0AD7DC0AD7DD0AD7DE0AD7DF0AD7E00AD7E10A
  D7E20AD7E30AD7E40AD7E50AD7E60AD7E70AD7E80AD7E90AD7EA0AD7EB0AD7EC0AD7ED0AD7EE0AD7EF0AD7F00AD7F10A
  D7F20AD7F30AD7F40AD7F50AD7F60AD7F70AD7F80AD7F90AD7FA0AD7FB0AD7FC0AD7FD0AD7FE0A"

/-- tests/test_data/whatwg/big5_whatwg_test_decode_out.txt, part 87 -/
noncomputable def decodeOut86 : List Nat := hex! "E8809E0AE8809B0AE881870AE881830AE881880AE884980AE884A50AE884990AE8849B0AE884AD0AE8849F0AE884AC0A
  E8849E0AE884A10AE884950AE884A70AE8849D0AE884A20AE888910AE888B80AE888B30AE888BA0AE888B40AE888B20A
  E889B40AE88E900AE88EA30AE88EA80AE88E8D0AE88DBA0AE88DB30AE88EA40AE88DB40AE88E8F0AE88E810AE88E950A
  E88E990AE88DB50AE88E940AE88EA90AE88DBD0AE88E830AE88E8C0AE88E9D0AE88E9B0AE88EAA0AE88E8B0AE88DBE0A
  E88EA50AE88EAF0AE88E880AE88E970AE88EB00AE88DBF0AE88EA60AE88E870AE88EAE0AE88DB60AE88E9A0AE899990A
  E899960AE89ABF0AE89AB70AE89B820AE89B810AE89B850AE89ABA0AE89AB00AE89B880AE89AB90AE89AB30AE89AB80A
  E89B8C0AE89AB40AE89ABB0AE89ABC0AE89B830AE89ABD0AE89ABE0AE8A1920AE8A2890AE8A2950AE8A2A80AE8A2A20A
  E8A2AA0AE8A29A0AE8A2910AE8A2A10AE8A29F0AE8A2980AE8A2A70AE8A2990AE8A29B0AE8A2970AE8A2A40AE8A2AC0A
  E8A28C0AE8A2930AE8A28E0AE8A6820AE8A7960AE8A7990AE8A7950AE8A8B00AE8A8A70AE8A8AC0AE8A89E0AE8B0B90A
  E8B0BB0AE8B19C0AE8B19D0AE8B1BD0AE8B2A50AE8B5BD0AE8B5BB0AE8B5B90AE8B6BC0AE8B7820AE8B6B90AE8B6BF0A
  E8B7810AE8BB980AE8BB9E0AE8BB9D0AE8BB9C0AE8BB970AE8BBA00AE8BBA10AE980A40AE9808B0AE980910AE9809C0A
  E9808C0AE980A10AE983AF0AE983AA0AE983B00AE983B40AE983B20AE983B30AE983940AE983AB0AE983AC0AE983A90A
  E985960AE985980AE9859A0AE985930AE985950AE987AC0AE987B40AE987B10AE987B30AE987B80AE987A40AE987B90A
  E987AA0A"

/-- tests/test_data/whatwg/big5_whatwg_test_encode_in.txt, part 87 -/
noncomputable def encodeIn86 : List Nat := hex! "E8809E0AE8809B0AE881870AE881830AE881880AE884980AE884A50AE884990AE8849B0AE884AD0AE8849F0AE884AC0A
  E8849E0AE884A10AE884950AE884A70AE8849D0AE884A20AE888910AE888B80AE888B30AE888BA0AE888B40AE888B20A
  E889B40AE88E900AE88EA30AE88EA80AE88E8D0AE88DBA0AE88DB30AE88EA40AE88DB40AE88E8F0AE88E810AE88E950A
  E88E990AE88DB50AE88E940AE88EA90AE88DBD0AE88E830AE88E8C0AE88E9D0AE88E9B0AE88EAA0AE88E8B0AE88DBE0A
  E88EA50AE88EAF0AE88E880AE88E970AE88EB00AE88DBF0AE88EA60AE88E870AE88EAE0AE88DB60AE88E9A0AE899990A
  E899960AE89ABF0AE89AB70AE89B820AE89B810AE89B850AE89ABA0AE89AB00AE89B880AE89AB90AE89AB30AE89AB80A
  E89B8C0AE89AB40AE89ABB0AE89ABC0AE89B830AE89ABD0AE89ABE0AE8A1920AE8A2890AE8A2950AE8A2A80AE8A2A20A
  E8A2AA0AE8A29A0AE8A2910AE8A2A10AE8A29F0AE8A2980AE8A2A70AE8A2990AE8A29B0AE8A2970AE8A2A40AE8A2AC0A
  E8A28C0AE8A2930AE8A28E0AE8A6820AE8A7960AE8A7990AE8A7950AE8A8B00AE8A8A70AE8A8AC0AE8A89E0AE8B0B90A
  E8B0BB0AE8B19C0AE8B19D0AE8B1BD0AE8B2A50AE8B5BD0AE8B5BB0AE8B5B90AE8B6BC0AE8B7820AE8B6B90AE8B6BF0A
  E8B7810AE8BB980AE8BB9E0AE8BB9D0AE8BB9C0AE8BB970AE8BBA00AE8BBA10AE980A40AE9808B0AE980910AE9809C0A
  E9808C0AE980A10AE983AF0AE983AA0AE983B00AE983B40AE983B20AE983B30AE983940AE983AB0AE983AC0AE983A90A
  E985960AE985980AE9859A0AE985930AE985950AE987AC0AE987B40AE987B10AE987B30AE987B80AE987A40AE987B90A
  E987AA0A"

/-- tests/test_data/whatwg/big5_whatwg_test_encode_out.txt, part 87 -/
noncomputable def encodeOut86 : List Nat := hex! "D7400AD7410AD7420AD7430AD7440AD7450AD7460AD7470AD7480AD7490AD74A0AD74B0AD74C0AD74D0AD74E0AD74F0A
  D7500AD7510AD7520AD7530AD7540AD7550AD7560AD7570AD7580AD7590AD75A0AD75B0AD75C0AD75D0AD75E0AD75F0A
  D7600AD7610AD7620AD7630AD7640AD7650AD7660AD7670AD7680AD7690AD76A0AD76B0AD76C0AD76D0AD76E0AD76F0A
  D7700AD7710AD7720AD7730AD7740AD7750AD7760AD7770AD7780AD7790AD77A0AD77B0AD77C0AD77D0AD77E0AD7A10A
  D7A20AD7A30AD7A40AD7A50AD7A60AD7A70AD7A80AD7A90AD7AA0AD7AB0AD7AC0AD7AD0AD7AE0AD7AF0AD7B00AD7B10A
  D7B20AD7B30AD7B40AD7B50AD7B60AD7B70AD7B80AD7B90AD7BA0AD7BB0AD7BC0AD7BD0AD7BE0AD7BF0AD7C00AD7C10A
  D7C20AD7C30AD7C40AD7C50AD7C60AD7C70AD7C80AD7C90AD7CA0AD7CB0AD7CC0AD7CD0AD7CE0AD7CF0AD7D00AD7D10A
  D7D20AD7D30AD7D40AD7D50AD7D60AD7D70AD7D80AD7D90AD7DA0AD7DB0AD7DC0AD7DD0AD7DE0AD7DF0AD7E00AD7E10A
  D7E20AD7E30AD7E40AD7E50AD7E60AD7E70AD7E80AD7E90AD7EA0AD7EB0AD7EC0AD7ED0AD7EE0AD7EF0AD7F00AD7F10A
  D7F20AD7F30AD7F40AD7F50AD7F60AD7F70AD7F80AD7F90AD7FA0AD7FB0AD7FC0AD7FD0AD7FE0A"

/-- tests/test_data/whatwg/big5_whatwg_test_decode_in.txt, part 88 -/
noncomputable def decodeIn87 : List Nat := hex! "D8400AD8410AD8420AD8430AD8440AD8450AD8460AD8470AD8480AD8490AD84A0AD84B0AD84C0AD84D0AD84E0AD84F0A
  D8500AD8510AD8520AD8530AD8540AD8550AD8560AD8570AD8580AD8590AD85A0AD85B0AD85C0AD85D0AD85E0AD85F0A
  D8600AD8610AD8620AD8630AD8640AD8650AD8660AD8670AD8680AD8690AD86A0AD86B0AD86C0AD86D0AD86E0AD86F0A
  D8700AD8710AD8720AD8730AD8740AD8750AD8760AD8770AD8780AD8790AD87A0AD87B0AD87C0AD87D0AD87E0AD8A10A
  D8A20AD8A30AD8A40AD8A50AD8A60AD8A70AD8A80AD8A90AD8AA0AD8AB0AD8AC0AD8AD0AD8AE0AD8AF0AD8B00AD8B10A
  D8B20AD8B30AD8B40AD8B50AD8B60AD8B70AD8B80AD8B90AD8BA0AD8BB0AD8BC0AD8BD0AD8BE0AD8BF0AD8C00AD8C10A
  D8C20AD8C30AD8C40AD8C50AD8C60AD8C70AD8C80AD8C90AD8CA0AD8CB0AD8CC0AD8CD0AD8CE0AD8CF0AD8D00AD8D10A
  D8D20AD8D30AD8D40AD8D50AD8D60AD8D70AD8D80AD8D90AD8DA0AD8DB0AD8DC0AD8DD0AD8DE0AD8DF0AD8E00AD8E10A
  D8E20AD8E30AD8E40AD8E50AD8E60AD8E70AD8E80AD8E90AD8EA0AD8EB0AD8EC0AD8ED0AD8EE0AD8EF0AD8F00AD8F10A
  D8F20AD8F30AD8F40AD8F50AD8F60AD8F70AD8F80AD8F90AD8FA0AD8FB0AD8FC0AD8FD0AD8FE0A"

/-- tests/test_data/whatwg/big5_whatwg_test_decode_out.txt, part 88 -/
noncomputable def decodeOut87 : List Nat := hex! "E987AB0AE987B70AE987A80AE987AE0AE995BA0AE996860AE996880AE999BC0AE999AD0AE999AB0AE999B10AE999AF0A
  E99ABF0AE99DAA0AE9A0840AE9A3A50AE9A6970AE5829B0AE582950AE582940AE5829E0AE5828B0AE582A30AE582830A
  E5828C0AE5828E0AE5829D0AE581A80AE5829C0AE582920AE582820AE582870AE5859F0AE587940AE58C920AE58C910A
  E58EA40AE58EA70AE596910AE596A80AE596A50AE596AD0AE595B70AE599850AE596A20AE596930AE596880AE5968F0A
  E596B50AE596810AE596A30AE596920AE596A40AE595BD0AE5968C0AE596A60AE595BF0AE596950AE596A10AE5968E0A
  E59C8C0AE5A0A90AE5A0B70AE5A0990AE5A09E0AE5A0A70AE5A0A30AE5A0A80AE59FB50AE5A1880AE5A0A50AE5A09C0A
  E5A09B0AE5A0B30AE5A0BF0AE5A0B60AE5A0AE0AE5A0B90AE5A0B80AE5A0AD0AE5A0AC0AE5A0BB0AE5A5A10AE5AAAF0A
  E5AA940AE5AA9F0AE5A9BA0AE5AAA20AE5AA9E0AE5A9B80AE5AAA60AE5A9BC0AE5AAA50AE5AAAC0AE5AA950AE5AAAE0A
  E5A8B70AE5AA840AE5AA8A0AE5AA970AE5AA830AE5AA8B0AE5AAA90AE5A9BB0AE5A9BD0AE5AA8C0AE5AA9C0AE5AA8F0A
  E5AA930AE5AA9D0AE5AFAA0AE5AF8D0AE5AF8B0AE5AF940AE5AF910AE5AF8A0AE5AF8E0AE5B08C0AE5B0B00AE5B4B70A
  E5B5830AE5B5AB0AE5B5810AE5B58B0AE5B4BF0AE5B4B50AE5B5910AE5B58E0AE5B5950AE5B4B30AE5B4BA0AE5B5920A
  E5B4BD0AE5B4B10AE5B5990AE5B5820AE5B4B90AE5B5890AE5B4B80AE5B4BC0AE5B4B20AE5B4B60AE5B5800AE5B5850A
  E5B9840AE5B9810AE5BD980AE5BEA60AE5BEA50AE5BEAB0AE683890AE682B90AE6838C0AE683A20AE6838E0AE683840A
  E684940A"

/-- tests/test_data/whatwg/big5_whatwg_test_encode_in.txt, part 88 -/
noncomputable def encodeIn87 : List Nat := hex! "E987AB0AE987B70AE987A80AE987AE0AE995BA0AE996860AE996880AE999BC0AE999AD0AE999AB0AE999B10AE999AF0A
  E99ABF0AE99DAA0AE9A0840AE9A3A50AE9A6970AE5829B0AE582950AE582940AE5829E0AE5828B0AE582A30AE582830A
  E5828C0AE5828E0AE5829D0AE581A80AE5829C0AE582920AE582820AE582870AE5859F0AE587940AE58C920AE58C910A
  E58EA40AE58EA70AE596910AE596A80AE596A50AE596AD0AE595B70AE599850AE596A20AE596930AE596880AE5968F0A
  E596B50AE596810AE596A30AE596920AE596A40AE595BD0AE5968C0AE596A60AE595BF0AE596950AE596A10AE5968E0A
  E59C8C0AE5A0A90AE5A0B70AE5A0990AE5A09E0AE5A0A70AE5A0A30AE5A0A80AE59FB50AE5A1880AE5A0A50AE5A09C0A
  E5A09B0AE5A0B30AE5A0BF0AE5A0B60AE5A0AE0AE5A0B90AE5A0B80AE5A0AD0AE5A0AC0AE5A0BB0AE5A5A10AE5AAAF0A
  E5AA940AE5AA9F0AE5A9BA0AE5AAA20AE5AA9E0AE5A9B80AE5AAA60AE5A9BC0AE5AAA50AE5AAAC0AE5AA950AE5AAAE0A
  E5A8B70AE5AA840AE5AA8A0AE5AA970AE5AA830AE5AA8B0AE5AAA90AE5A9BB0AE5A9BD0AE5AA8C0AE5AA9C0AE5AA8F0A
  E5AA930AE5AA9D0AE5AFAA0AE5AF8D0AE5AF8B0AE5AF940AE5AF910AE5AF8A0AE5AF8E0AE5B08C0AE5B0B00AE5B4B70A
  E5B5830AE5B5AB0AE5B5810AE5B58B0AE5B4BF0AE5B4B50AE5B5910AE5B58E0AE5B5950AE5B4B30AE5B4BA0AE5B5920A
  E5B4BD0AE5B4B10AE5B5990AE5B5820AE5B4B90AE5B5890AE5B4B80AE5B4BC0AE5B4B20AE5B4B60AE5B5800AE5B5850A
  E5B9840AE5B9810AE5BD980AE5BEA60AE5BEA50AE5BEAB0AE683890AE682B90AE6838C0AE683A20AE6838E0AE683840A
  E684940A"

/-- tests/test_data/whatwg/big5_whatwg_test_encode_out.txt, part 88 -/
noncomputable def encodeOut87 : List Nat := hex! "D8400AD8410AD8420AD8430AD8440AD8450AD8460AD8470AD8480AD8490AD84A0AD84B0AD84C0AD84D0AD84E0AD84F0A
  D8500AD8510AD8520AD8530AD8540AD8550AD8560AD8570AD8580AD8590AD85A0AD85B0AD85C0AD85D0AD85E0AD85F0A
  D8600AD8610AD8620AD8630AD8640AD8650AD8660AD8670AD8680AD8690AD86A0AD86B0AD86C0AD86D0AD86E0AD86F0A
  D8700AD8710AD8720AD8730AD8740AD8750AD8760AD8770AD8780AD8790AD87A0AD87B0AD87C0AD87D0AD87E0AD8A10A
  D8A20AD8A30AD8A40AD8A50AD8A60AD8A70AD8A80AD8A90AD8AA0AD8AB0AD8AC0AD8AD0AD8AE0AD8AF0AD8B00AD8B10A
  D8B20AD8B30AD8B40AD8B50AD8B60AD8B70AD8B80AD8B90AD8BA0AD8BB0AD8BC0AD8BD0AD8BE0AD8BF0AD8C00AD8C10A
  D8C20AD8C30AD8C40AD8C50AD8C60AD8C70AD8C80AD8C90AD8CA0AD8CB0AD8CC0AD8CD0AD8CE0AD8CF0AD8D00AD8D10A
  D8D20AD8D30AD8D40AD8D50AD8D60AD8D70AD8D80AD8D90AD8DA0AD8DB0AD8DC0AD8DD0AD8DE0AD8DF0AD8E00AD8E10A
  D8E20AD8E30AD8E40AD8E50AD8E60AD8E70AD8E80AD8E90AD8EA0AD8EB0AD8EC0AD8ED0AD8EE0AD8EF0AD8F00AD8F10A
  D8F20AD8F30AD8F40AD8F50AD8F60AD8F70AD8F80AD8F90AD8FA0AD8FB0AD8FC0AD8FD0AD8FE0A"

/-- tests/test_data/whatwg/big5_whatwg_test_decode_in.txt, part 89 -/
noncomputable def decodeIn88 : List Nat := hex! "D9400AD9410AD9420AD9430AD9440AD9450AD9460AD9470AD9480AD9490AD94A0AD94B0AD94C0AD94D0AD94E0AD94F0A
  D9500AD9510AD9520AD9530AD9540AD9550AD9560AD9570AD9580AD9590AD95A0AD95B0AD95C0AD95D0AD95E0AD95F0A
  D9600AD9610AD9620AD9630AD9640AD9650AD9660AD9670AD9680AD9690AD96A0AD96B0AD96C0AD96D0AD96E0AD96F0A
  D9700AD9710AD9720AD9730AD9740AD9750AD9760AD9770AD9780AD9790AD97A0AD97B0AD97C0AD97D0AD97E0AD9A10A
  D9A20AD9A30AD9A40AD9A50AD9A60AD9A70AD9A80AD9A90AD9AA0AD9AB0AD9AC0AD9AD0AD9AE0AD9AF0AD9B00AD9B10A
  D9B20AD9B30AD9B40AD9B50AD9B60AD9B70AD9B80AD9B90AD9BA0AD9BB0AD9BC0AD9BD0AD9BE0AD9BF0AD9C00AD9C10A
  D9C20AD9C30AD9C40AD9C50AD9C60AD9C70AD9C80AD9C90AD9CA0AD9CB0AD9CC0AD9CD0AD9CE0AD9CF0AD9D00AD9D10A
  D9D20AD9D30AD9D40AD9D50AD9D60AD9D70AD9D80AD9D90AD9DA0AD9DB0AD9DC0AD9DD0AD9DE0AD9DF0AD9E00AD9E10A
  D9E20AD9E30AD9E40AD9E50AD9E60AD9E70AD9E80AD9E90AD9EA0AD9EB0AD9EC0AD9ED0AD9EE0AD9EF0AD9F00AD9F10A
  D9F20AD9F30AD9F40AD9F50AD9F60AD9F70AD9F80AD9F90AD9FA0AD9FB0AD9FC0AD9FD0AD9FE0A"

/-- tests/test_data/whatwg/big5_whatwg_test_decode_out.txt, part 89 -/
noncomputable def decodeOut88 : List Nat := hex! "E683B20AE6848A0AE684960AE684850AE683B50AE684930AE683B80AE683BC0AE683BE0AE683810AE684830AE684980A
  E6849D0AE684900AE683BF0AE684840AE6848B0AE6898A0AE68E940AE68EB10AE68EB00AE68F8E0AE68FA50AE68FA80A
  E68FAF0AE68F830AE6929D0AE68FB30AE68F8A0AE68FA00AE68FB60AE68F950AE68FB20AE68FB50AE691A10AE68F9F0A
  E68EBE0AE68F9D0AE68F9C0AE68F840AE68F980AE68F930AE68F820AE68F870AE68F8C0AE68F8B0AE68F880AE68FB00A
  E68F970AE68F990AE694B20AE695A70AE695AA0AE695A40AE6959C0AE695A80AE695A50AE6968C0AE6969D0AE6969E0A
  E696AE0AE697900AE697920AE699BC0AE699AC0AE699BB0AE69A800AE699B10AE699B90AE699AA0AE699B20AE69C810A
  E6A48C0AE6A3930AE6A4840AE6A39C0AE6A4AA0AE6A3AC0AE6A3AA0AE6A3B10AE6A48F0AE6A3960AE6A3B70AE6A3AB0A
  E6A3A40AE6A3B60AE6A4930AE6A4900AE6A3B30AE6A3A10AE6A4870AE6A38C0AE6A4880AE6A5B00AE6A2B40AE6A4910A
  E6A3AF0AE6A3860AE6A4940AE6A3B80AE6A3900AE6A3BD0AE6A3BC0AE6A3A80AE6A48B0AE6A48A0AE6A4970AE6A38E0A
  E6A3880AE6A39D0AE6A39E0AE6A3A60AE6A3B40AE6A3910AE6A4860AE6A3940AE6A3A90AE6A4950AE6A4A50AE6A3870A
  E6ACB90AE6ACBB0AE6ACBF0AE6ACBC0AE6AE940AE6AE970AE6AE990AE6AE950AE6AEBD0AE6AFB00AE6AFB20AE6AFB30A
  E6B0B00AE6B7BC0AE6B9860AE6B9870AE6B89F0AE6B9890AE6BA880AE6B8BC0AE6B8BD0AE6B9850AE6B9A20AE6B8AB0A
  E6B8BF0AE6B9810AE6B99D0AE6B9B30AE6B89C0AE6B8B30AE6B98B0AE6B9800AE6B9910AE6B8BB0AE6B8830AE6B8AE0A
  E6B99E0A"

/-- tests/test_data/whatwg/big5_whatwg_test_encode_in.txt, part 89 -/
noncomputable def encodeIn88 : List Nat := hex! "E683B20AE6848A0AE684960AE684850AE683B50AE684930AE683B80AE683BC0AE683BE0AE683810AE684830AE684980A
  E6849D0AE684900AE683BF0AE684840AE6848B0AE6898A0AE68E940AE68EB10AE68EB00AE68F8E0AE68FA50AE68FA80A
  E68FAF0AE68F830AE6929D0AE68FB30AE68F8A0AE68FA00AE68FB60AE68F950AE68FB20AE68FB50AE691A10AE68F9F0A
  E68EBE0AE68F9D0AE68F9C0AE68F840AE68F980AE68F930AE68F820AE68F870AE68F8C0AE68F8B0AE68F880AE68FB00A
  E68F970AE68F990AE694B20AE695A70AE695AA0AE695A40AE6959C0AE695A80AE695A50AE6968C0AE6969D0AE6969E0A
  E696AE0AE697900AE697920AE699BC0AE699AC0AE699BB0AE69A800AE699B10AE699B90AE699AA0AE699B20AE69C810A
  E6A48C0AE6A3930AE6A4840AE6A39C0AE6A4AA0AE6A3AC0AE6A3AA0AE6A3B10AE6A48F0AE6A3960AE6A3B70AE6A3AB0A
  E6A3A40AE6A3B60AE6A4930AE6A4900AE6A3B30AE6A3A10AE6A4870AE6A38C0AE6A4880AE6A5B00AE6A2B40AE6A4910A
  E6A3AF0AE6A3860AE6A4940AE6A3B80AE6A3900AE6A3BD0AE6A3BC0AE6A3A80AE6A48B0AE6A48A0AE6A4970AE6A38E0A
  E6A3880AE6A39D0AE6A39E0AE6A3A60AE6A3B40AE6A3910AE6A4860AE6A3940AE6A3A90AE6A4950AE6A4A50AE6A3870A
  E6ACB90AE6ACBB0AE6ACBF0AE6ACBC0AE6AE940AE6AE970AE6AE990AE6AE950AE6AEBD0AE6AFB00AE6AFB20AE6AFB30A
  E6B0B00AE6B7BC0AE6B9860AE6B9870AE6B89F0AE6B9890AE6BA880AE6B8BC0AE6B8BD0AE6B9850AE6B9A20AE6B8AB0A
  E6B8BF0AE6B9810AE6B99D0AE6B9B30AE6B89C0AE6B8B30AE6B98B0AE6B9800AE6B9910AE6B8BB0AE6B8830AE6B8AE0A
  E6B99E0A"

/-- tests/test_data/whatwg/big5_whatwg_test_encode_out.txt, part 89 -/
noncomputable def encodeOut88 : List Nat := hex! "D9400AD9410AD9420AD9430AD9440AD9450AD9460AD9470AD9480AD9490AD94A0AD94B0AD94C0AD94D0AD94E0AD94F0A
  D9500AD9510AD9520AD9530AD9540AD9550AD9560AD9570AD9580AD9590AD95A0AD95B0AD95C0AD95D0AD95E0AD95F0A
  D9600AD9610AD9620AD9630AD9640AD9650AD9660AD9670AD9680AD9690AD96A0AD96B0AD96C0AD96D0AD96E0AD96F0A
  D9700AD9710AD9720AD9730AD9740AD9750AD9760AD9770AD9780AD9790AD97A0AD97B0AD97C0AD97D0AD97E0AD9A10A
  D9A20AD9A30AD9A40AD9A50AD9A60AD9A70AD9A80AD9A90AD9AA0AD9AB0AD9AC0AD9AD0AD9AE0AD9AF0AD9B00AD9B10A
  D9B20AD9B30AD9B40AD9B50AD9B60AD9B70AD9B80AD9B90AD9BA0AD9BB0AD9BC0AD9BD0AD9BE0AD9BF0AD9C00AD9C10A
  D9C20AD9C30AD9C40AD9C50AD9C60AD9C70AD9C80AD9C90AD9CA0AD9CB0AD9CC0AD9CD0AD9CE0AD9CF0AD9D00AD9D10A
  D9D20AD9D30AD9D40AD9D50AD9D60AD9D70AD9D80AD9D90AD9DA0AD9DB0AD9DC0AD9DD0AD9DE0AD9DF0AD9E00AD9E10A
  D9E20AD9E30AD9E40AD9E50AD9E60AD9E70AD9E80AD9E90AD9EA0AD9EB0AD9EC0AD9ED0AD9EE0AD9EF0AD9F00AD9F10A
  D9F20AD9F30AD9F40AD9F50AD9F60AD9F70AD9F80AD9F90AD9FA0AD9FB0AD9FC0AD9FD0AD9FE0A"

/-- tests/test_data/whatwg/big5_whatwg_test_decode_in.txt, part 90 -/
noncomputable def decodeIn89 : List Nat := hex! "DA400ADA410ADA420ADA430ADA440ADA450ADA460ADA470ADA480ADA490ADA4A0ADA4B0ADA4C0ADA4D0ADA4E0ADA4F0A
  DA500ADA510ADA520ADA530ADA540ADA550ADA560ADA570ADA580ADA590ADA5A0ADA5B0ADA5C0ADA5D0ADA5E0ADA5F0A
  DA600ADA610ADA620ADA630ADA640ADA650ADA660ADA670ADA680ADA690ADA6A0ADA6B0ADA6C0ADA6D0ADA6E0ADA6F0A
  DA700ADA710ADA720ADA730ADA740ADA750ADA760ADA770ADA780ADA790ADA7A0ADA7B0ADA7C0ADA7D0ADA7E0ADAA10A
  DAA20ADAA30ADAA40ADAA50ADAA60ADAA70ADAA80ADAA90ADAAA0ADAAB0ADAAC0ADAAD0ADAAE0ADAAF0ADAB00ADAB10A
  DAB20ADAB30ADAB40ADAB50ADAB60ADAB70ADAB80ADAB90ADABA0ADABB0ADABC0ADABD0ADABE0ADABF0ADAC00ADAC10A
  DAC20ADAC30ADAC40ADAC50ADAC60ADAC70ADAC80ADAC90ADACA0ADACB0ADACC0ADACD0ADACE0ADACF0ADAD00ADAD10A
  DAD20ADAD30ADAD40ADAD50ADAD60ADAD70ADAD80ADAD90ADADA0ADADB0ADADC0ADADD0ADADE0ADADF0ADAE00ADAE10A
  DAE20ADAE30ADAE40ADAE50ADAE60ADAE70ADAE80ADAE90ADAEA0ADAEB0ADAEC0ADAED0ADAEE0ADAEF0ADAF00ADAF10A
  DAF20ADAF30ADAF40ADAF50ADAF60ADAF70ADAF80ADAF90ADAFA0ADAFB0ADAFC0ADAFD0ADAFE0A"

/-- tests/test_data/whatwg/big5_whatwg_test_decode_out.txt, part 90 -/
noncomputable def decodeOut89 : List Nat := hex! "E6B9A80AE6B99C0AE6B9A10AE6B8B10AE6B8A80AE6B9A00AE6B9B10AE6B9AB0AE6B8B90AE6B8A20AE6B8B00AE6B9930A
  E6B9A50AE6B8A70AE6B9B80AE6B9A40AE6B9B70AE6B9950AE6B9B90AE6B9920AE6B9A60AE6B8B50AE6B8B60AE6B99A0A
  E784A00AE7849E0AE784AF0AE783BB0AE784AE0AE784B10AE784A30AE784A50AE784A20AE784B20AE7849F0AE784A80A
  E784BA0AE7849B0AE7898B0AE7899A0AE78A880AE78A890AE78A860AE78A850AE78A8B0AE78C920AE78C8B0AE78CB00A
  E78CA20AE78CB10AE78CB30AE78CA70AE78CB20AE78CAD0AE78CA60AE78CA30AE78CB50AE78C8C0AE790AE0AE790AC0A
  E790B00AE790AB0AE790960AE7909A0AE790A10AE790AD0AE790B10AE790A40AE790A30AE7909D0AE790A90AE790A00A
  E790B20AE793BB0AE794AF0AE795AF0AE795AC0AE797A70AE7979A0AE797A10AE797A60AE7979D0AE7979F0AE797A40A
  E797970AE79A950AE79A920AE79B9A0AE79D860AE79D870AE79D840AE79D8D0AE79D850AE79D8A0AE79D8E0AE79D8B0A
  E79D8C0AE79F9E0AE79FAC0AE7A1A00AE7A1A40AE7A1A50AE7A19C0AE7A1AD0AE7A1B10AE7A1AA0AE7A1AE0AE7A1B00A
  E7A1A90AE7A1A80AE7A19E0AE7A1A20AE7A5B40AE7A5B30AE7A5B20AE7A5B00AE7A8820AE7A88A0AE7A8830AE7A88C0A
  E7A8840AE7AA990AE7ABA60AE7ABA40AE7AD8A0AE7ACBB0AE7AD840AE7AD880AE7AD8C0AE7AD8E0AE7AD800AE7AD980A
  E7AD850AE7B2A20AE7B29E0AE7B2A80AE7B2A10AE7B5980AE7B5AF0AE7B5A30AE7B5930AE7B5960AE7B5A70AE7B5AA0A
  E7B58F0AE7B5AD0AE7B59C0AE7B5AB0AE7B5920AE7B5940AE7B5A90AE7B5910AE7B59F0AE7B58E0AE7BCBE0AE7BCBF0A
  E7BDA50A"

/-- tests/test_data/whatwg/big5_whatwg_test_encode_in.txt, part 90 -/
noncomputable def encodeIn89 : List Nat := hex! "E6B9A80AE6B99C0AE6B9A10AE6B8B10AE6B8A80AE6B9A00AE6B9B10AE6B9AB0AE6B8B90AE6B8A20AE6B8B00AE6B9930A
  E6B9A50AE6B8A70AE6B9B80AE6B9A40AE6B9B70AE6B9950AE6B9B90AE6B9920AE6B9A60AE6B8B50AE6B8B60AE6B99A0A
  E784A00AE7849E0AE784AF0AE783BB0AE784AE0AE784B10AE784A30AE784A50AE784A20AE784B20AE7849F0AE784A80A
  E784BA0AE7849B0AE7898B0AE7899A0AE78A880AE78A890AE78A860AE78A850AE78A8B0AE78C920AE78C8B0AE78CB00A
  E78CA20AE78CB10AE78CB30AE78CA70AE78CB20AE78CAD0AE78CA60AE78CA30AE78CB50AE78C8C0AE790AE0AE790AC0A
  E790B00AE790AB0AE790960AE7909A0AE790A10AE790AD0AE790B10AE790A40AE790A30AE7909D0AE790A90AE790A00A
  E790B20AE793BB0AE794AF0AE795AF0AE795AC0AE797A70AE7979A0AE797A10AE797A60AE7979D0AE7979F0AE797A40A
  E797970AE79A950AE79A920AE79B9A0AE79D860AE79D870AE79D840AE79D8D0AE79D850AE79D8A0AE79D8E0AE79D8B0A
  E79D8C0AE79F9E0AE79FAC0AE7A1A00AE7A1A40AE7A1A50AE7A19C0AE7A1AD0AE7A1B10AE7A1AA0AE7A1AE0AE7A1B00A
  E7A1A90AE7A1A80AE7A19E0AE7A1A20AE7A5B40AE7A5B30AE7A5B20AE7A5B00AE7A8820AE7A88A0AE7A8830AE7A88C0A
  E7A8840AE7AA990AE7ABA60AE7ABA40AE7AD8A0AE7ACBB0AE7AD840AE7AD880AE7AD8C0AE7AD8E0AE7AD800AE7AD980A
  E7AD850AE7B2A20AE7B29E0AE7B2A80AE7B2A10AE7B5980AE7B5AF0AE7B5A30AE7B5930AE7B5960AE7B5A70AE7B5AA0A
  E7B58F0AE7B5AD0AE7B59C0AE7B5AB0AE7B5920AE7B5940AE7B5A90AE7B5910AE7B59F0AE7B58E0AE7BCBE0AE7BCBF0A
  E7BDA50A"

/-- tests/test_data/whatwg/big5_whatwg_test_encode_out.txt, part 90 -/
noncomputable def encodeOut89 : List Nat := hex! "DA400ADA410ADA420ADA430ADA440ADA450ADA460ADA470ADA480ADA490ADA4A0ADA4B0ADA4C0ADA4D0ADA4E0ADA4F0A
  DA500ADA510ADA520ADA530ADA540ADA550ADA560ADA570ADA580ADA590ADA5A0ADA5B0ADA5C0ADA5D0ADA5E0ADA5F0A
  DA600ADA610ADA620ADA630ADA640ADA650ADA660ADA670ADA680ADA690ADA6A0ADA6B0ADA6C0ADA6D0ADA6E0ADA6F0A
  DA700ADA710ADA720ADA730ADA740ADA750ADA760ADA770ADA780ADA790ADA7A0ADA7B0ADA7C0ADA7D0ADA7E0ADAA10A
  DAA20ADAA30ADAA40ADAA50ADAA60ADAA70ADAA80ADAA90ADAAA0ADAAB0ADAAC0ADAAD0ADAAE0ADAAF0ADAB00ADAB10A
  DAB20ADAB30ADAB40ADAB50ADAB60ADAB70ADAB80ADAB90ADABA0ADABB0ADABC0ADABD0ADABE0ADABF0ADAC00ADAC10A
  DAC20ADAC30ADAC40ADAC50ADAC60ADAC70ADAC80ADAC90ADACA0ADACB0ADACC0ADACD0ADACE0ADACF0ADAD00ADAD10A
  DAD20ADAD30ADAD40ADAD50ADAD60ADAD70ADAD80ADAD90ADADA0ADADB0ADADC0ADADD0ADADE0ADADF0ADAE00ADAE10A
  DAE20ADAE30ADAE40ADAE50ADAE60ADAE70ADAE80ADAE90ADAEA0ADAEB0ADAEC0ADAED0ADAEE0ADAEF0ADAF00ADAF10A
  DAF20ADAF30ADAF40ADAF50ADAF60ADAF70ADAF80ADAF90ADAFA0ADAFB0ADAFC0ADAFD0ADAFE0A"

/-- tests/test_data/whatwg/big5_whatwg_test_decode_in.txt, part 91 -/
noncomputable def decodeIn90 : List Nat := hex! "DB400ADB410ADB420ADB430ADB440ADB450ADB460ADB470ADB480ADB490ADB4A0ADB4B0ADB4C0ADB4D0ADB4E0ADB4F0A
  DB500ADB510ADB520ADB530ADB540ADB550ADB560ADB570ADB580ADB590ADB5A0ADB5B0ADB5C0ADB5D0ADB5E0ADB5F0A
  DB600ADB610ADB620ADB630ADB640ADB650ADB660ADB670ADB680ADB690ADB6A0ADB6B0ADB6C0ADB6D0ADB6E0ADB6F0A
  DB700ADB710ADB720ADB730ADB740ADB750ADB760ADB770ADB780ADB790ADB7A0ADB7B0ADB7C0ADB7D0ADB7E0ADBA10A
  DBA20ADBA30ADBA40ADBA50ADBA60ADBA70ADBA80ADBA90ADBAA0ADBAB0ADBAC0ADBAD0ADBAE0ADBAF0ADBB00ADBB10A
  DBB20ADBB30ADBB40ADBB50ADBB60ADBB70ADBB80ADBB90ADBBA0ADBBB0ADBBC0ADBBD0ADBBE0ADBBF0ADBC00ADBC10A
  DBC20ADBC30ADBC40ADBC50ADBC60ADBC70ADBC80ADBC90ADBCA0ADBCB0ADBCC0ADBCD0ADBCE0ADBCF0ADBD00ADBD10A
  DBD20ADBD30ADBD40ADBD50ADBD60ADBD70ADBD80ADBD90ADBDA0ADBDB0ADBDC0ADBDD0ADBDE0ADBDF0ADBE00ADBE10A
  DBE20ADBE30ADBE40ADBE50ADBE60ADBE70ADBE80ADBE90ADBEA0ADBEB0ADBEC0ADBED0ADBEE0ADBEF0ADBF00ADBF10A
  DBF20ADBF30ADBF40ADBF50ADBF60ADBF70ADBF80ADBF90ADBFA0ADBFB0ADBFC0ADBFD0ADBFE0A"

/-- tests/test_data/whatwg/big5_whatwg_test_decode_out.txt, part 91 -/
noncomputable def decodeOut90 : List Nat := hex! "E7BDA60AE7BEA20AE7BEA00AE7BEA10AE7BF970AE881910AE8818F0AE881900AE883BE0AE883940AE885830AE8858A0A
  E885920AE8858F0AE885870AE884BD0AE8858D0AE884BA0AE887A60AE887AE0AE887B70AE887B80AE887B90AE888840A
  E888BC0AE888BD0AE888BF0AE889B50AE88CBB0AE88F8F0AE88FB90AE890A30AE88F800AE88FA80AE890920AE88FA70A
  E88FA40AE88FBC0AE88FB60AE890900AE88F860AE88F880AE88FAB0AE88FA30AE88EBF0AE890810AE88F9D0AE88FA50A
  E88F980AE88FBF0AE88FA10AE88F8B0AE88F8E0AE88F960AE88FB50AE88F890AE890890AE8908F0AE88F9E0AE890910A
  E890860AE88F820AE88FB30AE88F950AE88FBA0AE88F870AE88F910AE88FAA0AE890930AE88F830AE88FAC0AE88FAE0A
  E88F840AE88FBB0AE88F970AE88FA20AE8909B0AE88F9B0AE88FBE0AE89B980AE89BA20AE89BA60AE89B930AE89BA30A
  E89B9A0AE89BAA0AE89B9D0AE89BAB0AE89B9C0AE89BAC0AE89BA90AE89B970AE89BA80AE89B910AE8A1880AE8A1960A
  E8A1950AE8A2BA0AE8A3970AE8A2B90AE8A2B80AE8A3800AE8A2BE0AE8A2B60AE8A2BC0AE8A2B70AE8A2BD0AE8A2B20A
  E8A4810AE8A3890AE8A6950AE8A6980AE8A6970AE8A79D0AE8A79A0AE8A79B0AE8A98E0AE8A98D0AE8A8B90AE8A9990A
  E8A9800AE8A9970AE8A9980AE8A9840AE8A9850AE8A9920AE8A9880AE8A9910AE8A98A0AE8A98C0AE8A98F0AE8B19F0A
  E8B2810AE8B2800AE8B2BA0AE8B2BE0AE8B2B00AE8B2B90AE8B2B50AE8B6840AE8B6800AE8B6890AE8B7980AE8B7930A
  E8B78D0AE8B7870AE8B7960AE8B79C0AE8B78F0AE8B7950AE8B7990AE8B7880AE8B7970AE8B7850AE8BBAF0AE8BBB70A
  E8BBBA0A"

/-- tests/test_data/whatwg/big5_whatwg_test_encode_in.txt, part 91 -/
noncomputable def encodeIn90 : List Nat := hex! "E7BDA60AE7BEA20AE7BEA00AE7BEA10AE7BF970AE881910AE8818F0AE881900AE883BE0AE883940AE885830AE8858A0A
  E885920AE8858F0AE885870AE884BD0AE8858D0AE884BA0AE887A60AE887AE0AE887B70AE887B80AE887B90AE888840A
  E888BC0AE888BD0AE888BF0AE889B50AE88CBB0AE88FB90AE890A30AE88F800AE88FA80AE890920AE88FA70AE88FA40A
  E88FBC0AE88FB60AE890900AE88F860AE88F880AE88FAB0AE88FA30AE88EBF0AE890810AE88F9D0AE88FA50AE88F980A
  E88FBF0AE88FA10AE88F8B0AE88F8E0AE88F960AE88FB50AE88F890AE890890AE88F9E0AE890910AE890860AE88F820A
  E88FB30AE88F950AE88FBA0AE88F870AE88F910AE88FAA0AE890930AE88F830AE88FAC0AE88FAE0AE88F840AE88FBB0A
  E88F970AE88FA20AE8909B0AE88F9B0AE88FBE0AE89B980AE89BA20AE89BA60AE89B930AE89BA30AE89B9A0AE89BAA0A
  E89B9D0AE89BAB0AE89B9C0AE89BAC0AE89BA90AE89B970AE89BA80AE89B910AE8A1880AE8A1960AE8A1950AE8A2BA0A
  E8A3970AE8A2B90AE8A2B80AE8A3800AE8A2BE0AE8A2B60AE8A2BC0AE8A2B70AE8A2BD0AE8A2B20AE8A4810AE8A3890A
  E8A6950AE8A6980AE8A6970AE8A79D0AE8A79A0AE8A79B0AE8A98E0AE8A98D0AE8A8B90AE8A9990AE8A9800AE8A9970A
  E8A9980AE8A9840AE8A9850AE8A9920AE8A9880AE8A9910AE8A98A0AE8A98C0AE8A98F0AE8B19F0AE8B2810AE8B2800A
  E8B2BA0AE8B2BE0AE8B2B00AE8B2B90AE8B2B50AE8B6840AE8B6800AE8B6890AE8B7980AE8B7930AE8B78D0AE8B7870A
  E8B7960AE8B79C0AE8B78F0AE8B7950AE8B7990AE8B7880AE8B7970AE8B7850AE8BBAF0AE8BBB70AE8BBBA0A"

/-- tests/test_data/whatwg/big5_whatwg_test_encode_out.txt, part 91 -/
noncomputable def encodeOut90 : List Nat := hex! "DB400ADB410ADB420ADB430ADB440ADB450ADB460ADB470ADB480ADB490ADB4A0ADB4B0ADB4C0ADB4D0ADB4E0ADB4F0A
  DB500ADB510ADB520ADB530ADB540ADB550ADB560ADB570ADB580ADB590ADB5A0ADB5B0ADB5C0ADB5E0ADB5F0ADB600A
  DB610ADB620ADB630ADB640ADB650ADB660ADB670ADB680ADB690ADB6A0ADB6B0ADB6C0ADB6D0ADB6E0ADB6F0ADB700A
  DB710ADB720ADB730ADB740ADB750ADB760ADB770ADB780ADB7A0ADB7B0ADB7C0ADB7D0ADB7E0ADBA10ADBA20ADBA30A
  DBA40ADBA50ADBA60ADBA70ADBA80ADBA90ADBAA0ADBAB0ADBAC0ADBAD0ADBAE0ADBAF0ADBB00ADBB10ADBB20ADBB30A
  DBB40ADBB50ADBB60ADBB70ADBB80ADBB90ADBBA0ADBBB0ADBBC0ADBBD0ADBBE0ADBBF0ADBC00ADBC10ADBC20ADBC30A
  DBC40ADBC50ADBC60ADBC70ADBC80ADBC90ADBCA0ADBCB0ADBCC0ADBCD0ADBCE0ADBCF0ADBD00ADBD10ADBD20ADBD30A
  DBD40ADBD50ADBD60ADBD70ADBD80ADBD90ADBDA0ADBDB0ADBDC0ADBDD0ADBDE0ADBDF0ADBE00ADBE10ADBE20ADBE30A
  DBE40ADBE50ADBE60ADBE70ADBE80ADBE90ADBEA0ADBEB0ADBEC0ADBED0ADBEE0ADBEF0ADBF00ADBF10ADBF20ADBF30A
  DBF40ADBF50ADBF60ADBF70ADBF80ADBF90ADBFA0ADBFB0ADBFC0ADBFD0ADBFE0A"

/-- tests/test_data/whatwg/big5_whatwg_test_decode_in.txt, part 92 -/
noncomputable def decodeIn91 : List Nat := hex! "DC400ADC410ADC420ADC430ADC440ADC450ADC460ADC470ADC480ADC490ADC4A0ADC4B0ADC4C0ADC4D0ADC4E0ADC4F0A
  DC500ADC510ADC520ADC530ADC540ADC550ADC560ADC570ADC580ADC590ADC5A0ADC5B0ADC5C0ADC5D0ADC5E0ADC5F0A
  DC600ADC610ADC620ADC630ADC640ADC650ADC660ADC670ADC680ADC690ADC6A0ADC6B0ADC6C0ADC6D0ADC6E0ADC6F0A
  DC700ADC710ADC720ADC730ADC740ADC750ADC760ADC770ADC780ADC790ADC7A0ADC7B0ADC7C0ADC7D0ADC7E0ADCA10A
  DCA20ADCA30ADCA40ADCA50ADCA60ADCA70ADCA80ADCA90ADCAA0ADCAB0ADCAC0ADCAD0ADCAE0ADCAF0ADCB00ADCB10A
  DCB20ADCB30ADCB40ADCB50ADCB60ADCB70ADCB80ADCB90ADCBA0ADCBB0ADCBC0ADCBD0ADCBE0ADCBF0ADCC00ADCC10A
  DCC20ADCC30ADCC40ADCC50ADCC60ADCC70ADCC80ADCC90ADCCA0ADCCB0ADCCC0ADCCD0ADCCE0ADCCF0ADCD00ADCD10A
  DCD20ADCD30ADCD40ADCD50ADCD60ADCD70ADCD80ADCD90ADCDA0ADCDB0ADCDC0ADCDD0ADCDE0ADCDF0ADCE00ADCE10A
  DCE20ADCE30ADCE40ADCE50ADCE60ADCE70ADCE80ADCE90ADCEA0ADCEB0ADCEC0ADCED0ADCEE0ADCEF0ADCF00ADCF10A
  DCF20ADCF30ADCF40ADCF50ADCF60ADCF70ADCF80ADCF90ADCFA0ADCFB0ADCFC0ADCFD0ADCFE0A"

/-- tests/test_data/whatwg/big5_whatwg_test_decode_out.txt, part 92 -/
noncomputable def decodeOut91 : List Nat := hex! "E8BBB90AE8BBA60AE8BBAE0AE8BBA50AE8BBB50AE8BBA70AE8BBA80AE8BBB60AE8BBAB0AE8BBB10AE8BBAC0AE8BBB40A
  E8BBA90AE980AD0AE980B40AE980AF0AE984860AE984AC0AE984840AE983BF0AE983BC0AE984880AE983B90AE983BB0A
  E984810AE984800AE984870AE984850AE984830AE985A10AE985A40AE9859F0AE985A20AE985A00AE988810AE9888A0A
  E988A50AE988830AE9889A0AE988A60AE9888F0AE9888C0AE988800AE988920AE987BF0AE987BD0AE988860AE988840A
  E988A70AE988820AE9889C0AE988A40AE988990AE988970AE988850AE988960AE995BB0AE9968D0AE9968C0AE996900A
  E99A870AE999BE0AE99A880AE99A890AE99A830AE99A800AE99B820AE99B880AE99B830AE99BB10AE99BB00AE99DAC0A
  E99DB00AE99DAE0AE9A0870AE9A2A90AE9A3AB0AE9B3A60AE9BBB90AE4BA830AE4BA840AE4BAB60AE582BD0AE582BF0A
  E583860AE582AE0AE583840AE5838A0AE582B40AE583880AE583820AE582B00AE583810AE582BA0AE582B10AE5838B0A
  E583890AE582B60AE582B80AE587970AE589BA0AE589B80AE589BB0AE589BC0AE597830AE5979B0AE5978C0AE597900A
  E5978B0AE5978A0AE5979D0AE597800AE597940AE597840AE597A90AE596BF0AE597920AE5968D0AE5978F0AE597950A
  E597A20AE597960AE597880AE597B20AE5978D0AE597990AE597820AE59C940AE5A1930AE5A1A80AE5A1A40AE5A18F0A
  E5A18D0AE5A1890AE5A1AF0AE5A1950AE5A18E0AE5A19D0AE5A1990AE5A1A50AE5A19B0AE5A0BD0AE5A1A30AE5A1B10A
  E5A3BC0AE5AB870AE5AB840AE5AB8B0AE5AABA0AE5AAB80AE5AAB10AE5AAB50AE5AAB00AE5AABF0AE5AB880AE5AABB0A
  E5AB860A"

/-- tests/test_data/whatwg/big5_whatwg_test_encode_in.txt, part 92 -/
noncomputable def encodeIn91 : List Nat := hex! "E8BBB90AE8BBA60AE8BBAE0AE8BBA50AE8BBB50AE8BBA70AE8BBA80AE8BBB60AE8BBAB0AE8BBB10AE8BBAC0AE8BBB40A
  E8BBA90AE980AD0AE980B40AE980AF0AE984860AE984AC0AE983BF0AE983BC0AE984880AE983B90AE983BB0AE984810A
  E984800AE984870AE984850AE984830AE985A10AE985A40AE9859F0AE985A20AE985A00AE988810AE9888A0AE988A50A
  E988830AE9889A0AE988A60AE9888F0AE9888C0AE988800AE988920AE987BF0AE987BD0AE988860AE988840AE988A70A
  E988820AE9889C0AE988A40AE988990AE988970AE988850AE988960AE995BB0AE9968D0AE9968C0AE996900AE99A870A
  E999BE0AE99A880AE99A890AE99A830AE99A800AE99B820AE99B880AE99B830AE99BB10AE99BB00AE99DAC0AE99DB00A
  E99DAE0AE9A0870AE9A2A90AE9A3AB0AE9B3A60AE9BBB90AE4BA830AE4BA840AE4BAB60AE582BD0AE582BF0AE583860A
  E582AE0AE583840AE5838A0AE582B40AE583880AE583820AE582B00AE583810AE582BA0AE582B10AE5838B0AE583890A
  E582B60AE582B80AE587970AE589BA0AE589B80AE589BB0AE589BC0AE597830AE5979B0AE5978C0AE597900AE5978B0A
  E5978A0AE5979D0AE597800AE597940AE597840AE597A90AE596BF0AE597920AE5968D0AE5978F0AE597950AE597A20A
  E597960AE597880AE597B20AE5978D0AE597990AE597820AE59C940AE5A1930AE5A1A80AE5A1A40AE5A18F0AE5A18D0A
  E5A1890AE5A1AF0AE5A1950AE5A18E0AE5A19D0AE5A1990AE5A1A50AE5A19B0AE5A0BD0AE5A1A30AE5A1B10AE5A3BC0A
  E5AB870AE5AB840AE5AB8B0AE5AABA0AE5AAB80AE5AAB10AE5AAB50AE5AAB00AE5AABF0AE5AB880AE5AABB0AE5AB860A"

/-- tests/test_data/whatwg/big5_whatwg_test_encode_out.txt, part 92 -/
noncomputable def encodeOut91 : List Nat := hex! "DC400ADC410ADC420ADC430ADC440ADC450ADC460ADC470ADC480ADC490ADC4A0ADC4B0ADC4C0ADC4D0ADC4E0ADC4F0A
  DC500ADC510ADC530ADC540ADC550ADC560ADC570ADC580ADC590ADC5A0ADC5B0ADC5C0ADC5D0ADC5E0ADC5F0ADC600A
  DC610ADC620ADC630ADC640ADC650ADC660ADC670ADC680ADC690ADC6A0ADC6B0ADC6C0ADC6D0ADC6E0ADC6F0ADC700A
  DC710ADC720ADC730ADC740ADC750ADC760ADC770ADC780ADC790ADC7A0ADC7B0ADC7C0ADC7D0ADC7E0ADCA10ADCA20A
  DCA30ADCA40ADCA50ADCA60ADCA70ADCA80ADCA90ADCAA0ADCAB0ADCAC0ADCAD0ADCAE0ADCAF0ADCB00ADCB10ADCB20A
  DCB30ADCB40ADCB50ADCB60ADCB70ADCB80ADCB90ADCBA0ADCBB0ADCBC0ADCBD0ADCBE0ADCBF0ADCC00ADCC10ADCC20A
  DCC30ADCC40ADCC50ADCC60ADCC70ADCC80ADCC90ADCCA0ADCCB0ADCCC0ADCCD0ADCCE0ADCCF0ADCD00ADCD10ADCD20A
  DCD30ADCD40ADCD50ADCD60ADCD70ADCD80ADCD90ADCDA0ADCDB0ADCDC0ADCDD0ADCDE0ADCDF0ADCE00ADCE10ADCE20A
  DCE30ADCE40ADCE50ADCE60ADCE70ADCE80ADCE90ADCEA0ADCEB0ADCEC0ADCED0ADCEE0ADCEF0ADCF00ADCF10ADCF20A
  DCF30ADCF40ADCF50ADCF60ADCF70ADCF80ADCF90ADCFA0ADCFB0ADCFC0ADCFD0ADCFE0A"

/-- tests/test_data/whatwg/big5_whatwg_test_decode_in.txt, part 93 -/
noncomputable def decodeIn92 : List Nat := hex! "DD400ADD410ADD420ADD430ADD440ADD450ADD460ADD470ADD480ADD490ADD4A0ADD4B0ADD4C0ADD4D0ADD4E0ADD4F0A
  DD500ADD510ADD520ADD530ADD540ADD550ADD560ADD570ADD580ADD590ADD5A0ADD5B0ADD5C0ADD5D0ADD5E0ADD5F0A
  DD600ADD610ADD620ADD630ADD640ADD650ADD660ADD670ADD680ADD690ADD6A0ADD6B0ADD6C0ADD6D0ADD6E0ADD6F0A
  DD700ADD710ADD720ADD730ADD740ADD750ADD760ADD770ADD780ADD790ADD7A0ADD7B0ADD7C0ADD7D0ADD7E0ADDA10A
  DDA20ADDA30ADDA40ADDA50ADDA60ADDA70ADDA80ADDA90ADDAA0ADDAB0ADDAC0ADDAD0ADDAE0ADDAF0ADDB00ADDB10A
  DDB20ADDB30ADDB40ADDB50ADDB60ADDB70ADDB80ADDB90ADDBA0ADDBB0ADDBC0ADDBD0ADDBE0ADDBF0ADDC00ADDC10A
  DDC20ADDC30ADDC40ADDC50ADDC60ADDC70ADDC80ADDC90ADDCA0ADDCB0ADDCC0ADDCD0ADDCE0ADDCF0ADDD00ADDD10A
  DDD20ADDD30ADDD40ADDD50ADDD60ADDD70ADDD80ADDD90ADDDA0ADDDB0ADDDC0ADDDD0ADDDE0ADDDF0ADDE00ADDE10A
  DDE20ADDE30ADDE40ADDE50ADDE60ADDE70ADDE80ADDE90ADDEA0ADDEB0ADDEC0ADDED0ADDEE0ADDEF0ADDF00ADDF10A
  DDF20ADDF30ADDF40ADDF50ADDF60ADDF70ADDF80ADDF90ADDFA0ADDFB0ADDFC0ADDFD0ADDFE0A"

/-- tests/test_data/whatwg/big5_whatwg_test_decode_out.txt, part 93 -/
noncomputable def decodeOut92 : List Nat := hex! "E5AAB70AE5AB800AE5AB8A0AE5AAB40AE5AAB60AE5AB8D0AE5AAB90AE5AA900AE5AF960AE5AF980AE5AF990AE5B09F0A
  E5B0B30AE5B5B10AE5B5A30AE5B58A0AE5B5A50AE5B5B20AE5B5AC0AE5B59E0AE5B5A80AE5B5A70AE5B5A20AE5B7B00A
  E5B98F0AE5B98E0AE5B98A0AE5B98D0AE5B98B0AE5BB850AE5BB8C0AE5BB860AE5BB8B0AE5BB870AE5BD800AE5BEAF0A
  E5BEAD0AE683B70AE685890AE6858A0AE684AB0AE685850AE684B60AE684B20AE684AE0AE685860AE684AF0AE6858F0A
  E684A90AE685800AE688A00AE985A80AE688A30AE688A50AE688A40AE68F850AE68FB10AE68FAB0AE690900AE690920A
  E690890AE690A00AE690A40AE690B30AE691830AE6909F0AE690950AE690980AE690B90AE690B70AE690A20AE690A30A
  E6908C0AE690A60AE690B00AE690A80AE691810AE690B50AE690AF0AE6908A0AE6909A0AE691800AE690A50AE690A70A
  E6908B0AE68FA70AE6909B0AE690AE0AE690A10AE6908E0AE695AF0AE696920AE697930AE69A860AE69A8C0AE69A950A
  E69A900AE69A8B0AE69A8A0AE69A990AE69A940AE699B80AE69CA00AE6A5A60AE6A59F0AE6A4B80AE6A58E0AE6A5A20A
  E6A5B10AE6A4BF0AE6A5850AE6A5AA0AE6A4B90AE6A5820AE6A5970AE6A5990AE6A5BA0AE6A5880AE6A5890AE6A4B50A
  E6A5AC0AE6A4B30AE6A4BD0AE6A5A50AE6A3B00AE6A5B80AE6A4B40AE6A5A90AE6A5800AE6A5AF0AE6A5840AE6A5B60A
  E6A5980AE6A5810AE6A5B40AE6A58C0AE6A4BB0AE6A58B0AE6A4B70AE6A59C0AE6A58F0AE6A5910AE6A4B20AE6A5920A
  E6A4AF0AE6A5BB0AE6A4BC0AE6AD860AE6AD850AE6AD830AE6AD820AE6AD880AE6AD810AE6AE9B0AEFA88D0AE6AFBB0A
  E6AFBC0A"

/-- tests/test_data/whatwg/big5_whatwg_test_encode_in.txt, part 93 -/
noncomputable def encodeIn92 : List Nat := hex! "E5AAB70AE5AB800AE5AB8A0AE5AAB40AE5AAB60AE5AB8D0AE5AAB90AE5AA900AE5AF960AE5AF980AE5AF990AE5B09F0A
  E5B0B30AE5B5B10AE5B5A30AE5B58A0AE5B5A50AE5B5B20AE5B5AC0AE5B59E0AE5B5A80AE5B5A70AE5B5A20AE5B7B00A
  E5B98F0AE5B98E0AE5B98A0AE5B98D0AE5B98B0AE5BB850AE5BB8C0AE5BB860AE5BB8B0AE5BB870AE5BD800AE5BEAF0A
  E5BEAD0AE683B70AE685890AE6858A0AE684AB0AE685850AE684B60AE684B20AE684AE0AE685860AE684AF0AE6858F0A
  E684A90AE685800AE688A00AE985A80AE688A30AE688A50AE688A40AE68F850AE68FB10AE68FAB0AE690900AE690920A
  E690890AE690A00AE690A40AE690B30AE691830AE6909F0AE690950AE690980AE690B90AE690B70AE690A20AE690A30A
  E6908C0AE690A60AE690B00AE690A80AE691810AE690B50AE690AF0AE6908A0AE6909A0AE691800AE690A50AE690A70A
  E6908B0AE68FA70AE6909B0AE690AE0AE690A10AE6908E0AE695AF0AE696920AE697930AE69A860AE69A8C0AE69A950A
  E69A900AE69A8B0AE69A8A0AE69A990AE69A940AE699B80AE69CA00AE6A5A60AE6A59F0AE6A4B80AE6A58E0AE6A5A20A
  E6A5B10AE6A4BF0AE6A5850AE6A5AA0AE6A4B90AE6A5820AE6A5970AE6A5990AE6A5BA0AE6A5880AE6A5890AE6A4B50A
  E6A5AC0AE6A4B30AE6A4BD0AE6A5A50AE6A3B00AE6A5B80AE6A4B40AE6A5A90AE6A5800AE6A5AF0AE6A5840AE6A5B60A
  E6A5980AE6A5810AE6A5B40AE6A58C0AE6A4BB0AE6A58B0AE6A4B70AE6A59C0AE6A58F0AE6A5910AE6A4B20AE6A5920A
  E6A4AF0AE6A5BB0AE6A4BC0AE6AD860AE6AD850AE6AD830AE6AD820AE6AD880AE6AD810AE6AE9B0AEFA88D0AE6AFBB0A
  E6AFBC0A"

/-- tests/test_data/whatwg/big5_whatwg_test_encode_out.txt, part 93 -/
noncomputable def encodeOut92 : List Nat := hex! "DD400ADD410ADD420ADD430ADD440ADD450ADD460ADD470ADD480ADD490ADD4A0ADD4B0ADD4C0ADD4D0ADD4E0ADD4F0A
  DD500ADD510ADD520ADD530ADD540ADD550ADD560ADD570ADD580ADD590ADD5A0ADD5B0ADD5C0ADD5D0ADD5E0ADD5F0A
  DD600ADD610ADD620ADD630ADD640ADD650ADD660ADD670ADD680ADD690ADD6A0ADD6B0ADD6C0ADD6D0ADD6E0ADD6F0A
  DD700ADD710ADD720ADD730ADD740ADD750ADD760ADD770ADD780ADD790ADD7A0ADD7B0ADD7C0ADD7D0ADD7E0ADDA10A
  DDA20ADDA30ADDA40ADDA50ADDA60ADDA70ADDA80ADDA90ADDAA0ADDAB0ADDAC0ADDAD0ADDAE0ADDAF0ADDB00ADDB10A
  DDB20ADDB30ADDB40ADDB50ADDB60ADDB70ADDB80ADDB90ADDBA0ADDBB0ADDBC0ADDBD0ADDBE0ADDBF0ADDC00ADDC10A
  DDC20ADDC30ADDC40ADDC50ADDC60ADDC70ADDC80ADDC90ADDCA0ADDCB0ADDCC0ADDCD0ADDCE0ADDCF0ADDD00ADDD10A
  DDD20ADDD30ADDD40ADDD50ADDD60ADDD70ADDD80ADDD90ADDDA0ADDDB0ADDDC0ADDDD0ADDDE0ADDDF0ADDE00ADDE10A
  DDE20ADDE30ADDE40ADDE50ADDE60ADDE70ADDE80ADDE90ADDEA0ADDEB0ADDEC0ADDED0ADDEE0ADDEF0ADDF00ADDF10A
  DDF20ADDF30ADDF40ADDF50ADDF60ADDF70ADDF80ADDF90ADDFA0ADDFB0ADDFC0ADDFD0ADDFE0A"

/-- tests/test_data/whatwg/big5_whatwg_test_decode_in.txt, part 94 -/
noncomputable def decodeIn93 : List Nat := hex! "DE400ADE410ADE420ADE430ADE440ADE450ADE460ADE470ADE480ADE490ADE4A0ADE4B0ADE4C0ADE4D0ADE4E0ADE4F0A
  DE500ADE510ADE520ADE530ADE540ADE550ADE560ADE570ADE580ADE590ADE5A0ADE5B0ADE5C0ADE5D0ADE5E0ADE5F0A
  DE600ADE610ADE620ADE630ADE640ADE650ADE660ADE670ADE680ADE690ADE6A0ADE6B0ADE6C0ADE6D0ADE6E0ADE6F0A
  DE700ADE710ADE720ADE730ADE740ADE750ADE760ADE770ADE780ADE790ADE7A0ADE7B0ADE7C0ADE7D0ADE7E0ADEA10A
  DEA20ADEA30ADEA40ADEA50ADEA60ADEA70ADEA80ADEA90ADEAA0ADEAB0ADEAC0ADEAD0ADEAE0ADEAF0ADEB00ADEB10A
  DEB20ADEB30ADEB40ADEB50ADEB60ADEB70ADEB80ADEB90ADEBA0ADEBB0ADEBC0ADEBD0ADEBE0ADEBF0ADEC00ADEC10A
  DEC20ADEC30ADEC40ADEC50ADEC60ADEC70ADEC80ADEC90ADECA0ADECB0ADECC0ADECD0ADECE0ADECF0ADED00ADED10A
  DED20ADED30ADED40ADED50ADED60ADED70ADED80ADED90ADEDA0ADEDB0ADEDC0ADEDD0ADEDE0ADEDF0ADEE00ADEE10A
  DEE20ADEE30ADEE40ADEE50ADEE60ADEE70ADEE80ADEE90ADEEA0ADEEB0ADEEC0ADEED0ADEEE0ADEEF0ADEF00ADEF10A
  DEF20ADEF30ADEF40ADEF50ADEF60ADEF70ADEF80ADEF90ADEFA0ADEFB0ADEFC0ADEFD0ADEFE0A"

/-- tests/test_data/whatwg/big5_whatwg_test_decode_out.txt, part 94 -/
noncomputable def decodeOut93 : List Nat := hex! "E6AFB90AE6AFB70AE6AFB80AE6BA9B0AE6BB960AE6BB880AE6BA8F0AE6BB800AE6BA9F0AE6BA930AE6BA940AE6BAA00A
  E6BAB10AE6BAB90AE6BB860AE6BB920AE6BABD0AE6BB810AE6BA9E0AE6BB890AE6BAB70AE6BAB00AE6BB8D0AE6BAA60A
  E6BB8F0AE6BAB20AE6BABE0AE6BB830AE6BB9C0AE6BB980AE6BA990AE6BA920AE6BA8E0AE6BA8D0AE6BAA40AE6BAA10A
  E6BABF0AE6BAB30AE6BB900AE6BB8A0AE6BA970AE6BAAE0AE6BAA30AE785870AE785940AE785920AE785A30AE785A00A
  E785810AE7859D0AE785A20AE785B20AE785B80AE785AA0AE785A10AE785820AE785980AE785830AE7858B0AE785B00A
  E7859F0AE785900AE785930AE785840AE7858D0AE7859A0AE7898F0AE78A8D0AE78A8C0AE78A910AE78A900AE78A8E0A
  E78CBC0AE78D820AE78CBB0AE78CBA0AE78D800AE78D8A0AE78D890AE791840AE7918A0AE7918B0AE791920AE791910A
  E791970AE791800AE7918F0AE791900AE7918E0AE791820AE791860AE7918D0AE791940AE793A10AE793BF0AE793BE0A
  E793BD0AE7949D0AE795B90AE795B70AE6A6830AE797AF0AE7988F0AE798830AE797B70AE797BE0AE797BC0AE797B90A
  E797B80AE798900AE797BB0AE797B60AE797AD0AE797B50AE797BD0AE79A990AE79AB50AE79B9D0AE79D950AE79D9F0A
  E79DA00AE79D920AE79D960AE79D9A0AE79DA90AE79DA70AE79D940AE79D990AE79DAD0AE79FA00AE7A2870AE7A29A0A
  E7A2940AE7A28F0AE7A2840AE7A2950AE7A2850AE7A2860AE7A2A10AE7A2830AE7A1B90AE7A2990AE7A2800AE7A2960A
  E7A1BB0AE7A5BC0AE7A6820AE7A5BD0AE7A5B90AE7A8910AE7A8980AE7A8990AE7A8920AE7A8970AE7A8950AE7A8A20A
  E7A8930A"

/-- tests/test_data/whatwg/big5_whatwg_test_encode_in.txt, part 94 -/
noncomputable def encodeIn93 : List Nat := hex! "E6AFB90AE6AFB70AE6AFB80AE6BA9B0AE6BB960AE6BB880AE6BA8F0AE6BB800AE6BA9F0AE6BA930AE6BA940AE6BAA00A
  E6BAB10AE6BAB90AE6BB860AE6BB920AE6BABD0AE6BB810AE6BA9E0AE6BB890AE6BAB70AE6BAB00AE6BB8D0AE6BAA60A
  E6BB8F0AE6BAB20AE6BABE0AE6BB830AE6BB9C0AE6BB980AE6BA990AE6BA920AE6BA8E0AE6BA8D0AE6BAA40AE6BAA10A
  E6BABF0AE6BAB30AE6BB900AE6BB8A0AE6BA970AE6BAAE0AE6BAA30AE785870AE785940AE785920AE785A30AE785A00A
  E785810AE7859D0AE785B20AE785B80AE785AA0AE785A10AE785820AE785980AE785830AE7858B0AE785B00AE7859F0A
  E785900AE785930AE785840AE7858D0AE7859A0AE7898F0AE78A8D0AE78A8C0AE78A910AE78A900AE78A8E0AE78CBC0A
  E78D820AE78CBB0AE78CBA0AE78D800AE78D8A0AE78D890AE791840AE7918A0AE7918B0AE791920AE791910AE791970A
  E791800AE7918F0AE791900AE7918E0AE791820AE791860AE7918D0AE791940AE793A10AE793BF0AE793BE0AE793BD0A
  E7949D0AE795B90AE795B70AE6A6830AE797AF0AE7988F0AE798830AE797B70AE797BE0AE797BC0AE797B80AE798900A
  E797BB0AE797B60AE797AD0AE797B50AE797BD0AE79A990AE79AB50AE79B9D0AE79D950AE79D9F0AE79DA00AE79D920A
  E79D960AE79D9A0AE79DA90AE79DA70AE79D940AE79D990AE79DAD0AE79FA00AE7A2870AE7A29A0AE7A2940AE7A28F0A
  E7A2840AE7A2950AE7A2850AE7A2860AE7A2A10AE7A2830AE7A1B90AE7A2990AE7A2800AE7A2960AE7A1BB0AE7A5BC0A
  E7A6820AE7A5BD0AE7A5B90AE7A8910AE7A8980AE7A8990AE7A8920AE7A8970AE7A8950AE7A8A20AE7A8930A"

/-- tests/test_data/whatwg/big5_whatwg_test_encode_out.txt, part 94 -/
noncomputable def encodeOut93 : List Nat := hex! "DE400ADE410ADE420ADE430ADE440ADE450ADE460ADE470ADE480ADE490ADE4A0ADE4B0ADE4C0ADE4D0ADE4E0ADE4F0A
  DE500ADE510ADE520ADE530ADE540ADE550ADE560ADE570ADE580ADE590ADE5A0ADE5B0ADE5C0ADE5D0ADE5E0ADE5F0A
  DE600ADE610ADE620ADE630ADE640ADE650ADE660ADE670ADE680ADE690ADE6A0ADE6B0ADE6C0ADE6D0ADE6E0ADE6F0A
  DE700ADE710ADE730ADE740ADE750ADE760ADE770ADE780ADE790ADE7A0ADE7B0ADE7C0ADE7D0ADE7E0ADEA10ADEA20A
  DEA30ADEA40ADEA50ADEA60ADEA70ADEA80ADEA90ADEAA0ADEAB0ADEAC0ADEAD0ADEAE0ADEAF0ADEB00ADEB10ADEB20A
  DEB30ADEB40ADEB50ADEB60ADEB70ADEB80ADEB90ADEBA0ADEBB0ADEBC0ADEBD0ADEBE0ADEBF0ADEC00ADEC10ADEC20A
  DEC30ADEC40ADEC50ADEC60ADEC70ADEC80ADEC90ADECA0ADECB0ADECC0ADECE0ADECF0ADED00ADED10ADED20ADED30A
  DED40ADED50ADED60ADED70ADED80ADED90ADEDA0ADEDB0ADEDC0ADEDD0ADEDE0ADEDF0ADEE00ADEE10ADEE20ADEE30A
  DEE40ADEE50ADEE60ADEE70ADEE80ADEE90ADEEA0ADEEB0ADEEC0ADEED0ADEEE0ADEEF0ADEF00ADEF10ADEF20ADEF30A
  DEF40ADEF50ADEF60ADEF70ADEF80ADEF90ADEFA0ADEFB0ADEFC0ADEFD0ADEFE0A"

/-- tests/test_data/whatwg/big5_whatwg_test_decode_in.txt, part 95 -/
noncomputable def decodeIn94 : List Nat := hex! "DF400ADF410ADF420ADF430ADF440ADF450ADF460ADF470ADF480ADF490ADF4A0ADF4B0ADF4C0ADF4D0ADF4E0ADF4F0A
  DF500ADF510ADF520ADF530ADF540ADF550ADF560ADF570ADF580ADF590ADF5A0ADF5B0ADF5C0ADF5D0ADF5E0ADF5F0A
  DF600ADF610ADF620ADF630ADF640ADF650ADF660ADF670ADF680ADF690ADF6A0ADF6B0ADF6C0ADF6D0ADF6E0ADF6F0A
  DF700ADF710ADF720ADF730ADF740ADF750ADF760ADF770ADF780ADF790ADF7A0ADF7B0ADF7C0ADF7D0ADF7E0ADFA10A
  DFA20ADFA30ADFA40ADFA50ADFA60ADFA70ADFA80ADFA90ADFAA0ADFAB0ADFAC0ADFAD0ADFAE0ADFAF0ADFB00ADFB10A
  DFB20ADFB30ADFB40ADFB50ADFB60ADFB70ADFB80ADFB90ADFBA0ADFBB0ADFBC0ADFBD0ADFBE0ADFBF0ADFC00ADFC10A
  DFC20ADFC30ADFC40ADFC50ADFC60ADFC70ADFC80ADFC90ADFCA0ADFCB0ADFCC0ADFCD0ADFCE0ADFCF0ADFD00ADFD10A
  DFD20ADFD30ADFD40ADFD50ADFD60ADFD70ADFD80ADFD90ADFDA0ADFDB0ADFDC0ADFDD0ADFDE0ADFDF0ADFE00ADFE10A
  DFE20ADFE30ADFE40ADFE50ADFE60ADFE70ADFE80ADFE90ADFEA0ADFEB0ADFEC0ADFED0ADFEE0ADFEF0ADFF00ADFF10A
  DFF20ADFF30ADFF40ADFF50ADFF60ADFF70ADFF80ADFF90ADFFA0ADFFB0ADFFC0ADFFD0ADFFE0A"

/-- tests/test_data/whatwg/big5_whatwg_test_decode_out.txt, part 95 -/
noncomputable def decodeOut94 : List Nat := hex! "E7A89B0AE7A8900AE7AAA30AE7AAA20AE7AA9E0AE7ABAB0AE7ADA60AE7ADA40AE7ADAD0AE7ADB40AE7ADA90AE7ADB20A
  E7ADA50AE7ADB30AE7ADB10AE7ADB00AE7ADA10AE7ADB80AE7ADB60AE7ADA30AE7B2B20AE7B2B40AE7B2AF0AE7B6880A
  E7B6860AE7B6800AE7B68D0AE7B5BF0AE7B6850AE7B5BA0AE7B68E0AE7B5BB0AE7B6830AE7B5BC0AE7B68C0AE7B6940A
  E7B6840AE7B5BD0AE7B6920AE7BDAD0AE7BDAB0AE7BDA70AE7BDA80AE7BDAC0AE7BEA60AE7BEA50AE7BEA70AE7BF9B0A
  E7BF9C0AE880A10AE885A40AE885A00AE885B70AE8859C0AE885A90AE8859B0AE885A20AE885B20AE69CA10AE8859E0A
  E885B60AE885A70AE885AF0AE885840AE885A10AE8889D0AE889890AE889840AE889800AE889820AE889850AE893B10A
  E890BF0AE891960AE891B60AE891B90AE8928F0AE8928D0AE891A50AE891910AE891800AE892860AE891A70AE890B00A
  E8918D0AE891BD0AE8919A0AE891990AE891B40AE891B30AE8919D0AE894870AE8919E0AE890B70AE890BA0AE890B40A
  E891BA0AE891830AE891B80AE890B20AE891850AE890A90AE88F990AE8918B0AE890AF0AE891820AE890AD0AE8919F0A
  E891B00AE890B90AE8918E0AE8918C0AE891920AE891AF0AE893850AE8928E0AE890BB0AE891870AE890B60AE890B30A
  E891A80AE891BE0AE891840AE890AB0AE891A00AE891940AE891AE0AE891900AE89C8B0AE89C840AE89BB70AE89C8C0A
  E89BBA0AE89B960AE89BB50AE89D8D0AE89BB80AE89C8E0AE89C890AE89C810AE89BB60AE89C8D0AE89C850AE8A3960A
  E8A38B0AE8A38D0AE8A38E0AE8A39E0AE8A39B0AE8A39A0AE8A38C0AE8A3900AE8A6850AE8A69B0AE8A79F0AE8A7A50A
  E8A7A40A"

/-- tests/test_data/whatwg/big5_whatwg_test_encode_in.txt, part 95 -/
noncomputable def encodeIn94 : List Nat := hex! "E7A89B0AE7A8900AE7AAA30AE7AAA20AE7AA9E0AE7ABAB0AE7ADA60AE7ADA40AE7ADAD0AE7ADB40AE7ADA90AE7ADB20A
  E7ADA50AE7ADB30AE7ADB10AE7ADB00AE7ADA10AE7ADB80AE7ADB60AE7ADA30AE7B2B20AE7B2B40AE7B2AF0AE7B6880A
  E7B6860AE7B6800AE7B68D0AE7B5BF0AE7B6850AE7B5BA0AE7B68E0AE7B5BB0AE7B6830AE7B5BC0AE7B68C0AE7B6940A
  E7B6840AE7B5BD0AE7B6920AE7BDAD0AE7BDAB0AE7BDA70AE7BDA80AE7BDAC0AE7BEA60AE7BEA50AE7BEA70AE7BF9B0A
  E7BF9C0AE880A10AE885A40AE885A00AE885B70AE8859C0AE885A90AE8859B0AE885A20AE885B20AE69CA10AE8859E0A
  E885B60AE885A70AE885AF0AE885840AE885A10AE8889D0AE889890AE889840AE889800AE889820AE889850AE893B10A
  E890BF0AE891960AE891B60AE891B90AE8928F0AE8928D0AE891A50AE891910AE891800AE892860AE891A70AE890B00A
  E8918D0AE891BD0AE8919A0AE891990AE891B40AE891B30AE8919D0AE894870AE8919E0AE890B70AE890BA0AE890B40A
  E891BA0AE891830AE891B80AE890B20AE891850AE890A90AE88F990AE8918B0AE890AF0AE891820AE890AD0AE8919F0A
  E891B00AE890B90AE8918E0AE8918C0AE891920AE891AF0AE893850AE8928E0AE890BB0AE891870AE890B60AE890B30A
  E891A80AE891BE0AE891840AE890AB0AE891A00AE891940AE891AE0AE891900AE89C8B0AE89C840AE89BB70AE89C8C0A
  E89BBA0AE89B960AE89BB50AE89D8D0AE89BB80AE89C8E0AE89C890AE89C810AE89BB60AE89C8D0AE89C850AE8A3960A
  E8A38B0AE8A38D0AE8A38E0AE8A39E0AE8A39B0AE8A39A0AE8A38C0AE8A3900AE8A6850AE8A69B0AE8A79F0AE8A7A50A
  E8A7A40A"

/-- tests/test_data/whatwg/big5_whatwg_test_encode_out.txt, part 95 -/
noncomputable def encodeOut94 : List Nat := hex! "DF400ADF410ADF420ADF430ADF440ADF450ADF460ADF470ADF480ADF490ADF4A0ADF4B0ADF4C0ADF4D0ADF4E0ADF4F0A
  DF500ADF510ADF520ADF530ADF540ADF550ADF560ADF570ADF580ADF590ADF5A0ADF5B0ADF5C0ADF5D0ADF5E0ADF5F0A
  DF600ADF610ADF620ADF630ADF640ADF650ADF660ADF670ADF680ADF690ADF6A0ADF6B0ADF6C0ADF6D0ADF6E0ADF6F0A
  DF700ADF710ADF720ADF730ADF740ADF750ADF760ADF770ADF780ADF790ADF7A0ADF7B0ADF7C0ADF7D0ADF7E0ADFA10A
  DFA20ADFA30ADFA40ADFA50ADFA60ADFA70ADFA80ADFA90ADFAA0ADFAB0ADFAC0ADFAD0ADFAE0ADFAF0ADFB00ADFB10A
  DFB20ADFB30ADFB40ADFB50ADFB60ADFB70ADFB80ADFB90ADFBA0ADFBB0ADFBC0ADFBD0ADFBE0ADFBF0ADFC00ADFC10A
  DFC20ADFC30ADFC40ADFC50ADFC60ADFC70ADFC80ADFC90ADFCA0ADFCB0ADFCC0ADFCD0ADFCE0ADFCF0ADFD00ADFD10A
  DFD20ADFD30ADFD40ADFD50ADFD60ADFD70ADFD80ADFD90ADFDA0ADFDB0ADFDC0ADFDD0ADFDE0ADFDF0ADFE00ADFE10A
  DFE20ADFE30ADFE40ADFE50ADFE60ADFE70ADFE80ADFE90ADFEA0ADFEB0ADFEC0ADFED0ADFEE0ADFEF0ADFF00ADFF10A
  DFF20ADFF30ADFF40ADFF50ADFF60ADFF70ADFF80ADFF90ADFFA0ADFFB0ADFFC0ADFFD0ADFFE0A"

/-- tests/test_data/whatwg/big5_whatwg_test_decode_in.txt, part 96 -/
noncomputable def decodeIn95 : List Nat := hex! "E0400AE0410AE0420AE0430AE0440AE0450AE0460AE0470AE0480AE0490AE04A0AE04B0AE04C0AE04D0AE04E0AE04F0A
  E0500AE0510AE0520AE0530AE0540AE0550AE0560AE0570AE0580AE0590AE05A0AE05B0AE05C0AE05D0AE05E0AE05F0A
  E0600AE0610AE0620AE0630AE0640AE0650AE0660AE0670AE0680AE0690AE06A0AE06B0AE06C0AE06D0AE06E0AE06F0A
  E0700AE0710AE0720AE0730AE0740AE0750AE0760AE0770AE0780AE0790AE07A0AE07B0AE07C0AE07D0AE07E0AE0A10A
  E0A20AE0A30AE0A40AE0A50AE0A60AE0A70AE0A80AE0A90AE0AA0AE0AB0AE0AC0AE0AD0AE0AE0AE0AF0AE0B00AE0B10A
  E0B20AE0B30AE0B40AE0B50AE0B60AE0B70AE0B80AE0B90AE0BA0AE0BB0AE0BC0AE0BD0AE0BE0AE0BF0AE0C00AE0C10A
  E0C20AE0C30AE0C40AE0C50AE0C60AE0C70AE0C80AE0C90AE0CA0AE0CB0AE0CC0AE0CD0AE0CE0AE0CF0AE0D00AE0D10A
  E0D20AE0D30AE0D40AE0D50AE0D60AE0D70AE0D80AE0D90AE0DA0AE0DB0AE0DC0AE0DD0AE0DE0AE0DF0AE0E00AE0E10A
  E0E20AE0E30AE0E40AE0E50AE0E60AE0E70AE0E80AE0E90AE0EA0AE0EB0AE0EC0AE0ED0AE0EE0AE0EF0AE0F00AE0F10A
  E0F20AE0F30AE0F40AE0F50AE0F60AE0F70AE0F80AE0F90AE0FA0AE0FB0AE0FC0AE0FD0AE0FE0A"

/-- tests/test_data/whatwg/big5_whatwg_test_decode_out.txt, part 96 -/
noncomputable def decodeOut95 : List Nat := hex! "E8A7A10AE8A7A00AE8A7A20AE8A79C0AE8A7A60AE8A9B60AE8AA860AE8A9BF0AE8A9A10AE8A8BF0AE8A9B70AE8AA820A
  E8AA840AE8A9B50AE8AA830AE8AA810AE8A9B40AE8A9BA0AE8B0BC0AE8B18B0AE8B18A0AE8B1A50AE8B1A40AE8B1A60A
  E8B2860AE8B2840AE8B2850AE8B38C0AE8B5A80AE8B5A90AE8B6910AE8B68C0AE8B68E0AE8B68F0AE8B68D0AE8B6930A
  E8B6940AE8B6900AE8B6920AE8B7B00AE8B7A00AE8B7AC0AE8B7B10AE8B7AE0AE8B7900AE8B7A90AE8B7A30AE8B7A20A
  E8B7A70AE8B7B20AE8B7AB0AE8B7B40AE8BC860AE8BBBF0AE8BC810AE8BC800AE8BC850AE8BC870AE8BC880AE8BC820A
  E8BC8B0AE981920AE980BF0AE981840AE981890AE980BD0AE984900AE9848D0AE9848F0AE984910AE984960AE984940A
  E9848B0AE9848E0AE985AE0AE985AF0AE989880AE989920AE988B00AE988BA0AE989A60AE988B30AE989A50AE9899E0A
  E98A830AE988AE0AE9898A0AE989860AE989AD0AE989AC0AE9898F0AE989A00AE989A70AE989AF0AE988B60AE989A10A
  E989B00AE988B10AE989940AE989A30AE989900AE989B20AE9898E0AE989930AE9898C0AE989960AE988B20AE9969F0A
  E9969C0AE9969E0AE9969B0AE99A920AE99A930AE99A910AE99A970AE99B8E0AE99BBA0AE99BBD0AE99BB80AE99BB50A
  E99DB30AE99DB70AE99DB80AE99DB20AE9A08F0AE9A08D0AE9A08E0AE9A2AC0AE9A3B60AE9A3B90AE9A6AF0AE9A6B20A
  E9A6B00AE9A6B50AE9AAAD0AE9AAAB0AE9AD9B0AE9B3AA0AE9B3AD0AE9B3A70AE9BA800AE9BBBD0AE583A60AE583940A
  E583970AE583A80AE583B30AE5839B0AE583AA0AE5839D0AE583A40AE583930AE583AC0AE583B00AE583AF0AE583A30A
  E583A00A"

/-- tests/test_data/whatwg/big5_whatwg_test_encode_in.txt, part 96 -/
noncomputable def encodeIn95 : List Nat := hex! "E8A7A10AE8A7A00AE8A7A20AE8A79C0AE8A7A60AE8A9B60AE8AA860AE8A9BF0AE8A9A10AE8A8BF0AE8A9B70AE8AA820A
  E8AA840AE8A9B50AE8AA830AE8AA810AE8A9B40AE8A9BA0AE8B0BC0AE8B18B0AE8B18A0AE8B1A50AE8B1A40AE8B1A60A
  E8B2860AE8B2840AE8B2850AE8B38C0AE8B5A80AE8B5A90AE8B6910AE8B68C0AE8B68E0AE8B68F0AE8B68D0AE8B6930A
  E8B6940AE8B6900AE8B6920AE8B7B00AE8B7A00AE8B7AC0AE8B7B10AE8B7AE0AE8B7900AE8B7A90AE8B7A30AE8B7A20A
  E8B7A70AE8B7B20AE8B7AB0AE8B7B40AE8BC860AE8BBBF0AE8BC810AE8BC800AE8BC850AE8BC870AE8BC880AE8BC820A
  E981920AE980BF0AE981840AE981890AE980BD0AE984900AE9848D0AE9848F0AE984910AE984960AE984940AE9848B0A
  E9848E0AE985AE0AE985AF0AE989880AE989920AE988B00AE988BA0AE989A60AE988B30AE989A50AE9899E0AE98A830A
  E988AE0AE9898A0AE989860AE989AD0AE989AC0AE9898F0AE989A00AE989A70AE989AF0AE988B60AE989A10AE989B00A
  E988B10AE989940AE989A30AE989900AE989B20AE9898E0AE989930AE9898C0AE989960AE988B20AE9969F0AE9969C0A
  E9969E0AE9969B0AE99A920AE99A930AE99A910AE99A970AE99B8E0AE99BBA0AE99BBD0AE99BB80AE99BB50AE99DB30A
  E99DB70AE99DB80AE99DB20AE9A08F0AE9A08D0AE9A08E0AE9A2AC0AE9A3B60AE9A3B90AE9A6AF0AE9A6B20AE9A6B00A
  E9A6B50AE9AAAD0AE9AAAB0AE9AD9B0AE9B3AA0AE9B3AD0AE9B3A70AE9BA800AE9BBBD0AE583A60AE583940AE583970A
  E583A80AE583B30AE5839B0AE583AA0AE5839D0AE583A40AE583930AE583AC0AE583B00AE583AF0AE583A30AE583A00A"

/-- tests/test_data/whatwg/big5_whatwg_test_encode_out.txt, part 96 -/
noncomputable def encodeOut95 : List Nat := hex! "E0400AE0410AE0420AE0430AE0440AE0450AE0460AE0470AE0480AE0490AE04A0AE04B0AE04C0AE04D0AE04E0AE04F0A
  E0500AE0510AE0520AE0530AE0540AE0550AE0560AE0570AE0580AE0590AE05A0AE05B0AE05C0AE05D0AE05E0AE05F0A
  E0600AE0610AE0620AE0630AE0640AE0650AE0660AE0670AE0680AE0690AE06A0AE06B0AE06C0AE06D0AE06E0AE06F0A
  E0700AE0710AE0720AE0730AE0740AE0750AE0760AE0770AE0780AE0790AE07A0AE07B0AE07D0AE07E0AE0A10AE0A20A
  E0A30AE0A40AE0A50AE0A60AE0A70AE0A80AE0A90AE0AA0AE0AB0AE0AC0AE0AD0AE0AE0AE0AF0AE0B00AE0B10AE0B20A
  E0B30AE0B40AE0B50AE0B60AE0B70AE0B80AE0B90AE0BA0AE0BB0AE0BC0AE0BD0AE0BE0AE0BF0AE0C00AE0C10AE0C20A
  E0C30AE0C40AE0C50AE0C60AE0C70AE0C80AE0C90AE0CA0AE0CB0AE0CC0AE0CD0AE0CE0AE0CF0AE0D00AE0D10AE0D20A
  E0D30AE0D40AE0D50AE0D60AE0D70AE0D80AE0D90AE0DA0AE0DB0AE0DC0AE0DD0AE0DE0AE0DF0AE0E00AE0E10AE0E20A
  E0E30AE0E40AE0E50AE0E60AE0E70AE0E80AE0E90AE0EA0AE0EB0AE0EC0AE0ED0AE0EE0AE0EF0AE0F00AE0F10AE0F20A
  E0F30AE0F40AE0F50AE0F60AE0F70AE0F80AE0F90AE0FA0AE0FB0AE0FC0AE0FD0AE0FE0A"

end Verif.Files.Big5
