import Verif.Hex

/-! Generated by tools/gen_files.py: verbatim copies of parts of files of /repo. -/

namespace Verif.Files.Big5

/-- tests/test_data/whatwg/big5_whatwg_test_decode_in.txt, part 97 -/
noncomputable def decodeIn96 : List Nat := hex! "E1400AE1410AE1420AE1430AE1440AE1450AE1460AE1470AE1480AE1490AE14A0AE14B0AE14C0AE14D0AE14E0AE14F0A
  E1500AE1510AE1520AE1530AE1540AE1550AE1560AE1570AE1580AE1590AE15A0AE15B0AE15C0AE15D0AE15E0AE15F0A
  E1600AE1610AE1620AE1630AE1640AE1650AE1660AE1670AE1680AE1690AE16A0AE16B0AE16C0AE16D0AE16E0AE16F0A
  E1700AE1710AE1720AE1730AE1740AE1750AE1760AE1770AE1780AE1790AE17A0AE17B0AE17C0AE17D0AE17E0AE1A10A
  E1A20AE1A30AE1A40AE1A50AE1A60AE1A70AE1A80AE1A90AE1AA0AE1AB0AE1AC0AE1AD0AE1AE0AE1AF0AE1B00AE1B10A
  E1B20AE1B30AE1B40AE1B50AE1B60AE1B70AE1B80AE1B90AE1BA0AE1BB0AE1BC0AE1BD0AE1BE0AE1BF0AE1C00AE1C10A
  E1C20AE1C30AE1C40AE1C50AE1C60AE1C70AE1C80AE1C90AE1CA0AE1CB0AE1CC0AE1CD0AE1CE0AE1CF0AE1D00AE1D10A
  E1D20AE1D30AE1D40AE1D50AE1D60AE1D70AE1D80AE1D90AE1DA0AE1DB0AE1DC0AE1DD0AE1DE0AE1DF0AE1E00AE1E10A
  E1E20AE1E30AE1E40AE1E50AE1E60AE1E70AE1E80AE1E90AE1EA0AE1EB0AE1EC0AE1ED0AE1EE0AE1EF0AE1F00AE1F10A
  E1F20AE1F30AE1F40AE1F50AE1F60AE1F70AE1F80AE1F90AE1FA0AE1FB0AE1FC0AE1FD0AE1FE0A"

/-- tests/test_data/whatwg/big5_whatwg_test_decode_out.txt, part 97 -/
noncomputable def decodeOut96 : List Nat := hex! "E587980AE58A800AE58A810AE58BA90AE58BAB0AE58CB00AE58EAC0AE598A70AE598950AE5988C0AE598920AE597BC0A
  E5988F0AE5989C0AE598810AE598930AE598820AE597BA0AE5989D0AE598840AE597BF0AE597B90AE5A2890AE5A1BC0A
  E5A2900AE5A2980AE5A2860AE5A2810AE5A1BF0AE5A1B40AE5A28B0AE5A1BA0AE5A2870AE5A2910AE5A28E0AE5A1B60A
  E5A2820AE5A2880AE5A1BB0AE5A2940AE5A28F0AE5A3BE0AE5A5AB0AE5AB9C0AE5ABAE0AE5ABA50AE5AB950AE5ABAA0A
  E5AB9A0AE5ABAD0AE5ABAB0AE5ABB30AE5ABA20AE5ABA00AE5AB9B0AE5ABAC0AE5AB9E0AE5AB9D0AE5AB990AE5ABA80A
  E5AB9F0AE5ADB70AE5AFA00AE5AFA30AE5B1A30AE5B6820AE5B6800AE5B5BD0AE5B6860AE5B5BA0AE5B6810AE5B5B70A
  E5B68A0AE5B6890AE5B6880AE5B5BE0AE5B5BC0AE5B68D0AE5B5B90AE5B5BF0AE5B9980AE5B9990AE5B9930AE5BB980A
  E5BB910AE5BB970AE5BB8E0AE5BB9C0AE5BB950AE5BB990AE5BB920AE5BB940AE5BD840AE5BD830AE5BDAF0AE5BEB60A
  E684AC0AE684A80AE685810AE6859E0AE685B10AE685B30AE685920AE685930AE685B20AE685AC0AE686800AE685B40A
  E685940AE685BA0AE6859B0AE685A50AE684BB0AE685AA0AE685A10AE685960AE688A90AE688A70AE688AB0AE690AB0A
  E6918D0AE6919B0AE6919D0AE691B40AE691B60AE691B20AE691B30AE691BD0AE691B50AE691A60AE692A60AE6918E0A
  E692820AE6919E0AE6919C0AE6918B0AE691930AE691A00AE691900AE691BF0AE690BF0AE691AC0AE691AB0AE691990A
  E691A50AE691B70AE695B30AE696A00AE69AA10AE69AA00AE69A9F0AE69C850AE69C840AE69CA20AE6A6B10AE6A6B60A
  E6A7890A"

/-- tests/test_data/whatwg/big5_whatwg_test_encode_in.txt, part 97 -/
noncomputable def encodeIn96 : List Nat := hex! "E587980AE58A800AE58A810AE58BA90AE58BAB0AE58CB00AE58EAC0AE598A70AE598950AE5988C0AE598920AE597BC0A
  E5988F0AE5989C0AE598810AE598930AE598820AE597BA0AE5989D0AE598840AE597BF0AE597B90AE5A2890AE5A1BC0A
  E5A2900AE5A2980AE5A2860AE5A2810AE5A1BF0AE5A1B40AE5A28B0AE5A1BA0AE5A2870AE5A2910AE5A28E0AE5A1B60A
  E5A2820AE5A2880AE5A1BB0AE5A2940AE5A28F0AE5A3BE0AE5A5AB0AE5AB9C0AE5ABAE0AE5ABA50AE5AB950AE5ABAA0A
  E5AB9A0AE5ABAD0AE5ABAB0AE5ABB30AE5ABA20AE5ABA00AE5AB9B0AE5ABAC0AE5AB9E0AE5AB9D0AE5AB990AE5ABA80A
  E5AB9F0AE5ADB70AE5AFA00AE5AFA30AE5B1A30AE5B6820AE5B6800AE5B5BD0AE5B6860AE5B5BA0AE5B6810AE5B5B70A
  E5B68A0AE5B6890AE5B6880AE5B5BE0AE5B5BC0AE5B68D0AE5B5B90AE5B5BF0AE5B9980AE5B9990AE5B9930AE5BB980A
  E5BB910AE5BB970AE5BB8E0AE5BB9C0AE5BB950AE5BB990AE5BB920AE5BB940AE5BD840AE5BD830AE5BDAF0AE5BEB60A
  E684AC0AE684A80AE685810AE6859E0AE685B10AE685B30AE685920AE685930AE685B20AE685AC0AE686800AE685B40A
  E685940AE685BA0AE6859B0AE685A50AE684BB0AE685AA0AE685A10AE685960AE688A90AE688A70AE688AB0AE690AB0A
  E6918D0AE6919B0AE6919D0AE691B40AE691B60AE691B20AE691B30AE691BD0AE691B50AE691A60AE692A60AE6918E0A
  E692820AE6919E0AE6919C0AE6918B0AE691930AE691A00AE691900AE691BF0AE690BF0AE691AC0AE691AB0AE691990A
  E691A50AE691B70AE695B30AE696A00AE69AA10AE69AA00AE69A9F0AE69C850AE69C840AE69CA20AE6A6B10AE6A6B60A
  E6A7890A"

/-- tests/test_data/whatwg/big5_whatwg_test_encode_out.txt, part 97 -/
noncomputable def encodeOut96 : List Nat := hex! "E1400AE1410AE1420AE1430AE1440AE1450AE1460AE1470AE1480AE1490AE14A0AE14B0AE14C0AE14D0AE14E0AE14F0A
  E1500AE1510AE1520AE1530AE1540AE1550AE1560AE1570AE1580AE1590AE15A0AE15B0AE15C0AE15D0AE15E0AE15F0A
  E1600AE1610AE1620AE1630AE1640AE1650AE1660AE1670AE1680AE1690AE16A0AE16B0AE16C0AE16D0AE16E0AE16F0A
  E1700AE1710AE1720AE1730AE1740AE1750AE1760AE1770AE1780AE1790AE17A0AE17B0AE17C0AE17D0AE17E0AE1A10A
  E1A20AE1A30AE1A40AE1A50AE1A60AE1A70AE1A80AE1A90AE1AA0AE1AB0AE1AC0AE1AD0AE1AE0AE1AF0AE1B00AE1B10A
  E1B20AE1B30AE1B40AE1B50AE1B60AE1B70AE1B80AE1B90AE1BA0AE1BB0AE1BC0AE1BD0AE1BE0AE1BF0AE1C00AE1C10A
  E1C20AE1C30AE1C40AE1C50AE1C60AE1C70AE1C80AE1C90AE1CA0AE1CB0AE1CC0AE1CD0AE1CE0AE1CF0AE1D00AE1D10A
  E1D20AE1D30AE1D40AE1D50AE1D60AE1D70AE1D80AE1D90AE1DA0AE1DB0AE1DC0AE1DD0AE1DE0AE1DF0AE1E00AE1E10A
  E1E20AE1E30AE1E40AE1E50AE1E60AE1E70AE1E80AE1E90AE1EA0AE1EB0AE1EC0AE1ED0AE1EE0AE1EF0AE1F00AE1F10A
  E1F20AE1F30AE1F40AE1F50AE1F60AE1F70AE1F80AE1F90AE1FA0AE1FB0AE1FC0AE1FD0AE1FE0A"

/-- tests/test_data/whatwg/big5_whatwg_test_decode_in.txt, part 98 -/
noncomputable def decodeIn97 : List Nat := hex! "E2400AE2410AE2420AE2430AE2440AE2450AE2460AE2470AE2480AE2490AE24A0AE24B0AE24C0AE24D0AE24E0AE24F0A
  E2500AE2510AE2520AE2530AE2540AE2550AE2560AE2570AE2580AE2590AE25A0AE25B0AE25C0AE25D0AE25E0AE25F0A
  E2600AE2610AE2620AE2630AE2640AE2650AE2660AE2670AE2680AE2690AE26A0AE26B0AE26C0AE26D0AE26E0AE26F0A
  E2700AE2710AE2720AE2730AE2740AE2750AE2760AE2770AE2780AE2790AE27A0AE27B0AE27C0AE27D0AE27E0AE2A10A
  E2A20AE2A30AE2A40AE2A50AE2A60AE2A70AE2A80AE2A90AE2AA0AE2AB0AE2AC0AE2AD0AE2AE0AE2AF0AE2B00AE2B10A
  E2B20AE2B30AE2B40AE2B50AE2B60AE2B70AE2B80AE2B90AE2BA0AE2BB0AE2BC0AE2BD0AE2BE0AE2BF0AE2C00AE2C10A
  E2C20AE2C30AE2C40AE2C50AE2C60AE2C70AE2C80AE2C90AE2CA0AE2CB0AE2CC0AE2CD0AE2CE0AE2CF0AE2D00AE2D10A
  E2D20AE2D30AE2D40AE2D50AE2D60AE2D70AE2D80AE2D90AE2DA0AE2DB0AE2DC0AE2DD0AE2DE0AE2DF0AE2E00AE2E10A
  E2E20AE2E30AE2E40AE2E50AE2E60AE2E70AE2E80AE2E90AE2EA0AE2EB0AE2EC0AE2ED0AE2EE0AE2EF0AE2F00AE2F10A
  E2F20AE2F30AE2F40AE2F50AE2F60AE2F70AE2F80AE2F90AE2FA0AE2FB0AE2FC0AE2FD0AE2FE0A"

/-- tests/test_data/whatwg/big5_whatwg_test_decode_out.txt, part 98 -/
noncomputable def decodeOut97 : List Nat := hex! "E6A6A00AE6A78E0AE6A6960AE6A6B00AE6A6AC0AE6A6BC0AE6A6910AE6A6990AE6A68E0AE6A6A70AE6A68D0AE6A6A90A
  E6A6BE0AE6A6AF0AE6A6BF0AE6A7840AE6A6BD0AE6A6A40AE6A7940AE6A6B90AE6A78A0AE6A69A0AE6A78F0AE6A6B30A
  E6A6930AE6A6AA0AE6A6A10AE6A69E0AE6A7990AE6A6970AE6A6900AE6A7820AE6A6B50AE6A6A50AE6A7860AE6AD8A0A
  E6AD8D0AE6AD8B0AE6AE9E0AE6AE9F0AE6AEA00AE6AF830AE6AF840AE6AFBE0AE6BB8E0AE6BBB50AE6BBB10AE6BC830A
  E6BCA50AE6BBB80AE6BCB70AE6BBBB0AE6BCAE0AE6BC890AE6BD8E0AE6BC990AE6BC9A0AE6BCA70AE6BC980AE6BCBB0A
  E6BC920AE6BBAD0AE6BC8A0AE6BCB60AE6BDB30AE6BBB90AE6BBAE0AE6BCAD0AE6BD800AE6BCB00AE6BCBC0AE6BCB50A
  E6BBAB0AE6BC870AE6BC8E0AE6BD830AE6BC850AE6BBBD0AE6BBB60AE6BCB90AE6BC9C0AE6BBBC0AE6BCBA0AE6BC9F0A
  E6BC8D0AE6BC9E0AE6BC880AE6BCA10AE786870AE786900AE786890AE786800AE786850AE786820AE7868F0AE785BB0A
  E786860AE786810AE786970AE789840AE789930AE78A970AE78A950AE78A930AE78D830AE78D8D0AE78D910AE78D8C0A
  E791A20AE791B30AE791B10AE791B50AE791B20AE791A70AE791AE0AE794800AE794820AE794830AE795BD0AE796900A
  E798960AE798880AE7988C0AE798950AE798910AE7988A0AE798940AE79AB80AE79E810AE79DBC0AE79E850AE79E820A
  E79DAE0AE79E800AE79DAF0AE79DBE0AE79E830AE7A2B20AE7A2AA0AE7A2B40AE7A2AD0AE7A2A80AE7A1BE0AE7A2AB0A
  E7A29E0AE7A2A50AE7A2A00AE7A2AC0AE7A2A20AE7A2A40AE7A6980AE7A68A0AE7A68B0AE7A6960AE7A6950AE7A6940A
  E7A6930A"

/-- tests/test_data/whatwg/big5_whatwg_test_encode_in.txt, part 98 -/
noncomputable def encodeIn97 : List Nat := hex! "E6A6A00AE6A78E0AE6A6960AE6A6B00AE6A6AC0AE6A6BC0AE6A6910AE6A6990AE6A68E0AE6A6A70AE6A68D0AE6A6A90A
  E6A6BE0AE6A6AF0AE6A6BF0AE6A7840AE6A6BD0AE6A6A40AE6A7940AE6A6B90AE6A78A0AE6A69A0AE6A78F0AE6A6B30A
  E6A6930AE6A6AA0AE6A6A10AE6A69E0AE6A7990AE6A6970AE6A6900AE6A7820AE6A6B50AE6A6A50AE6A7860AE6AD8A0A
  E6AD8D0AE6AD8B0AE6AE9E0AE6AE9F0AE6AEA00AE6AF830AE6AF840AE6AFBE0AE6BB8E0AE6BBB50AE6BBB10AE6BC830A
  E6BCA50AE6BBB80AE6BCB70AE6BBBB0AE6BCAE0AE6BC890AE6BD8E0AE6BC990AE6BC9A0AE6BCA70AE6BC980AE6BCBB0A
  E6BC920AE6BBAD0AE6BC8A0AE6BCB60AE6BDB30AE6BBB90AE6BBAE0AE6BCAD0AE6BD800AE6BCB00AE6BCBC0AE6BCB50A
  E6BBAB0AE6BC870AE6BC8E0AE6BD830AE6BC850AE6BBBD0AE6BBB60AE6BCB90AE6BC9C0AE6BBBC0AE6BCBA0AE6BC9F0A
  E6BC8D0AE6BC9E0AE6BC880AE6BCA10AE786870AE786900AE786890AE786800AE786850AE786820AE7868F0AE785BB0A
  E786860AE786810AE786970AE789840AE789930AE78A970AE78A950AE78A930AE78D830AE78D8D0AE78D910AE78D8C0A
  E791A20AE791B30AE791B10AE791B50AE791B20AE791A70AE791AE0AE794800AE794820AE794830AE795BD0AE796900A
  E798960AE798880AE7988C0AE798950AE798910AE7988A0AE798940AE79AB80AE79E810AE79DBC0AE79E850AE79E820A
  E79DAE0AE79E800AE79DAF0AE79DBE0AE79E830AE7A2B20AE7A2AA0AE7A2B40AE7A2AD0AE7A2A80AE7A1BE0AE7A2AB0A
  E7A29E0AE7A2A50AE7A2A00AE7A2AC0AE7A2A20AE7A2A40AE7A6980AE7A68A0AE7A68B0AE7A6960AE7A6950AE7A6940A
  E7A6930A"

/-- tests/test_data/whatwg/big5_whatwg_test_encode_out.txt, part 98 -/
noncomputable def encodeOut97 : List Nat := hex! "E2400AE2410AE2420AE2430AE2440AE2450AE2460AE2470AE2480AE2490AE24A0AE24B0AE24C0AE24D0AE24E0AE24F0A
  E2500AE2510AE2520AE2530AE2540AE2550AE2560AE2570AE2580AE2590AE25A0AE25B0AE25C0AE25D0AE25E0AE25F0A
  E2600AE2610AE2620AE2630AE2640AE2650AE2660AE2670AE2680AE2690AE26A0AE26B0AE26C0AE26D0AE26E0AE26F0A
  E2700AE2710AE2720AE2730AE2740AE2750AE2760AE2770AE2780AE2790AE27A0AE27B0AE27C0AE27D0AE27E0AE2A10A
  E2A20AE2A30AE2A40AE2A50AE2A60AE2A70AE2A80AE2A90AE2AA0AE2AB0AE2AC0AE2AD0AE2AE0AE2AF0AE2B00AE2B10A
  E2B20AE2B30AE2B40AE2B50AE2B60AE2B70AE2B80AE2B90AE2BA0AE2BB0AE2BC0AE2BD0AE2BE0AE2BF0AE2C00AE2C10A
  E2C20AE2C30AE2C40AE2C50AE2C60AE2C70AE2C80AE2C90AE2CA0AE2CB0AE2CC0AE2CD0AE2CE0AE2CF0AE2D00AE2D10A
  E2D20AE2D30AE2D40AE2D50AE2D60AE2D70AE2D80AE2D90AE2DA0AE2DB0AE2DC0AE2DD0AE2DE0AE2DF0AE2E00AE2E10A
  E2E20AE2E30AE2E40AE2E50AE2E60AE2E70AE2E80AE2E90AE2EA0AE2EB0AE2EC0AE2ED0AE2EE0AE2EF0AE2F00AE2F10A
  E2F20AE2F30AE2F40AE2F50AE2F60AE2F70AE2F80AE2F90AE2FA0AE2FB0AE2FC0AE2FD0AE2FE0A"

/-- tests/test_data/whatwg/big5_whatwg_test_decode_in.txt, part 99 -/
noncomputable def decodeIn98 : List Nat := hex! "E3400AE3410AE3420AE3430AE3440AE3450AE3460AE3470AE3480AE3490AE34A0AE34B0AE34C0AE34D0AE34E0AE34F0A
  E3500AE3510AE3520AE3530AE3540AE3550AE3560AE3570AE3580AE3590AE35A0AE35B0AE35C0AE35D0AE35E0AE35F0A
  E3600AE3610AE3620AE3630AE3640AE3650AE3660AE3670AE3680AE3690AE36A0AE36B0AE36C0AE36D0AE36E0AE36F0A
  E3700AE3710AE3720AE3730AE3740AE3750AE3760AE3770AE3780AE3790AE37A0AE37B0AE37C0AE37D0AE37E0AE3A10A
  E3A20AE3A30AE3A40AE3A50AE3A60AE3A70AE3A80AE3A90AE3AA0AE3AB0AE3AC0AE3AD0AE3AE0AE3AF0AE3B00AE3B10A
  E3B20AE3B30AE3B40AE3B50AE3B60AE3B70AE3B80AE3B90AE3BA0AE3BB0AE3BC0AE3BD0AE3BE0AE3BF0AE3C00AE3C10A
  E3C20AE3C30AE3C40AE3C50AE3C60AE3C70AE3C80AE3C90AE3CA0AE3CB0AE3CC0AE3CD0AE3CE0AE3CF0AE3D00AE3D10A
  E3D20AE3D30AE3D40AE3D50AE3D60AE3D70AE3D80AE3D90AE3DA0AE3DB0AE3DC0AE3DD0AE3DE0AE3DF0AE3E00AE3E10A
  E3E20AE3E30AE3E40AE3E50AE3E60AE3E70AE3E80AE3E90AE3EA0AE3EB0AE3EC0AE3ED0AE3EE0AE3EF0AE3F00AE3F10A
  E3F20AE3F30AE3F40AE3F50AE3F60AE3F70AE3F80AE3F90AE3FA0AE3FB0AE3FC0AE3FD0AE3FE0A"

/-- tests/test_data/whatwg/big5_whatwg_test_decode_out.txt, part 99 -/
noncomputable def decodeOut98 : List Nat := hex! "E7A6970AE7A6880AE7A6920AE7A6900AE7A8AB0AE7A98A0AE7A8B00AE7A8AF0AE7A8A80AE7A8A60AE7AAA80AE7AAAB0A
  E7AAAC0AE7ABAE0AE7AE880AE7AE9C0AE7AE8A0AE7AE910AE7AE900AE7AE960AE7AE8D0AE7AE8C0AE7AE9B0AE7AE8E0A
  E7AE850AE7AE980AE58A840AE7AE990AE7AEA40AE7AE820AE7B2BB0AE7B2BF0AE7B2BC0AE7B2BA0AE7B6A70AE7B6B70A
  E7B7820AE7B6A30AE7B6AA0AE7B7810AE7B7800AE7B7850AE7B69D0AE7B78E0AE7B7840AE7B7860AE7B78B0AE7B78C0A
  E7B6AF0AE7B6B90AE7B6960AE7B6BC0AE7B69F0AE7B6A60AE7B6AE0AE7B6A90AE7B6A10AE7B7890AE7BDB30AE7BFA20A
  E7BFA30AE7BFA50AE7BF9E0AE880A40AE8819D0AE8819C0AE886890AE886860AE886830AE886870AE8868D0AE8868C0A
  E8868B0AE888950AE892970AE892A40AE892A10AE8929F0AE892BA0AE8938E0AE893820AE892AC0AE892AE0AE892AB0A
  E892B90AE892B40AE893810AE8938D0AE892AA0AE8929A0AE892B10AE893900AE8929D0AE892A70AE892BB0AE892A20A
  E892940AE893870AE8938C0AE8929B0AE892A90AE892AF0AE892A80AE893960AE892980AE892B60AE8938F0AE892A00A
  E893970AE893940AE893920AE8939B0AE892B00AE892910AE899A10AE89CB30AE89CA30AE89CA80AE89DAB0AE89D800A
  E89CAE0AE89C9E0AE89CA10AE89C990AE89C9B0AE89D830AE89CAC0AE89D810AE89CBE0AE89D860AE89CA00AE89CB20A
  E89CAA0AE89CAD0AE89CBC0AE89C920AE89CBA0AE89CB10AE89CB50AE89D820AE89CA60AE89CA70AE89CB80AE89CA40A
  E89C9A0AE89CB00AE89C910AE8A3B70AE8A3A70AE8A3B10AE8A3B20AE8A3BA0AE8A3BE0AE8A3AE0AE8A3BC0AE8A3B60A
  E8A3BB0A"

/-- tests/test_data/whatwg/big5_whatwg_test_encode_in.txt, part 99 -/
noncomputable def encodeIn98 : List Nat := hex! "E7A6970AE7A6880AE7A6920AE7A6900AE7A8AB0AE7A98A0AE7A8B00AE7A8AF0AE7A8A80AE7A8A60AE7AAA80AE7AAAB0A
  E7AAAC0AE7ABAE0AE7AE880AE7AE9C0AE7AE8A0AE7AE910AE7AE900AE7AE960AE7AE8D0AE7AE8C0AE7AE9B0AE7AE8E0A
  E7AE850AE7AE980AE58A840AE7AE990AE7AEA40AE7AE820AE7B2BB0AE7B2BF0AE7B2BC0AE7B2BA0AE7B6A70AE7B6B70A
  E7B7820AE7B6A30AE7B6AA0AE7B7810AE7B7800AE7B7850AE7B69D0AE7B78E0AE7B7840AE7B7860AE7B78B0AE7B78C0A
  E7B6AF0AE7B6B90AE7B6960AE7B6BC0AE7B69F0AE7B6A60AE7B6AE0AE7B6A90AE7B6A10AE7B7890AE7BDB30AE7BFA20A
  E7BFA30AE7BFA50AE7BF9E0AE880A40AE8819D0AE8819C0AE886890AE886860AE886830AE886870AE8868D0AE8868C0A
  E8868B0AE888950AE892970AE892A40AE892A10AE8929F0AE892BA0AE8938E0AE893820AE892AC0AE892AE0AE892AB0A
  E892B90AE892B40AE893810AE8938D0AE892AA0AE8929A0AE892B10AE893900AE8929D0AE892A70AE892BB0AE892A20A
  E892940AE893870AE8938C0AE8929B0AE892A90AE892AF0AE893960AE892980AE892B60AE8938F0AE892A00AE893970A
  E893940AE893920AE8939B0AE892B00AE892910AE899A10AE89CB30AE89CA30AE89CA80AE89DAB0AE89D800AE89CAE0A
  E89C9E0AE89CA10AE89C990AE89C9B0AE89D830AE89CAC0AE89D810AE89CBE0AE89D860AE89CA00AE89CB20AE89CAA0A
  E89CAD0AE89CBC0AE89C920AE89CBA0AE89CB10AE89CB50AE89D820AE89CA60AE89CA70AE89CB80AE89CA40AE89C9A0A
  E89CB00AE89C910AE8A3B70AE8A3A70AE8A3B10AE8A3B20AE8A3BA0AE8A3BE0AE8A3AE0AE8A3BC0AE8A3B60AE8A3BB0A"

/-- tests/test_data/whatwg/big5_whatwg_test_encode_out.txt, part 99 -/
noncomputable def encodeOut98 : List Nat := hex! "E3400AE3410AE3420AE3430AE3440AE3450AE3460AE3470AE3480AE3490AE34A0AE34B0AE34C0AE34D0AE34E0AE34F0A
  E3500AE3510AE3520AE3530AE3540AE3550AE3560AE3570AE3580AE3590AE35A0AE35B0AE35C0AE35D0AE35E0AE35F0A
  E3600AE3610AE3620AE3630AE3640AE3650AE3660AE3670AE3680AE3690AE36A0AE36B0AE36C0AE36D0AE36E0AE36F0A
  E3700AE3710AE3720AE3730AE3740AE3750AE3760AE3770AE3780AE3790AE37A0AE37B0AE37C0AE37D0AE37E0AE3A10A
  E3A20AE3A30AE3A40AE3A50AE3A60AE3A70AE3A80AE3A90AE3AA0AE3AB0AE3AC0AE3AD0AE3AE0AE3AF0AE3B00AE3B10A
  E3B20AE3B30AE3B40AE3B50AE3B60AE3B70AE3B80AE3B90AE3BA0AE3BB0AE3BC0AE3BD0AE3BE0AE3BF0AE3C00AE3C10A
  E3C20AE3C30AE3C40AE3C50AE3C60AE3C70AE3C90AE3CA0AE3CB0AE3CC0AE3CD0AE3CE0AE3CF0AE3D00AE3D10AE3D20A
  E3D30AE3D40AE3D50AE3D60AE3D70AE3D80AE3D90AE3DA0AE3DB0AE3DC0AE3DD0AE3DE0AE3DF0AE3E00AE3E10AE3E20A
  E3E30AE3E40AE3E50AE3E60AE3E70AE3E80AE3E90AE3EA0AE3EB0AE3EC0AE3ED0AE3EE0AE3EF0AE3F00AE3F10AE3F20A
  E3F30AE3F40AE3F50AE3F60AE3F70AE3F80AE3F90AE3FA0AE3FB0AE3FC0AE3FD0AE3FE0A"

/-- tests/test_data/whatwg/big5_whatwg_test_decode_in.txt, part 100 -/
noncomputable def decodeIn99 : List Nat := hex! "E4400AE4410AE4420AE4430AE4440AE4450AE4460AE4470AE4480AE4490AE44A0AE44B0AE44C0AE44D0AE44E0AE44F0A
  E4500AE4510AE4520AE4530AE4540AE4550AE4560AE4570AE4580AE4590AE45A0AE45B0AE45C0AE45D0AE45E0AE45F0A
  E4600AE4610AE4620AE4630AE4640AE4650AE4660AE4670AE4680AE4690AE46A0AE46B0AE46C0AE46D0AE46E0AE46F0A
  E4700AE4710AE4720AE4730AE4740AE4750AE4760AE4770AE4780AE4790AE47A0AE47B0AE47C0AE47D0AE47E0AE4A10A
  E4A20AE4A30AE4A40AE4A50AE4A60AE4A70AE4A80AE4A90AE4AA0AE4AB0AE4AC0AE4AD0AE4AE0AE4AF0AE4B00AE4B10A
  E4B20AE4B30AE4B40AE4B50AE4B60AE4B70AE4B80AE4B90AE4BA0AE4BB0AE4BC0AE4BD0AE4BE0AE4BF0AE4C00AE4C10A
  E4C20AE4C30AE4C40AE4C50AE4C60AE4C70AE4C80AE4C90AE4CA0AE4CB0AE4CC0AE4CD0AE4CE0AE4CF0AE4D00AE4D10A
  E4D20AE4D30AE4D40AE4D50AE4D60AE4D70AE4D80AE4D90AE4DA0AE4DB0AE4DC0AE4DD0AE4DE0AE4DF0AE4E00AE4E10A
  E4E20AE4E30AE4E40AE4E50AE4E60AE4E70AE4E80AE4E90AE4EA0AE4EB0AE4EC0AE4ED0AE4EE0AE4EF0AE4F00AE4F10A
  E4F20AE4F30AE4F40AE4F50AE4F60AE4F70AE4F80AE4F90AE4FA0AE4FB0AE4FC0AE4FD0AE4FE0A"

/-- tests/test_data/whatwg/big5_whatwg_test_decode_out.txt, part 100 -/
noncomputable def decodeOut99 : List Nat := hex! "E8A3B00AE8A3AC0AE8A3AB0AE8A69D0AE8A6A10AE8A69F0AE8A69E0AE8A7A90AE8A7AB0AE8A7A80AE8AAAB0AE8AA990A
  E8AA8B0AE8AA920AE8AA8F0AE8AA960AE8B0BD0AE8B1A80AE8B1A90AE8B3950AE8B38F0AE8B3970AE8B6960AE8B8890A
  E8B8820AE8B7BF0AE8B88D0AE8B7BD0AE8B88A0AE8B8830AE8B8870AE8B8860AE8B8850AE8B7BE0AE8B8800AE8B8840A
  E8BC900AE8BC910AE8BC8E0AE8BC8D0AE984A30AE9849C0AE984A00AE984A20AE9849F0AE9849D0AE9849A0AE984A40A
  E984A10AE9849B0AE985BA0AE985B20AE985B90AE985B30AE98AA50AE98AA40AE989B60AE98A9B0AE989BA0AE98AA00A
  E98A940AE98AAA0AE98A8D0AE98AA60AE98A9A0AE98AAB0AE989B90AE98A970AE989BF0AE98AA30AE98BAE0AE98A8E0A
  E98A820AE98A950AE98AA20AE989BD0AE98A880AE98AA10AE98A8A0AE98A860AE98A8C0AE98A990AE98AA70AE989BE0A
  E98A870AE98AA90AE98A9D0AE98A8B0AE988AD0AE99A9E0AE99AA10AE99BBF0AE99D980AE99DBD0AE99DBA0AE99DBE0A
  E99E830AE99E800AE99E820AE99DBB0AE99E840AE99E810AE99DBF0AE99F8E0AE99F8D0AE9A0960AE9A2AD0AE9A2AE0A
  E9A4820AE9A4800AE9A4870AE9A69D0AE9A69C0AE9A7830AE9A6B90AE9A6BB0AE9A6BA0AE9A7820AE9A6BD0AE9A7870A
  E9AAB10AE9ABA30AE9ABA70AE9ACBE0AE9ACBF0AE9ADA00AE9ADA10AE9AD9F0AE9B3B10AE9B3B20AE9B3B50AE9BAA70A
  E583BF0AE584830AE584B00AE583B80AE584860AE584870AE583B60AE583BE0AE5848B0AE5848C0AE583BD0AE5848A0A
  E58A8B0AE58A8C0AE58BB10AE58BAF0AE599880AE599820AE5998C0AE598B50AE599810AE5998A0AE599890AE599860A
  E599980A"

/-- tests/test_data/whatwg/big5_whatwg_test_encode_in.txt, part 100 -/
noncomputable def encodeIn99 : List Nat := hex! "E8A3B00AE8A3AC0AE8A3AB0AE8A69D0AE8A6A10AE8A69F0AE8A69E0AE8A7A90AE8A7AB0AE8A7A80AE8AAAB0AE8AA990A
  E8AA8B0AE8AA920AE8AA8F0AE8AA960AE8B0BD0AE8B1A80AE8B1A90AE8B3950AE8B38F0AE8B3970AE8B6960AE8B8890A
  E8B8820AE8B7BF0AE8B88D0AE8B7BD0AE8B88A0AE8B8830AE8B8870AE8B8860AE8B8850AE8B7BE0AE8B8800AE8B8840A
  E8BC900AE8BC910AE8BC8E0AE8BC8D0AE984A30AE9849C0AE984A00AE984A20AE9849F0AE9849D0AE9849A0AE984A40A
  E984A10AE9849B0AE985BA0AE985B20AE985B90AE985B30AE98AA50AE98AA40AE989B60AE98A9B0AE989BA0AE98AA00A
  E98A940AE98AAA0AE98A8D0AE98AA60AE98A9A0AE98AAB0AE989B90AE98A970AE989BF0AE98AA30AE98BAE0AE98A8E0A
  E98A820AE98A950AE98AA20AE989BD0AE98A880AE98AA10AE98A8A0AE98A860AE98A8C0AE98A990AE98AA70AE989BE0A
  E98A870AE98AA90AE98A9D0AE98A8B0AE988AD0AE99A9E0AE99AA10AE99BBF0AE99D980AE99DBD0AE99DBA0AE99DBE0A
  E99E830AE99E800AE99E820AE99DBB0AE99E840AE99E810AE99DBF0AE99F8E0AE99F8D0AE9A0960AE9A2AD0AE9A2AE0A
  E9A4820AE9A4800AE9A4870AE9A69D0AE9A69C0AE9A7830AE9A6B90AE9A6BB0AE9A6BA0AE9A7820AE9A6BD0AE9A7870A
  E9AAB10AE9ABA30AE9ABA70AE9ACBE0AE9ACBF0AE9ADA00AE9ADA10AE9AD9F0AE9B3B10AE9B3B20AE9B3B50AE9BAA70A
  E583BF0AE584830AE584B00AE583B80AE584860AE584870AE583B60AE583BE0AE5848B0AE5848C0AE583BD0AE5848A0A
  E58A8B0AE58A8C0AE58BB10AE58BAF0AE599880AE599820AE5998C0AE598B50AE599810AE5998A0AE599890AE599860A
  E599980A"

/-- tests/test_data/whatwg/big5_whatwg_test_encode_out.txt, part 100 -/
noncomputable def encodeOut99 : List Nat := hex! "E4400AE4410AE4420AE4430AE4440AE4450AE4460AE4470AE4480AE4490AE44A0AE44B0AE44C0AE44D0AE44E0AE44F0A
  E4500AE4510AE4520AE4530AE4540AE4550AE4560AE4570AE4580AE4590AE45A0AE45B0AE45C0AE45D0AE45E0AE45F0A
  E4600AE4610AE4620AE4630AE4640AE4650AE4660AE4670AE4680AE4690AE46A0AE46B0AE46C0AE46D0AE46E0AE46F0A
  E4700AE4710AE4720AE4730AE4740AE4750AE4760AE4770AE4780AE4790AE47A0AE47B0AE47C0AE47D0AE47E0AE4A10A
  E4A20AE4A30AE4A40AE4A50AE4A60AE4A70AE4A80AE4A90AE4AA0AE4AB0AE4AC0AE4AD0AE4AE0AE4AF0AE4B00AE4B10A
  E4B20AE4B30AE4B40AE4B50AE4B60AE4B70AE4B80AE4B90AE4BA0AE4BB0AE4BC0AE4BD0AE4BE0AE4BF0AE4C00AE4C10A
  E4C20AE4C30AE4C40AE4C50AE4C60AE4C70AE4C80AE4C90AE4CA0AE4CB0AE4CC0AE4CD0AE4CE0AE4CF0AE4D00AE4D10A
  E4D20AE4D30AE4D40AE4D50AE4D60AE4D70AE4D80AE4D90AE4DA0AE4DB0AE4DC0AE4DD0AE4DE0AE4DF0AE4E00AE4E10A
  E4E20AE4E30AE4E40AE4E50AE4E60AE4E70AE4E80AE4E90AE4EA0AE4EB0AE4EC0AE4ED0AE4EE0AE4EF0AE4F00AE4F10A
  E4F20AE4F30AE4F40AE4F50AE4F60AE4F70AE4F80AE4F90AE4FA0AE4FB0AE4FC0AE4FD0AE4FE0A"

/-- tests/test_data/whatwg/big5_whatwg_test_decode_in.txt, part 101 -/
noncomputable def decodeIn100 : List Nat := hex! "E5400AE5410AE5420AE5430AE5440AE5450AE5460AE5470AE5480AE5490AE54A0AE54B0AE54C0AE54D0AE54E0AE54F0A
  E5500AE5510AE5520AE5530AE5540AE5550AE5560AE5570AE5580AE5590AE55A0AE55B0AE55C0AE55D0AE55E0AE55F0A
  E5600AE5610AE5620AE5630AE5640AE5650AE5660AE5670AE5680AE5690AE56A0AE56B0AE56C0AE56D0AE56E0AE56F0A
  E5700AE5710AE5720AE5730AE5740AE5750AE5760AE5770AE5780AE5790AE57A0AE57B0AE57C0AE57D0AE57E0AE5A10A
  E5A20AE5A30AE5A40AE5A50AE5A60AE5A70AE5A80AE5A90AE5AA0AE5AB0AE5AC0AE5AD0AE5AE0AE5AF0AE5B00AE5B10A
  E5B20AE5B30AE5B40AE5B50AE5B60AE5B70AE5B80AE5B90AE5BA0AE5BB0AE5BC0AE5BD0AE5BE0AE5BF0AE5C00AE5C10A
  E5C20AE5C30AE5C40AE5C50AE5C60AE5C70AE5C80AE5C90AE5CA0AE5CB0AE5CC0AE5CD0AE5CE0AE5CF0AE5D00AE5D10A
  E5D20AE5D30AE5D40AE5D50AE5D60AE5D70AE5D80AE5D90AE5DA0AE5DB0AE5DC0AE5DD0AE5DE0AE5DF0AE5E00AE5E10A
  E5E20AE5E30AE5E40AE5E50AE5E60AE5E70AE5E80AE5E90AE5EA0AE5EB0AE5EC0AE5ED0AE5EE0AE5EF0AE5F00AE5F10A
  E5F20AE5F30AE5F40AE5F50AE5F60AE5F70AE5F80AE5F90AE5FA0AE5FB0AE5FC0AE5FD0AE5FE0A"

/-- tests/test_data/whatwg/big5_whatwg_test_decode_out.txt, part 101 -/
noncomputable def decodeOut100 : List Nat := hex! "E5999A0AE599800AE598B30AE598BD0AE598AC0AE598BE0AE598B80AE598AA0AE598BA0AE59C9A0AE5A2AB0AE5A29D0A
  E5A2B10AE5A2A00AE5A2A30AE5A2AF0AE5A2AC0AE5A2A50AE5A2A10AE5A3BF0AE5ABBF0AE5ABB40AE5ABBD0AE5ABB70A
  E5ABB60AE5AC830AE5ABB80AE5AC820AE5ABB90AE5AC810AE5AC870AE5AC850AE5AC8F0AE5B1A70AE5B6990AE5B6970A
  E5B69F0AE5B6920AE5B6A20AE5B6930AE5B6950AE5B6A00AE5B69C0AE5B6A10AE5B69A0AE5B69E0AE5B9A90AE5B99D0A
  E5B9A00AE5B99C0AE7B7B30AE5BB9B0AE5BB9E0AE5BBA10AE5BD890AE5BEB20AE6868B0AE686830AE685B90AE686B10A
  E686B00AE686A20AE686890AE6869B0AE686930AE686AF0AE686AD0AE6869F0AE686920AE686AA0AE686A10AE6868D0A
  E685A60AE686B30AE688AD0AE691AE0AE691B00AE692960AE692A00AE692850AE692970AE6929C0AE6928F0AE6928B0A
  E6928A0AE6928C0AE692A30AE6929F0AE691A80AE692B10AE692980AE695B60AE695BA0AE695B90AE695BB0AE696B20A
  E696B30AE69AB50AE69AB00AE69AA90AE69AB20AE69AB70AE69AAA0AE69AAF0AE6A8800AE6A8860AE6A8970AE6A7A50A
  E6A7B80AE6A8950AE6A7B10AE6A7A40AE6A8A00AE6A7BF0AE6A7AC0AE6A7A20AE6A89B0AE6A89D0AE6A7BE0AE6A8A70A
  E6A7B20AE6A7AE0AE6A8940AE6A7B70AE6A7A70AE6A9800AE6A8880AE6A7A60AE6A7BB0AE6A88D0AE6A7BC0AE6A7AB0A
  E6A8890AE6A8840AE6A8980AE6A8A50AE6A88F0AE6A7B60AE6A8A60AE6A8870AE6A7B40AE6A8960AE6AD910AE6AEA50A
  E6AEA30AE6AEA20AE6AEA60AE6B0810AE6B0800AE6AFBF0AE6B0820AE6BD810AE6BCA60AE6BDBE0AE6BE870AE6BF860A
  E6BE920A"

/-- tests/test_data/whatwg/big5_whatwg_test_encode_in.txt, part 101 -/
noncomputable def encodeIn100 : List Nat := hex! "E5999A0AE599800AE598B30AE598BD0AE598AC0AE598BE0AE598B80AE598AA0AE598BA0AE59C9A0AE5A2AB0AE5A29D0A
  E5A2B10AE5A2A00AE5A2A30AE5A2AF0AE5A2AC0AE5A2A50AE5A2A10AE5A3BF0AE5ABBF0AE5ABB40AE5ABBD0AE5ABB70A
  E5ABB60AE5AC830AE5ABB80AE5AC820AE5ABB90AE5AC810AE5AC870AE5AC850AE5AC8F0AE5B1A70AE5B6990AE5B6970A
  E5B69F0AE5B6920AE5B6A20AE5B6930AE5B6950AE5B6A00AE5B69C0AE5B6A10AE5B69A0AE5B69E0AE5B9A90AE5B99D0A
  E5B9A00AE5B99C0AE7B7B30AE5BB9B0AE5BB9E0AE5BBA10AE5BD890AE5BEB20AE6868B0AE686830AE685B90AE686B10A
  E686B00AE686A20AE686890AE6869B0AE686930AE686AF0AE686AD0AE6869F0AE686920AE686AA0AE686A10AE6868D0A
  E685A60AE686B30AE688AD0AE691AE0AE691B00AE692960AE692A00AE692850AE692970AE6929C0AE6928F0AE6928B0A
  E6928A0AE6928C0AE692A30AE6929F0AE691A80AE692B10AE692980AE695B60AE695BA0AE695B90AE695BB0AE696B20A
  E696B30AE69AB50AE69AB00AE69AA90AE69AB20AE69AB70AE69AAA0AE69AAF0AE6A8800AE6A8860AE6A8970AE6A7A50A
  E6A7B80AE6A8950AE6A7B10AE6A7A40AE6A8A00AE6A7BF0AE6A7AC0AE6A7A20AE6A89B0AE6A89D0AE6A7BE0AE6A8A70A
  E6A7B20AE6A7AE0AE6A8940AE6A7B70AE6A7A70AE6A9800AE6A8880AE6A7A60AE6A7BB0AE6A88D0AE6A7BC0AE6A7AB0A
  E6A8890AE6A8840AE6A8980AE6A8A50AE6A88F0AE6A7B60AE6A8A60AE6A8870AE6A7B40AE6A8960AE6AD910AE6AEA50A
  E6AEA30AE6AEA20AE6AEA60AE6B0810AE6B0800AE6AFBF0AE6B0820AE6BD810AE6BCA60AE6BDBE0AE6BE870AE6BF860A
  E6BE920A"

/-- tests/test_data/whatwg/big5_whatwg_test_encode_out.txt, part 101 -/
noncomputable def encodeOut100 : List Nat := hex! "E5400AE5410AE5420AE5430AE5440AE5450AE5460AE5470AE5480AE5490AE54A0AE54B0AE54C0AE54D0AE54E0AE54F0A
  E5500AE5510AE5520AE5530AE5540AE5550AE5560AE5570AE5580AE5590AE55A0AE55B0AE55C0AE55D0AE55E0AE55F0A
  E5600AE5610AE5620AE5630AE5640AE5650AE5660AE5670AE5680AE5690AE56A0AE56B0AE56C0AE56D0AE56E0AE56F0A
  E5700AE5710AE5720AE5730AE5740AE5750AE5760AE5770AE5780AE5790AE57A0AE57B0AE57C0AE57D0AE57E0AE5A10A
  E5A20AE5A30AE5A40AE5A50AE5A60AE5A70AE5A80AE5A90AE5AA0AE5AB0AE5AC0AE5AD0AE5AE0AE5AF0AE5B00AE5B10A
  E5B20AE5B30AE5B40AE5B50AE5B60AE5B70AE5B80AE5B90AE5BA0AE5BB0AE5BC0AE5BD0AE5BE0AE5BF0AE5C00AE5C10A
  E5C20AE5C30AE5C40AE5C50AE5C60AE5C70AE5C80AE5C90AE5CA0AE5CB0AE5CC0AE5CD0AE5CE0AE5CF0AE5D00AE5D10A
  E5D20AE5D30AE5D40AE5D50AE5D60AE5D70AE5D80AE5D90AE5DA0AE5DB0AE5DC0AE5DD0AE5DE0AE5DF0AE5E00AE5E10A
  E5E20AE5E30AE5E40AE5E50AE5E60AE5E70AE5E80AE5E90AE5EA0AE5EB0AE5EC0AE5ED0AE5EE0AE5EF0AE5F00AE5F10A
  E5F20AE5F30AE5F40AE5F50AE5F60AE5F70AE5F80AE5F90AE5FA0AE5FB0AE5FC0AE5FD0AE5FE0A"

/-- tests/test_data/whatwg/big5_whatwg_test_decode_in.txt, part 102 -/
noncomputable def decodeIn101 : List Nat := hex! "E6400AE6410AE6420AE6430AE6440AE6450AE6460AE6470AE6480AE6490AE64A0AE64B0AE64C0AE64D0AE64E0AE64F0A
  E6500AE6510AE6520AE6530AE6540AE6550AE6560AE6570AE6580AE6590AE65A0AE65B0AE65C0AE65D0AE65E0AE65F0A
  E6600AE6610AE6620AE6630AE6640AE6650AE6660AE6670AE6680AE6690AE66A0AE66B0AE66C0AE66D0AE66E0AE66F0A
  E6700AE6710AE6720AE6730AE6740AE6750AE6760AE6770AE6780AE6790AE67A0AE67B0AE67C0AE67D0AE67E0AE6A10A
  E6A20AE6A30AE6A40AE6A50AE6A60AE6A70AE6A80AE6A90AE6AA0AE6AB0AE6AC0AE6AD0AE6AE0AE6AF0AE6B00AE6B10A
  E6B20AE6B30AE6B40AE6B50AE6B60AE6B70AE6B80AE6B90AE6BA0AE6BB0AE6BC0AE6BD0AE6BE0AE6BF0AE6C00AE6C10A
  E6C20AE6C30AE6C40AE6C50AE6C60AE6C70AE6C80AE6C90AE6CA0AE6CB0AE6CC0AE6CD0AE6CE0AE6CF0AE6D00AE6D10A
  E6D20AE6D30AE6D40AE6D50AE6D60AE6D70AE6D80AE6D90AE6DA0AE6DB0AE6DC0AE6DD0AE6DE0AE6DF0AE6E00AE6E10A
  E6E20AE6E30AE6E40AE6E50AE6E60AE6E70AE6E80AE6E90AE6EA0AE6EB0AE6EC0AE6ED0AE6EE0AE6EF0AE6F00AE6F10A
  E6F20AE6F30AE6F40AE6F50AE6F60AE6F70AE6F80AE6F90AE6FA0AE6FB0AE6FC0AE6FD0AE6FE0A"

/-- tests/test_data/whatwg/big5_whatwg_test_decode_out.txt, part 102 -/
noncomputable def decodeOut101 : List Nat := hex! "E6BE8D0AE6BE890AE6BE8C0AE6BDA20AE6BD8F0AE6BE850AE6BD9A0AE6BE960AE6BDB60AE6BDAC0AE6BE820AE6BD950A
  E6BDB20AE6BD920AE6BD900AE6BD970AE6BE940AE6BE930AE6BD9D0AE6BC800AE6BDA10AE6BDAB0AE6BDBD0AE6BDA70A
  E6BE900AE6BD930AE6BE8B0AE6BDA90AE6BDBF0AE6BE950AE6BDA30AE6BDB70AE6BDAA0AE6BDBB0AE786B20AE786AF0A
  E7869B0AE786B00AE786A00AE7869A0AE786A90AE786B50AE7869D0AE786A50AE7869E0AE786A40AE786A10AE786AA0A
  E7869C0AE786A70AE786B30AE78A980AE78A9A0AE78D980AE78D920AE78D9E0AE78D9F0AE78DA00AE78D9D0AE78D9B0A
  E78DA10AE78D9A0AE78D990AE78DA20AE792870AE792890AE7928A0AE792860AE792810AE791BD0AE792850AE792880A
  E791BC0AE791B90AE794880AE794870AE795BE0AE798A50AE7989E0AE798990AE7989D0AE7989C0AE798A30AE7989A0A
  E798A80AE7989B0AE79A9C0AE79A9D0AE79A9E0AE79A9B0AE79E8D0AE79E8F0AE79E890AE79E880AE7A38D0AE7A2BB0A
  E7A38F0AE7A38C0AE7A3910AE7A38E0AE7A3940AE7A3880AE7A3830AE7A3840AE7A3890AE7A69A0AE7A6A10AE7A6A00A
  E7A69C0AE7A6A20AE7A69B0AE6ADB60AE7A8B90AE7AAB20AE7AAB40AE7AAB30AE7AEB70AE7AF8B0AE7AEBE0AE7AEAC0A
  E7AF8E0AE7AEAF0AE7AEB90AE7AF8A0AE7AEB50AE7B3850AE7B3880AE7B38C0AE7B38B0AE7B7B70AE7B79B0AE7B7AA0A
  E7B7A70AE7B7970AE7B7A10AE7B8830AE7B7BA0AE7B7A60AE7B7B60AE7B7B10AE7B7B00AE7B7AE0AE7B79F0AE7BDB60A
  E7BEAC0AE7BEB00AE7BEAD0AE7BFAD0AE7BFAB0AE7BFAA0AE7BFAC0AE7BFA60AE7BFA80AE881A40AE881A70AE886A30A
  E8869F0A"

/-- tests/test_data/whatwg/big5_whatwg_test_encode_in.txt, part 102 -/
noncomputable def encodeIn101 : List Nat := hex! "E6BE8D0AE6BE890AE6BE8C0AE6BDA20AE6BD8F0AE6BE850AE6BD9A0AE6BE960AE6BDB60AE6BDAC0AE6BE820AE6BD950A
  E6BDB20AE6BD920AE6BD900AE6BD970AE6BE940AE6BE930AE6BD9D0AE6BC800AE6BDA10AE6BDAB0AE6BDBD0AE6BDA70A
  E6BE900AE6BD930AE6BE8B0AE6BDA90AE6BDBF0AE6BE950AE6BDA30AE6BDB70AE6BDAA0AE6BDBB0AE786B20AE786AF0A
  E7869B0AE786B00AE786A00AE7869A0AE786A90AE786B50AE7869D0AE786A50AE7869E0AE786A40AE786A10AE786AA0A
  E7869C0AE786A70AE786B30AE78A980AE78A9A0AE78D980AE78D920AE78D9E0AE78D9F0AE78DA00AE78D9D0AE78D9B0A
  E78DA10AE78D9A0AE78D990AE78DA20AE792870AE792890AE7928A0AE792860AE792810AE791BD0AE792850AE792880A
  E791BC0AE794880AE794870AE795BE0AE798A50AE7989E0AE798990AE7989D0AE7989C0AE798A30AE7989A0AE798A80A
  E7989B0AE79A9C0AE79A9D0AE79A9E0AE79A9B0AE79E8D0AE79E8F0AE79E890AE79E880AE7A38D0AE7A2BB0AE7A38F0A
  E7A38C0AE7A3910AE7A38E0AE7A3940AE7A3880AE7A3830AE7A3840AE7A3890AE7A69A0AE7A6A10AE7A6A00AE7A69C0A
  E7A6A20AE6ADB60AE7A8B90AE7AAB20AE7AAB40AE7AAB30AE7AEB70AE7AF8B0AE7AEBE0AE7AEAC0AE7AF8E0AE7AEAF0A
  E7AEB90AE7AF8A0AE7AEB50AE7B3850AE7B3880AE7B38C0AE7B38B0AE7B7B70AE7B79B0AE7B7AA0AE7B7A70AE7B7970A
  E7B7A10AE7B8830AE7B7BA0AE7B7A60AE7B7B60AE7B7B10AE7B7B00AE7B7AE0AE7B79F0AE7BDB60AE7BEAC0AE7BEB00A
  E7BEAD0AE7BFAD0AE7BFAB0AE7BFAA0AE7BFAC0AE7BFA60AE7BFA80AE881A40AE881A70AE886A30AE8869F0A"

/-- tests/test_data/whatwg/big5_whatwg_test_encode_out.txt, part 102 -/
noncomputable def encodeOut101 : List Nat := hex! "E6400AE6410AE6420AE6430AE6440AE6450AE6460AE6470AE6480AE6490AE64A0AE64B0AE64C0AE64D0AE64E0AE64F0A
  E6500AE6510AE6520AE6530AE6540AE6550AE6560AE6570AE6580AE6590AE65A0AE65B0AE65C0AE65D0AE65E0AE65F0A
  E6600AE6610AE6620AE6630AE6640AE6650AE6660AE6670AE6680AE6690AE66A0AE66B0AE66C0AE66D0AE66E0AE66F0A
  E6700AE6710AE6720AE6730AE6740AE6750AE6760AE6770AE6780AE6790AE67A0AE67B0AE67C0AE67D0AE67E0AE6A10A
  E6A20AE6A30AE6A40AE6A50AE6A60AE6A70AE6A80AE6A90AE6AA0AE6AC0AE6AD0AE6AE0AE6AF0AE6B00AE6B10AE6B20A
  E6B30AE6B40AE6B50AE6B60AE6B70AE6B80AE6B90AE6BA0AE6BB0AE6BC0AE6BD0AE6BE0AE6BF0AE6C00AE6C10AE6C20A
  E6C30AE6C40AE6C50AE6C60AE6C70AE6C80AE6C90AE6CA0AE6CB0AE6CC0AE6CD0AE6CE0AE6CF0AE6D10AE6D20AE6D30A
  E6D40AE6D50AE6D60AE6D70AE6D80AE6D90AE6DA0AE6DB0AE6DC0AE6DD0AE6DE0AE6DF0AE6E00AE6E10AE6E20AE6E30A
  E6E40AE6E50AE6E60AE6E70AE6E80AE6E90AE6EA0AE6EB0AE6EC0AE6ED0AE6EE0AE6EF0AE6F00AE6F10AE6F20AE6F30A
  E6F40AE6F50AE6F60AE6F70AE6F80AE6F90AE6FA0AE6FB0AE6FC0AE6FD0AE6FE0A"

/-- tests/test_data/whatwg/big5_whatwg_test_decode_in.txt, part 103 -/
noncomputable def decodeIn102 : List Nat := hex! "E7400AE7410AE7420AE7430AE7440AE7450AE7460AE7470AE7480AE7490AE74A0AE74B0AE74C0AE74D0AE74E0AE74F0A
  E7500AE7510AE7520AE7530AE7540AE7550AE7560AE7570AE7580AE7590AE75A0AE75B0AE75C0AE75D0AE75E0AE75F0A
  E7600AE7610AE7620AE7630AE7640AE7650AE7660AE7670AE7680AE7690AE76A0AE76B0AE76C0AE76D0AE76E0AE76F0A
  E7700AE7710AE7720AE7730AE7740AE7750AE7760AE7770AE7780AE7790AE77A0AE77B0AE77C0AE77D0AE77E0AE7A10A
  E7A20AE7A30AE7A40AE7A50AE7A60AE7A70AE7A80AE7A90AE7AA0AE7AB0AE7AC0AE7AD0AE7AE0AE7AF0AE7B00AE7B10A
  E7B20AE7B30AE7B40AE7B50AE7B60AE7B70AE7B80AE7B90AE7BA0AE7BB0AE7BC0AE7BD0AE7BE0AE7BF0AE7C00AE7C10A
  E7C20AE7C30AE7C40AE7C50AE7C60AE7C70AE7C80AE7C90AE7CA0AE7CB0AE7CC0AE7CD0AE7CE0AE7CF0AE7D00AE7D10A
  E7D20AE7D30AE7D40AE7D50AE7D60AE7D70AE7D80AE7D90AE7DA0AE7DB0AE7DC0AE7DD0AE7DE0AE7DF0AE7E00AE7E10A
  E7E20AE7E30AE7E40AE7E50AE7E60AE7E70AE7E80AE7E90AE7EA0AE7EB0AE7EC0AE7ED0AE7EE0AE7EF0AE7F00AE7F10A
  E7F20AE7F30AE7F40AE7F50AE7F60AE7F70AE7F80AE7F90AE7FA0AE7FB0AE7FC0AE7FD0AE7FE0A"

/-- tests/test_data/whatwg/big5_whatwg_test_decode_out.txt, part 103 -/
noncomputable def decodeOut102 : List Nat := hex! "E8869E0AE886950AE886A20AE886990AE886970AE888960AE8898F0AE889930AE889920AE889900AE8898E0AE889910A
  E894A40AE894BB0AE8948F0AE894800AE894A90AE8948E0AE894890AE8948D0AE8949F0AE8948A0AE894A70AE8949C0A
  E893BB0AE894AB0AE893BA0AE894880AE8948C0AE893B40AE894AA0AE893B20AE894950AE893B70AE893AB0AE893B30A
  E893BC0AE894920AE893AA0AE893A90AE894960AE893BE0AE894A80AE8949D0AE894AE0AE894820AE893BD0AE8949E0A
  E893B60AE894B10AE894A60AE893A70AE893A80AE893B00AE893AF0AE893B90AE894980AE894A00AE894B00AE8948B0A
  E894990AE894AF0AE899A20AE89D960AE89DA30AE89DA40AE89DB70AE89FA10AE89DB30AE89D980AE89D940AE89D9B0A
  E89D920AE89DA10AE89D9A0AE89D910AE89D9E0AE89DAD0AE89DAA0AE89D900AE89D8E0AE89D9F0AE89D9D0AE89DAF0A
  E89DAC0AE89DBA0AE89DAE0AE89D9C0AE89DA50AE89D8F0AE89DBB0AE89DB50AE89DA20AE89DA70AE89DA90AE8A19A0A
  E8A4850AE8A48C0AE8A4940AE8A48B0AE8A4970AE8A4980AE8A4990AE8A4860AE8A4960AE8A4910AE8A48E0AE8A4890A
  E8A6A20AE8A6A40AE8A6A30AE8A7AD0AE8A7B00AE8A7AC0AE8AB8F0AE8AB860AE8AAB80AE8AB930AE8AB910AE8AB940A
  E8AB950AE8AABB0AE8AB970AE8AABE0AE8AB800AE8AB850AE8AB980AE8AB830AE8AABA0AE8AABD0AE8AB990AE8B0BE0A
  E8B18D0AE8B28F0AE8B3A50AE8B39F0AE8B3990AE8B3A80AE8B39A0AE8B39D0AE8B3A70AE8B6A00AE8B69C0AE8B6A10A
  E8B69B0AE8B8A00AE8B8A30AE8B8A50AE8B8A40AE8B8AE0AE8B8950AE8B89B0AE8B8960AE8B8910AE8B8990AE8B8A60A
  E8B8A70A"

/-- tests/test_data/whatwg/big5_whatwg_test_encode_in.txt, part 103 -/
noncomputable def encodeIn102 : List Nat := hex! "E8869E0AE886950AE886A20AE886990AE886970AE888960AE8898F0AE889930AE889920AE889900AE8898E0AE889910A
  E894A40AE894BB0AE8948F0AE894800AE894A90AE8948E0AE894890AE8948D0AE8949F0AE8948A0AE894A70AE8949C0A
  E893BB0AE894AB0AE893BA0AE894880AE8948C0AE893B40AE894AA0AE893B20AE894950AE893B70AE893AB0AE893B30A
  E893BC0AE894920AE893AA0AE893A90AE894960AE893BE0AE894A80AE8949D0AE894AE0AE894820AE893BD0AE8949E0A
  E893B60AE894B10AE894A60AE893A70AE893A80AE893B00AE893AF0AE893B90AE894980AE894A00AE894B00AE8948B0A
  E894990AE894AF0AE899A20AE89D960AE89DA30AE89DA40AE89DB70AE89FA10AE89DB30AE89D980AE89D940AE89D9B0A
  E89D920AE89DA10AE89D9A0AE89D910AE89D9E0AE89DAD0AE89DAA0AE89D900AE89D8E0AE89D9F0AE89D9D0AE89DAF0A
  E89DAC0AE89DBA0AE89DAE0AE89D9C0AE89DA50AE89D8F0AE89DBB0AE89DB50AE89DA20AE89DA70AE89DA90AE8A19A0A
  E8A4850AE8A48C0AE8A4940AE8A48B0AE8A4970AE8A4980AE8A4990AE8A4860AE8A4960AE8A4910AE8A48E0AE8A4890A
  E8A6A20AE8A6A40AE8A6A30AE8A7AD0AE8A7B00AE8A7AC0AE8AB8F0AE8AB860AE8AAB80AE8AB930AE8AB910AE8AB940A
  E8AB950AE8AABB0AE8AB970AE8AABE0AE8AB800AE8AB850AE8AB980AE8AB830AE8AABA0AE8AABD0AE8AB990AE8B0BE0A
  E8B18D0AE8B28F0AE8B3A50AE8B39F0AE8B3990AE8B3A80AE8B39A0AE8B39D0AE8B3A70AE8B6A00AE8B69C0AE8B6A10A
  E8B69B0AE8B8A00AE8B8A30AE8B8A50AE8B8A40AE8B8AE0AE8B8950AE8B89B0AE8B8960AE8B8910AE8B8990AE8B8A60A
  E8B8A70A"

/-- tests/test_data/whatwg/big5_whatwg_test_encode_out.txt, part 103 -/
noncomputable def encodeOut102 : List Nat := hex! "E7400AE7410AE7420AE7430AE7440AE7450AE7460AE7470AE7480AE7490AE74A0AE74B0AE74C0AE74D0AE74E0AE74F0A
  E7500AE7510AE7520AE7530AE7540AE7550AE7560AE7570AE7580AE7590AE75A0AE75B0AE75C0AE75D0AE75E0AE75F0A
  E7600AE7610AE7620AE7630AE7640AE7650AE7660AE7670AE7680AE7690AE76A0AE76B0AE76C0AE76D0AE76E0AE76F0A
  E7700AE7710AE7720AE7730AE7740AE7750AE7760AE7770AE7780AE7790AE77A0AE77B0AE77C0AE77D0AE77E0AE7A10A
  E7A20AE7A30AE7A40AE7A50AE7A60AE7A70AE7A80AE7A90AE7AA0AE7AB0AE7AC0AE7AD0AE7AE0AE7AF0AE7B00AE7B10A
  E7B20AE7B30AE7B40AE7B50AE7B60AE7B70AE7B80AE7B90AE7BA0AE7BB0AE7BC0AE7BD0AE7BE0AE7BF0AE7C00AE7C10A
  E7C20AE7C30AE7C40AE7C50AE7C60AE7C70AE7C80AE7C90AE7CA0AE7CB0AE7CC0AE7CD0AE7CE0AE7CF0AE7D00AE7D10A
  E7D20AE7D30AE7D40AE7D50AE7D60AE7D70AE7D80AE7D90AE7DA0AE7DB0AE7DC0AE7DD0AE7DE0AE7DF0AE7E00AE7E10A
  E7E20AE7E30AE7E40AE7E50AE7E60AE7E70AE7E80AE7E90AE7EA0AE7EB0AE7EC0AE7ED0AE7EE0AE7EF0AE7F00AE7F10A
  E7F20AE7F30AE7F40AE7F50AE7F60AE7F70AE7F80AE7F90AE7FA0AE7FB0AE7FC0AE7FD0AE7FE0A"

/-- tests/test_data/whatwg/big5_whatwg_test_decode_in.txt, part 104 -/
noncomputable def decodeIn103 : List Nat := hex! "E8400AE8410AE8420AE8430AE8440AE8450AE8460AE8470AE8480AE8490AE84A0AE84B0AE84C0AE84D0AE84E0AE84F0A
  E8500AE8510AE8520AE8530AE8540AE8550AE8560AE8570AE8580AE8590AE85A0AE85B0AE85C0AE85D0AE85E0AE85F0A
  E8600AE8610AE8620AE8630AE8640AE8650AE8660AE8670AE8680AE8690AE86A0AE86B0AE86C0AE86D0AE86E0AE86F0A
  E8700AE8710AE8720AE8730AE8740AE8750AE8760AE8770AE8780AE8790AE87A0AE87B0AE87C0AE87D0AE87E0AE8A10A
  E8A20AE8A30AE8A40AE8A50AE8A60AE8A70AE8A80AE8A90AE8AA0AE8AB0AE8AC0AE8AD0AE8AE0AE8AF0AE8B00AE8B10A
  E8B20AE8B30AE8B40AE8B50AE8B60AE8B70AE8B80AE8B90AE8BA0AE8BB0AE8BC0AE8BD0AE8BE0AE8BF0AE8C00AE8C10A
  E8C20AE8C30AE8C40AE8C50AE8C60AE8C70AE8C80AE8C90AE8CA0AE8CB0AE8CC0AE8CD0AE8CE0AE8CF0AE8D00AE8D10A
  E8D20AE8D30AE8D40AE8D50AE8D60AE8D70AE8D80AE8D90AE8DA0AE8DB0AE8DC0AE8DD0AE8DE0AE8DF0AE8E00AE8E10A
  E8E20AE8E30AE8E40AE8E50AE8E60AE8E70AE8E80AE8E90AE8EA0AE8EB0AE8EC0AE8ED0AE8EE0AE8EF0AE8F00AE8F10A
  E8F20AE8F30AE8F40AE8F50AE8F60AE8F70AE8F80AE8F90AE8FA0AE8FB0AE8FC0AE8FD0AE8FE0A"

/-- tests/test_data/whatwg/big5_whatwg_test_decode_out.txt, part 104 -/
noncomputable def decodeOut103 : List Nat := hex! "E8B8940AE8B8920AE8B8980AE8B8930AE8B89C0AE8B8970AE8B89A0AE8BCAC0AE8BCA40AE8BC980AE8BC9A0AE8BCA00A
  E8BCA30AE8BC960AE8BC970AE981B30AE981B00AE981AF0AE981A70AE981AB0AE984AF0AE984AB0AE984A90AE984AA0A
  E984B20AE984A60AE984AE0AE986850AE986860AE9868A0AE986810AE986820AE986840AE986800AE98B900AE98B830A
  E98B840AE98B800AE98B990AE98AB60AE98B8F0AE98BB10AE98B9F0AE98B980AE98BA90AE98B970AE98B9D0AE98B8C0A
  E98BAF0AE98B820AE98BA80AE98B8A0AE98B880AE98B8E0AE98BA60AE98B8D0AE98B950AE98B890AE98BA00AE98B9E0A
  E98BA70AE98B910AE98B930AE98AB50AE98BA10AE98B860AE98AB40AE995BC0AE996AC0AE996AB0AE996AE0AE996B00A
  E99AA40AE99AA20AE99B930AE99C850AE99C880AE99C820AE99D9A0AE99E8A0AE99E8E0AE99E880AE99F900AE99F8F0A
  E9A09E0AE9A09D0AE9A0A60AE9A0A90AE9A0A80AE9A0A00AE9A09B0AE9A0A70AE9A2B20AE9A4880AE9A3BA0AE9A4910A
  E9A4940AE9A4960AE9A4970AE9A4950AE9A79C0AE9A78D0AE9A78F0AE9A7930AE9A7940AE9A78E0AE9A7890AE9A7960A
  E9A7980AE9A78B0AE9A7970AE9A78C0AE9AAB30AE9ABAC0AE9ABAB0AE9ABB30AE9ABB20AE9ABB10AE9AD860AE9AD830A
  E9ADA70AE9ADB40AE9ADB10AE9ADA60AE9ADB60AE9ADB50AE9ADB00AE9ADA80AE9ADA40AE9ADAC0AE9B3BC0AE9B3BA0A
  E9B3BD0AE9B3BF0AE9B3B70AE9B4870AE9B4800AE9B3B90AE9B3BB0AE9B4880AE9B4850AE9B4840AE9BA830AE9BB930A
  E9BC8F0AE9BC900AE5849C0AE584930AE584970AE5849A0AE584910AE5879E0AE58CB40AE58FA10AE599B00AE599A00A
  E599AE0A"

/-- tests/test_data/whatwg/big5_whatwg_test_encode_in.txt, part 104 -/
noncomputable def encodeIn103 : List Nat := hex! "E8B8940AE8B8920AE8B8980AE8B8930AE8B89C0AE8B8970AE8B89A0AE8BCAC0AE8BCA40AE8BC980AE8BC9A0AE8BCA00A
  E8BCA30AE8BC960AE8BC970AE981B30AE981B00AE981AF0AE981A70AE981AB0AE984AF0AE984AB0AE984A90AE984AA0A
  E984B20AE984A60AE984AE0AE986850AE986860AE9868A0AE986810AE986820AE986840AE986800AE98B900AE98B830A
  E98B840AE98B800AE98B990AE98AB60AE98B8F0AE98BB10AE98B9F0AE98B980AE98BA90AE98B970AE98B9D0AE98B8C0A
  E98BAF0AE98B820AE98BA80AE98B8A0AE98B880AE98B8E0AE98BA60AE98B8D0AE98B950AE98B890AE98BA00AE98B9E0A
  E98BA70AE98B910AE98B930AE98AB50AE98BA10AE98B860AE98AB40AE995BC0AE996AC0AE996AB0AE996AE0AE996B00A
  E99AA40AE99AA20AE99B930AE99C850AE99C880AE99C820AE99D9A0AE99E8A0AE99E8E0AE99E880AE99F900AE99F8F0A
  E9A09E0AE9A09D0AE9A0A60AE9A0A90AE9A0A80AE9A0A00AE9A09B0AE9A0A70AE9A2B20AE9A4880AE9A3BA0AE9A4910A
  E9A4940AE9A4960AE9A4970AE9A4950AE9A79C0AE9A78D0AE9A78F0AE9A7930AE9A7940AE9A78E0AE9A7890AE9A7980A
  E9A78B0AE9A7970AE9A78C0AE9AAB30AE9ABAC0AE9ABAB0AE9ABB30AE9ABB20AE9ABB10AE9AD860AE9AD830AE9ADA70A
  E9ADB40AE9ADB10AE9ADA60AE9ADB60AE9ADB50AE9ADB00AE9ADA80AE9ADA40AE9ADAC0AE9B3BC0AE9B3BA0AE9B3BD0A
  E9B3BF0AE9B3B70AE9B4870AE9B4800AE9B3B90AE9B3BB0AE9B4880AE9B4850AE9B4840AE9BA830AE9BB930AE9BC8F0A
  E9BC900AE5849C0AE584930AE584970AE5849A0AE584910AE5879E0AE58CB40AE58FA10AE599B00AE599A00AE599AE0A"

/-- tests/test_data/whatwg/big5_whatwg_test_encode_out.txt, part 104 -/
noncomputable def encodeOut103 : List Nat := hex! "E8400AE8410AE8420AE8430AE8440AE8450AE8460AE8470AE8480AE8490AE84A0AE84B0AE84C0AE84D0AE84E0AE84F0A
  E8500AE8510AE8520AE8530AE8540AE8550AE8560AE8570AE8580AE8590AE85A0AE85B0AE85C0AE85D0AE85E0AE85F0A
  E8600AE8610AE8620AE8630AE8640AE8650AE8660AE8670AE8680AE8690AE86A0AE86B0AE86C0AE86D0AE86E0AE86F0A
  E8700AE8710AE8720AE8730AE8740AE8750AE8760AE8770AE8780AE8790AE87A0AE87B0AE87C0AE87D0AE87E0AE8A10A
  E8A20AE8A30AE8A40AE8A50AE8A60AE8A70AE8A80AE8A90AE8AA0AE8AB0AE8AC0AE8AD0AE8AE0AE8AF0AE8B00AE8B10A
  E8B20AE8B30AE8B40AE8B50AE8B60AE8B70AE8B80AE8B90AE8BA0AE8BB0AE8BC0AE8BD0AE8BE0AE8BF0AE8C00AE8C10A
  E8C20AE8C30AE8C40AE8C50AE8C60AE8C70AE8C80AE8C90AE8CA0AE8CB0AE8CC0AE8CE0AE8CF0AE8D00AE8D10AE8D20A
  E8D30AE8D40AE8D50AE8D60AE8D70AE8D80AE8D90AE8DA0AE8DB0AE8DC0AE8DD0AE8DE0AE8DF0AE8E00AE8E10AE8E20A
  E8E30AE8E40AE8E50AE8E60AE8E70AE8E80AE8E90AE8EA0AE8EB0AE8EC0AE8ED0AE8EE0AE8EF0AE8F00AE8F10AE8F20A
  E8F30AE8F40AE8F50AE8F60AE8F70AE8F80AE8F90AE8FA0AE8FB0AE8FC0AE8FD0AE8FE0A"

/-- tests/test_data/whatwg/big5_whatwg_test_decode_in.txt, part 105 -/
noncomputable def decodeIn104 : List Nat := hex! "E9400AE9410AE9420AE9430AE9440AE9450AE9460AE9470AE9480AE9490AE94A0AE94B0AE94C0AE94D0AE94E0AE94F0A
  E9500AE9510AE9520AE9530AE9540AE9550AE9560AE9570AE9580AE9590AE95A0AE95B0AE95C0AE95D0AE95E0AE95F0A
  E9600AE9610AE9620AE9630AE9640AE9650AE9660AE9670AE9680AE9690AE96A0AE96B0AE96C0AE96D0AE96E0AE96F0A
  E9700AE9710AE9720AE9730AE9740AE9750AE9760AE9770AE9780AE9790AE97A0AE97B0AE97C0AE97D0AE97E0AE9A10A
  E9A20AE9A30AE9A40AE9A50AE9A60AE9A70AE9A80AE9A90AE9AA0AE9AB0AE9AC0AE9AD0AE9AE0AE9AF0AE9B00AE9B10A
  E9B20AE9B30AE9B40AE9B50AE9B60AE9B70AE9B80AE9B90AE9BA0AE9BB0AE9BC0AE9BD0AE9BE0AE9BF0AE9C00AE9C10A
  E9C20AE9C30AE9C40AE9C50AE9C60AE9C70AE9C80AE9C90AE9CA0AE9CB0AE9CC0AE9CD0AE9CE0AE9CF0AE9D00AE9D10A
  E9D20AE9D30AE9D40AE9D50AE9D60AE9D70AE9D80AE9D90AE9DA0AE9DB0AE9DC0AE9DD0AE9DE0AE9DF0AE9E00AE9E10A
  E9E20AE9E30AE9E40AE9E50AE9E60AE9E70AE9E80AE9E90AE9EA0AE9EB0AE9EC0AE9ED0AE9EE0AE9EF0AE9F00AE9F10A
  E9F20AE9F30AE9F40AE9F50AE9F60AE9F70AE9F80AE9F90AE9FA0AE9FB0AE9FC0AE9FD0AE9FE0A"

/-- tests/test_data/whatwg/big5_whatwg_test_decode_out.txt, part 105 -/
noncomputable def decodeOut104 : List Nat := hex! "E599B30AE599A60AE599A30AE599AD0AE599B20AE5999E0AE599B70AE59C9C0AE59C9B0AE5A3880AE5A2BD0AE5A3890A
  E5A2BF0AE5A2BA0AE5A3820AE5A2BC0AE5A3860AE5AC970AE5AC990AE5AC9B0AE5ACA10AE5AC940AE5AC930AE5AC900A
  E5AC960AE5ACA80AE5AC9A0AE5ACA00AE5AC9E0AE5AFAF0AE5B6AC0AE5B6B10AE5B6A90AE5B6A70AE5B6B50AE5B6B00A
  E5B6AE0AE5B6AA0AE5B6A80AE5B6B20AE5B6AD0AE5B6AF0AE5B6B40AE5B9A70AE5B9A80AE5B9A60AE5B9AF0AE5BBA90A
  E5BBA70AE5BBA60AE5BBA80AE5BBA50AE5BD8B0AE5BEBC0AE6869D0AE686A80AE686960AE687850AE686B40AE687860A
  E687810AE6878C0AE686BA0AE686BF0AE686B80AE6868C0AE693970AE693960AE693900AE6938F0AE693890AE692BD0A
  E692890AE693830AE6939B0AE693B30AE693990AE694B30AE695BF0AE695BC0AE696A20AE69B880AE69ABE0AE69B800A
  E69B8A0AE69B8B0AE69B8F0AE69ABD0AE69ABB0AE69ABA0AE69B8C0AE69CA30AE6A8B40AE6A9A60AE6A9890AE6A9A70A
  E6A8B20AE6A9A80AE6A8BE0AE6A99D0AE6A9AD0AE6A9B60AE6A99B0AE6A9910AE6A8A80AE6A99A0AE6A8BB0AE6A8BF0A
  E6A9810AE6A9AA0AE6A9A40AE6A9900AE6A98F0AE6A9940AE6A9AF0AE6A9A90AE6A9A00AE6A8BC0AE6A99E0AE6A9960A
  E6A9950AE6A98D0AE6A98E0AE6A9860AE6AD950AE6AD940AE6AD960AE6AEA70AE6AEAA0AE6AEAB0AE6AF880AE6AF870A
  E6B0840AE6B0830AE6B0860AE6BEAD0AE6BF8B0AE6BEA30AE6BF870AE6BEBC0AE6BF8E0AE6BF880AE6BD9E0AE6BF840A
  E6BEBD0AE6BE9E0AE6BF8A0AE6BEA80AE780840AE6BEA50AE6BEAE0AE6BEBA0AE6BEAC0AE6BEAA0AE6BF8F0AE6BEBF0A
  E6BEB80A"

/-- tests/test_data/whatwg/big5_whatwg_test_encode_in.txt, part 105 -/
noncomputable def encodeIn104 : List Nat := hex! "E599B30AE599A60AE599A30AE599AD0AE599B20AE5999E0AE599B70AE59C9C0AE59C9B0AE5A3880AE5A2BD0AE5A3890A
  E5A2BF0AE5A2BA0AE5A3820AE5A2BC0AE5A3860AE5AC970AE5AC990AE5AC9B0AE5ACA10AE5AC940AE5AC930AE5AC900A
  E5AC960AE5AC9A0AE5ACA00AE5AC9E0AE5AFAF0AE5B6AC0AE5B6B10AE5B6A90AE5B6A70AE5B6B50AE5B6B00AE5B6AE0A
  E5B6AA0AE5B6A80AE5B6B20AE5B6AD0AE5B6AF0AE5B6B40AE5B9A70AE5B9A80AE5B9A60AE5B9AF0AE5BBA90AE5BBA70A
  E5BBA60AE5BBA80AE5BBA50AE5BD8B0AE5BEBC0AE6869D0AE686A80AE686960AE687850AE686B40AE687860AE687810A
  E6878C0AE686BA0AE686BF0AE686B80AE6868C0AE693970AE693960AE693900AE6938F0AE693890AE692BD0AE692890A
  E693830AE6939B0AE693B30AE693990AE694B30AE695BF0AE695BC0AE696A20AE69B880AE69ABE0AE69B800AE69B8A0A
  E69B8B0AE69B8F0AE69ABD0AE69ABB0AE69ABA0AE69B8C0AE69CA30AE6A8B40AE6A9A60AE6A9890AE6A9A70AE6A8B20A
  E6A9A80AE6A8BE0AE6A99D0AE6A9AD0AE6A9B60AE6A99B0AE6A9910AE6A8A80AE6A99A0AE6A8BB0AE6A8BF0AE6A9810A
  E6A9AA0AE6A9A40AE6A9900AE6A98F0AE6A9940AE6A9AF0AE6A9A90AE6A9A00AE6A8BC0AE6A99E0AE6A9960AE6A9950A
  E6A98D0AE6A98E0AE6A9860AE6AD950AE6AD940AE6AD960AE6AEA70AE6AEAA0AE6AEAB0AE6AF880AE6AF870AE6B0840A
  E6B0830AE6B0860AE6BEAD0AE6BF8B0AE6BEA30AE6BF870AE6BEBC0AE6BF8E0AE6BF880AE6BD9E0AE6BF840AE6BEBD0A
  E6BE9E0AE6BF8A0AE6BEA80AE780840AE6BEA50AE6BEAE0AE6BEBA0AE6BEAC0AE6BEAA0AE6BF8F0AE6BEBF0AE6BEB80A"

/-- tests/test_data/whatwg/big5_whatwg_test_encode_out.txt, part 105 -/
noncomputable def encodeOut104 : List Nat := hex! "E9400AE9410AE9420AE9430AE9440AE9450AE9460AE9470AE9480AE9490AE94A0AE94B0AE94C0AE94D0AE94E0AE94F0A
  E9500AE9510AE9520AE9530AE9540AE9550AE9560AE9570AE9580AE95A0AE95B0AE95C0AE95D0AE95E0AE95F0AE9600A
  E9610AE9620AE9630AE9640AE9650AE9660AE9670AE9680AE9690AE96A0AE96B0AE96C0AE96D0AE96E0AE96F0AE9700A
  E9710AE9720AE9730AE9740AE9750AE9760AE9770AE9780AE9790AE97A0AE97B0AE97C0AE97D0AE97E0AE9A10AE9A20A
  E9A30AE9A40AE9A50AE9A60AE9A70AE9A80AE9A90AE9AA0AE9AB0AE9AC0AE9AD0AE9AE0AE9AF0AE9B00AE9B10AE9B20A
  E9B30AE9B40AE9B50AE9B60AE9B70AE9B80AE9B90AE9BA0AE9BB0AE9BC0AE9BD0AE9BE0AE9BF0AE9C00AE9C10AE9C20A
  E9C30AE9C40AE9C50AE9C60AE9C70AE9C80AE9C90AE9CA0AE9CB0AE9CC0AE9CD0AE9CE0AE9CF0AE9D00AE9D10AE9D20A
  E9D30AE9D40AE9D50AE9D60AE9D70AE9D80AE9D90AE9DA0AE9DB0AE9DC0AE9DD0AE9DE0AE9DF0AE9E00AE9E10AE9E20A
  E9E30AE9E40AE9E50AE9E60AE9E70AE9E80AE9E90AE9EA0AE9EB0AE9EC0AE9ED0AE9EE0AE9EF0AE9F00AE9F10AE9F20A
  E9F30AE9F40AE9F50AE9F60AE9F70AE9F80AE9F90AE9FA0AE9FB0AE9FC0AE9FD0AE9FE0A"

/-- tests/test_data/whatwg/big5_whatwg_test_decode_in.txt, part 106 -/
noncomputable def decodeIn105 : List Nat := hex! "EA400AEA410AEA420AEA430AEA440AEA450AEA460AEA470AEA480AEA490AEA4A0AEA4B0AEA4C0AEA4D0AEA4E0AEA4F0A
  EA500AEA510AEA520AEA530AEA540AEA550AEA560AEA570AEA580AEA590AEA5A0AEA5B0AEA5C0AEA5D0AEA5E0AEA5F0A
  EA600AEA610AEA620AEA630AEA640AEA650AEA660AEA670AEA680AEA690AEA6A0AEA6B0AEA6C0AEA6D0AEA6E0AEA6F0A
  EA700AEA710AEA720AEA730AEA740AEA750AEA760AEA770AEA780AEA790AEA7A0AEA7B0AEA7C0AEA7D0AEA7E0AEAA10A
  EAA20AEAA30AEAA40AEAA50AEAA60AEAA70AEAA80AEAA90AEAAA0AEAAB0AEAAC0AEAAD0AEAAE0AEAAF0AEAB00AEAB10A
  EAB20AEAB30AEAB40AEAB50AEAB60AEAB70AEAB80AEAB90AEABA0AEABB0AEABC0AEABD0AEABE0AEABF0AEAC00AEAC10A
  EAC20AEAC30AEAC40AEAC50AEAC60AEAC70AEAC80AEAC90AEACA0AEACB0AEACC0AEACD0AEACE0AEACF0AEAD00AEAD10A
  EAD20AEAD30AEAD40AEAD50AEAD60AEAD70AEAD80AEAD90AEADA0AEADB0AEADC0AEADD0AEADE0AEADF0AEAE00AEAE10A
  EAE20AEAE30AEAE40AEAE50AEAE60AEAE70AEAE80AEAE90AEAEA0AEAEB0AEAEC0AEAED0AEAEE0AEAEF0AEAF00AEAF10A
  EAF20AEAF30AEAF40AEAF50AEAF60AEAF70AEAF80AEAF90AEAFA0AEAFB0AEAFC0AEAFD0AEAFE0A"

/-- tests/test_data/whatwg/big5_whatwg_test_decode_out.txt, part 106 -/
noncomputable def decodeOut105 : List Nat := hex! "E6BEA20AE6BF890AE6BEAB0AE6BF8D0AE6BEAF0AE6BEB20AE6BEB00AE787850AE787820AE786BF0AE786B80AE787960A
  E787800AE787810AE7878B0AE787940AE7878A0AE787870AE7878F0AE786BD0AE787980AE786BC0AE787860AE7879A0A
  E7879B0AE78A9D0AE78A9E0AE78DA90AE78DA60AE78DA70AE78DAC0AE78DA50AE78DAB0AE78DAA0AE791BF0AE7929A0A
  E792A00AE792940AE792920AE792950AE792A10AE7948B0AE796800AE798AF0AE798AD0AE798B10AE798BD0AE798B30A
  E798BC0AE798B50AE798B20AE798B00AE79ABB0AE79BA60AE79E9A0AE79E9D0AE79EA10AE79E9C0AE79E9B0AE79EA20A
  E79EA30AE79E950AE79E990AE79E970AE7A39D0AE7A3A90AE7A3A50AE7A3AA0AE7A39E0AE7A3A30AE7A39B0AE7A3A10A
  E7A3A20AE7A3AD0AE7A39F0AE7A3A00AE7A6A40AE7A9840AE7A9880AE7A9870AE7AAB60AE7AAB80AE7AAB50AE7AAB10A
  E7AAB70AE7AF9E0AE7AFA30AE7AFA70AE7AF9D0AE7AF950AE7AFA50AE7AF9A0AE7AFA80AE7AFB90AE7AF940AE7AFAA0A
  E7AFA20AE7AF9C0AE7AFAB0AE7AF980AE7AF9F0AE7B3920AE7B3940AE7B3970AE7B3900AE7B3910AE7B8920AE7B8A10A
  E7B8970AE7B88C0AE7B89F0AE7B8A00AE7B8930AE7B88E0AE7B89C0AE7B8950AE7B89A0AE7B8A20AE7B88B0AE7B88F0A
  E7B8960AE7B88D0AE7B8940AE7B8A50AE7B8A40AE7BD830AE7BDBB0AE7BDBC0AE7BDBA0AE7BEB10AE7BFAF0AE880AA0A
  E880A90AE881AC0AE886B10AE886A60AE886AE0AE886B90AE886B50AE886AB0AE886B00AE886AC0AE886B40AE886B20A
  E886B70AE886A70AE887B20AE889950AE889960AE889970AE895960AE895850AE895AB0AE8958D0AE895930AE895A10A
  E895980A"

/-- tests/test_data/whatwg/big5_whatwg_test_encode_in.txt, part 106 -/
noncomputable def encodeIn105 : List Nat := hex! "E6BEA20AE6BF890AE6BEAB0AE6BF8D0AE6BEAF0AE6BEB20AE6BEB00AE787850AE787820AE786BF0AE786B80AE787960A
  E787800AE787810AE7878B0AE787940AE7878A0AE787870AE7878F0AE786BD0AE787980AE786BC0AE787860AE7879A0A
  E7879B0AE78A9D0AE78A9E0AE78DA90AE78DA60AE78DA70AE78DAC0AE78DA50AE78DAB0AE78DAA0AE791BF0AE7929A0A
  E792A00AE792940AE792920AE792950AE792A10AE7948B0AE796800AE798AF0AE798AD0AE798B10AE798BD0AE798B30A
  E798BC0AE798B50AE798B20AE798B00AE79ABB0AE79BA60AE79E9A0AE79E9D0AE79EA10AE79E9C0AE79E9B0AE79EA20A
  E79EA30AE79E950AE79E990AE79E970AE7A39D0AE7A3A90AE7A3A50AE7A3AA0AE7A39E0AE7A3A30AE7A39B0AE7A3A10A
  E7A3A20AE7A3AD0AE7A39F0AE7A3A00AE7A6A40AE7A9840AE7A9880AE7A9870AE7AAB60AE7AAB80AE7AAB50AE7AAB10A
  E7AAB70AE7AF9E0AE7AFA30AE7AFA70AE7AF9D0AE7AF950AE7AFA50AE7AF9A0AE7AFA80AE7AFB90AE7AF940AE7AFAA0A
  E7AFA20AE7AF9C0AE7AFAB0AE7AF980AE7AF9F0AE7B3920AE7B3940AE7B3970AE7B3900AE7B3910AE7B8920AE7B8A10A
  E7B8970AE7B88C0AE7B89F0AE7B8A00AE7B8930AE7B88E0AE7B89C0AE7B8950AE7B89A0AE7B8A20AE7B88B0AE7B88F0A
  E7B8960AE7B88D0AE7B8940AE7B8A50AE7B8A40AE7BD830AE7BDBB0AE7BDBC0AE7BDBA0AE7BEB10AE7BFAF0AE880AA0A
  E880A90AE881AC0AE886B10AE886A60AE886AE0AE886B90AE886B50AE886AB0AE886B00AE886AC0AE886B40AE886B20A
  E886B70AE886A70AE887B20AE889950AE889960AE889970AE895960AE895850AE895AB0AE8958D0AE895930AE895A10A
  E895980A"

/-- tests/test_data/whatwg/big5_whatwg_test_encode_out.txt, part 106 -/
noncomputable def encodeOut105 : List Nat := hex! "EA400AEA410AEA420AEA430AEA440AEA450AEA460AEA470AEA480AEA490AEA4A0AEA4B0AEA4C0AEA4D0AEA4E0AEA4F0A
  EA500AEA510AEA520AEA530AEA540AEA550AEA560AEA570AEA580AEA590AEA5A0AEA5B0AEA5C0AEA5D0AEA5E0AEA5F0A
  EA600AEA610AEA620AEA630AEA640AEA650AEA660AEA670AEA680AEA690AEA6A0AEA6B0AEA6C0AEA6D0AEA6E0AEA6F0A
  EA700AEA710AEA720AEA730AEA740AEA750AEA760AEA770AEA780AEA790AEA7A0AEA7B0AEA7C0AEA7D0AEA7E0AEAA10A
  EAA20AEAA30AEAA40AEAA50AEAA60AEAA70AEAA80AEAA90AEAAA0AEAAB0AEAAC0AEAAD0AEAAE0AEAAF0AEAB00AEAB10A
  EAB20AEAB30AEAB40AEAB50AEAB60AEAB70AEAB80AEAB90AEABA0AEABB0AEABC0AEABD0AEABE0AEABF0AEAC00AEAC10A
  EAC20AEAC30AEAC40AEAC50AEAC60AEAC70AEAC80AEAC90AEACA0AEACB0AEACC0AEACD0AEACE0AEACF0AEAD00AEAD10A
  EAD20AEAD30AEAD40AEAD50AEAD60AEAD70AEAD80AEAD90AEADA0AEADB0AEADC0AEADD0AEADE0AEADF0AEAE00AEAE10A
  EAE20AEAE30AEAE40AEAE50AEAE60AEAE70AEAE80AEAE90AEAEA0AEAEB0AEAEC0AEAED0AEAEE0AEAEF0AEAF00AEAF10A
  EAF20AEAF30AEAF40AEAF50AEAF60AEAF70AEAF80AEAF90AEAFA0AEAFB0AEAFC0AEAFD0AEAFE0A"

/-- tests/test_data/whatwg/big5_whatwg_test_decode_in.txt, part 107 -/
noncomputable def decodeIn106 : List Nat := hex! "EB400AEB410AEB420AEB430AEB440AEB450AEB460AEB470AEB480AEB490AEB4A0AEB4B0AEB4C0AEB4D0AEB4E0AEB4F0A
  EB500AEB510AEB520AEB530AEB540AEB550AEB560AEB570AEB580AEB590AEB5A0AEB5B0AEB5C0AEB5D0AEB5E0AEB5F0A
  EB600AEB610AEB620AEB630AEB640AEB650AEB660AEB670AEB680AEB690AEB6A0AEB6B0AEB6C0AEB6D0AEB6E0AEB6F0A
  EB700AEB710AEB720AEB730AEB740AEB750AEB760AEB770AEB780AEB790AEB7A0AEB7B0AEB7C0AEB7D0AEB7E0AEBA10A
  EBA20AEBA30AEBA40AEBA50AEBA60AEBA70AEBA80AEBA90AEBAA0AEBAB0AEBAC0AEBAD0AEBAE0AEBAF0AEBB00AEBB10A
  EBB20AEBB30AEBB40AEBB50AEBB60AEBB70AEBB80AEBB90AEBBA0AEBBB0AEBBC0AEBBD0AEBBE0AEBBF0AEBC00AEBC10A
  EBC20AEBC30AEBC40AEBC50AEBC60AEBC70AEBC80AEBC90AEBCA0AEBCB0AEBCC0AEBCD0AEBCE0AEBCF0AEBD00AEBD10A
  EBD20AEBD30AEBD40AEBD50AEBD60AEBD70AEBD80AEBD90AEBDA0AEBDB0AEBDC0AEBDD0AEBDE0AEBDF0AEBE00AEBE10A
  EBE20AEBE30AEBE40AEBE50AEBE60AEBE70AEBE80AEBE90AEBEA0AEBEB0AEBEC0AEBED0AEBEE0AEBEF0AEBF00AEBF10A
  EBF20AEBF30AEBF40AEBF50AEBF60AEBF70AEBF80AEBF90AEBFA0AEBFB0AEBFC0AEBFD0AEBFE0A"

/-- tests/test_data/whatwg/big5_whatwg_test_decode_out.txt, part 107 -/
noncomputable def decodeOut106 : List Nat := hex! "E895800AE895860AE895A40AE895810AE895A20AE895840AE895910AE895870AE895A30AE894BE0AE8959B0AE895B10A
  E8958E0AE895AE0AE895B50AE895950AE895A70AE895A00AE8968C0AE895A60AE8959D0AE895940AE895A50AE895AC0A
  E899A30AE899A50AE899A40AE89E9B0AE89E8F0AE89E970AE89E930AE89E920AE89E880AE89E810AE89E960AE89E980A
  E89DB90AE89E870AE89EA30AE89E850AE89E900AE89E910AE89E9D0AE89E840AE89E940AE89E9C0AE89E9A0AE89E890A
  E8A49E0AE8A4A60AE8A4B00AE8A4AD0AE8A4AE0AE8A4A70AE8A4B10AE8A4A20AE8A4A90AE8A4A30AE8A4AF0AE8A4AC0A
  E8A49F0AE8A7B10AE8ABA00AE8ABA20AE8ABB20AE8ABB40AE8ABB50AE8AB9D0AE8AC940AE8ABA40AE8AB9F0AE8ABB00A
  E8AB880AE8AB9E0AE8ABA10AE8ABA80AE8ABBF0AE8ABAF0AE8ABBB0AE8B2910AE8B2920AE8B2900AE8B3B50AE8B3AE0A
  E8B3B10AE8B3B00AE8B3B30AE8B5AC0AE8B5AE0AE8B6A50AE8B6A70AE8B8B30AE8B8BE0AE8B8B80AE8B9800AE8B9850A
  E8B8B60AE8B8BC0AE8B8BD0AE8B9810AE8B8B00AE8B8BF0AE8BABD0AE8BCB60AE8BCAE0AE8BCB50AE8BCB20AE8BCB90A
  E8BCB70AE8BCB40AE981B60AE981B90AE981BB0AE982860AE983BA0AE984B30AE984B50AE984B60AE986930AE986900A
  E986910AE9868D0AE9868F0AE98CA70AE98C9E0AE98C880AE98C9F0AE98C860AE98C8F0AE98DBA0AE98CB80AE98CBC0A
  E98C9B0AE98CA30AE98C920AE98C810AE98D860AE98CAD0AE98C8E0AE98C8D0AE98B8B0AE98C9D0AE98BBA0AE98CA50A
  E98C930AE98BB90AE98BB70AE98CB40AE98C820AE98CA40AE98BBF0AE98CA90AE98CB90AE98CB50AE98CAA0AE98C940A
  E98C8C0A"

/-- tests/test_data/whatwg/big5_whatwg_test_encode_in.txt, part 107 -/
noncomputable def encodeIn106 : List Nat := hex! "E895800AE895860AE895A40AE895810AE895A20AE895840AE895910AE895870AE895A30AE894BE0AE8959B0AE895B10A
  E8958E0AE895AE0AE895B50AE895950AE895A70AE895A00AE8968C0AE895A60AE8959D0AE895940AE895A50AE895AC0A
  E899A30AE899A50AE899A40AE89E9B0AE89E8F0AE89E970AE89E930AE89E920AE89E880AE89E810AE89E960AE89E980A
  E89DB90AE89E870AE89EA30AE89E850AE89E900AE89E910AE89E9D0AE89E840AE89E940AE89E9C0AE89E9A0AE89E890A
  E8A49E0AE8A4A60AE8A4B00AE8A4AD0AE8A4AE0AE8A4A70AE8A4B10AE8A4A20AE8A4A90AE8A4A30AE8A4AF0AE8A4AC0A
  E8A49F0AE8A7B10AE8ABA00AE8ABA20AE8ABB20AE8ABB40AE8ABB50AE8AB9D0AE8AC940AE8ABA40AE8AB9F0AE8ABB00A
  E8AB880AE8AB9E0AE8ABA10AE8ABA80AE8ABBF0AE8ABAF0AE8ABBB0AE8B2910AE8B2920AE8B2900AE8B3B50AE8B3AE0A
  E8B3B10AE8B3B00AE8B3B30AE8B5AC0AE8B5AE0AE8B6A50AE8B6A70AE8B8B30AE8B8BE0AE8B8B80AE8B9800AE8B9850A
  E8B8B60AE8B8BC0AE8B8BD0AE8B9810AE8B8B00AE8B8BF0AE8BABD0AE8BCAE0AE8BCB50AE8BCB20AE8BCB90AE8BCB70A
  E8BCB40AE981B60AE981B90AE981BB0AE982860AE983BA0AE984B30AE984B50AE984B60AE986930AE986900AE986910A
  E9868D0AE9868F0AE98CA70AE98C9E0AE98C880AE98C9F0AE98C860AE98C8F0AE98DBA0AE98CB80AE98CBC0AE98C9B0A
  E98CA30AE98C920AE98C810AE98D860AE98CAD0AE98C8E0AE98C8D0AE98B8B0AE98C9D0AE98BBA0AE98CA50AE98C930A
  E98BB90AE98BB70AE98CB40AE98C820AE98CA40AE98BBF0AE98CA90AE98CB90AE98CB50AE98CAA0AE98C940AE98C8C0A"

/-- tests/test_data/whatwg/big5_whatwg_test_encode_out.txt, part 107 -/
noncomputable def encodeOut106 : List Nat := hex! "EB400AEB410AEB420AEB430AEB440AEB450AEB460AEB470AEB480AEB490AEB4A0AEB4B0AEB4C0AEB4D0AEB4E0AEB4F0A
  EB500AEB510AEB520AEB530AEB540AEB550AEB560AEB570AEB580AEB590AEB5A0AEB5B0AEB5C0AEB5D0AEB5E0AEB5F0A
  EB600AEB610AEB620AEB630AEB640AEB650AEB660AEB670AEB680AEB690AEB6A0AEB6B0AEB6C0AEB6D0AEB6E0AEB6F0A
  EB700AEB710AEB720AEB730AEB740AEB750AEB760AEB770AEB780AEB790AEB7A0AEB7B0AEB7C0AEB7D0AEB7E0AEBA10A
  EBA20AEBA30AEBA40AEBA50AEBA60AEBA70AEBA80AEBA90AEBAA0AEBAB0AEBAC0AEBAD0AEBAE0AEBAF0AEBB00AEBB10A
  EBB20AEBB30AEBB40AEBB50AEBB60AEBB70AEBB80AEBB90AEBBA0AEBBB0AEBBC0AEBBD0AEBBE0AEBBF0AEBC00AEBC10A
  EBC20AEBC30AEBC40AEBC50AEBC60AEBC70AEBC80AEBCA0AEBCB0AEBCC0AEBCD0AEBCE0AEBCF0AEBD00AEBD10AEBD20A
  EBD30AEBD40AEBD50AEBD60AEBD70AEBD80AEBD90AEBDA0AEBDB0AEBDC0AEBDD0AEBDE0AEBDF0AEBE00AEBE10AEBE20A
  EBE30AEBE40AEBE50AEBE60AEBE70AEBE80AEBE90AEBEA0AEBEB0AEBEC0AEBED0AEBEE0AEBEF0AEBF00AEBF10AEBF20A
  EBF30AEBF40AEBF50AEBF60AEBF70AEBF80AEBF90AEBFA0AEBFB0AEBFC0AEBFD0AEBFE0A"

/-- tests/test_data/whatwg/big5_whatwg_test_decode_in.txt, part 108 -/
noncomputable def decodeIn107 : List Nat := hex! "EC400AEC410AEC420AEC430AEC440AEC450AEC460AEC470AEC480AEC490AEC4A0AEC4B0AEC4C0AEC4D0AEC4E0AEC4F0A
  EC500AEC510AEC520AEC530AEC540AEC550AEC560AEC570AEC580AEC590AEC5A0AEC5B0AEC5C0AEC5D0AEC5E0AEC5F0A
  EC600AEC610AEC620AEC630AEC640AEC650AEC660AEC670AEC680AEC690AEC6A0AEC6B0AEC6C0AEC6D0AEC6E0AEC6F0A
  EC700AEC710AEC720AEC730AEC740AEC750AEC760AEC770AEC780AEC790AEC7A0AEC7B0AEC7C0AEC7D0AEC7E0AECA10A
  ECA20AECA30AECA40AECA50AECA60AECA70AECA80AECA90AECAA0AECAB0AECAC0AECAD0AECAE0AECAF0AECB00AECB10A
  ECB20AECB30AECB40AECB50AECB60AECB70AECB80AECB90AECBA0AECBB0AECBC0AECBD0AECBE0AECBF0AECC00AECC10A
  ECC20AECC30AECC40AECC50AECC60AECC70AECC80AECC90AECCA0AECCB0AECCC0AECCD0AECCE0AECCF0AECD00AECD10A
  ECD20AECD30AECD40AECD50AECD60AECD70AECD80AECD90AECDA0AECDB0AECDC0AECDD0AECDE0AECDF0AECE00AECE10A
  ECE20AECE30AECE40AECE50AECE60AECE70AECE80AECE90AECEA0AECEB0AECEC0AECED0AECEE0AECEF0AECF00AECF10A
  ECF20AECF30AECF40AECF50AECF60AECF70AECF80AECF90AECFA0AECFB0AECFC0AECFD0AECFE0A"

/-- tests/test_data/whatwg/big5_whatwg_test_decode_out.txt, part 108 -/
noncomputable def decodeOut107 : List Nat := hex! "E98C8B0AE98BBE0AE98C890AE98C800AE98BBB0AE98C960AE996BC0AE9978D0AE996BE0AE996B90AE996BA0AE996B60A
  E996BF0AE996B50AE996BD0AE99AA90AE99B940AE99C8B0AE99C920AE99C900AE99E990AE99E970AE99E940AE99FB00A
  E99FB80AE9A0B50AE9A0AF0AE9A0B20AE9A4A40AE9A49F0AE9A4A70AE9A4A90AE9A69E0AE9A7AE0AE9A7AC0AE9A7A50A
  E9A7A40AE9A7B00AE9A7A30AE9A7AA0AE9A7A90AE9A7A70AE9AAB90AE9AABF0AE9AAB40AE9AABB0AE9ABB60AE9ABBA0A
  E9ABB90AE9ABB70AE9ACB30AE9AE800AE9AE850AE9AE870AE9ADBC0AE9ADBE0AE9ADBB0AE9AE820AE9AE930AE9AE920A
  E9AE900AE9ADBA0AE9AE950AE9ADBD0AE9AE880AE9B4A50AE9B4970AE9B4A00AE9B49E0AE9B4940AE9B4A90AE9B49D0A
  E9B4980AE9B4A20AE9B4900AE9B4990AE9B49F0AE9BA880AE9BA860AE9BA870AE9BAAE0AE9BAAD0AE9BB950AE9BB960A
  E9BBBA0AE9BC920AE9BCBD0AE584A60AE584A50AE584A20AE584A40AE584A00AE584A90AE58BB40AE59A930AE59A8C0A
  E59A8D0AE59A860AE59A840AE59A830AE599BE0AE59A820AE599BF0AE59A810AE5A3960AE5A3940AE5A38F0AE5A3920A
  E5ACAD0AE5ACA50AE5ACB20AE5ACA30AE5ACAC0AE5ACA70AE5ACA60AE5ACAF0AE5ACAE0AE5ADBB0AE5AFB10AE5AFB20A
  E5B6B70AE5B9AC0AE5B9AA0AE5BEBE0AE5BEBB0AE687830AE686B50AE686BC0AE687A70AE687A00AE687A50AE687A40A
  E687A80AE6879E0AE693AF0AE693A90AE693A30AE693AB0AE693A40AE693A80AE696810AE696800AE696B60AE6979A0A
  E69B920AE6AA8D0AE6AA960AE6AA810AE6AAA50AE6AA890AE6AA9F0AE6AA9B0AE6AAA10AE6AA9E0AE6AA870AE6AA930A
  E6AA8E0A"

/-- tests/test_data/whatwg/big5_whatwg_test_encode_in.txt, part 108 -/
noncomputable def encodeIn107 : List Nat := hex! "E98C8B0AE98BBE0AE98C890AE98C800AE98BBB0AE98C960AE996BC0AE9978D0AE996BE0AE996B90AE996BA0AE996B60A
  E996BF0AE996B50AE996BD0AE99AA90AE99B940AE99C8B0AE99C920AE99C900AE99E990AE99E970AE99E940AE99FB00A
  E99FB80AE9A0B50AE9A0AF0AE9A0B20AE9A4A40AE9A49F0AE9A4A70AE9A4A90AE9A69E0AE9A7AE0AE9A7AC0AE9A7A50A
  E9A7A40AE9A7B00AE9A7A30AE9A7AA0AE9A7A90AE9A7A70AE9AAB90AE9AABF0AE9AAB40AE9AABB0AE9ABB60AE9ABBA0A
  E9ABB90AE9ABB70AE9ACB30AE9AE800AE9AE850AE9AE870AE9ADBC0AE9ADBE0AE9ADBB0AE9AE820AE9AE930AE9AE920A
  E9AE900AE9ADBA0AE9AE950AE9ADBD0AE9AE880AE9B4A50AE9B4970AE9B4A00AE9B49E0AE9B4940AE9B4A90AE9B49D0A
  E9B4980AE9B4A20AE9B4900AE9B4990AE9B49F0AE9BA880AE9BA860AE9BA870AE9BAAE0AE9BAAD0AE9BB950AE9BB960A
  E9BBBA0AE9BC920AE9BCBD0AE584A60AE584A50AE584A20AE584A40AE584A00AE584A90AE58BB40AE59A930AE59A8C0A
  E59A8D0AE59A860AE59A840AE59A830AE599BE0AE59A820AE599BF0AE59A810AE5A3960AE5A3940AE5A38F0AE5A3920A
  E5ACAD0AE5ACA50AE5ACB20AE5ACA30AE5ACAC0AE5ACA70AE5ACA60AE5ACAF0AE5ACAE0AE5ADBB0AE5AFB10AE5AFB20A
  E5B6B70AE5B9AC0AE5B9AA0AE5BEBE0AE5BEBB0AE687830AE686B50AE686BC0AE687A70AE687A00AE687A50AE687A40A
  E687A80AE6879E0AE693AF0AE693A90AE693A30AE693AB0AE693A40AE693A80AE696810AE696800AE696B60AE6979A0A
  E69B920AE6AA8D0AE6AA960AE6AA810AE6AAA50AE6AA890AE6AA9F0AE6AA9B0AE6AAA10AE6AA9E0AE6AA870AE6AA930A
  E6AA8E0A"

/-- tests/test_data/whatwg/big5_whatwg_test_encode_out.txt, part 108 -/
noncomputable def encodeOut107 : List Nat := hex! "EC400AEC410AEC420AEC430AEC440AEC450AEC460AEC470AEC480AEC490AEC4A0AEC4B0AEC4C0AEC4D0AEC4E0AEC4F0A
  EC500AEC510AEC520AEC530AEC540AEC550AEC560AEC570AEC580AEC590AEC5A0AEC5B0AEC5C0AEC5D0AEC5E0AEC5F0A
  EC600AEC610AEC620AEC630AEC640AEC650AEC660AEC670AEC680AEC690AEC6A0AEC6B0AEC6C0AEC6D0AEC6E0AEC6F0A
  EC700AEC710AEC720AEC730AEC740AEC750AEC760AEC770AEC780AEC790AEC7A0AEC7B0AEC7C0AEC7D0AEC7E0AECA10A
  ECA20AECA30AECA40AECA50AECA60AECA70AECA80AECA90AECAA0AECAB0AECAC0AECAD0AECAE0AECAF0AECB00AECB10A
  ECB20AECB30AECB40AECB50AECB60AECB70AECB80AECB90AECBA0AECBB0AECBC0AECBD0AECBE0AECBF0AECC00AECC10A
  ECC20AECC30AECC40AECC50AECC60AECC70AECC80AECC90AECCA0AECCB0AECCC0AECCD0AECCE0AECCF0AECD00AECD10A
  ECD20AECD30AECD40AECD50AECD60AECD70AECD80AECD90AECDA0AECDB0AECDC0AECDD0AECDE0AECDF0AECE00AECE10A
  ECE20AECE30AECE40AECE50AECE60AECE70AECE80AECE90AECEA0AECEB0AECEC0AECED0AECEE0AECEF0AECF00AECF10A
  ECF20AECF30AECF40AECF50AECF60AECF70AECF80AECF90AECFA0AECFB0AECFC0AECFD0AECFE0A"

/-- tests/test_data/whatwg/big5_whatwg_test_decode_in.txt, part 109 -/
noncomputable def decodeIn108 : List Nat := hex! "ED400AED410AED420AED430AED440AED450AED460AED470AED480AED490AED4A0AED4B0AED4C0AED4D0AED4E0AED4F0A
  ED500AED510AED520AED530AED540AED550AED560AED570AED580AED590AED5A0AED5B0AED5C0AED5D0AED5E0AED5F0A
  ED600AED610AED620AED630AED640AED650AED660AED670AED680AED690AED6A0AED6B0AED6C0AED6D0AED6E0AED6F0A
  ED700AED710AED720AED730AED740AED750AED760AED770AED780AED790AED7A0AED7B0AED7C0AED7D0AED7E0AEDA10A
  EDA20AEDA30AEDA40AEDA50AEDA60AEDA70AEDA80AEDA90AEDAA0AEDAB0AEDAC0AEDAD0AEDAE0AEDAF0AEDB00AEDB10A
  EDB20AEDB30AEDB40AEDB50AEDB60AEDB70AEDB80AEDB90AEDBA0AEDBB0AEDBC0AEDBD0AEDBE0AEDBF0AEDC00AEDC10A
  EDC20AEDC30AEDC40AEDC50AEDC60AEDC70AEDC80AEDC90AEDCA0AEDCB0AEDCC0AEDCD0AEDCE0AEDCF0AEDD00AEDD10A
  EDD20AEDD30AEDD40AEDD50AEDD60AEDD70AEDD80AEDD90AEDDA0AEDDB0AEDDC0AEDDD0AEDDE0AEDDF0AEDE00AEDE10A
  EDE20AEDE30AEDE40AEDE50AEDE60AEDE70AEDE80AEDE90AEDEA0AEDEB0AEDEC0AEDED0AEDEE0AEDEF0AEDF00AEDF10A
  EDF20AEDF30AEDF40AEDF50AEDF60AEDF70AEDF80AEDF90AEDFA0AEDFB0AEDFC0AEDFD0AEDFE0A"

/-- tests/test_data/whatwg/big5_whatwg_test_decode_out.txt, part 109 -/
noncomputable def decodeOut108 : List Nat := hex! "E6AA950AE6AA830AE6AAA80AE6AAA40AE6AA910AE6A9BF0AE6AAA60AE6AA9A0AE6AA850AE6AA8C0AE6AA920AE6AD9B0A
  E6AEAD0AE6B0890AE6BF8C0AE6BEA90AE6BFB40AE6BF940AE6BFA30AE6BF9C0AE6BFAD0AE6BFA70AE6BFA60AE6BF9E0A
  E6BFB20AE6BF9D0AE6BFA20AE6BFA80AE787A10AE787B10AE787A80AE787B20AE787A40AE787B00AE787A20AE78DB30A
  E78DAE0AE78DAF0AE792970AE792B20AE792AB0AE792900AE792AA0AE792AD0AE792B10AE792A50AE792AF0AE794900A
  E794910AE794920AE7948F0AE796840AE799830AE799880AE799890AE799870AE79AA40AE79BA90AE79EB50AE79EAB0A
  E79EB20AE79EB70AE79EB60AE79EB40AE79EB10AE79EA80AE79FB00AE7A3B30AE7A3BD0AE7A4820AE7A3BB0AE7A3BC0A
  E7A3B20AE7A4850AE7A3B90AE7A3BE0AE7A4840AE7A6AB0AE7A6A80AE7A99C0AE7A99B0AE7A9960AE7A9980AE7A9940A
  E7A99A0AE7AABE0AE7AB800AE7AB810AE7B0850AE7B08F0AE7AFB20AE7B0800AE7AFBF0AE7AFBB0AE7B08E0AE7AFB40A
  E7B08B0AE7AFB30AE7B0820AE7B0890AE7B0830AE7B0810AE7AFB80AE7AFBD0AE7B0860AE7AFB00AE7AFB10AE7B0900A
  E7B08A0AE7B3A80AE7B8AD0AE7B8BC0AE7B9820AE7B8B30AE9A1880AE7B8B80AE7B8AA0AE7B9890AE7B9800AE7B9870A
  E7B8A90AE7B98C0AE7B8B00AE7B8BB0AE7B8B60AE7B9840AE7B8BA0AE7BD850AE7BDBF0AE7BDBE0AE7BDBD0AE7BFB40A
  E7BFB20AE880AC0AE886BB0AE887840AE8878C0AE8878A0AE887850AE887870AE886BC0AE887A90AE8899B0AE8899A0A
  E8899C0AE896830AE896800AE8968F0AE896A70AE896950AE896A00AE8968B0AE896A30AE895BB0AE896A40AE8969A0A
  E8969E0A"

/-- tests/test_data/whatwg/big5_whatwg_test_encode_in.txt, part 109 -/
noncomputable def encodeIn108 : List Nat := hex! "E6AA950AE6AA830AE6AAA80AE6AAA40AE6AA910AE6A9BF0AE6AAA60AE6AA9A0AE6AA850AE6AA8C0AE6AA920AE6AD9B0A
  E6AEAD0AE6B0890AE6BF8C0AE6BEA90AE6BFB40AE6BF940AE6BFA30AE6BF9C0AE6BFAD0AE6BFA70AE6BFA60AE6BF9E0A
  E6BFB20AE6BF9D0AE6BFA20AE6BFA80AE787A10AE787B10AE787A80AE787B20AE787A40AE787B00AE787A20AE78DB30A
  E78DAE0AE78DAF0AE792970AE792B20AE792AB0AE792900AE792AA0AE792AD0AE792B10AE792A50AE792AF0AE794900A
  E794910AE794920AE7948F0AE796840AE799830AE799880AE799890AE799870AE79AA40AE79BA90AE79EB50AE79EAB0A
  E79EB20AE79EB70AE79EB60AE79EB40AE79EB10AE79EA80AE79FB00AE7A3B30AE7A3BD0AE7A4820AE7A3BB0AE7A3BC0A
  E7A3B20AE7A4850AE7A3B90AE7A3BE0AE7A4840AE7A6AB0AE7A6A80AE7A99C0AE7A99B0AE7A9960AE7A9980AE7A9940A
  E7A99A0AE7AABE0AE7AB800AE7AB810AE7B0850AE7B08F0AE7AFB20AE7B0800AE7AFBF0AE7AFBB0AE7B08E0AE7AFB40A
  E7B08B0AE7AFB30AE7B0820AE7B0890AE7B0830AE7B0810AE7AFB80AE7AFBD0AE7AFB00AE7AFB10AE7B0900AE7B08A0A
  E7B3A80AE7B8AD0AE7B8BC0AE7B9820AE7B8B30AE9A1880AE7B8B80AE7B8AA0AE7B9890AE7B9800AE7B9870AE7B8A90A
  E7B98C0AE7B8B00AE7B8BB0AE7B8B60AE7B9840AE7B8BA0AE7BD850AE7BDBF0AE7BDBE0AE7BDBD0AE7BFB40AE7BFB20A
  E880AC0AE886BB0AE887840AE8878C0AE8878A0AE887850AE887870AE886BC0AE887A90AE8899B0AE8899A0AE8899C0A
  E896830AE896800AE8968F0AE896A70AE896950AE896A00AE8968B0AE896A30AE895BB0AE896A40AE8969A0AE8969E0A"

/-- tests/test_data/whatwg/big5_whatwg_test_encode_out.txt, part 109 -/
noncomputable def encodeOut108 : List Nat := hex! "ED400AED410AED420AED430AED440AED450AED460AED470AED480AED490AED4A0AED4B0AED4C0AED4D0AED4E0AED4F0A
  ED500AED510AED520AED530AED540AED550AED560AED570AED580AED590AED5A0AED5B0AED5C0AED5D0AED5E0AED5F0A
  ED600AED610AED620AED630AED640AED650AED660AED670AED680AED690AED6A0AED6B0AED6C0AED6D0AED6E0AED6F0A
  ED700AED710AED720AED730AED740AED750AED760AED770AED780AED790AED7A0AED7B0AED7C0AED7D0AED7E0AEDA10A
  EDA20AEDA30AEDA40AEDA50AEDA60AEDA70AEDA80AEDA90AEDAA0AEDAB0AEDAC0AEDAD0AEDAE0AEDAF0AEDB00AEDB10A
  EDB20AEDB30AEDB40AEDB50AEDB60AEDB70AEDB80AEDB90AEDBA0AEDBB0AEDBC0AEDBD0AEDBE0AEDBF0AEDC00AEDC10A
  EDC20AEDC30AEDC40AEDC50AEDC60AEDC70AEDC80AEDC90AEDCB0AEDCC0AEDCD0AEDCE0AEDCF0AEDD00AEDD10AEDD20A
  EDD30AEDD40AEDD50AEDD60AEDD70AEDD80AEDD90AEDDA0AEDDB0AEDDC0AEDDD0AEDDE0AEDDF0AEDE00AEDE10AEDE20A
  EDE30AEDE40AEDE50AEDE60AEDE70AEDE80AEDE90AEDEA0AEDEB0AEDEC0AEDED0AEDEE0AEDEF0AEDF00AEDF10AEDF20A
  EDF30AEDF40AEDF50AEDF60AEDF70AEDF80AEDF90AEDFA0AEDFB0AEDFC0AEDFD0AEDFE0A"

/-- tests/test_data/whatwg/big5_whatwg_test_decode_in.txt, part 110 -/
noncomputable def decodeIn109 : List Nat := hex! "EE400AEE410AEE420AEE430AEE440AEE450AEE460AEE470AEE480AEE490AEE4A0AEE4B0AEE4C0AEE4D0AEE4E0AEE4F0A
  EE500AEE510AEE520AEE530AEE540AEE550AEE560AEE570AEE580AEE590AEE5A0AEE5B0AEE5C0AEE5D0AEE5E0AEE5F0A
  EE600AEE610AEE620AEE630AEE640AEE650AEE660AEE670AEE680AEE690AEE6A0AEE6B0AEE6C0AEE6D0AEE6E0AEE6F0A
  EE700AEE710AEE720AEE730AEE740AEE750AEE760AEE770AEE780AEE790AEE7A0AEE7B0AEE7C0AEE7D0AEE7E0AEEA10A
  EEA20AEEA30AEEA40AEEA50AEEA60AEEA70AEEA80AEEA90AEEAA0AEEAB0AEEAC0AEEAD0AEEAE0AEEAF0AEEB00AEEB10A
  EEB20AEEB30AEEB40AEEB50AEEB60AEEB70AEEB80AEEB90AEEBA0AEEBB0AEEBC0AEEBD0AEEBE0AEEBF0AEEC00AEEC10A
  EEC20AEEC30AEEC40AEEC50AEEC60AEEC70AEEC80AEEC90AEECA0AEECB0AEECC0AEECD0AEECE0AEECF0AEED00AEED10A
  EED20AEED30AEED40AEED50AEED60AEED70AEED80AEED90AEEDA0AEEDB0AEEDC0AEEDD0AEEDE0AEEDF0AEEE00AEEE10A
  EEE20AEEE30AEEE40AEEE50AEEE60AEEE70AEEE80AEEE90AEEEA0AEEEB0AEEEC0AEEED0AEEEE0AEEEF0AEEF00AEEF10A
  EEF20AEEF30AEEF40AEEF50AEEF60AEEF70AEEF80AEEF90AEEFA0AEEFB0AEEFC0AEEFD0AEEFE0A"

/-- tests/test_data/whatwg/big5_whatwg_test_decode_out.txt, part 110 -/
noncomputable def decodeOut109 : List Nat := hex! "E895B70AE895BC0AE896890AE896A10AE895BA0AE895B80AE895970AE8968E0AE896960AE896860AE8968D0AE896990A
  E8969D0AE896810AE896A20AE896820AE896880AE896850AE895B90AE895B60AE896980AE896900AE8969F0AE899A80A
  E89EBE0AE89EAA0AE89EAD0AE89F850AE89EB00AE89EAC0AE89EB90AE89EB50AE89EBC0AE89EAE0AE89F890AE89F830A
  E89F820AE89F8C0AE89EB70AE89EAF0AE89F840AE89F8A0AE89EB40AE89EB60AE89EBF0AE89EB80AE89EBD0AE89F9E0A
  E89EB20AE8A4B50AE8A4B30AE8A4BC0AE8A4BE0AE8A5810AE8A5920AE8A4B70AE8A5820AE8A6AD0AE8A6AF0AE8A6AE0A
  E8A7B20AE8A7B30AE8AC9E0AE8AC980AE8AC960AE8AC910AE8AC850AE8AC8B0AE8ACA20AE8AC8F0AE8AC920AE8AC950A
  E8AC870AE8AC8D0AE8AC880AE8AC860AE8AC9C0AE8AC930AE8AC9A0AE8B18F0AE8B1B00AE8B1B20AE8B1B10AE8B1AF0A
  E8B2950AE8B2940AE8B3B90AE8B5AF0AE8B98E0AE8B98D0AE8B9930AE8B9900AE8B98C0AE8B9870AE8BD830AE8BD800A
  E982850AE981BE0AE984B80AE9869A0AE986A20AE9869B0AE986990AE9869F0AE986A10AE9869D0AE986A00AE98EA10A
  E98E830AE98EAF0AE98DA40AE98D960AE98D870AE98DBC0AE98D980AE98D9C0AE98DB60AE98D890AE98D900AE98D910A
  E98DA00AE98DAD0AE98E8F0AE98D8C0AE98DAA0AE98DB90AE98D970AE98D950AE98D920AE98D8F0AE98DB10AE98DB70A
  E98DBB0AE98DA10AE98D9E0AE98DA30AE98DA70AE98E800AE98D8E0AE98D990AE997870AE997800AE997890AE997830A
  E997850AE996B70AE99AAE0AE99AB00AE99AAC0AE99CA00AE99C9F0AE99C980AE99C9D0AE99C990AE99E9A0AE99EA10A
  E99E9C0A"

/-- tests/test_data/whatwg/big5_whatwg_test_encode_in.txt, part 110 -/
noncomputable def encodeIn109 : List Nat := hex! "E895B70AE895BC0AE896890AE896A10AE895BA0AE895B80AE895970AE8968E0AE896960AE896860AE8968D0AE896990A
  E8969D0AE896810AE896A20AE896820AE896880AE896850AE895B90AE895B60AE896980AE896900AE8969F0AE899A80A
  E89EBE0AE89EAA0AE89EAD0AE89F850AE89EB00AE89EAC0AE89EB90AE89EB50AE89EBC0AE89EAE0AE89F890AE89F830A
  E89F820AE89F8C0AE89EB70AE89EAF0AE89F840AE89F8A0AE89EB40AE89EB60AE89EBF0AE89EB80AE89EBD0AE89F9E0A
  E89EB20AE8A4B50AE8A4B30AE8A4BC0AE8A4BE0AE8A5810AE8A5920AE8A4B70AE8A5820AE8A6AD0AE8A6AF0AE8A6AE0A
  E8A7B20AE8A7B30AE8AC9E0AE8AC980AE8AC960AE8AC910AE8AC850AE8AC8B0AE8ACA20AE8AC8F0AE8AC920AE8AC950A
  E8AC870AE8AC8D0AE8AC880AE8AC860AE8AC9C0AE8AC930AE8AC9A0AE8B18F0AE8B1B00AE8B1B20AE8B1B10AE8B1AF0A
  E8B2950AE8B2940AE8B3B90AE8B5AF0AE8B98E0AE8B98D0AE8B9930AE8B9900AE8B98C0AE8B9870AE8BD830AE8BD800A
  E982850AE981BE0AE984B80AE9869A0AE986A20AE9869B0AE986990AE9869F0AE986A10AE9869D0AE986A00AE98EA10A
  E98E830AE98EAF0AE98DA40AE98D960AE98D870AE98DBC0AE98D980AE98D9C0AE98DB60AE98D890AE98D900AE98D910A
  E98DA00AE98DAD0AE98E8F0AE98D8C0AE98DAA0AE98DB90AE98D970AE98D950AE98D920AE98D8F0AE98DB10AE98DB70A
  E98DBB0AE98DA10AE98D9E0AE98DA30AE98DA70AE98E800AE98D8E0AE98D990AE997870AE997800AE997890AE997830A
  E997850AE996B70AE99AAE0AE99AB00AE99AAC0AE99CA00AE99C9F0AE99C980AE99C9D0AE99C990AE99E9A0AE99EA10A
  E99E9C0A"

/-- tests/test_data/whatwg/big5_whatwg_test_encode_out.txt, part 110 -/
noncomputable def encodeOut109 : List Nat := hex! "EE400AEE410AEE420AEE430AEE440AEE450AEE460AEE470AEE480AEE490AEE4A0AEE4B0AEE4C0AEE4D0AEE4E0AEE4F0A
  EE500AEE510AEE520AEE530AEE540AEE550AEE560AEE570AEE580AEE590AEE5A0AEE5B0AEE5C0AEE5D0AEE5E0AEE5F0A
  EE600AEE610AEE620AEE630AEE640AEE650AEE660AEE670AEE680AEE690AEE6A0AEE6B0AEE6C0AEE6D0AEE6E0AEE6F0A
  EE700AEE710AEE720AEE730AEE740AEE750AEE760AEE770AEE780AEE790AEE7A0AEE7B0AEE7C0AEE7D0AEE7E0AEEA10A
  EEA20AEEA30AEEA40AEEA50AEEA60AEEA70AEEA80AEEA90AEEAA0AEEAB0AEEAC0AEEAD0AEEAE0AEEAF0AEEB00AEEB10A
  EEB20AEEB30AEEB40AEEB50AEEB60AEEB70AEEB80AEEB90AEEBA0AEEBB0AEEBC0AEEBD0AEEBE0AEEBF0AEEC00AEEC10A
  EEC20AEEC30AEEC40AEEC50AEEC60AEEC70AEEC80AEEC90AEECA0AEECB0AEECC0AEECD0AEECE0AEECF0AEED00AEED10A
  EED20AEED30AEED40AEED50AEED60AEED70AEED80AEED90AEEDA0AEEDB0AEEDC0AEEDD0AEEDE0AEEDF0AEEE00AEEE10A
  EEE20AEEE30AEEE40AEEE50AEEE60AEEE70AEEE80AEEE90AEEEA0AEEEB0AEEEC0AEEED0AEEEE0AEEEF0AEEF00AEEF10A
  EEF20AEEF30AEEF40AEEF50AEEF60AEEF70AEEF80AEEF90AEEFA0AEEFB0AEEFC0AEEFD0AEEFE0A"

/-- tests/test_data/whatwg/big5_whatwg_test_decode_in.txt, part 111 -/
noncomputable def decodeIn110 : List Nat := hex! "EF400AEF410AEF420AEF430AEF440AEF450AEF460AEF470AEF480AEF490AEF4A0AEF4B0AEF4C0AEF4D0AEF4E0AEF4F0A
  EF500AEF510AEF520AEF530AEF540AEF550AEF560AEF570AEF580AEF590AEF5A0AEF5B0AEF5C0AEF5D0AEF5E0AEF5F0A
  EF600AEF610AEF620AEF630AEF640AEF650AEF660AEF670AEF680AEF690AEF6A0AEF6B0AEF6C0AEF6D0AEF6E0AEF6F0A
  EF700AEF710AEF720AEF730AEF740AEF750AEF760AEF770AEF780AEF790AEF7A0AEF7B0AEF7C0AEF7D0AEF7E0AEFA10A
  EFA20AEFA30AEFA40AEFA50AEFA60AEFA70AEFA80AEFA90AEFAA0AEFAB0AEFAC0AEFAD0AEFAE0AEFAF0AEFB00AEFB10A
  EFB20AEFB30AEFB40AEFB50AEFB60AEFB70AEFB80AEFB90AEFBA0AEFBB0AEFBC0AEFBD0AEFBE0AEFBF0AEFC00AEFC10A
  EFC20AEFC30AEFC40AEFC50AEFC60AEFC70AEFC80AEFC90AEFCA0AEFCB0AEFCC0AEFCD0AEFCE0AEFCF0AEFD00AEFD10A
  EFD20AEFD30AEFD40AEFD50AEFD60AEFD70AEFD80AEFD90AEFDA0AEFDB0AEFDC0AEFDD0AEFDE0AEFDF0AEFE00AEFE10A
  EFE20AEFE30AEFE40AEFE50AEFE60AEFE70AEFE80AEFE90AEFEA0AEFEB0AEFEC0AEFED0AEFEE0AEFEF0AEFF00AEFF10A
  EFF20AEFF30AEFF40AEFF50AEFF60AEFF70AEFF80AEFF90AEFFA0AEFFB0AEFFC0AEFFD0AEFFE0A"

/-- tests/test_data/whatwg/big5_whatwg_test_decode_out.txt, part 111 -/
noncomputable def decodeOut110 : List Nat := hex! "E99E9E0AE99E9D0AE99F950AE99F940AE99FB10AE9A1810AE9A1840AE9A18A0AE9A1890AE9A1850AE9A1830AE9A4A50A
  E9A4AB0AE9A4AC0AE9A4AA0AE9A4B30AE9A4B20AE9A4AF0AE9A4AD0AE9A4B10AE9A4B00AE9A6980AE9A6A30AE9A6A10A
  E9A8820AE9A7BA0AE9A7B40AE9A7B70AE9A7B90AE9A7B80AE9A7B60AE9A7BB0AE9A7BD0AE9A7BE0AE9A7BC0AE9A8830A
  E9AABE0AE9ABBE0AE9ABBD0AE9AC810AE9ABBC0AE9AD880AE9AE9A0AE9AEA80AE9AE9E0AE9AE9B0AE9AEA60AE9AEA10A
  E9AEA50AE9AEA40AE9AE860AE9AEA20AE9AEA00AE9AEAF0AE9B4B30AE9B5810AE9B5A70AE9B4B60AE9B4AE0AE9B4AF0A
  E9B4B10AE9B4B80AE9B4B00AE9B5850AE9B5820AE9B5830AE9B4BE0AE9B4B70AE9B5800AE9B4BD0AE7BFB50AE9B4AD0A
  E9BA8A0AE9BA890AE9BA8D0AE9BAB00AE9BB880AE9BB9A0AE9BBBB0AE9BBBF0AE9BCA40AE9BCA30AE9BCA20AE9BD940A
  E9BEA00AE584B10AE584AD0AE584AE0AE59A980AE59A9C0AE59A970AE59A9A0AE59A9D0AE59A990AE5A5B00AE5ACBC0A
  E5B1A90AE5B1AA0AE5B7800AE5B9AD0AE5B9AE0AE687980AE6879F0AE687AD0AE687AE0AE687B10AE687AA0AE687B00A
  E687AB0AE687960AE687A90AE693BF0AE694840AE693BD0AE693B80AE694810AE694830AE693BC0AE696940AE6979B0A
  E69B9A0AE69B9B0AE69B980AE6AB850AE6AAB90AE6AABD0AE6ABA10AE6AB860AE6AABA0AE6AAB60AE6AAB70AE6AB870A
  E6AAB40AE6AAAD0AE6AD9E0AE6AF890AE6B08B0AE780870AE7808C0AE7808D0AE780810AE780850AE780940AE7808E0A
  E6BFBF0AE780800AE6BFBB0AE780A60AE6BFBC0AE6BFB70AE7808A0AE788810AE787BF0AE787B90AE788830AE787BD0A
  E78DB60A"

/-- tests/test_data/whatwg/big5_whatwg_test_encode_in.txt, part 111 -/
noncomputable def encodeIn110 : List Nat := hex! "E99E9E0AE99E9D0AE99F950AE99F940AE99FB10AE9A1810AE9A1840AE9A18A0AE9A1890AE9A1850AE9A1830AE9A4A50A
  E9A4AB0AE9A4AC0AE9A4AA0AE9A4B30AE9A4B20AE9A4AF0AE9A4AD0AE9A4B10AE9A4B00AE9A6980AE9A6A30AE9A6A10A
  E9A8820AE9A7BA0AE9A7B40AE9A7B70AE9A7B90AE9A7B80AE9A7B60AE9A7BB0AE9A7BD0AE9A7BE0AE9A7BC0AE9A8830A
  E9AABE0AE9ABBE0AE9ABBD0AE9AC810AE9ABBC0AE9AD880AE9AE9A0AE9AEA80AE9AE9E0AE9AE9B0AE9AEA60AE9AEA10A
  E9AEA50AE9AEA40AE9AE860AE9AEA20AE9AEA00AE9AEAF0AE9B4B30AE9B5810AE9B5A70AE9B4B60AE9B4AE0AE9B4AF0A
  E9B4B10AE9B4B80AE9B4B00AE9B5850AE9B5820AE9B5830AE9B4BE0AE9B4B70AE9B5800AE9B4BD0AE7BFB50AE9B4AD0A
  E9BA8A0AE9BA890AE9BA8D0AE9BAB00AE9BB880AE9BB9A0AE9BBBB0AE9BBBF0AE9BCA40AE9BCA30AE9BCA20AE9BD940A
  E9BEA00AE584B10AE584AD0AE584AE0AE59A980AE59A9C0AE59A970AE59A9A0AE59A9D0AE59A990AE5A5B00AE5ACBC0A
  E5B1A90AE5B1AA0AE5B7800AE5B9AD0AE5B9AE0AE687980AE6879F0AE687AD0AE687AE0AE687B10AE687AA0AE687B00A
  E687AB0AE687960AE687A90AE693BF0AE694840AE693BD0AE693B80AE694810AE694830AE693BC0AE696940AE6979B0A
  E69B9A0AE69B9B0AE69B980AE6AB850AE6AAB90AE6AABD0AE6ABA10AE6AB860AE6AABA0AE6AAB60AE6AAB70AE6AB870A
  E6AAB40AE6AAAD0AE6AD9E0AE6AF890AE6B08B0AE780870AE7808C0AE7808D0AE780810AE780850AE780940AE7808E0A
  E6BFBF0AE780800AE6BFBB0AE780A60AE6BFBC0AE6BFB70AE7808A0AE787BF0AE787B90AE788830AE787BD0AE78DB60A"

/-- tests/test_data/whatwg/big5_whatwg_test_encode_out.txt, part 111 -/
noncomputable def encodeOut110 : List Nat := hex! "EF400AEF410AEF420AEF430AEF440AEF450AEF460AEF470AEF480AEF490AEF4A0AEF4B0AEF4C0AEF4D0AEF4E0AEF4F0A
  EF500AEF510AEF520AEF530AEF540AEF550AEF560AEF570AEF580AEF590AEF5A0AEF5B0AEF5C0AEF5D0AEF5E0AEF5F0A
  EF600AEF610AEF620AEF630AEF640AEF650AEF660AEF670AEF680AEF690AEF6A0AEF6B0AEF6C0AEF6D0AEF6E0AEF6F0A
  EF700AEF710AEF720AEF730AEF740AEF750AEF760AEF770AEF780AEF790AEF7A0AEF7B0AEF7C0AEF7D0AEF7E0AEFA10A
  EFA20AEFA30AEFA40AEFA50AEFA60AEFA70AEFA80AEFA90AEFAA0AEFAB0AEFAC0AEFAD0AEFAE0AEFAF0AEFB00AEFB10A
  EFB20AEFB30AEFB40AEFB50AEFB60AEFB70AEFB80AEFB90AEFBA0AEFBB0AEFBC0AEFBD0AEFBE0AEFBF0AEFC00AEFC10A
  EFC20AEFC30AEFC40AEFC50AEFC60AEFC70AEFC80AEFC90AEFCA0AEFCB0AEFCC0AEFCD0AEFCE0AEFCF0AEFD00AEFD10A
  EFD20AEFD30AEFD40AEFD50AEFD60AEFD70AEFD80AEFD90AEFDA0AEFDB0AEFDC0AEFDD0AEFDE0AEFDF0AEFE00AEFE10A
  EFE20AEFE30AEFE40AEFE50AEFE60AEFE70AEFE80AEFE90AEFEA0AEFEB0AEFEC0AEFED0AEFEE0AEFEF0AEFF00AEFF10A
  EFF20AEFF30AEFF40AEFF50AEFF60AEFF70AEFF80AEFFA0AEFFB0AEFFC0AEFFD0AEFFE0A"

/-- tests/test_data/whatwg/big5_whatwg_test_decode_in.txt, part 112 -/
noncomputable def decodeIn111 : List Nat := hex! "F0400AF0410AF0420AF0430AF0440AF0450AF0460AF0470AF0480AF0490AF04A0AF04B0AF04C0AF04D0AF04E0AF04F0A
  F0500AF0510AF0520AF0530AF0540AF0550AF0560AF0570AF0580AF0590AF05A0AF05B0AF05C0AF05D0AF05E0AF05F0A
  F0600AF0610AF0620AF0630AF0640AF0650AF0660AF0670AF0680AF0690AF06A0AF06B0AF06C0AF06D0AF06E0AF06F0A
  F0700AF0710AF0720AF0730AF0740AF0750AF0760AF0770AF0780AF0790AF07A0AF07B0AF07C0AF07D0AF07E0AF0A10A
  F0A20AF0A30AF0A40AF0A50AF0A60AF0A70AF0A80AF0A90AF0AA0AF0AB0AF0AC0AF0AD0AF0AE0AF0AF0AF0B00AF0B10A
  F0B20AF0B30AF0B40AF0B50AF0B60AF0B70AF0B80AF0B90AF0BA0AF0BB0AF0BC0AF0BD0AF0BE0AF0BF0AF0C00AF0C10A
  F0C20AF0C30AF0C40AF0C50AF0C60AF0C70AF0C80AF0C90AF0CA0AF0CB0AF0CC0AF0CD0AF0CE0AF0CF0AF0D00AF0D10A
  F0D20AF0D30AF0D40AF0D50AF0D60AF0D70AF0D80AF0D90AF0DA0AF0DB0AF0DC0AF0DD0AF0DE0AF0DF0AF0E00AF0E10A
  F0E20AF0E30AF0E40AF0E50AF0E60AF0E70AF0E80AF0E90AF0EA0AF0EB0AF0EC0AF0ED0AF0EE0AF0EF0AF0F00AF0F10A
  F0F20AF0F30AF0F40AF0F50AF0F60AF0F70AF0F80AF0F90AF0FA0AF0FB0AF0FC0AF0FD0AF0FE0A"

/-- tests/test_data/whatwg/big5_whatwg_test_decode_out.txt, part 112 -/
noncomputable def decodeOut111 : List Nat := hex! "E792B80AE793800AE792B50AE793810AE792BE0AE792B60AE792BB0AE793820AE794940AE794930AE7999C0AE799A40A
  E799990AE799900AE799930AE799970AE7999A0AE79AA60AE79ABD0AE79BAC0AE79F820AE79EBA0AE7A3BF0AE7A48C0A
  E7A4930AE7A4940AE7A4890AE7A4900AE7A4920AE7A4910AE7A6AD0AE7A6AC0AE7A99F0AE7B09C0AE7B0A90AE7B0990A
  E7B0A00AE7B09F0AE7B0AD0AE7B09D0AE7B0A60AE7B0A80AE7B0A20AE7B0A50AE7B0B00AE7B99C0AE7B9900AE7B9960A
  E7B9A30AE7B9980AE7B9A20AE7B99F0AE7B9910AE7B9A00AE7B9970AE7B9930AE7BEB50AE7BEB30AE7BFB70AE7BFB80A
  E881B50AE887910AE887920AE887900AE8899F0AE8899E0AE896B40AE897860AE897800AE897830AE897820AE896B30A
  E896B50AE896BD0AE897870AE897840AE896BF0AE8978B0AE8978E0AE897880AE897850AE896B10AE896B60AE897920A
  E898A40AE896B80AE896B70AE896BE0AE899A90AE89FA70AE89FA60AE89FA20AE89F9B0AE89FAB0AE89FAA0AE89FA50A
  E89F9F0AE89FB30AE89FA40AE89F940AE89F9C0AE89F930AE89FAD0AE89F980AE89FA30AE89EA40AE89F970AE89F990A
  E8A0810AE89FB40AE89FA80AE89F9D0AE8A5930AE8A58B0AE8A58F0AE8A58C0AE8A5860AE8A5900AE8A5910AE8A5890A
  E8ACAA0AE8ACA70AE8ACA30AE8ACB30AE8ACB00AE8ACB50AE8AD870AE8ACAF0AE8ACBC0AE8ACBE0AE8ACB10AE8ACA50A
  E8ACB70AE8ACA60AE8ACB60AE8ACAE0AE8ACA40AE8ACBB0AE8ACBD0AE8ACBA0AE8B1820AE8B1B50AE8B2990AE8B2980A
  E8B2970AE8B3BE0AE8B4840AE8B4820AE8B4800AE8B99C0AE8B9A20AE8B9A00AE8B9970AE8B9960AE8B99E0AE8B9A50A
  E8B9A70A"

/-- tests/test_data/whatwg/big5_whatwg_test_encode_in.txt, part 112 -/
noncomputable def encodeIn111 : List Nat := hex! "E792B80AE793800AE792B50AE793810AE792BE0AE792B60AE792BB0AE793820AE794940AE794930AE7999C0AE799A40A
  E799990AE799900AE799930AE799970AE7999A0AE79AA60AE79ABD0AE79BAC0AE79F820AE79EBA0AE7A3BF0AE7A48C0A
  E7A4930AE7A4940AE7A4890AE7A4900AE7A4920AE7A4910AE7A6AD0AE7A6AC0AE7A99F0AE7B09C0AE7B0A90AE7B0990A
  E7B0A00AE7B09F0AE7B0AD0AE7B09D0AE7B0A60AE7B0A80AE7B0A20AE7B0A50AE7B0B00AE7B99C0AE7B9900AE7B9960A
  E7B9A30AE7B9980AE7B9A20AE7B99F0AE7B9910AE7B9A00AE7B9970AE7B9930AE7BEB50AE7BEB30AE7BFB70AE7BFB80A
  E881B50AE887910AE887920AE887900AE8899F0AE8899E0AE896B40AE897860AE897800AE897830AE897820AE896B30A
  E896B50AE896BD0AE897870AE897840AE896BF0AE8978B0AE8978E0AE897880AE897850AE896B10AE896B60AE897920A
  E898A40AE896B80AE896B70AE896BE0AE899A90AE89FA70AE89FA60AE89FA20AE89F9B0AE89FAB0AE89FAA0AE89FA50A
  E89F9F0AE89FB30AE89FA40AE89F940AE89F9C0AE89F930AE89FAD0AE89F980AE89FA30AE89EA40AE89F970AE89F990A
  E8A0810AE89FB40AE89FA80AE89F9D0AE8A5930AE8A58B0AE8A58F0AE8A58C0AE8A5860AE8A5900AE8A5910AE8A5890A
  E8ACAA0AE8ACA70AE8ACA30AE8ACB30AE8ACB00AE8ACB50AE8AD870AE8ACAF0AE8ACBC0AE8ACBE0AE8ACB10AE8ACA50A
  E8ACB70AE8ACA60AE8ACB60AE8ACAE0AE8ACA40AE8ACBB0AE8ACBD0AE8ACBA0AE8B1820AE8B1B50AE8B2990AE8B2980A
  E8B2970AE8B3BE0AE8B4840AE8B4820AE8B4800AE8B99C0AE8B9A20AE8B9A00AE8B9970AE8B9960AE8B99E0AE8B9A50A
  E8B9A70A"

/-- tests/test_data/whatwg/big5_whatwg_test_encode_out.txt, part 112 -/
noncomputable def encodeOut111 : List Nat := hex! "F0400AF0410AF0420AF0430AF0440AF0450AF0460AF0470AF0480AF0490AF04A0AF04B0AF04C0AF04D0AF04E0AF04F0A
  F0500AF0510AF0520AF0530AF0540AF0550AF0560AF0570AF0580AF0590AF05A0AF05B0AF05C0AF05D0AF05E0AF05F0A
  F0600AF0610AF0620AF0630AF0640AF0650AF0660AF0670AF0680AF0690AF06A0AF06B0AF06C0AF06D0AF06E0AF06F0A
  F0700AF0710AF0720AF0730AF0740AF0750AF0760AF0770AF0780AF0790AF07A0AF07B0AF07C0AF07D0AF07E0AF0A10A
  F0A20AF0A30AF0A40AF0A50AF0A60AF0A70AF0A80AF0A90AF0AA0AF0AB0AF0AC0AF0AD0AF0AE0AF0AF0AF0B00AF0B10A
  F0B20AF0B30AF0B40AF0B50AF0B60AF0B70AF0B80AF0B90AF0BA0AF0BB0AF0BC0AF0BD0AF0BE0AF0BF0AF0C00AF0C10A
  F0C20AF0C30AF0C40AF0C50AF0C60AF0C70AF0C80AF0C90AF0CA0AF0CB0AF0CC0AF0CD0AF0CE0AF0CF0AF0D00AF0D10A
  F0D20AF0D30AF0D40AF0D50AF0D60AF0D70AF0D80AF0D90AF0DA0AF0DB0AF0DC0AF0DD0AF0DE0AF0DF0AF0E00AF0E10A
  F0E20AF0E30AF0E40AF0E50AF0E60AF0E70AF0E80AF0E90AF0EA0AF0EB0AF0EC0AF0ED0AF0EE0AF0EF0AF0F00AF0F10A
  F0F20AF0F30AF0F40AF0F50AF0F60AF0F70AF0F80AF0F90AF0FA0AF0FB0AF0FC0AF0FD0AF0FE0A"

/-- tests/test_data/whatwg/big5_whatwg_test_decode_in.txt, part 113 -/
noncomputable def decodeIn112 : List Nat := hex! "F1400AF1410AF1420AF1430AF1440AF1450AF1460AF1470AF1480AF1490AF14A0AF14B0AF14C0AF14D0AF14E0AF14F0A
  F1500AF1510AF1520AF1530AF1540AF1550AF1560AF1570AF1580AF1590AF15A0AF15B0AF15C0AF15D0AF15E0AF15F0A
  F1600AF1610AF1620AF1630AF1640AF1650AF1660AF1670AF1680AF1690AF16A0AF16B0AF16C0AF16D0AF16E0AF16F0A
  F1700AF1710AF1720AF1730AF1740AF1750AF1760AF1770AF1780AF1790AF17A0AF17B0AF17C0AF17D0AF17E0AF1A10A
  F1A20AF1A30AF1A40AF1A50AF1A60AF1A70AF1A80AF1A90AF1AA0AF1AB0AF1AC0AF1AD0AF1AE0AF1AF0AF1B00AF1B10A
  F1B20AF1B30AF1B40AF1B50AF1B60AF1B70AF1B80AF1B90AF1BA0AF1BB0AF1BC0AF1BD0AF1BE0AF1BF0AF1C00AF1C10A
  F1C20AF1C30AF1C40AF1C50AF1C60AF1C70AF1C80AF1C90AF1CA0AF1CB0AF1CC0AF1CD0AF1CE0AF1CF0AF1D00AF1D10A
  F1D20AF1D30AF1D40AF1D50AF1D60AF1D70AF1D80AF1D90AF1DA0AF1DB0AF1DC0AF1DD0AF1DE0AF1DF0AF1E00AF1E10A
  F1E20AF1E30AF1E40AF1E50AF1E60AF1E70AF1E80AF1E90AF1EA0AF1EB0AF1EC0AF1ED0AF1EE0AF1EF0AF1F00AF1F10A
  F1F20AF1F30AF1F40AF1F50AF1F60AF1F70AF1F80AF1F90AF1FA0AF1FB0AF1FC0AF1FD0AF1FE0A"

/-- tests/test_data/whatwg/big5_whatwg_test_decode_out.txt, part 113 -/
noncomputable def decodeOut112 : List Nat := hex! "E8B99B0AE8B99A0AE8B9A10AE8B99D0AE8B9A90AE8B9940AE8BD860AE8BD870AE8BD880AE8BD8B0AE984A80AE984BA0A
  E984BB0AE984BE0AE986A80AE986A50AE986A70AE986AF0AE986AA0AE98EB50AE98E8C0AE98E920AE98EB70AE98E9B0A
  E98E9D0AE98E890AE98EA70AE98E8E0AE98EAA0AE98E9E0AE98EA60AE98E950AE98E880AE98E990AE98E9F0AE98E8D0A
  E98EB10AE98E910AE98EB20AE98EA40AE98EA80AE98EB40AE98EA30AE98EA50AE997920AE997930AE997910AE99AB30A
  E99B970AE99B9A0AE5B7820AE99B9F0AE99B980AE99B9D0AE99CA30AE99CA20AE99CA50AE99EAC0AE99EAE0AE99EA80A
  E99EAB0AE99EA40AE99EAA0AE99EA20AE99EA50AE99F970AE99F990AE99F960AE99F980AE99FBA0AE9A1900AE9A1910A
  E9A1920AE9A2B80AE9A5810AE9A4BC0AE9A4BA0AE9A88F0AE9A88B0AE9A8890AE9A88D0AE9A8840AE9A8910AE9A88A0A
  E9A8850AE9A8870AE9A8860AE9AB800AE9AB9C0AE9AC880AE9AC840AE9AC850AE9ACA90AE9ACB50AE9AD8A0AE9AD8C0A
  E9AD8B0AE9AF870AE9AF860AE9AF830AE9AEBF0AE9AF810AE9AEB50AE9AEB80AE9AF930AE9AEB60AE9AF840AE9AEB90A
  E9AEBD0AE9B59C0AE9B5930AE9B58F0AE9B58A0AE9B59B0AE9B58B0AE9B5990AE9B5960AE9B58C0AE9B5970AE9B5920A
  E9B5940AE9B59F0AE9B5980AE9B59A0AE9BA8E0AE9BA8C0AE9BB9F0AE9BC810AE9BC800AE9BC960AE9BCA50AE9BCAB0A
  E9BCAA0AE9BCA90AE9BCA80AE9BD8C0AE9BD950AE584B40AE584B50AE58A960AE58BB70AE58EB40AE59AAB0AE59AAD0A
  E59AA60AE59AA70AE59AAA0AE59AAC0AE5A39A0AE5A39D0AE5A39B0AE5A4920AE5ACBD0AE5ACBE0AE5ACBF0AE5B7830A
  E5B9B00A"

/-- tests/test_data/whatwg/big5_whatwg_test_encode_in.txt, part 113 -/
noncomputable def encodeIn112 : List Nat := hex! "E8B99B0AE8B99A0AE8B9A10AE8B99D0AE8B9A90AE8B9940AE8BD860AE8BD870AE8BD880AE8BD8B0AE984A80AE984BA0A
  E984BB0AE984BE0AE986A80AE986A50AE986A70AE986AF0AE986AA0AE98EB50AE98E8C0AE98E920AE98EB70AE98E9B0A
  E98E9D0AE98E890AE98EA70AE98E8E0AE98EAA0AE98E9E0AE98EA60AE98E950AE98E880AE98E990AE98E9F0AE98E8D0A
  E98EB10AE98E910AE98EB20AE98EA40AE98EA80AE98EB40AE98EA30AE98EA50AE997920AE997930AE997910AE99AB30A
  E99B970AE99B9A0AE5B7820AE99B9F0AE99B980AE99B9D0AE99CA30AE99CA20AE99CA50AE99EAC0AE99EAE0AE99EA80A
  E99EAB0AE99EA40AE99EAA0AE99EA20AE99EA50AE99F970AE99F990AE99F960AE99F980AE99FBA0AE9A1900AE9A1910A
  E9A1920AE9A2B80AE9A5810AE9A4BC0AE9A4BA0AE9A88F0AE9A88B0AE9A8890AE9A88D0AE9A8840AE9A8910AE9A88A0A
  E9A8850AE9A8870AE9A8860AE9AB800AE9AB9C0AE9AC880AE9AC840AE9AC850AE9ACA90AE9ACB50AE9AD8A0AE9AD8C0A
  E9AD8B0AE9AF870AE9AF860AE9AF830AE9AEBF0AE9AF810AE9AEB50AE9AEB80AE9AF930AE9AEB60AE9AF840AE9AEB90A
  E9AEBD0AE9B59C0AE9B5930AE9B58F0AE9B58A0AE9B59B0AE9B58B0AE9B5990AE9B5960AE9B58C0AE9B5970AE9B5920A
  E9B5940AE9B59F0AE9B5980AE9B59A0AE9BA8E0AE9BA8C0AE9BB9F0AE9BC810AE9BC800AE9BCA50AE9BCAB0AE9BCAA0A
  E9BCA90AE9BCA80AE9BD8C0AE9BD950AE584B40AE584B50AE58A960AE58BB70AE58EB40AE59AAB0AE59AAD0AE59AA60A
  E59AA70AE59AAA0AE59AAC0AE5A39A0AE5A39D0AE5A39B0AE5A4920AE5ACBD0AE5ACBE0AE5ACBF0AE5B7830AE5B9B00A"

/-- tests/test_data/whatwg/big5_whatwg_test_encode_out.txt, part 113 -/
noncomputable def encodeOut112 : List Nat := hex! "F1400AF1410AF1420AF1430AF1440AF1450AF1460AF1470AF1480AF1490AF14A0AF14B0AF14C0AF14D0AF14E0AF14F0A
  F1500AF1510AF1520AF1530AF1540AF1550AF1560AF1570AF1580AF1590AF15A0AF15B0AF15C0AF15D0AF15E0AF15F0A
  F1600AF1610AF1620AF1630AF1640AF1650AF1660AF1670AF1680AF1690AF16A0AF16B0AF16C0AF16D0AF16E0AF16F0A
  F1700AF1710AF1720AF1730AF1740AF1750AF1760AF1770AF1780AF1790AF17A0AF17B0AF17C0AF17D0AF17E0AF1A10A
  F1A20AF1A30AF1A40AF1A50AF1A60AF1A70AF1A80AF1A90AF1AA0AF1AB0AF1AC0AF1AD0AF1AE0AF1AF0AF1B00AF1B10A
  F1B20AF1B30AF1B40AF1B50AF1B60AF1B70AF1B80AF1B90AF1BA0AF1BB0AF1BC0AF1BD0AF1BE0AF1BF0AF1C00AF1C10A
  F1C20AF1C30AF1C40AF1C50AF1C60AF1C70AF1C80AF1C90AF1CA0AF1CB0AF1CC0AF1CD0AF1CE0AF1CF0AF1D00AF1D10A
  F1D20AF1D30AF1D40AF1D50AF1D60AF1D70AF1D80AF1D90AF1DA0AF1DB0AF1DC0AF1DD0AF1DE0AF1DF0AF1E00AF1E10A
  F1E20AF1E40AF1E50AF1E60AF1E70AF1E80AF1E90AF1EA0AF1EB0AF1EC0AF1ED0AF1EE0AF1EF0AF1F00AF1F10AF1F20A
  F1F30AF1F40AF1F50AF1F60AF1F70AF1F80AF1F90AF1FA0AF1FB0AF1FC0AF1FD0AF1FE0A"

/-- tests/test_data/whatwg/big5_whatwg_test_decode_in.txt, part 114 -/
noncomputable def decodeIn113 : List Nat := hex! "F2400AF2410AF2420AF2430AF2440AF2450AF2460AF2470AF2480AF2490AF24A0AF24B0AF24C0AF24D0AF24E0AF24F0A
  F2500AF2510AF2520AF2530AF2540AF2550AF2560AF2570AF2580AF2590AF25A0AF25B0AF25C0AF25D0AF25E0AF25F0A
  F2600AF2610AF2620AF2630AF2640AF2650AF2660AF2670AF2680AF2690AF26A0AF26B0AF26C0AF26D0AF26E0AF26F0A
  F2700AF2710AF2720AF2730AF2740AF2750AF2760AF2770AF2780AF2790AF27A0AF27B0AF27C0AF27D0AF27E0AF2A10A
  F2A20AF2A30AF2A40AF2A50AF2A60AF2A70AF2A80AF2A90AF2AA0AF2AB0AF2AC0AF2AD0AF2AE0AF2AF0AF2B00AF2B10A
  F2B20AF2B30AF2B40AF2B50AF2B60AF2B70AF2B80AF2B90AF2BA0AF2BB0AF2BC0AF2BD0AF2BE0AF2BF0AF2C00AF2C10A
  F2C20AF2C30AF2C40AF2C50AF2C60AF2C70AF2C80AF2C90AF2CA0AF2CB0AF2CC0AF2CD0AF2CE0AF2CF0AF2D00AF2D10A
  F2D20AF2D30AF2D40AF2D50AF2D60AF2D70AF2D80AF2D90AF2DA0AF2DB0AF2DC0AF2DD0AF2DE0AF2DF0AF2E00AF2E10A
  F2E20AF2E30AF2E40AF2E50AF2E60AF2E70AF2E80AF2E90AF2EA0AF2EB0AF2EC0AF2ED0AF2EE0AF2EF0AF2F00AF2F10A
  F2F20AF2F30AF2F40AF2F50AF2F60AF2F70AF2F80AF2F90AF2FA0AF2FB0AF2FC0AF2FD0AF2FE0A"

/-- tests/test_data/whatwg/big5_whatwg_test_decode_out.txt, part 114 -/
noncomputable def decodeOut113 : List Nat := hex! "E5BEBF0AE687BB0AE694870AE694900AE6948D0AE694890AE6948C0AE6948E0AE696840AE6979E0AE6979D0AE69B9E0A
  E6ABA70AE6ABA00AE6AB8C0AE6AB910AE6AB990AE6AB8B0AE6AB9F0AE6AB9C0AE6AB900AE6ABAB0AE6AB8F0AE6AB8D0A
  E6AB9E0AE6ADA00AE6AEB00AE6B08C0AE780990AE780A70AE780A00AE780960AE780AB0AE780A10AE780A20AE780A30A
  E780A90AE780970AE780A40AE7809C0AE780AA0AE7888C0AE7888A0AE788870AE788820AE788850AE78AA50AE78AA60A
  E78AA40AE78AA30AE78AA10AE7938B0AE793850AE792B70AE793830AE794960AE799A00AE79F890AE79F8A0AE79F840A
  E79FB10AE7A49D0AE7A49B0AE7A4A10AE7A49C0AE7A4970AE7A49E0AE7A6B00AE7A9A70AE7A9A80AE7B0B30AE7B0BC0A
  E7B0B90AE7B0AC0AE7B0BB0AE7B3AC0AE7B3AA0AE7B9B60AE7B9B50AE7B9B80AE7B9B00AE7B9B70AE7B9AF0AE7B9BA0A
  E7B9B20AE7B9B40AE7B9A80AE7BD8B0AE7BD8A0AE7BE830AE7BE860AE7BEB70AE7BFBD0AE7BFBE0AE881B80AE887970A
  E887950AE889A40AE889A10AE889A30AE897AB0AE897B10AE897AD0AE897990AE897A10AE897A80AE8979A0AE897970A
  E897AC0AE897B20AE897B80AE897980AE8979F0AE897A30AE8979C0AE897910AE897B00AE897A60AE897AF0AE8979E0A
  E897A20AE8A0800AE89FBA0AE8A0830AE89FB60AE89FB70AE8A0890AE8A08C0AE8A08B0AE8A0860AE89FBC0AE8A0880A
  E89FBF0AE8A08A0AE8A0820AE8A5A20AE8A59A0AE8A59B0AE8A5970AE8A5A10AE8A59C0AE8A5980AE8A59D0AE8A5990A
  E8A6880AE8A6B70AE8A6B60AE8A7B60AE8AD900AE8AD880AE8AD8A0AE8AD800AE8AD930AE8AD960AE8AD940AE8AD8B0A
  E8AD950A"

/-- tests/test_data/whatwg/big5_whatwg_test_encode_in.txt, part 114 -/
noncomputable def encodeIn113 : List Nat := hex! "E5BEBF0AE687BB0AE694870AE694900AE6948D0AE694890AE6948C0AE6948E0AE696840AE6979E0AE6979D0AE69B9E0A
  E6ABA70AE6ABA00AE6AB8C0AE6AB910AE6AB990AE6AB8B0AE6AB9F0AE6AB9C0AE6AB900AE6ABAB0AE6AB8F0AE6AB8D0A
  E6AB9E0AE6ADA00AE6AEB00AE6B08C0AE780990AE780A70AE780A00AE780960AE780AB0AE780A10AE780A20AE780A30A
  E780A90AE780970AE780A40AE7809C0AE780AA0AE7888C0AE7888A0AE788870AE788820AE788850AE78AA50AE78AA60A
  E78AA40AE78AA30AE78AA10AE7938B0AE793850AE792B70AE793830AE794960AE799A00AE79F890AE79F8A0AE79F840A
  E79FB10AE7A49D0AE7A49B0AE7A4A10AE7A49C0AE7A4970AE7A49E0AE7A6B00AE7A9A70AE7A9A80AE7B0B30AE7B0BC0A
  E7B0B90AE7B0AC0AE7B0BB0AE7B3AC0AE7B3AA0AE7B9B60AE7B9B50AE7B9B80AE7B9B00AE7B9B70AE7B9AF0AE7B9BA0A
  E7B9B20AE7B9B40AE7B9A80AE7BD8B0AE7BD8A0AE7BE830AE7BE860AE7BEB70AE7BFBD0AE7BFBE0AE881B80AE887970A
  E887950AE889A40AE889A10AE889A30AE897AB0AE897B10AE897AD0AE897990AE897A10AE897A80AE8979A0AE897970A
  E897AC0AE897B20AE897B80AE897980AE8979F0AE897A30AE8979C0AE897910AE897B00AE897A60AE897AF0AE8979E0A
  E897A20AE8A0800AE89FBA0AE8A0830AE89FB60AE89FB70AE8A0890AE8A08C0AE8A08B0AE8A0860AE89FBC0AE8A0880A
  E89FBF0AE8A08A0AE8A0820AE8A5A20AE8A59A0AE8A59B0AE8A5970AE8A5A10AE8A59C0AE8A5980AE8A59D0AE8A5990A
  E8A6880AE8A6B70AE8A6B60AE8A7B60AE8AD900AE8AD880AE8AD8A0AE8AD800AE8AD930AE8AD960AE8AD940AE8AD8B0A
  E8AD950A"

/-- tests/test_data/whatwg/big5_whatwg_test_encode_out.txt, part 114 -/
noncomputable def encodeOut113 : List Nat := hex! "F2400AF2410AF2420AF2430AF2440AF2450AF2460AF2470AF2480AF2490AF24A0AF24B0AF24C0AF24D0AF24E0AF24F0A
  F2500AF2510AF2520AF2530AF2540AF2550AF2560AF2570AF2580AF2590AF25A0AF25B0AF25C0AF25D0AF25E0AF25F0A
  F2600AF2610AF2620AF2630AF2640AF2650AF2660AF2670AF2680AF2690AF26A0AF26B0AF26C0AF26D0AF26E0AF26F0A
  F2700AF2710AF2720AF2730AF2740AF2750AF2760AF2770AF2780AF2790AF27A0AF27B0AF27C0AF27D0AF27E0AF2A10A
  F2A20AF2A30AF2A40AF2A50AF2A60AF2A70AF2A80AF2A90AF2AA0AF2AB0AF2AC0AF2AD0AF2AE0AF2AF0AF2B00AF2B10A
  F2B20AF2B30AF2B40AF2B50AF2B60AF2B70AF2B80AF2B90AF2BA0AF2BB0AF2BC0AF2BD0AF2BE0AF2BF0AF2C00AF2C10A
  F2C20AF2C30AF2C40AF2C50AF2C60AF2C70AF2C80AF2C90AF2CA0AF2CB0AF2CC0AF2CD0AF2CE0AF2CF0AF2D00AF2D10A
  F2D20AF2D30AF2D40AF2D50AF2D60AF2D70AF2D80AF2D90AF2DA0AF2DB0AF2DC0AF2DD0AF2DE0AF2DF0AF2E00AF2E10A
  F2E20AF2E30AF2E40AF2E50AF2E60AF2E70AF2E80AF2E90AF2EA0AF2EB0AF2EC0AF2ED0AF2EE0AF2EF0AF2F00AF2F10A
  F2F20AF2F30AF2F40AF2F50AF2F60AF2F70AF2F80AF2F90AF2FA0AF2FB0AF2FC0AF2FD0AF2FE0A"

/-- tests/test_data/whatwg/big5_whatwg_test_decode_in.txt, part 115 -/
noncomputable def decodeIn114 : List Nat := hex! "F3400AF3410AF3420AF3430AF3440AF3450AF3460AF3470AF3480AF3490AF34A0AF34B0AF34C0AF34D0AF34E0AF34F0A
  F3500AF3510AF3520AF3530AF3540AF3550AF3560AF3570AF3580AF3590AF35A0AF35B0AF35C0AF35D0AF35E0AF35F0A
  F3600AF3610AF3620AF3630AF3640AF3650AF3660AF3670AF3680AF3690AF36A0AF36B0AF36C0AF36D0AF36E0AF36F0A
  F3700AF3710AF3720AF3730AF3740AF3750AF3760AF3770AF3780AF3790AF37A0AF37B0AF37C0AF37D0AF37E0AF3A10A
  F3A20AF3A30AF3A40AF3A50AF3A60AF3A70AF3A80AF3A90AF3AA0AF3AB0AF3AC0AF3AD0AF3AE0AF3AF0AF3B00AF3B10A
  F3B20AF3B30AF3B40AF3B50AF3B60AF3B70AF3B80AF3B90AF3BA0AF3BB0AF3BC0AF3BD0AF3BE0AF3BF0AF3C00AF3C10A
  F3C20AF3C30AF3C40AF3C50AF3C60AF3C70AF3C80AF3C90AF3CA0AF3CB0AF3CC0AF3CD0AF3CE0AF3CF0AF3D00AF3D10A
  F3D20AF3D30AF3D40AF3D50AF3D60AF3D70AF3D80AF3D90AF3DA0AF3DB0AF3DC0AF3DD0AF3DE0AF3DF0AF3E00AF3E10A
  F3E20AF3E30AF3E40AF3E50AF3E60AF3E70AF3E80AF3E90AF3EA0AF3EB0AF3EC0AF3ED0AF3EE0AF3EF0AF3F00AF3F10A
  F3F20AF3F30AF3F40AF3F50AF3F60AF3F70AF3F80AF3F90AF3FA0AF3FB0AF3FC0AF3FD0AF3FE0A"

/-- tests/test_data/whatwg/big5_whatwg_test_decode_out.txt, part 115 -/
noncomputable def decodeOut114 : List Nat := hex! "E8AD910AE8AD820AE8AD920AE8AD970AE8B1830AE8B1B70AE8B1B60AE8B29A0AE8B4860AE8B4870AE8B4890AE8B6AC0A
  E8B6AA0AE8B6AD0AE8B6AB0AE8B9AD0AE8B9B80AE8B9B30AE8B9AA0AE8B9AF0AE8B9BB0AE8BB820AE8BD920AE8BD910A
  E8BD8F0AE8BD900AE8BD930AE8BEB40AE985800AE984BF0AE986B00AE986AD0AE98F9E0AE98F870AE98F8F0AE98F820A
  E98F9A0AE98F900AE98FB90AE98FAC0AE98F8C0AE98F990AE98EA90AE98FA60AE98F8A0AE98F940AE98FAE0AE98FA30A
  E98F950AE98F840AE98F8E0AE98F800AE98F920AE98FA70AE995BD0AE9979A0AE9979B0AE99BA10AE99CA90AE99CAB0A
  E99CAC0AE99CA80AE99CA60AE99EB30AE99EB70AE99EB60AE99F9D0AE99F9E0AE99F9F0AE9A19C0AE9A1990AE9A19D0A
  E9A1970AE9A2BF0AE9A2BD0AE9A2BB0AE9A2BE0AE9A5880AE9A5870AE9A5830AE9A6A60AE9A6A70AE9A89A0AE9A8950A
  E9A8A50AE9A89D0AE9A8A40AE9A89B0AE9A8A20AE9A8A00AE9A8A70AE9A8A30AE9A89E0AE9A89C0AE9A8940AE9AB820A
  E9AC8B0AE9AC8A0AE9AC8E0AE9AC8C0AE9ACB70AE9AFAA0AE9AFAB0AE9AFA00AE9AF9E0AE9AFA40AE9AFA60AE9AFA20A
  E9AFB00AE9AF940AE9AF970AE9AFAC0AE9AF9C0AE9AF990AE9AFA50AE9AF950AE9AFA10AE9AF9A0AE9B5B70AE9B6810A
  E9B68A0AE9B6840AE9B6880AE9B5B10AE9B6800AE9B5B80AE9B6860AE9B68B0AE9B68C0AE9B5BD0AE9B5AB0AE9B5B40A
  E9B5B50AE9B5B00AE9B5A90AE9B6850AE9B5B30AE9B5BB0AE9B6820AE9B5AF0AE9B5B90AE9B5BF0AE9B6870AE9B5A80A
  E9BA940AE9BA910AE9BB800AE9BBBC0AE9BCAD0AE9BD800AE9BD810AE9BD8D0AE9BD960AE9BD970AE9BD980AE58CB70A
  E59AB20A"

/-- tests/test_data/whatwg/big5_whatwg_test_encode_in.txt, part 115 -/
noncomputable def encodeIn114 : List Nat := hex! "E8AD910AE8AD820AE8AD920AE8AD970AE8B1830AE8B1B70AE8B1B60AE8B29A0AE8B4860AE8B4870AE8B4890AE8B6AC0A
  E8B6AA0AE8B6AD0AE8B6AB0AE8B9AD0AE8B9B80AE8B9B30AE8B9AA0AE8B9AF0AE8B9BB0AE8BB820AE8BD920AE8BD910A
  E8BD8F0AE8BD900AE8BD930AE8BEB40AE985800AE984BF0AE986B00AE986AD0AE98F9E0AE98F870AE98F8F0AE98F820A
  E98F9A0AE98F900AE98FB90AE98FAC0AE98F8C0AE98F990AE98EA90AE98FA60AE98F8A0AE98F940AE98FAE0AE98FA30A
  E98F950AE98F840AE98F8E0AE98F800AE98F920AE98FA70AE995BD0AE9979A0AE9979B0AE99BA10AE99CA90AE99CAB0A
  E99CAC0AE99CA80AE99CA60AE99EB30AE99EB70AE99EB60AE99F9D0AE99F9E0AE99F9F0AE9A19C0AE9A1990AE9A19D0A
  E9A1970AE9A2BF0AE9A2BD0AE9A2BB0AE9A2BE0AE9A5880AE9A5870AE9A5830AE9A6A60AE9A6A70AE9A89A0AE9A8950A
  E9A8A50AE9A89D0AE9A8A40AE9A89B0AE9A8A20AE9A8A00AE9A8A70AE9A8A30AE9A89E0AE9A89C0AE9A8940AE9AB820A
  E9AC8B0AE9AC8A0AE9AC8E0AE9AC8C0AE9ACB70AE9AFAA0AE9AFAB0AE9AFA00AE9AF9E0AE9AFA40AE9AFA60AE9AFA20A
  E9AFB00AE9AF940AE9AF970AE9AFAC0AE9AF9C0AE9AF990AE9AFA50AE9AF950AE9AFA10AE9AF9A0AE9B5B70AE9B6810A
  E9B68A0AE9B6840AE9B6880AE9B5B10AE9B6800AE9B5B80AE9B6860AE9B68B0AE9B68C0AE9B5BD0AE9B5AB0AE9B5B40A
  E9B5B50AE9B5B00AE9B5A90AE9B6850AE9B5B30AE9B5BB0AE9B6820AE9B5AF0AE9B5B90AE9B5BF0AE9B6870AE9B5A80A
  E9BA940AE9BA910AE9BB800AE9BBBC0AE9BCAD0AE9BD800AE9BD810AE9BD8D0AE9BD960AE9BD970AE9BD980AE58CB70A
  E59AB20A"

/-- tests/test_data/whatwg/big5_whatwg_test_encode_out.txt, part 115 -/
noncomputable def encodeOut114 : List Nat := hex! "F3400AF3410AF3420AF3430AF3440AF3450AF3460AF3470AF3480AF3490AF34A0AF34B0AF34C0AF34D0AF34E0AF34F0A
  F3500AF3510AF3520AF3530AF3540AF3550AF3560AF3570AF3580AF3590AF35A0AF35B0AF35C0AF35D0AF35E0AF35F0A
  F3600AF3610AF3620AF3630AF3640AF3650AF3660AF3670AF3680AF3690AF36A0AF36B0AF36C0AF36D0AF36E0AF36F0A
  F3700AF3710AF3720AF3730AF3740AF3750AF3760AF3770AF3780AF3790AF37A0AF37B0AF37C0AF37D0AF37E0AF3A10A
  F3A20AF3A30AF3A40AF3A50AF3A60AF3A70AF3A80AF3A90AF3AA0AF3AB0AF3AC0AF3AD0AF3AE0AF3AF0AF3B00AF3B10A
  F3B20AF3B30AF3B40AF3B50AF3B60AF3B70AF3B80AF3B90AF3BA0AF3BB0AF3BC0AF3BD0AF3BE0AF3BF0AF3C00AF3C10A
  F3C20AF3C30AF3C40AF3C50AF3C60AF3C70AF3C80AF3C90AF3CA0AF3CB0AF3CC0AF3CD0AF3CE0AF3CF0AF3D00AF3D10A
  F3D20AF3D30AF3D40AF3D50AF3D60AF3D70AF3D80AF3D90AF3DA0AF3DB0AF3DC0AF3DD0AF3DE0AF3DF0AF3E00AF3E10A
  F3E20AF3E30AF3E40AF3E50AF3E60AF3E70AF3E80AF3E90AF3EA0AF3EB0AF3EC0AF3ED0AF3EE0AF3EF0AF3F00AF3F10A
  F3F20AF3F30AF3F40AF3F50AF3F60AF3F70AF3F80AF3F90AF3FA0AF3FB0AF3FC0AF3FD0AF3FE0A"

/-- tests/test_data/whatwg/big5_whatwg_test_decode_in.txt, part 116 -/
noncomputable def decodeIn115 : List Nat := hex! "F4400AF4410AF4420AF4430AF4440AF4450AF4460AF4470AF4480AF4490AF44A0AF44B0AF44C0AF44D0AF44E0AF44F0A
  F4500AF4510AF4520AF4530AF4540AF4550AF4560AF4570AF4580AF4590AF45A0AF45B0AF45C0AF45D0AF45E0AF45F0A
  F4600AF4610AF4620AF4630AF4640AF4650AF4660AF4670AF4680AF4690AF46A0AF46B0AF46C0AF46D0AF46E0AF46F0A
  F4700AF4710AF4720AF4730AF4740AF4750AF4760AF4770AF4780AF4790AF47A0AF47B0AF47C0AF47D0AF47E0AF4A10A
  F4A20AF4A30AF4A40AF4A50AF4A60AF4A70AF4A80AF4A90AF4AA0AF4AB0AF4AC0AF4AD0AF4AE0AF4AF0AF4B00AF4B10A
  F4B20AF4B30AF4B40AF4B50AF4B60AF4B70AF4B80AF4B90AF4BA0AF4BB0AF4BC0AF4BD0AF4BE0AF4BF0AF4C00AF4C10A
  F4C20AF4C30AF4C40AF4C50AF4C60AF4C70AF4C80AF4C90AF4CA0AF4CB0AF4CC0AF4CD0AF4CE0AF4CF0AF4D00AF4D10A
  F4D20AF4D30AF4D40AF4D50AF4D60AF4D70AF4D80AF4D90AF4DA0AF4DB0AF4DC0AF4DD0AF4DE0AF4DF0AF4E00AF4E10A
  F4E20AF4E30AF4E40AF4E50AF4E60AF4E70AF4E80AF4E90AF4EA0AF4EB0AF4EC0AF4ED0AF4EE0AF4EF0AF4F00AF4F10A
  F4F20AF4F30AF4F40AF4F50AF4F60AF4F70AF4F80AF4F90AF4FA0AF4FB0AF4FC0AF4FD0AF4FE0A"

/-- tests/test_data/whatwg/big5_whatwg_test_decode_out.txt, part 116 -/
noncomputable def decodeOut115 : List Nat := hex! "E59AB50AE59AB30AE5A3A30AE5AD850AE5B7860AE5B7870AE5BBAE0AE5BBAF0AE5BF800AE5BF810AE687B90AE694970A
  E694960AE694950AE694930AE6979F0AE69BA80AE69BA30AE69BA40AE6ABB30AE6ABB00AE6ABAA0AE6ABA80AE6ABB90A
  E6ABB10AE6ABAE0AE6ABAF0AE780BC0AE780B50AE780AF0AE780B70AE780B40AE780B10AE781820AE780B80AE780BF0A
  E780BA0AE780B90AE781800AE780BB0AE780B30AE781810AE788930AE788940AE78AA80AE78DBD0AE78DBC0AE792BA0A
  E79AAB0AE79AAA0AE79ABE0AE79BAD0AE79F8C0AE79F8E0AE79F8F0AE79F8D0AE79FB20AE7A4A50AE7A4A30AE7A4A70A
  E7A4A80AE7A4A40AE7A4A90AE7A6B20AE7A9AE0AE7A9AC0AE7A9AD0AE7ABB70AE7B1890AE7B1880AE7B18A0AE7B1870A
  E7B1850AE7B3AE0AE7B9BB0AE7B9BE0AE7BA810AE7BA800AE7BEBA0AE7BFBF0AE881B90AE8879B0AE887990AE8888B0A
  E889A80AE889A90AE898A20AE897BF0AE898810AE897BE0AE8989B0AE898800AE897B60AE898840AE898890AE898850A
  E8988C0AE897BD0AE8A0990AE8A0900AE8A0910AE8A0970AE8A0930AE8A0960AE8A5A30AE8A5A60AE8A6B90AE8A7B70A
  E8ADA00AE8ADAA0AE8AD9D0AE8ADA80AE8ADA30AE8ADA50AE8ADA70AE8ADAD0AE8B6AE0AE8BA860AE8BA880AE8BA840A
  E8BD990AE8BD960AE8BD970AE8BD950AE8BD980AE8BD9A0AE9828D0AE985830AE985810AE986B70AE986B50AE986B20A
  E986B30AE9908B0AE990930AE98FBB0AE990A00AE9908F0AE990940AE98FBE0AE990950AE990900AE990A80AE990990A
  E9908D0AE98FB50AE990800AE98FB70AE990870AE9908E0AE990960AE990920AE98FBA0AE990890AE98FB80AE9908A0A
  E98FBF0A"

/-- tests/test_data/whatwg/big5_whatwg_test_encode_in.txt, part 116 -/
noncomputable def encodeIn115 : List Nat := hex! "E59AB50AE59AB30AE5A3A30AE5AD850AE5B7860AE5B7870AE5BBAE0AE5BBAF0AE5BF800AE5BF810AE687B90AE694970A
  E694960AE694950AE694930AE6979F0AE69BA80AE69BA30AE69BA40AE6ABB30AE6ABB00AE6ABAA0AE6ABA80AE6ABB90A
  E6ABB10AE6ABAE0AE6ABAF0AE780BC0AE780B50AE780AF0AE780B70AE780B40AE780B10AE781820AE780B80AE780BF0A
  E780BA0AE780B90AE781800AE780BB0AE780B30AE781810AE788930AE788940AE78AA80AE78DBD0AE78DBC0AE792BA0A
  E79AAB0AE79AAA0AE79ABE0AE79BAD0AE79F8C0AE79F8E0AE79F8F0AE79F8D0AE79FB20AE7A4A50AE7A4A30AE7A4A70A
  E7A4A80AE7A4A40AE7A4A90AE7A6B20AE7A9AE0AE7A9AC0AE7A9AD0AE7ABB70AE7B1890AE7B1880AE7B18A0AE7B1870A
  E7B1850AE7B3AE0AE7B9BB0AE7B9BE0AE7BA810AE7BA800AE7BEBA0AE7BFBF0AE881B90AE8879B0AE887990AE8888B0A
  E889A80AE889A90AE898A20AE897BF0AE898810AE897BE0AE8989B0AE898800AE897B60AE898840AE898890AE898850A
  E8988C0AE897BD0AE8A0990AE8A0900AE8A0910AE8A0970AE8A0930AE8A0960AE8A5A30AE8A5A60AE8A6B90AE8A7B70A
  E8ADA00AE8ADAA0AE8AD9D0AE8ADA80AE8ADA30AE8ADA50AE8ADA70AE8ADAD0AE8B6AE0AE8BA860AE8BA880AE8BA840A
  E8BD990AE8BD960AE8BD970AE8BD950AE8BD980AE8BD9A0AE9828D0AE985830AE985810AE986B70AE986B50AE986B20A
  E986B30AE9908B0AE990930AE98FBB0AE990A00AE9908F0AE990940AE98FBE0AE990950AE990900AE990A80AE990990A
  E9908D0AE98FB50AE990800AE98FB70AE990870AE9908E0AE990960AE990920AE98FBA0AE990890AE98FB80AE9908A0A
  E98FBF0A"

/-- tests/test_data/whatwg/big5_whatwg_test_encode_out.txt, part 116 -/
noncomputable def encodeOut115 : List Nat := hex! "F4400AF4410AF4420AF4430AF4440AF4450AF4460AF4470AF4480AF4490AF44A0AF44B0AF44C0AF44D0AF44E0AF44F0A
  F4500AF4510AF4520AF4530AF4540AF4550AF4560AF4570AF4580AF4590AF45A0AF45B0AF45C0AF45D0AF45E0AF45F0A
  F4600AF4610AF4620AF4630AF4640AF4650AF4660AF4670AF4680AF4690AF46A0AF46B0AF46C0AF46D0AF46E0AF46F0A
  F4700AF4710AF4720AF4730AF4740AF4750AF4760AF4770AF4780AF4790AF47A0AF47B0AF47C0AF47D0AF47E0AF4A10A
  F4A20AF4A30AF4A40AF4A50AF4A60AF4A70AF4A80AF4A90AF4AA0AF4AB0AF4AC0AF4AD0AF4AE0AF4AF0AF4B00AF4B10A
  F4B20AF4B30AF4B40AF4B50AF4B60AF4B70AF4B80AF4B90AF4BA0AF4BB0AF4BC0AF4BD0AF4BE0AF4BF0AF4C00AF4C10A
  F4C20AF4C30AF4C40AF4C50AF4C60AF4C70AF4C80AF4C90AF4CA0AF4CB0AF4CC0AF4CD0AF4CE0AF4CF0AF4D00AF4D10A
  F4D20AF4D30AF4D40AF4D50AF4D60AF4D70AF4D80AF4D90AF4DA0AF4DB0AF4DC0AF4DD0AF4DE0AF4DF0AF4E00AF4E10A
  F4E20AF4E30AF4E40AF4E50AF4E60AF4E70AF4E80AF4E90AF4EA0AF4EB0AF4EC0AF4ED0AF4EE0AF4EF0AF4F00AF4F10A
  F4F20AF4F30AF4F40AF4F50AF4F60AF4F70AF4F80AF4F90AF4FA0AF4FB0AF4FC0AF4FD0AF4FE0A"

/-- tests/test_data/whatwg/big5_whatwg_test_decode_in.txt, part 117 -/
noncomputable def decodeIn116 : List Nat := hex! "F5400AF5410AF5420AF5430AF5440AF5450AF5460AF5470AF5480AF5490AF54A0AF54B0AF54C0AF54D0AF54E0AF54F0A
  F5500AF5510AF5520AF5530AF5540AF5550AF5560AF5570AF5580AF5590AF55A0AF55B0AF55C0AF55D0AF55E0AF55F0A
  F5600AF5610AF5620AF5630AF5640AF5650AF5660AF5670AF5680AF5690AF56A0AF56B0AF56C0AF56D0AF56E0AF56F0A
  F5700AF5710AF5720AF5730AF5740AF5750AF5760AF5770AF5780AF5790AF57A0AF57B0AF57C0AF57D0AF57E0AF5A10A
  F5A20AF5A30AF5A40AF5A50AF5A60AF5A70AF5A80AF5A90AF5AA0AF5AB0AF5AC0AF5AD0AF5AE0AF5AF0AF5B00AF5B10A
  F5B20AF5B30AF5B40AF5B50AF5B60AF5B70AF5B80AF5B90AF5BA0AF5BB0AF5BC0AF5BD0AF5BE0AF5BF0AF5C00AF5C10A
  F5C20AF5C30AF5C40AF5C50AF5C60AF5C70AF5C80AF5C90AF5CA0AF5CB0AF5CC0AF5CD0AF5CE0AF5CF0AF5D00AF5D10A
  F5D20AF5D30AF5D40AF5D50AF5D60AF5D70AF5D80AF5D90AF5DA0AF5DB0AF5DC0AF5DD0AF5DE0AF5DF0AF5E00AF5E10A
  F5E20AF5E30AF5E40AF5E50AF5E60AF5E70AF5E80AF5E90AF5EA0AF5EB0AF5EC0AF5ED0AF5EE0AF5EF0AF5F00AF5F10A
  F5F20AF5F30AF5F40AF5F50AF5F60AF5F70AF5F80AF5F90AF5FA0AF5FB0AF5FC0AF5FD0AF5FE0A"

/-- tests/test_data/whatwg/big5_whatwg_test_decode_out.txt, part 117 -/
noncomputable def decodeOut116 : List Nat := hex! "E98FBC0AE9908C0AE98FB60AE990910AE990860AE9979E0AE997A00AE9979F0AE99CAE0AE99CAF0AE99EB90AE99EBB0A
  E99FBD0AE99FBE0AE9A1A00AE9A1A20AE9A1A30AE9A19F0AE9A3810AE9A3820AE9A5900AE9A58E0AE9A5990AE9A58C0A
  E9A58B0AE9A5930AE9A8B20AE9A8B40AE9A8B10AE9A8AC0AE9A8AA0AE9A8B60AE9A8A90AE9A8AE0AE9A8B80AE9A8AD0A
  E9AB870AE9AB8A0AE9AB860AE9AC900AE9AC920AE9AC910AE9B08B0AE9B0880AE9AFB70AE9B0850AE9B0920AE9AFB80A
  E9B1800AE9B0870AE9B08E0AE9B0860AE9B0970AE9B0940AE9B0890AE9B69F0AE9B6990AE9B6A40AE9B69D0AE9B6920A
  E9B6980AE9B6900AE9B69B0AE9B6A00AE9B6940AE9B69C0AE9B6AA0AE9B6970AE9B6A10AE9B69A0AE9B6A20AE9B6A80A
  E9B69E0AE9B6A30AE9B6BF0AE9B6A90AE9B6960AE9B6A60AE9B6A70AE9BA990AE9BA9B0AE9BA9A0AE9BBA50AE9BBA40A
  E9BBA70AE9BBA60AE9BCB00AE9BCAE0AE9BD9B0AE9BDA00AE9BD9E0AE9BD9D0AE9BD990AE9BE910AE584BA0AE584B90A
  E58A980AE58A970AE59B830AE59ABD0AE59ABE0AE5AD880AE5AD870AE5B78B0AE5B78F0AE5BBB10AE687BD0AE6949B0A
  E6AC820AE6ABBC0AE6AC830AE6ABB80AE6AC800AE781830AE781840AE7818A0AE781880AE781890AE781850AE781860A
  E7889D0AE7889A0AE788990AE78DBE0AE794970AE799AA0AE79F900AE7A4AD0AE7A4B10AE7A4AF0AE7B1940AE7B1930A
  E7B3B20AE7BA8A0AE7BA870AE7BA880AE7BA8B0AE7BA860AE7BA8D0AE7BD8D0AE7BEBB0AE880B00AE8879D0AE898980A
  E898AA0AE898A60AE8989F0AE898A30AE8989C0AE898990AE898A70AE898AE0AE898A10AE898A00AE898A90AE8989E0A
  E898A50A"

/-- tests/test_data/whatwg/big5_whatwg_test_encode_in.txt, part 117 -/
noncomputable def encodeIn116 : List Nat := hex! "E98FBC0AE9908C0AE98FB60AE990910AE990860AE9979E0AE997A00AE9979F0AE99CAE0AE99CAF0AE99EB90AE99EBB0A
  E99FBD0AE99FBE0AE9A1A00AE9A1A20AE9A1A30AE9A19F0AE9A3810AE9A3820AE9A5900AE9A58E0AE9A5990AE9A58C0A
  E9A58B0AE9A5930AE9A8B20AE9A8B40AE9A8B10AE9A8AC0AE9A8AA0AE9A8B60AE9A8A90AE9A8AE0AE9A8B80AE9A8AD0A
  E9AB870AE9AB8A0AE9AB860AE9AC900AE9AC920AE9AC910AE9B08B0AE9B0880AE9AFB70AE9B0850AE9B0920AE9AFB80A
  E9B1800AE9B0870AE9B08E0AE9B0860AE9B0970AE9B0940AE9B0890AE9B69F0AE9B6990AE9B6A40AE9B69D0AE9B6920A
  E9B6980AE9B6900AE9B69B0AE9B6A00AE9B6940AE9B69C0AE9B6AA0AE9B6970AE9B6A10AE9B69A0AE9B6A20AE9B6A80A
  E9B69E0AE9B6A30AE9B6BF0AE9B6A90AE9B6960AE9B6A60AE9B6A70AE9BA990AE9BA9B0AE9BA9A0AE9BBA50AE9BBA40A
  E9BBA70AE9BBA60AE9BCB00AE9BCAE0AE9BD9B0AE9BDA00AE9BD9E0AE9BD9D0AE9BD990AE9BE910AE584BA0AE584B90A
  E58A980AE58A970AE59B830AE59ABD0AE59ABE0AE5AD880AE5AD870AE5B78B0AE5B78F0AE5BBB10AE687BD0AE6949B0A
  E6AC820AE6ABBC0AE6AC830AE6ABB80AE6AC800AE781830AE781840AE7818A0AE781880AE781890AE781850AE781860A
  E7889D0AE7889A0AE788990AE78DBE0AE794970AE799AA0AE79F900AE7A4AD0AE7A4B10AE7A4AF0AE7B1940AE7B1930A
  E7B3B20AE7BA8A0AE7BA880AE7BA8B0AE7BA860AE7BA8D0AE7BD8D0AE7BEBB0AE880B00AE8879D0AE898980AE898AA0A
  E898A60AE8989F0AE898A30AE8989C0AE898990AE898A70AE898AE0AE898A10AE898A00AE898A90AE8989E0AE898A50A"

/-- tests/test_data/whatwg/big5_whatwg_test_encode_out.txt, part 117 -/
noncomputable def encodeOut116 : List Nat := hex! "F5400AF5410AF5420AF5430AF5440AF5450AF5460AF5470AF5480AF5490AF54A0AF54B0AF54C0AF54D0AF54E0AF54F0A
  F5500AF5510AF5520AF5530AF5540AF5550AF5560AF5570AF5580AF5590AF55A0AF55B0AF55C0AF55D0AF55E0AF55F0A
  F5600AF5610AF5620AF5630AF5640AF5650AF5660AF5670AF5680AF5690AF56A0AF56B0AF56C0AF56D0AF56E0AF56F0A
  F5700AF5710AF5720AF5730AF5740AF5750AF5760AF5770AF5780AF5790AF57A0AF57B0AF57C0AF57D0AF57E0AF5A10A
  F5A20AF5A30AF5A40AF5A50AF5A60AF5A70AF5A80AF5A90AF5AA0AF5AB0AF5AC0AF5AD0AF5AE0AF5AF0AF5B00AF5B10A
  F5B20AF5B30AF5B40AF5B50AF5B60AF5B70AF5B80AF5B90AF5BA0AF5BB0AF5BC0AF5BD0AF5BE0AF5BF0AF5C00AF5C10A
  F5C20AF5C30AF5C40AF5C50AF5C60AF5C70AF5C80AF5C90AF5CA0AF5CB0AF5CC0AF5CD0AF5CE0AF5CF0AF5D00AF5D10A
  F5D20AF5D30AF5D40AF5D50AF5D60AF5D70AF5D80AF5D90AF5DA0AF5DB0AF5DC0AF5DD0AF5DE0AF5DF0AF5E00AF5E10A
  F5E20AF5E30AF5E40AF5E50AF5E60AF5E70AF5E90AF5EA0AF5EB0AF5EC0AF5ED0AF5EE0AF5EF0AF5F00AF5F10AF5F20A
  F5F30AF5F40AF5F50AF5F60AF5F70AF5F80AF5F90AF5FA0AF5FB0AF5FC0AF5FD0AF5FE0A"

/-- tests/test_data/whatwg/big5_whatwg_test_decode_in.txt, part 118 -/
noncomputable def decodeIn117 : List Nat := hex! "F6400AF6410AF6420AF6430AF6440AF6450AF6460AF6470AF6480AF6490AF64A0AF64B0AF64C0AF64D0AF64E0AF64F0A
  F6500AF6510AF6520AF6530AF6540AF6550AF6560AF6570AF6580AF6590AF65A0AF65B0AF65C0AF65D0AF65E0AF65F0A
  F6600AF6610AF6620AF6630AF6640AF6650AF6660AF6670AF6680AF6690AF66A0AF66B0AF66C0AF66D0AF66E0AF66F0A
  F6700AF6710AF6720AF6730AF6740AF6750AF6760AF6770AF6780AF6790AF67A0AF67B0AF67C0AF67D0AF67E0AF6A10A
  F6A20AF6A30AF6A40AF6A50AF6A60AF6A70AF6A80AF6A90AF6AA0AF6AB0AF6AC0AF6AD0AF6AE0AF6AF0AF6B00AF6B10A
  F6B20AF6B30AF6B40AF6B50AF6B60AF6B70AF6B80AF6B90AF6BA0AF6BB0AF6BC0AF6BD0AF6BE0AF6BF0AF6C00AF6C10A
  F6C20AF6C30AF6C40AF6C50AF6C60AF6C70AF6C80AF6C90AF6CA0AF6CB0AF6CC0AF6CD0AF6CE0AF6CF0AF6D00AF6D10A
  F6D20AF6D30AF6D40AF6D50AF6D60AF6D70AF6D80AF6D90AF6DA0AF6DB0AF6DC0AF6DD0AF6DE0AF6DF0AF6E00AF6E10A
  F6E20AF6E30AF6E40AF6E50AF6E60AF6E70AF6E80AF6E90AF6EA0AF6EB0AF6EC0AF6ED0AF6EE0AF6EF0AF6F00AF6F10A
  F6F20AF6F30AF6F40AF6F50AF6F60AF6F70AF6F80AF6F90AF6FA0AF6FB0AF6FC0AF6FD0AF6FE0A"

/-- tests/test_data/whatwg/big5_whatwg_test_decode_out.txt, part 118 -/
noncomputable def decodeOut117 : List Nat := hex! "E8A0A90AE8A09D0AE8A09B0AE8A0A00AE8A0A40AE8A09C0AE8A0AB0AE8A18A0AE8A5AD0AE8A5A90AE8A5AE0AE8A5AB0A
  E8A7BA0AE8ADB90AE8ADB80AE8AD850AE8ADBA0AE8ADBB0AE8B4900AE8B4940AE8B6AF0AE8BA8E0AE8BA8C0AE8BD9E0A
  E8BD9B0AE8BD9D0AE985860AE985840AE985850AE986B90AE990BF0AE990BB0AE990B60AE990A90AE990BD0AE990BC0A
  E990B00AE990B90AE990AA0AE990B70AE990AC0AE991800AE990B10AE997A50AE997A40AE997A30AE99CB50AE99CBA0A
  E99EBF0AE99FA10AE9A1A40AE9A3890AE9A3860AE9A3800AE9A5980AE9A5960AE9A8B90AE9A8BD0AE9A9860AE9A9840A
  E9A9820AE9A9810AE9A8BA0AE9A8BF0AE9AB8D0AE9AC950AE9AC970AE9AC980AE9AC960AE9ACBA0AE9AD920AE9B0AB0A
  E9B09D0AE9B09C0AE9B0AC0AE9B0A30AE9B0A80AE9B0A90AE9B0A40AE9B0A10AE9B6B70AE9B6B60AE9B6BC0AE9B7810A
  E9B7870AE9B78A0AE9B78F0AE9B6BE0AE9B7850AE9B7830AE9B6BB0AE9B6B50AE9B78E0AE9B6B90AE9B6BA0AE9B6AC0A
  E9B7880AE9B6B10AE9B6AD0AE9B78C0AE9B6B30AE9B78D0AE9B6B20AE9B9BA0AE9BA9C0AE9BBAB0AE9BBAE0AE9BBAD0A
  E9BC9B0AE9BC980AE9BC9A0AE9BCB10AE9BD8E0AE9BDA50AE9BDA40AE9BE920AE4BAB90AE59B860AE59B850AE59B8B0A
  E5A5B10AE5AD8B0AE5AD8C0AE5B7950AE5B7910AE5BBB20AE694A10AE694A00AE694A60AE694A20AE6AC8B0AE6AC880A
  E6AC890AE6B08D0AE781950AE781960AE781970AE781920AE7889E0AE7889F0AE78AA90AE78DBF0AE793980AE793950A
  E793990AE793970AE799AD0AE79AAD0AE7A4B50AE7A6B40AE7A9B00AE7A9B10AE7B1970AE7B19C0AE7B1990AE7B19B0A
  E7B19A0A"

/-- tests/test_data/whatwg/big5_whatwg_test_encode_in.txt, part 118 -/
noncomputable def encodeIn117 : List Nat := hex! "E8A0A90AE8A09D0AE8A09B0AE8A0A00AE8A0A40AE8A09C0AE8A0AB0AE8A18A0AE8A5AD0AE8A5A90AE8A5AE0AE8A5AB0A
  E8A7BA0AE8ADB90AE8ADB80AE8AD850AE8ADBA0AE8ADBB0AE8B4900AE8B4940AE8B6AF0AE8BA8E0AE8BA8C0AE8BD9E0A
  E8BD9B0AE8BD9D0AE985860AE985840AE985850AE986B90AE990BF0AE990BB0AE990B60AE990A90AE990BD0AE990BC0A
  E990B00AE990B90AE990AA0AE990B70AE990AC0AE991800AE990B10AE997A50AE997A40AE997A30AE99CB50AE99CBA0A
  E99EBF0AE99FA10AE9A1A40AE9A3890AE9A3860AE9A3800AE9A5980AE9A5960AE9A8B90AE9A8BD0AE9A9860AE9A9840A
  E9A9820AE9A9810AE9A8BA0AE9A8BF0AE9AB8D0AE9AC950AE9AC970AE9AC980AE9AC960AE9ACBA0AE9AD920AE9B0AB0A
  E9B09D0AE9B09C0AE9B0AC0AE9B0A30AE9B0A80AE9B0A90AE9B0A40AE9B0A10AE9B6B70AE9B6B60AE9B6BC0AE9B7810A
  E9B7870AE9B78A0AE9B78F0AE9B6BE0AE9B7850AE9B7830AE9B6BB0AE9B6B50AE9B78E0AE9B6B90AE9B6BA0AE9B6AC0A
  E9B7880AE9B6B10AE9B6AD0AE9B78C0AE9B6B30AE9B78D0AE9B6B20AE9B9BA0AE9BA9C0AE9BBAB0AE9BBAE0AE9BBAD0A
  E9BC9B0AE9BC980AE9BC9A0AE9BCB10AE9BD8E0AE9BDA50AE9BDA40AE9BE920AE4BAB90AE59B860AE59B850AE59B8B0A
  E5A5B10AE5AD8B0AE5AD8C0AE5B7950AE5B7910AE5BBB20AE694A10AE694A00AE694A60AE694A20AE6AC8B0AE6AC880A
  E6AC890AE6B08D0AE781950AE781960AE781970AE781920AE7889E0AE7889F0AE78AA90AE78DBF0AE793980AE793950A
  E793990AE793970AE799AD0AE79AAD0AE7A4B50AE7A6B40AE7A9B00AE7A9B10AE7B1970AE7B19C0AE7B1990AE7B19B0A
  E7B19A0A"

/-- tests/test_data/whatwg/big5_whatwg_test_encode_out.txt, part 118 -/
noncomputable def encodeOut117 : List Nat := hex! "F6400AF6410AF6420AF6430AF6440AF6450AF6460AF6470AF6480AF6490AF64A0AF64B0AF64C0AF64D0AF64E0AF64F0A
  F6500AF6510AF6520AF6530AF6540AF6550AF6560AF6570AF6580AF6590AF65A0AF65B0AF65C0AF65D0AF65E0AF65F0A
  F6600AF6610AF6620AF6630AF6640AF6650AF6660AF6670AF6680AF6690AF66A0AF66B0AF66C0AF66D0AF66E0AF66F0A
  F6700AF6710AF6720AF6730AF6740AF6750AF6760AF6770AF6780AF6790AF67A0AF67B0AF67C0AF67D0AF67E0AF6A10A
  F6A20AF6A30AF6A40AF6A50AF6A60AF6A70AF6A80AF6A90AF6AA0AF6AB0AF6AC0AF6AD0AF6AE0AF6AF0AF6B00AF6B10A
  F6B20AF6B30AF6B40AF6B50AF6B60AF6B70AF6B80AF6B90AF6BA0AF6BB0AF6BC0AF6BD0AF6BE0AF6BF0AF6C00AF6C10A
  F6C20AF6C30AF6C40AF6C50AF6C60AF6C70AF6C80AF6C90AF6CA0AF6CB0AF6CC0AF6CD0AF6CE0AF6CF0AF6D00AF6D10A
  F6D20AF6D30AF6D40AF6D50AF6D60AF6D70AF6D80AF6D90AF6DA0AF6DB0AF6DC0AF6DD0AF6DE0AF6DF0AF6E00AF6E10A
  F6E20AF6E30AF6E40AF6E50AF6E60AF6E70AF6E80AF6E90AF6EA0AF6EB0AF6EC0AF6ED0AF6EE0AF6EF0AF6F00AF6F10A
  F6F20AF6F30AF6F40AF6F50AF6F60AF6F70AF6F80AF6F90AF6FA0AF6FB0AF6FC0AF6FD0AF6FE0A"

/-- tests/test_data/whatwg/big5_whatwg_test_decode_in.txt, part 119 -/
noncomputable def decodeIn118 : List Nat := hex! "F7400AF7410AF7420AF7430AF7440AF7450AF7460AF7470AF7480AF7490AF74A0AF74B0AF74C0AF74D0AF74E0AF74F0A
  F7500AF7510AF7520AF7530AF7540AF7550AF7560AF7570AF7580AF7590AF75A0AF75B0AF75C0AF75D0AF75E0AF75F0A
  F7600AF7610AF7620AF7630AF7640AF7650AF7660AF7670AF7680AF7690AF76A0AF76B0AF76C0AF76D0AF76E0AF76F0A
  F7700AF7710AF7720AF7730AF7740AF7750AF7760AF7770AF7780AF7790AF77A0AF77B0AF77C0AF77D0AF77E0AF7A10A
  F7A20AF7A30AF7A40AF7A50AF7A60AF7A70AF7A80AF7A90AF7AA0AF7AB0AF7AC0AF7AD0AF7AE0AF7AF0AF7B00AF7B10A
  F7B20AF7B30AF7B40AF7B50AF7B60AF7B70AF7B80AF7B90AF7BA0AF7BB0AF7BC0AF7BD0AF7BE0AF7BF0AF7C00AF7C10A
  F7C20AF7C30AF7C40AF7C50AF7C60AF7C70AF7C80AF7C90AF7CA0AF7CB0AF7CC0AF7CD0AF7CE0AF7CF0AF7D00AF7D10A
  F7D20AF7D30AF7D40AF7D50AF7D60AF7D70AF7D80AF7D90AF7DA0AF7DB0AF7DC0AF7DD0AF7DE0AF7DF0AF7E00AF7E10A
  F7E20AF7E30AF7E40AF7E50AF7E60AF7E70AF7E80AF7E90AF7EA0AF7EB0AF7EC0AF7ED0AF7EE0AF7EF0AF7F00AF7F10A
  F7F20AF7F30AF7F40AF7F50AF7F60AF7F70AF7F80AF7F90AF7FA0AF7FB0AF7FC0AF7FD0AF7FE0A"

/-- tests/test_data/whatwg/big5_whatwg_test_decode_out.txt, part 119 -/
noncomputable def decodeOut118 : List Nat := hex! "E7B3B40AE7B3B10AE7BA910AE7BD8F0AE7BE870AE8879E0AE889AB0AE898B40AE898B50AE898B30AE898AC0AE898B20A
  E898B60AE8A0AC0AE8A0A80AE8A0A60AE8A0AA0AE8A0A50AE8A5B10AE8A6BF0AE8A6BE0AE8A7BB0AE8ADBE0AE8AE840A
  E8AE820AE8AE860AE8AE850AE8ADBF0AE8B4950AE8BA950AE8BA940AE8BA9A0AE8BA920AE8BA900AE8BA960AE8BA970A
  E8BDA00AE8BDA20AE985870AE9918C0AE991900AE9918A0AE9918B0AE9918F0AE991870AE991850AE991880AE991890A
  E991860AE99CBF0AE99FA30AE9A1AA0AE9A1A90AE9A38B0AE9A5940AE9A59B0AE9A98E0AE9A9930AE9A9940AE9A98C0A
  E9A98F0AE9A9880AE9A98A0AE9A9890AE9A9920AE9A9900AE9AB900AE9AC990AE9ACAB0AE9ACBB0AE9AD960AE9AD950A
  E9B1860AE9B1880AE9B0BF0AE9B1840AE9B0B90AE9B0B30AE9B1810AE9B0BC0AE9B0B70AE9B0B40AE9B0B20AE9B0BD0A
  E9B0B60AE9B79B0AE9B7920AE9B79E0AE9B79A0AE9B78B0AE9B7900AE9B79C0AE9B7910AE9B79F0AE9B7A90AE9B7990A
  E9B7980AE9B7960AE9B7B50AE9B7950AE9B79D0AE9BAB60AE9BBB00AE9BCB50AE9BCB30AE9BCB20AE9BD820AE9BDAB0A
  E9BE950AE9BEA20AE584BD0AE58A990AE5A3A80AE5A3A70AE5A5B20AE5AD8D0AE5B7980AE8A0AF0AE5BD8F0AE688810A
  E688830AE688840AE694A90AE694A50AE696960AE69BAB0AE6AC910AE6AC920AE6AC8F0AE6AF8A0AE7819B0AE7819A0A
  E788A20AE78E820AE78E810AE78E830AE799B00AE79F940AE7B1A70AE7B1A60AE7BA950AE889AC0AE898BA0AE899800A
  E898B90AE898BC0AE898B10AE898BB0AE898BE0AE8A0B00AE8A0B20AE8A0AE0AE8A0B30AE8A5B60AE8A5B40AE8A5B30A
  E8A7BE0A"

/-- tests/test_data/whatwg/big5_whatwg_test_encode_in.txt, part 119 -/
noncomputable def encodeIn118 : List Nat := hex! "E7B3B40AE7B3B10AE7BA910AE7BD8F0AE7BE870AE8879E0AE889AB0AE898B40AE898B50AE898B30AE898AC0AE898B20A
  E898B60AE8A0AC0AE8A0A80AE8A0A60AE8A0AA0AE8A0A50AE8A5B10AE8A6BF0AE8A6BE0AE8A7BB0AE8ADBE0AE8AE840A
  E8AE820AE8AE860AE8AE850AE8ADBF0AE8B4950AE8BA950AE8BA940AE8BA9A0AE8BA920AE8BA900AE8BA960AE8BA970A
  E8BDA00AE8BDA20AE985870AE9918C0AE991900AE9918A0AE9918B0AE9918F0AE991870AE991850AE991880AE991890A
  E991860AE99CBF0AE99FA30AE9A1AA0AE9A1A90AE9A38B0AE9A5940AE9A59B0AE9A98E0AE9A9930AE9A9940AE9A98C0A
  E9A98F0AE9A9880AE9A98A0AE9A9890AE9A9920AE9A9900AE9AB900AE9AC990AE9ACAB0AE9ACBB0AE9AD960AE9AD950A
  E9B1860AE9B1880AE9B0BF0AE9B1840AE9B0B90AE9B0B30AE9B1810AE9B0BC0AE9B0B70AE9B0B40AE9B0B20AE9B0BD0A
  E9B0B60AE9B79B0AE9B7920AE9B79E0AE9B79A0AE9B78B0AE9B7900AE9B79C0AE9B7910AE9B79F0AE9B7A90AE9B7990A
  E9B7980AE9B7960AE9B7B50AE9B7950AE9B79D0AE9BAB60AE9BBB00AE9BCB50AE9BCB30AE9BCB20AE9BD820AE9BDAB0A
  E9BE950AE9BEA20AE584BD0AE58A990AE5A3A80AE5A3A70AE5A5B20AE5AD8D0AE5B7980AE8A0AF0AE5BD8F0AE688810A
  E688830AE688840AE694A90AE694A50AE696960AE69BAB0AE6AC910AE6AC920AE6AC8F0AE6AF8A0AE7819B0AE7819A0A
  E788A20AE78E820AE78E810AE78E830AE799B00AE79F940AE7B1A70AE7B1A60AE7BA950AE889AC0AE898BA0AE899800A
  E898B90AE898BC0AE898B10AE898BB0AE898BE0AE8A0B00AE8A0B20AE8A0AE0AE8A0B30AE8A5B60AE8A5B40AE8A5B30A
  E8A7BE0A"

/-- tests/test_data/whatwg/big5_whatwg_test_encode_out.txt, part 119 -/
noncomputable def encodeOut118 : List Nat := hex! "F7400AF7410AF7420AF7430AF7440AF7450AF7460AF7470AF7480AF7490AF74A0AF74B0AF74C0AF74D0AF74E0AF74F0A
  F7500AF7510AF7520AF7530AF7540AF7550AF7560AF7570AF7580AF7590AF75A0AF75B0AF75C0AF75D0AF75E0AF75F0A
  F7600AF7610AF7620AF7630AF7640AF7650AF7660AF7670AF7680AF7690AF76A0AF76B0AF76C0AF76D0AF76E0AF76F0A
  F7700AF7710AF7720AF7730AF7740AF7750AF7760AF7770AF7780AF7790AF77A0AF77B0AF77C0AF77D0AF77E0AF7A10A
  F7A20AF7A30AF7A40AF7A50AF7A60AF7A70AF7A80AF7A90AF7AA0AF7AB0AF7AC0AF7AD0AF7AE0AF7AF0AF7B00AF7B10A
  F7B20AF7B30AF7B40AF7B50AF7B60AF7B70AF7B80AF7B90AF7BA0AF7BB0AF7BC0AF7BD0AF7BE0AF7BF0AF7C00AF7C10A
  F7C20AF7C30AF7C40AF7C50AF7C60AF7C70AF7C80AF7C90AF7CA0AF7CB0AF7CC0AF7CD0AF7CE0AF7CF0AF7D00AF7D10A
  F7D20AF7D30AF7D40AF7D50AF7D60AF7D70AF7D80AF7D90AF7DA0AF7DB0AF7DC0AF7DD0AF7DE0AF7DF0AF7E00AF7E10A
  F7E20AF7E30AF7E40AF7E50AF7E60AF7E70AF7E80AF7E90AF7EA0AF7EB0AF7EC0AF7ED0AF7EE0AF7EF0AF7F00AF7F10A
  F7F20AF7F30AF7F40AF7F50AF7F60AF7F70AF7F80AF7F90AF7FA0AF7FB0AF7FC0AF7FD0AF7FE0A"

/-- tests/test_data/whatwg/big5_whatwg_test_decode_in.txt, part 120 -/
noncomputable def decodeIn119 : List Nat := hex! "F8400AF8410AF8420AF8430AF8440AF8450AF8460AF8470AF8480AF8490AF84A0AF84B0AF84C0AF84D0AF84E0AF84F0A
  F8500AF8510AF8520AF8530AF8540AF8550AF8560AF8570AF8580AF8590AF85A0AF85B0AF85C0AF85D0AF85E0AF85F0A
  F8600AF8610AF8620AF8630AF8640AF8650AF8660AF8670AF8680AF8690AF86A0AF86B0AF86C0AF86D0AF86E0AF86F0A
  F8700AF8710AF8720AF8730AF8740AF8750AF8760AF8770AF8780AF8790AF87A0AF87B0AF87C0AF87D0AF87E0AF8A10A
  F8A20AF8A30AF8A40AF8A50AF8A60AF8A70AF8A80AF8A90AF8AA0AF8AB0AF8AC0AF8AD0AF8AE0AF8AF0AF8B00AF8B10A
  F8B20AF8B30AF8B40AF8B50AF8B60AF8B70AF8B80AF8B90AF8BA0AF8BB0AF8BC0AF8BD0AF8BE0AF8BF0AF8C00AF8C10A
  F8C20AF8C30AF8C40AF8C50AF8C60AF8C70AF8C80AF8C90AF8CA0AF8CB0AF8CC0AF8CD0AF8CE0AF8CF0AF8D00AF8D10A
  F8D20AF8D30AF8D40AF8D50AF8D60AF8D70AF8D80AF8D90AF8DA0AF8DB0AF8DC0AF8DD0AF8DE0AF8DF0AF8E00AF8E10A
  F8E20AF8E30AF8E40AF8E50AF8E60AF8E70AF8E80AF8E90AF8EA0AF8EB0AF8EC0AF8ED0AF8EE0AF8EF0AF8F00AF8F10A
  F8F20AF8F30AF8F40AF8F50AF8F60AF8F70AF8F80AF8F90AF8FA0AF8FB0AF8FC0AF8FD0AF8FE0A"

/-- tests/test_data/whatwg/big5_whatwg_test_decode_out.txt, part 120 -/
noncomputable def decodeOut119 : List Nat := hex! "E8AE8C0AE8AE8E0AE8AE8B0AE8AE880AE8B1850AE8B4990AE8BA980AE8BDA40AE8BDA30AE986BC0AE991A20AE991950A
  E9919D0AE991970AE9919E0AE99F840AE99F850AE9A0800AE9A9960AE9A9990AE9AC9E0AE9AC9F0AE9ACA00AE9B1920A
  E9B1980AE9B1900AE9B18A0AE9B18D0AE9B18B0AE9B1950AE9B1990AE9B18C0AE9B18E0AE9B7BB0AE9B7B70AE9B7AF0A
  E9B7A30AE9B7AB0AE9B7B80AE9B7A40AE9B7B60AE9B7A10AE9B7AE0AE9B7A60AE9B7B20AE9B7B00AE9B7A20AE9B7AC0A
  E9B7B40AE9B7B30AE9B7A80AE9B7AD0AE9BB820AE9BB900AE9BBB20AE9BBB30AE9BC860AE9BC9C0AE9BCB80AE9BCB70A
  E9BCB60AE9BD830AE9BD8F0AE9BDB10AE9BDB00AE9BDAE0AE9BDAF0AE59B930AE59B8D0AE5AD8E0AE5B1AD0AE694AD0A
  E69BAD0AE69BAE0AE6AC930AE7819F0AE781A10AE7819D0AE781A00AE788A30AE7939B0AE793A50AE79F950AE7A4B80A
  E7A6B70AE7A6B60AE7B1AA0AE7BA970AE7BE890AE889AD0AE899830AE8A0B80AE8A0B70AE8A0B50AE8A18B0AE8AE940A
  E8AE950AE8BA9E0AE8BA9F0AE8BAA00AE8BA9D0AE986BE0AE986BD0AE987820AE991AB0AE991A80AE991A90AE99BA50A
  E99D860AE99D830AE99D870AE99F870AE99FA50AE9A99E0AE9AB950AE9AD990AE9B1A30AE9B1A70AE9B1A60AE9B1A20A
  E9B19E0AE9B1A00AE9B8820AE9B7BE0AE9B8870AE9B8830AE9B8860AE9B8850AE9B8800AE9B8810AE9B8890AE9B7BF0A
  E9B7BD0AE9B8840AE9BAA00AE9BC9E0AE9BD860AE9BDB40AE9BDB50AE9BDB60AE59B940AE694AE0AE696B80AE6AC980A
  E6AC990AE6AC970AE6AC9A0AE781A20AE788A60AE78AAA0AE79F980AE79F990AE7A4B90AE7B1A90AE7B1AB0AE7B3B60A
  E7BA9A0A"

/-- tests/test_data/whatwg/big5_whatwg_test_encode_in.txt, part 120 -/
noncomputable def encodeIn119 : List Nat := hex! "E8AE8C0AE8AE8E0AE8AE8B0AE8AE880AE8B1850AE8B4990AE8BA980AE8BDA40AE8BDA30AE986BC0AE991A20AE991950A
  E9919D0AE991970AE9919E0AE99F840AE99F850AE9A0800AE9A9960AE9A9990AE9AC9E0AE9AC9F0AE9ACA00AE9B1920A
  E9B1980AE9B1900AE9B18A0AE9B18D0AE9B18B0AE9B1950AE9B1990AE9B18C0AE9B18E0AE9B7BB0AE9B7B70AE9B7AF0A
  E9B7A30AE9B7AB0AE9B7B80AE9B7A40AE9B7B60AE9B7A10AE9B7AE0AE9B7A60AE9B7B20AE9B7A20AE9B7AC0AE9B7B40A
  E9B7B30AE9B7A80AE9B7AD0AE9BB820AE9BB900AE9BBB20AE9BBB30AE9BC860AE9BC9C0AE9BCB80AE9BCB70AE9BCB60A
  E9BD830AE9BD8F0AE9BDB10AE9BDB00AE9BDAE0AE9BDAF0AE59B930AE59B8D0AE5AD8E0AE5B1AD0AE694AD0AE69BAD0A
  E69BAE0AE6AC930AE7819F0AE781A10AE7819D0AE781A00AE788A30AE7939B0AE793A50AE79F950AE7A4B80AE7A6B70A
  E7A6B60AE7B1AA0AE7BA970AE7BE890AE889AD0AE899830AE8A0B80AE8A0B70AE8A0B50AE8A18B0AE8AE940AE8AE950A
  E8BA9E0AE8BA9F0AE8BAA00AE8BA9D0AE986BE0AE986BD0AE987820AE991AB0AE991A80AE991A90AE99BA50AE99D860A
  E99D830AE99D870AE99F870AE99FA50AE9A99E0AE9AB950AE9AD990AE9B1A30AE9B1A70AE9B1A60AE9B1A20AE9B19E0A
  E9B1A00AE9B8820AE9B7BE0AE9B8870AE9B8830AE9B8860AE9B8850AE9B8800AE9B8810AE9B8890AE9B7BF0AE9B7BD0A
  E9B8840AE9BAA00AE9BC9E0AE9BD860AE9BDB40AE9BDB50AE9BDB60AE59B940AE694AE0AE696B80AE6AC980AE6AC990A
  E6AC970AE6AC9A0AE781A20AE788A60AE78AAA0AE79F980AE79F990AE7A4B90AE7B1A90AE7B1AB0AE7B3B60AE7BA9A0A"

/-- tests/test_data/whatwg/big5_whatwg_test_encode_out.txt, part 120 -/
noncomputable def encodeOut119 : List Nat := hex! "F8400AF8410AF8420AF8430AF8440AF8450AF8460AF8470AF8480AF8490AF84A0AF84B0AF84C0AF84D0AF84E0AF84F0A
  F8500AF8510AF8520AF8530AF8540AF8550AF8560AF8570AF8580AF8590AF85A0AF85B0AF85C0AF85D0AF85E0AF85F0A
  F8600AF8610AF8620AF8630AF8640AF8650AF8660AF8670AF8680AF8690AF86A0AF86B0AF86C0AF86E0AF86F0AF8700A
  F8710AF8720AF8730AF8740AF8750AF8760AF8770AF8780AF8790AF87A0AF87B0AF87C0AF87D0AF87E0AF8A10AF8A20A
  F8A30AF8A40AF8A50AF8A60AF8A70AF8A80AF8A90AF8AA0AF8AB0AF8AC0AF8AD0AF8AE0AF8AF0AF8B00AF8B10AF8B20A
  F8B30AF8B40AF8B50AF8B60AF8B70AF8B80AF8B90AF8BA0AF8BB0AF8BC0AF8BD0AF8BE0AF8BF0AF8C00AF8C10AF8C20A
  F8C30AF8C40AF8C50AF8C60AF8C70AF8C80AF8C90AF8CA0AF8CB0AF8CC0AF8CD0AF8CE0AF8CF0AF8D00AF8D10AF8D20A
  F8D30AF8D40AF8D50AF8D60AF8D70AF8D80AF8D90AF8DA0AF8DB0AF8DC0AF8DD0AF8DE0AF8DF0AF8E00AF8E10AF8E20A
  F8E30AF8E40AF8E50AF8E60AF8E70AF8E80AF8E90AF8EA0AF8EB0AF8EC0AF8ED0AF8EE0AF8EF0AF8F00AF8F10AF8F20A
  F8F30AF8F40AF8F50AF8F60AF8F70AF8F80AF8F90AF8FA0AF8FB0AF8FC0AF8FD0AF8FE0A"

/-- tests/test_data/whatwg/big5_whatwg_test_decode_in.txt, part 121 -/
noncomputable def decodeIn120 : List Nat := hex! "F9400AF9410AF9420AF9430AF9440AF9450AF9460AF9470AF9480AF9490AF94A0AF94B0AF94C0AF94D0AF94E0AF94F0A
  F9500AF9510AF9520AF9530AF9540AF9550AF9560AF9570AF9580AF9590AF95A0AF95B0AF95C0AF95D0AF95E0AF95F0A
  F9600AF9610AF9620AF9630AF9640AF9650AF9660AF9670AF9680AF9690AF96A0AF96B0AF96C0AF96D0AF96E0AF96F0A
  F9700AF9710AF9720AF9730AF9740AF9750AF9760AF9770AF9780AF9790AF97A0AF97B0AF97C0AF97D0AF97E0AF9A10A
  F9A20AF9A30AF9A40AF9A50AF9A60AF9A70AF9A80AF9A90AF9AA0AF9AB0AF9AC0AF9AD0AF9AE0AF9AF0AF9B00AF9B10A
  F9B20AF9B30AF9B40AF9B50AF9B60AF9B70AF9B80AF9B90AF9BA0AF9BB0AF9BC0AF9BD0AF9BE0AF9BF0AF9C00AF9C10A
  F9C20AF9C30AF9C40AF9C50AF9C60AF9C70AF9C80AF9C90AF9CA0AF9CB0AF9CC0AF9CD0AF9CE0AF9CF0AF9D00AF9D10A
  F9D20AF9D30AF9D40AF9D50AF9D60AF9D70AF9D80AF9D90AF9DA0AF9DB0AF9DC0AF9DD0AF9DE0AF9DF0AF9E00AF9E10A
  F9E20AF9E30AF9E40AF9E50AF9E60AF9E70AF9E80AF9E90AF9EA0AF9EB0AF9EC0AF9ED0AF9EE0AF9EF0AF9F00AF9F10A
  F9F20AF9F30AF9F40AF9F50AF9F60AF9F70AF9F80AF9F90AF9FA0AF9FB0AF9FC0AF9FD0AF9FE0A"

/-- tests/test_data/whatwg/big5_whatwg_test_decode_out.txt, part 121 -/
noncomputable def decodeOut120 : List Nat := hex! "E7BA980AE7BA9B0AE7BA990AE887A00AE887A10AE899860AE899870AE899880AE8A5B90AE8A5BA0AE8A5BC0AE8A5BB0A
  E8A7BF0AE8AE980AE8AE990AE8BAA50AE8BAA40AE8BAA30AE991AE0AE991AD0AE991AF0AE991B10AE991B30AE99D890A
  E9A1B20AE9A59F0AE9B1A80AE9B1AE0AE9B1AD0AE9B88B0AE9B88D0AE9B8900AE9B88F0AE9B8920AE9B8910AE9BAA10A
  E9BBB50AE9BC890AE9BD870AE9BDB80AE9BDBB0AE9BDBA0AE9BDB90AE59C9E0AE781A60AE7B1AF0AE8A0BC0AE8B6B20A
  E8BAA60AE987830AE991B40AE991B80AE991B60AE991B50AE9A9A00AE9B1B40AE9B1B30AE9B1B10AE9B1B50AE9B8940A
  E9B8930AE9BBB60AE9BC8A0AE9BEA40AE781A80AE781A50AE7B3B70AE899AA0AE8A0BE0AE8A0BD0AE8A0BF0AE8AE9E0A
  E8B29C0AE8BAA90AE8BB890AE99D8B0AE9A1B30AE9A1B40AE9A38C0AE9A5A10AE9A6AB0AE9A9A40AE9A9A60AE9A9A70A
  E9ACA40AE9B8950AE9B8970AE9BD880AE688870AE6AC9E0AE788A70AE8998C0AE8BAA80AE992820AE992800AE992810A
  E9A9A90AE9A9A80AE9ACAE0AE9B8990AE788A90AE8998B0AE8AE9F0AE992830AE9B1B90AE9BAB70AE799B50AE9A9AB0A
  E9B1BA0AE9B89D0AE781A90AE781AA0AE9BAA40AE9BDBE0AE9BD890AE9BE980AE7A2810AE98AB90AE8A38F0AE5A2BB0A
  E681920AE7B2A70AE5ABBA0AE295940AE295A60AE295970AE295A00AE295AC0AE295A30AE2959A0AE295A90AE2959D0A
  E295920AE295A40AE295950AE2959E0AE295AA0AE295A10AE295980AE295A70AE2959B0AE295930AE295A50AE295960A
  E2959F0AE295AB0AE295A20AE295990AE295A80AE2959C0AE295910AE295900AE295AD0AE295AE0AE295B00AE295AF0A
  EFBFAD0A"

/-- tests/test_data/whatwg/big5_whatwg_test_encode_in.txt, part 121 -/
noncomputable def encodeIn120 : List Nat := hex! "E7BA980AE7BA9B0AE7BA990AE887A00AE887A10AE899860AE899870AE899880AE8A5B90AE8A5BA0AE8A5BC0AE8A5BB0A
  E8A7BF0AE8AE980AE8AE990AE8BAA50AE8BAA40AE8BAA30AE991AE0AE991AD0AE991AF0AE991B10AE991B30AE99D890A
  E9A1B20AE9A59F0AE9B1A80AE9B1AE0AE9B1AD0AE9B88B0AE9B88D0AE9B8900AE9B88F0AE9B8920AE9B8910AE9BAA10A
  E9BBB50AE9BC890AE9BD870AE9BDB80AE9BDBB0AE9BDBA0AE9BDB90AE59C9E0AE781A60AE7B1AF0AE8A0BC0AE8B6B20A
  E8BAA60AE987830AE991B40AE991B80AE991B60AE991B50AE9A9A00AE9B1B40AE9B1B30AE9B1B10AE9B1B50AE9B8940A
  E9B8930AE9BBB60AE9BC8A0AE9BEA40AE781A80AE781A50AE7B3B70AE899AA0AE8A0BE0AE8A0BD0AE8A0BF0AE8AE9E0A
  E8B29C0AE8BAA90AE8BB890AE99D8B0AE9A1B30AE9A1B40AE9A38C0AE9A5A10AE9A6AB0AE9A9A40AE9A9A60AE9A9A70A
  E9ACA40AE9B8950AE9B8970AE9BD880AE688870AE6AC9E0AE788A70AE8998C0AE8BAA80AE992820AE992800AE992810A
  E9A9A90AE9A9A80AE9B8990AE788A90AE8998B0AE8AE9F0AE992830AE9B1B90AE9BAB70AE799B50AE9A9AB0AE9B1BA0A
  E9B89D0AE781A90AE781AA0AE9BAA40AE9BDBE0AE9BD890AE9BE980AE7A2810AE8A38F0AE5A2BB0AE681920AE7B2A70A
  E5ABBA0AE295940AE295A60AE295970AE295A00AE295AC0AE295A30AE2959A0AE295A90AE2959D0AE295920AE295A40A
  E295950AE2959E0AE295AA0AE295A10AE295980AE295A70AE2959B0AE295930AE295A50AE295960AE2959F0AE295AB0A
  E295A20AE295990AE295A80AE2959C0AE295910AE295900AEFBFAD0A"

/-- tests/test_data/whatwg/big5_whatwg_test_encode_out.txt, part 121 -/
noncomputable def encodeOut120 : List Nat := hex! "F9400AF9410AF9420AF9430AF9440AF9450AF9460AF9470AF9480AF9490AF94A0AF94B0AF94C0AF94D0AF94E0AF94F0A
  F9500AF9510AF9520AF9530AF9540AF9550AF9560AF9570AF9580AF9590AF95A0AF95B0AF95C0AF95D0AF95E0AF95F0A
  F9600AF9610AF9620AF9630AF9640AF9650AF9660AF9670AF9680AF9690AF96A0AF96B0AF96C0AF96D0AF96E0AF96F0A
  F9700AF9710AF9720AF9730AF9740AF9750AF9760AF9770AF9780AF9790AF97A0AF97B0AF97C0AF97D0AF97E0AF9A10A
  F9A20AF9A30AF9A40AF9A50AF9A60AF9A70AF9A80AF9A90AF9AA0AF9AB0AF9AC0AF9AD0AF9AE0AF9AF0AF9B00AF9B10A
  F9B20AF9B30AF9B40AF9B50AF9B60AF9B70AF9B80AF9B90AF9BA0AF9BB0AF9BC0AF9BD0AF9BE0AF9BF0AF9C00AF9C10A
  F9C20AF9C30AF9C50AF9C60AF9C70AF9C80AF9C90AF9CA0AF9CB0AF9CC0AF9CD0AF9CE0AF9CF0AF9D00AF9D10AF9D20A
  F9D30AF9D40AF9D50AF9D60AF9D80AF9D90AF9DA0AF9DB0AF9DC0AF9DD0AF9DE0AF9DF0AF9E00AF9E10AF9E20AF9E30A
  F9E40AF9E50AF9E60AF9E70AF9E80AF9E90AF9EA0AF9EB0AF9EC0AF9ED0AF9EE0AF9EF0AF9F00AF9F10AF9F20AF9F30A
  F9F40AF9F50AF9F60AF9F70AF9F80AF9F90AF9FE0A"

/-- tests/test_data/whatwg/big5_whatwg_test_decode_in.txt, part 122 -/
noncomputable def decodeIn121 : List Nat := hex! "FA400AFA410AFA420AFA430AFA440AFA450AFA460AFA470AFA480AFA490AFA4A0AFA4B0AFA4C0AFA4D0AFA4E0AFA4F0A
  FA500AFA510AFA520AFA530AFA540AFA550AFA560AFA570AFA580AFA590AFA5A0AFA5B0AFA5C0AFA5D0AFA5E0AFA5F0A
  FA600AFA610AFA620AFA630AFA640AFA650AFA660AFA670AFA680AFA690AFA6A0AFA6B0AFA6C0AFA6D0AFA6E0AFA6F0A
  FA700AFA710AFA720AFA730AFA740AFA750AFA760AFA770AFA780AFA790AFA7A0AFA7B0AFA7C0AFA7D0AFA7E0AFAA10A
  FAA20AFAA30AFAA40AFAA50AFAA60AFAA70AFAA80AFAA90AFAAA0AFAAB0AFAAC0AFAAD0AFAAE0AFAAF0AFAB00AFAB10A
  FAB20AFAB30AFAB40AFAB50AFAB60AFAB70AFAB80AFAB90AFABA0AFABB0AFABC0AFABD0AFABE0AFABF0AFAC00AFAC10A
  FAC20AFAC30AFAC40AFAC50AFAC60AFAC70AFAC80AFAC90AFACA0AFACB0AFACC0AFACD0AFACE0AFACF0AFAD00AFAD10A
  FAD20AFAD30AFAD40AFAD50AFAD60AFAD70AFAD80AFAD90AFADA0AFADB0AFADC0AFADD0AFADE0AFADF0AFAE00AFAE10A
  FAE20AFAE30AFAE40AFAE50AFAE60AFAE70AFAE80AFAE90AFAEA0AFAEB0AFAEC0AFAED0AFAEE0AFAEF0AFAF00AFAF10A
  FAF20AFAF30AFAF40AFAF50AFAF60AFAF70AFAF80AFAF90AFAFA0AFAFB0AFAFC0AFAFD0AFAFE0A"

/-- tests/test_data/whatwg/big5_whatwg_test_decode_out.txt, part 122 -/
noncomputable def decodeOut121 : List Nat := hex! "F0A095870AE98B9B0AF0A0979F0AF0A3BF850AE8958C0AE48AB50AE78FAF0AE586B50AE399890AF0A4A5820AF0A8A7A4
  0AE98D840AF0A1A79B0AE88BAE0AF0A3B3880AE7A0BC0AE69D840AE68B9F0AF0A4A4B30AF0A8A6AA0AF0A08AA00AF0A6
  AEB30AF0A18C850AE4BEAB0AF0A293AD0AE580880AF0A6B4A90AF0A7AA840AF0A398800AF0A4AAB10AF0A294930AE580
  A90AF0A08DBE0AE5BEA40AF0A08E800AF0A08D870AE6BB9B0AF0A0909F0AE581BD0AE584810AE391BA0AE5848E0AE9A1
  AC0AE39D830AE890960AF0A4A6A40AF0A092870AE585A00AF0A38EB40AE585AA0AF0A0AFBF0AF0A283BC0AF0A08BA50A
  F0A294B00AF0A0968E0AF0A388B30AF0A1A6830AE5AE820AE89DBD0AF0A096B30AF0A3B2990AE586B20AE586B80AE9B4
  B40AE587890AE5878F0AE587910AE3B39C0AE587930AF0A4AAA60AE586B30AE587A20AE58D820AE587AD0AE88F8D0AE6
  A4BE0AF0A39CAD0AE5BDBB0AE5888B0AE588A60AE588BC0AE58AB50AE589970AE58A940AE58AB90AE58B850AE7B0950A
  E895820AE58BA00AE8988D0AF0A6AC930AE58C850AF0A8AB9E0AE595890AE6BB990AF0A3BE800AF0A0A5940AF0A3BFAC
  0AE58CB30AE58D840AF0A0AFA20AE6B38B0AF0A19CA60AE6A09B0AE78F950AE6818A0AE3BAAA0AE3A38C0AF0A19BA80A
  E7879D0AE492A20AE58DAD0AE58DB40AF0A89AAB0AE58DBE0AE58DBF0AF0A196960AF0A198930AE79FA60AE58E930AF0
  A8AA9B0AE58EA00AE58EAB0AE58EAE0AE78EA70AF0A59DB20AE3BD990AE78E9C0AE58F810AE58F850AE6B1890AE4B989
  0AE59FBE0AE58F990AE3AAAB0AF0A0AE8F0AE58FA00AF0A3BFAB0AF0A2B6A30AE58FB60AF0A0B1B70AE590930AE781B9
  0AE594AB0AE699970AE6B59B0AE591AD0AF0A6AD930AF0A0B5B40AE5959D0AE5928F0AE592A40AE49EA60AF0A19C8D0A
  F0A0BB9D0AE3B6B40AF0A0B58D0A"

/-- tests/test_data/whatwg/big5_whatwg_test_encode_in.txt, part 122 -/
noncomputable def encodeIn121 : List Nat := hex! "F0A095870AE98B9B0AF0A0979F0AF0A3BF850AE8958C0AE48AB50AE78FAF0AE586B50AE399890AF0A4A5820AF0A8A7A4
  0AE98D840AF0A1A79B0AE88BAE0AF0A3B3880AE7A0BC0AE69D840AE68B9F0AF0A4A4B30AF0A8A6AA0AF0A08AA00AF0A6
  AEB30AF0A18C850AE4BEAB0AF0A293AD0AE580880AF0A6B4A90AF0A7AA840AF0A398800AF0A4AAB10AF0A294930AF0A0
  8DBE0AE5BEA40AF0A08E800AF0A08D870AE6BB9B0AF0A0909F0AE584810AE391BA0AE5848E0AE9A1AC0AE39D830AE890
  960AF0A4A6A40AF0A092870AE585A00AF0A38EB40AE585AA0AF0A0AFBF0AF0A283BC0AF0A08BA50AF0A294B00AF0A096
  8E0AF0A388B30AF0A1A6830AE5AE820AE89DBD0AF0A096B30AF0A3B2990AE586B20AE586B80AE9B4B40AE587890AE587
  8F0AE587910AE3B39C0AE587930AF0A4AAA60AE586B30AE587A20AE58D820AE587AD0AE88F8D0AE6A4BE0AF0A39CAD0A
  E5BDBB0AE5888B0AE588A60AE588BC0AE58AB50AE589970AE58A940AE58AB90AE58B850AE7B0950AE895820AE58BA00A
  E8988D0AF0A6AC930AF0A8AB9E0AE595890AE6BB990AF0A3BE800AF0A0A5940AF0A3BFAC0AE58CB30AF0A0AFA20AE6B3
  8B0AF0A19CA60AE6A09B0AE78F950AE6818A0AE3BAAA0AE3A38C0AF0A19BA80AE7879D0AE492A20AE58DAD0AE58DB40A
  F0A89AAB0AE58DBE0AF0A196960AF0A198930AE79FA60AE58E930AF0A8AA9B0AE58EA00AE58EAB0AE58EAE0AE78EA70A
  F0A59DB20AE3BD990AE78E9C0AE58F810AE58F850AE6B1890AE4B9890AE59FBE0AE58F990AE3AAAB0AF0A0AE8F0AE58F
  A00AF0A3BFAB0AF0A2B6A30AE58FB60AF0A0B1B70AE590930AE781B90AE594AB0AE699970AE6B59B0AE591AD0AF0A6AD
  930AF0A0B5B40AE5959D0AE5928F0AE592A40AE49EA60AF0A19C8D0AF0A0BB9D0AE3B6B40AF0A0B58D0A"

/-- tests/test_data/whatwg/big5_whatwg_test_encode_out.txt, part 122 -/
noncomputable def encodeOut121 : List Nat := hex! "FA400AFA410AFA420AFA430AFA440AFA450AFA460AFA470AFA480AFA490AFA4A0AFA4B0AFA4C0AFA4D0AFA4E0AFA4F0A
  FA500AFA510AFA520AFA530AFA540AFA550AFA560AFA570AFA580AFA590AFA5A0AFA5B0AFA5C0AFA5D0AFA5E0AFA600A
  FA610AFA620AFA630AFA640AFA650AFA670AFA680AFA690AFA6A0AFA6B0AFA6C0AFA6D0AFA6E0AFA6F0AFA700AFA710A
  FA720AFA730AFA740AFA750AFA760AFA770AFA780AFA790AFA7A0AFA7B0AFA7C0AFA7D0AFA7E0AFAA10AFAA20AFAA30A
  FAA40AFAA50AFAA60AFAA70AFAA80AFAA90AFAAA0AFAAB0AFAAC0AFAAD0AFAAE0AFAAF0AFAB00AFAB10AFAB20AFAB30A
  FAB40AFAB50AFAB60AFAB70AFAB80AFAB90AFABA0AFABB0AFABC0AFABE0AFABF0AFAC00AFAC10AFAC20AFAC30AFAC40A
  FAC60AFAC70AFAC80AFAC90AFACA0AFACB0AFACC0AFACD0AFACE0AFACF0AFAD00AFAD10AFAD20AFAD30AFAD40AFAD60A
  FAD70AFAD80AFAD90AFADA0AFADB0AFADC0AFADD0AFADE0AFADF0AFAE00AFAE10AFAE20AFAE30AFAE40AFAE50AFAE60A
  FAE70AFAE80AFAE90AFAEA0AFAEB0AFAEC0AFAED0AFAEE0AFAEF0AFAF00AFAF10AFAF20AFAF30AFAF40AFAF50AFAF60A
  FAF70AFAF80AFAF90AFAFA0AFAFB0AFAFC0AFAFD0AFAFE0A"

/-- tests/test_data/whatwg/big5_whatwg_test_decode_in.txt, part 123 -/
noncomputable def decodeIn122 : List Nat := hex! "FB400AFB410AFB420AFB430AFB440AFB450AFB460AFB470AFB480AFB490AFB4A0AFB4B0AFB4C0AFB4D0AFB4E0AFB4F0A
  FB500AFB510AFB520AFB530AFB540AFB550AFB560AFB570AFB580AFB590AFB5A0AFB5B0AFB5C0AFB5D0AFB5E0AFB5F0A
  FB600AFB610AFB620AFB630AFB640AFB650AFB660AFB670AFB680AFB690AFB6A0AFB6B0AFB6C0AFB6D0AFB6E0AFB6F0A
  FB700AFB710AFB720AFB730AFB740AFB750AFB760AFB770AFB780AFB790AFB7A0AFB7B0AFB7C0AFB7D0AFB7E0AFBA10A
  FBA20AFBA30AFBA40AFBA50AFBA60AFBA70AFBA80AFBA90AFBAA0AFBAB0AFBAC0AFBAD0AFBAE0AFBAF0AFBB00AFBB10A
  FBB20AFBB30AFBB40AFBB50AFBB60AFBB70AFBB80AFBB90AFBBA0AFBBB0AFBBC0AFBBD0AFBBE0AFBBF0AFBC00AFBC10A
  FBC20AFBC30AFBC40AFBC50AFBC60AFBC70AFBC80AFBC90AFBCA0AFBCB0AFBCC0AFBCD0AFBCE0AFBCF0AFBD00AFBD10A
  FBD20AFBD30AFBD40AFBD50AFBD60AFBD70AFBD80AFBD90AFBDA0AFBDB0AFBDC0AFBDD0AFBDE0AFBDF0AFBE00AFBE10A
  FBE20AFBE30AFBE40AFBE50AFBE60AFBE70AFBE80AFBE90AFBEA0AFBEB0AFBEC0AFBED0AFBEE0AFBEF0AFBF00AFBF10A
  FBF20AFBF30AFBF40AFBF50AFBF60AFBF70AFBF80AFBF90AFBFA0AFBFB0AFBFC0AFBFD0AFBFE0A"

/-- tests/test_data/whatwg/big5_whatwg_test_decode_out.txt, part 123 -/
noncomputable def decodeOut122 : List Nat := hex! "F0A8A6BC0AF0A29A980AE595870AE4B3AD0AE590AF0AE790970AE596860AE596A90AE598850AF0A1A3970AF0A480BA0A
  E495920AF0A490B50AE69AB30AF0A182B40AE598B70AE69B8D0AF0A38A8A0AE69AA40AE69AAD0AE5998D0AE5998F0AE7
  A3B10AE59BB10AE99E870AE58FBE0AE59C800AE59BAF0AE59BAD0AF0A8ADA60AE398A30AF0A1898F0AE59D860AF0A486
  A50AE6B1AE0AE7828B0AE59D820AE39AB10AF0A6B1BE0AE59FA60AF0A190960AE5A0830AF0A191940AF0A48DA30AE5A0
  A60AF0A4AFB50AE5A19C0AE5A2AA0AE395A10AE5A3A00AE5A39C0AF0A188BC0AE5A3BB0AE5AFBF0AE59D830AF0AA8590
  0AF0A489B80AE98F930AE396A10AE5A49F0AE6A2A60AE39B830AE6B9990AF0A198BE0AE5A8A40AE595930AF0A19A920A
  E894850AE5A7890AF0A0B58E0AF0A6B2810AF0A6B4AA0AF0A19F9C0AE5A7990AF0A19FBB0AF0A19EB20AF0A6B6A60AE6
  B5B10AF0A1A0A80AF0A19B950AE5A7B90AF0A6B9850AE5AAAB0AE5A9A30AE39BA60AF0A4A6A90AE5A9B70AE39C880AE5
  AA960AE791A50AE5AB930AF0A6BEA10AF0A295940AE3B6850AF0A1A4910AE39CB20AF0A19AB80AE5BA830AE58B900AE5
  ADB60AE696880AE5ADBC0AF0A7A88E0AE480840AE4A19D0AF0A088840AE5AF950AE685A00AF0A1A8B40AF0A5A78C0AF0
  A096A50AE5AFB30AE5AE9D0AE4B4900AE5B0850AF0A1AD840AE5B0930AE78F8E0AE5B0940AF0A1B2A50AF0A6ACA80AE5
  B1890AE4A39D0AE5B2850AE5B3A90AE5B3AF0AE5B68B0AF0A1B7B90AF0A1B8B70AE5B4900AE5B4980AE5B5860AF0A1BA
  A40AE5B2BA0AE5B7970AE88BBC0AE3A0AD0AF0A4A4810AF0A281890AF0A285B30AE88A870AE3A0B60AE3AF820AE5B8AE
  0AE6AA8A0AE5B9B50AE5B9BA0AF0A492BC0AF0A0B3930AE58EA60AE4BAB70AE5BB900AE58EA80AF0A19DB10AE5B8890A
  E5BBB40AF0A892820A"

/-- tests/test_data/whatwg/big5_whatwg_test_encode_in.txt, part 123 -/
noncomputable def encodeIn122 : List Nat := hex! "F0A8A6BC0AF0A29A980AE595870AE4B3AD0AE590AF0AE790970AE596860AE596A90AF0A1A3970AF0A480BA0AE495920A
  F0A490B50AE69AB30AF0A182B40AE598B70AE69B8D0AF0A38A8A0AE69AA40AE69AAD0AE5998D0AE5998F0AE7A3B10AE5
  9BB10AE99E870AE58FBE0AE59C800AE59BAF0AE59BAD0AF0A8ADA60AE398A30AF0A1898F0AE59D860AF0A486A50AE6B1
  AE0AE7828B0AE59D820AE39AB10AF0A6B1BE0AE59FA60AF0A190960AE5A0830AF0A191940AF0A48DA30AE5A0A60AF0A4
  AFB50AE5A19C0AE5A2AA0AE395A10AE5A3A00AE5A39C0AF0A188BC0AE5A3BB0AE5AFBF0AE59D830AF0AA85900AF0A489
  B80AE98F930AE396A10AE5A49F0AE6A2A60AE39B830AE6B9990AF0A198BE0AE5A8A40AE595930AF0A19A920AE894850A
  E5A7890AF0A0B58E0AF0A6B2810AF0A6B4AA0AF0A19F9C0AE5A7990AF0A19FBB0AF0A19EB20AF0A6B6A60AE6B5B10AF0
  A1A0A80AF0A19B950AE5A7B90AF0A6B9850AE5AAAB0AE5A9A30AE39BA60AF0A4A6A90AE39C880AE5AA960AE791A50AE5
  AB930AF0A6BEA10AF0A295940AE3B6850AF0A1A4910AE39CB20AF0A19AB80AE5BA830AE58B900AE5ADB60AE696880AE5
  ADBC0AF0A7A88E0AE480840AE4A19D0AF0A088840AE5AF950AE685A00AF0A1A8B40AF0A5A78C0AF0A096A50AE5AFB30A
  E5AE9D0AE4B4900AE5B0850AF0A1AD840AE5B0930AE78F8E0AE5B0940AF0A1B2A50AF0A6ACA80AE5B1890AE4A39D0AE5
  B2850AE5B3A90AE5B3AF0AE5B68B0AF0A1B7B90AF0A1B8B70AE5B4900AE5B4980AE5B5860AF0A1BAA40AE5B2BA0AE5B7
  970AE88BBC0AE3A0AD0AF0A4A4810AF0A281890AF0A285B30AE88A870AE3A0B60AE3AF820AE5B8AE0AE6AA8A0AE5B9BA
  0AF0A492BC0AF0A0B3930AE58EA60AE4BAB70AE58EA80AF0A19DB10AE5B8890AF0A892820A"

/-- tests/test_data/whatwg/big5_whatwg_test_encode_out.txt, part 123 -/
noncomputable def encodeOut122 : List Nat := hex! "FB400AFB410AFB420AFB430AFB440AFB450AFB460AFB470AFB490AFB4A0AFB4B0AFB4C0AFB4D0AFB4E0AFB4F0AFB500A
  FB510AFB520AFB530AFB540AFB550AFB560AFB570AFB580AFB590AFB5A0AFB5B0AFB5C0AFB5D0AFB5E0AFB5F0AFB600A
  FB610AFB620AFB630AFB640AFB650AFB660AFB670AFB680AFB690AFB6A0AFB6B0AFB6C0AFB6D0AFB6E0AFB6F0AFB700A
  FB710AFB720AFB730AFB740AFB750AFB760AFB770AFB780AFB790AFB7A0AFB7B0AFB7C0AFB7D0AFB7E0AFBA10AFBA20A
  FBA30AFBA40AFBA50AFBA60AFBA70AFBA80AFBA90AFBAA0AFBAB0AFBAC0AFBAD0AFBAE0AFBAF0AFBB00AFBB10AFBB20A
  FBB30AFBB40AFBB50AFBB60AFBB70AFBB90AFBBA0AFBBB0AFBBC0AFBBD0AFBBE0AFBBF0AFBC00AFBC10AFBC20AFBC30A
  FBC40AFBC50AFBC60AFBC70AFBC80AFBC90AFBCA0AFBCB0AFBCC0AFBCD0AFBCE0AFBCF0AFBD00AFBD10AFBD20AFBD30A
  FBD40AFBD50AFBD60AFBD70AFBD80AFBD90AFBDA0AFBDB0AFBDC0AFBDD0AFBDE0AFBDF0AFBE00AFBE10AFBE20AFBE30A
  FBE40AFBE50AFBE60AFBE70AFBE80AFBE90AFBEA0AFBEB0AFBEC0AFBED0AFBEE0AFBEF0AFBF00AFBF10AFBF20AFBF40A
  FBF50AFBF60AFBF70AFBF80AFBFA0AFBFB0AFBFC0AFBFE0A"

/-- tests/test_data/whatwg/big5_whatwg_test_decode_in.txt, part 124 -/
noncomputable def decodeIn123 : List Nat := hex! "FC400AFC410AFC420AFC430AFC440AFC450AFC460AFC470AFC480AFC490AFC4A0AFC4B0AFC4C0AFC4D0AFC4E0AFC4F0A
  FC500AFC510AFC520AFC530AFC540AFC550AFC560AFC570AFC580AFC590AFC5A0AFC5B0AFC5C0AFC5D0AFC5E0AFC5F0A
  FC600AFC610AFC620AFC630AFC640AFC650AFC660AFC670AFC680AFC690AFC6A0AFC6B0AFC6C0AFC6D0AFC6E0AFC6F0A
  FC700AFC710AFC720AFC730AFC740AFC750AFC760AFC770AFC780AFC790AFC7A0AFC7B0AFC7C0AFC7D0AFC7E0AFCA10A
  FCA20AFCA30AFCA40AFCA50AFCA60AFCA70AFCA80AFCA90AFCAA0AFCAB0AFCAC0AFCAD0AFCAE0AFCAF0AFCB00AFCB10A
  FCB20AFCB30AFCB40AFCB50AFCB60AFCB70AFCB80AFCB90AFCBA0AFCBB0AFCBC0AFCBD0AFCBE0AFCBF0AFCC00AFCC10A
  FCC20AFCC30AFCC40AFCC50AFCC60AFCC70AFCC80AFCC90AFCCA0AFCCB0AFCCC0AFCCD0AFCCE0AFCCF0AFCD00AFCD10A
  FCD20AFCD30AFCD40AFCD50AFCD60AFCD70AFCD80AFCD90AFCDA0AFCDB0AFCDC0AFCDD0AFCDE0AFCDF0AFCE00AFCE10A
  FCE20AFCE30AFCE40AFCE50AFCE60AFCE70AFCE80AFCE90AFCEA0AFCEB0AFCEC0AFCED0AFCEE0AFCEF0AFCF00AFCF10A
  FCF20AFCF30AFCF40AFCF50AFCF60AFCF70AFCF80AFCF90AFCFA0AFCFB0AFCFC0AFCFD0AFCFE0A"

/-- tests/test_data/whatwg/big5_whatwg_test_decode_out.txt, part 124 -/
noncomputable def decodeOut123 : List Nat := hex! "E5BBB90AE5BBBB0AE3A2A00AE5BBBC0AE6A0BE0AE9909B0AE5BC8D0AF0A087810AF0AFA2940AE3AB9E0AE4A2AE0AF0A1
  8CBA0AE5BCBA0AF0A6A2880AF0A28F900AE5BD980AF0A291B10AE5BDA30AE99EBD0AF0A6B9AE0AE5BDB20AE98D800AF0
  A8A8B60AE5BEA70AE5B6B60AE3B59F0AF0A589900AF0A1BDAA0AF0A783B80AF0A299A80AE987960AF0A08A9E0AF0A8A8
  A90AE680B10AE69A850AF0A1A1B70AE3A5A30AE3B7870AE398B90AE59E900AF0A29EB40AE7A5B10AE3B9800AE6829E0A
  E682A40AE682B30AF0A4A6820AF0A4A68F0AF0A7A9930AE792A40AE583A10AE5AAA00AE685A40AE890A40AE685820AF0
  AFA2A60AF0A6BB920AE686810AE587B40AF0A099960AE686870AE5AEAA0AF0A3BEB70AF0A2A19F0AE687930AF0A8AE9D
  0AF0A9A59D0AE687900AE3A4B20AF0A2A6800AF0A2A3810AE680A30AE6859C0AE6949E0AE68E8B0AF0A084980AE68B85
  0AF0A19DB00AE68B950AF0A2B88D0AE68DAC0AF0A4A79F0AE3A8970AE690B80AE68FB80AF0A18E8E0AF0A19FBC0AE692
  900AE6BE8A0AF0A2B8B60AE9A0940AF0A4828C0AF0A59C9D0AE693A10AE693A50AE991BB0AE3A9A60AE690BA0AE3A997
  0AE6958D0AE6BC960AF0A4A8A80AF0A4A8A30AE696850AE695AD0AE6959F0AF0A381BE0AE696B50AF0A4A5800AE4ACB7
  0AE697910AE483980AF0A1A0A90AE697A00AE697A30AE5BF9F0AF0A390800AE698980AF0A387B70AF0A387B80AE69984
  0AF0A386A40AF0A386A50AE6998B0AF0A0B9B50AE699A70AF0A587A60AE699B30AE699B40AF0A1B8BD0AF0A388B10AF0
  A897B40AF0A387880AF0A58C930AE79F850AF0A2A3B70AE9A6A40AE69C820AF0A48E9C0AF0A4A8A10AE3ACAB0AE6A7BA
  0AF0A39F820AE69D9E0AE69DA70AE69DA20AF0A4878D0AF0A983AD0AE69F970AE493A90AE6A0A20AE6B9900AE988BC0A
  E6A0810AF0A38FA60AF0A6B6A00AE6A19D0A"

/-- tests/test_data/whatwg/big5_whatwg_test_encode_in.txt, part 124 -/
noncomputable def encodeIn123 : List Nat := hex! "E5BBB90AE5BBBB0AE3A2A00AE5BBBC0AE6A0BE0AE9909B0AE5BC8D0AF0A087810AF0AFA2940AE3AB9E0AE4A2AE0AF0A1
  8CBA0AE5BCBA0AF0A6A2880AF0A28F900AF0A291B10AE5BDA30AE99EBD0AF0A6B9AE0AE5BDB20AE98D800AF0A8A8B60A
  E5BEA70AE5B6B60AE3B59F0AF0A589900AF0A1BDAA0AF0A783B80AF0A299A80AE987960AF0A08A9E0AF0A8A8A90AE680
  B10AE69A850AF0A1A1B70AE3A5A30AE3B7870AE398B90AE59E900AF0A29EB40AE7A5B10AE3B9800AE6829E0AE682B30A
  F0A4A6820AF0A4A68F0AF0A7A9930AE792A40AE583A10AE5AAA00AE685A40AE890A40AE685820AF0AFA2A60AF0A6BB92
  0AE686810AE587B40AF0A099960AE686870AE5AEAA0AF0A3BEB70AF0A2A19F0AE687930AF0A8AE9D0AF0A9A59D0AE687
  900AE3A4B20AF0A2A6800AF0A2A3810AE680A30AE6859C0AE6949E0AE68E8B0AF0A084980AE68B850AF0A19DB00AE68B
  950AF0A2B88D0AE68DAC0AF0A4A79F0AE3A8970AE690B80AE68FB80AF0A18E8E0AF0A19FBC0AE6BE8A0AF0A2B8B60AE9
  A0940AF0A4828C0AF0A59C9D0AE693A10AE693A50AE991BB0AE3A9A60AE690BA0AE3A9970AE6958D0AE6BC960AF0A4A8
  A80AF0A4A8A30AE696850AE695AD0AE6959F0AF0A381BE0AE696B50AF0A4A5800AE4ACB70AE697910AE483980AF0A1A0
  A90AE697A30AE5BF9F0AF0A390800AE698980AF0A387B70AF0A387B80AE699840AF0A386A40AF0A386A50AE6998B0AF0
  A0B9B50AE699A70AF0A587A60AE699B30AF0A1B8BD0AF0A388B10AF0A897B40AF0A387880AF0A58C930AE79F850AF0A2
  A3B70AE9A6A40AE69C820AF0A48E9C0AF0A4A8A10AE3ACAB0AE6A7BA0AF0A39F820AE69DA70AE69DA20AF0A4878D0AF0
  A983AD0AE69F970AE493A90AE6A0A20AE6B9900AE988BC0AE6A0810AF0A38FA60AF0A6B6A00AE6A19D0A"

/-- tests/test_data/whatwg/big5_whatwg_test_encode_out.txt, part 124 -/
noncomputable def encodeOut123 : List Nat := hex! "FC400AFC410AFC420AFC430AFC440AFC450AFC460AFC470AFC480AFC490AFC4A0AFC4B0AFC4C0AFC4D0AFC4E0AFC500A
  FC510AFC520AFC530AFC540AFC550AFC560AFC570AFC580AFC590AFC5A0AFC5B0AFC5C0AFC5D0AFC5E0AFC5F0AFC600A
  FC610AFC620AFC630AFC640AFC650AFC660AFC670AFC680AFC690AFC6A0AFC6B0AFC6D0AFC6E0AFC6F0AFC700AFC710A
  FC720AFC730AFC740AFC750AFC760AFC770AFC780AFC790AFC7A0AFC7B0AFC7C0AFC7D0AFC7E0AFCA10AFCA20AFCA30A
  FCA40AFCA50AFCA60AFCA70AFCA80AFCA90AFCAA0AFCAB0AFCAC0AFCAD0AFCAE0AFCAF0AFCB00AFCB10AFCB20AFCB30A
  FCB40AFCB50AFCB60AFCB70AFCB80AFCBA0AFCBB0AFCBC0AFCBD0AFCBE0AFCBF0AFCC00AFCC10AFCC20AFCC30AFCC40A
  FCC50AFCC60AFCC70AFCC80AFCC90AFCCA0AFCCB0AFCCC0AFCCD0AFCCE0AFCCF0AFCD00AFCD10AFCD20AFCD40AFCD50A
  FCD60AFCD70AFCD80AFCD90AFCDA0AFCDB0AFCDC0AFCDD0AFCDE0AFCDF0AFCE00AFCE10AFCE30AFCE40AFCE50AFCE60A
  FCE70AFCE80AFCE90AFCEA0AFCEB0AFCEC0AFCED0AFCEE0AFCEF0AFCF00AFCF20AFCF30AFCF40AFCF50AFCF60AFCF70A
  FCF80AFCF90AFCFA0AFCFB0AFCFC0AFCFD0AFCFE0A"

/-- tests/test_data/whatwg/big5_whatwg_test_decode_in.txt, part 125 -/
noncomputable def decodeIn124 : List Nat := hex! "FD400AFD410AFD420AFD430AFD440AFD450AFD460AFD470AFD480AFD490AFD4A0AFD4B0AFD4C0AFD4D0AFD4E0AFD4F0A
  FD500AFD510AFD520AFD530AFD540AFD550AFD560AFD570AFD580AFD590AFD5A0AFD5B0AFD5C0AFD5D0AFD5E0AFD5F0A
  FD600AFD610AFD620AFD630AFD640AFD650AFD660AFD670AFD680AFD690AFD6A0AFD6B0AFD6C0AFD6D0AFD6E0AFD6F0A
  FD700AFD710AFD720AFD730AFD740AFD750AFD760AFD770AFD780AFD790AFD7A0AFD7B0AFD7C0AFD7D0AFD7E0AFDA10A
  FDA20AFDA30AFDA40AFDA50AFDA60AFDA70AFDA80AFDA90AFDAA0AFDAB0AFDAC0AFDAD0AFDAE0AFDAF0AFDB00AFDB10A
  FDB20AFDB30AFDB40AFDB50AFDB60AFDB70AFDB80AFDB90AFDBA0AFDBB0AFDBC0AFDBD0AFDBE0AFDBF0AFDC00AFDC10A
  FDC20AFDC30AFDC40AFDC50AFDC60AFDC70AFDC80AFDC90AFDCA0AFDCB0AFDCC0AFDCD0AFDCE0AFDCF0AFDD00AFDD10A
  FDD20AFDD30AFDD40AFDD50AFDD60AFDD70AFDD80AFDD90AFDDA0AFDDB0AFDDC0AFDDD0AFDDE0AFDDF0AFDE00AFDE10A
  FDE20AFDE30AFDE40AFDE50AFDE60AFDE70AFDE80AFDE90AFDEA0AFDEB0AFDEC0AFDED0AFDEE0AFDEF0AFDF00AFDF10A
  FDF20AFDF30AFDF40AFDF50AFDF60AFDF70AFDF80AFDF90AFDFA0AFDFB0AFDFC0AFDFD0AFDFE0A"

/-- tests/test_data/whatwg/big5_whatwg_test_decode_out.txt, part 125 -/
noncomputable def decodeOut124 : List Nat := hex! "F0A391AF0AE6A7A10AE6A88B0AF0A8AB9F0AE6A5B30AE6A3830AF0A3978D0AE6A4810AE6A4800AE3B4B20AE3A8810AF0
  A398BC0AE3AE800AE69EAC0AE6A5A10AF0A8A98A0AE48BBC0AE6A4B60AE6A6980AE3AEA10AF0A08F890AE88DA30AE582
  900AE6A7B90AF0A399990AF0A284AA0AE6A9850AF0A39C830AE6AA9D0AE3AFB30AE69EB10AE6AB880AF0A9869C0AE3B0
  8D0AE6AC9D0AF0A0A4A30AE6839E0AE6ACB50AE6ADB40AF0A29F8D0AE6BAB50AF0A3AB9B0AF0A08EB50AF0A1A5980AE3
  9D800AE590A10AF0A3AD9A0AE6AFA10AF0A3BBBC0AE6AF9C0AE6B0B70AF0A2928B0AF0A4A3B10AF0A6AD910AE6B19A0A
  E888A60AE6B1B90AF0A3B6BC0AE493850AF0A3B6BD0AF0A486A40AF0A4A48C0AF0A4A4800AF0A3B3890AE39BA50AE3B3
  AB0AF0A0B4B20AE9AE830AF0A387B90AF0A292910AE7BE8F0AE6A0B70AF0A6B4A50AF0A6B6A10AF0A6B7AB0AE6B6960A
  E6B59C0AE6B9BC0AE6BC840AF0A4A5BF0AF0A482850AF0A6B9B20AE894B30AF0A6BDB40AE587870AE6B29C0AE6B89D0A
  E890AE0AF0A8ACA10AE6B8AF0AF0A3B8AF0AE791930AF0A3BE820AE7A78C0AE6B98F0AE5AA910AF0A3818B0AE6BFB80A
  E39C8D0AE6BE9D0AF0A3B8B00AE6BBBA0AF0A192970AF0A480BD0AE495950AE98FB00AE6BD840AE6BD9C0AE3B58E0AE6
  BDB40AF0A985B00AE3B4BB0AE6BE9F0AF0A485840AE6BF930AF0A482910AF0A485950AF0A480B90AF0A3BFB00AF0A3BE
  B40AF0A484BF0AE5879F0AF0A485960AF0A485970AF0A485800AF0A6879D0AE7818B0AE781BE0AE782A70AE782810AE7
  838C0AE783950AE783960AE7839F0AE484840AE3B7A80AE786B40AE786960AF0A489B70AE784AB0AE785850AE5AA880A
  E7858A0AE785AE0AE5B29C0AF0A48DA50AE7858F0AE98DA20AF0A48B810AE784AC0AF0A4919A0AF0A4A8A70AF0A4A8A2
  0AE786BA0AF0A8AFA80AE782BD0AE7888E0A"

/-- tests/test_data/whatwg/big5_whatwg_test_encode_in.txt, part 125 -/
noncomputable def encodeIn124 : List Nat := hex! "F0A391AF0AE6A7A10AE6A88B0AF0A8AB9F0AE6A5B30AE6A3830AF0A3978D0AE6A4810AE6A4800AE3B4B20AE3A8810AF0
  A398BC0AE3AE800AE69EAC0AE6A5A10AF0A8A98A0AE48BBC0AE6A4B60AE6A6980AE3AEA10AF0A08F890AE88DA30AE582
  900AE6A7B90AF0A399990AF0A284AA0AE6A9850AF0A39C830AE6AA9D0AE3AFB30AE69EB10AE6AB880AF0A9869C0AE3B0
  8D0AE6AC9D0AF0A0A4A30AE6ACB50AE6ADB40AF0A29F8D0AE6BAB50AF0A3AB9B0AF0A08EB50AF0A1A5980AE39D800AE5
  90A10AF0A3AD9A0AE6AFA10AF0A3BBBC0AE6AF9C0AE6B0B70AF0A2928B0AF0A4A3B10AF0A6AD910AE6B19A0AE888A60A
  E6B1B90AF0A3B6BC0AE493850AF0A3B6BD0AF0A486A40AF0A4A48C0AF0A4A4800AF0A3B3890AE39BA50AE3B3AB0AF0A0
  B4B20AE9AE830AF0A387B90AF0A292910AE7BE8F0AE6A0B70AF0A6B4A50AF0A6B6A10AF0A6B7AB0AE6B6960AE6B59C0A
  E6B9BC0AE6BC840AF0A4A5BF0AF0A482850AF0A6B9B20AE894B30AF0A6BDB40AE587870AE890AE0AF0A8ACA10AF0A3B8
  AF0AE791930AF0A3BE820AE7A78C0AE6B98F0AE5AA910AF0A3818B0AE6BFB80AE39C8D0AE6BE9D0AF0A3B8B00AE6BBBA
  0AF0A192970AF0A480BD0AE495950AE98FB00AE6BD840AE6BD9C0AE3B58E0AE6BDB40AF0A985B00AE3B4BB0AE6BE9F0A
  F0A485840AE6BF930AF0A482910AF0A485950AF0A480B90AF0A3BFB00AF0A3BEB40AF0A484BF0AE5879F0AF0A485960A
  F0A485970AF0A485800AF0A6879D0AE7818B0AE781BE0AE782A70AE782810AE7838C0AE783950AE783960AE7839F0AE4
  84840AE3B7A80AE786B40AE786960AF0A489B70AE784AB0AE785850AE5AA880AE7858A0AE5B29C0AF0A48DA50AE7858F
  0AE98DA20AF0A48B810AE784AC0AF0A4919A0AF0A4A8A70AF0A4A8A20AE786BA0AF0A8AFA80AE782BD0AE7888E0A"

/-- tests/test_data/whatwg/big5_whatwg_test_encode_out.txt, part 125 -/
noncomputable def encodeOut124 : List Nat := hex! "FD400AFD410AFD420AFD430AFD440AFD450AFD460AFD470AFD480AFD490AFD4A0AFD4B0AFD4C0AFD4D0AFD4E0AFD4F0A
  FD500AFD510AFD520AFD530AFD540AFD550AFD560AFD570AFD580AFD590AFD5A0AFD5B0AFD5C0AFD5D0AFD5E0AFD5F0A
  FD600AFD610AFD620AFD630AFD650AFD660AFD670AFD680AFD690AFD6A0AFD6B0AFD6C0AFD6D0AFD6E0AFD6F0AFD700A
  FD710AFD720AFD730AFD740AFD750AFD760AFD770AFD780AFD790AFD7A0AFD7B0AFD7C0AFD7D0AFD7E0AFDA10AFDA20A
  FDA30AFDA40AFDA50AFDA60AFDA70AFDA80AFDA90AFDAA0AFDAB0AFDAC0AFDAD0AFDAE0AFDAF0AFDB00AFDB10AFDB20A
  FDB30AFDB40AFDB50AFDB60AFDB90AFDBA0AFDBC0AFDBD0AFDBE0AFDBF0AFDC00AFDC10AFDC20AFDC30AFDC40AFDC50A
  FDC60AFDC70AFDC80AFDC90AFDCA0AFDCB0AFDCC0AFDCD0AFDCE0AFDCF0AFDD00AFDD10AFDD20AFDD30AFDD40AFDD50A
  FDD60AFDD70AFDD80AFDD90AFDDA0AFDDB0AFDDC0AFDDD0AFDDE0AFDDF0AFDE00AFDE10AFDE20AFDE30AFDE40AFDE50A
  FDE60AFDE70AFDE80AFDE90AFDEA0AFDEB0AFDEC0AFDED0AFDEE0AFDEF0AFDF00AFDF20AFDF30AFDF40AFDF50AFDF60A
  FDF70AFDF80AFDF90AFDFA0AFDFB0AFDFC0AFDFD0AFDFE0A"

/-- tests/test_data/whatwg/big5_whatwg_test_decode_in.txt, part 126 -/
noncomputable def decodeIn125 : List Nat := hex! "FE400AFE410AFE420AFE430AFE440AFE450AFE460AFE470AFE480AFE490AFE4A0AFE4B0AFE4C0AFE4D0AFE4E0AFE4F0A
  FE500AFE510AFE520AFE530AFE540AFE550AFE560AFE570AFE580AFE590AFE5A0AFE5B0AFE5C0AFE5D0AFE5E0AFE5F0A
  FE600AFE610AFE620AFE630AFE640AFE650AFE660AFE670AFE680AFE690AFE6A0AFE6B0AFE6C0AFE6D0AFE6E0AFE6F0A
  FE700AFE710AFE720AFE730AFE740AFE750AFE760AFE770AFE780AFE790AFE7A0AFE7B0AFE7C0AFE7D0AFE7E0AFEA10A
  FEA20AFEA30AFEA40AFEA50AFEA60AFEA70AFEA80AFEA90AFEAA0AFEAB0AFEAC0AFEAD0AFEAE0AFEAF0AFEB00AFEB10A
  FEB20AFEB30AFEB40AFEB50AFEB60AFEB70AFEB80AFEB90AFEBA0AFEBB0AFEBC0AFEBD0AFEBE0AFEBF0AFEC00AFEC10A
  FEC20AFEC30AFEC40AFEC50AFEC60AFEC70AFEC80AFEC90AFECA0AFECB0AFECC0AFECD0AFECE0AFECF0AFED00AFED10A
  FED20AFED30AFED40AFED50AFED60AFED70AFED80AFED90AFEDA0AFEDB0AFEDC0AFEDD0AFEDE0AFEDF0AFEE00AFEE10A
  FEE20AFEE30AFEE40AFEE50AFEE60AFEE70AFEE80AFEE90AFEEA0AFEEB0AFEEC0AFEED0AFEEE0AFEEF0AFEF00AFEF10A
  FEF20AFEF30AFEF40AFEF50AFEF60AFEF70AFEF80AFEF90AFEFA0AFEFB0AFEFC0AFEFD0AFEFE0A"

/-- tests/test_data/whatwg/big5_whatwg_test_decode_out.txt, part 126 -/
noncomputable def decodeOut125 : List Nat := hex! "E991820AE788950AE5A4910AE991830AE788A40AE98D810AF0A598850AE788AE0AE789800AF0A4A5B40AE6A2BD0AE789
  950AE789970AE3B9950AF0A381840AE6A08D0AE6BCBD0AE78A820AE78CAA0AE78CAB0AF0A4A0A30AF0A8A0AB0AE4A3AD
  0AF0A8A0840AE78CA80AE78CAE0AE78F8F0AE78EAA0AF0A0B0BA0AF0A6A8AE0AE78F890AE791890AF0A487A20AF0A19B
  A70AF0A4A8A40AE698A30AE39B850AF0A4A6B70AF0A4A68D0AF0A4A7BB0AE78FB70AE790950AE6A4830AF0A4A8A60AE7
  90B90AF0A097830AE3BB970AE7919C0AF0A2A2AD0AE791A00AF0A8BAB20AE791870AE78FA40AE791B60AE88EB90AE791
  AC0AE39CB00AE791B40AE98FB10AE6A8AC0AE792820AE4A5930AF0A4AA8C0AF0A4859F0AF0A4A9B90AF0A8AE8F0AE5AD
  860AF0A8B0830AF0A1A29E0AE793880AF0A1A6880AE7948E0AE793A90AE7949E0AF0A8BB990AF0A1A98B0AE5AF970AF0
  A8BAAC0AE98E850AE7958D0AE7958A0AE795A70AE795AE0AF0A4BE820AE3BC840AF0A4B4930AE7968E0AE7919D0AE796
  9E0AE796B40AE798820AE798AC0AE799910AE7998F0AE799AF0AE799B60AF0A68FB50AE79A900AE887AF0AE39FB80AF0
  A6A4910AF0A6A48E0AE79AA10AE79AA50AE79AB70AE79B8C0AF0A6BE9F0AE891A20AF0A5829D0AF0A585BD0AF0A1B89C
  0AE79C9E0AE79CA60AE79D800AE692AF0AF0A588A00AE79D980AF0A38AAC0AE79EAF0AF0A8A5A40AF0A8A5A80AF0A19B
  810AE79FB40AE7A0890AF0A18DB60AF0A4A8920AE6A38A0AE7A2AF0AE7A3870AE7A3930AE99AA50AE7A4AE0AF0A597A0
  0AE7A3970AE7A4B40AE7A2B10AF0A7988C0AE8BEB80AE8A2840AF0A8ACAB0AF0A682830AF0A2989C0AE7A6860AE8A480
  0AE6A4820AE7A6800AF0A5A1970AE7A69D0AF0A7ACB90AE7A4BC0AE7A6A90AE6B8AA0AF0A784A60AE3BAA80AE7A7860A
  F0A9848D0AE7A7940A"

/-- tests/test_data/whatwg/big5_whatwg_test_encode_in.txt, part 126 -/
noncomputable def encodeIn125 : List Nat := hex! "E991820AE788950AE5A4910AE991830AE788A40AE98D810AF0A598850AE788AE0AE789800AF0A4A5B40AE6A2BD0AE789
  950AE789970AE3B9950AF0A381840AE6A08D0AE6BCBD0AE78A820AE78CAB0AF0A4A0A30AF0A8A0AB0AE4A3AD0AF0A8A0
  840AE78CA80AE78CAE0AE78F8F0AE78EAA0AF0A0B0BA0AF0A6A8AE0AE78F890AE791890AF0A487A20AF0A19BA70AF0A4
  A8A40AE698A30AE39B850AF0A4A6B70AF0A4A68D0AF0A4A7BB0AE78FB70AE790950AE6A4830AF0A4A8A60AE790B90AF0
  A097830AE3BB970AF0A2A2AD0AE791A00AF0A8BAB20AE791870AE78FA40AE791B60AE88EB90AE791AC0AE39CB00AE791
  B40AE98FB10AE6A8AC0AE792820AE4A5930AF0A4AA8C0AF0A4859F0AF0A4A9B90AF0A8AE8F0AE5AD860AF0A8B0830AF0
  A1A29E0AE793880AF0A1A6880AE7948E0AE7949E0AF0A8BB990AF0A1A98B0AE5AF970AF0A8BAAC0AE98E850AE7958D0A
  E7958A0AE795A70AE795AE0AF0A4BE820AE3BC840AF0A4B4930AE7968E0AE7919D0AE7969E0AE796B40AE798820AE798
  AC0AE799910AE7998F0AE799AF0AF0A68FB50AE79A900AE887AF0AE39FB80AF0A6A4910AF0A6A48E0AE79AA10AE79AA5
  0AE79AB70AE79B8C0AF0A6BE9F0AE891A20AF0A5829D0AF0A585BD0AF0A1B89C0AE79C9E0AE79CA60AE79D800AE692AF
  0AF0A588A00AE79D980AF0A38AAC0AE79EAF0AF0A8A5A40AF0A8A5A80AF0A19B810AE79FB40AF0A18DB60AF0A4A8920A
  E6A38A0AE7A2AF0AE7A3870AE7A3930AE99AA50AE7A4AE0AF0A597A00AE7A3970AE7A4B40AE7A2B10AF0A7988C0AE8BE
  B80AE8A2840AF0A8ACAB0AF0A682830AF0A2989C0AE7A6860AE8A4800AE6A4820AE7A6800AF0A5A1970AE7A69D0AF0A7
  ACB90AE7A4BC0AE7A6A90AE6B8AA0AF0A784A60AE3BAA80AE7A7860AF0A9848D0AE7A7940A"

/-- tests/test_data/whatwg/big5_whatwg_test_encode_out.txt, part 126 -/
noncomputable def encodeOut125 : List Nat := hex! "FE400AFE410AFE420AFE430AFE440AFE450AFE460AFE470AFE480AFE490AFE4A0AFE4B0AFE4C0AFE4D0AFE4E0AFE4F0A
  FE500AFE510AFE530AFE540AFE550AFE560AFE570AFE580AFE590AFE5A0AFE5B0AFE5C0AFE5D0AFE5E0AFE5F0AFE600A
  FE610AFE620AFE630AFE640AFE650AFE660AFE670AFE680AFE690AFE6A0AFE6B0AFE6C0AFE6D0AFE6E0AFE700AFE710A
  FE720AFE730AFE740AFE750AFE760AFE770AFE780AFE790AFE7A0AFE7B0AFE7C0AFE7D0AFE7E0AFEA10AFEA20AFEA30A
  FEA40AFEA50AFEA60AFEA70AFEA80AFEA90AFEAB0AFEAC0AFEAD0AFEAE0AFEAF0AFEB00AFEB10AFEB20AFEB30AFEB40A
  FEB50AFEB60AFEB70AFEB80AFEB90AFEBA0AFEBB0AFEBC0AFEBD0AFEBE0AFEBF0AFEC00AFEC20AFEC30AFEC40AFEC50A
  FEC60AFEC70AFEC80AFEC90AFECA0AFECB0AFECC0AFECD0AFECE0AFECF0AFED00AFED10AFED20AFED30AFED40AFED50A
  FED60AFED70AFED80AFED90AFEDA0AFEDB0AFEDC0AFEDE0AFEDF0AFEE00AFEE10AFEE20AFEE30AFEE40AFEE50AFEE60A
  FEE70AFEE80AFEE90AFEEA0AFEEB0AFEEC0AFEED0AFEEE0AFEEF0AFEF00AFEF10AFEF20AFEF30AFEF40AFEF50AFEF60A
  FEF70AFEF80AFEF90AFEFA0AFEFB0AFEFC0AFEFD0AFEFE0A"

end Verif.Files.Big5
