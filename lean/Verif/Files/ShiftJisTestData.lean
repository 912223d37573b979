import Verif.Files.ShiftJis.TestData1
import Verif.Files.ShiftJis.TestData2
import Verif.Model.TestData

/-! Generated by tools/gen_files.py: the test data of ShiftJis. -/

namespace Verif.Files.ShiftJis

/-- tests/test_data/whatwg/shiftjis_whatwg_test_decode_in.txt, part 0 -/
noncomputable def decodeInAscii : List Nat := hex! "010A020A030A040A050A060A070A080A090A0A0A0B0A0C0A0D0A0E0A0F0A100A110A120A130A140A150A160A170A180A
  190A1A0A1B0A1C0A1D0A1E0A1F0A200A210A220A230A240A250A260A270A280A290A2A0A2B0A2C0A2D0A2E0A2F0A300A
  310A320A330A340A350A360A370A380A390A3A0A3B0A3C0A3D0A3E0A3F0A400A410A420A430A440A450A460A470A480A
  490A4A0A4B0A4C0A4D0A4E0A4F0A500A510A520A530A540A550A560A570A580A590A5A0A5B0A5C0A5D0A5E0A5F0A600A
  610A620A630A640A650A660A670A680A690A6A0A6B0A6C0A6D0A6E0A6F0A700A710A720A730A740A750A760A770A780A
  790A7A0A7B0A7C0A7D0A7E0A7F0A800A"

/-- tests/test_data/whatwg/shiftjis_whatwg_test_decode_in.txt, part 61 -/
noncomputable def decodeInPairs : List Nat := hex! ""

/-- The parts of tests/test_data/whatwg/shiftjis_whatwg_test_decode_in.txt but the first and the last one -/
noncomputable def decodeInParts : List (List Nat) :=
  [decodeIn0, decodeIn1, decodeIn2, decodeIn3, decodeIn4, decodeIn5, decodeIn6, decodeIn7, decodeIn8, decodeIn9, decodeIn10, decodeIn11, decodeIn12, decodeIn13, decodeIn14, decodeIn15, decodeIn16, decodeIn17, decodeIn18, decodeIn19, decodeIn20, decodeIn21, decodeIn22, decodeIn23, decodeIn24, decodeIn25, decodeIn26, decodeIn27, decodeIn28, decodeIn29, decodeIn30, decodeIn31, decodeIn32, decodeIn33, decodeIn34, decodeIn35, decodeIn36, decodeIn37, decodeIn38, decodeIn39, decodeIn40, decodeIn41, decodeIn42, decodeIn43, decodeIn44, decodeIn45, decodeIn46, decodeIn47, decodeIn48, decodeIn49, decodeIn50, decodeIn51, decodeIn52, decodeIn53, decodeIn54, decodeIn55, decodeIn56, decodeIn57, decodeIn58, decodeIn59]

/-- tests/test_data/whatwg/shiftjis_whatwg_test_decode_out.txt, part 0 -/
noncomputable def decodeOutAscii : List Nat := hex! "010A020A030A040A050A060A070A080A090A0A0A0B0A0C0A0D0A0E0A0F0A100A110A120A130A140A150A160A170A180A
  190A1A0A1B0A1C0A1D0A1E0A1F0A200A210A220A230A240A250A260A270A280A290A2A0A2B0A2C0A2D0A2E0A2F0A300A
  310A320A330A340A350A360A370A380A390A3A0A3B0A3C0A3D0A3E0A3F0A400A410A420A430A440A450A460A470A480A
  490A4A0A4B0A4C0A4D0A4E0A4F0A500A510A520A530A540A550A560A570A580A590A5A0A5B0A5C0A5D0A5E0A5F0A600A
  610A620A630A640A650A660A670A680A690A6A0A6B0A6C0A6D0A6E0A6F0A700A710A720A730A740A750A760A770A780A
  790A7A0A7B0A7C0A7D0A7E0A7F0AC2800A"

/-- tests/test_data/whatwg/shiftjis_whatwg_test_decode_out.txt, part 61 -/
noncomputable def decodeOutPairs : List Nat := hex! ""

/-- The parts of tests/test_data/whatwg/shiftjis_whatwg_test_decode_out.txt but the first and the last one -/
noncomputable def decodeOutParts : List (List Nat) :=
  [decodeOut0, decodeOut1, decodeOut2, decodeOut3, decodeOut4, decodeOut5, decodeOut6, decodeOut7, decodeOut8, decodeOut9, decodeOut10, decodeOut11, decodeOut12, decodeOut13, decodeOut14, decodeOut15, decodeOut16, decodeOut17, decodeOut18, decodeOut19, decodeOut20, decodeOut21, decodeOut22, decodeOut23, decodeOut24, decodeOut25, decodeOut26, decodeOut27, decodeOut28, decodeOut29, decodeOut30, decodeOut31, decodeOut32, decodeOut33, decodeOut34, decodeOut35, decodeOut36, decodeOut37, decodeOut38, decodeOut39, decodeOut40, decodeOut41, decodeOut42, decodeOut43, decodeOut44, decodeOut45, decodeOut46, decodeOut47, decodeOut48, decodeOut49, decodeOut50, decodeOut51, decodeOut52, decodeOut53, decodeOut54, decodeOut55, decodeOut56, decodeOut57, decodeOut58, decodeOut59]

/-- tests/test_data/whatwg/shiftjis_whatwg_test_encode_in.txt, part 0 -/
noncomputable def encodeInAscii : List Nat := hex! "010A020A030A040A050A060A070A080A090A0A0A0B0A0C0A0D0A0E0A0F0A100A110A120A130A140A150A160A170A180A
  190A1A0A1B0A1C0A1D0A1E0A1F0A200A210A220A230A240A250A260A270A280A290A2A0A2B0A2C0A2D0A2E0A2F0A300A
  310A320A330A340A350A360A370A380A390A3A0A3B0A3C0A3D0A3E0A3F0A400A410A420A430A440A450A460A470A480A
  490A4A0A4B0A4C0A4D0A4E0A4F0A500A510A520A530A540A550A560A570A580A590A5A0A5B0A5C0A5D0A5E0A5F0A600A
  610A620A630A640A650A660A670A680A690A6A0A6B0A6C0A6D0A6E0A6F0A700A710A720A730A740A750A760A770A780A
  790A7A0A7B0A7C0A7D0A7E0A7F0AC2800A"

/-- tests/test_data/whatwg/shiftjis_whatwg_test_encode_in.txt, part 61 -/
noncomputable def encodeInPairs : List Nat := hex! ""

/-- The parts of tests/test_data/whatwg/shiftjis_whatwg_test_encode_in.txt but the first and the last one -/
noncomputable def encodeInParts : List (List Nat) :=
  [encodeIn0, encodeIn1, encodeIn2, encodeIn3, encodeIn4, encodeIn5, encodeIn6, encodeIn7, encodeIn8, encodeIn9, encodeIn10, encodeIn11, encodeIn12, encodeIn13, encodeIn14, encodeIn15, encodeIn16, encodeIn17, encodeIn18, encodeIn19, encodeIn20, encodeIn21, encodeIn22, encodeIn23, encodeIn24, encodeIn25, encodeIn26, encodeIn27, encodeIn28, encodeIn29, encodeIn30, encodeIn31, encodeIn32, encodeIn33, encodeIn34, encodeIn35, encodeIn36, encodeIn37, encodeIn38, encodeIn39, encodeIn40, encodeIn41, encodeIn42, encodeIn43, encodeIn44, encodeIn45, encodeIn46, encodeIn47, encodeIn48, encodeIn49, encodeIn50, encodeIn51, encodeIn52, encodeIn53, encodeIn54, encodeIn55, encodeIn56, encodeIn57, encodeIn58, encodeIn59]

/-- tests/test_data/whatwg/shiftjis_whatwg_test_encode_out.txt, part 0 -/
noncomputable def encodeOutAscii : List Nat := hex! "010A020A030A040A050A060A070A080A090A0A0A0B0A0C0A0D0A0E0A0F0A100A110A120A130A140A150A160A170A180A
  190A1A0A1B0A1C0A1D0A1E0A1F0A200A210A220A230A240A250A260A270A280A290A2A0A2B0A2C0A2D0A2E0A2F0A300A
  310A320A330A340A350A360A370A380A390A3A0A3B0A3C0A3D0A3E0A3F0A400A410A420A430A440A450A460A470A480A
  490A4A0A4B0A4C0A4D0A4E0A4F0A500A510A520A530A540A550A560A570A580A590A5A0A5B0A5C0A5D0A5E0A5F0A600A
  610A620A630A640A650A660A670A680A690A6A0A6B0A6C0A6D0A6E0A6F0A700A710A720A730A740A750A760A770A780A
  790A7A0A7B0A7C0A7D0A7E0A7F0A800A"

/-- tests/test_data/whatwg/shiftjis_whatwg_test_encode_out.txt, part 61 -/
noncomputable def encodeOutPairs : List Nat := hex! ""

/-- The parts of tests/test_data/whatwg/shiftjis_whatwg_test_encode_out.txt but the first and the last one -/
noncomputable def encodeOutParts : List (List Nat) :=
  [encodeOut0, encodeOut1, encodeOut2, encodeOut3, encodeOut4, encodeOut5, encodeOut6, encodeOut7, encodeOut8, encodeOut9, encodeOut10, encodeOut11, encodeOut12, encodeOut13, encodeOut14, encodeOut15, encodeOut16, encodeOut17, encodeOut18, encodeOut19, encodeOut20, encodeOut21, encodeOut22, encodeOut23, encodeOut24, encodeOut25, encodeOut26, encodeOut27, encodeOut28, encodeOut29, encodeOut30, encodeOut31, encodeOut32, encodeOut33, encodeOut34, encodeOut35, encodeOut36, encodeOut37, encodeOut38, encodeOut39, encodeOut40, encodeOut41, encodeOut42, encodeOut43, encodeOut44, encodeOut45, encodeOut46, encodeOut47, encodeOut48, encodeOut49, encodeOut50, encodeOut51, encodeOut52, encodeOut53, encodeOut54, encodeOut55, encodeOut56, encodeOut57, encodeOut58, encodeOut59]

/-- The files tests/test_data/whatwg/shiftjis_whatwg_test_*.txt -/
noncomputable def testData : Generator.TestData where
  decode_in := (decodeInAscii ++ decodeInParts.flatten ++ decodeInPairs).map UInt8.ofNat
  decode_out := (decodeOutAscii ++ decodeOutParts.flatten ++ decodeOutPairs).map UInt8.ofNat
  encode_in := (encodeInAscii ++ encodeInParts.flatten ++ encodeInPairs).map UInt8.ofNat
  encode_out := (encodeOutAscii ++ encodeOutParts.flatten ++ encodeOutPairs).map UInt8.ofNat

end Verif.Files.ShiftJis
