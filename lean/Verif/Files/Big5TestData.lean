import Verif.Files.Big5.TestData1
import Verif.Files.Big5.TestData2
import Verif.Files.Big5.TestData3
import Verif.Files.Big5.TestData4
import Verif.Model.TestData

/-! Generated by tools/gen_files.py: the test data of Big5. -/

namespace Verif.Files.Big5

/-- tests/test_data/whatwg/big5_whatwg_test_decode_in.txt, part 0 -/
noncomputable def decodeInAscii : List Nat := hex! "010A020A030A040A050A060A070A080A090A0A0A0B0A0C0A0D0A0E0A0F0A100A110A120A130A140A150A160A170A180A
  190A1A0A1B0A1C0A1D0A1E0A1F0A200A210A220A230A240A250A260A270A280A290A2A0A2B0A2C0A2D0A2E0A2F0A300A
  310A320A330A340A350A360A370A380A390A3A0A3B0A3C0A3D0A3E0A3F0A400A410A420A430A440A450A460A470A480A
  490A4A0A4B0A4C0A4D0A4E0A4F0A500A510A520A530A540A550A560A570A580A590A5A0A5B0A5C0A5D0A5E0A5F0A600A
  610A620A630A640A650A660A670A680A690A6A0A6B0A6C0A6D0A6E0A6F0A700A710A720A730A740A750A760A770A780A
  790A7A0A7B0A7C0A7D0A7E0A7F0A"

/-- tests/test_data/whatwg/big5_whatwg_test_decode_in.txt, part 127 -/
noncomputable def decodeInPairs : List Nat := hex! "88620A88640A88A30A88A50A"

/-- The parts of tests/test_data/whatwg/big5_whatwg_test_decode_in.txt but the first and the last one -/
noncomputable def decodeInParts : List (List Nat) :=
  [decodeIn0, decodeIn1, decodeIn2, decodeIn3, decodeIn4, decodeIn5, decodeIn6, decodeIn7, decodeIn8, decodeIn9, decodeIn10, decodeIn11, decodeIn12, decodeIn13, decodeIn14, decodeIn15, decodeIn16, decodeIn17, decodeIn18, decodeIn19, decodeIn20, decodeIn21, decodeIn22, decodeIn23, decodeIn24, decodeIn25, decodeIn26, decodeIn27, decodeIn28, decodeIn29, decodeIn30, decodeIn31, decodeIn32, decodeIn33, decodeIn34, decodeIn35, decodeIn36, decodeIn37, decodeIn38, decodeIn39, decodeIn40, decodeIn41, decodeIn42, decodeIn43, decodeIn44, decodeIn45, decodeIn46, decodeIn47, decodeIn48, decodeIn49, decodeIn50, decodeIn51, decodeIn52, decodeIn53, decodeIn54, decodeIn55, decodeIn56, decodeIn57, decodeIn58, decodeIn59, decodeIn60, decodeIn61, decodeIn62, decodeIn63, decodeIn64, decodeIn65, decodeIn66, decodeIn67, decodeIn68, decodeIn69, decodeIn70, decodeIn71, decodeIn72, decodeIn73, decodeIn74, decodeIn75, decodeIn76, decodeIn77, decodeIn78, decodeIn79, decodeIn80, decodeIn81, decodeIn82, decodeIn83, decodeIn84, decodeIn85, decodeIn86, decodeIn87, decodeIn88, decodeIn89, decodeIn90, decodeIn91, decodeIn92, decodeIn93, decodeIn94, decodeIn95, decodeIn96, decodeIn97, decodeIn98, decodeIn99, decodeIn100, decodeIn101, decodeIn102, decodeIn103, decodeIn104, decodeIn105, decodeIn106, decodeIn107, decodeIn108, decodeIn109, decodeIn110, decodeIn111, decodeIn112, decodeIn113, decodeIn114, decodeIn115, decodeIn116, decodeIn117, decodeIn118, decodeIn119, decodeIn120, decodeIn121, decodeIn122, decodeIn123, decodeIn124, decodeIn125]

/-- tests/test_data/whatwg/big5_whatwg_test_decode_out.txt, part 0 -/
noncomputable def decodeOutAscii : List Nat := hex! "010A020A030A040A050A060A070A080A090A0A0A0B0A0C0A0D0A0E0A0F0A100A110A120A130A140A150A160A170A180A
  190A1A0A1B0A1C0A1D0A1E0A1F0A200A210A220A230A240A250A260A270A280A290A2A0A2B0A2C0A2D0A2E0A2F0A300A
  310A320A330A340A350A360A370A380A390A3A0A3B0A3C0A3D0A3E0A3F0A400A410A420A430A440A450A460A470A480A
  490A4A0A4B0A4C0A4D0A4E0A4F0A500A510A520A530A540A550A560A570A580A590A5A0A5B0A5C0A5D0A5E0A5F0A600A
  610A620A630A640A650A660A670A680A690A6A0A6B0A6C0A6D0A6E0A6F0A700A710A720A730A740A750A760A770A780A
  790A7A0A7B0A7C0A7D0A7E0A7F0A"

/-- tests/test_data/whatwg/big5_whatwg_test_decode_out.txt, part 127 -/
noncomputable def decodeOutPairs : List Nat := hex! "C38ACC840AC38ACC8C0AC3AACC840AC3AACC8C0A"

/-- The parts of tests/test_data/whatwg/big5_whatwg_test_decode_out.txt but the first and the last one -/
noncomputable def decodeOutParts : List (List Nat) :=
  [decodeOut0, decodeOut1, decodeOut2, decodeOut3, decodeOut4, decodeOut5, decodeOut6, decodeOut7, decodeOut8, decodeOut9, decodeOut10, decodeOut11, decodeOut12, decodeOut13, decodeOut14, decodeOut15, decodeOut16, decodeOut17, decodeOut18, decodeOut19, decodeOut20, decodeOut21, decodeOut22, decodeOut23, decodeOut24, decodeOut25, decodeOut26, decodeOut27, decodeOut28, decodeOut29, decodeOut30, decodeOut31, decodeOut32, decodeOut33, decodeOut34, decodeOut35, decodeOut36, decodeOut37, decodeOut38, decodeOut39, decodeOut40, decodeOut41, decodeOut42, decodeOut43, decodeOut44, decodeOut45, decodeOut46, decodeOut47, decodeOut48, decodeOut49, decodeOut50, decodeOut51, decodeOut52, decodeOut53, decodeOut54, decodeOut55, decodeOut56, decodeOut57, decodeOut58, decodeOut59, decodeOut60, decodeOut61, decodeOut62, decodeOut63, decodeOut64, decodeOut65, decodeOut66, decodeOut67, decodeOut68, decodeOut69, decodeOut70, decodeOut71, decodeOut72, decodeOut73, decodeOut74, decodeOut75, decodeOut76, decodeOut77, decodeOut78, decodeOut79, decodeOut80, decodeOut81, decodeOut82, decodeOut83, decodeOut84, decodeOut85, decodeOut86, decodeOut87, decodeOut88, decodeOut89, decodeOut90, decodeOut91, decodeOut92, decodeOut93, decodeOut94, decodeOut95, decodeOut96, decodeOut97, decodeOut98, decodeOut99, decodeOut100, decodeOut101, decodeOut102, decodeOut103, decodeOut104, decodeOut105, decodeOut106, decodeOut107, decodeOut108, decodeOut109, decodeOut110, decodeOut111, decodeOut112, decodeOut113, decodeOut114, decodeOut115, decodeOut116, decodeOut117, decodeOut118, decodeOut119, decodeOut120, decodeOut121, decodeOut122, decodeOut123, decodeOut124, decodeOut125]

/-- tests/test_data/whatwg/big5_whatwg_test_encode_in.txt, part 0 -/
noncomputable def encodeInAscii : List Nat := hex! "010A020A030A040A050A060A070A080A090A0A0A0B0A0C0A0D0A0E0A0F0A100A110A120A130A140A150A160A170A180A
  190A1A0A1B0A1C0A1D0A1E0A1F0A200A210A220A230A240A250A260A270A280A290A2A0A2B0A2C0A2D0A2E0A2F0A300A
  310A320A330A340A350A360A370A380A390A3A0A3B0A3C0A3D0A3E0A3F0A400A410A420A430A440A450A460A470A480A
  490A4A0A4B0A4C0A4D0A4E0A4F0A500A510A520A530A540A550A560A570A580A590A5A0A5B0A5C0A5D0A5E0A5F0A600A
  610A620A630A640A650A660A670A680A690A6A0A6B0A6C0A6D0A6E0A6F0A700A710A720A730A740A750A760A770A780A
  790A7A0A7B0A7C0A7D0A7E0A7F0A"

/-- tests/test_data/whatwg/big5_whatwg_test_encode_in.txt, part 127 -/
noncomputable def encodeInPairs : List Nat := hex! "C38ACC840AC38ACC8C0AC3AACC840AC3AACC8C0A"

/-- The parts of tests/test_data/whatwg/big5_whatwg_test_encode_in.txt but the first and the last one -/
noncomputable def encodeInParts : List (List Nat) :=
  [encodeIn0, encodeIn1, encodeIn2, encodeIn3, encodeIn4, encodeIn5, encodeIn6, encodeIn7, encodeIn8, encodeIn9, encodeIn10, encodeIn11, encodeIn12, encodeIn13, encodeIn14, encodeIn15, encodeIn16, encodeIn17, encodeIn18, encodeIn19, encodeIn20, encodeIn21, encodeIn22, encodeIn23, encodeIn24, encodeIn25, encodeIn26, encodeIn27, encodeIn28, encodeIn29, encodeIn30, encodeIn31, encodeIn32, encodeIn33, encodeIn34, encodeIn35, encodeIn36, encodeIn37, encodeIn38, encodeIn39, encodeIn40, encodeIn41, encodeIn42, encodeIn43, encodeIn44, encodeIn45, encodeIn46, encodeIn47, encodeIn48, encodeIn49, encodeIn50, encodeIn51, encodeIn52, encodeIn53, encodeIn54, encodeIn55, encodeIn56, encodeIn57, encodeIn58, encodeIn59, encodeIn60, encodeIn61, encodeIn62, encodeIn63, encodeIn64, encodeIn65, encodeIn66, encodeIn67, encodeIn68, encodeIn69, encodeIn70, encodeIn71, encodeIn72, encodeIn73, encodeIn74, encodeIn75, encodeIn76, encodeIn77, encodeIn78, encodeIn79, encodeIn80, encodeIn81, encodeIn82, encodeIn83, encodeIn84, encodeIn85, encodeIn86, encodeIn87, encodeIn88, encodeIn89, encodeIn90, encodeIn91, encodeIn92, encodeIn93, encodeIn94, encodeIn95, encodeIn96, encodeIn97, encodeIn98, encodeIn99, encodeIn100, encodeIn101, encodeIn102, encodeIn103, encodeIn104, encodeIn105, encodeIn106, encodeIn107, encodeIn108, encodeIn109, encodeIn110, encodeIn111, encodeIn112, encodeIn113, encodeIn114, encodeIn115, encodeIn116, encodeIn117, encodeIn118, encodeIn119, encodeIn120, encodeIn121, encodeIn122, encodeIn123, encodeIn124, encodeIn125]

/-- tests/test_data/whatwg/big5_whatwg_test_encode_out.txt, part 0 -/
noncomputable def encodeOutAscii : List Nat := hex! "010A020A030A040A050A060A070A080A090A0A0A0B0A0C0A0D0A0E0A0F0A100A110A120A130A140A150A160A170A180A
  190A1A0A1B0A1C0A1D0A1E0A1F0A200A210A220A230A240A250A260A270A280A290A2A0A2B0A2C0A2D0A2E0A2F0A300A
  310A320A330A340A350A360A370A380A390A3A0A3B0A3C0A3D0A3E0A3F0A400A410A420A430A440A450A460A470A480A
  490A4A0A4B0A4C0A4D0A4E0A4F0A500A510A520A530A540A550A560A570A580A590A5A0A5B0A5C0A5D0A5E0A5F0A600A
  610A620A630A640A650A660A670A680A690A6A0A6B0A6C0A6D0A6E0A6F0A700A710A720A730A740A750A760A770A780A
  790A7A0A7B0A7C0A7D0A7E0A7F0A"

/-- tests/test_data/whatwg/big5_whatwg_test_encode_out.txt, part 127 -/
noncomputable def encodeOutPairs : List Nat := hex! "88620A88640A88A30A88A50A"

/-- The parts of tests/test_data/whatwg/big5_whatwg_test_encode_out.txt but the first and the last one -/
noncomputable def encodeOutParts : List (List Nat) :=
  [encodeOut0, encodeOut1, encodeOut2, encodeOut3, encodeOut4, encodeOut5, encodeOut6, encodeOut7, encodeOut8, encodeOut9, encodeOut10, encodeOut11, encodeOut12, encodeOut13, encodeOut14, encodeOut15, encodeOut16, encodeOut17, encodeOut18, encodeOut19, encodeOut20, encodeOut21, encodeOut22, encodeOut23, encodeOut24, encodeOut25, encodeOut26, encodeOut27, encodeOut28, encodeOut29, encodeOut30, encodeOut31, encodeOut32, encodeOut33, encodeOut34, encodeOut35, encodeOut36, encodeOut37, encodeOut38, encodeOut39, encodeOut40, encodeOut41, encodeOut42, encodeOut43, encodeOut44, encodeOut45, encodeOut46, encodeOut47, encodeOut48, encodeOut49, encodeOut50, encodeOut51, encodeOut52, encodeOut53, encodeOut54, encodeOut55, encodeOut56, encodeOut57, encodeOut58, encodeOut59, encodeOut60, encodeOut61, encodeOut62, encodeOut63, encodeOut64, encodeOut65, encodeOut66, encodeOut67, encodeOut68, encodeOut69, encodeOut70, encodeOut71, encodeOut72, encodeOut73, encodeOut74, encodeOut75, encodeOut76, encodeOut77, encodeOut78, encodeOut79, encodeOut80, encodeOut81, encodeOut82, encodeOut83, encodeOut84, encodeOut85, encodeOut86, encodeOut87, encodeOut88, encodeOut89, encodeOut90, encodeOut91, encodeOut92, encodeOut93, encodeOut94, encodeOut95, encodeOut96, encodeOut97, encodeOut98, encodeOut99, encodeOut100, encodeOut101, encodeOut102, encodeOut103, encodeOut104, encodeOut105, encodeOut106, encodeOut107, encodeOut108, encodeOut109, encodeOut110, encodeOut111, encodeOut112, encodeOut113, encodeOut114, encodeOut115, encodeOut116, encodeOut117, encodeOut118, encodeOut119, encodeOut120, encodeOut121, encodeOut122, encodeOut123, encodeOut124, encodeOut125]

/-- The files tests/test_data/whatwg/big5_whatwg_test_*.txt -/
noncomputable def testData : Generator.TestData where
  decode_in := (decodeInAscii ++ decodeInParts.flatten ++ decodeInPairs).map UInt8.ofNat
  decode_out := (decodeOutAscii ++ decodeOutParts.flatten ++ decodeOutPairs).map UInt8.ofNat
  encode_in := (encodeInAscii ++ encodeInParts.flatten ++ encodeInPairs).map UInt8.ofNat
  encode_out := (encodeOutAscii ++ encodeOutParts.flatten ++ encodeOutPairs).map UInt8.ofNat

end Verif.Files.Big5
