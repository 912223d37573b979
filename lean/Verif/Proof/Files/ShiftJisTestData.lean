import Verif.Proof.Files.ShiftJisTestData1
import Verif.Proof.Files.ShiftJisTestData2
import Verif.Files.ShiftJisTestData

/-! Generated by tools/gen_files.py: the checks of the parts put together. -/

namespace Verif.Generator.ShiftJis

open Spec.Published.Jis0208

/-- The rows of the index, less the lines not used for encoding. -/
noncomputable def kept : List (List (Nat × Nat)) :=
  [keepK row0 drops0, keepK row1 drops1, keepK row2 drops2, keepK row3 drops3, keepK row4 drops4, keepK row5 drops5, keepK row6 drops6, keepK row7 drops7, keepK row8 drops8, keepK row9 drops9, keepK row10 drops10, keepK row11 drops11, keepK row12 drops12, keepK row13 drops13, keepK row14 drops14, keepK row15 drops15, keepK row16 drops16, keepK row17 drops17, keepK row18 drops18, keepK row19 drops19, keepK row20 drops20, keepK row21 drops21, keepK row22 drops22, keepK row23 drops23, keepK row24 drops24, keepK row25 drops25, keepK row26 drops26, keepK row27 drops27, keepK row28 drops28, keepK row29 drops29, keepK row30 drops30, keepK row31 drops31, keepK row32 drops32, keepK row33 drops33, keepK row34 drops34, keepK row35 drops35, keepK row36 drops36, keepK row37 drops37, keepK row38 drops38, keepK row39 drops39, keepK row40 drops40, keepK row41 drops41, keepK row42 drops42, keepK row43 drops43, keepK row44 drops44, keepK row45 drops45, keepK row46 drops46, keepK row47 drops47, keepK row48 drops48, keepK row49 drops49, keepK row50 drops50, keepK row51 drops51, keepK row52 drops52, keepK row53 drops53, keepK row54 drops54, keepK row55 drops55, keepK row56 drops56, keepK row57 drops57, keepK row58 drops58, keepK row59 drops59]

theorem kept_rows : Kept (jisDropB rows) rows kept :=
  .cons drops0 drops0_check <|
  .cons drops1 drops1_check <|
  .cons drops2 drops2_check <|
  .cons drops3 drops3_check <|
  .cons drops4 drops4_check <|
  .cons drops5 drops5_check <|
  .cons drops6 drops6_check <|
  .cons drops7 drops7_check <|
  .cons drops8 drops8_check <|
  .cons drops9 drops9_check <|
  .cons drops10 drops10_check <|
  .cons drops11 drops11_check <|
  .cons drops12 drops12_check <|
  .cons drops13 drops13_check <|
  .cons drops14 drops14_check <|
  .cons drops15 drops15_check <|
  .cons drops16 drops16_check <|
  .cons drops17 drops17_check <|
  .cons drops18 drops18_check <|
  .cons drops19 drops19_check <|
  .cons drops20 drops20_check <|
  .cons drops21 drops21_check <|
  .cons drops22 drops22_check <|
  .cons drops23 drops23_check <|
  .cons drops24 drops24_check <|
  .cons drops25 drops25_check <|
  .cons drops26 drops26_check <|
  .cons drops27 drops27_check <|
  .cons drops28 drops28_check <|
  .cons drops29 drops29_check <|
  .cons drops30 drops30_check <|
  .cons drops31 drops31_check <|
  .cons drops32 drops32_check <|
  .cons drops33 drops33_check <|
  .cons drops34 drops34_check <|
  .cons drops35 drops35_check <|
  .cons drops36 drops36_check <|
  .cons drops37 drops37_check <|
  .cons drops38 drops38_check <|
  .cons drops39 drops39_check <|
  .cons drops40 drops40_check <|
  .cons drops41 drops41_check <|
  .cons drops42 drops42_check <|
  .cons drops43 drops43_check <|
  .cons drops44 drops44_check <|
  .cons drops45 drops45_check <|
  .cons drops46 drops46_check <|
  .cons drops47 drops47_check <|
  .cons drops48 drops48_check <|
  .cons drops49 drops49_check <|
  .cons drops50 drops50_check <|
  .cons drops51 drops51_check <|
  .cons drops52 drops52_check <|
  .cons drops53 drops53_check <|
  .cons drops54 drops54_check <|
  .cons drops55 drops55_check <|
  .cons drops56 drops56_check <|
  .cons drops57 drops57_check <|
  .cons drops58 drops58_check <|
  .cons drops59 drops59_check <|
  .nil

theorem decodeIn_parts : DataParts jisK rows Files.ShiftJis.decodeInParts :=
  .cons decodeIn0 <|
  .cons decodeIn1 <|
  .cons decodeIn2 <|
  .cons decodeIn3 <|
  .cons decodeIn4 <|
  .cons decodeIn5 <|
  .cons decodeIn6 <|
  .cons decodeIn7 <|
  .cons decodeIn8 <|
  .cons decodeIn9 <|
  .cons decodeIn10 <|
  .cons decodeIn11 <|
  .cons decodeIn12 <|
  .cons decodeIn13 <|
  .cons decodeIn14 <|
  .cons decodeIn15 <|
  .cons decodeIn16 <|
  .cons decodeIn17 <|
  .cons decodeIn18 <|
  .cons decodeIn19 <|
  .cons decodeIn20 <|
  .cons decodeIn21 <|
  .cons decodeIn22 <|
  .cons decodeIn23 <|
  .cons decodeIn24 <|
  .cons decodeIn25 <|
  .cons decodeIn26 <|
  .cons decodeIn27 <|
  .cons decodeIn28 <|
  .cons decodeIn29 <|
  .cons decodeIn30 <|
  .cons decodeIn31 <|
  .cons decodeIn32 <|
  .cons decodeIn33 <|
  .cons decodeIn34 <|
  .cons decodeIn35 <|
  .cons decodeIn36 <|
  .cons decodeIn37 <|
  .cons decodeIn38 <|
  .cons decodeIn39 <|
  .cons decodeIn40 <|
  .cons decodeIn41 <|
  .cons decodeIn42 <|
  .cons decodeIn43 <|
  .cons decodeIn44 <|
  .cons decodeIn45 <|
  .cons decodeIn46 <|
  .cons decodeIn47 <|
  .cons decodeIn48 <|
  .cons decodeIn49 <|
  .cons decodeIn50 <|
  .cons decodeIn51 <|
  .cons decodeIn52 <|
  .cons decodeIn53 <|
  .cons decodeIn54 <|
  .cons decodeIn55 <|
  .cons decodeIn56 <|
  .cons decodeIn57 <|
  .cons decodeIn58 <|
  .cons decodeIn59 <|
  .nil

theorem decodeOut_parts : DataParts utf8K rows Files.ShiftJis.decodeOutParts :=
  .cons decodeOut0 <|
  .cons decodeOut1 <|
  .cons decodeOut2 <|
  .cons decodeOut3 <|
  .cons decodeOut4 <|
  .cons decodeOut5 <|
  .cons decodeOut6 <|
  .cons decodeOut7 <|
  .cons decodeOut8 <|
  .cons decodeOut9 <|
  .cons decodeOut10 <|
  .cons decodeOut11 <|
  .cons decodeOut12 <|
  .cons decodeOut13 <|
  .cons decodeOut14 <|
  .cons decodeOut15 <|
  .cons decodeOut16 <|
  .cons decodeOut17 <|
  .cons decodeOut18 <|
  .cons decodeOut19 <|
  .cons decodeOut20 <|
  .cons decodeOut21 <|
  .cons decodeOut22 <|
  .cons decodeOut23 <|
  .cons decodeOut24 <|
  .cons decodeOut25 <|
  .cons decodeOut26 <|
  .cons decodeOut27 <|
  .cons decodeOut28 <|
  .cons decodeOut29 <|
  .cons decodeOut30 <|
  .cons decodeOut31 <|
  .cons decodeOut32 <|
  .cons decodeOut33 <|
  .cons decodeOut34 <|
  .cons decodeOut35 <|
  .cons decodeOut36 <|
  .cons decodeOut37 <|
  .cons decodeOut38 <|
  .cons decodeOut39 <|
  .cons decodeOut40 <|
  .cons decodeOut41 <|
  .cons decodeOut42 <|
  .cons decodeOut43 <|
  .cons decodeOut44 <|
  .cons decodeOut45 <|
  .cons decodeOut46 <|
  .cons decodeOut47 <|
  .cons decodeOut48 <|
  .cons decodeOut49 <|
  .cons decodeOut50 <|
  .cons decodeOut51 <|
  .cons decodeOut52 <|
  .cons decodeOut53 <|
  .cons decodeOut54 <|
  .cons decodeOut55 <|
  .cons decodeOut56 <|
  .cons decodeOut57 <|
  .cons decodeOut58 <|
  .cons decodeOut59 <|
  .nil

theorem encodeIn_parts : DataParts utf8K kept Files.ShiftJis.encodeInParts :=
  .cons encodeIn0 <|
  .cons encodeIn1 <|
  .cons encodeIn2 <|
  .cons encodeIn3 <|
  .cons encodeIn4 <|
  .cons encodeIn5 <|
  .cons encodeIn6 <|
  .cons encodeIn7 <|
  .cons encodeIn8 <|
  .cons encodeIn9 <|
  .cons encodeIn10 <|
  .cons encodeIn11 <|
  .cons encodeIn12 <|
  .cons encodeIn13 <|
  .cons encodeIn14 <|
  .cons encodeIn15 <|
  .cons encodeIn16 <|
  .cons encodeIn17 <|
  .cons encodeIn18 <|
  .cons encodeIn19 <|
  .cons encodeIn20 <|
  .cons encodeIn21 <|
  .cons encodeIn22 <|
  .cons encodeIn23 <|
  .cons encodeIn24 <|
  .cons encodeIn25 <|
  .cons encodeIn26 <|
  .cons encodeIn27 <|
  .cons encodeIn28 <|
  .cons encodeIn29 <|
  .cons encodeIn30 <|
  .cons encodeIn31 <|
  .cons encodeIn32 <|
  .cons encodeIn33 <|
  .cons encodeIn34 <|
  .cons encodeIn35 <|
  .cons encodeIn36 <|
  .cons encodeIn37 <|
  .cons encodeIn38 <|
  .cons encodeIn39 <|
  .cons encodeIn40 <|
  .cons encodeIn41 <|
  .cons encodeIn42 <|
  .cons encodeIn43 <|
  .cons encodeIn44 <|
  .cons encodeIn45 <|
  .cons encodeIn46 <|
  .cons encodeIn47 <|
  .cons encodeIn48 <|
  .cons encodeIn49 <|
  .cons encodeIn50 <|
  .cons encodeIn51 <|
  .cons encodeIn52 <|
  .cons encodeIn53 <|
  .cons encodeIn54 <|
  .cons encodeIn55 <|
  .cons encodeIn56 <|
  .cons encodeIn57 <|
  .cons encodeIn58 <|
  .cons encodeIn59 <|
  .nil

theorem encodeOut_parts : DataParts jisK kept Files.ShiftJis.encodeOutParts :=
  .cons encodeOut0 <|
  .cons encodeOut1 <|
  .cons encodeOut2 <|
  .cons encodeOut3 <|
  .cons encodeOut4 <|
  .cons encodeOut5 <|
  .cons encodeOut6 <|
  .cons encodeOut7 <|
  .cons encodeOut8 <|
  .cons encodeOut9 <|
  .cons encodeOut10 <|
  .cons encodeOut11 <|
  .cons encodeOut12 <|
  .cons encodeOut13 <|
  .cons encodeOut14 <|
  .cons encodeOut15 <|
  .cons encodeOut16 <|
  .cons encodeOut17 <|
  .cons encodeOut18 <|
  .cons encodeOut19 <|
  .cons encodeOut20 <|
  .cons encodeOut21 <|
  .cons encodeOut22 <|
  .cons encodeOut23 <|
  .cons encodeOut24 <|
  .cons encodeOut25 <|
  .cons encodeOut26 <|
  .cons encodeOut27 <|
  .cons encodeOut28 <|
  .cons encodeOut29 <|
  .cons encodeOut30 <|
  .cons encodeOut31 <|
  .cons encodeOut32 <|
  .cons encodeOut33 <|
  .cons encodeOut34 <|
  .cons encodeOut35 <|
  .cons encodeOut36 <|
  .cons encodeOut37 <|
  .cons encodeOut38 <|
  .cons encodeOut39 <|
  .cons encodeOut40 <|
  .cons encodeOut41 <|
  .cons encodeOut42 <|
  .cons encodeOut43 <|
  .cons encodeOut44 <|
  .cons encodeOut45 <|
  .cons encodeOut46 <|
  .cons encodeOut47 <|
  .cons encodeOut48 <|
  .cons encodeOut49 <|
  .cons encodeOut50 <|
  .cons encodeOut51 <|
  .cons encodeOut52 <|
  .cons encodeOut53 <|
  .cons encodeOut54 <|
  .cons encodeOut55 <|
  .cons encodeOut56 <|
  .cons encodeOut57 <|
  .cons encodeOut58 <|
  .cons encodeOut59 <|
  .nil

end Verif.Generator.ShiftJis
