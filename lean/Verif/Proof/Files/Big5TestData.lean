import Verif.Proof.Files.Big5TestData1
import Verif.Proof.Files.Big5TestData2
import Verif.Proof.Files.Big5TestData3
import Verif.Proof.Files.Big5TestData4
import Verif.Files.Big5TestData

/-! Generated by tools/gen_files.py: the checks of the parts put together. -/

namespace Verif.Generator.Big5

open Spec.Published.Big5

/-- The rows of the index, less the lines not used for encoding. -/
noncomputable def kept : List (List (Nat × Nat)) :=
  [keepK row0 drops0, keepK row1 drops1, keepK row2 drops2, keepK row3 drops3, keepK row4 drops4, keepK row5 drops5, keepK row6 drops6, keepK row7 drops7, keepK row8 drops8, keepK row9 drops9, keepK row10 drops10, keepK row11 drops11, keepK row12 drops12, keepK row13 drops13, keepK row14 drops14, keepK row15 drops15, keepK row16 drops16, keepK row17 drops17, keepK row18 drops18, keepK row19 drops19, keepK row20 drops20, keepK row21 drops21, keepK row22 drops22, keepK row23 drops23, keepK row24 drops24, keepK row25 drops25, keepK row26 drops26, keepK row27 drops27, keepK row28 drops28, keepK row29 drops29, keepK row30 drops30, keepK row31 drops31, keepK row32 drops32, keepK row33 drops33, keepK row34 drops34, keepK row35 drops35, keepK row36 drops36, keepK row37 drops37, keepK row38 drops38, keepK row39 drops39, keepK row40 drops40, keepK row41 drops41, keepK row42 drops42, keepK row43 drops43, keepK row44 drops44, keepK row45 drops45, keepK row46 drops46, keepK row47 drops47, keepK row48 drops48, keepK row49 drops49, keepK row50 drops50, keepK row51 drops51, keepK row52 drops52, keepK row53 drops53, keepK row54 drops54, keepK row55 drops55, keepK row56 drops56, keepK row57 drops57, keepK row58 drops58, keepK row59 drops59, keepK row60 drops60, keepK row61 drops61, keepK row62 drops62, keepK row63 drops63, keepK row64 drops64, keepK row65 drops65, keepK row66 drops66, keepK row67 drops67, keepK row68 drops68, keepK row69 drops69, keepK row70 drops70, keepK row71 drops71, keepK row72 drops72, keepK row73 drops73, keepK row74 drops74, keepK row75 drops75, keepK row76 drops76, keepK row77 drops77, keepK row78 drops78, keepK row79 drops79, keepK row80 drops80, keepK row81 drops81, keepK row82 drops82, keepK row83 drops83, keepK row84 drops84, keepK row85 drops85, keepK row86 drops86, keepK row87 drops87, keepK row88 drops88, keepK row89 drops89, keepK row90 drops90, keepK row91 drops91, keepK row92 drops92, keepK row93 drops93, keepK row94 drops94, keepK row95 drops95, keepK row96 drops96, keepK row97 drops97, keepK row98 drops98, keepK row99 drops99, keepK row100 drops100, keepK row101 drops101, keepK row102 drops102, keepK row103 drops103, keepK row104 drops104, keepK row105 drops105, keepK row106 drops106, keepK row107 drops107, keepK row108 drops108, keepK row109 drops109, keepK row110 drops110, keepK row111 drops111, keepK row112 drops112, keepK row113 drops113, keepK row114 drops114, keepK row115 drops115, keepK row116 drops116, keepK row117 drops117, keepK row118 drops118, keepK row119 drops119, keepK row120 drops120, keepK row121 drops121, keepK row122 drops122, keepK row123 drops123, keepK row124 drops124, keepK row125 drops125]

theorem kept_rows : Kept (big5DropB rows) rows kept :=
  .cons drops0 drops0_check <|
  .cons drops1 drops1_check <|
  .cons drops2 drops2_check <|
  .cons drops3 drops3_check <|
  .cons drops4 drops4_check <|
  .cons drops5 drops5_check <|
  .cons drops6 drops6_check <|
  .cons drops7 drops7_check <|
  .cons drops8 drops8_check <|
  .cons drops9 drops9_check <|
  .cons drops10 drops10_check <|
  .cons drops11 drops11_check <|
  .cons drops12 drops12_check <|
  .cons drops13 drops13_check <|
  .cons drops14 drops14_check <|
  .cons drops15 drops15_check <|
  .cons drops16 drops16_check <|
  .cons drops17 drops17_check <|
  .cons drops18 drops18_check <|
  .cons drops19 drops19_check <|
  .cons drops20 drops20_check <|
  .cons drops21 drops21_check <|
  .cons drops22 drops22_check <|
  .cons drops23 drops23_check <|
  .cons drops24 drops24_check <|
  .cons drops25 drops25_check <|
  .cons drops26 drops26_check <|
  .cons drops27 drops27_check <|
  .cons drops28 drops28_check <|
  .cons drops29 drops29_check <|
  .cons drops30 drops30_check <|
  .cons drops31 drops31_check <|
  .cons drops32 drops32_check <|
  .cons drops33 drops33_check <|
  .cons drops34 drops34_check <|
  .cons drops35 drops35_check <|
  .cons drops36 drops36_check <|
  .cons drops37 drops37_check <|
  .cons drops38 drops38_check <|
  .cons drops39 drops39_check <|
  .cons drops40 drops40_check <|
  .cons drops41 drops41_check <|
  .cons drops42 drops42_check <|
  .cons drops43 drops43_check <|
  .cons drops44 drops44_check <|
  .cons drops45 drops45_check <|
  .cons drops46 drops46_check <|
  .cons drops47 drops47_check <|
  .cons drops48 drops48_check <|
  .cons drops49 drops49_check <|
  .cons drops50 drops50_check <|
  .cons drops51 drops51_check <|
  .cons drops52 drops52_check <|
  .cons drops53 drops53_check <|
  .cons drops54 drops54_check <|
  .cons drops55 drops55_check <|
  .cons drops56 drops56_check <|
  .cons drops57 drops57_check <|
  .cons drops58 drops58_check <|
  .cons drops59 drops59_check <|
  .cons drops60 drops60_check <|
  .cons drops61 drops61_check <|
  .cons drops62 drops62_check <|
  .cons drops63 drops63_check <|
  .cons drops64 drops64_check <|
  .cons drops65 drops65_check <|
  .cons drops66 drops66_check <|
  .cons drops67 drops67_check <|
  .cons drops68 drops68_check <|
  .cons drops69 drops69_check <|
  .cons drops70 drops70_check <|
  .cons drops71 drops71_check <|
  .cons drops72 drops72_check <|
  .cons drops73 drops73_check <|
  .cons drops74 drops74_check <|
  .cons drops75 drops75_check <|
  .cons drops76 drops76_check <|
  .cons drops77 drops77_check <|
  .cons drops78 drops78_check <|
  .cons drops79 drops79_check <|
  .cons drops80 drops80_check <|
  .cons drops81 drops81_check <|
  .cons drops82 drops82_check <|
  .cons drops83 drops83_check <|
  .cons drops84 drops84_check <|
  .cons drops85 drops85_check <|
  .cons drops86 drops86_check <|
  .cons drops87 drops87_check <|
  .cons drops88 drops88_check <|
  .cons drops89 drops89_check <|
  .cons drops90 drops90_check <|
  .cons drops91 drops91_check <|
  .cons drops92 drops92_check <|
  .cons drops93 drops93_check <|
  .cons drops94 drops94_check <|
  .cons drops95 drops95_check <|
  .cons drops96 drops96_check <|
  .cons drops97 drops97_check <|
  .cons drops98 drops98_check <|
  .cons drops99 drops99_check <|
  .cons drops100 drops100_check <|
  .cons drops101 drops101_check <|
  .cons drops102 drops102_check <|
  .cons drops103 drops103_check <|
  .cons drops104 drops104_check <|
  .cons drops105 drops105_check <|
  .cons drops106 drops106_check <|
  .cons drops107 drops107_check <|
  .cons drops108 drops108_check <|
  .cons drops109 drops109_check <|
  .cons drops110 drops110_check <|
  .cons drops111 drops111_check <|
  .cons drops112 drops112_check <|
  .cons drops113 drops113_check <|
  .cons drops114 drops114_check <|
  .cons drops115 drops115_check <|
  .cons drops116 drops116_check <|
  .cons drops117 drops117_check <|
  .cons drops118 drops118_check <|
  .cons drops119 drops119_check <|
  .cons drops120 drops120_check <|
  .cons drops121 drops121_check <|
  .cons drops122 drops122_check <|
  .cons drops123 drops123_check <|
  .cons drops124 drops124_check <|
  .cons drops125 drops125_check <|
  .nil

theorem decodeIn_parts : DataParts big5K rows Files.Big5.decodeInParts :=
  .cons decodeIn0 <|
  .cons decodeIn1 <|
  .cons decodeIn2 <|
  .cons decodeIn3 <|
  .cons decodeIn4 <|
  .cons decodeIn5 <|
  .cons decodeIn6 <|
  .cons decodeIn7 <|
  .cons decodeIn8 <|
  .cons decodeIn9 <|
  .cons decodeIn10 <|
  .cons decodeIn11 <|
  .cons decodeIn12 <|
  .cons decodeIn13 <|
  .cons decodeIn14 <|
  .cons decodeIn15 <|
  .cons decodeIn16 <|
  .cons decodeIn17 <|
  .cons decodeIn18 <|
  .cons decodeIn19 <|
  .cons decodeIn20 <|
  .cons decodeIn21 <|
  .cons decodeIn22 <|
  .cons decodeIn23 <|
  .cons decodeIn24 <|
  .cons decodeIn25 <|
  .cons decodeIn26 <|
  .cons decodeIn27 <|
  .cons decodeIn28 <|
  .cons decodeIn29 <|
  .cons decodeIn30 <|
  .cons decodeIn31 <|
  .cons decodeIn32 <|
  .cons decodeIn33 <|
  .cons decodeIn34 <|
  .cons decodeIn35 <|
  .cons decodeIn36 <|
  .cons decodeIn37 <|
  .cons decodeIn38 <|
  .cons decodeIn39 <|
  .cons decodeIn40 <|
  .cons decodeIn41 <|
  .cons decodeIn42 <|
  .cons decodeIn43 <|
  .cons decodeIn44 <|
  .cons decodeIn45 <|
  .cons decodeIn46 <|
  .cons decodeIn47 <|
  .cons decodeIn48 <|
  .cons decodeIn49 <|
  .cons decodeIn50 <|
  .cons decodeIn51 <|
  .cons decodeIn52 <|
  .cons decodeIn53 <|
  .cons decodeIn54 <|
  .cons decodeIn55 <|
  .cons decodeIn56 <|
  .cons decodeIn57 <|
  .cons decodeIn58 <|
  .cons decodeIn59 <|
  .cons decodeIn60 <|
  .cons decodeIn61 <|
  .cons decodeIn62 <|
  .cons decodeIn63 <|
  .cons decodeIn64 <|
  .cons decodeIn65 <|
  .cons decodeIn66 <|
  .cons decodeIn67 <|
  .cons decodeIn68 <|
  .cons decodeIn69 <|
  .cons decodeIn70 <|
  .cons decodeIn71 <|
  .cons decodeIn72 <|
  .cons decodeIn73 <|
  .cons decodeIn74 <|
  .cons decodeIn75 <|
  .cons decodeIn76 <|
  .cons decodeIn77 <|
  .cons decodeIn78 <|
  .cons decodeIn79 <|
  .cons decodeIn80 <|
  .cons decodeIn81 <|
  .cons decodeIn82 <|
  .cons decodeIn83 <|
  .cons decodeIn84 <|
  .cons decodeIn85 <|
  .cons decodeIn86 <|
  .cons decodeIn87 <|
  .cons decodeIn88 <|
  .cons decodeIn89 <|
  .cons decodeIn90 <|
  .cons decodeIn91 <|
  .cons decodeIn92 <|
  .cons decodeIn93 <|
  .cons decodeIn94 <|
  .cons decodeIn95 <|
  .cons decodeIn96 <|
  .cons decodeIn97 <|
  .cons decodeIn98 <|
  .cons decodeIn99 <|
  .cons decodeIn100 <|
  .cons decodeIn101 <|
  .cons decodeIn102 <|
  .cons decodeIn103 <|
  .cons decodeIn104 <|
  .cons decodeIn105 <|
  .cons decodeIn106 <|
  .cons decodeIn107 <|
  .cons decodeIn108 <|
  .cons decodeIn109 <|
  .cons decodeIn110 <|
  .cons decodeIn111 <|
  .cons decodeIn112 <|
  .cons decodeIn113 <|
  .cons decodeIn114 <|
  .cons decodeIn115 <|
  .cons decodeIn116 <|
  .cons decodeIn117 <|
  .cons decodeIn118 <|
  .cons decodeIn119 <|
  .cons decodeIn120 <|
  .cons decodeIn121 <|
  .cons decodeIn122 <|
  .cons decodeIn123 <|
  .cons decodeIn124 <|
  .cons decodeIn125 <|
  .nil

theorem decodeOut_parts : DataParts utf8K rows Files.Big5.decodeOutParts :=
  .cons decodeOut0 <|
  .cons decodeOut1 <|
  .cons decodeOut2 <|
  .cons decodeOut3 <|
  .cons decodeOut4 <|
  .cons decodeOut5 <|
  .cons decodeOut6 <|
  .cons decodeOut7 <|
  .cons decodeOut8 <|
  .cons decodeOut9 <|
  .cons decodeOut10 <|
  .cons decodeOut11 <|
  .cons decodeOut12 <|
  .cons decodeOut13 <|
  .cons decodeOut14 <|
  .cons decodeOut15 <|
  .cons decodeOut16 <|
  .cons decodeOut17 <|
  .cons decodeOut18 <|
  .cons decodeOut19 <|
  .cons decodeOut20 <|
  .cons decodeOut21 <|
  .cons decodeOut22 <|
  .cons decodeOut23 <|
  .cons decodeOut24 <|
  .cons decodeOut25 <|
  .cons decodeOut26 <|
  .cons decodeOut27 <|
  .cons decodeOut28 <|
  .cons decodeOut29 <|
  .cons decodeOut30 <|
  .cons decodeOut31 <|
  .cons decodeOut32 <|
  .cons decodeOut33 <|
  .cons decodeOut34 <|
  .cons decodeOut35 <|
  .cons decodeOut36 <|
  .cons decodeOut37 <|
  .cons decodeOut38 <|
  .cons decodeOut39 <|
  .cons decodeOut40 <|
  .cons decodeOut41 <|
  .cons decodeOut42 <|
  .cons decodeOut43 <|
  .cons decodeOut44 <|
  .cons decodeOut45 <|
  .cons decodeOut46 <|
  .cons decodeOut47 <|
  .cons decodeOut48 <|
  .cons decodeOut49 <|
  .cons decodeOut50 <|
  .cons decodeOut51 <|
  .cons decodeOut52 <|
  .cons decodeOut53 <|
  .cons decodeOut54 <|
  .cons decodeOut55 <|
  .cons decodeOut56 <|
  .cons decodeOut57 <|
  .cons decodeOut58 <|
  .cons decodeOut59 <|
  .cons decodeOut60 <|
  .cons decodeOut61 <|
  .cons decodeOut62 <|
  .cons decodeOut63 <|
  .cons decodeOut64 <|
  .cons decodeOut65 <|
  .cons decodeOut66 <|
  .cons decodeOut67 <|
  .cons decodeOut68 <|
  .cons decodeOut69 <|
  .cons decodeOut70 <|
  .cons decodeOut71 <|
  .cons decodeOut72 <|
  .cons decodeOut73 <|
  .cons decodeOut74 <|
  .cons decodeOut75 <|
  .cons decodeOut76 <|
  .cons decodeOut77 <|
  .cons decodeOut78 <|
  .cons decodeOut79 <|
  .cons decodeOut80 <|
  .cons decodeOut81 <|
  .cons decodeOut82 <|
  .cons decodeOut83 <|
  .cons decodeOut84 <|
  .cons decodeOut85 <|
  .cons decodeOut86 <|
  .cons decodeOut87 <|
  .cons decodeOut88 <|
  .cons decodeOut89 <|
  .cons decodeOut90 <|
  .cons decodeOut91 <|
  .cons decodeOut92 <|
  .cons decodeOut93 <|
  .cons decodeOut94 <|
  .cons decodeOut95 <|
  .cons decodeOut96 <|
  .cons decodeOut97 <|
  .cons decodeOut98 <|
  .cons decodeOut99 <|
  .cons decodeOut100 <|
  .cons decodeOut101 <|
  .cons decodeOut102 <|
  .cons decodeOut103 <|
  .cons decodeOut104 <|
  .cons decodeOut105 <|
  .cons decodeOut106 <|
  .cons decodeOut107 <|
  .cons decodeOut108 <|
  .cons decodeOut109 <|
  .cons decodeOut110 <|
  .cons decodeOut111 <|
  .cons decodeOut112 <|
  .cons decodeOut113 <|
  .cons decodeOut114 <|
  .cons decodeOut115 <|
  .cons decodeOut116 <|
  .cons decodeOut117 <|
  .cons decodeOut118 <|
  .cons decodeOut119 <|
  .cons decodeOut120 <|
  .cons decodeOut121 <|
  .cons decodeOut122 <|
  .cons decodeOut123 <|
  .cons decodeOut124 <|
  .cons decodeOut125 <|
  .nil

theorem encodeIn_parts : DataParts utf8K kept Files.Big5.encodeInParts :=
  .cons encodeIn0 <|
  .cons encodeIn1 <|
  .cons encodeIn2 <|
  .cons encodeIn3 <|
  .cons encodeIn4 <|
  .cons encodeIn5 <|
  .cons encodeIn6 <|
  .cons encodeIn7 <|
  .cons encodeIn8 <|
  .cons encodeIn9 <|
  .cons encodeIn10 <|
  .cons encodeIn11 <|
  .cons encodeIn12 <|
  .cons encodeIn13 <|
  .cons encodeIn14 <|
  .cons encodeIn15 <|
  .cons encodeIn16 <|
  .cons encodeIn17 <|
  .cons encodeIn18 <|
  .cons encodeIn19 <|
  .cons encodeIn20 <|
  .cons encodeIn21 <|
  .cons encodeIn22 <|
  .cons encodeIn23 <|
  .cons encodeIn24 <|
  .cons encodeIn25 <|
  .cons encodeIn26 <|
  .cons encodeIn27 <|
  .cons encodeIn28 <|
  .cons encodeIn29 <|
  .cons encodeIn30 <|
  .cons encodeIn31 <|
  .cons encodeIn32 <|
  .cons encodeIn33 <|
  .cons encodeIn34 <|
  .cons encodeIn35 <|
  .cons encodeIn36 <|
  .cons encodeIn37 <|
  .cons encodeIn38 <|
  .cons encodeIn39 <|
  .cons encodeIn40 <|
  .cons encodeIn41 <|
  .cons encodeIn42 <|
  .cons encodeIn43 <|
  .cons encodeIn44 <|
  .cons encodeIn45 <|
  .cons encodeIn46 <|
  .cons encodeIn47 <|
  .cons encodeIn48 <|
  .cons encodeIn49 <|
  .cons encodeIn50 <|
  .cons encodeIn51 <|
  .cons encodeIn52 <|
  .cons encodeIn53 <|
  .cons encodeIn54 <|
  .cons encodeIn55 <|
  .cons encodeIn56 <|
  .cons encodeIn57 <|
  .cons encodeIn58 <|
  .cons encodeIn59 <|
  .cons encodeIn60 <|
  .cons encodeIn61 <|
  .cons encodeIn62 <|
  .cons encodeIn63 <|
  .cons encodeIn64 <|
  .cons encodeIn65 <|
  .cons encodeIn66 <|
  .cons encodeIn67 <|
  .cons encodeIn68 <|
  .cons encodeIn69 <|
  .cons encodeIn70 <|
  .cons encodeIn71 <|
  .cons encodeIn72 <|
  .cons encodeIn73 <|
  .cons encodeIn74 <|
  .cons encodeIn75 <|
  .cons encodeIn76 <|
  .cons encodeIn77 <|
  .cons encodeIn78 <|
  .cons encodeIn79 <|
  .cons encodeIn80 <|
  .cons encodeIn81 <|
  .cons encodeIn82 <|
  .cons encodeIn83 <|
  .cons encodeIn84 <|
  .cons encodeIn85 <|
  .cons encodeIn86 <|
  .cons encodeIn87 <|
  .cons encodeIn88 <|
  .cons encodeIn89 <|
  .cons encodeIn90 <|
  .cons encodeIn91 <|
  .cons encodeIn92 <|
  .cons encodeIn93 <|
  .cons encodeIn94 <|
  .cons encodeIn95 <|
  .cons encodeIn96 <|
  .cons encodeIn97 <|
  .cons encodeIn98 <|
  .cons encodeIn99 <|
  .cons encodeIn100 <|
  .cons encodeIn101 <|
  .cons encodeIn102 <|
  .cons encodeIn103 <|
  .cons encodeIn104 <|
  .cons encodeIn105 <|
  .cons encodeIn106 <|
  .cons encodeIn107 <|
  .cons encodeIn108 <|
  .cons encodeIn109 <|
  .cons encodeIn110 <|
  .cons encodeIn111 <|
  .cons encodeIn112 <|
  .cons encodeIn113 <|
  .cons encodeIn114 <|
  .cons encodeIn115 <|
  .cons encodeIn116 <|
  .cons encodeIn117 <|
  .cons encodeIn118 <|
  .cons encodeIn119 <|
  .cons encodeIn120 <|
  .cons encodeIn121 <|
  .cons encodeIn122 <|
  .cons encodeIn123 <|
  .cons encodeIn124 <|
  .cons encodeIn125 <|
  .nil

theorem encodeOut_parts : DataParts big5K kept Files.Big5.encodeOutParts :=
  .cons encodeOut0 <|
  .cons encodeOut1 <|
  .cons encodeOut2 <|
  .cons encodeOut3 <|
  .cons encodeOut4 <|
  .cons encodeOut5 <|
  .cons encodeOut6 <|
  .cons encodeOut7 <|
  .cons encodeOut8 <|
  .cons encodeOut9 <|
  .cons encodeOut10 <|
  .cons encodeOut11 <|
  .cons encodeOut12 <|
  .cons encodeOut13 <|
  .cons encodeOut14 <|
  .cons encodeOut15 <|
  .cons encodeOut16 <|
  .cons encodeOut17 <|
  .cons encodeOut18 <|
  .cons encodeOut19 <|
  .cons encodeOut20 <|
  .cons encodeOut21 <|
  .cons encodeOut22 <|
  .cons encodeOut23 <|
  .cons encodeOut24 <|
  .cons encodeOut25 <|
  .cons encodeOut26 <|
  .cons encodeOut27 <|
  .cons encodeOut28 <|
  .cons encodeOut29 <|
  .cons encodeOut30 <|
  .cons encodeOut31 <|
  .cons encodeOut32 <|
  .cons encodeOut33 <|
  .cons encodeOut34 <|
  .cons encodeOut35 <|
  .cons encodeOut36 <|
  .cons encodeOut37 <|
  .cons encodeOut38 <|
  .cons encodeOut39 <|
  .cons encodeOut40 <|
  .cons encodeOut41 <|
  .cons encodeOut42 <|
  .cons encodeOut43 <|
  .cons encodeOut44 <|
  .cons encodeOut45 <|
  .cons encodeOut46 <|
  .cons encodeOut47 <|
  .cons encodeOut48 <|
  .cons encodeOut49 <|
  .cons encodeOut50 <|
  .cons encodeOut51 <|
  .cons encodeOut52 <|
  .cons encodeOut53 <|
  .cons encodeOut54 <|
  .cons encodeOut55 <|
  .cons encodeOut56 <|
  .cons encodeOut57 <|
  .cons encodeOut58 <|
  .cons encodeOut59 <|
  .cons encodeOut60 <|
  .cons encodeOut61 <|
  .cons encodeOut62 <|
  .cons encodeOut63 <|
  .cons encodeOut64 <|
  .cons encodeOut65 <|
  .cons encodeOut66 <|
  .cons encodeOut67 <|
  .cons encodeOut68 <|
  .cons encodeOut69 <|
  .cons encodeOut70 <|
  .cons encodeOut71 <|
  .cons encodeOut72 <|
  .cons encodeOut73 <|
  .cons encodeOut74 <|
  .cons encodeOut75 <|
  .cons encodeOut76 <|
  .cons encodeOut77 <|
  .cons encodeOut78 <|
  .cons encodeOut79 <|
  .cons encodeOut80 <|
  .cons encodeOut81 <|
  .cons encodeOut82 <|
  .cons encodeOut83 <|
  .cons encodeOut84 <|
  .cons encodeOut85 <|
  .cons encodeOut86 <|
  .cons encodeOut87 <|
  .cons encodeOut88 <|
  .cons encodeOut89 <|
  .cons encodeOut90 <|
  .cons encodeOut91 <|
  .cons encodeOut92 <|
  .cons encodeOut93 <|
  .cons encodeOut94 <|
  .cons encodeOut95 <|
  .cons encodeOut96 <|
  .cons encodeOut97 <|
  .cons encodeOut98 <|
  .cons encodeOut99 <|
  .cons encodeOut100 <|
  .cons encodeOut101 <|
  .cons encodeOut102 <|
  .cons encodeOut103 <|
  .cons encodeOut104 <|
  .cons encodeOut105 <|
  .cons encodeOut106 <|
  .cons encodeOut107 <|
  .cons encodeOut108 <|
  .cons encodeOut109 <|
  .cons encodeOut110 <|
  .cons encodeOut111 <|
  .cons encodeOut112 <|
  .cons encodeOut113 <|
  .cons encodeOut114 <|
  .cons encodeOut115 <|
  .cons encodeOut116 <|
  .cons encodeOut117 <|
  .cons encodeOut118 <|
  .cons encodeOut119 <|
  .cons encodeOut120 <|
  .cons encodeOut121 <|
  .cons encodeOut122 <|
  .cons encodeOut123 <|
  .cons encodeOut124 <|
  .cons encodeOut125 <|
  .nil

end Verif.Generator.Big5
