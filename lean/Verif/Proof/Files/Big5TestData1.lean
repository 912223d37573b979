import Verif.Files.Big5.TestData1
import Verif.Proof.DataChecks
import Verif.Spec.Published.Big5

/-! Generated by tools/gen_files.py: the kernel compares the copies with the index. -/

namespace Verif.Generator.Big5

open Spec.Published.Big5

/-- The lines of row 0 that are not used for encoding. -/
def drops0 : List (Nat × Nat × Nat) := []

theorem drops0_check : everyB (big5DropB rows) drops0 = true := by decide +kernel

theorem decodeIn0 : eqB (rowK big5K row0) Files.Big5.decodeIn0 = true := by decide +kernel

theorem decodeOut0 : eqB (rowK utf8K row0) Files.Big5.decodeOut0 = true := by decide +kernel

theorem encodeIn0 : eqB (rowK utf8K (keepK row0 drops0)) Files.Big5.encodeIn0 = true := by decide +kernel

theorem encodeOut0 : eqB (rowK big5K (keepK row0 drops0)) Files.Big5.encodeOut0 = true := by decide +kernel

/-- The lines of row 1 that are not used for encoding. -/
def drops1 : List (Nat × Nat × Nat) := []

theorem drops1_check : everyB (big5DropB rows) drops1 = true := by decide +kernel

theorem decodeIn1 : eqB (rowK big5K row1) Files.Big5.decodeIn1 = true := by decide +kernel

theorem decodeOut1 : eqB (rowK utf8K row1) Files.Big5.decodeOut1 = true := by decide +kernel

theorem encodeIn1 : eqB (rowK utf8K (keepK row1 drops1)) Files.Big5.encodeIn1 = true := by decide +kernel

theorem encodeOut1 : eqB (rowK big5K (keepK row1 drops1)) Files.Big5.encodeOut1 = true := by decide +kernel

/-- The lines of row 2 that are not used for encoding. -/
def drops2 : List (Nat × Nat × Nat) := []

theorem drops2_check : everyB (big5DropB rows) drops2 = true := by decide +kernel

theorem decodeIn2 : eqB (rowK big5K row2) Files.Big5.decodeIn2 = true := by decide +kernel

theorem decodeOut2 : eqB (rowK utf8K row2) Files.Big5.decodeOut2 = true := by decide +kernel

theorem encodeIn2 : eqB (rowK utf8K (keepK row2 drops2)) Files.Big5.encodeIn2 = true := by decide +kernel

theorem encodeOut2 : eqB (rowK big5K (keepK row2 drops2)) Files.Big5.encodeOut2 = true := by decide +kernel

/-- The lines of row 3 that are not used for encoding. -/
def drops3 : List (Nat × Nat × Nat) := []

theorem drops3_check : everyB (big5DropB rows) drops3 = true := by decide +kernel

theorem decodeIn3 : eqB (rowK big5K row3) Files.Big5.decodeIn3 = true := by decide +kernel

theorem decodeOut3 : eqB (rowK utf8K row3) Files.Big5.decodeOut3 = true := by decide +kernel

theorem encodeIn3 : eqB (rowK utf8K (keepK row3 drops3)) Files.Big5.encodeIn3 = true := by decide +kernel

theorem encodeOut3 : eqB (rowK big5K (keepK row3 drops3)) Files.Big5.encodeOut3 = true := by decide +kernel

/-- The lines of row 4 that are not used for encoding. -/
def drops4 : List (Nat × Nat × Nat) := []

theorem drops4_check : everyB (big5DropB rows) drops4 = true := by decide +kernel

theorem decodeIn4 : eqB (rowK big5K row4) Files.Big5.decodeIn4 = true := by decide +kernel

theorem decodeOut4 : eqB (rowK utf8K row4) Files.Big5.decodeOut4 = true := by decide +kernel

theorem encodeIn4 : eqB (rowK utf8K (keepK row4 drops4)) Files.Big5.encodeIn4 = true := by decide +kernel

theorem encodeOut4 : eqB (rowK big5K (keepK row4 drops4)) Files.Big5.encodeOut4 = true := by decide +kernel

/-- The lines of row 5 that are not used for encoding. -/
def drops5 : List (Nat × Nat × Nat) := []

theorem drops5_check : everyB (big5DropB rows) drops5 = true := by decide +kernel

theorem decodeIn5 : eqB (rowK big5K row5) Files.Big5.decodeIn5 = true := by decide +kernel

theorem decodeOut5 : eqB (rowK utf8K row5) Files.Big5.decodeOut5 = true := by decide +kernel

theorem encodeIn5 : eqB (rowK utf8K (keepK row5 drops5)) Files.Big5.encodeIn5 = true := by decide +kernel

theorem encodeOut5 : eqB (rowK big5K (keepK row5 drops5)) Files.Big5.encodeOut5 = true := by decide +kernel

/-- The lines of row 6 that are not used for encoding. -/
def drops6 : List (Nat × Nat × Nat) := []

theorem drops6_check : everyB (big5DropB rows) drops6 = true := by decide +kernel

theorem decodeIn6 : eqB (rowK big5K row6) Files.Big5.decodeIn6 = true := by decide +kernel

theorem decodeOut6 : eqB (rowK utf8K row6) Files.Big5.decodeOut6 = true := by decide +kernel

theorem encodeIn6 : eqB (rowK utf8K (keepK row6 drops6)) Files.Big5.encodeIn6 = true := by decide +kernel

theorem encodeOut6 : eqB (rowK big5K (keepK row6 drops6)) Files.Big5.encodeOut6 = true := by decide +kernel

/-- The lines of row 7 that are not used for encoding. -/
def drops7 : List (Nat × Nat × Nat) := []

theorem drops7_check : everyB (big5DropB rows) drops7 = true := by decide +kernel

theorem decodeIn7 : eqB (rowK big5K row7) Files.Big5.decodeIn7 = true := by decide +kernel

theorem decodeOut7 : eqB (rowK utf8K row7) Files.Big5.decodeOut7 = true := by decide +kernel

theorem encodeIn7 : eqB (rowK utf8K (keepK row7 drops7)) Files.Big5.encodeIn7 = true := by decide +kernel

theorem encodeOut7 : eqB (rowK big5K (keepK row7 drops7)) Files.Big5.encodeOut7 = true := by decide +kernel

/-- The lines of row 8 that are not used for encoding. -/
def drops8 : List (Nat × Nat × Nat) := []

theorem drops8_check : everyB (big5DropB rows) drops8 = true := by decide +kernel

theorem decodeIn8 : eqB (rowK big5K row8) Files.Big5.decodeIn8 = true := by decide +kernel

theorem decodeOut8 : eqB (rowK utf8K row8) Files.Big5.decodeOut8 = true := by decide +kernel

theorem encodeIn8 : eqB (rowK utf8K (keepK row8 drops8)) Files.Big5.encodeIn8 = true := by decide +kernel

theorem encodeOut8 : eqB (rowK big5K (keepK row8 drops8)) Files.Big5.encodeOut8 = true := by decide +kernel

/-- The lines of row 9 that are not used for encoding. -/
def drops9 : List (Nat × Nat × Nat) := []

theorem drops9_check : everyB (big5DropB rows) drops9 = true := by decide +kernel

theorem decodeIn9 : eqB (rowK big5K row9) Files.Big5.decodeIn9 = true := by decide +kernel

theorem decodeOut9 : eqB (rowK utf8K row9) Files.Big5.decodeOut9 = true := by decide +kernel

theorem encodeIn9 : eqB (rowK utf8K (keepK row9 drops9)) Files.Big5.encodeIn9 = true := by decide +kernel

theorem encodeOut9 : eqB (rowK big5K (keepK row9 drops9)) Files.Big5.encodeOut9 = true := by decide +kernel

/-- The lines of row 10 that are not used for encoding. -/
def drops10 : List (Nat × Nat × Nat) := []

theorem drops10_check : everyB (big5DropB rows) drops10 = true := by decide +kernel

theorem decodeIn10 : eqB (rowK big5K row10) Files.Big5.decodeIn10 = true := by decide +kernel

theorem decodeOut10 : eqB (rowK utf8K row10) Files.Big5.decodeOut10 = true := by decide +kernel

theorem encodeIn10 : eqB (rowK utf8K (keepK row10 drops10)) Files.Big5.encodeIn10 = true := by decide +kernel

theorem encodeOut10 : eqB (rowK big5K (keepK row10 drops10)) Files.Big5.encodeOut10 = true := by decide +kernel

/-- The lines of row 11 that are not used for encoding. -/
def drops11 : List (Nat × Nat × Nat) := []

theorem drops11_check : everyB (big5DropB rows) drops11 = true := by decide +kernel

theorem decodeIn11 : eqB (rowK big5K row11) Files.Big5.decodeIn11 = true := by decide +kernel

theorem decodeOut11 : eqB (rowK utf8K row11) Files.Big5.decodeOut11 = true := by decide +kernel

theorem encodeIn11 : eqB (rowK utf8K (keepK row11 drops11)) Files.Big5.encodeIn11 = true := by decide +kernel

theorem encodeOut11 : eqB (rowK big5K (keepK row11 drops11)) Files.Big5.encodeOut11 = true := by decide +kernel

/-- The lines of row 12 that are not used for encoding. -/
def drops12 : List (Nat × Nat × Nat) := []

theorem drops12_check : everyB (big5DropB rows) drops12 = true := by decide +kernel

theorem decodeIn12 : eqB (rowK big5K row12) Files.Big5.decodeIn12 = true := by decide +kernel

theorem decodeOut12 : eqB (rowK utf8K row12) Files.Big5.decodeOut12 = true := by decide +kernel

theorem encodeIn12 : eqB (rowK utf8K (keepK row12 drops12)) Files.Big5.encodeIn12 = true := by decide +kernel

theorem encodeOut12 : eqB (rowK big5K (keepK row12 drops12)) Files.Big5.encodeOut12 = true := by decide +kernel

/-- The lines of row 13 that are not used for encoding. -/
def drops13 : List (Nat × Nat × Nat) := []

theorem drops13_check : everyB (big5DropB rows) drops13 = true := by decide +kernel

theorem decodeIn13 : eqB (rowK big5K row13) Files.Big5.decodeIn13 = true := by decide +kernel

theorem decodeOut13 : eqB (rowK utf8K row13) Files.Big5.decodeOut13 = true := by decide +kernel

theorem encodeIn13 : eqB (rowK utf8K (keepK row13 drops13)) Files.Big5.encodeIn13 = true := by decide +kernel

theorem encodeOut13 : eqB (rowK big5K (keepK row13 drops13)) Files.Big5.encodeOut13 = true := by decide +kernel

/-- The lines of row 14 that are not used for encoding. -/
def drops14 : List (Nat × Nat × Nat) := []

theorem drops14_check : everyB (big5DropB rows) drops14 = true := by decide +kernel

theorem decodeIn14 : eqB (rowK big5K row14) Files.Big5.decodeIn14 = true := by decide +kernel

theorem decodeOut14 : eqB (rowK utf8K row14) Files.Big5.decodeOut14 = true := by decide +kernel

theorem encodeIn14 : eqB (rowK utf8K (keepK row14 drops14)) Files.Big5.encodeIn14 = true := by decide +kernel

theorem encodeOut14 : eqB (rowK big5K (keepK row14 drops14)) Files.Big5.encodeOut14 = true := by decide +kernel

/-- The lines of row 15 that are not used for encoding. -/
def drops15 : List (Nat × Nat × Nat) := []

theorem drops15_check : everyB (big5DropB rows) drops15 = true := by decide +kernel

theorem decodeIn15 : eqB (rowK big5K row15) Files.Big5.decodeIn15 = true := by decide +kernel

theorem decodeOut15 : eqB (rowK utf8K row15) Files.Big5.decodeOut15 = true := by decide +kernel

theorem encodeIn15 : eqB (rowK utf8K (keepK row15 drops15)) Files.Big5.encodeIn15 = true := by decide +kernel

theorem encodeOut15 : eqB (rowK big5K (keepK row15 drops15)) Files.Big5.encodeOut15 = true := by decide +kernel

/-- The lines of row 16 that are not used for encoding. -/
def drops16 : List (Nat × Nat × Nat) := []

theorem drops16_check : everyB (big5DropB rows) drops16 = true := by decide +kernel

theorem decodeIn16 : eqB (rowK big5K row16) Files.Big5.decodeIn16 = true := by decide +kernel

theorem decodeOut16 : eqB (rowK utf8K row16) Files.Big5.decodeOut16 = true := by decide +kernel

theorem encodeIn16 : eqB (rowK utf8K (keepK row16 drops16)) Files.Big5.encodeIn16 = true := by decide +kernel

theorem encodeOut16 : eqB (rowK big5K (keepK row16 drops16)) Files.Big5.encodeOut16 = true := by decide +kernel

/-- The lines of row 17 that are not used for encoding. -/
def drops17 : List (Nat × Nat × Nat) := [(2673, 34051, 2671)]

theorem drops17_check : everyB (big5DropB rows) drops17 = true := by decide +kernel

theorem decodeIn17 : eqB (rowK big5K row17) Files.Big5.decodeIn17 = true := by decide +kernel

theorem decodeOut17 : eqB (rowK utf8K row17) Files.Big5.decodeOut17 = true := by decide +kernel

theorem encodeIn17 : eqB (rowK utf8K (keepK row17 drops17)) Files.Big5.encodeIn17 = true := by decide +kernel

theorem encodeOut17 : eqB (rowK big5K (keepK row17 drops17)) Files.Big5.encodeOut17 = true := by decide +kernel

/-- The lines of row 18 that are not used for encoding. -/
def drops18 : List (Nat × Nat × Nat) := []

theorem drops18_check : everyB (big5DropB rows) drops18 = true := by decide +kernel

theorem decodeIn18 : eqB (rowK big5K row18) Files.Big5.decodeIn18 = true := by decide +kernel

theorem decodeOut18 : eqB (rowK utf8K row18) Files.Big5.decodeOut18 = true := by decide +kernel

theorem encodeIn18 : eqB (rowK utf8K (keepK row18 drops18)) Files.Big5.encodeIn18 = true := by decide +kernel

theorem encodeOut18 : eqB (rowK big5K (keepK row18 drops18)) Files.Big5.encodeOut18 = true := by decide +kernel

/-- The lines of row 19 that are not used for encoding. -/
def drops19 : List (Nat × Nat × Nat) := []

theorem drops19_check : everyB (big5DropB rows) drops19 = true := by decide +kernel

theorem decodeIn19 : eqB (rowK big5K row19) Files.Big5.decodeIn19 = true := by decide +kernel

theorem decodeOut19 : eqB (rowK utf8K row19) Files.Big5.decodeOut19 = true := by decide +kernel

theorem encodeIn19 : eqB (rowK utf8K (keepK row19 drops19)) Files.Big5.encodeIn19 = true := by decide +kernel

theorem encodeOut19 : eqB (rowK big5K (keepK row19 drops19)) Files.Big5.encodeOut19 = true := by decide +kernel

/-- The lines of row 20 that are not used for encoding. -/
def drops20 : List (Nat × Nat × Nat) := []

theorem drops20_check : everyB (big5DropB rows) drops20 = true := by decide +kernel

theorem decodeIn20 : eqB (rowK big5K row20) Files.Big5.decodeIn20 = true := by decide +kernel

theorem decodeOut20 : eqB (rowK utf8K row20) Files.Big5.decodeOut20 = true := by decide +kernel

theorem encodeIn20 : eqB (rowK utf8K (keepK row20 drops20)) Files.Big5.encodeIn20 = true := by decide +kernel

theorem encodeOut20 : eqB (rowK big5K (keepK row20 drops20)) Files.Big5.encodeOut20 = true := by decide +kernel

/-- The lines of row 21 that are not used for encoding. -/
def drops21 : List (Nat × Nat × Nat) := [(3437, 28702, 3436)]

theorem drops21_check : everyB (big5DropB rows) drops21 = true := by decide +kernel

theorem decodeIn21 : eqB (rowK big5K row21) Files.Big5.decodeIn21 = true := by decide +kernel

theorem decodeOut21 : eqB (rowK utf8K row21) Files.Big5.decodeOut21 = true := by decide +kernel

theorem encodeIn21 : eqB (rowK utf8K (keepK row21 drops21)) Files.Big5.encodeIn21 = true := by decide +kernel

theorem encodeOut21 : eqB (rowK big5K (keepK row21 drops21)) Files.Big5.encodeOut21 = true := by decide +kernel

/-- The lines of row 22 that are not used for encoding. -/
def drops22 : List (Nat × Nat × Nat) := []

theorem drops22_check : everyB (big5DropB rows) drops22 = true := by decide +kernel

theorem decodeIn22 : eqB (rowK big5K row22) Files.Big5.decodeIn22 = true := by decide +kernel

theorem decodeOut22 : eqB (rowK utf8K row22) Files.Big5.decodeOut22 = true := by decide +kernel

theorem encodeIn22 : eqB (rowK utf8K (keepK row22 drops22)) Files.Big5.encodeIn22 = true := by decide +kernel

theorem encodeOut22 : eqB (rowK big5K (keepK row22 drops22)) Files.Big5.encodeOut22 = true := by decide +kernel

/-- The lines of row 23 that are not used for encoding. -/
def drops23 : List (Nat × Nat × Nat) := []

theorem drops23_check : everyB (big5DropB rows) drops23 = true := by decide +kernel

theorem decodeIn23 : eqB (rowK big5K row23) Files.Big5.decodeIn23 = true := by decide +kernel

theorem decodeOut23 : eqB (rowK utf8K row23) Files.Big5.decodeOut23 = true := by decide +kernel

theorem encodeIn23 : eqB (rowK utf8K (keepK row23 drops23)) Files.Big5.encodeIn23 = true := by decide +kernel

theorem encodeOut23 : eqB (rowK big5K (keepK row23 drops23)) Files.Big5.encodeOut23 = true := by decide +kernel

/-- The lines of row 24 that are not used for encoding. -/
def drops24 : List (Nat × Nat × Nat) := []

theorem drops24_check : everyB (big5DropB rows) drops24 = true := by decide +kernel

theorem decodeIn24 : eqB (rowK big5K row24) Files.Big5.decodeIn24 = true := by decide +kernel

theorem decodeOut24 : eqB (rowK utf8K row24) Files.Big5.decodeOut24 = true := by decide +kernel

theorem encodeIn24 : eqB (rowK utf8K (keepK row24 drops24)) Files.Big5.encodeIn24 = true := by decide +kernel

theorem encodeOut24 : eqB (rowK big5K (keepK row24 drops24)) Files.Big5.encodeOut24 = true := by decide +kernel

/-- The lines of row 25 that are not used for encoding. -/
def drops25 : List (Nat × Nat × Nat) := []

theorem drops25_check : everyB (big5DropB rows) drops25 = true := by decide +kernel

theorem decodeIn25 : eqB (rowK big5K row25) Files.Big5.decodeIn25 = true := by decide +kernel

theorem decodeOut25 : eqB (rowK utf8K row25) Files.Big5.decodeOut25 = true := by decide +kernel

theorem encodeIn25 : eqB (rowK utf8K (keepK row25 drops25)) Files.Big5.encodeIn25 = true := by decide +kernel

theorem encodeOut25 : eqB (rowK big5K (keepK row25 drops25)) Files.Big5.encodeOut25 = true := by decide +kernel

/-- The lines of row 26 that are not used for encoding. -/
def drops26 : List (Nat × Nat × Nat) := []

theorem drops26_check : everyB (big5DropB rows) drops26 = true := by decide +kernel

theorem decodeIn26 : eqB (rowK big5K row26) Files.Big5.decodeIn26 = true := by decide +kernel

theorem decodeOut26 : eqB (rowK utf8K row26) Files.Big5.decodeOut26 = true := by decide +kernel

theorem encodeIn26 : eqB (rowK utf8K (keepK row26 drops26)) Files.Big5.encodeIn26 = true := by decide +kernel

theorem encodeOut26 : eqB (rowK big5K (keepK row26 drops26)) Files.Big5.encodeOut26 = true := by decide +kernel

/-- The lines of row 27 that are not used for encoding. -/
def drops27 : List (Nat × Nat × Nat) := [(4369, 38749, 3301)]

theorem drops27_check : everyB (big5DropB rows) drops27 = true := by decide +kernel

theorem decodeIn27 : eqB (rowK big5K row27) Files.Big5.decodeIn27 = true := by decide +kernel

theorem decodeOut27 : eqB (rowK utf8K row27) Files.Big5.decodeOut27 = true := by decide +kernel

theorem encodeIn27 : eqB (rowK utf8K (keepK row27 drops27)) Files.Big5.encodeIn27 = true := by decide +kernel

theorem encodeOut27 : eqB (rowK big5K (keepK row27 drops27)) Files.Big5.encodeOut27 = true := by decide +kernel

/-- The lines of row 28 that are not used for encoding. -/
def drops28 : List (Nat × Nat × Nat) := []

theorem drops28_check : everyB (big5DropB rows) drops28 = true := by decide +kernel

theorem decodeIn28 : eqB (rowK big5K row28) Files.Big5.decodeIn28 = true := by decide +kernel

theorem decodeOut28 : eqB (rowK utf8K row28) Files.Big5.decodeOut28 = true := by decide +kernel

theorem encodeIn28 : eqB (rowK utf8K (keepK row28 drops28)) Files.Big5.encodeIn28 = true := by decide +kernel

theorem encodeOut28 : eqB (rowK big5K (keepK row28 drops28)) Files.Big5.encodeOut28 = true := by decide +kernel

/-- The lines of row 29 that are not used for encoding. -/
def drops29 : List (Nat × Nat × Nat) := []

theorem drops29_check : everyB (big5DropB rows) drops29 = true := by decide +kernel

theorem decodeIn29 : eqB (rowK big5K row29) Files.Big5.decodeIn29 = true := by decide +kernel

theorem decodeOut29 : eqB (rowK utf8K row29) Files.Big5.decodeOut29 = true := by decide +kernel

theorem encodeIn29 : eqB (rowK utf8K (keepK row29 drops29)) Files.Big5.encodeIn29 = true := by decide +kernel

theorem encodeOut29 : eqB (rowK big5K (keepK row29 drops29)) Files.Big5.encodeOut29 = true := by decide +kernel

/-- The lines of row 30 that are not used for encoding. -/
def drops30 : List (Nat × Nat × Nat) := [(4748, 40727, 2604), (4828, 24332, 2859)]

theorem drops30_check : everyB (big5DropB rows) drops30 = true := by decide +kernel

theorem decodeIn30 : eqB (rowK big5K row30) Files.Big5.decodeIn30 = true := by decide +kernel

theorem decodeOut30 : eqB (rowK utf8K row30) Files.Big5.decodeOut30 = true := by decide +kernel

theorem encodeIn30 : eqB (rowK utf8K (keepK row30 drops30)) Files.Big5.encodeIn30 = true := by decide +kernel

theorem encodeOut30 : eqB (rowK big5K (keepK row30 drops30)) Files.Big5.encodeOut30 = true := by decide +kernel

/-- The lines of row 31 that are not used for encoding. -/
def drops31 : List (Nat × Nat × Nat) := [(4898, 37742, 2771), (4902, 34831, 2282), (4981, 35241, 2304), (4982, 29800, 3041), (4997, 29264, 3004)]

theorem drops31_check : everyB (big5DropB rows) drops31 = true := by decide +kernel

theorem decodeIn31 : eqB (rowK big5K row31) Files.Big5.decodeIn31 = true := by decide +kernel

theorem decodeOut31 : eqB (rowK utf8K row31) Files.Big5.decodeOut31 = true := by decide +kernel

theorem encodeIn31 : eqB (rowK utf8K (keepK row31 drops31)) Files.Big5.encodeIn31 = true := by decide +kernel

theorem encodeOut31 : eqB (rowK big5K (keepK row31 drops31)) Files.Big5.encodeOut31 = true := by decide +kernel

end Verif.Generator.Big5
