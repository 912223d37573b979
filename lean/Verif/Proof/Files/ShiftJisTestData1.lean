import Verif.Files.ShiftJis.TestData1
import Verif.Proof.DataChecks
import Verif.Spec.Published.Jis0208

/-! Generated by tools/gen_files.py: the kernel compares the copies with the index. -/

namespace Verif.Generator.ShiftJis

open Spec.Published.Jis0208

/-- The lines of row 0 that are not used for encoding. -/
def drops0 : List (Nat × Nat × Nat) := []

theorem drops0_check : everyB (jisDropB rows) drops0 = true := by decide +kernel

theorem decodeIn0 : eqB (rowK jisK row0) Files.ShiftJis.decodeIn0 = true := by decide +kernel

theorem decodeOut0 : eqB (rowK utf8K row0) Files.ShiftJis.decodeOut0 = true := by decide +kernel

theorem encodeIn0 : eqB (rowK utf8K (keepK row0 drops0)) Files.ShiftJis.encodeIn0 = true := by decide +kernel

theorem encodeOut0 : eqB (rowK jisK (keepK row0 drops0)) Files.ShiftJis.encodeOut0 = true := by decide +kernel

/-- The lines of row 1 that are not used for encoding. -/
def drops1 : List (Nat × Nat × Nat) := []

theorem drops1_check : everyB (jisDropB rows) drops1 = true := by decide +kernel

theorem decodeIn1 : eqB (rowK jisK row1) Files.ShiftJis.decodeIn1 = true := by decide +kernel

theorem decodeOut1 : eqB (rowK utf8K row1) Files.ShiftJis.decodeOut1 = true := by decide +kernel

theorem encodeIn1 : eqB (rowK utf8K (keepK row1 drops1)) Files.ShiftJis.encodeIn1 = true := by decide +kernel

theorem encodeOut1 : eqB (rowK jisK (keepK row1 drops1)) Files.ShiftJis.encodeOut1 = true := by decide +kernel

/-- The lines of row 2 that are not used for encoding. -/
def drops2 : List (Nat × Nat × Nat) := []

theorem drops2_check : everyB (jisDropB rows) drops2 = true := by decide +kernel

theorem decodeIn2 : eqB (rowK jisK row2) Files.ShiftJis.decodeIn2 = true := by decide +kernel

theorem decodeOut2 : eqB (rowK utf8K row2) Files.ShiftJis.decodeOut2 = true := by decide +kernel

theorem encodeIn2 : eqB (rowK utf8K (keepK row2 drops2)) Files.ShiftJis.encodeIn2 = true := by decide +kernel

theorem encodeOut2 : eqB (rowK jisK (keepK row2 drops2)) Files.ShiftJis.encodeOut2 = true := by decide +kernel

/-- The lines of row 3 that are not used for encoding. -/
def drops3 : List (Nat × Nat × Nat) := []

theorem drops3_check : everyB (jisDropB rows) drops3 = true := by decide +kernel

theorem decodeIn3 : eqB (rowK jisK row3) Files.ShiftJis.decodeIn3 = true := by decide +kernel

theorem decodeOut3 : eqB (rowK utf8K row3) Files.ShiftJis.decodeOut3 = true := by decide +kernel

theorem encodeIn3 : eqB (rowK utf8K (keepK row3 drops3)) Files.ShiftJis.encodeIn3 = true := by decide +kernel

theorem encodeOut3 : eqB (rowK jisK (keepK row3 drops3)) Files.ShiftJis.encodeOut3 = true := by decide +kernel

/-- The lines of row 4 that are not used for encoding. -/
def drops4 : List (Nat × Nat × Nat) := []

theorem drops4_check : everyB (jisDropB rows) drops4 = true := by decide +kernel

theorem decodeIn4 : eqB (rowK jisK row4) Files.ShiftJis.decodeIn4 = true := by decide +kernel

theorem decodeOut4 : eqB (rowK utf8K row4) Files.ShiftJis.decodeOut4 = true := by decide +kernel

theorem encodeIn4 : eqB (rowK utf8K (keepK row4 drops4)) Files.ShiftJis.encodeIn4 = true := by decide +kernel

theorem encodeOut4 : eqB (rowK jisK (keepK row4 drops4)) Files.ShiftJis.encodeOut4 = true := by decide +kernel

/-- The lines of row 5 that are not used for encoding. -/
def drops5 : List (Nat × Nat × Nat) := []

theorem drops5_check : everyB (jisDropB rows) drops5 = true := by decide +kernel

theorem decodeIn5 : eqB (rowK jisK row5) Files.ShiftJis.decodeIn5 = true := by decide +kernel

theorem decodeOut5 : eqB (rowK utf8K row5) Files.ShiftJis.decodeOut5 = true := by decide +kernel

theorem encodeIn5 : eqB (rowK utf8K (keepK row5 drops5)) Files.ShiftJis.encodeIn5 = true := by decide +kernel

theorem encodeOut5 : eqB (rowK jisK (keepK row5 drops5)) Files.ShiftJis.encodeOut5 = true := by decide +kernel

/-- The lines of row 6 that are not used for encoding. -/
def drops6 : List (Nat × Nat × Nat) := [(1207, 8786, 159), (1208, 8801, 158), (1209, 8747, 166), (1212, 8730, 162), (1213, 8869, 154), (1214, 8736, 153), (1217, 8757, 165), (1218, 8745, 126), (1219, 8746, 125)]

theorem drops6_check : everyB (jisDropB rows) drops6 = true := by decide +kernel

theorem decodeIn6 : eqB (rowK jisK row6) Files.ShiftJis.decodeIn6 = true := by decide +kernel

theorem decodeOut6 : eqB (rowK utf8K row6) Files.ShiftJis.decodeOut6 = true := by decide +kernel

theorem encodeIn6 : eqB (rowK utf8K (keepK row6 drops6)) Files.ShiftJis.encodeIn6 = true := by decide +kernel

theorem encodeOut6 : eqB (rowK jisK (keepK row6 drops6)) Files.ShiftJis.encodeOut6 = true := by decide +kernel

/-- The lines of row 7 that are not used for encoding. -/
def drops7 : List (Nat × Nat × Nat) := []

theorem drops7_check : everyB (jisDropB rows) drops7 = true := by decide +kernel

theorem decodeIn7 : eqB (rowK jisK row7) Files.ShiftJis.decodeIn7 = true := by decide +kernel

theorem decodeOut7 : eqB (rowK utf8K row7) Files.ShiftJis.decodeOut7 = true := by decide +kernel

theorem encodeIn7 : eqB (rowK utf8K (keepK row7 drops7)) Files.ShiftJis.encodeIn7 = true := by decide +kernel

theorem encodeOut7 : eqB (rowK jisK (keepK row7 drops7)) Files.ShiftJis.encodeOut7 = true := by decide +kernel

/-- The lines of row 8 that are not used for encoding. -/
def drops8 : List (Nat × Nat × Nat) := []

theorem drops8_check : everyB (jisDropB rows) drops8 = true := by decide +kernel

theorem decodeIn8 : eqB (rowK jisK row8) Files.ShiftJis.decodeIn8 = true := by decide +kernel

theorem decodeOut8 : eqB (rowK utf8K row8) Files.ShiftJis.decodeOut8 = true := by decide +kernel

theorem encodeIn8 : eqB (rowK utf8K (keepK row8 drops8)) Files.ShiftJis.encodeIn8 = true := by decide +kernel

theorem encodeOut8 : eqB (rowK jisK (keepK row8 drops8)) Files.ShiftJis.encodeOut8 = true := by decide +kernel

/-- The lines of row 9 that are not used for encoding. -/
def drops9 : List (Nat × Nat × Nat) := []

theorem drops9_check : everyB (jisDropB rows) drops9 = true := by decide +kernel

theorem decodeIn9 : eqB (rowK jisK row9) Files.ShiftJis.decodeIn9 = true := by decide +kernel

theorem decodeOut9 : eqB (rowK utf8K row9) Files.ShiftJis.decodeOut9 = true := by decide +kernel

theorem encodeIn9 : eqB (rowK utf8K (keepK row9 drops9)) Files.ShiftJis.encodeIn9 = true := by decide +kernel

theorem encodeOut9 : eqB (rowK jisK (keepK row9 drops9)) Files.ShiftJis.encodeOut9 = true := by decide +kernel

/-- The lines of row 10 that are not used for encoding. -/
def drops10 : List (Nat × Nat × Nat) := []

theorem drops10_check : everyB (jisDropB rows) drops10 = true := by decide +kernel

theorem decodeIn10 : eqB (rowK jisK row10) Files.ShiftJis.decodeIn10 = true := by decide +kernel

theorem decodeOut10 : eqB (rowK utf8K row10) Files.ShiftJis.decodeOut10 = true := by decide +kernel

theorem encodeIn10 : eqB (rowK utf8K (keepK row10 drops10)) Files.ShiftJis.encodeIn10 = true := by decide +kernel

theorem encodeOut10 : eqB (rowK jisK (keepK row10 drops10)) Files.ShiftJis.encodeOut10 = true := by decide +kernel

/-- The lines of row 11 that are not used for encoding. -/
def drops11 : List (Nat × Nat × Nat) := []

theorem drops11_check : everyB (jisDropB rows) drops11 = true := by decide +kernel

theorem decodeIn11 : eqB (rowK jisK row11) Files.ShiftJis.decodeIn11 = true := by decide +kernel

theorem decodeOut11 : eqB (rowK utf8K row11) Files.ShiftJis.decodeOut11 = true := by decide +kernel

theorem encodeIn11 : eqB (rowK utf8K (keepK row11 drops11)) Files.ShiftJis.encodeIn11 = true := by decide +kernel

theorem encodeOut11 : eqB (rowK jisK (keepK row11 drops11)) Files.ShiftJis.encodeOut11 = true := by decide +kernel

/-- The lines of row 12 that are not used for encoding. -/
def drops12 : List (Nat × Nat × Nat) := []

theorem drops12_check : everyB (jisDropB rows) drops12 = true := by decide +kernel

theorem decodeIn12 : eqB (rowK jisK row12) Files.ShiftJis.decodeIn12 = true := by decide +kernel

theorem decodeOut12 : eqB (rowK utf8K row12) Files.ShiftJis.decodeOut12 = true := by decide +kernel

theorem encodeIn12 : eqB (rowK utf8K (keepK row12 drops12)) Files.ShiftJis.encodeIn12 = true := by decide +kernel

theorem encodeOut12 : eqB (rowK jisK (keepK row12 drops12)) Files.ShiftJis.encodeOut12 = true := by decide +kernel

/-- The lines of row 13 that are not used for encoding. -/
def drops13 : List (Nat × Nat × Nat) := []

theorem drops13_check : everyB (jisDropB rows) drops13 = true := by decide +kernel

theorem decodeIn13 : eqB (rowK jisK row13) Files.ShiftJis.decodeIn13 = true := by decide +kernel

theorem decodeOut13 : eqB (rowK utf8K row13) Files.ShiftJis.decodeOut13 = true := by decide +kernel

theorem encodeIn13 : eqB (rowK utf8K (keepK row13 drops13)) Files.ShiftJis.encodeIn13 = true := by decide +kernel

theorem encodeOut13 : eqB (rowK jisK (keepK row13 drops13)) Files.ShiftJis.encodeOut13 = true := by decide +kernel

/-- The lines of row 14 that are not used for encoding. -/
def drops14 : List (Nat × Nat × Nat) := []

theorem drops14_check : everyB (jisDropB rows) drops14 = true := by decide +kernel

theorem decodeIn14 : eqB (rowK jisK row14) Files.ShiftJis.decodeIn14 = true := by decide +kernel

theorem decodeOut14 : eqB (rowK utf8K row14) Files.ShiftJis.decodeOut14 = true := by decide +kernel

theorem encodeIn14 : eqB (rowK utf8K (keepK row14 drops14)) Files.ShiftJis.encodeIn14 = true := by decide +kernel

theorem encodeOut14 : eqB (rowK jisK (keepK row14 drops14)) Files.ShiftJis.encodeOut14 = true := by decide +kernel

/-- The lines of row 15 that are not used for encoding. -/
def drops15 : List (Nat × Nat × Nat) := []

theorem drops15_check : everyB (jisDropB rows) drops15 = true := by decide +kernel

theorem decodeIn15 : eqB (rowK jisK row15) Files.ShiftJis.decodeIn15 = true := by decide +kernel

theorem decodeOut15 : eqB (rowK utf8K row15) Files.ShiftJis.decodeOut15 = true := by decide +kernel

theorem encodeIn15 : eqB (rowK utf8K (keepK row15 drops15)) Files.ShiftJis.encodeIn15 = true := by decide +kernel

theorem encodeOut15 : eqB (rowK jisK (keepK row15 drops15)) Files.ShiftJis.encodeOut15 = true := by decide +kernel

/-- The lines of row 16 that are not used for encoding. -/
def drops16 : List (Nat × Nat × Nat) := []

theorem drops16_check : everyB (jisDropB rows) drops16 = true := by decide +kernel

theorem decodeIn16 : eqB (rowK jisK row16) Files.ShiftJis.decodeIn16 = true := by decide +kernel

theorem decodeOut16 : eqB (rowK utf8K row16) Files.ShiftJis.decodeOut16 = true := by decide +kernel

theorem encodeIn16 : eqB (rowK utf8K (keepK row16 drops16)) Files.ShiftJis.encodeIn16 = true := by decide +kernel

theorem encodeOut16 : eqB (rowK jisK (keepK row16 drops16)) Files.ShiftJis.encodeOut16 = true := by decide +kernel

/-- The lines of row 17 that are not used for encoding. -/
def drops17 : List (Nat × Nat × Nat) := []

theorem drops17_check : everyB (jisDropB rows) drops17 = true := by decide +kernel

theorem decodeIn17 : eqB (rowK jisK row17) Files.ShiftJis.decodeIn17 = true := by decide +kernel

theorem decodeOut17 : eqB (rowK utf8K row17) Files.ShiftJis.decodeOut17 = true := by decide +kernel

theorem encodeIn17 : eqB (rowK utf8K (keepK row17 drops17)) Files.ShiftJis.encodeIn17 = true := by decide +kernel

theorem encodeOut17 : eqB (rowK jisK (keepK row17 drops17)) Files.ShiftJis.encodeOut17 = true := by decide +kernel

/-- The lines of row 18 that are not used for encoding. -/
def drops18 : List (Nat × Nat × Nat) := []

theorem drops18_check : everyB (jisDropB rows) drops18 = true := by decide +kernel

theorem decodeIn18 : eqB (rowK jisK row18) Files.ShiftJis.decodeIn18 = true := by decide +kernel

theorem decodeOut18 : eqB (rowK utf8K row18) Files.ShiftJis.decodeOut18 = true := by decide +kernel

theorem encodeIn18 : eqB (rowK utf8K (keepK row18 drops18)) Files.ShiftJis.encodeIn18 = true := by decide +kernel

theorem encodeOut18 : eqB (rowK jisK (keepK row18 drops18)) Files.ShiftJis.encodeOut18 = true := by decide +kernel

/-- The lines of row 19 that are not used for encoding. -/
def drops19 : List (Nat × Nat × Nat) := []

theorem drops19_check : everyB (jisDropB rows) drops19 = true := by decide +kernel

theorem decodeIn19 : eqB (rowK jisK row19) Files.ShiftJis.decodeIn19 = true := by decide +kernel

theorem decodeOut19 : eqB (rowK utf8K row19) Files.ShiftJis.decodeOut19 = true := by decide +kernel

theorem encodeIn19 : eqB (rowK utf8K (keepK row19 drops19)) Files.ShiftJis.encodeIn19 = true := by decide +kernel

theorem encodeOut19 : eqB (rowK jisK (keepK row19 drops19)) Files.ShiftJis.encodeOut19 = true := by decide +kernel

/-- The lines of row 20 that are not used for encoding. -/
def drops20 : List (Nat × Nat × Nat) := []

theorem drops20_check : everyB (jisDropB rows) drops20 = true := by decide +kernel

theorem decodeIn20 : eqB (rowK jisK row20) Files.ShiftJis.decodeIn20 = true := by decide +kernel

theorem decodeOut20 : eqB (rowK utf8K row20) Files.ShiftJis.decodeOut20 = true := by decide +kernel

theorem encodeIn20 : eqB (rowK utf8K (keepK row20 drops20)) Files.ShiftJis.encodeIn20 = true := by decide +kernel

theorem encodeOut20 : eqB (rowK jisK (keepK row20 drops20)) Files.ShiftJis.encodeOut20 = true := by decide +kernel

/-- The lines of row 21 that are not used for encoding. -/
def drops21 : List (Nat × Nat × Nat) := []

theorem drops21_check : everyB (jisDropB rows) drops21 = true := by decide +kernel

theorem decodeIn21 : eqB (rowK jisK row21) Files.ShiftJis.decodeIn21 = true := by decide +kernel

theorem decodeOut21 : eqB (rowK utf8K row21) Files.ShiftJis.decodeOut21 = true := by decide +kernel

theorem encodeIn21 : eqB (rowK utf8K (keepK row21 drops21)) Files.ShiftJis.encodeIn21 = true := by decide +kernel

theorem encodeOut21 : eqB (rowK jisK (keepK row21 drops21)) Files.ShiftJis.encodeOut21 = true := by decide +kernel

/-- The lines of row 22 that are not used for encoding. -/
def drops22 : List (Nat × Nat × Nat) := []

theorem drops22_check : everyB (jisDropB rows) drops22 = true := by decide +kernel

theorem decodeIn22 : eqB (rowK jisK row22) Files.ShiftJis.decodeIn22 = true := by decide +kernel

theorem decodeOut22 : eqB (rowK utf8K row22) Files.ShiftJis.decodeOut22 = true := by decide +kernel

theorem encodeIn22 : eqB (rowK utf8K (keepK row22 drops22)) Files.ShiftJis.encodeIn22 = true := by decide +kernel

theorem encodeOut22 : eqB (rowK jisK (keepK row22 drops22)) Files.ShiftJis.encodeOut22 = true := by decide +kernel

/-- The lines of row 23 that are not used for encoding. -/
def drops23 : List (Nat × Nat × Nat) := []

theorem drops23_check : everyB (jisDropB rows) drops23 = true := by decide +kernel

theorem decodeIn23 : eqB (rowK jisK row23) Files.ShiftJis.decodeIn23 = true := by decide +kernel

theorem decodeOut23 : eqB (rowK utf8K row23) Files.ShiftJis.decodeOut23 = true := by decide +kernel

theorem encodeIn23 : eqB (rowK utf8K (keepK row23 drops23)) Files.ShiftJis.encodeIn23 = true := by decide +kernel

theorem encodeOut23 : eqB (rowK jisK (keepK row23 drops23)) Files.ShiftJis.encodeOut23 = true := by decide +kernel

/-- The lines of row 24 that are not used for encoding. -/
def drops24 : List (Nat × Nat × Nat) := []

theorem drops24_check : everyB (jisDropB rows) drops24 = true := by decide +kernel

theorem decodeIn24 : eqB (rowK jisK row24) Files.ShiftJis.decodeIn24 = true := by decide +kernel

theorem decodeOut24 : eqB (rowK utf8K row24) Files.ShiftJis.decodeOut24 = true := by decide +kernel

theorem encodeIn24 : eqB (rowK utf8K (keepK row24 drops24)) Files.ShiftJis.encodeIn24 = true := by decide +kernel

theorem encodeOut24 : eqB (rowK jisK (keepK row24 drops24)) Files.ShiftJis.encodeOut24 = true := by decide +kernel

/-- The lines of row 25 that are not used for encoding. -/
def drops25 : List (Nat × Nat × Nat) := []

theorem drops25_check : everyB (jisDropB rows) drops25 = true := by decide +kernel

theorem decodeIn25 : eqB (rowK jisK row25) Files.ShiftJis.decodeIn25 = true := by decide +kernel

theorem decodeOut25 : eqB (rowK utf8K row25) Files.ShiftJis.decodeOut25 = true := by decide +kernel

theorem encodeIn25 : eqB (rowK utf8K (keepK row25 drops25)) Files.ShiftJis.encodeIn25 = true := by decide +kernel

theorem encodeOut25 : eqB (rowK jisK (keepK row25 drops25)) Files.ShiftJis.encodeOut25 = true := by decide +kernel

/-- The lines of row 26 that are not used for encoding. -/
def drops26 : List (Nat × Nat × Nat) := []

theorem drops26_check : everyB (jisDropB rows) drops26 = true := by decide +kernel

theorem decodeIn26 : eqB (rowK jisK row26) Files.ShiftJis.decodeIn26 = true := by decide +kernel

theorem decodeOut26 : eqB (rowK utf8K row26) Files.ShiftJis.decodeOut26 = true := by decide +kernel

theorem encodeIn26 : eqB (rowK utf8K (keepK row26 drops26)) Files.ShiftJis.encodeIn26 = true := by decide +kernel

theorem encodeOut26 : eqB (rowK jisK (keepK row26 drops26)) Files.ShiftJis.encodeOut26 = true := by decide +kernel

/-- The lines of row 27 that are not used for encoding. -/
def drops27 : List (Nat × Nat × Nat) := []

theorem drops27_check : everyB (jisDropB rows) drops27 = true := by decide +kernel

theorem decodeIn27 : eqB (rowK jisK row27) Files.ShiftJis.decodeIn27 = true := by decide +kernel

theorem decodeOut27 : eqB (rowK utf8K row27) Files.ShiftJis.decodeOut27 = true := by decide +kernel

theorem encodeIn27 : eqB (rowK utf8K (keepK row27 drops27)) Files.ShiftJis.encodeIn27 = true := by decide +kernel

theorem encodeOut27 : eqB (rowK jisK (keepK row27 drops27)) Files.ShiftJis.encodeOut27 = true := by decide +kernel

/-- The lines of row 28 that are not used for encoding. -/
def drops28 : List (Nat × Nat × Nat) := []

theorem drops28_check : everyB (jisDropB rows) drops28 = true := by decide +kernel

theorem decodeIn28 : eqB (rowK jisK row28) Files.ShiftJis.decodeIn28 = true := by decide +kernel

theorem decodeOut28 : eqB (rowK utf8K row28) Files.ShiftJis.decodeOut28 = true := by decide +kernel

theorem encodeIn28 : eqB (rowK utf8K (keepK row28 drops28)) Files.ShiftJis.encodeIn28 = true := by decide +kernel

theorem encodeOut28 : eqB (rowK jisK (keepK row28 drops28)) Files.ShiftJis.encodeOut28 = true := by decide +kernel

/-- The lines of row 29 that are not used for encoding. -/
def drops29 : List (Nat × Nat × Nat) := []

theorem drops29_check : everyB (jisDropB rows) drops29 = true := by decide +kernel

theorem decodeIn29 : eqB (rowK jisK row29) Files.ShiftJis.decodeIn29 = true := by decide +kernel

theorem decodeOut29 : eqB (rowK utf8K row29) Files.ShiftJis.decodeOut29 = true := by decide +kernel

theorem encodeIn29 : eqB (rowK utf8K (keepK row29 drops29)) Files.ShiftJis.encodeIn29 = true := by decide +kernel

theorem encodeOut29 : eqB (rowK jisK (keepK row29 drops29)) Files.ShiftJis.encodeOut29 = true := by decide +kernel

end Verif.Generator.ShiftJis
