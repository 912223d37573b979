import Verif.Files.Big5.TestData3
import Verif.Proof.DataChecks
import Verif.Spec.Published.Big5

/-! Generated by tools/gen_files.py: the kernel compares the copies with the index. -/

namespace Verif.Generator.Big5

open Spec.Published.Big5

/-- The lines of row 64 that are not used for encoding. -/
def drops64 : List (Nat × Nat × Nat) := []

theorem drops64_check : everyB (big5DropB rows) drops64 = true := by decide +kernel

theorem decodeIn64 : eqB (rowK big5K row64) Files.Big5.decodeIn64 = true := by decide +kernel

theorem decodeOut64 : eqB (rowK utf8K row64) Files.Big5.decodeOut64 = true := by decide +kernel

theorem encodeIn64 : eqB (rowK utf8K (keepK row64 drops64)) Files.Big5.encodeIn64 = true := by decide +kernel

theorem encodeOut64 : eqB (rowK big5K (keepK row64 drops64)) Files.Big5.encodeOut64 = true := by decide +kernel

/-- The lines of row 65 that are not used for encoding. -/
def drops65 : List (Nat × Nat × Nat) := []

theorem drops65_check : everyB (big5DropB rows) drops65 = true := by decide +kernel

theorem decodeIn65 : eqB (rowK big5K row65) Files.Big5.decodeIn65 = true := by decide +kernel

theorem decodeOut65 : eqB (rowK utf8K row65) Files.Big5.decodeOut65 = true := by decide +kernel

theorem encodeIn65 : eqB (rowK utf8K (keepK row65 drops65)) Files.Big5.encodeIn65 = true := by decide +kernel

theorem encodeOut65 : eqB (rowK big5K (keepK row65 drops65)) Files.Big5.encodeOut65 = true := by decide +kernel

/-- The lines of row 66 that are not used for encoding. -/
def drops66 : List (Nat × Nat × Nat) := []

theorem drops66_check : everyB (big5DropB rows) drops66 = true := by decide +kernel

theorem decodeIn66 : eqB (rowK big5K row66) Files.Big5.decodeIn66 = true := by decide +kernel

theorem decodeOut66 : eqB (rowK utf8K row66) Files.Big5.decodeOut66 = true := by decide +kernel

theorem encodeIn66 : eqB (rowK utf8K (keepK row66 drops66)) Files.Big5.encodeIn66 = true := by decide +kernel

theorem encodeOut66 : eqB (rowK big5K (keepK row66 drops66)) Files.Big5.encodeOut66 = true := by decide +kernel

/-- The lines of row 67 that are not used for encoding. -/
def drops67 : List (Nat × Nat × Nat) := []

theorem drops67_check : everyB (big5DropB rows) drops67 = true := by decide +kernel

theorem decodeIn67 : eqB (rowK big5K row67) Files.Big5.decodeIn67 = true := by decide +kernel

theorem decodeOut67 : eqB (rowK utf8K row67) Files.Big5.decodeOut67 = true := by decide +kernel

theorem encodeIn67 : eqB (rowK utf8K (keepK row67 drops67)) Files.Big5.encodeIn67 = true := by decide +kernel

theorem encodeOut67 : eqB (rowK big5K (keepK row67 drops67)) Files.Big5.encodeOut67 = true := by decide +kernel

/-- The lines of row 68 that are not used for encoding. -/
def drops68 : List (Nat × Nat × Nat) := [(10696, 38911, 2498), (10825, 30679, 4138)]

theorem drops68_check : everyB (big5DropB rows) drops68 = true := by decide +kernel

theorem decodeIn68 : eqB (rowK big5K row68) Files.Big5.decodeIn68 = true := by decide +kernel

theorem decodeOut68 : eqB (rowK utf8K row68) Files.Big5.decodeOut68 = true := by decide +kernel

theorem encodeIn68 : eqB (rowK utf8K (keepK row68 drops68)) Files.Big5.encodeIn68 = true := by decide +kernel

theorem encodeOut68 : eqB (rowK big5K (keepK row68 drops68)) Files.Big5.encodeOut68 = true := by decide +kernel

/-- The lines of row 69 that are not used for encoding. -/
def drops69 : List (Nat × Nat × Nat) := [(10950, 38582, 2453), (10957, 12291, 5104)]

theorem drops69_check : everyB (big5DropB rows) drops69 = true := by decide +kernel

theorem decodeIn69 : eqB (rowK big5K row69) Files.Big5.decodeIn69 = true := by decide +kernel

theorem decodeOut69 : eqB (rowK utf8K row69) Files.Big5.decodeOut69 = true := by decide +kernel

theorem encodeIn69 : eqB (rowK utf8K (keepK row69 drops69)) Files.Big5.encodeIn69 = true := by decide +kernel

theorem encodeOut69 : eqB (rowK big5K (keepK row69 drops69)) Files.Big5.encodeOut69 = true := by decide +kernel

/-- The lines of row 70 that are not used for encoding. -/
def drops70 : List (Nat × Nat × Nat) := []

theorem drops70_check : everyB (big5DropB rows) drops70 = true := by decide +kernel

theorem decodeIn70 : eqB (rowK big5K row70) Files.Big5.decodeIn70 = true := by decide +kernel

theorem decodeOut70 : eqB (rowK utf8K row70) Files.Big5.decodeOut70 = true := by decide +kernel

theorem encodeIn70 : eqB (rowK utf8K (keepK row70 drops70)) Files.Big5.encodeIn70 = true := by decide +kernel

theorem encodeOut70 : eqB (rowK big5K (keepK row70 drops70)) Files.Big5.encodeOut70 = true := by decide +kernel

/-- The lines of row 71 that are not used for encoding. -/
def drops71 : List (Nat × Nat × Nat) := []

theorem drops71_check : everyB (big5DropB rows) drops71 = true := by decide +kernel

theorem decodeIn71 : eqB (rowK big5K row71) Files.Big5.decodeIn71 = true := by decide +kernel

theorem decodeOut71 : eqB (rowK utf8K row71) Files.Big5.decodeOut71 = true := by decide +kernel

theorem encodeIn71 : eqB (rowK utf8K (keepK row71 drops71)) Files.Big5.encodeIn71 = true := by decide +kernel

theorem encodeOut71 : eqB (rowK big5K (keepK row71 drops71)) Files.Big5.encodeOut71 = true := by decide +kernel

/-- The lines of row 72 that are not used for encoding. -/
def drops72 : List (Nat × Nat × Nat) := [(11332, 23568, 4329), (11345, 20189, 10958), (11458, 27722, 4708)]

theorem drops72_check : everyB (big5DropB rows) drops72 = true := by decide +kernel

theorem decodeIn72 : eqB (rowK big5K row72) Files.Big5.decodeIn72 = true := by decide +kernel

theorem decodeOut72 : eqB (rowK utf8K row72) Files.Big5.decodeOut72 = true := by decide +kernel

theorem encodeIn72 : eqB (rowK utf8K (keepK row72 drops72)) Files.Big5.encodeIn72 = true := by decide +kernel

theorem encodeOut72 : eqB (rowK big5K (keepK row72 drops72)) Files.Big5.encodeOut72 = true := by decide +kernel

/-- The lines of row 73 that are not used for encoding. -/
def drops73 : List (Nat × Nat × Nat) := [(11479, 37015, 3259)]

theorem drops73_check : everyB (big5DropB rows) drops73 = true := by decide +kernel

theorem decodeIn73 : eqB (rowK big5K row73) Files.Big5.decodeIn73 = true := by decide +kernel

theorem decodeOut73 : eqB (rowK utf8K row73) Files.Big5.decodeOut73 = true := by decide +kernel

theorem encodeIn73 : eqB (rowK utf8K (keepK row73 drops73)) Files.Big5.encodeIn73 = true := by decide +kernel

theorem encodeOut73 : eqB (rowK big5K (keepK row73 drops73)) Files.Big5.encodeOut73 = true := by decide +kernel

/-- The lines of row 74 that are not used for encoding. -/
def drops74 : List (Nat × Nat × Nat) := []

theorem drops74_check : everyB (big5DropB rows) drops74 = true := by decide +kernel

theorem decodeIn74 : eqB (rowK big5K row74) Files.Big5.decodeIn74 = true := by decide +kernel

theorem decodeOut74 : eqB (rowK utf8K row74) Files.Big5.decodeOut74 = true := by decide +kernel

theorem encodeIn74 : eqB (rowK utf8K (keepK row74 drops74)) Files.Big5.encodeIn74 = true := by decide +kernel

theorem encodeOut74 : eqB (rowK big5K (keepK row74 drops74)) Files.Big5.encodeOut74 = true := by decide +kernel

/-- The lines of row 75 that are not used for encoding. -/
def drops75 : List (Nat × Nat × Nat) := []

theorem drops75_check : everyB (big5DropB rows) drops75 = true := by decide +kernel

theorem decodeIn75 : eqB (rowK big5K row75) Files.Big5.decodeIn75 = true := by decide +kernel

theorem decodeOut75 : eqB (rowK utf8K row75) Files.Big5.decodeOut75 = true := by decide +kernel

theorem encodeIn75 : eqB (rowK utf8K (keepK row75 drops75)) Files.Big5.encodeIn75 = true := by decide +kernel

theorem encodeOut75 : eqB (rowK big5K (keepK row75 drops75)) Files.Big5.encodeOut75 = true := by decide +kernel

/-- The lines of row 76 that are not used for encoding. -/
def drops76 : List (Nat × Nat × Nat) := [(12065, 20411, 4258)]

theorem drops76_check : everyB (big5DropB rows) drops76 = true := by decide +kernel

theorem decodeIn76 : eqB (rowK big5K row76) Files.Big5.decodeIn76 = true := by decide +kernel

theorem decodeOut76 : eqB (rowK utf8K row76) Files.Big5.decodeOut76 = true := by decide +kernel

theorem encodeIn76 : eqB (rowK utf8K (keepK row76 drops76)) Files.Big5.encodeIn76 = true := by decide +kernel

theorem encodeOut76 : eqB (rowK big5K (keepK row76 drops76)) Files.Big5.encodeOut76 = true := by decide +kernel

/-- The lines of row 77 that are not used for encoding. -/
def drops77 : List (Nat × Nat × Nat) := []

theorem drops77_check : everyB (big5DropB rows) drops77 = true := by decide +kernel

theorem decodeIn77 : eqB (rowK big5K row77) Files.Big5.decodeIn77 = true := by decide +kernel

theorem decodeOut77 : eqB (rowK utf8K row77) Files.Big5.decodeOut77 = true := by decide +kernel

theorem encodeIn77 : eqB (rowK utf8K (keepK row77 drops77)) Files.Big5.encodeIn77 = true := by decide +kernel

theorem encodeOut77 : eqB (rowK big5K (keepK row77 drops77)) Files.Big5.encodeOut77 = true := by decide +kernel

/-- The lines of row 78 that are not used for encoding. -/
def drops78 : List (Nat × Nat × Nat) := []

theorem drops78_check : everyB (big5DropB rows) drops78 = true := by decide +kernel

theorem decodeIn78 : eqB (rowK big5K row78) Files.Big5.decodeIn78 = true := by decide +kernel

theorem decodeOut78 : eqB (rowK utf8K row78) Files.Big5.decodeOut78 = true := by decide +kernel

theorem encodeIn78 : eqB (rowK utf8K (keepK row78 drops78)) Files.Big5.encodeIn78 = true := by decide +kernel

theorem encodeOut78 : eqB (rowK big5K (keepK row78 drops78)) Files.Big5.encodeOut78 = true := by decide +kernel

/-- The lines of row 79 that are not used for encoding. -/
def drops79 : List (Nat × Nat × Nat) := [(12497, 37332, 4206)]

theorem drops79_check : everyB (big5DropB rows) drops79 = true := by decide +kernel

theorem decodeIn79 : eqB (rowK big5K row79) Files.Big5.decodeIn79 = true := by decide +kernel

theorem decodeOut79 : eqB (rowK utf8K row79) Files.Big5.decodeOut79 = true := by decide +kernel

theorem encodeIn79 : eqB (rowK utf8K (keepK row79 drops79)) Files.Big5.encodeIn79 = true := by decide +kernel

theorem encodeOut79 : eqB (rowK big5K (keepK row79 drops79)) Files.Big5.encodeOut79 = true := by decide +kernel

/-- The lines of row 80 that are not used for encoding. -/
def drops80 : List (Nat × Nat × Nat) := []

theorem drops80_check : everyB (big5DropB rows) drops80 = true := by decide +kernel

theorem decodeIn80 : eqB (rowK big5K row80) Files.Big5.decodeIn80 = true := by decide +kernel

theorem decodeOut80 : eqB (rowK utf8K row80) Files.Big5.decodeOut80 = true := by decide +kernel

theorem encodeIn80 : eqB (rowK utf8K (keepK row80 drops80)) Files.Big5.encodeIn80 = true := by decide +kernel

theorem encodeOut80 : eqB (rowK big5K (keepK row80 drops80)) Files.Big5.encodeOut80 = true := by decide +kernel

/-- The lines of row 81 that are not used for encoding. -/
def drops81 : List (Nat × Nat × Nat) := [(12739, 28007, 2990)]

theorem drops81_check : everyB (big5DropB rows) drops81 = true := by decide +kernel

theorem decodeIn81 : eqB (rowK big5K row81) Files.Big5.decodeIn81 = true := by decide +kernel

theorem decodeOut81 : eqB (rowK utf8K row81) Files.Big5.decodeOut81 = true := by decide +kernel

theorem encodeIn81 : eqB (rowK utf8K (keepK row81 drops81)) Files.Big5.encodeIn81 = true := by decide +kernel

theorem encodeOut81 : eqB (rowK big5K (keepK row81 drops81)) Files.Big5.encodeOut81 = true := by decide +kernel

/-- The lines of row 82 that are not used for encoding. -/
def drops82 : List (Nat × Nat × Nat) := []

theorem drops82_check : everyB (big5DropB rows) drops82 = true := by decide +kernel

theorem decodeIn82 : eqB (rowK big5K row82) Files.Big5.decodeIn82 = true := by decide +kernel

theorem decodeOut82 : eqB (rowK utf8K row82) Files.Big5.decodeOut82 = true := by decide +kernel

theorem encodeIn82 : eqB (rowK utf8K (keepK row82 drops82)) Files.Big5.encodeIn82 = true := by decide +kernel

theorem encodeOut82 : eqB (rowK big5K (keepK row82 drops82)) Files.Big5.encodeOut82 = true := by decide +kernel

/-- The lines of row 83 that are not used for encoding. -/
def drops83 : List (Nat × Nat × Nat) := [(13142, 23143, 4349)]

theorem drops83_check : everyB (big5DropB rows) drops83 = true := by decide +kernel

theorem decodeIn83 : eqB (rowK big5K row83) Files.Big5.decodeIn83 = true := by decide +kernel

theorem decodeOut83 : eqB (rowK utf8K row83) Files.Big5.decodeOut83 = true := by decide +kernel

theorem encodeIn83 : eqB (rowK utf8K (keepK row83 drops83)) Files.Big5.encodeIn83 = true := by decide +kernel

theorem encodeOut83 : eqB (rowK big5K (keepK row83 drops83)) Files.Big5.encodeOut83 = true := by decide +kernel

/-- The lines of row 84 that are not used for encoding. -/
def drops84 : List (Nat × Nat × Nat) := []

theorem drops84_check : everyB (big5DropB rows) drops84 = true := by decide +kernel

theorem decodeIn84 : eqB (rowK big5K row84) Files.Big5.decodeIn84 = true := by decide +kernel

theorem decodeOut84 : eqB (rowK utf8K row84) Files.Big5.decodeOut84 = true := by decide +kernel

theorem encodeIn84 : eqB (rowK utf8K (keepK row84 drops84)) Files.Big5.encodeIn84 = true := by decide +kernel

theorem encodeOut84 : eqB (rowK big5K (keepK row84 drops84)) Files.Big5.encodeOut84 = true := by decide +kernel

/-- The lines of row 85 that are not used for encoding. -/
def drops85 : List (Nat × Nat × Nat) := []

theorem drops85_check : everyB (big5DropB rows) drops85 = true := by decide +kernel

theorem decodeIn85 : eqB (rowK big5K row85) Files.Big5.decodeIn85 = true := by decide +kernel

theorem decodeOut85 : eqB (rowK utf8K row85) Files.Big5.decodeOut85 = true := by decide +kernel

theorem encodeIn85 : eqB (rowK utf8K (keepK row85 drops85)) Files.Big5.encodeIn85 = true := by decide +kernel

theorem encodeOut85 : eqB (rowK big5K (keepK row85 drops85)) Files.Big5.encodeOut85 = true := by decide +kernel

/-- The lines of row 86 that are not used for encoding. -/
def drops86 : List (Nat × Nat × Nat) := []

theorem drops86_check : everyB (big5DropB rows) drops86 = true := by decide +kernel

theorem decodeIn86 : eqB (rowK big5K row86) Files.Big5.decodeIn86 = true := by decide +kernel

theorem decodeOut86 : eqB (rowK utf8K row86) Files.Big5.decodeOut86 = true := by decide +kernel

theorem encodeIn86 : eqB (rowK utf8K (keepK row86 drops86)) Files.Big5.encodeIn86 = true := by decide +kernel

theorem encodeOut86 : eqB (rowK big5K (keepK row86 drops86)) Files.Big5.encodeOut86 = true := by decide +kernel

/-- The lines of row 87 that are not used for encoding. -/
def drops87 : List (Nat × Nat × Nat) := []

theorem drops87_check : everyB (big5DropB rows) drops87 = true := by decide +kernel

theorem decodeIn87 : eqB (rowK big5K row87) Files.Big5.decodeIn87 = true := by decide +kernel

theorem decodeOut87 : eqB (rowK utf8K row87) Files.Big5.decodeOut87 = true := by decide +kernel

theorem encodeIn87 : eqB (rowK utf8K (keepK row87 drops87)) Files.Big5.encodeIn87 = true := by decide +kernel

theorem encodeOut87 : eqB (rowK big5K (keepK row87 drops87)) Files.Big5.encodeOut87 = true := by decide +kernel

/-- The lines of row 88 that are not used for encoding. -/
def drops88 : List (Nat × Nat × Nat) := []

theorem drops88_check : everyB (big5DropB rows) drops88 = true := by decide +kernel

theorem decodeIn88 : eqB (rowK big5K row88) Files.Big5.decodeIn88 = true := by decide +kernel

theorem decodeOut88 : eqB (rowK utf8K row88) Files.Big5.decodeOut88 = true := by decide +kernel

theorem encodeIn88 : eqB (rowK utf8K (keepK row88 drops88)) Files.Big5.encodeIn88 = true := by decide +kernel

theorem encodeOut88 : eqB (rowK big5K (keepK row88 drops88)) Files.Big5.encodeOut88 = true := by decide +kernel

/-- The lines of row 89 that are not used for encoding. -/
def drops89 : List (Nat × Nat × Nat) := []

theorem drops89_check : everyB (big5DropB rows) drops89 = true := by decide +kernel

theorem decodeIn89 : eqB (rowK big5K row89) Files.Big5.decodeIn89 = true := by decide +kernel

theorem decodeOut89 : eqB (rowK utf8K row89) Files.Big5.decodeOut89 = true := by decide +kernel

theorem encodeIn89 : eqB (rowK utf8K (keepK row89 drops89)) Files.Big5.encodeIn89 = true := by decide +kernel

theorem encodeOut89 : eqB (rowK big5K (keepK row89 drops89)) Files.Big5.encodeOut89 = true := by decide +kernel

/-- The lines of row 90 that are not used for encoding. -/
def drops90 : List (Nat × Nat × Nat) := [(14159, 33743, 4294), (14187, 33807, 2244)]

theorem drops90_check : everyB (big5DropB rows) drops90 = true := by decide +kernel

theorem decodeIn90 : eqB (rowK big5K row90) Files.Big5.decodeIn90 = true := by decide +kernel

theorem decodeOut90 : eqB (rowK utf8K row90) Files.Big5.decodeOut90 = true := by decide +kernel

theorem encodeIn90 : eqB (rowK utf8K (keepK row90 drops90)) Files.Big5.encodeIn90 = true := by decide +kernel

theorem encodeOut90 : eqB (rowK big5K (keepK row90 drops90)) Files.Big5.encodeOut90 = true := by decide +kernel

/-- The lines of row 91 that are not used for encoding. -/
def drops91 : List (Nat × Nat × Nat) := [(14305, 37124, 4279)]

theorem drops91_check : everyB (big5DropB rows) drops91 = true := by decide +kernel

theorem decodeIn91 : eqB (rowK big5K row91) Files.Big5.decodeIn91 = true := by decide +kernel

theorem decodeOut91 : eqB (rowK utf8K row91) Files.Big5.decodeOut91 = true := by decide +kernel

theorem encodeIn91 : eqB (rowK utf8K (keepK row91 drops91)) Files.Big5.encodeIn91 = true := by decide +kernel

theorem encodeOut91 : eqB (rowK big5K (keepK row91 drops91)) Files.Big5.encodeOut91 = true := by decide +kernel

/-- The lines of row 92 that are not used for encoding. -/
def drops92 : List (Nat × Nat × Nat) := []

theorem drops92_check : everyB (big5DropB rows) drops92 = true := by decide +kernel

theorem decodeIn92 : eqB (rowK big5K row92) Files.Big5.decodeIn92 = true := by decide +kernel

theorem decodeOut92 : eqB (rowK utf8K row92) Files.Big5.decodeOut92 = true := by decide +kernel

theorem encodeIn92 : eqB (rowK utf8K (keepK row92 drops92)) Files.Big5.encodeIn92 = true := by decide +kernel

theorem encodeOut92 : eqB (rowK big5K (keepK row92 drops92)) Files.Big5.encodeOut92 = true := by decide +kernel

/-- The lines of row 93 that are not used for encoding. -/
def drops93 : List (Nat × Nat × Nat) := [(14651, 29026, 4992), (14708, 30201, 4694)]

theorem drops93_check : everyB (big5DropB rows) drops93 = true := by decide +kernel

theorem decodeIn93 : eqB (rowK big5K row93) Files.Big5.decodeIn93 = true := by decide +kernel

theorem decodeOut93 : eqB (rowK utf8K row93) Files.Big5.decodeOut93 = true := by decide +kernel

theorem encodeIn93 : eqB (rowK utf8K (keepK row93 drops93)) Files.Big5.encodeIn93 = true := by decide +kernel

theorem encodeOut93 : eqB (rowK big5K (keepK row93 drops93)) Files.Big5.encodeOut93 = true := by decide +kernel

/-- The lines of row 94 that are not used for encoding. -/
def drops94 : List (Nat × Nat × Nat) := []

theorem drops94_check : everyB (big5DropB rows) drops94 = true := by decide +kernel

theorem decodeIn94 : eqB (rowK big5K row94) Files.Big5.decodeIn94 = true := by decide +kernel

theorem decodeOut94 : eqB (rowK utf8K row94) Files.Big5.decodeOut94 = true := by decide +kernel

theorem encodeIn94 : eqB (rowK utf8K (keepK row94 drops94)) Files.Big5.encodeIn94 = true := by decide +kernel

theorem encodeOut94 : eqB (rowK big5K (keepK row94 drops94)) Files.Big5.encodeOut94 = true := by decide +kernel

/-- The lines of row 95 that are not used for encoding. -/
def drops95 : List (Nat × Nat × Nat) := [(14975, 36619, 4419)]

theorem drops95_check : everyB (big5DropB rows) drops95 = true := by decide +kernel

theorem decodeIn95 : eqB (rowK big5K row95) Files.Big5.decodeIn95 = true := by decide +kernel

theorem decodeOut95 : eqB (rowK utf8K row95) Files.Big5.decodeOut95 = true := by decide +kernel

theorem encodeIn95 : eqB (rowK utf8K (keepK row95 drops95)) Files.Big5.encodeIn95 = true := by decide +kernel

theorem encodeOut95 : eqB (rowK big5K (keepK row95 drops95)) Files.Big5.encodeOut95 = true := by decide +kernel

end Verif.Generator.Big5
