import Verif.Files.Big5.TestData4
import Verif.Proof.DataChecks
import Verif.Spec.Published.Big5

/-! Generated by tools/gen_files.py: the kernel compares the copies with the index. -/

namespace Verif.Generator.Big5

open Spec.Published.Big5

/-- The lines of row 96 that are not used for encoding. -/
def drops96 : List (Nat × Nat × Nat) := []

theorem drops96_check : everyB (big5DropB rows) drops96 = true := by decide +kernel

theorem decodeIn96 : eqB (rowK big5K row96) Files.Big5.decodeIn96 = true := by decide +kernel

theorem decodeOut96 : eqB (rowK utf8K row96) Files.Big5.decodeOut96 = true := by decide +kernel

theorem encodeIn96 : eqB (rowK utf8K (keepK row96 drops96)) Files.Big5.encodeIn96 = true := by decide +kernel

theorem encodeOut96 : eqB (rowK big5K (keepK row96 drops96)) Files.Big5.encodeOut96 = true := by decide +kernel

/-- The lines of row 97 that are not used for encoding. -/
def drops97 : List (Nat × Nat × Nat) := []

theorem drops97_check : everyB (big5DropB rows) drops97 = true := by decide +kernel

theorem decodeIn97 : eqB (rowK big5K row97) Files.Big5.decodeIn97 = true := by decide +kernel

theorem decodeOut97 : eqB (rowK utf8K row97) Files.Big5.decodeOut97 = true := by decide +kernel

theorem encodeIn97 : eqB (rowK utf8K (keepK row97 drops97)) Files.Big5.encodeIn97 = true := by decide +kernel

theorem encodeOut97 : eqB (rowK big5K (keepK row97 drops97)) Files.Big5.encodeOut97 = true := by decide +kernel

/-- The lines of row 98 that are not used for encoding. -/
def drops98 : List (Nat × Nat × Nat) := [(15488, 33960, 2239)]

theorem drops98_check : everyB (big5DropB rows) drops98 = true := by decide +kernel

theorem decodeIn98 : eqB (rowK big5K row98) Files.Big5.decodeIn98 = true := by decide +kernel

theorem decodeOut98 : eqB (rowK utf8K row98) Files.Big5.decodeOut98 = true := by decide +kernel

theorem encodeIn98 : eqB (rowK utf8K (keepK row98 drops98)) Files.Big5.encodeIn98 = true := by decide +kernel

theorem encodeOut98 : eqB (rowK big5K (keepK row98 drops98)) Files.Big5.encodeOut98 = true := by decide +kernel

/-- The lines of row 99 that are not used for encoding. -/
def drops99 : List (Nat × Nat × Nat) := []

theorem drops99_check : everyB (big5DropB rows) drops99 = true := by decide +kernel

theorem decodeIn99 : eqB (rowK big5K row99) Files.Big5.decodeIn99 = true := by decide +kernel

theorem decodeOut99 : eqB (rowK utf8K row99) Files.Big5.decodeOut99 = true := by decide +kernel

theorem encodeIn99 : eqB (rowK utf8K (keepK row99 drops99)) Files.Big5.encodeIn99 = true := by decide +kernel

theorem encodeOut99 : eqB (rowK big5K (keepK row99 drops99)) Files.Big5.encodeOut99 = true := by decide +kernel

/-- The lines of row 100 that are not used for encoding. -/
def drops100 : List (Nat × Nat × Nat) := []

theorem drops100_check : everyB (big5DropB rows) drops100 = true := by decide +kernel

theorem decodeIn100 : eqB (rowK big5K row100) Files.Big5.decodeIn100 = true := by decide +kernel

theorem decodeOut100 : eqB (rowK utf8K row100) Files.Big5.decodeOut100 = true := by decide +kernel

theorem encodeIn100 : eqB (rowK utf8K (keepK row100 drops100)) Files.Big5.encodeIn100 = true := by decide +kernel

theorem encodeOut100 : eqB (rowK big5K (keepK row100 drops100)) Files.Big5.encodeOut100 = true := by decide +kernel

/-- The lines of row 101 that are not used for encoding. -/
def drops101 : List (Nat × Nat × Nat) := [(15930, 29817, 2780), (15967, 31131, 3087)]

theorem drops101_check : everyB (big5DropB rows) drops101 = true := by decide +kernel

theorem decodeIn101 : eqB (rowK big5K row101) Files.Big5.decodeIn101 = true := by decide +kernel

theorem decodeOut101 : eqB (rowK utf8K row101) Files.Big5.decodeOut101 = true := by decide +kernel

theorem encodeIn101 : eqB (rowK utf8K (keepK row101 drops101)) Files.Big5.encodeIn101 = true := by decide +kernel

theorem encodeOut101 : eqB (rowK big5K (keepK row101 drops101)) Files.Big5.encodeOut101 = true := by decide +kernel

/-- The lines of row 102 that are not used for encoding. -/
def drops102 : List (Nat × Nat × Nat) := []

theorem drops102_check : everyB (big5DropB rows) drops102 = true := by decide +kernel

theorem decodeIn102 : eqB (rowK big5K row102) Files.Big5.decodeIn102 = true := by decide +kernel

theorem decodeOut102 : eqB (rowK utf8K row102) Files.Big5.decodeOut102 = true := by decide +kernel

theorem encodeIn102 : eqB (rowK utf8K (keepK row102 drops102)) Files.Big5.encodeIn102 = true := by decide +kernel

theorem encodeOut102 : eqB (rowK big5K (keepK row102 drops102)) Files.Big5.encodeOut102 = true := by decide +kernel

/-- The lines of row 103 that are not used for encoding. -/
def drops103 : List (Nat × Nat × Nat) := [(16278, 39382, 4182)]

theorem drops103_check : everyB (big5DropB rows) drops103 = true := by decide +kernel

theorem decodeIn103 : eqB (rowK big5K row103) Files.Big5.decodeIn103 = true := by decide +kernel

theorem decodeOut103 : eqB (rowK utf8K row103) Files.Big5.decodeOut103 = true := by decide +kernel

theorem encodeIn103 : eqB (rowK utf8K (keepK row103 drops103)) Files.Big5.encodeIn103 = true := by decide +kernel

theorem encodeOut103 : eqB (rowK big5K (keepK row103 drops103)) Files.Big5.encodeOut103 = true := by decide +kernel

/-- The lines of row 104 that are not used for encoding. -/
def drops104 : List (Nat × Nat × Nat) := [(16353, 23336, 3451)]

theorem drops104_check : everyB (big5DropB rows) drops104 = true := by decide +kernel

theorem decodeIn104 : eqB (rowK big5K row104) Files.Big5.decodeIn104 = true := by decide +kernel

theorem decodeOut104 : eqB (rowK utf8K row104) Files.Big5.decodeOut104 = true := by decide +kernel

theorem encodeIn104 : eqB (rowK utf8K (keepK row104 drops104)) Files.Big5.encodeIn104 = true := by decide +kernel

theorem encodeOut104 : eqB (rowK big5K (keepK row104 drops104)) Files.Big5.encodeOut104 = true := by decide +kernel

/-- The lines of row 105 that are not used for encoding. -/
def drops105 : List (Nat × Nat × Nat) := []

theorem drops105_check : everyB (big5DropB rows) drops105 = true := by decide +kernel

theorem decodeIn105 : eqB (rowK big5K row105) Files.Big5.decodeIn105 = true := by decide +kernel

theorem decodeOut105 : eqB (rowK utf8K row105) Files.Big5.decodeOut105 = true := by decide +kernel

theorem encodeIn105 : eqB (rowK utf8K (keepK row105 drops105)) Files.Big5.encodeIn105 = true := by decide +kernel

theorem encodeOut105 : eqB (rowK big5K (keepK row105 drops105)) Files.Big5.encodeOut105 = true := by decide +kernel

/-- The lines of row 106 that are not used for encoding. -/
def drops106 : List (Nat × Nat × Nat) := [(16745, 36662, 4241)]

theorem drops106_check : everyB (big5DropB rows) drops106 = true := by decide +kernel

theorem decodeIn106 : eqB (rowK big5K row106) Files.Big5.decodeIn106 = true := by decide +kernel

theorem decodeOut106 : eqB (rowK utf8K row106) Files.Big5.decodeOut106 = true := by decide +kernel

theorem encodeIn106 : eqB (rowK utf8K (keepK row106 drops106)) Files.Big5.encodeIn106 = true := by decide +kernel

theorem encodeOut106 : eqB (rowK big5K (keepK row106 drops106)) Files.Big5.encodeOut106 = true := by decide +kernel

/-- The lines of row 107 that are not used for encoding. -/
def drops107 : List (Nat × Nat × Nat) := []

theorem drops107_check : everyB (big5DropB rows) drops107 = true := by decide +kernel

theorem decodeIn107 : eqB (rowK big5K row107) Files.Big5.decodeIn107 = true := by decide +kernel

theorem decodeOut107 : eqB (rowK utf8K row107) Files.Big5.decodeOut107 = true := by decide +kernel

theorem encodeIn107 : eqB (rowK utf8K (keepK row107 drops107)) Files.Big5.encodeIn107 = true := by decide +kernel

theorem encodeOut107 : eqB (rowK big5K (keepK row107 drops107)) Files.Big5.encodeOut107 = true := by decide +kernel

/-- The lines of row 108 that are not used for encoding. -/
def drops108 : List (Nat × Nat × Nat) := [(17060, 31750, 2088)]

theorem drops108_check : everyB (big5DropB rows) drops108 = true := by decide +kernel

theorem decodeIn108 : eqB (rowK big5K row108) Files.Big5.decodeIn108 = true := by decide +kernel

theorem decodeOut108 : eqB (rowK utf8K row108) Files.Big5.decodeOut108 = true := by decide +kernel

theorem encodeIn108 : eqB (rowK utf8K (keepK row108 drops108)) Files.Big5.encodeIn108 = true := by decide +kernel

theorem encodeOut108 : eqB (rowK big5K (keepK row108 drops108)) Files.Big5.encodeOut108 = true := by decide +kernel

/-- The lines of row 109 that are not used for encoding. -/
def drops109 : List (Nat × Nat × Nat) := []

theorem drops109_check : everyB (big5DropB rows) drops109 = true := by decide +kernel

theorem decodeIn109 : eqB (rowK big5K row109) Files.Big5.decodeIn109 = true := by decide +kernel

theorem decodeOut109 : eqB (rowK utf8K row109) Files.Big5.decodeOut109 = true := by decide +kernel

theorem encodeIn109 : eqB (rowK utf8K (keepK row109 drops109)) Files.Big5.encodeIn109 = true := by decide +kernel

theorem encodeOut109 : eqB (rowK big5K (keepK row109 drops109)) Files.Big5.encodeOut109 = true := by decide +kernel

/-- The lines of row 110 that are not used for encoding. -/
def drops110 : List (Nat × Nat × Nat) := [(17421, 29185, 4136)]

theorem drops110_check : everyB (big5DropB rows) drops110 = true := by decide +kernel

theorem decodeIn110 : eqB (rowK big5K row110) Files.Big5.decodeIn110 = true := by decide +kernel

theorem decodeOut110 : eqB (rowK utf8K row110) Files.Big5.decodeOut110 = true := by decide +kernel

theorem encodeIn110 : eqB (rowK utf8K (keepK row110 drops110)) Files.Big5.encodeIn110 = true := by decide +kernel

theorem encodeOut110 : eqB (rowK big5K (keepK row110 drops110)) Files.Big5.encodeOut110 = true := by decide +kernel

/-- The lines of row 111 that are not used for encoding. -/
def drops111 : List (Nat × Nat × Nat) := []

theorem drops111_check : everyB (big5DropB rows) drops111 = true := by decide +kernel

theorem decodeIn111 : eqB (rowK big5K row111) Files.Big5.decodeIn111 = true := by decide +kernel

theorem decodeOut111 : eqB (rowK utf8K row111) Files.Big5.decodeOut111 = true := by decide +kernel

theorem encodeIn111 : eqB (rowK utf8K (keepK row111 drops111)) Files.Big5.encodeIn111 = true := by decide +kernel

theorem encodeOut111 : eqB (rowK big5K (keepK row111 drops111)) Files.Big5.encodeOut111 = true := by decide +kernel

/-- The lines of row 112 that are not used for encoding. -/
def drops112 : List (Nat × Nat × Nat) := [(17713, 40726, 2605)]

theorem drops112_check : everyB (big5DropB rows) drops112 = true := by decide +kernel

theorem decodeIn112 : eqB (rowK big5K row112) Files.Big5.decodeIn112 = true := by decide +kernel

theorem decodeOut112 : eqB (rowK utf8K row112) Files.Big5.decodeOut112 = true := by decide +kernel

theorem encodeIn112 : eqB (rowK utf8K (keepK row112 drops112)) Files.Big5.encodeIn112 = true := by decide +kernel

theorem encodeOut112 : eqB (rowK big5K (keepK row112 drops112)) Files.Big5.encodeOut112 = true := by decide +kernel

/-- The lines of row 113 that are not used for encoding. -/
def drops113 : List (Nat × Nat × Nat) := []

theorem drops113_check : everyB (big5DropB rows) drops113 = true := by decide +kernel

theorem decodeIn113 : eqB (rowK big5K row113) Files.Big5.decodeIn113 = true := by decide +kernel

theorem decodeOut113 : eqB (rowK utf8K row113) Files.Big5.decodeOut113 = true := by decide +kernel

theorem encodeIn113 : eqB (rowK utf8K (keepK row113 drops113)) Files.Big5.encodeIn113 = true := by decide +kernel

theorem encodeOut113 : eqB (rowK big5K (keepK row113 drops113)) Files.Big5.encodeOut113 = true := by decide +kernel

/-- The lines of row 114 that are not used for encoding. -/
def drops114 : List (Nat × Nat × Nat) := []

theorem drops114_check : everyB (big5DropB rows) drops114 = true := by decide +kernel

theorem decodeIn114 : eqB (rowK big5K row114) Files.Big5.decodeIn114 = true := by decide +kernel

theorem decodeOut114 : eqB (rowK utf8K row114) Files.Big5.decodeOut114 = true := by decide +kernel

theorem encodeIn114 : eqB (rowK utf8K (keepK row114 drops114)) Files.Big5.encodeIn114 = true := by decide +kernel

theorem encodeOut114 : eqB (rowK big5K (keepK row114 drops114)) Files.Big5.encodeOut114 = true := by decide +kernel

/-- The lines of row 115 that are not used for encoding. -/
def drops115 : List (Nat × Nat × Nat) := []

theorem drops115_check : everyB (big5DropB rows) drops115 = true := by decide +kernel

theorem decodeIn115 : eqB (rowK big5K row115) Files.Big5.decodeIn115 = true := by decide +kernel

theorem decodeOut115 : eqB (rowK utf8K row115) Files.Big5.decodeOut115 = true := by decide +kernel

theorem encodeIn115 : eqB (rowK utf8K (keepK row115 drops115)) Files.Big5.encodeIn115 = true := by decide +kernel

theorem encodeOut115 : eqB (rowK big5K (keepK row115 drops115)) Files.Big5.encodeOut115 = true := by decide +kernel

/-- The lines of row 116 that are not used for encoding. -/
def drops116 : List (Nat × Nat × Nat) := [(18346, 32391, 4141)]

theorem drops116_check : everyB (big5DropB rows) drops116 = true := by decide +kernel

theorem decodeIn116 : eqB (rowK big5K row116) Files.Big5.decodeIn116 = true := by decide +kernel

theorem decodeOut116 : eqB (rowK utf8K row116) Files.Big5.decodeOut116 = true := by decide +kernel

theorem encodeIn116 : eqB (rowK utf8K (keepK row116 drops116)) Files.Big5.encodeIn116 = true := by decide +kernel

theorem encodeOut116 : eqB (rowK big5K (keepK row116 drops116)) Files.Big5.encodeOut116 = true := by decide +kernel

/-- The lines of row 117 that are not used for encoding. -/
def drops117 : List (Nat × Nat × Nat) := []

theorem drops117_check : everyB (big5DropB rows) drops117 = true := by decide +kernel

theorem decodeIn117 : eqB (rowK big5K row117) Files.Big5.decodeIn117 = true := by decide +kernel

theorem decodeOut117 : eqB (rowK utf8K row117) Files.Big5.decodeOut117 = true := by decide +kernel

theorem encodeIn117 : eqB (rowK utf8K (keepK row117 drops117)) Files.Big5.encodeIn117 = true := by decide +kernel

theorem encodeOut117 : eqB (rowK big5K (keepK row117 drops117)) Files.Big5.encodeOut117 = true := by decide +kernel

/-- The lines of row 118 that are not used for encoding. -/
def drops118 : List (Nat × Nat × Nat) := []

theorem drops118_check : everyB (big5DropB rows) drops118 = true := by decide +kernel

theorem decodeIn118 : eqB (rowK big5K row118) Files.Big5.decodeIn118 = true := by decide +kernel

theorem decodeOut118 : eqB (rowK utf8K row118) Files.Big5.decodeOut118 = true := by decide +kernel

theorem encodeIn118 : eqB (rowK utf8K (keepK row118 drops118)) Files.Big5.encodeIn118 = true := by decide +kernel

theorem encodeOut118 : eqB (rowK big5K (keepK row118 drops118)) Files.Big5.encodeOut118 = true := by decide +kernel

/-- The lines of row 119 that are not used for encoding. -/
def drops119 : List (Nat × Nat × Nat) := [(18728, 40432, 4282)]

theorem drops119_check : everyB (big5DropB rows) drops119 = true := by decide +kernel

theorem decodeIn119 : eqB (rowK big5K row119) Files.Big5.decodeIn119 = true := by decide +kernel

theorem decodeOut119 : eqB (rowK utf8K row119) Files.Big5.decodeOut119 = true := by decide +kernel

theorem encodeIn119 : eqB (rowK utf8K (keepK row119 drops119)) Files.Big5.encodeIn119 = true := by decide +kernel

theorem encodeOut119 : eqB (rowK big5K (keepK row119 drops119)) Files.Big5.encodeOut119 = true := by decide +kernel

/-- The lines of row 120 that are not used for encoding. -/
def drops120 : List (Nat × Nat × Nat) := [(18938, 39726, 4742), (18957, 37561, 2413), (18992, 9581, 5243), (18993, 9582, 5244), (18994, 9584, 5245), (18995, 9583, 5246)]

theorem drops120_check : everyB (big5DropB rows) drops120 = true := by decide +kernel

theorem decodeIn120 : eqB (rowK big5K row120) Files.Big5.decodeIn120 = true := by decide +kernel

theorem decodeOut120 : eqB (rowK utf8K row120) Files.Big5.decodeOut120 = true := by decide +kernel

theorem encodeIn120 : eqB (rowK utf8K (keepK row120 drops120)) Files.Big5.encodeIn120 = true := by decide +kernel

theorem encodeOut120 : eqB (rowK big5K (keepK row120 drops120)) Files.Big5.encodeOut120 = true := by decide +kernel

/-- The lines of row 121 that are not used for encoding. -/
def drops121 : List (Nat × Nat × Nat) := [(19028, 20521, 7007), (19035, 20605, 7457), (19088, 21253, 5681), (19096, 21316, 5288), (19112, 21375, 7045)]

theorem drops121_check : everyB (big5DropB rows) drops121 = true := by decide +kernel

theorem decodeIn121 : eqB (rowK big5K row121) Files.Big5.decodeIn121 = true := by decide +kernel

theorem decodeOut121 : eqB (rowK utf8K row121) Files.Big5.decodeOut121 = true := by decide +kernel

theorem encodeIn121 : eqB (rowK utf8K (keepK row121 drops121)) Files.Big5.encodeIn121 = true := by decide +kernel

theorem encodeOut121 : eqB (rowK big5K (keepK row121 drops121)) Files.Big5.encodeOut121 = true := by decide +kernel

/-- The lines of row 122 that are not used for encoding. -/
def drops122 : List (Nat × Nat × Nat) := [(19162, 22021, 4537), (19240, 23159, 8007), (19299, 24181, 11425), (19305, 24272, 4549), (19309, 24308, 10942)]

theorem drops122_check : everyB (big5DropB rows) drops122 = true := by decide +kernel

theorem decodeIn122 : eqB (rowK big5K row122) Files.Big5.decodeIn122 = true := by decide +kernel

theorem decodeOut122 : eqB (rowK utf8K row122) Files.Big5.decodeOut122 = true := by decide +kernel

theorem encodeIn122 : eqB (rowK utf8K (keepK row122 drops122)) Files.Big5.encodeIn122 = true := by decide +kernel

theorem encodeOut122 : eqB (rowK big5K (keepK row122 drops122)) Files.Big5.encodeOut122 = true := by decide +kernel

/-- The lines of row 123 that are not used for encoding. -/
def drops123 : List (Nat × Nat × Nat) := [(19326, 24408, 13805), (19355, 24740, 4989), (19398, 25744, 9346), (19424, 26080, 10946), (19439, 26228, 8093), (19454, 26462, 6119)]

theorem drops123_check : everyB (big5DropB rows) drops123 = true := by decide +kernel

theorem decodeIn123 : eqB (rowK big5K row123) Files.Big5.decodeIn123 = true := by decide +kernel

theorem decodeOut123 : eqB (rowK utf8K row123) Files.Big5.decodeOut123 = true := by decide +kernel

theorem encodeIn123 : eqB (rowK utf8K (keepK row123 drops123)) Files.Big5.encodeIn123 = true := by decide +kernel

theorem encodeOut123 : eqB (rowK big5K (keepK row123 drops123)) Files.Big5.encodeOut123 = true := by decide +kernel

/-- The lines of row 124 that are not used for encoding. -/
def drops124 : List (Nat × Nat × Nat) := [(19504, 24798, 4220), (19553, 27804, 11642), (19554, 28189, 8161), (19557, 28207, 8137), (19611, 29038, 8178)]

theorem drops124_check : everyB (big5DropB rows) drops124 = true := by decide +kernel

theorem decodeIn124 : eqB (rowK big5K row124) Files.Big5.decodeIn124 = true := by decide +kernel

theorem decodeOut124 : eqB (rowK utf8K row124) Files.Big5.decodeOut124 = true := by decide +kernel

theorem encodeIn124 : eqB (rowK utf8K (keepK row124 drops124)) Files.Big5.encodeIn124 = true := by decide +kernel

theorem encodeOut124 : eqB (rowK big5K (keepK row124 drops124)) Files.Big5.encodeOut124 = true := by decide +kernel

/-- The lines of row 125 that are not used for encoding. -/
def drops125 : List (Nat × Nat × Nat) := [(19643, 29482, 3821), (19672, 29788, 8616), (19697, 29929, 5213), (19720, 30326, 10948), (19748, 30729, 12389)]

theorem drops125_check : everyB (big5DropB rows) drops125 = true := by decide +kernel

theorem decodeIn125 : eqB (rowK big5K row125) Files.Big5.decodeIn125 = true := by decide +kernel

theorem decodeOut125 : eqB (rowK utf8K row125) Files.Big5.decodeOut125 = true := by decide +kernel

theorem encodeIn125 : eqB (rowK utf8K (keepK row125 drops125)) Files.Big5.encodeIn125 = true := by decide +kernel

theorem encodeOut125 : eqB (rowK big5K (keepK row125 drops125)) Files.Big5.encodeOut125 = true := by decide +kernel

end Verif.Generator.Big5
