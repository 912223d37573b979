import Verif.Files.Big5.TestData2
import Verif.Proof.DataChecks
import Verif.Spec.Published.Big5

/-! Generated by tools/gen_files.py: the kernel compares the copies with the index. -/

namespace Verif.Generator.Big5

open Spec.Published.Big5

/-- The lines of row 32 that are not used for encoding. -/
def drops32 : List (Nat × Nat × Nat) := []

theorem drops32_check : everyB (big5DropB rows) drops32 = true := by decide +kernel

theorem decodeIn32 : eqB (rowK big5K row32) Files.Big5.decodeIn32 = true := by decide +kernel

theorem decodeOut32 : eqB (rowK utf8K row32) Files.Big5.decodeOut32 = true := by decide +kernel

theorem encodeIn32 : eqB (rowK utf8K (keepK row32 drops32)) Files.Big5.encodeIn32 = true := by decide +kernel

theorem encodeOut32 : eqB (rowK big5K (keepK row32 drops32)) Files.Big5.encodeOut32 = true := by decide +kernel

/-- The lines of row 33 that are not used for encoding. -/
def drops33 : List (Nat × Nat × Nat) := [(5206, 20825, 2746), (5207, 20827, 2747), (5208, 20830, 2749), (5209, 20829, 2748), (5214, 31950, 2103), (5247, 9552, 18991), (5248, 9566, 18975), (5249, 9578, 18976), (5250, 9569, 18977), (5287, 21313, 5512), (5289, 21317, 5599)]

theorem drops33_check : everyB (big5DropB rows) drops33 = true := by decide +kernel

theorem decodeIn33 : eqB (rowK big5K row33) Files.Big5.decodeIn33 = true := by decide +kernel

theorem decodeOut33 : eqB (rowK utf8K row33) Files.Big5.decodeOut33 = true := by decide +kernel

theorem encodeIn33 : eqB (rowK utf8K (keepK row33 drops33)) Files.Big5.encodeIn33 = true := by decide +kernel

theorem encodeOut33 : eqB (rowK big5K (keepK row33 drops33)) Files.Big5.encodeOut33 = true := by decide +kernel

/-- The lines of row 34 that are not used for encoding. -/
def drops34 : List (Nat × Nat × Nat) := []

theorem drops34_check : everyB (big5DropB rows) drops34 = true := by decide +kernel

theorem decodeIn34 : eqB (rowK big5K row34) Files.Big5.decodeIn34 = true := by decide +kernel

theorem decodeOut34 : eqB (rowK utf8K row34) Files.Big5.decodeOut34 = true := by decide +kernel

theorem encodeIn34 : eqB (rowK utf8K (keepK row34 drops34)) Files.Big5.encodeIn34 = true := by decide +kernel

theorem encodeOut34 : eqB (rowK big5K (keepK row34 drops34)) Files.Big5.encodeOut34 = true := by decide +kernel

/-- The lines of row 35 that are not used for encoding. -/
def drops35 : List (Nat × Nat × Nat) := []

theorem drops35_check : everyB (big5DropB rows) drops35 = true := by decide +kernel

theorem decodeIn35 : eqB (rowK big5K row35) Files.Big5.decodeIn35 = true := by decide +kernel

theorem decodeOut35 : eqB (rowK utf8K row35) Files.Big5.decodeOut35 = true := by decide +kernel

theorem encodeIn35 : eqB (rowK utf8K (keepK row35 drops35)) Files.Big5.encodeIn35 = true := by decide +kernel

theorem encodeOut35 : eqB (rowK big5K (keepK row35 drops35)) Files.Big5.encodeOut35 = true := by decide +kernel

/-- The lines of row 36 that are not used for encoding. -/
def drops36 : List (Nat × Nat × Nat) := []

theorem drops36_check : everyB (big5DropB rows) drops36 = true := by decide +kernel

theorem decodeIn36 : eqB (rowK big5K row36) Files.Big5.decodeIn36 = true := by decide +kernel

theorem decodeOut36 : eqB (rowK utf8K row36) Files.Big5.decodeOut36 = true := by decide +kernel

theorem encodeIn36 : eqB (rowK utf8K (keepK row36 drops36)) Files.Big5.encodeIn36 = true := by decide +kernel

theorem encodeOut36 : eqB (rowK big5K (keepK row36 drops36)) Files.Big5.encodeOut36 = true := by decide +kernel

/-- The lines of row 37 that are not used for encoding. -/
def drops37 : List (Nat × Nat × Nat) := []

theorem drops37_check : everyB (big5DropB rows) drops37 = true := by decide +kernel

theorem decodeIn37 : eqB (rowK big5K row37) Files.Big5.decodeIn37 = true := by decide +kernel

theorem decodeOut37 : eqB (rowK utf8K row37) Files.Big5.decodeOut37 = true := by decide +kernel

theorem encodeIn37 : eqB (rowK utf8K (keepK row37 drops37)) Files.Big5.encodeIn37 = true := by decide +kernel

theorem encodeOut37 : eqB (rowK big5K (keepK row37 drops37)) Files.Big5.encodeOut37 = true := by decide +kernel

/-- The lines of row 38 that are not used for encoding. -/
def drops38 : List (Nat × Nat × Nat) := []

theorem drops38_check : everyB (big5DropB rows) drops38 = true := by decide +kernel

theorem decodeIn38 : eqB (rowK big5K row38) Files.Big5.decodeIn38 = true := by decide +kernel

theorem decodeOut38 : eqB (rowK utf8K row38) Files.Big5.decodeOut38 = true := by decide +kernel

theorem encodeIn38 : eqB (rowK utf8K (keepK row38 drops38)) Files.Big5.encodeIn38 = true := by decide +kernel

theorem encodeOut38 : eqB (rowK big5K (keepK row38 drops38)) Files.Big5.encodeOut38 = true := by decide +kernel

/-- The lines of row 39 that are not used for encoding. -/
def drops39 : List (Nat × Nat × Nat) := []

theorem drops39_check : everyB (big5DropB rows) drops39 = true := by decide +kernel

theorem decodeIn39 : eqB (rowK big5K row39) Files.Big5.decodeIn39 = true := by decide +kernel

theorem decodeOut39 : eqB (rowK utf8K row39) Files.Big5.decodeOut39 = true := by decide +kernel

theorem encodeIn39 : eqB (rowK utf8K (keepK row39 drops39)) Files.Big5.encodeIn39 = true := by decide +kernel

theorem encodeOut39 : eqB (rowK big5K (keepK row39 drops39)) Files.Big5.encodeOut39 = true := by decide +kernel

/-- The lines of row 40 that are not used for encoding. -/
def drops40 : List (Nat × Nat × Nat) := [(6410, 25296, 4494), (6422, 25294, 4922)]

theorem drops40_check : everyB (big5DropB rows) drops40 = true := by decide +kernel

theorem decodeIn40 : eqB (rowK big5K row40) Files.Big5.decodeIn40 = true := by decide +kernel

theorem decodeOut40 : eqB (rowK utf8K row40) Files.Big5.decodeOut40 = true := by decide +kernel

theorem encodeIn40 : eqB (rowK utf8K (keepK row40 drops40)) Files.Big5.encodeIn40 = true := by decide +kernel

theorem encodeOut40 : eqB (rowK big5K (keepK row40 drops40)) Files.Big5.encodeOut40 = true := by decide +kernel

/-- The lines of row 41 that are not used for encoding. -/
def drops41 : List (Nat × Nat × Nat) := [(6543, 32773, 2148)]

theorem drops41_check : everyB (big5DropB rows) drops41 = true := by decide +kernel

theorem decodeIn41 : eqB (rowK big5K row41) Files.Big5.decodeIn41 = true := by decide +kernel

theorem decodeOut41 : eqB (rowK utf8K row41) Files.Big5.decodeOut41 = true := by decide +kernel

theorem encodeIn41 : eqB (rowK utf8K (keepK row41 drops41)) Files.Big5.encodeIn41 = true := by decide +kernel

theorem encodeOut41 : eqB (rowK big5K (keepK row41 drops41)) Files.Big5.encodeOut41 = true := by decide +kernel

/-- The lines of row 42 that are not used for encoding. -/
def drops42 : List (Nat × Nat × Nat) := [(6732, 24674, 4624)]

theorem drops42_check : everyB (big5DropB rows) drops42 = true := by decide +kernel

theorem decodeIn42 : eqB (rowK big5K row42) Files.Big5.decodeIn42 = true := by decide +kernel

theorem decodeOut42 : eqB (rowK utf8K row42) Files.Big5.decodeOut42 = true := by decide +kernel

theorem encodeIn42 : eqB (rowK utf8K (keepK row42 drops42)) Files.Big5.encodeIn42 = true := by decide +kernel

theorem encodeOut42 : eqB (rowK big5K (keepK row42 drops42)) Files.Big5.encodeOut42 = true := by decide +kernel

/-- The lines of row 43 that are not used for encoding. -/
def drops43 : List (Nat × Nat × Nat) := []

theorem drops43_check : everyB (big5DropB rows) drops43 = true := by decide +kernel

theorem decodeIn43 : eqB (rowK big5K row43) Files.Big5.decodeIn43 = true := by decide +kernel

theorem decodeOut43 : eqB (rowK utf8K row43) Files.Big5.decodeOut43 = true := by decide +kernel

theorem encodeIn43 : eqB (rowK utf8K (keepK row43 drops43)) Files.Big5.encodeIn43 = true := by decide +kernel

theorem encodeOut43 : eqB (rowK big5K (keepK row43 drops43)) Files.Big5.encodeOut43 = true := by decide +kernel

/-- The lines of row 44 that are not used for encoding. -/
def drops44 : List (Nat × Nat × Nat) := []

theorem drops44_check : everyB (big5DropB rows) drops44 = true := by decide +kernel

theorem decodeIn44 : eqB (rowK big5K row44) Files.Big5.decodeIn44 = true := by decide +kernel

theorem decodeOut44 : eqB (rowK utf8K row44) Files.Big5.decodeOut44 = true := by decide +kernel

theorem encodeIn44 : eqB (rowK utf8K (keepK row44 drops44)) Files.Big5.encodeIn44 = true := by decide +kernel

theorem encodeOut44 : eqB (rowK big5K (keepK row44 drops44)) Files.Big5.encodeOut44 = true := by decide +kernel

/-- The lines of row 45 that are not used for encoding. -/
def drops45 : List (Nat × Nat × Nat) := []

theorem drops45_check : everyB (big5DropB rows) drops45 = true := by decide +kernel

theorem decodeIn45 : eqB (rowK big5K row45) Files.Big5.decodeIn45 = true := by decide +kernel

theorem decodeOut45 : eqB (rowK utf8K row45) Files.Big5.decodeOut45 = true := by decide +kernel

theorem encodeIn45 : eqB (rowK utf8K (keepK row45 drops45)) Files.Big5.encodeIn45 = true := by decide +kernel

theorem encodeOut45 : eqB (rowK big5K (keepK row45 drops45)) Files.Big5.encodeOut45 = true := by decide +kernel

/-- The lines of row 46 that are not used for encoding. -/
def drops46 : List (Nat × Nat × Nat) := [(7300, 31203, 4330)]

theorem drops46_check : everyB (big5DropB rows) drops46 = true := by decide +kernel

theorem decodeIn46 : eqB (rowK big5K row46) Files.Big5.decodeIn46 = true := by decide +kernel

theorem decodeOut46 : eqB (rowK utf8K row46) Files.Big5.decodeOut46 = true := by decide +kernel

theorem encodeIn46 : eqB (rowK utf8K (keepK row46 drops46)) Files.Big5.encodeIn46 = true := by decide +kernel

theorem encodeOut46 : eqB (rowK big5K (keepK row46 drops46)) Files.Big5.encodeOut46 = true := by decide +kernel

/-- The lines of row 47 that are not used for encoding. -/
def drops47 : List (Nat × Nat × Nat) := [(7410, 36215, 2354)]

theorem drops47_check : everyB (big5DropB rows) drops47 = true := by decide +kernel

theorem decodeIn47 : eqB (rowK big5K row47) Files.Big5.decodeIn47 = true := by decide +kernel

theorem decodeOut47 : eqB (rowK utf8K row47) Files.Big5.decodeOut47 = true := by decide +kernel

theorem encodeIn47 : eqB (rowK utf8K (keepK row47 drops47)) Files.Big5.encodeIn47 = true := by decide +kernel

theorem encodeOut47 : eqB (rowK big5K (keepK row47 drops47)) Files.Big5.encodeOut47 = true := by decide +kernel

/-- The lines of row 48 that are not used for encoding. -/
def drops48 : List (Nat × Nat × Nat) := []

theorem drops48_check : everyB (big5DropB rows) drops48 = true := by decide +kernel

theorem decodeIn48 : eqB (rowK big5K row48) Files.Big5.decodeIn48 = true := by decide +kernel

theorem decodeOut48 : eqB (rowK utf8K row48) Files.Big5.decodeOut48 = true := by decide +kernel

theorem encodeIn48 : eqB (rowK utf8K (keepK row48 drops48)) Files.Big5.encodeIn48 = true := by decide +kernel

theorem encodeOut48 : eqB (rowK big5K (keepK row48 drops48)) Files.Big5.encodeOut48 = true := by decide +kernel

/-- The lines of row 49 that are not used for encoding. -/
def drops49 : List (Nat × Nat × Nat) := []

theorem drops49_check : everyB (big5DropB rows) drops49 = true := by decide +kernel

theorem decodeIn49 : eqB (rowK big5K row49) Files.Big5.decodeIn49 = true := by decide +kernel

theorem decodeOut49 : eqB (rowK utf8K row49) Files.Big5.decodeOut49 = true := by decide +kernel

theorem encodeIn49 : eqB (rowK utf8K (keepK row49 drops49)) Files.Big5.encodeIn49 = true := by decide +kernel

theorem encodeOut49 : eqB (rowK big5K (keepK row49 drops49)) Files.Big5.encodeOut49 = true := by decide +kernel

/-- The lines of row 50 that are not used for encoding. -/
def drops50 : List (Nat × Nat × Nat) := [(7915, 37117, 2400)]

theorem drops50_check : everyB (big5DropB rows) drops50 = true := by decide +kernel

theorem decodeIn50 : eqB (rowK big5K row50) Files.Big5.decodeIn50 = true := by decide +kernel

theorem decodeOut50 : eqB (rowK utf8K row50) Files.Big5.decodeOut50 = true := by decide +kernel

theorem encodeIn50 : eqB (rowK utf8K (keepK row50 drops50)) Files.Big5.encodeIn50 = true := by decide +kernel

theorem encodeOut50 : eqB (rowK big5K (keepK row50 drops50)) Files.Big5.encodeOut50 = true := by decide +kernel

/-- The lines of row 51 that are not used for encoding. -/
def drops51 : List (Nat × Nat × Nat) := []

theorem drops51_check : everyB (big5DropB rows) drops51 = true := by decide +kernel

theorem decodeIn51 : eqB (rowK big5K row51) Files.Big5.decodeIn51 = true := by decide +kernel

theorem decodeOut51 : eqB (rowK utf8K row51) Files.Big5.decodeOut51 = true := by decide +kernel

theorem encodeIn51 : eqB (rowK utf8K (keepK row51 drops51)) Files.Big5.encodeIn51 = true := by decide +kernel

theorem encodeOut51 : eqB (rowK big5K (keepK row51 drops51)) Files.Big5.encodeOut51 = true := by decide +kernel

/-- The lines of row 52 that are not used for encoding. -/
def drops52 : List (Nat × Nat × Nat) := [(8240, 31569, 4422), (8281, 33729, 2221)]

theorem drops52_check : everyB (big5DropB rows) drops52 = true := by decide +kernel

theorem decodeIn52 : eqB (rowK big5K row52) Files.Big5.decodeIn52 = true := by decide +kernel

theorem decodeOut52 : eqB (rowK utf8K row52) Files.Big5.decodeOut52 = true := by decide +kernel

theorem encodeIn52 : eqB (rowK utf8K (keepK row52 drops52)) Files.Big5.encodeIn52 = true := by decide +kernel

theorem encodeOut52 : eqB (rowK big5K (keepK row52 drops52)) Files.Big5.encodeOut52 = true := by decide +kernel

/-- The lines of row 53 that are not used for encoding. -/
def drops53 : List (Nat × Nat × Nat) := []

theorem drops53_check : everyB (big5DropB rows) drops53 = true := by decide +kernel

theorem decodeIn53 : eqB (rowK big5K row53) Files.Big5.decodeIn53 = true := by decide +kernel

theorem decodeOut53 : eqB (rowK utf8K row53) Files.Big5.decodeOut53 = true := by decide +kernel

theorem encodeIn53 : eqB (rowK utf8K (keepK row53 drops53)) Files.Big5.encodeIn53 = true := by decide +kernel

theorem encodeOut53 : eqB (rowK big5K (keepK row53 drops53)) Files.Big5.encodeOut53 = true := by decide +kernel

/-- The lines of row 54 that are not used for encoding. -/
def drops54 : List (Nat × Nat × Nat) := []

theorem drops54_check : everyB (big5DropB rows) drops54 = true := by decide +kernel

theorem decodeIn54 : eqB (rowK big5K row54) Files.Big5.decodeIn54 = true := by decide +kernel

theorem decodeOut54 : eqB (rowK utf8K row54) Files.Big5.decodeOut54 = true := by decide +kernel

theorem encodeIn54 : eqB (rowK utf8K (keepK row54 drops54)) Files.Big5.encodeIn54 = true := by decide +kernel

theorem encodeOut54 : eqB (rowK big5K (keepK row54 drops54)) Files.Big5.encodeOut54 = true := by decide +kernel

/-- The lines of row 55 that are not used for encoding. -/
def drops55 : List (Nat × Nat × Nat) := []

theorem drops55_check : everyB (big5DropB rows) drops55 = true := by decide +kernel

theorem decodeIn55 : eqB (rowK big5K row55) Files.Big5.decodeIn55 = true := by decide +kernel

theorem decodeOut55 : eqB (rowK utf8K row55) Files.Big5.decodeOut55 = true := by decide +kernel

theorem encodeIn55 : eqB (rowK utf8K (keepK row55 drops55)) Files.Big5.encodeIn55 = true := by decide +kernel

theorem encodeOut55 : eqB (rowK big5K (keepK row55 drops55)) Files.Big5.encodeOut55 = true := by decide +kernel

/-- The lines of row 56 that are not used for encoding. -/
def drops56 : List (Nat × Nat × Nat) := [(8870, 20717, 4815)]

theorem drops56_check : everyB (big5DropB rows) drops56 = true := by decide +kernel

theorem decodeIn56 : eqB (rowK big5K row56) Files.Big5.decodeIn56 = true := by decide +kernel

theorem decodeOut56 : eqB (rowK utf8K row56) Files.Big5.decodeOut56 = true := by decide +kernel

theorem encodeIn56 : eqB (rowK utf8K (keepK row56 drops56)) Files.Big5.encodeIn56 = true := by decide +kernel

theorem encodeOut56 : eqB (rowK big5K (keepK row56 drops56)) Files.Big5.encodeOut56 = true := by decide +kernel

/-- The lines of row 57 that are not used for encoding. -/
def drops57 : List (Nat × Nat × Nat) := [(9081, 31672, 2082), (9103, 32210, 2114)]

theorem drops57_check : everyB (big5DropB rows) drops57 = true := by decide +kernel

theorem decodeIn57 : eqB (rowK big5K row57) Files.Big5.decodeIn57 = true := by decide +kernel

theorem decodeOut57 : eqB (rowK utf8K row57) Files.Big5.decodeOut57 = true := by decide +kernel

theorem encodeIn57 : eqB (rowK utf8K (keepK row57 drops57)) Files.Big5.encodeIn57 = true := by decide +kernel

theorem encodeOut57 : eqB (rowK big5K (keepK row57 drops57)) Files.Big5.encodeOut57 = true := by decide +kernel

/-- The lines of row 58 that are not used for encoding. -/
def drops58 : List (Nat × Nat × Nat) := []

theorem drops58_check : everyB (big5DropB rows) drops58 = true := by decide +kernel

theorem decodeIn58 : eqB (rowK big5K row58) Files.Big5.decodeIn58 = true := by decide +kernel

theorem decodeOut58 : eqB (rowK utf8K row58) Files.Big5.decodeOut58 = true := by decide +kernel

theorem encodeIn58 : eqB (rowK utf8K (keepK row58 drops58)) Files.Big5.encodeIn58 = true := by decide +kernel

theorem encodeOut58 : eqB (rowK big5K (keepK row58 drops58)) Files.Big5.encodeOut58 = true := by decide +kernel

/-- The lines of row 59 that are not used for encoding. -/
def drops59 : List (Nat × Nat × Nat) := []

theorem drops59_check : everyB (big5DropB rows) drops59 = true := by decide +kernel

theorem decodeIn59 : eqB (rowK big5K row59) Files.Big5.decodeIn59 = true := by decide +kernel

theorem decodeOut59 : eqB (rowK utf8K row59) Files.Big5.decodeOut59 = true := by decide +kernel

theorem encodeIn59 : eqB (rowK utf8K (keepK row59 drops59)) Files.Big5.encodeIn59 = true := by decide +kernel

theorem encodeOut59 : eqB (rowK big5K (keepK row59 drops59)) Files.Big5.encodeOut59 = true := by decide +kernel

/-- The lines of row 60 that are not used for encoding. -/
def drops60 : List (Nat × Nat × Nat) := []

theorem drops60_check : everyB (big5DropB rows) drops60 = true := by decide +kernel

theorem decodeIn60 : eqB (rowK big5K row60) Files.Big5.decodeIn60 = true := by decide +kernel

theorem decodeOut60 : eqB (rowK utf8K row60) Files.Big5.decodeOut60 = true := by decide +kernel

theorem encodeIn60 : eqB (rowK utf8K (keepK row60 drops60)) Files.Big5.encodeIn60 = true := by decide +kernel

theorem encodeOut60 : eqB (rowK big5K (keepK row60 drops60)) Files.Big5.encodeOut60 = true := by decide +kernel

/-- The lines of row 61 that are not used for encoding. -/
def drops61 : List (Nat × Nat × Nat) := []

theorem drops61_check : everyB (big5DropB rows) drops61 = true := by decide +kernel

theorem decodeIn61 : eqB (rowK big5K row61) Files.Big5.decodeIn61 = true := by decide +kernel

theorem decodeOut61 : eqB (rowK utf8K row61) Files.Big5.decodeOut61 = true := by decide +kernel

theorem encodeIn61 : eqB (rowK utf8K (keepK row61 drops61)) Files.Big5.encodeIn61 = true := by decide +kernel

theorem encodeOut61 : eqB (rowK big5K (keepK row61 drops61)) Files.Big5.encodeOut61 = true := by decide +kernel

/-- The lines of row 62 that are not used for encoding. -/
def drops62 : List (Nat × Nat × Nat) := [(9741, 28598, 4230), (9802, 32285, 2123), (9810, 32808, 2151), (9840, 35238, 2303)]

theorem drops62_check : everyB (big5DropB rows) drops62 = true := by decide +kernel

theorem decodeIn62 : eqB (rowK big5K row62) Files.Big5.decodeIn62 = true := by decide +kernel

theorem decodeOut62 : eqB (rowK utf8K row62) Files.Big5.decodeOut62 = true := by decide +kernel

theorem encodeIn62 : eqB (rowK utf8K (keepK row62 drops62)) Files.Big5.encodeIn62 = true := by decide +kernel

theorem encodeOut62 : eqB (rowK big5K (keepK row62 drops62)) Files.Big5.encodeOut62 = true := by decide +kernel

/-- The lines of row 63 that are not used for encoding. -/
def drops63 : List (Nat × Nat × Nat) := [(9909, 38748, 2477), (10024, 29151, 4273)]

theorem drops63_check : everyB (big5DropB rows) drops63 = true := by decide +kernel

theorem decodeIn63 : eqB (rowK big5K row63) Files.Big5.decodeIn63 = true := by decide +kernel

theorem decodeOut63 : eqB (rowK utf8K row63) Files.Big5.decodeOut63 = true := by decide +kernel

theorem encodeIn63 : eqB (rowK utf8K (keepK row63 drops63)) Files.Big5.encodeIn63 = true := by decide +kernel

theorem encodeOut63 : eqB (rowK big5K (keepK row63 drops63)) Files.Big5.encodeOut63 = true := by decide +kernel

end Verif.Generator.Big5
