import Verif.Proof.Files.Big5Index1
import Verif.Proof.Files.Big5Index2
import Verif.Proof.Files.Big5Decode1
import Verif.Proof.Files.Big5Encode1
import Verif.Proof.Files.Big5Encode2
import Verif.Files.Big5

/-! Generated by tools/gen_files.py: the checks of the parts put together. -/

namespace Verif.Generator.Big5

open Tables.Big5

/-- The rows of the decode table, as many together as make whole lines. -/
def decGroups : List (List (List Nat)) :=
    [[decRow0, decRow1, decRow2, decRow3, decRow4, decRow5, decRow6, decRow7],
    [decRow8, decRow9, decRow10, decRow11, decRow12, decRow13, decRow14, decRow15],
    [decRow16, decRow17, decRow18, decRow19, decRow20, decRow21, decRow22, decRow23],
    [decRow24, decRow25, decRow26, decRow27, decRow28, decRow29, decRow30, decRow31],
    [decRow32, decRow33, decRow34, decRow35, decRow36, decRow37, decRow38, decRow39],
    [decRow40, decRow41, decRow42, decRow43, decRow44, decRow45, decRow46, decRow47],
    [decRow48, decRow49, decRow50, decRow51, decRow52, decRow53, decRow54, decRow55],
    [decRow56, decRow57, decRow58, decRow59, decRow60, decRow61, decRow62, decRow63],
    [decRow64, decRow65, decRow66, decRow67, decRow68, decRow69, decRow70, decRow71],
    [decRow72, decRow73, decRow74, decRow75, decRow76, decRow77, decRow78, decRow79],
    [decRow80, decRow81, decRow82, decRow83, decRow84, decRow85, decRow86, decRow87],
    [decRow88, decRow89, decRow90, decRow91, decRow92, decRow93, decRow94, decRow95],
    [decRow96, decRow97, decRow98, decRow99, decRow100, decRow101, decRow102, decRow103],
    [decRow104, decRow105, decRow106, decRow107, decRow108, decRow109, decRow110, decRow111],
    [decRow112, decRow113, decRow114, decRow115, decRow116, decRow117, decRow118, decRow119],
    [decRow120, decRow121, decRow122, decRow123, decRow124, decRow125]]

/-- The rows of the encode table, as many together as make whole lines. -/
def encGroups : List (List (List (Nat × Nat × Nat))) :=
    [[encRow0, encRow1, encRow2],
    [encRow3, encRow4, encRow5],
    [encRow6, encRow7, encRow8],
    [encRow9, encRow10, encRow11],
    [encRow12, encRow13, encRow14],
    [encRow15, encRow16, encRow17],
    [encRow18, encRow19, encRow20],
    [encRow21, encRow22, encRow23],
    [encRow24, encRow25, encRow26],
    [encRow27, encRow28, encRow29],
    [encRow30, encRow31, encRow32],
    [encRow33, encRow34, encRow35],
    [encRow36, encRow37, encRow38],
    [encRow39, encRow40, encRow41],
    [encRow42, encRow43, encRow44],
    [encRow45, encRow46, encRow47],
    [encRow48, encRow49, encRow50],
    [encRow51, encRow52, encRow53],
    [encRow54, encRow55, encRow56],
    [encRow57, encRow58, encRow59],
    [encRow60, encRow61, encRow62],
    [encRow63, encRow64, encRow65],
    [encRow66, encRow67, encRow68],
    [encRow69, encRow70, encRow71],
    [encRow72, encRow73, encRow74],
    [encRow75, encRow76, encRow77],
    [encRow78, encRow79, encRow80],
    [encRow81, encRow82, encRow83],
    [encRow84, encRow85, encRow86],
    [encRow87, encRow88, encRow89],
    [encRow90, encRow91, encRow92],
    [encRow93, encRow94, encRow95],
    [encRow96, encRow97, encRow98],
    [encRow99, encRow100, encRow101],
    [encRow102, encRow103, encRow104],
    [encRow105, encRow106, encRow107],
    [encRow108, encRow109, encRow110],
    [encRow111, encRow112, encRow113],
    [encRow114, encRow115, encRow116],
    [encRow117, encRow118, encRow119],
    [encRow120, encRow121, encRow122],
    [encRow123, encRow124, encRow125],
    [encRow126, encRow127, encRow128],
    [encRow129, encRow130, encRow131],
    [encRow132, encRow133, encRow134],
    [encRow135, encRow136, encRow137],
    [encRow138, encRow139, encRow140],
    [encRow141, encRow142, encRow143],
    [encRow144]]

set_option maxRecDepth 100000 in
theorem decGroups_flatten : decGroups.flatten = decRows := rfl

set_option maxRecDepth 100000 in
theorem encGroups_flatten : encGroups.flatten = encRows := rfl

theorem index_parts : IndexParts Files.Big5.indexParts Spec.Published.Big5.rows :=
  .cons index0 <|
  .cons index1 <|
  .cons index2 <|
  .cons index3 <|
  .cons index4 <|
  .cons index5 <|
  .cons index6 <|
  .cons index7 <|
  .cons index8 <|
  .cons index9 <|
  .cons index10 <|
  .cons index11 <|
  .cons index12 <|
  .cons index13 <|
  .cons index14 <|
  .cons index15 <|
  .cons index16 <|
  .cons index17 <|
  .cons index18 <|
  .cons index19 <|
  .cons index20 <|
  .cons index21 <|
  .cons index22 <|
  .cons index23 <|
  .cons index24 <|
  .cons index25 <|
  .cons index26 <|
  .cons index27 <|
  .cons index28 <|
  .cons index29 <|
  .cons index30 <|
  .cons index31 <|
  .cons index32 <|
  .cons index33 <|
  .cons index34 <|
  .cons index35 <|
  .cons index36 <|
  .cons index37 <|
  .cons index38 <|
  .cons index39 <|
  .cons index40 <|
  .cons index41 <|
  .cons index42 <|
  .cons index43 <|
  .cons index44 <|
  .cons index45 <|
  .cons index46 <|
  .cons index47 <|
  .cons index48 <|
  .cons index49 <|
  .cons index50 <|
  .cons index51 <|
  .cons index52 <|
  .cons index53 <|
  .cons index54 <|
  .cons index55 <|
  .cons index56 <|
  .cons index57 <|
  .cons index58 <|
  .cons index59 <|
  .cons index60 <|
  .cons index61 <|
  .cons index62 <|
  .cons index63 <|
  .cons index64 <|
  .cons index65 <|
  .cons index66 <|
  .cons index67 <|
  .cons index68 <|
  .cons index69 <|
  .cons index70 <|
  .cons index71 <|
  .cons index72 <|
  .cons index73 <|
  .cons index74 <|
  .cons index75 <|
  .cons index76 <|
  .cons index77 <|
  .cons index78 <|
  .cons index79 <|
  .cons index80 <|
  .cons index81 <|
  .cons index82 <|
  .cons index83 <|
  .cons index84 <|
  .cons index85 <|
  .cons index86 <|
  .cons index87 <|
  .cons index88 <|
  .cons index89 <|
  .cons index90 <|
  .cons index91 <|
  .cons index92 <|
  .cons index93 <|
  .cons index94 <|
  .cons index95 <|
  .cons index96 <|
  .cons index97 <|
  .cons index98 <|
  .cons index99 <|
  .cons index100 <|
  .cons index101 <|
  .cons index102 <|
  .cons index103 <|
  .cons index104 <|
  .cons index105 <|
  .cons index106 <|
  .cons index107 <|
  .cons index108 <|
  .cons index109 <|
  .cons index110 <|
  .cons index111 <|
  .cons index112 <|
  .cons index113 <|
  .cons index114 <|
  .cons index115 <|
  .cons index116 <|
  .cons index117 <|
  .cons index118 <|
  .cons index119 <|
  .cons index120 <|
  .cons index121 <|
  .cons index122 <|
  .cons index123 <|
  .cons index124 <|
  .cons index125 <|
  .nil

theorem decode_parts : Chunks decK 8 (decGroups.map List.flatten) Files.Big5.decodeParts :=
  .cons decode0 <|
  .cons decode1 <|
  .cons decode2 <|
  .cons decode3 <|
  .cons decode4 <|
  .cons decode5 <|
  .cons decode6 <|
  .cons decode7 <|
  .cons decode8 <|
  .cons decode9 <|
  .cons decode10 <|
  .cons decode11 <|
  .cons decode12 <|
  .cons decode13 <|
  .cons decode14 <|
  .last decode15

theorem encode_parts : Chunks enc2K 3 (encGroups.map List.flatten) Files.Big5.encodeParts :=
  .cons encode0 <|
  .cons encode1 <|
  .cons encode2 <|
  .cons encode3 <|
  .cons encode4 <|
  .cons encode5 <|
  .cons encode6 <|
  .cons encode7 <|
  .cons encode8 <|
  .cons encode9 <|
  .cons encode10 <|
  .cons encode11 <|
  .cons encode12 <|
  .cons encode13 <|
  .cons encode14 <|
  .cons encode15 <|
  .cons encode16 <|
  .cons encode17 <|
  .cons encode18 <|
  .cons encode19 <|
  .cons encode20 <|
  .cons encode21 <|
  .cons encode22 <|
  .cons encode23 <|
  .cons encode24 <|
  .cons encode25 <|
  .cons encode26 <|
  .cons encode27 <|
  .cons encode28 <|
  .cons encode29 <|
  .cons encode30 <|
  .cons encode31 <|
  .cons encode32 <|
  .cons encode33 <|
  .cons encode34 <|
  .cons encode35 <|
  .cons encode36 <|
  .cons encode37 <|
  .cons encode38 <|
  .cons encode39 <|
  .cons encode40 <|
  .cons encode41 <|
  .cons encode42 <|
  .cons encode43 <|
  .cons encode44 <|
  .cons encode45 <|
  .cons encode46 <|
  .cons encode47 <|
  .last encode48

end Verif.Generator.Big5
