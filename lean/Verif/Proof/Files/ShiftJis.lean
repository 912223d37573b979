import Verif.Proof.Files.ShiftJisIndex1
import Verif.Proof.Files.ShiftJisDecode1
import Verif.Proof.Files.ShiftJisEncode1
import Verif.Files.ShiftJis

/-! Generated by tools/gen_files.py: the checks of the parts put together. -/

namespace Verif.Generator.ShiftJis

open Tables.ShiftJis

/-- The rows of the decode table, as many together as make whole lines. -/
def decGroups : List (List (List Nat)) :=
    [[decRow0, decRow1],
    [decRow2, decRow3],
    [decRow4, decRow5],
    [decRow6, decRow7],
    [decRow8, decRow9],
    [decRow10, decRow11],
    [decRow12, decRow13],
    [decRow14, decRow15],
    [decRow16, decRow17],
    [decRow18, decRow19],
    [decRow20, decRow21],
    [decRow22, decRow23],
    [decRow24, decRow25],
    [decRow26, decRow27],
    [decRow28, decRow29],
    [decRow30, decRow31],
    [decRow32, decRow33],
    [decRow34, decRow35],
    [decRow36, decRow37],
    [decRow38, decRow39],
    [decRow40, decRow41],
    [decRow42, decRow43],
    [decRow44, decRow45],
    [decRow46, decRow47],
    [decRow48, decRow49],
    [decRow50, decRow51],
    [decRow52, decRow53],
    [decRow54, decRow55],
    [decRow56, decRow57],
    [decRow58, decRow59]]

/-- The rows of the encode table, as many together as make whole lines. -/
def encGroups : List (List (List (Nat × Nat × Nat))) :=
    [[encRow0, encRow1, encRow2],
    [encRow3, encRow4, encRow5],
    [encRow6, encRow7, encRow8],
    [encRow9, encRow10, encRow11],
    [encRow12, encRow13, encRow14],
    [encRow15, encRow16, encRow17],
    [encRow18, encRow19, encRow20],
    [encRow21, encRow22, encRow23],
    [encRow24, encRow25, encRow26],
    [encRow27, encRow28, encRow29],
    [encRow30, encRow31, encRow32],
    [encRow33, encRow34, encRow35],
    [encRow36, encRow37, encRow38],
    [encRow39, encRow40, encRow41],
    [encRow42, encRow43, encRow44],
    [encRow45, encRow46, encRow47],
    [encRow48, encRow49, encRow50],
    [encRow51, encRow52, encRow53],
    [encRow54, encRow55, encRow56],
    [encRow57]]

set_option maxRecDepth 100000 in
theorem decGroups_flatten : decGroups.flatten = decRows := rfl

set_option maxRecDepth 100000 in
theorem encGroups_flatten : encGroups.flatten = encRows := rfl

theorem index_parts : IndexParts Files.ShiftJis.indexParts Spec.Published.Jis0208.rows :=
  .cons index0 <|
  .cons index1 <|
  .cons index2 <|
  .cons index3 <|
  .cons index4 <|
  .cons index5 <|
  .cons index6 <|
  .cons index7 <|
  .cons index8 <|
  .cons index9 <|
  .cons index10 <|
  .cons index11 <|
  .cons index12 <|
  .cons index13 <|
  .cons index14 <|
  .cons index15 <|
  .cons index16 <|
  .cons index17 <|
  .cons index18 <|
  .cons index19 <|
  .cons index20 <|
  .cons index21 <|
  .cons index22 <|
  .cons index23 <|
  .cons index24 <|
  .cons index25 <|
  .cons index26 <|
  .cons index27 <|
  .cons index28 <|
  .cons index29 <|
  .cons index30 <|
  .cons index31 <|
  .cons index32 <|
  .cons index33 <|
  .cons index34 <|
  .cons index35 <|
  .cons index36 <|
  .cons index37 <|
  .cons index38 <|
  .cons index39 <|
  .cons index40 <|
  .cons index41 <|
  .cons index42 <|
  .cons index43 <|
  .cons index44 <|
  .cons index45 <|
  .cons index46 <|
  .cons index47 <|
  .cons index48 <|
  .cons index49 <|
  .cons index50 <|
  .cons index51 <|
  .cons index52 <|
  .cons index53 <|
  .cons index54 <|
  .cons index55 <|
  .cons index56 <|
  .cons index57 <|
  .cons index58 <|
  .cons index59 <|
  .nil

theorem decode_parts : Chunks decK 8 (decGroups.map List.flatten) Files.ShiftJis.decodeParts :=
  .cons decode0 <|
  .cons decode1 <|
  .cons decode2 <|
  .cons decode3 <|
  .cons decode4 <|
  .cons decode5 <|
  .cons decode6 <|
  .cons decode7 <|
  .cons decode8 <|
  .cons decode9 <|
  .cons decode10 <|
  .cons decode11 <|
  .cons decode12 <|
  .cons decode13 <|
  .cons decode14 <|
  .cons decode15 <|
  .cons decode16 <|
  .cons decode17 <|
  .cons decode18 <|
  .cons decode19 <|
  .cons decode20 <|
  .cons decode21 <|
  .cons decode22 <|
  .cons decode23 <|
  .cons decode24 <|
  .cons decode25 <|
  .cons decode26 <|
  .cons decode27 <|
  .cons decode28 <|
  .last decode29

theorem encode_parts : Chunks enc2K 3 (encGroups.map List.flatten) Files.ShiftJis.encodeParts :=
  .cons encode0 <|
  .cons encode1 <|
  .cons encode2 <|
  .cons encode3 <|
  .cons encode4 <|
  .cons encode5 <|
  .cons encode6 <|
  .cons encode7 <|
  .cons encode8 <|
  .cons encode9 <|
  .cons encode10 <|
  .cons encode11 <|
  .cons encode12 <|
  .cons encode13 <|
  .cons encode14 <|
  .cons encode15 <|
  .cons encode16 <|
  .cons encode17 <|
  .cons encode18 <|
  .last encode19

end Verif.Generator.ShiftJis
