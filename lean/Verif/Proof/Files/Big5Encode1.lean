import Verif.Files.Big5.Encode1
import Verif.Proof.FileChecks

/-! Generated by tools/gen_files.py: the kernel compares the copies with the tables. -/

namespace Verif.Generator.Big5

theorem encode0 : chunkB enc2K 3 [Tables.Big5.encRow0, Tables.Big5.encRow1, Tables.Big5.encRow2].flatten
    Files.Big5.encode0 = true := by
  decide +kernel

theorem encode1 : chunkB enc2K 3 [Tables.Big5.encRow3, Tables.Big5.encRow4, Tables.Big5.encRow5].flatten
    Files.Big5.encode1 = true := by
  decide +kernel

theorem encode2 : chunkB enc2K 3 [Tables.Big5.encRow6, Tables.Big5.encRow7, Tables.Big5.encRow8].flatten
    Files.Big5.encode2 = true := by
  decide +kernel

theorem encode3 : chunkB enc2K 3 [Tables.Big5.encRow9, Tables.Big5.encRow10, Tables.Big5.encRow11].flatten
    Files.Big5.encode3 = true := by
  decide +kernel

theorem encode4 : chunkB enc2K 3 [Tables.Big5.encRow12, Tables.Big5.encRow13, Tables.Big5.encRow14].flatten
    Files.Big5.encode4 = true := by
  decide +kernel

theorem encode5 : chunkB enc2K 3 [Tables.Big5.encRow15, Tables.Big5.encRow16, Tables.Big5.encRow17].flatten
    Files.Big5.encode5 = true := by
  decide +kernel

theorem encode6 : chunkB enc2K 3 [Tables.Big5.encRow18, Tables.Big5.encRow19, Tables.Big5.encRow20].flatten
    Files.Big5.encode6 = true := by
  decide +kernel

theorem encode7 : chunkB enc2K 3 [Tables.Big5.encRow21, Tables.Big5.encRow22, Tables.Big5.encRow23].flatten
    Files.Big5.encode7 = true := by
  decide +kernel

theorem encode8 : chunkB enc2K 3 [Tables.Big5.encRow24, Tables.Big5.encRow25, Tables.Big5.encRow26].flatten
    Files.Big5.encode8 = true := by
  decide +kernel

theorem encode9 : chunkB enc2K 3 [Tables.Big5.encRow27, Tables.Big5.encRow28, Tables.Big5.encRow29].flatten
    Files.Big5.encode9 = true := by
  decide +kernel

theorem encode10 : chunkB enc2K 3 [Tables.Big5.encRow30, Tables.Big5.encRow31, Tables.Big5.encRow32].flatten
    Files.Big5.encode10 = true := by
  decide +kernel

theorem encode11 : chunkB enc2K 3 [Tables.Big5.encRow33, Tables.Big5.encRow34, Tables.Big5.encRow35].flatten
    Files.Big5.encode11 = true := by
  decide +kernel

theorem encode12 : chunkB enc2K 3 [Tables.Big5.encRow36, Tables.Big5.encRow37, Tables.Big5.encRow38].flatten
    Files.Big5.encode12 = true := by
  decide +kernel

theorem encode13 : chunkB enc2K 3 [Tables.Big5.encRow39, Tables.Big5.encRow40, Tables.Big5.encRow41].flatten
    Files.Big5.encode13 = true := by
  decide +kernel

theorem encode14 : chunkB enc2K 3 [Tables.Big5.encRow42, Tables.Big5.encRow43, Tables.Big5.encRow44].flatten
    Files.Big5.encode14 = true := by
  decide +kernel

theorem encode15 : chunkB enc2K 3 [Tables.Big5.encRow45, Tables.Big5.encRow46, Tables.Big5.encRow47].flatten
    Files.Big5.encode15 = true := by
  decide +kernel

theorem encode16 : chunkB enc2K 3 [Tables.Big5.encRow48, Tables.Big5.encRow49, Tables.Big5.encRow50].flatten
    Files.Big5.encode16 = true := by
  decide +kernel

theorem encode17 : chunkB enc2K 3 [Tables.Big5.encRow51, Tables.Big5.encRow52, Tables.Big5.encRow53].flatten
    Files.Big5.encode17 = true := by
  decide +kernel

theorem encode18 : chunkB enc2K 3 [Tables.Big5.encRow54, Tables.Big5.encRow55, Tables.Big5.encRow56].flatten
    Files.Big5.encode18 = true := by
  decide +kernel

theorem encode19 : chunkB enc2K 3 [Tables.Big5.encRow57, Tables.Big5.encRow58, Tables.Big5.encRow59].flatten
    Files.Big5.encode19 = true := by
  decide +kernel

theorem encode20 : chunkB enc2K 3 [Tables.Big5.encRow60, Tables.Big5.encRow61, Tables.Big5.encRow62].flatten
    Files.Big5.encode20 = true := by
  decide +kernel

theorem encode21 : chunkB enc2K 3 [Tables.Big5.encRow63, Tables.Big5.encRow64, Tables.Big5.encRow65].flatten
    Files.Big5.encode21 = true := by
  decide +kernel

theorem encode22 : chunkB enc2K 3 [Tables.Big5.encRow66, Tables.Big5.encRow67, Tables.Big5.encRow68].flatten
    Files.Big5.encode22 = true := by
  decide +kernel

theorem encode23 : chunkB enc2K 3 [Tables.Big5.encRow69, Tables.Big5.encRow70, Tables.Big5.encRow71].flatten
    Files.Big5.encode23 = true := by
  decide +kernel

theorem encode24 : chunkB enc2K 3 [Tables.Big5.encRow72, Tables.Big5.encRow73, Tables.Big5.encRow74].flatten
    Files.Big5.encode24 = true := by
  decide +kernel

end Verif.Generator.Big5
