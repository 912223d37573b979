import Verif.Files.ShiftJis.Encode1
import Verif.Proof.FileChecks

/-! Generated by tools/gen_files.py: the kernel compares the copies with the tables. -/

namespace Verif.Generator.ShiftJis

theorem encode0 : chunkB enc2K 3 [Tables.ShiftJis.encRow0, Tables.ShiftJis.encRow1, Tables.ShiftJis.encRow2].flatten
    Files.ShiftJis.encode0 = true := by
  decide +kernel

theorem encode1 : chunkB enc2K 3 [Tables.ShiftJis.encRow3, Tables.ShiftJis.encRow4, Tables.ShiftJis.encRow5].flatten
    Files.ShiftJis.encode1 = true := by
  decide +kernel

theorem encode2 : chunkB enc2K 3 [Tables.ShiftJis.encRow6, Tables.ShiftJis.encRow7, Tables.ShiftJis.encRow8].flatten
    Files.ShiftJis.encode2 = true := by
  decide +kernel

theorem encode3 : chunkB enc2K 3 [Tables.ShiftJis.encRow9, Tables.ShiftJis.encRow10, Tables.ShiftJis.encRow11].flatten
    Files.ShiftJis.encode3 = true := by
  decide +kernel

theorem encode4 : chunkB enc2K 3 [Tables.ShiftJis.encRow12, Tables.ShiftJis.encRow13, Tables.ShiftJis.encRow14].flatten
    Files.ShiftJis.encode4 = true := by
  decide +kernel

theorem encode5 : chunkB enc2K 3 [Tables.ShiftJis.encRow15, Tables.ShiftJis.encRow16, Tables.ShiftJis.encRow17].flatten
    Files.ShiftJis.encode5 = true := by
  decide +kernel

theorem encode6 : chunkB enc2K 3 [Tables.ShiftJis.encRow18, Tables.ShiftJis.encRow19, Tables.ShiftJis.encRow20].flatten
    Files.ShiftJis.encode6 = true := by
  decide +kernel

theorem encode7 : chunkB enc2K 3 [Tables.ShiftJis.encRow21, Tables.ShiftJis.encRow22, Tables.ShiftJis.encRow23].flatten
    Files.ShiftJis.encode7 = true := by
  decide +kernel

theorem encode8 : chunkB enc2K 3 [Tables.ShiftJis.encRow24, Tables.ShiftJis.encRow25, Tables.ShiftJis.encRow26].flatten
    Files.ShiftJis.encode8 = true := by
  decide +kernel

theorem encode9 : chunkB enc2K 3 [Tables.ShiftJis.encRow27, Tables.ShiftJis.encRow28, Tables.ShiftJis.encRow29].flatten
    Files.ShiftJis.encode9 = true := by
  decide +kernel

theorem encode10 : chunkB enc2K 3 [Tables.ShiftJis.encRow30, Tables.ShiftJis.encRow31, Tables.ShiftJis.encRow32].flatten
    Files.ShiftJis.encode10 = true := by
  decide +kernel

theorem encode11 : chunkB enc2K 3 [Tables.ShiftJis.encRow33, Tables.ShiftJis.encRow34, Tables.ShiftJis.encRow35].flatten
    Files.ShiftJis.encode11 = true := by
  decide +kernel

theorem encode12 : chunkB enc2K 3 [Tables.ShiftJis.encRow36, Tables.ShiftJis.encRow37, Tables.ShiftJis.encRow38].flatten
    Files.ShiftJis.encode12 = true := by
  decide +kernel

theorem encode13 : chunkB enc2K 3 [Tables.ShiftJis.encRow39, Tables.ShiftJis.encRow40, Tables.ShiftJis.encRow41].flatten
    Files.ShiftJis.encode13 = true := by
  decide +kernel

theorem encode14 : chunkB enc2K 3 [Tables.ShiftJis.encRow42, Tables.ShiftJis.encRow43, Tables.ShiftJis.encRow44].flatten
    Files.ShiftJis.encode14 = true := by
  decide +kernel

theorem encode15 : chunkB enc2K 3 [Tables.ShiftJis.encRow45, Tables.ShiftJis.encRow46, Tables.ShiftJis.encRow47].flatten
    Files.ShiftJis.encode15 = true := by
  decide +kernel

theorem encode16 : chunkB enc2K 3 [Tables.ShiftJis.encRow48, Tables.ShiftJis.encRow49, Tables.ShiftJis.encRow50].flatten
    Files.ShiftJis.encode16 = true := by
  decide +kernel

theorem encode17 : chunkB enc2K 3 [Tables.ShiftJis.encRow51, Tables.ShiftJis.encRow52, Tables.ShiftJis.encRow53].flatten
    Files.ShiftJis.encode17 = true := by
  decide +kernel

theorem encode18 : chunkB enc2K 3 [Tables.ShiftJis.encRow54, Tables.ShiftJis.encRow55, Tables.ShiftJis.encRow56].flatten
    Files.ShiftJis.encode18 = true := by
  decide +kernel

theorem encode19 : linesEqB (rowLines enc2K 3 (List.length [Tables.ShiftJis.encRow57].flatten) [Tables.ShiftJis.encRow57].flatten)
    Files.ShiftJis.encode19 = true := by
  decide +kernel

end Verif.Generator.ShiftJis
