import Verif.Files.ShiftJis.Decode1
import Verif.Proof.FileChecks

/-! Generated by tools/gen_files.py: the kernel compares the copies with the tables. -/

namespace Verif.Generator.ShiftJis

theorem decode0 : chunkB decK 8 [Tables.ShiftJis.decRow0, Tables.ShiftJis.decRow1].flatten
    Files.ShiftJis.decode0 = true := by
  decide +kernel

theorem decode1 : chunkB decK 8 [Tables.ShiftJis.decRow2, Tables.ShiftJis.decRow3].flatten
    Files.ShiftJis.decode1 = true := by
  decide +kernel

theorem decode2 : chunkB decK 8 [Tables.ShiftJis.decRow4, Tables.ShiftJis.decRow5].flatten
    Files.ShiftJis.decode2 = true := by
  decide +kernel

theorem decode3 : chunkB decK 8 [Tables.ShiftJis.decRow6, Tables.ShiftJis.decRow7].flatten
    Files.ShiftJis.decode3 = true := by
  decide +kernel

theorem decode4 : chunkB decK 8 [Tables.ShiftJis.decRow8, Tables.ShiftJis.decRow9].flatten
    Files.ShiftJis.decode4 = true := by
  decide +kernel

theorem decode5 : chunkB decK 8 [Tables.ShiftJis.decRow10, Tables.ShiftJis.decRow11].flatten
    Files.ShiftJis.decode5 = true := by
  decide +kernel

theorem decode6 : chunkB decK 8 [Tables.ShiftJis.decRow12, Tables.ShiftJis.decRow13].flatten
    Files.ShiftJis.decode6 = true := by
  decide +kernel

theorem decode7 : chunkB decK 8 [Tables.ShiftJis.decRow14, Tables.ShiftJis.decRow15].flatten
    Files.ShiftJis.decode7 = true := by
  decide +kernel

theorem decode8 : chunkB decK 8 [Tables.ShiftJis.decRow16, Tables.ShiftJis.decRow17].flatten
    Files.ShiftJis.decode8 = true := by
  decide +kernel

theorem decode9 : chunkB decK 8 [Tables.ShiftJis.decRow18, Tables.ShiftJis.decRow19].flatten
    Files.ShiftJis.decode9 = true := by
  decide +kernel

theorem decode10 : chunkB decK 8 [Tables.ShiftJis.decRow20, Tables.ShiftJis.decRow21].flatten
    Files.ShiftJis.decode10 = true := by
  decide +kernel

theorem decode11 : chunkB decK 8 [Tables.ShiftJis.decRow22, Tables.ShiftJis.decRow23].flatten
    Files.ShiftJis.decode11 = true := by
  decide +kernel

theorem decode12 : chunkB decK 8 [Tables.ShiftJis.decRow24, Tables.ShiftJis.decRow25].flatten
    Files.ShiftJis.decode12 = true := by
  decide +kernel

theorem decode13 : chunkB decK 8 [Tables.ShiftJis.decRow26, Tables.ShiftJis.decRow27].flatten
    Files.ShiftJis.decode13 = true := by
  decide +kernel

theorem decode14 : chunkB decK 8 [Tables.ShiftJis.decRow28, Tables.ShiftJis.decRow29].flatten
    Files.ShiftJis.decode14 = true := by
  decide +kernel

theorem decode15 : chunkB decK 8 [Tables.ShiftJis.decRow30, Tables.ShiftJis.decRow31].flatten
    Files.ShiftJis.decode15 = true := by
  decide +kernel

theorem decode16 : chunkB decK 8 [Tables.ShiftJis.decRow32, Tables.ShiftJis.decRow33].flatten
    Files.ShiftJis.decode16 = true := by
  decide +kernel

theorem decode17 : chunkB decK 8 [Tables.ShiftJis.decRow34, Tables.ShiftJis.decRow35].flatten
    Files.ShiftJis.decode17 = true := by
  decide +kernel

theorem decode18 : chunkB decK 8 [Tables.ShiftJis.decRow36, Tables.ShiftJis.decRow37].flatten
    Files.ShiftJis.decode18 = true := by
  decide +kernel

theorem decode19 : chunkB decK 8 [Tables.ShiftJis.decRow38, Tables.ShiftJis.decRow39].flatten
    Files.ShiftJis.decode19 = true := by
  decide +kernel

theorem decode20 : chunkB decK 8 [Tables.ShiftJis.decRow40, Tables.ShiftJis.decRow41].flatten
    Files.ShiftJis.decode20 = true := by
  decide +kernel

theorem decode21 : chunkB decK 8 [Tables.ShiftJis.decRow42, Tables.ShiftJis.decRow43].flatten
    Files.ShiftJis.decode21 = true := by
  decide +kernel

theorem decode22 : chunkB decK 8 [Tables.ShiftJis.decRow44, Tables.ShiftJis.decRow45].flatten
    Files.ShiftJis.decode22 = true := by
  decide +kernel

theorem decode23 : chunkB decK 8 [Tables.ShiftJis.decRow46, Tables.ShiftJis.decRow47].flatten
    Files.ShiftJis.decode23 = true := by
  decide +kernel

theorem decode24 : chunkB decK 8 [Tables.ShiftJis.decRow48, Tables.ShiftJis.decRow49].flatten
    Files.ShiftJis.decode24 = true := by
  decide +kernel

theorem decode25 : chunkB decK 8 [Tables.ShiftJis.decRow50, Tables.ShiftJis.decRow51].flatten
    Files.ShiftJis.decode25 = true := by
  decide +kernel

theorem decode26 : chunkB decK 8 [Tables.ShiftJis.decRow52, Tables.ShiftJis.decRow53].flatten
    Files.ShiftJis.decode26 = true := by
  decide +kernel

theorem decode27 : chunkB decK 8 [Tables.ShiftJis.decRow54, Tables.ShiftJis.decRow55].flatten
    Files.ShiftJis.decode27 = true := by
  decide +kernel

theorem decode28 : chunkB decK 8 [Tables.ShiftJis.decRow56, Tables.ShiftJis.decRow57].flatten
    Files.ShiftJis.decode28 = true := by
  decide +kernel

theorem decode29 : linesEqB (rowLines decK 8 (List.length [Tables.ShiftJis.decRow58, Tables.ShiftJis.decRow59].flatten) [Tables.ShiftJis.decRow58, Tables.ShiftJis.decRow59].flatten)
    Files.ShiftJis.decode29 = true := by
  decide +kernel

end Verif.Generator.ShiftJis
