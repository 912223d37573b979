import Verif.Files.Big5.Decode1
import Verif.Proof.FileChecks

/-! Generated by tools/gen_files.py: the kernel compares the copies with the tables. -/

namespace Verif.Generator.Big5

theorem decode0 : chunkB decK 8 [Tables.Big5.decRow0, Tables.Big5.decRow1, Tables.Big5.decRow2, Tables.Big5.decRow3, Tables.Big5.decRow4, Tables.Big5.decRow5, Tables.Big5.decRow6, Tables.Big5.decRow7].flatten
    Files.Big5.decode0 = true := by
  decide +kernel

theorem decode1 : chunkB decK 8 [Tables.Big5.decRow8, Tables.Big5.decRow9, Tables.Big5.decRow10, Tables.Big5.decRow11, Tables.Big5.decRow12, Tables.Big5.decRow13, Tables.Big5.decRow14, Tables.Big5.decRow15].flatten
    Files.Big5.decode1 = true := by
  decide +kernel

theorem decode2 : chunkB decK 8 [Tables.Big5.decRow16, Tables.Big5.decRow17, Tables.Big5.decRow18, Tables.Big5.decRow19, Tables.Big5.decRow20, Tables.Big5.decRow21, Tables.Big5.decRow22, Tables.Big5.decRow23].flatten
    Files.Big5.decode2 = true := by
  decide +kernel

theorem decode3 : chunkB decK 8 [Tables.Big5.decRow24, Tables.Big5.decRow25, Tables.Big5.decRow26, Tables.Big5.decRow27, Tables.Big5.decRow28, Tables.Big5.decRow29, Tables.Big5.decRow30, Tables.Big5.decRow31].flatten
    Files.Big5.decode3 = true := by
  decide +kernel

theorem decode4 : chunkB decK 8 [Tables.Big5.decRow32, Tables.Big5.decRow33, Tables.Big5.decRow34, Tables.Big5.decRow35, Tables.Big5.decRow36, Tables.Big5.decRow37, Tables.Big5.decRow38, Tables.Big5.decRow39].flatten
    Files.Big5.decode4 = true := by
  decide +kernel

theorem decode5 : chunkB decK 8 [Tables.Big5.decRow40, Tables.Big5.decRow41, Tables.Big5.decRow42, Tables.Big5.decRow43, Tables.Big5.decRow44, Tables.Big5.decRow45, Tables.Big5.decRow46, Tables.Big5.decRow47].flatten
    Files.Big5.decode5 = true := by
  decide +kernel

theorem decode6 : chunkB decK 8 [Tables.Big5.decRow48, Tables.Big5.decRow49, Tables.Big5.decRow50, Tables.Big5.decRow51, Tables.Big5.decRow52, Tables.Big5.decRow53, Tables.Big5.decRow54, Tables.Big5.decRow55].flatten
    Files.Big5.decode6 = true := by
  decide +kernel

theorem decode7 : chunkB decK 8 [Tables.Big5.decRow56, Tables.Big5.decRow57, Tables.Big5.decRow58, Tables.Big5.decRow59, Tables.Big5.decRow60, Tables.Big5.decRow61, Tables.Big5.decRow62, Tables.Big5.decRow63].flatten
    Files.Big5.decode7 = true := by
  decide +kernel

theorem decode8 : chunkB decK 8 [Tables.Big5.decRow64, Tables.Big5.decRow65, Tables.Big5.decRow66, Tables.Big5.decRow67, Tables.Big5.decRow68, Tables.Big5.decRow69, Tables.Big5.decRow70, Tables.Big5.decRow71].flatten
    Files.Big5.decode8 = true := by
  decide +kernel

theorem decode9 : chunkB decK 8 [Tables.Big5.decRow72, Tables.Big5.decRow73, Tables.Big5.decRow74, Tables.Big5.decRow75, Tables.Big5.decRow76, Tables.Big5.decRow77, Tables.Big5.decRow78, Tables.Big5.decRow79].flatten
    Files.Big5.decode9 = true := by
  decide +kernel

theorem decode10 : chunkB decK 8 [Tables.Big5.decRow80, Tables.Big5.decRow81, Tables.Big5.decRow82, Tables.Big5.decRow83, Tables.Big5.decRow84, Tables.Big5.decRow85, Tables.Big5.decRow86, Tables.Big5.decRow87].flatten
    Files.Big5.decode10 = true := by
  decide +kernel

theorem decode11 : chunkB decK 8 [Tables.Big5.decRow88, Tables.Big5.decRow89, Tables.Big5.decRow90, Tables.Big5.decRow91, Tables.Big5.decRow92, Tables.Big5.decRow93, Tables.Big5.decRow94, Tables.Big5.decRow95].flatten
    Files.Big5.decode11 = true := by
  decide +kernel

theorem decode12 : chunkB decK 8 [Tables.Big5.decRow96, Tables.Big5.decRow97, Tables.Big5.decRow98, Tables.Big5.decRow99, Tables.Big5.decRow100, Tables.Big5.decRow101, Tables.Big5.decRow102, Tables.Big5.decRow103].flatten
    Files.Big5.decode12 = true := by
  decide +kernel

theorem decode13 : chunkB decK 8 [Tables.Big5.decRow104, Tables.Big5.decRow105, Tables.Big5.decRow106, Tables.Big5.decRow107, Tables.Big5.decRow108, Tables.Big5.decRow109, Tables.Big5.decRow110, Tables.Big5.decRow111].flatten
    Files.Big5.decode13 = true := by
  decide +kernel

theorem decode14 : chunkB decK 8 [Tables.Big5.decRow112, Tables.Big5.decRow113, Tables.Big5.decRow114, Tables.Big5.decRow115, Tables.Big5.decRow116, Tables.Big5.decRow117, Tables.Big5.decRow118, Tables.Big5.decRow119].flatten
    Files.Big5.decode14 = true := by
  decide +kernel

theorem decode15 : linesEqB (rowLines decK 8 (List.length [Tables.Big5.decRow120, Tables.Big5.decRow121, Tables.Big5.decRow122, Tables.Big5.decRow123, Tables.Big5.decRow124, Tables.Big5.decRow125].flatten) [Tables.Big5.decRow120, Tables.Big5.decRow121, Tables.Big5.decRow122, Tables.Big5.decRow123, Tables.Big5.decRow124, Tables.Big5.decRow125].flatten)
    Files.Big5.decode15 = true := by
  decide +kernel

end Verif.Generator.Big5
