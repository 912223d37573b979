import Verif.Files.Big5.Encode2
import Verif.Proof.FileChecks

/-! Generated by tools/gen_files.py: the kernel compares the copies with the tables. -/

namespace Verif.Generator.Big5

theorem encode25 : chunkB enc2K 3 [Tables.Big5.encRow75, Tables.Big5.encRow76, Tables.Big5.encRow77].flatten
    Files.Big5.encode25 = true := by
  decide +kernel

theorem encode26 : chunkB enc2K 3 [Tables.Big5.encRow78, Tables.Big5.encRow79, Tables.Big5.encRow80].flatten
    Files.Big5.encode26 = true := by
  decide +kernel

theorem encode27 : chunkB enc2K 3 [Tables.Big5.encRow81, Tables.Big5.encRow82, Tables.Big5.encRow83].flatten
    Files.Big5.encode27 = true := by
  decide +kernel

theorem encode28 : chunkB enc2K 3 [Tables.Big5.encRow84, Tables.Big5.encRow85, Tables.Big5.encRow86].flatten
    Files.Big5.encode28 = true := by
  decide +kernel

theorem encode29 : chunkB enc2K 3 [Tables.Big5.encRow87, Tables.Big5.encRow88, Tables.Big5.encRow89].flatten
    Files.Big5.encode29 = true := by
  decide +kernel

theorem encode30 : chunkB enc2K 3 [Tables.Big5.encRow90, Tables.Big5.encRow91, Tables.Big5.encRow92].flatten
    Files.Big5.encode30 = true := by
  decide +kernel

theorem encode31 : chunkB enc2K 3 [Tables.Big5.encRow93, Tables.Big5.encRow94, Tables.Big5.encRow95].flatten
    Files.Big5.encode31 = true := by
  decide +kernel

theorem encode32 : chunkB enc2K 3 [Tables.Big5.encRow96, Tables.Big5.encRow97, Tables.Big5.encRow98].flatten
    Files.Big5.encode32 = true := by
  decide +kernel

theorem encode33 : chunkB enc2K 3 [Tables.Big5.encRow99, Tables.Big5.encRow100, Tables.Big5.encRow101].flatten
    Files.Big5.encode33 = true := by
  decide +kernel

theorem encode34 : chunkB enc2K 3 [Tables.Big5.encRow102, Tables.Big5.encRow103, Tables.Big5.encRow104].flatten
    Files.Big5.encode34 = true := by
  decide +kernel

theorem encode35 : chunkB enc2K 3 [Tables.Big5.encRow105, Tables.Big5.encRow106, Tables.Big5.encRow107].flatten
    Files.Big5.encode35 = true := by
  decide +kernel

theorem encode36 : chunkB enc2K 3 [Tables.Big5.encRow108, Tables.Big5.encRow109, Tables.Big5.encRow110].flatten
    Files.Big5.encode36 = true := by
  decide +kernel

theorem encode37 : chunkB enc2K 3 [Tables.Big5.encRow111, Tables.Big5.encRow112, Tables.Big5.encRow113].flatten
    Files.Big5.encode37 = true := by
  decide +kernel

theorem encode38 : chunkB enc2K 3 [Tables.Big5.encRow114, Tables.Big5.encRow115, Tables.Big5.encRow116].flatten
    Files.Big5.encode38 = true := by
  decide +kernel

theorem encode39 : chunkB enc2K 3 [Tables.Big5.encRow117, Tables.Big5.encRow118, Tables.Big5.encRow119].flatten
    Files.Big5.encode39 = true := by
  decide +kernel

theorem encode40 : chunkB enc2K 3 [Tables.Big5.encRow120, Tables.Big5.encRow121, Tables.Big5.encRow122].flatten
    Files.Big5.encode40 = true := by
  decide +kernel

theorem encode41 : chunkB enc2K 3 [Tables.Big5.encRow123, Tables.Big5.encRow124, Tables.Big5.encRow125].flatten
    Files.Big5.encode41 = true := by
  decide +kernel

theorem encode42 : chunkB enc2K 3 [Tables.Big5.encRow126, Tables.Big5.encRow127, Tables.Big5.encRow128].flatten
    Files.Big5.encode42 = true := by
  decide +kernel

theorem encode43 : chunkB enc2K 3 [Tables.Big5.encRow129, Tables.Big5.encRow130, Tables.Big5.encRow131].flatten
    Files.Big5.encode43 = true := by
  decide +kernel

theorem encode44 : chunkB enc2K 3 [Tables.Big5.encRow132, Tables.Big5.encRow133, Tables.Big5.encRow134].flatten
    Files.Big5.encode44 = true := by
  decide +kernel

theorem encode45 : chunkB enc2K 3 [Tables.Big5.encRow135, Tables.Big5.encRow136, Tables.Big5.encRow137].flatten
    Files.Big5.encode45 = true := by
  decide +kernel

theorem encode46 : chunkB enc2K 3 [Tables.Big5.encRow138, Tables.Big5.encRow139, Tables.Big5.encRow140].flatten
    Files.Big5.encode46 = true := by
  decide +kernel

theorem encode47 : chunkB enc2K 3 [Tables.Big5.encRow141, Tables.Big5.encRow142, Tables.Big5.encRow143].flatten
    Files.Big5.encode47 = true := by
  decide +kernel

theorem encode48 : linesEqB (rowLines enc2K 3 (List.length [Tables.Big5.encRow144].flatten) [Tables.Big5.encRow144].flatten)
    Files.Big5.encode48 = true := by
  decide +kernel

end Verif.Generator.Big5
