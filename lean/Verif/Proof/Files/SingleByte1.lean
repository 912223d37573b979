import Verif.Files.SingleByte1
import Verif.Proof.FileChecks
import Verif.Spec.Published.SingleByte
import Verif.Tables.SingleByte

/-! Generated by tools/gen_files.py: the kernel compares the copies with the tables. -/

namespace Verif.Generator

theorem ibm_866_mapping : linesB byteLineB nilB Files.ibm_866_mapping Spec.Published.ibm_866 = true := by
  decide +kernel

theorem ibm_866_source : linesEqB (asciiExtLines Tables.ibm_866_decode Tables.ibm_866_encode)
    Files.ibm_866_source = true := by
  decide +kernel

theorem iso_8859_1_mapping : linesB byteLineB nilB Files.iso_8859_1_mapping Spec.Published.iso_8859_1 = true := by
  decide +kernel

theorem iso_8859_1_source : linesEqB (asciiExtLines Tables.iso_8859_1_decode Tables.iso_8859_1_encode)
    Files.iso_8859_1_source = true := by
  decide +kernel

theorem iso_8859_2_mapping : linesB byteLineB nilB Files.iso_8859_2_mapping Spec.Published.iso_8859_2 = true := by
  decide +kernel

theorem iso_8859_2_source : linesEqB (asciiExtLines Tables.iso_8859_2_decode Tables.iso_8859_2_encode)
    Files.iso_8859_2_source = true := by
  decide +kernel

theorem iso_8859_3_mapping : linesB byteLineB nilB Files.iso_8859_3_mapping Spec.Published.iso_8859_3 = true := by
  decide +kernel

theorem iso_8859_3_source : linesEqB (asciiExtLines Tables.iso_8859_3_decode Tables.iso_8859_3_encode)
    Files.iso_8859_3_source = true := by
  decide +kernel

theorem iso_8859_4_mapping : linesB byteLineB nilB Files.iso_8859_4_mapping Spec.Published.iso_8859_4 = true := by
  decide +kernel

theorem iso_8859_4_source : linesEqB (asciiExtLines Tables.iso_8859_4_decode Tables.iso_8859_4_encode)
    Files.iso_8859_4_source = true := by
  decide +kernel

theorem iso_8859_5_mapping : linesB byteLineB nilB Files.iso_8859_5_mapping Spec.Published.iso_8859_5 = true := by
  decide +kernel

theorem iso_8859_5_source : linesEqB (asciiExtLines Tables.iso_8859_5_decode Tables.iso_8859_5_encode)
    Files.iso_8859_5_source = true := by
  decide +kernel

theorem iso_8859_6_mapping : linesB byteLineB nilB Files.iso_8859_6_mapping Spec.Published.iso_8859_6 = true := by
  decide +kernel

theorem iso_8859_6_source : linesEqB (asciiExtLines Tables.iso_8859_6_decode Tables.iso_8859_6_encode)
    Files.iso_8859_6_source = true := by
  decide +kernel

theorem iso_8859_7_mapping : linesB byteLineB nilB Files.iso_8859_7_mapping Spec.Published.iso_8859_7 = true := by
  decide +kernel

theorem iso_8859_7_source : linesEqB (asciiExtLines Tables.iso_8859_7_decode Tables.iso_8859_7_encode)
    Files.iso_8859_7_source = true := by
  decide +kernel

theorem iso_8859_8_mapping : linesB byteLineB nilB Files.iso_8859_8_mapping Spec.Published.iso_8859_8 = true := by
  decide +kernel

theorem iso_8859_8_source : linesEqB (asciiExtLines Tables.iso_8859_8_decode Tables.iso_8859_8_encode)
    Files.iso_8859_8_source = true := by
  decide +kernel

theorem iso_8859_9_mapping : linesB byteLineB nilB Files.iso_8859_9_mapping Spec.Published.iso_8859_9 = true := by
  decide +kernel

theorem iso_8859_9_source : linesEqB (asciiExtLines Tables.iso_8859_9_decode Tables.iso_8859_9_encode)
    Files.iso_8859_9_source = true := by
  decide +kernel

end Verif.Generator
