import Verif.Files.SingleByte2
import Verif.Proof.FileChecks
import Verif.Spec.Published.SingleByte
import Verif.Tables.SingleByte

/-! Generated by tools/gen_files.py: the kernel compares the copies with the tables. -/

namespace Verif.Generator

theorem iso_8859_10_mapping : linesB byteLineB nilB Files.iso_8859_10_mapping Spec.Published.iso_8859_10 = true := by
  decide +kernel

theorem iso_8859_10_source : linesEqB (asciiExtLines Tables.iso_8859_10_decode Tables.iso_8859_10_encode)
    Files.iso_8859_10_source = true := by
  decide +kernel

theorem iso_8859_11_mapping : linesB byteLineB nilB Files.iso_8859_11_mapping Spec.Published.iso_8859_11 = true := by
  decide +kernel

theorem iso_8859_11_source : linesEqB (asciiExtLines Tables.iso_8859_11_decode Tables.iso_8859_11_encode)
    Files.iso_8859_11_source = true := by
  decide +kernel

theorem iso_8859_13_mapping : linesB byteLineB nilB Files.iso_8859_13_mapping Spec.Published.iso_8859_13 = true := by
  decide +kernel

theorem iso_8859_13_source : linesEqB (asciiExtLines Tables.iso_8859_13_decode Tables.iso_8859_13_encode)
    Files.iso_8859_13_source = true := by
  decide +kernel

theorem iso_8859_14_mapping : linesB byteLineB nilB Files.iso_8859_14_mapping Spec.Published.iso_8859_14 = true := by
  decide +kernel

theorem iso_8859_14_source : linesEqB (asciiExtLines Tables.iso_8859_14_decode Tables.iso_8859_14_encode)
    Files.iso_8859_14_source = true := by
  decide +kernel

theorem iso_8859_15_mapping : linesB byteLineB nilB Files.iso_8859_15_mapping Spec.Published.iso_8859_15 = true := by
  decide +kernel

theorem iso_8859_15_source : linesEqB (asciiExtLines Tables.iso_8859_15_decode Tables.iso_8859_15_encode)
    Files.iso_8859_15_source = true := by
  decide +kernel

theorem iso_8859_16_mapping : linesB byteLineB nilB Files.iso_8859_16_mapping Spec.Published.iso_8859_16 = true := by
  decide +kernel

theorem iso_8859_16_source : linesEqB (asciiExtLines Tables.iso_8859_16_decode Tables.iso_8859_16_encode)
    Files.iso_8859_16_source = true := by
  decide +kernel

theorem koi8_r_mapping : linesB byteLineB nilB Files.koi8_r_mapping Spec.Published.koi8_r = true := by
  decide +kernel

theorem koi8_r_source : linesEqB (asciiExtLines Tables.koi8_r_decode Tables.koi8_r_encode)
    Files.koi8_r_source = true := by
  decide +kernel

theorem koi8_u_mapping : linesB byteLineB nilB Files.koi8_u_mapping Spec.Published.koi8_u = true := by
  decide +kernel

theorem koi8_u_source : linesEqB (asciiExtLines Tables.koi8_u_decode Tables.koi8_u_encode)
    Files.koi8_u_source = true := by
  decide +kernel

theorem mac_roman_mapping : linesB byteLineB nilB Files.mac_roman_mapping Spec.Published.mac_roman = true := by
  decide +kernel

theorem mac_roman_source : linesEqB (asciiExtLines Tables.mac_roman_decode Tables.mac_roman_encode)
    Files.mac_roman_source = true := by
  decide +kernel

theorem mac_cyrillic_mapping : linesB byteLineB nilB Files.mac_cyrillic_mapping Spec.Published.mac_cyrillic = true := by
  decide +kernel

theorem mac_cyrillic_source : linesEqB (asciiExtLines Tables.mac_cyrillic_decode Tables.mac_cyrillic_encode)
    Files.mac_cyrillic_source = true := by
  decide +kernel

end Verif.Generator
