import Verif.Files.SingleByte3
import Verif.Proof.FileChecks
import Verif.Spec.Published.SingleByte
import Verif.Tables.SingleByte

/-! Generated by tools/gen_files.py: the kernel compares the copies with the tables. -/

namespace Verif.Generator

theorem windows_874_mapping : linesB byteLineB nilB Files.windows_874_mapping Spec.Published.windows_874 = true := by
  decide +kernel

theorem windows_874_source : linesEqB (asciiExtLines Tables.windows_874_decode Tables.windows_874_encode)
    Files.windows_874_source = true := by
  decide +kernel

theorem windows_1250_mapping : linesB byteLineB nilB Files.windows_1250_mapping Spec.Published.windows_1250 = true := by
  decide +kernel

theorem windows_1250_source : linesEqB (asciiExtLines Tables.windows_1250_decode Tables.windows_1250_encode)
    Files.windows_1250_source = true := by
  decide +kernel

theorem windows_1251_mapping : linesB byteLineB nilB Files.windows_1251_mapping Spec.Published.windows_1251 = true := by
  decide +kernel

theorem windows_1251_source : linesEqB (asciiExtLines Tables.windows_1251_decode Tables.windows_1251_encode)
    Files.windows_1251_source = true := by
  decide +kernel

theorem windows_1252_mapping : linesB byteLineB nilB Files.windows_1252_mapping Spec.Published.windows_1252 = true := by
  decide +kernel

theorem windows_1252_source : linesEqB (asciiExtLines Tables.windows_1252_decode Tables.windows_1252_encode)
    Files.windows_1252_source = true := by
  decide +kernel

theorem windows_1253_mapping : linesB byteLineB nilB Files.windows_1253_mapping Spec.Published.windows_1253 = true := by
  decide +kernel

theorem windows_1253_source : linesEqB (asciiExtLines Tables.windows_1253_decode Tables.windows_1253_encode)
    Files.windows_1253_source = true := by
  decide +kernel

theorem windows_1254_mapping : linesB byteLineB nilB Files.windows_1254_mapping Spec.Published.windows_1254 = true := by
  decide +kernel

theorem windows_1254_source : linesEqB (asciiExtLines Tables.windows_1254_decode Tables.windows_1254_encode)
    Files.windows_1254_source = true := by
  decide +kernel

theorem windows_1255_mapping : linesB byteLineB nilB Files.windows_1255_mapping Spec.Published.windows_1255 = true := by
  decide +kernel

theorem windows_1255_source : linesEqB (asciiExtLines Tables.windows_1255_decode Tables.windows_1255_encode)
    Files.windows_1255_source = true := by
  decide +kernel

theorem windows_1256_mapping : linesB byteLineB nilB Files.windows_1256_mapping Spec.Published.windows_1256 = true := by
  decide +kernel

theorem windows_1256_source : linesEqB (asciiExtLines Tables.windows_1256_decode Tables.windows_1256_encode)
    Files.windows_1256_source = true := by
  decide +kernel

theorem windows_1257_mapping : linesB byteLineB nilB Files.windows_1257_mapping Spec.Published.windows_1257 = true := by
  decide +kernel

theorem windows_1257_source : linesEqB (asciiExtLines Tables.windows_1257_decode Tables.windows_1257_encode)
    Files.windows_1257_source = true := by
  decide +kernel

theorem windows_1258_mapping : linesB byteLineB nilB Files.windows_1258_mapping Spec.Published.windows_1258 = true := by
  decide +kernel

theorem windows_1258_source : linesEqB (asciiExtLines Tables.windows_1258_decode Tables.windows_1258_encode)
    Files.windows_1258_source = true := by
  decide +kernel

end Verif.Generator
