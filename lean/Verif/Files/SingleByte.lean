import Verif.Files.SingleByte1
import Verif.Files.SingleByte2
import Verif.Files.SingleByte3
import Verif.Encoding

/-! Generated by tools/gen_files.py: the files of the single-byte encodings. -/

namespace Verif.Files

/-- The mapping file of an encoding, by lines; `[]` for ASCII and the multi-byte encodings.
encoding_tables/single_byte/ascii_ext -/
noncomputable def mapping : Encoding → List Text
  | .Ibm866 => ibm_866_mapping
  | .Iso8859_1 => iso_8859_1_mapping
  | .Iso8859_2 => iso_8859_2_mapping
  | .Iso8859_3 => iso_8859_3_mapping
  | .Iso8859_4 => iso_8859_4_mapping
  | .Iso8859_5 => iso_8859_5_mapping
  | .Iso8859_6 => iso_8859_6_mapping
  | .Iso8859_7 => iso_8859_7_mapping
  | .Iso8859_8 => iso_8859_8_mapping
  | .Iso8859_9 => iso_8859_9_mapping
  | .Iso8859_10 => iso_8859_10_mapping
  | .Iso8859_11 => iso_8859_11_mapping
  | .Iso8859_13 => iso_8859_13_mapping
  | .Iso8859_14 => iso_8859_14_mapping
  | .Iso8859_15 => iso_8859_15_mapping
  | .Iso8859_16 => iso_8859_16_mapping
  | .Koi8R => koi8_r_mapping
  | .Koi8U => koi8_u_mapping
  | .Macintosh => mac_roman_mapping
  | .MacCyrillic => mac_cyrillic_mapping
  | .Windows874 => windows_874_mapping
  | .Windows1250 => windows_1250_mapping
  | .Windows1251 => windows_1251_mapping
  | .Windows1252 => windows_1252_mapping
  | .Windows1253 => windows_1253_mapping
  | .Windows1254 => windows_1254_mapping
  | .Windows1255 => windows_1255_mapping
  | .Windows1256 => windows_1256_mapping
  | .Windows1257 => windows_1257_mapping
  | .Windows1258 => windows_1258_mapping
  | _ => []

/-- The source that src/single_byte.rs includes as the module of an encoding, by lines; `[]` for
ASCII and the multi-byte encodings.  src/single_byte.rs:21-265, src/generated/single_byte -/
noncomputable def source : Encoding → List Text
  | .Ibm866 => ibm_866_source
  | .Iso8859_1 => iso_8859_1_source
  | .Iso8859_2 => iso_8859_2_source
  | .Iso8859_3 => iso_8859_3_source
  | .Iso8859_4 => iso_8859_4_source
  | .Iso8859_5 => iso_8859_5_source
  | .Iso8859_6 => iso_8859_6_source
  | .Iso8859_7 => iso_8859_7_source
  | .Iso8859_8 => iso_8859_8_source
  | .Iso8859_9 => iso_8859_9_source
  | .Iso8859_10 => iso_8859_10_source
  | .Iso8859_11 => iso_8859_11_source
  | .Iso8859_13 => iso_8859_13_source
  | .Iso8859_14 => iso_8859_14_source
  | .Iso8859_15 => iso_8859_15_source
  | .Iso8859_16 => iso_8859_16_source
  | .Koi8R => koi8_r_source
  | .Koi8U => koi8_u_source
  | .Macintosh => mac_roman_source
  | .MacCyrillic => mac_cyrillic_source
  | .Windows874 => windows_874_source
  | .Windows1250 => windows_1250_source
  | .Windows1251 => windows_1251_source
  | .Windows1252 => windows_1252_source
  | .Windows1253 => windows_1253_source
  | .Windows1254 => windows_1254_source
  | .Windows1255 => windows_1255_source
  | .Windows1256 => windows_1256_source
  | .Windows1257 => windows_1257_source
  | .Windows1258 => windows_1258_source
  | _ => []

end Verif.Files
