import Verif.Tables.SingleByte
import Verif.Encoding

/-! # Which tables each module of src/single_byte.rs includes -/

namespace Verif.SingleByte

/-- The encodings of the module `single_byte`.  src/single_byte.rs:8-265 -/
def isSingle : Encoding → Bool
  | .Utf8 | .Utf16BE | .Utf16LE | .Utf32BE | .Utf32LE | .Big5WHATWG | .ShiftJISWHATWG => false
  | _ => true

/-- The code points of the `DECODE_TABLE` of a single-byte module (for ASCII, of `&['�'; 128]`).
src/single_byte.rs:8-265: the `include!` of each module -/
def decTab : Encoding → List Nat
  | .Ibm866 => Tables.ibm_866_decode
  | .Iso8859_1 => Tables.iso_8859_1_decode
  | .Iso8859_2 => Tables.iso_8859_2_decode
  | .Iso8859_3 => Tables.iso_8859_3_decode
  | .Iso8859_4 => Tables.iso_8859_4_decode
  | .Iso8859_5 => Tables.iso_8859_5_decode
  | .Iso8859_6 => Tables.iso_8859_6_decode
  | .Iso8859_7 => Tables.iso_8859_7_decode
  | .Iso8859_8 => Tables.iso_8859_8_decode
  | .Iso8859_9 => Tables.iso_8859_9_decode
  | .Iso8859_10 => Tables.iso_8859_10_decode
  | .Iso8859_11 => Tables.iso_8859_11_decode
  | .Iso8859_13 => Tables.iso_8859_13_decode
  | .Iso8859_14 => Tables.iso_8859_14_decode
  | .Iso8859_15 => Tables.iso_8859_15_decode
  | .Iso8859_16 => Tables.iso_8859_16_decode
  | .Koi8R => Tables.koi8_r_decode
  | .Koi8U => Tables.koi8_u_decode
  | .Macintosh => Tables.mac_roman_decode
  | .MacCyrillic => Tables.mac_cyrillic_decode
  | .Windows874 => Tables.windows_874_decode
  | .Windows1250 => Tables.windows_1250_decode
  | .Windows1251 => Tables.windows_1251_decode
  | .Windows1252 => Tables.windows_1252_decode
  | .Windows1253 => Tables.windows_1253_decode
  | .Windows1254 => Tables.windows_1254_decode
  | .Windows1255 => Tables.windows_1255_decode
  | .Windows1256 => Tables.windows_1256_decode
  | .Windows1257 => Tables.windows_1257_decode
  | .Windows1258 => Tables.windows_1258_decode
  | _ => List.replicate 128 0xFFFD

/-- The entries of the `ENCODE_TABLE` of a single-byte module (for ASCII, of `&[]`).
src/single_byte.rs:8-265: the `include!` of each module -/
def encTab : Encoding → List (Nat × Nat)
  | .Ibm866 => Tables.ibm_866_encode
  | .Iso8859_1 => Tables.iso_8859_1_encode
  | .Iso8859_2 => Tables.iso_8859_2_encode
  | .Iso8859_3 => Tables.iso_8859_3_encode
  | .Iso8859_4 => Tables.iso_8859_4_encode
  | .Iso8859_5 => Tables.iso_8859_5_encode
  | .Iso8859_6 => Tables.iso_8859_6_encode
  | .Iso8859_7 => Tables.iso_8859_7_encode
  | .Iso8859_8 => Tables.iso_8859_8_encode
  | .Iso8859_9 => Tables.iso_8859_9_encode
  | .Iso8859_10 => Tables.iso_8859_10_encode
  | .Iso8859_11 => Tables.iso_8859_11_encode
  | .Iso8859_13 => Tables.iso_8859_13_encode
  | .Iso8859_14 => Tables.iso_8859_14_encode
  | .Iso8859_15 => Tables.iso_8859_15_encode
  | .Iso8859_16 => Tables.iso_8859_16_encode
  | .Koi8R => Tables.koi8_r_encode
  | .Koi8U => Tables.koi8_u_encode
  | .Macintosh => Tables.mac_roman_encode
  | .MacCyrillic => Tables.mac_cyrillic_encode
  | .Windows874 => Tables.windows_874_encode
  | .Windows1250 => Tables.windows_1250_encode
  | .Windows1251 => Tables.windows_1251_encode
  | .Windows1252 => Tables.windows_1252_encode
  | .Windows1253 => Tables.windows_1253_encode
  | .Windows1254 => Tables.windows_1254_encode
  | .Windows1255 => Tables.windows_1255_encode
  | .Windows1256 => Tables.windows_1256_encode
  | .Windows1257 => Tables.windows_1257_encode
  | .Windows1258 => Tables.windows_1258_encode
  | _ => []

end Verif.SingleByte
