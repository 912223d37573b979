import Verif.Model.Utf8
import Verif.Model.Utf16
import Verif.Model.Utf32
import Verif.Model.SingleByte
import Verif.Model.ShiftJis
import Verif.Model.Big5
import Verif.Tables.SingleByte
import Verif.Encoding

/-! # The single-byte modules and the dispatcher of examples/wrapper.rs -/

namespace Verif

/-- A `DECODE_TABLE` constant from its code points.  src/generated/, included by
src/single_byte.rs:26 and so on, src/shiftjis_whatwg.rs:11 and src/big5_whatwg.rs:13 -/
def decTable (t : List Nat) : List Char := t.map Char.ofNat

/-- An `ENCODE_TABLE` constant of a single-byte module from its entries.
src/generated/single_byte/, included by src/single_byte.rs:26 and so on -/
def encTable (t : List (Nat × Nat)) : List (Char × UInt8) :=
  t.map fun e => (Char.ofNat e.1, UInt8.ofNat e.2)

/-- The table `&['�'; 128]`.  src/single_byte.rs:17 -/
def asciiDecTable : List Char := List.replicate 128 '�'

/-- `encode_from_str` of the wrapper.  examples/wrapper.rs:65-111.  The calls into a module of
`single_byte` are replaced by the body of that module's `encode_from_str`
(src/single_byte.rs:13 for `ascii`; lines 13-18 of src/generated/single_byte/*_tables.rs.inc for
the others, which `single_byte.rs` includes at the line given). -/
def encode_from_str (output_encoding : Encoding) (input : Str) (output : Bytes) (is_end : Bool) :
    Rs (Bytes × EncodeResult) :=
  match output_encoding with
  | .Utf8 => Utf8.encode_from_str input output
  | .Utf16BE => Utf16.encode_from_str Utf16.be input output
  | .Utf16LE => Utf16.encode_from_str Utf16.le input output
  | .Utf32BE => Utf32.encode_from_str Utf32.be input output
  | .Utf32LE => Utf32.encode_from_str Utf32.le input output
  | .Big5WHATWG => Big5.encode_from_str input output is_end
  | .ShiftJISWHATWG => ShiftJis.encode_from_str input output
  | .Ascii => SingleByte.ascii_ext_encode_from_str [] input output
  | .Ibm866 => SingleByte.ascii_ext_encode_from_str (encTable Tables.ibm_866_encode) input output -- single_byte.rs:21
  | .Iso8859_1 => SingleByte.ascii_ext_encode_from_str (encTable Tables.iso_8859_1_encode) input output -- single_byte.rs:29
  | .Iso8859_2 => SingleByte.ascii_ext_encode_from_str (encTable Tables.iso_8859_2_encode) input output -- single_byte.rs:39
  | .Iso8859_3 => SingleByte.ascii_ext_encode_from_str (encTable Tables.iso_8859_3_encode) input output -- single_byte.rs:47
  | .Iso8859_4 => SingleByte.ascii_ext_encode_from_str (encTable Tables.iso_8859_4_encode) input output -- single_byte.rs:55
  | .Iso8859_5 => SingleByte.ascii_ext_encode_from_str (encTable Tables.iso_8859_5_encode) input output -- single_byte.rs:63
  | .Iso8859_6 => SingleByte.ascii_ext_encode_from_str (encTable Tables.iso_8859_6_encode) input output -- single_byte.rs:71
  | .Iso8859_7 => SingleByte.ascii_ext_encode_from_str (encTable Tables.iso_8859_7_encode) input output -- single_byte.rs:79
  | .Iso8859_8 => SingleByte.ascii_ext_encode_from_str (encTable Tables.iso_8859_8_encode) input output -- single_byte.rs:87
  | .Iso8859_9 => SingleByte.ascii_ext_encode_from_str (encTable Tables.iso_8859_9_encode) input output -- single_byte.rs:95
  | .Iso8859_10 => SingleByte.ascii_ext_encode_from_str (encTable Tables.iso_8859_10_encode) input output -- single_byte.rs:103
  | .Iso8859_11 => SingleByte.ascii_ext_encode_from_str (encTable Tables.iso_8859_11_encode) input output -- single_byte.rs:111
  | .Iso8859_13 => SingleByte.ascii_ext_encode_from_str (encTable Tables.iso_8859_13_encode) input output -- single_byte.rs:121
  | .Iso8859_14 => SingleByte.ascii_ext_encode_from_str (encTable Tables.iso_8859_14_encode) input output -- single_byte.rs:129
  | .Iso8859_15 => SingleByte.ascii_ext_encode_from_str (encTable Tables.iso_8859_15_encode) input output -- single_byte.rs:137
  | .Iso8859_16 => SingleByte.ascii_ext_encode_from_str (encTable Tables.iso_8859_16_encode) input output -- single_byte.rs:145
  | .Koi8R => SingleByte.ascii_ext_encode_from_str (encTable Tables.koi8_r_encode) input output -- single_byte.rs:153
  | .Koi8U => SingleByte.ascii_ext_encode_from_str (encTable Tables.koi8_u_encode) input output -- single_byte.rs:161
  | .Macintosh => SingleByte.ascii_ext_encode_from_str (encTable Tables.mac_roman_encode) input output -- single_byte.rs:169
  | .MacCyrillic => SingleByte.ascii_ext_encode_from_str (encTable Tables.mac_cyrillic_encode) input output -- single_byte.rs:179
  | .Windows874 => SingleByte.ascii_ext_encode_from_str (encTable Tables.windows_874_encode) input output -- single_byte.rs:187
  | .Windows1250 => SingleByte.ascii_ext_encode_from_str (encTable Tables.windows_1250_encode) input output -- single_byte.rs:195
  | .Windows1251 => SingleByte.ascii_ext_encode_from_str (encTable Tables.windows_1251_encode) input output -- single_byte.rs:203
  | .Windows1252 => SingleByte.ascii_ext_encode_from_str (encTable Tables.windows_1252_encode) input output -- single_byte.rs:211
  | .Windows1253 => SingleByte.ascii_ext_encode_from_str (encTable Tables.windows_1253_encode) input output -- single_byte.rs:219
  | .Windows1254 => SingleByte.ascii_ext_encode_from_str (encTable Tables.windows_1254_encode) input output -- single_byte.rs:227
  | .Windows1255 => SingleByte.ascii_ext_encode_from_str (encTable Tables.windows_1255_encode) input output -- single_byte.rs:235
  | .Windows1256 => SingleByte.ascii_ext_encode_from_str (encTable Tables.windows_1256_encode) input output -- single_byte.rs:243
  | .Windows1257 => SingleByte.ascii_ext_encode_from_str (encTable Tables.windows_1257_encode) input output -- single_byte.rs:251
  | .Windows1258 => SingleByte.ascii_ext_encode_from_str (encTable Tables.windows_1258_encode) input output -- single_byte.rs:259

/-- `decode_to_str` of the wrapper.  examples/wrapper.rs:114-160.  The calls into a module of
`single_byte` are replaced by the body of that module's `decode_to_str`
(src/single_byte.rs:17 for `ascii`; lines 6-11 of src/generated/single_byte/*_tables.rs.inc for
the others). -/
def decode_to_str (input_encoding : Encoding) (input : Bytes) (output : Bytes) (is_end : Bool) :
    Rs (Bytes × DecodeResult) :=
  match input_encoding with
  | .Utf8 => Utf8.decode_to_str input output is_end
  | .Utf16BE => Utf16.decode_to_str Utf16.be input output is_end
  | .Utf16LE => Utf16.decode_to_str Utf16.le input output is_end
  | .Utf32BE => Utf32.decode_to_str Utf32.be input output is_end
  | .Utf32LE => Utf32.decode_to_str Utf32.le input output is_end
  | .Big5WHATWG => Big5.decode_to_str input output is_end
  | .ShiftJISWHATWG => ShiftJis.decode_to_str input output is_end
  | .Ascii => SingleByte.ascii_ext_decode_to_str asciiDecTable input output
  | .Ibm866 => SingleByte.ascii_ext_decode_to_str (decTable Tables.ibm_866_decode) input output -- single_byte.rs:21
  | .Iso8859_1 => SingleByte.ascii_ext_decode_to_str (decTable Tables.iso_8859_1_decode) input output -- single_byte.rs:29
  | .Iso8859_2 => SingleByte.ascii_ext_decode_to_str (decTable Tables.iso_8859_2_decode) input output -- single_byte.rs:39
  | .Iso8859_3 => SingleByte.ascii_ext_decode_to_str (decTable Tables.iso_8859_3_decode) input output -- single_byte.rs:47
  | .Iso8859_4 => SingleByte.ascii_ext_decode_to_str (decTable Tables.iso_8859_4_decode) input output -- single_byte.rs:55
  | .Iso8859_5 => SingleByte.ascii_ext_decode_to_str (decTable Tables.iso_8859_5_decode) input output -- single_byte.rs:63
  | .Iso8859_6 => SingleByte.ascii_ext_decode_to_str (decTable Tables.iso_8859_6_decode) input output -- single_byte.rs:71
  | .Iso8859_7 => SingleByte.ascii_ext_decode_to_str (decTable Tables.iso_8859_7_decode) input output -- single_byte.rs:79
  | .Iso8859_8 => SingleByte.ascii_ext_decode_to_str (decTable Tables.iso_8859_8_decode) input output -- single_byte.rs:87
  | .Iso8859_9 => SingleByte.ascii_ext_decode_to_str (decTable Tables.iso_8859_9_decode) input output -- single_byte.rs:95
  | .Iso8859_10 => SingleByte.ascii_ext_decode_to_str (decTable Tables.iso_8859_10_decode) input output -- single_byte.rs:103
  | .Iso8859_11 => SingleByte.ascii_ext_decode_to_str (decTable Tables.iso_8859_11_decode) input output -- single_byte.rs:111
  | .Iso8859_13 => SingleByte.ascii_ext_decode_to_str (decTable Tables.iso_8859_13_decode) input output -- single_byte.rs:121
  | .Iso8859_14 => SingleByte.ascii_ext_decode_to_str (decTable Tables.iso_8859_14_decode) input output -- single_byte.rs:129
  | .Iso8859_15 => SingleByte.ascii_ext_decode_to_str (decTable Tables.iso_8859_15_decode) input output -- single_byte.rs:137
  | .Iso8859_16 => SingleByte.ascii_ext_decode_to_str (decTable Tables.iso_8859_16_decode) input output -- single_byte.rs:145
  | .Koi8R => SingleByte.ascii_ext_decode_to_str (decTable Tables.koi8_r_decode) input output -- single_byte.rs:153
  | .Koi8U => SingleByte.ascii_ext_decode_to_str (decTable Tables.koi8_u_decode) input output -- single_byte.rs:161
  | .Macintosh => SingleByte.ascii_ext_decode_to_str (decTable Tables.mac_roman_decode) input output -- single_byte.rs:169
  | .MacCyrillic => SingleByte.ascii_ext_decode_to_str (decTable Tables.mac_cyrillic_decode) input output -- single_byte.rs:179
  | .Windows874 => SingleByte.ascii_ext_decode_to_str (decTable Tables.windows_874_decode) input output -- single_byte.rs:187
  | .Windows1250 => SingleByte.ascii_ext_decode_to_str (decTable Tables.windows_1250_decode) input output -- single_byte.rs:195
  | .Windows1251 => SingleByte.ascii_ext_decode_to_str (decTable Tables.windows_1251_decode) input output -- single_byte.rs:203
  | .Windows1252 => SingleByte.ascii_ext_decode_to_str (decTable Tables.windows_1252_decode) input output -- single_byte.rs:211
  | .Windows1253 => SingleByte.ascii_ext_decode_to_str (decTable Tables.windows_1253_decode) input output -- single_byte.rs:219
  | .Windows1254 => SingleByte.ascii_ext_decode_to_str (decTable Tables.windows_1254_decode) input output -- single_byte.rs:227
  | .Windows1255 => SingleByte.ascii_ext_decode_to_str (decTable Tables.windows_1255_decode) input output -- single_byte.rs:235
  | .Windows1256 => SingleByte.ascii_ext_decode_to_str (decTable Tables.windows_1256_decode) input output -- single_byte.rs:243
  | .Windows1257 => SingleByte.ascii_ext_decode_to_str (decTable Tables.windows_1257_decode) input output -- single_byte.rs:251
  | .Windows1258 => SingleByte.ascii_ext_decode_to_str (decTable Tables.windows_1258_decode) input output -- single_byte.rs:259

end Verif
