import Verif.Encoding
import Verif.Lang.Semantics

/-!
# The API, as values of the interpreter

Independent of the model: the module of each encoding, the arguments of its functions and what their
results look like.
-/

namespace Verif.Lang

/-- The path of the module of an encoding.  src/lib.rs:222-229, src/single_byte.rs:7-265 -/
def modulePath : Encoding → List String
  | .Utf8 => ["utf8"]
  | .Utf16BE => ["utf16_be"]
  | .Utf16LE => ["utf16_le"]
  | .Utf32BE => ["utf32_be"]
  | .Utf32LE => ["utf32_le"]
  | .Big5WHATWG => ["big5_whatwg"]
  | .ShiftJISWHATWG => ["shiftjis_whatwg"]
  | .Ascii => ["single_byte", "ascii"]
  | .Ibm866 => ["single_byte", "ibm_866"]
  | .Iso8859_1 => ["single_byte", "iso_8859_1"]
  | .Iso8859_2 => ["single_byte", "iso_8859_2"]
  | .Iso8859_3 => ["single_byte", "iso_8859_3"]
  | .Iso8859_4 => ["single_byte", "iso_8859_4"]
  | .Iso8859_5 => ["single_byte", "iso_8859_5"]
  | .Iso8859_6 => ["single_byte", "iso_8859_6"]
  | .Iso8859_7 => ["single_byte", "iso_8859_7"]
  | .Iso8859_8 => ["single_byte", "iso_8859_8"]
  | .Iso8859_9 => ["single_byte", "iso_8859_9"]
  | .Iso8859_10 => ["single_byte", "iso_8859_10"]
  | .Iso8859_11 => ["single_byte", "iso_8859_11"]
  | .Iso8859_13 => ["single_byte", "iso_8859_13"]
  | .Iso8859_14 => ["single_byte", "iso_8859_14"]
  | .Iso8859_15 => ["single_byte", "iso_8859_15"]
  | .Iso8859_16 => ["single_byte", "iso_8859_16"]
  | .Koi8R => ["single_byte", "koi8_r"]
  | .Koi8U => ["single_byte", "koi8_u"]
  | .Macintosh => ["single_byte", "mac_roman"]
  | .MacCyrillic => ["single_byte", "mac_cyrillic"]
  | .Windows874 => ["single_byte", "windows_874"]
  | .Windows1250 => ["single_byte", "windows_1250"]
  | .Windows1251 => ["single_byte", "windows_1251"]
  | .Windows1252 => ["single_byte", "windows_1252"]
  | .Windows1253 => ["single_byte", "windows_1253"]
  | .Windows1254 => ["single_byte", "windows_1254"]
  | .Windows1255 => ["single_byte", "windows_1255"]
  | .Windows1256 => ["single_byte", "windows_1256"]
  | .Windows1257 => ["single_byte", "windows_1257"]
  | .Windows1258 => ["single_byte", "windows_1258"]

/-- The name of an encoding in `enum Encoding`.  examples/wrapper.rs:23-62 -/
def encodingName : Encoding → String
  | .Utf8 => "Utf8"
  | .Utf16BE => "Utf16BE"
  | .Utf16LE => "Utf16LE"
  | .Utf32BE => "Utf32BE"
  | .Utf32LE => "Utf32LE"
  | .Big5WHATWG => "Big5WHATWG"
  | .ShiftJISWHATWG => "ShiftJISWHATWG"
  | .Ascii => "Ascii"
  | .Ibm866 => "Ibm866"
  | .Iso8859_1 => "Iso8859_1"
  | .Iso8859_2 => "Iso8859_2"
  | .Iso8859_3 => "Iso8859_3"
  | .Iso8859_4 => "Iso8859_4"
  | .Iso8859_5 => "Iso8859_5"
  | .Iso8859_6 => "Iso8859_6"
  | .Iso8859_7 => "Iso8859_7"
  | .Iso8859_8 => "Iso8859_8"
  | .Iso8859_9 => "Iso8859_9"
  | .Iso8859_10 => "Iso8859_10"
  | .Iso8859_11 => "Iso8859_11"
  | .Iso8859_13 => "Iso8859_13"
  | .Iso8859_14 => "Iso8859_14"
  | .Iso8859_15 => "Iso8859_15"
  | .Iso8859_16 => "Iso8859_16"
  | .Koi8R => "Koi8R"
  | .Koi8U => "Koi8U"
  | .Macintosh => "Macintosh"
  | .MacCyrillic => "MacCyrillic"
  | .Windows874 => "Windows874"
  | .Windows1250 => "Windows1250"
  | .Windows1251 => "Windows1251"
  | .Windows1252 => "Windows1252"
  | .Windows1253 => "Windows1253"
  | .Windows1254 => "Windows1254"
  | .Windows1255 => "Windows1255"
  | .Windows1256 => "Windows1256"
  | .Windows1257 => "Windows1257"
  | .Windows1258 => "Windows1258"

/-- The arguments of an encoder. Only that of Big5 has the third one. -/
def encodeArgs (e : Encoding) (input : Str) (buf : Bytes) (is_end : Bool) : List Value :=
  match e with
  | .Big5WHATWG => [.str input, bytes buf, .bool is_end]
  | _ => [.str input, bytes buf]

/-- The arguments of a decoder. Those of the modules of `single_byte` have two. -/
def decodeArgs (e : Encoding) (input buf : Bytes) (is_end : Bool) : List Value :=
  match modulePath e with
  | [_] => [bytes input, bytes buf, .bool is_end]
  | _ => [bytes input, bytes buf]

/-- What is left behind the parameters: only the second one is a `&mut`. -/
def left (args : List Value) (buf : Bytes) : List (Option Value) :=
  none :: some (bytes buf) :: (args.drop 2).map fun _ => none

/-- `Err(EncodeError { … })` -/
def encErr (e : EncodeError) : Value :=
  .variant "Err" [.struct "EncodeError" ["character", "error_range", "output_bytes_written"]
    [.char e.character, .tuple [.int .usize e.error_range.1, .int .usize e.error_range.2],
      .int .usize e.output_bytes_written]]

/-- `Ok((s, n))` of an encoder. -/
def encOk (s : Bytes) (n : Nat) : Value := .variant "Ok" [.tuple [bytes s, .int .usize n]]

/-- The result of an encoder. -/
def encodeValue : EncodeResult → Value
  | .ok (s, n) => encOk s n
  | .error e => encErr e

/-- The name of a cause. -/
def causeName : DecodeErrorCause → String
  | .InvalidData => "InvalidData"
  | .UnknownConversion => "UnknownConversion"

/-- `Err(DecodeError { … })` -/
def decErr (e : DecodeError) : Value :=
  .variant "Err" [.struct "DecodeError" ["cause", "error_range", "output_bytes_written"]
    [.variant (causeName e.cause) [],
      .tuple [.int .usize e.error_range.1, .int .usize e.error_range.2],
      .int .usize e.output_bytes_written]]

/-- `Ok((s, n))` of a decoder. -/
def decOk (s : Str) (n : Nat) : Value := .variant "Ok" [.tuple [.str s, .int .usize n]]

/-- The result of a decoder. -/
def decodeValue : DecodeResult → Value
  | .ok (s, n) => decOk s n
  | .error e => decErr e

end Verif.Lang
