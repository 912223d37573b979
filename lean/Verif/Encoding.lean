/-! # The encodings of the crate, as enumerated by examples/wrapper.rs -/

namespace Verif

/-- One constructor per module of the crate.  examples/wrapper.rs:23-62 -/
inductive Encoding where
  | Utf8
  | Utf16BE
  | Utf16LE
  | Utf32BE
  | Utf32LE
  | Big5WHATWG
  | ShiftJISWHATWG
  | Ascii
  | Ibm866
  | Iso8859_1
  | Iso8859_2
  | Iso8859_3
  | Iso8859_4
  | Iso8859_5
  | Iso8859_6
  | Iso8859_7
  | Iso8859_8
  | Iso8859_9
  | Iso8859_10
  | Iso8859_11
  | Iso8859_13
  | Iso8859_14
  | Iso8859_15
  | Iso8859_16
  | Koi8R
  | Koi8U
  | Macintosh
  | MacCyrillic
  | Windows874
  | Windows1250
  | Windows1251
  | Windows1252
  | Windows1253
  | Windows1254
  | Windows1255
  | Windows1256
  | Windows1257
  | Windows1258
  deriving DecidableEq, Repr

end Verif
