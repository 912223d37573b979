import Verif.Encoding

/-! # The least size of a buffer with which every call gets on -/

namespace Verif.Spec

/-- The least buffer for decoding: the UTF-8 bytes of the longest text of one code. -/
def leastDecodeBuffer : Encoding → Nat
  | .Utf8 | .Utf16BE | .Utf16LE | .Utf32BE | .Utf32LE | .Big5WHATWG => 4
  | .Ascii => 1
  | .Iso8859_1 | .Iso8859_2 | .Iso8859_3 | .Iso8859_4 | .Iso8859_6 | .Iso8859_9 => 2
  | _ => 3

/-- The least buffer for encoding: the bytes of the longest code. -/
def leastEncodeBuffer : Encoding → Nat
  | .Utf8 | .Utf16BE | .Utf16LE | .Utf32BE | .Utf32LE => 4
  | .Big5WHATWG | .ShiftJISWHATWG => 2
  | _ => 1

/-- The least memory for the text in order to encode it piece by piece: the longest char, after one
of the two letters that Big5 keeps until it has seen the next char. -/
def leastEncodeMemory : Encoding → Nat
  | .Big5WHATWG => 6
  | _ => 4

end Verif.Spec
