import Verif.Encoding

/-! # Worst-case growth factors of the conversions -/

namespace Verif.Spec

/-- Decoding `n` bytes gives at most `num * n / den` bytes of UTF-8: `(num, den)`. -/
def decodeGrowth : Encoding → Nat × Nat
  | .Utf8 | .Utf32BE | .Utf32LE | .Ascii => (1, 1)
  | .Utf16BE | .Utf16LE => (3, 2)
  | .Big5WHATWG => (2, 1)
  | .Iso8859_1 | .Iso8859_2 | .Iso8859_3 | .Iso8859_4 | .Iso8859_6 | .Iso8859_9 => (2, 1)
  | _ => (3, 1)

/-- Encoding `n` bytes of UTF-8 gives at most `encodeGrowth e * n` bytes. -/
def encodeGrowth : Encoding → Nat
  | .Utf16BE | .Utf16LE => 2
  | .Utf32BE | .Utf32LE => 4
  | _ => 1

end Verif.Spec
