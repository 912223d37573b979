import Verif.Encoding

/-! # How many bytes at the end of a text one has to see to know its last char -/

namespace Verif.Spec

/-- The number of bytes at the end that determine the last char; `none` if no number does. The
first byte of a code in UTF-32BE is always zero. -/
def lookBack : Encoding → Option Nat
  | .ShiftJISWHATWG | .Big5WHATWG => none
  | .Utf8 | .Utf16BE | .Utf16LE | .Utf32LE => some 4
  | .Utf32BE => some 3
  | _ => some 1

end Verif.Spec
