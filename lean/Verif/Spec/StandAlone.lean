import Verif.Encoding

/-! # The bytes that are never part of a longer code -/

namespace Verif.Spec

/-- The bytes below this bound are ASCII and are not part of any longer code. -/
def standAlone : Encoding → Nat
  | .Utf16BE | .Utf16LE | .Utf32BE | .Utf32LE => 0
  | .ShiftJISWHATWG | .Big5WHATWG => 0x40
  | _ => 0x80

end Verif.Spec
