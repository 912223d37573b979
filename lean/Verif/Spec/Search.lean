import Verif.Encoding

/-! # The size of the units an encoding is made of -/

namespace Verif.Spec

/-- The number of bytes of a code unit. -/
def unitSize : Encoding → Nat
  | .Utf16BE | .Utf16LE => 2
  | .Utf32BE | .Utf32LE => 4
  | _ => 1

end Verif.Spec
