/-! # Swapping the bytes of code units -/

namespace Verif.Spec

/-- Swap the bytes of each 16-bit unit (a last odd byte stays). -/
def swap16 : List UInt8 → List UInt8
  | a :: b :: r => b :: a :: swap16 r
  | r => r

/-- Reverse the bytes of each 32-bit unit (the last one to three bytes stay). -/
def swap32 : List UInt8 → List UInt8
  | a :: b :: c :: d :: r => d :: c :: b :: a :: swap32 r
  | r => r

end Verif.Spec
