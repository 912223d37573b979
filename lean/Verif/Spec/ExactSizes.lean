import Verif.Encoding

/-! # How many bytes a char takes in each encoding -/

namespace Verif.Spec

/-- The number of bytes a char takes.  In Big5 the combining marks U+0304 and U+030C have no code
of their own: they only occur after U+00CA or U+00EA, in the two bytes of the common code. -/
def charSize : Encoding → Char → Nat
  | .Utf8, c =>
    if c.toNat < 0x80 then 1 else if c.toNat < 0x800 then 2 else if c.toNat < 0x10000 then 3 else 4
  | .Utf16BE, c | .Utf16LE, c => if c.toNat < 0x10000 then 2 else 4
  | .Utf32BE, _ | .Utf32LE, _ => 4
  | .ShiftJISWHATWG, c =>
    if c.toNat ≤ 0x80 ∨ c = '¥' ∨ c = '‾' ∨ (0xFF61 ≤ c.toNat ∧ c.toNat ≤ 0xFF9F) then 1 else 2
  | .Big5WHATWG, c =>
    if c.toNat < 0x80 then 1 else if c.toNat = 0x304 ∨ c.toNat = 0x30C then 0 else 2
  | _, _ => 1

/-- The number of bytes a text takes. -/
def size (e : Encoding) (text : List Char) : Nat := (text.map (charSize e)).sum

end Verif.Spec
