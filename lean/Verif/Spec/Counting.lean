import Verif.Encoding

/-! # Counting the chars of encoded text without decoding it -/

namespace Verif.Spec

/-- The number of 16-bit units that are not low surrogates; `high` tells which of the two bytes is
the more significant one. -/
def countUnits16 (high : UInt8 → UInt8 → UInt8) : List UInt8 → Nat
  | a :: b :: rest =>
    (if 0xDC ≤ (high a b).toNat ∧ (high a b).toNat ≤ 0xDF then 0 else 1) + countUnits16 high rest
  | _ => 0

/-- The number of Shift JIS codes: a lead byte and the byte after it are one code. -/
def countShiftJis : List UInt8 → Nat
  | [] => 0
  | [_] => 1
  | a :: b :: rest =>
    if 0x81 ≤ a.toNat ∧ a.toNat ≤ 0x9F ∨ 0xE0 ≤ a.toNat then 1 + countShiftJis rest
    else 1 + countShiftJis (b :: rest)

/-- The number of Big5 codes, where the four codes of two chars count twice. -/
def countBig5 : List UInt8 → Nat
  | [] => 0
  | [_] => 1
  | a :: b :: rest =>
    if a.toNat < 0x80 then 1 + countBig5 (b :: rest)
    else if a = 0x88 ∧ b ∈ [0x62, 0x64, 0xA3, 0xA5] then 2 + countBig5 rest
    else 1 + countBig5 rest

/-- The number of chars of text in the encoding. -/
def countChars (e : Encoding) (bytes : List UInt8) : Nat :=
  match e with
  | .Utf8 => (bytes.filter fun b => !(decide (0x80 ≤ b.toNat) && decide (b.toNat ≤ 0xBF))).length
  | .Utf16BE => countUnits16 (fun a _ => a) bytes
  | .Utf16LE => countUnits16 (fun _ b => b) bytes
  | .Utf32BE | .Utf32LE => bytes.length / 4
  | .ShiftJISWHATWG => countShiftJis bytes
  | .Big5WHATWG => countBig5 bytes
  | _ => bytes.length

end Verif.Spec
