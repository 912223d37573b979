import Verif.Encoding

/-! # How many bytes an error covers -/

namespace Verif.Spec

/-- The number of bytes of the UTF-8 sequence that a byte seems to start, from its high bits. -/
def utf8Announced (b : UInt8) : Nat :=
  if 0xC0 ≤ b.toNat ∧ b.toNat ≤ 0xDF then 2
  else if 0xE0 ≤ b.toNat ∧ b.toNat ≤ 0xEF then 3
  else if 0xF0 ≤ b.toNat ∧ b.toNat ≤ 0xF7 then 4
  else 1

/-- Bytes that cannot start a UTF-8 sequence: continuation bytes, and bytes from 0xF8. -/
def utf8NotStart (b : UInt8) : Bool := (0x80 ≤ b.toNat && b.toNat ≤ 0xBF) || 0xF8 ≤ b.toNat

/-- UTF-16: the whole of a tail of one byte, or of a high surrogate and one more byte; otherwise
one code unit. `high` says whether the first two bytes are a high surrogate. -/
def utf16Extent (high : Nat → Nat → Prop) [∀ a b, Decidable (high a b)] : List UInt8 → Nat
  | [_] => 1
  | [a, b, _] => if high a.toNat b.toNat then 3 else 2
  | _ => 2

/-- The number of bytes that the error at the start of the undecodable bytes `rest` covers. -/
def errorExtent (e : Encoding) (rest : List UInt8) : Nat :=
  match e with
  | .Utf8 =>
    match rest with
    | [] => 0
    | b :: r =>
      -- cut off by the end of the data: all of it; else up to the next possible start
      if rest.length < utf8Announced b then rest.length else 1 + (r.takeWhile utf8NotStart).length
  | .Utf16BE => utf16Extent (fun a _ => 0xD8 ≤ a ∧ a ≤ 0xDB) rest
  | .Utf16LE => utf16Extent (fun _ b => 0xD8 ≤ b ∧ b ≤ 0xDB) rest
  | .Utf32BE | .Utf32LE => min 4 rest.length
  | .ShiftJISWHATWG =>
    match rest with
    | lead :: trail :: _ =>
      if (0x81 ≤ lead.toNat ∧ lead.toNat ≤ 0x9F ∨ 0xE0 ≤ lead.toNat ∧ lead.toNat ≤ 0xFC) ∧
        0x80 ≤ trail.toNat then 2 else 1
    | _ => 1
  | .Big5WHATWG =>
    match rest with
    | lead :: trail :: _ =>
      if 0x81 ≤ lead.toNat ∧ lead.toNat ≤ 0xFE ∧ 0x80 ≤ trail.toNat then 2 else 1
    | _ => 1
  | _ => 1

end Verif.Spec
