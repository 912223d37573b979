/-!
# Specification of the table generators

Independent of the model of the generators.  A mapping file is the list of its lines, each a
byte (or pointer) and a code point.
-/

namespace Verif.Spec

/-- No byte (or pointer) has two lines. -/
def OneLineEach (file : List (Nat × Nat)) : Prop := (file.map (·.1)).Nodup

/-- The file describes an extension of ASCII: bytes, each with at most one line, and all bytes
below 128 stand for themselves. -/
structure AsciiExtension (file : List (Nat × Nat)) : Prop where
  bytes : ∀ b c, (b, c) ∈ file → b < 256
  once : OneLineEach file
  ascii : ∀ b < 128, (b, b) ∈ file

/-- No two bytes stand for the same code point. -/
def OneByteEach (file : List (Nat × Nat)) : Prop :=
  ∀ a b c, (a, c) ∈ file → (b, c) ∈ file → a = b

/-- The code points are scalar values, and not the one used for "undefined". -/
def ProperChars (file : List (Nat × Nat)) : Prop :=
  ∀ b c, (b, c) ∈ file → c.isValidChar ∧ c ≠ 0xFFFD

/-- The pointer WHATWG "index Shift_JIS pointer" takes for a code point, in any index file. -/
def JisPreferred (file : List (Nat × Nat)) (c p : Nat) : Prop :=
  (p, c) ∈ file ∧ ¬ (8272 ≤ p ∧ p ≤ 8835) ∧
  ∀ q, (q, c) ∈ file → ¬ (8272 ≤ q ∧ q ≤ 8835) → p ≤ q

/-- The pointer to take for a code point, in any Big5 index file: the last one for six code
points, else the first one. -/
def Big5Preferred (file : List (Nat × Nat)) (c p : Nat) : Prop :=
  (p, c) ∈ file ∧
  if c ∈ [0x2550, 0x255E, 0x2561, 0x256A, 0x5341, 0x5345] then ∀ q, (q, c) ∈ file → q ≤ p
  else ∀ q, (q, c) ∈ file → p ≤ q

/-- `dec` is the decode table of a file: entry `p` is what the file says about pointer `p`, and
the table ends with the largest pointer of the file. -/
structure IsDecodeTable (file : List (Nat × Nat)) (dec : List (Option Nat)) : Prop where
  entry : ∀ p c, dec[p]? = some (some c) ↔ (p, c) ∈ file
  length : ∀ n, dec.length ≤ n ↔ ∀ p c, (p, c) ∈ file → p < n

/-- The bytes stand for the text, one line of the file for each byte. -/
inductive FileDecodes (file : List (Nat × Nat)) : List UInt8 → List Char → Prop
  | nil : FileDecodes file [] []
  | cons {b : UInt8} {c : Char} {bytes : List UInt8} {text : List Char} :
      (b.toNat, c.toNat) ∈ file → FileDecodes file bytes text →
      FileDecodes file (b :: bytes) (c :: text)

end Verif.Spec
