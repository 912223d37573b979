import Verif.Text

/-!
# The text of mapping files

Independent of the model of the generators: which text is a mapping file with which lines.
-/

namespace Verif.Spec

/-- A white space code point (Unicode, and the four separators U+001C to U+001F). -/
def WhiteSpace (c : Nat) : Prop :=
  (0x09 ≤ c ∧ c ≤ 0x0D) ∨ (0x1C ≤ c ∧ c ≤ 0x20) ∨ c = 0x85 ∨ c = 0xA0 ∨ c = 0x1680 ∨
  (0x2000 ≤ c ∧ c ≤ 0x200A) ∨ c = 0x2028 ∨ c = 0x2029 ∨ c = 0x202F ∨ c = 0x205F ∨ c = 0x3000

/-- The words of a line: the pieces between white space. -/
inductive Words : Text → List Text → Prop
  | nil {s : Text} : (∀ c ∈ s, WhiteSpace c) → Words s []
  | cons {s w t : Text} {ws : List Text} : (∀ c ∈ s, WhiteSpace c) → w ≠ [] →
      (∀ c ∈ w, ¬ WhiteSpace c) → (∀ c, t.head? = some c → WhiteSpace c) → Words t ws →
      Words (s ++ w ++ t) (w :: ws)

/-- `c` is the digit `d`. -/
def IsDigit (c d : Nat) : Prop :=
  (c = 0x30 + d ∧ d < 10) ∨ (c = 0x41 + (d - 10) ∧ 10 ≤ d ∧ d < 36) ∨
  (c = 0x61 + (d - 10) ∧ 10 ≤ d ∧ d < 36)

/-- The text is a sequence of digits of `n`. -/
inductive Digits (base : Nat) : Text → Nat → Prop
  | one {c d : Nat} : IsDigit c d → d < base → Digits base [c] d
  | more {t : Text} {c d n : Nat} : Digits base t n → IsDigit c d → d < base →
      Digits base (t ++ [c]) (n * base + d)

/-- A hexadecimal numeral, with or without `0x`. -/
def Hex (w : Text) (n : Nat) : Prop :=
  Digits 16 w n ∨ ∃ x t, (x = 0x78 ∨ x = 0x58) ∧ w = 0x30 :: x :: t ∧ Digits 16 t n

/-- A decimal numeral. -/
def Decimal (w : Text) (n : Nat) : Prop := Digits 10 w n

/-- The word begins with `#`. -/
def Hash (w : Text) : Prop := w.head? = some 0x23

/-- A line of the single-byte mapping files, and what it says: a line of less than two words, a
comment, a byte without a code point, or a byte and a code point. -/
inductive ByteLine (line : Text) : Option (Nat × Nat) → Prop
  | short {ws} : Words line ws → ws.length < 2 → ByteLine line none
  | comment {w v ws} : Words line (w :: v :: ws) → Hash w → ByteLine line none
  | undefined {w v ws b} : Words line (w :: v :: ws) → Hex w b → Hash v → ByteLine line none
  | entry {w v ws b c} : Words line (w :: v :: ws) → Hex w b → Hex v c →
      ByteLine line (some (b, c))

/-- A line of the WHATWG index files, and what it says: a line of less than two words, a comment, or
a pointer and a code point. -/
inductive IndexLine (line : Text) : Option (Nat × Nat) → Prop
  | short {ws} : Words line ws → ws.length < 2 → IndexLine line none
  | comment {w v ws} : Words line (w :: v :: ws) → Hash w → IndexLine line none
  | entry {w v ws p c} : Words line (w :: v :: ws) → Decimal w p → Hex v c →
      IndexLine line (some (p, c))

/-- The text of a file whose lines say `file`: each line ends with LF, CR LF or CR, the last line
may end without. -/
inductive FileText (Line : Text → Option (Nat × Nat) → Prop) : Text → List (Nat × Nat) → Prop
  | nil : FileText Line [] []
  | last {l : Text} {x} : l ≠ [] → (∀ c ∈ l, c ≠ 0x0A ∧ c ≠ 0x0D) → Line l x →
      FileText Line l x.toList
  | lf {l t : Text} {x file} : (∀ c ∈ l, c ≠ 0x0A ∧ c ≠ 0x0D) → Line l x →
      FileText Line t file → FileText Line (l ++ 0x0A :: t) (x.toList ++ file)
  | crlf {l t : Text} {x file} : (∀ c ∈ l, c ≠ 0x0A ∧ c ≠ 0x0D) → Line l x →
      FileText Line t file → FileText Line (l ++ 0x0D :: 0x0A :: t) (x.toList ++ file)
  | cr {l t : Text} {x file} : (∀ c ∈ l, c ≠ 0x0A ∧ c ≠ 0x0D) → Line l x →
      t.head? ≠ some 0x0A → FileText Line t file →
      FileText Line (l ++ 0x0D :: t) (x.toList ++ file)

end Verif.Spec
