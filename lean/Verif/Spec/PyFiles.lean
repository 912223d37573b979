import Verif.Py.Semantics
import Verif.Model.GeneratorText

/-! # What the statements about the source texts of the generators use -/

namespace Verif.Py

open Generator

/-- The numerals of a line are plain. -/
def PlainLine (line : Text) : Prop :=
  ∀ p0 p1 rest, split line [] = p0 :: p1 :: rest → startsHash p0 = false →
    isPlain p0 = true ∧ isPlain p1 = true

namespace Ascii

/-- The exception that an error stands for. -/
def excOf (path : Text) : PyErr → Exn
  | .indexError => .index
  | .valueError => .value
  | .notAsciiExtension i => .exception
    (text! "Not an ascii extension: file " ++ path ++ text! ", codepoint " ++ digits 10 i)

end Ascii

end Verif.Py

namespace Verif.Props

open Generator Py

/-- The numerals in lines that are not read are made of ASCII characters that are no sign and no
underscore (`int` accepts more, as `1_0`, which the model of `int` leaves out). -/
def PlainFile (f : Text → Option (Option (Nat × Nat))) (text : Text) : Prop :=
  ∀ l ∈ pyLines (newlines false text) [], f l = none → PlainLine l

end Verif.Props
