import Verif.Spec.Encodings

/-! # Codes that are not what the char they mean is encoded to -/

namespace Verif.Spec

/-- `u` is a code of a char whose own code is another one. -/
def SecondCode (e : Encoding) (u : List UInt8) : Prop :=
  ∃ c v, CodeSeq e u [c] ∧ CharCode e c v ∧ v ≠ u

/-- A second code occurs among the codes that the bytes consist of. -/
def HasSecondCode (e : Encoding) (bytes : List UInt8) : Prop :=
  ∃ x u y text, bytes = x ++ u ++ y ∧ Decodes e x text ∧ SecondCode e u

end Verif.Spec
