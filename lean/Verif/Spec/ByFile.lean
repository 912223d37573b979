import Verif.Model.Wrapper
import Verif.Spec.Encodings
import Verif.Spec.Generator

/-!
# What a generated module has to do, by its mapping file alone
-/

namespace Verif.Props

/-- What decoding with a table does, by the file alone. -/
def DecodesByFile (file : List (Nat × Nat)) (input buf : Bytes)
    (r : Rs (Bytes × DecodeResult)) : Prop :=
  ∃ done rest text, input = done ++ rest ∧ Spec.FileDecodes file done text ∧
    (Spec.utf8 text).length ≤ buf.length ∧
    ((r = .ok (Spec.utf8 text ++ buf.drop (Spec.utf8 text).length, .ok (text, done.length)) ∧
      ∀ b more, rest = b :: more →
        ∃ c : Char, (b.toNat, c.toNat) ∈ file ∧ buf.length < (Spec.utf8 (text ++ [c])).length) ∨
    (r = .ok (Spec.utf8 text ++ buf.drop (Spec.utf8 text).length,
        .error ⟨.InvalidData, (done.length, done.length + 1), (Spec.utf8 text).length⟩) ∧
      ∃ b more, rest = b :: more ∧ ∀ c : Char, (b.toNat, c.toNat) ∉ file))

/-- What encoding with a table does, by the file alone. -/
def EncodesByFile (file : List (Nat × Nat)) (input : Str) (buf : Bytes)
    (r : Rs (Bytes × EncodeResult)) : Prop :=
  ∃ done rest bytes, input = done ++ rest ∧ Spec.FileDecodes file bytes done ∧
    bytes.length ≤ buf.length ∧
    ((r = .ok (bytes ++ buf.drop bytes.length, .ok (bytes, (Spec.utf8 done).length)) ∧
      (rest ≠ [] → bytes.length = buf.length)) ∨
    ∃ c more, rest = c :: more ∧
      r = .ok (bytes ++ buf.drop bytes.length,
        .error ⟨c, ((Spec.utf8 done).length, (Spec.utf8 (done ++ [c])).length), bytes.length⟩) ∧
      bytes.length < buf.length ∧ ∀ b : UInt8, (b.toNat, c.toNat) ∉ file)

/-- `D` is the decode table of an index file, with U+FFFD for the pointers without a line. -/
def DecodeChars (file : List (Nat × Nat)) (D : List Char) : Prop :=
  (∀ n, D.length ≤ n ↔ ∀ p c, (p, c) ∈ file → p < n) ∧
  (∀ p (c : Char), (p, c.toNat) ∈ file → D[p]? = some c) ∧
  (∀ p < D.length, (∀ c, (p, c) ∉ file) → D[p]? = some '�')

end Verif.Props
