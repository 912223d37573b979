import Verif.Lang.Example
import Verif.Files.TestSrc
import Verif.Files.ShiftJisTestData
import Verif.Files.Big5TestData

/-!
# The tests in tests/*.rs

Each file is a program of its own, with functions that are tests. Those in `proptest! { … }` have an
input that proptest draws.
-/

namespace Verif.Lang

/-- A test, with the variable for its input and where that is from, if it has one. -/
structure Test where
  name : String
  input : List (String × Strategy)
  body : Expr

/-- The tests among the items. -/
def testsIn : List Item → List Test
  | [] => []
  | .test :: .fn name [] body :: is => ⟨name, [], body⟩ :: testsIn is
  | .proptest name x s body :: is => ⟨name, [(x, s)], body⟩ :: testsIn is
  | _ :: is => testsIn is

/-- What may be drawn. For a regular expression that is any text here, whether it matches or not. -/
def Strategy.Draws : Strategy → Value → Prop
  | .regex _, v => ∃ s, v = .str s
  | .bytes lo hi min max, v =>
    ∃ b : Bytes, v = Lang.bytes b ∧ min ≤ b.length ∧ b.length < max ∧
      ∀ x ∈ b, lo ≤ x.toNat ∧ x.toNat ≤ hi

/-- These values may be drawn as the input of the test. -/
def Test.Draws (t : Test) (vs : List Value) : Prop :=
  match t.input, vs with
  | [], [] => True
  | [(_, s)], [v] => s.Draws v
  | _, _ => False

/-- The number of bytes of a text or a vector of bytes. -/
def size : Value → Nat
  | .str s => strLen s
  | .arr vs => vs.length
  | _ => 0

/-- The files that the tests include, by their paths in /repo/tests: verbatim copies. -/
noncomputable def dataFile : String → Option Bytes
  | "test_data/whatwg/shiftjis_whatwg_test_decode_in.txt" => some Files.ShiftJis.testData.decode_in
  | "test_data/whatwg/shiftjis_whatwg_test_decode_out.txt" => some Files.ShiftJis.testData.decode_out
  | "test_data/whatwg/shiftjis_whatwg_test_encode_in.txt" => some Files.ShiftJis.testData.encode_in
  | "test_data/whatwg/shiftjis_whatwg_test_encode_out.txt" => some Files.ShiftJis.testData.encode_out
  | "test_data/whatwg/big5_whatwg_test_decode_in.txt" => some Files.Big5.testData.decode_in
  | "test_data/whatwg/big5_whatwg_test_decode_out.txt" => some Files.Big5.testData.decode_out
  | "test_data/whatwg/big5_whatwg_test_encode_in.txt" => some Files.Big5.testData.encode_in
  | "test_data/whatwg/big5_whatwg_test_encode_out.txt" => some Files.Big5.testData.encode_out
  | _ => none

/-- The constant of this name: one of the included files. -/
noncomputable def dataConst (is : List Item) (name : String) : Option Value :=
  match constIn name is with
  | some (.includeBytes path) => (dataFile path).map bytes
  | _ => none

/-- The context of a test among these items. -/
noncomputable def testCtx (m : Machine.Target) (fuel : Nat) (is : List Item) : Ctx :=
  ⟨m, fuel, fun up f vs => if up then .error none else invokeProgram m fuel is fuel f vs,
    callCrate m fuel (globsOf "text_encoding" is), dataConst is⟩

/-- A test with this input. It passes if the result is `.ok`: a failed assertion is a panic. -/
noncomputable def runTest (m : Machine.Target) (fuel : Nat) (is : List Item) (t : Test)
    (vs : List Value) : CallResult :=
  if t.input.length = vs.length then
    result [] (eval (testCtx m fuel is) t.body ((t.input.map (·.1)).zip vs))
  else .error none

end Verif.Lang
