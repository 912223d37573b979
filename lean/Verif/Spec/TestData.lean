import Verif.Spec.Encodings

/-!
# Specification of the test data

Independent of the model of the generators.  Test data are a list of codes, each with its text;
they are kept in two files, with one line for each of them.
-/

namespace Verif.Spec

/-- The file of the codes. -/
def codeFile (l : List (List UInt8 × List Char)) : List UInt8 := l.flatMap fun x => x.1 ++ [0x0A]

/-- The file of the texts. -/
def textFile (l : List (List UInt8 × List Char)) : List UInt8 :=
  l.flatMap fun x => utf8 x.2 ++ [0x0A]

/-- The bytes from 1 to `n` that stand for themselves. -/
def asciiCodes (n : Nat) : List (List UInt8 × List Char) :=
  (List.range' 1 n).map fun b => ([UInt8.ofNat b], [Char.ofNat b])

/-- The four Big5 codes for two code points. -/
def pairCodes : List (List UInt8 × List Char) :=
  big5Pairs.map fun x => (big5Bytes x.1, [Char.ofNat x.2.1, Char.ofNat x.2.2])

end Verif.Spec
