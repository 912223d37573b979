import Verif.Model.Clients

/-!
# A program that reads files that may begin with a byte order mark

Not code of the repository. The crate leaves byte order marks in the text (C54); the program looks at
the first bytes before it calls the crate, and then runs the loop of the documentation
(src/lib.rs:66-113).
-/

namespace Verif.Props

/-- The encoding the first bytes tell, and the length of the mark:
`if data.starts_with(b"\xEF\xBB\xBF") { (Utf8, 3) } else if …`. -/
def lookAtStart (fallback : Encoding) : Bytes → Encoding × Nat
  | 0xEF :: 0xBB :: 0xBF :: _ => (.Utf8, 3)
  | 0xFE :: 0xFF :: _ => (.Utf16BE, 2)
  | 0xFF :: 0xFE :: _ => (.Utf16LE, 2)
  | _ => (fallback, 0)

/-- Collect chunks until there are three bytes, or no more chunks. -/
def collectStart : Bytes → List Bytes → Bytes × List Bytes
  | held, [] => (held, [])
  | held, c :: cs => if 3 ≤ held.length then (held, c :: cs) else collectStart (held ++ c) cs

/-- Read the beginning, choose the encoding, decode the rest as a stream. -/
def readFile (fallback : Encoding) (fuel : Nat) (buf : Bytes) (chunks : List Bytes) : Rs DecodeLoop :=
  let (held, cs) := collectStart [] chunks
  let (e, n) := lookAtStart fallback held
  decodeChunks e fuel (held.drop n :: cs) ⟨buf, [], 0, [], none⟩

/-- The same, with a replacement character for each error. -/
def readFileLossy (fallback : Encoding) (fuel : Nat) (buf : Bytes) (chunks : List Bytes) : Rs LossyLoop :=
  let (held, cs) := collectStart [] chunks
  let (e, n) := lookAtStart fallback held
  lossyChunks e fuel (held.drop n :: cs) ⟨buf, [], []⟩

end Verif.Props
