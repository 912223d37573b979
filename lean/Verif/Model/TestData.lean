import Verif.Model.Tests
import Verif.Model.Generator

/-!
# The test data generators (Python), and the tests that use their files

`generate_shiftjis_test_data` and `generate_big5_test_data`, from the parsed lines of an index
file to the bytes of the four files they write, and tests/shiftjis.rs and tests/big5.rs, which
include these files.

Simplifications: as in `Verif.Model.Generator` the lines are given parsed; a file is the bytes
written to it; an exception (`bytes` of a number above 255, `chr` of a number above 0x10FFFF, the
UTF-8 of a surrogate) is `none`.
-/

namespace Verif.Generator

/-- `bytes([n])`: an exception above 255. -/
def pyByte (n : Nat) : Option Bytes := if n < 256 then some [UInt8.ofNat n] else none

/-- `bytes(x)` of a pair.  generate_shiftjis.py:114, 135, generate_big5.py:123, 135, 157, 170 -/
def pyBytes (x : Nat × Nat) : Option Bytes := do some ((← pyByte x.1) ++ (← pyByte x.2))

/-- `chr(n).encode('utf-8')`: an exception if `n` is not a scalar value. -/
def chrUtf8 (n : Nat) : Option Bytes := (fromU32 n).map encodeUtf8

/-- A loop that writes, for each item, a line to each of two files.  generate_shiftjis.py:105-118,
123-136, generate_big5.py:114-140, 145-171 -/
def writeLines {α : Type} (a b : α → Option Bytes) : List α → Bytes × Bytes → Option (Bytes × Bytes)
  | [], files => some files
  | x :: l, files => do
    let u ← a x
    let v ← b x
    writeLines a b l (files.1 ++ u ++ [0x0A], files.2 ++ v ++ [0x0A])

/-- The four files of test data.  generate_shiftjis.py:103-104, 121-122, generate_big5.py:112-113,
143-144 -/
structure TestData where
  decode_in : Bytes
  decode_out : Bytes
  encode_in : Bytes
  encode_out : Bytes

/-- `generate_shiftjis_test_data`.  generate_shiftjis.py:99-136 -/
def ShiftJis.testData (lines : List (Nat × Nat)) : Option TestData := do
  let table := load lines
  let dec ← writeLines pyByte chrUtf8 (List.range' 1 128) ([], [])
  let dec ← writeLines (fun x => pyBytes (index_to_bytes x.1)) (fun x => chrUtf8 x.2) table dec
  let enc ← writeLines chrUtf8 pyByte (List.range' 1 128) ([], [])
  let enc ← writeLines (fun x => chrUtf8 x.2) (fun x => pyBytes (index_to_bytes x.1))
    (deduped_table table) enc
  some ⟨dec.1, dec.2, enc.1, enc.2⟩

/-- The list of pointers for two code points.  generate_big5.py:128-133, 159-164 -/
def Big5.pairs : List (Nat × Nat × Nat) :=
  [(1133, (0xCA, 0x304)), (1135, (0xCA, 0x30C)), (1164, (0xEA, 0x304)), (1166, (0xEA, 0x30C))]

/-- `chr(x[0]).encode('utf-8')`, then `chr(x[1]).encode('utf-8')`.
generate_big5.py:138-139, 166-167 -/
def chrsUtf8 (x : Nat × Nat) : Option Bytes := do some ((← chrUtf8 x.1) ++ (← chrUtf8 x.2))

/-- `generate_big5_test_data`.  generate_big5.py:108-171 -/
def Big5.testData (lines : List (Nat × Nat)) : Option TestData := do
  let table := load lines
  let dec ← writeLines pyByte pyByte (List.range' 1 127) ([], [])
  let dec ← writeLines (fun x => pyBytes (index_to_bytes x.1)) (fun x => chrUtf8 x.2) table dec
  let dec ← writeLines (fun x => pyBytes (index_to_bytes x.1)) (fun x => chrsUtf8 x.2) pairs dec
  let enc ← writeLines pyByte pyByte (List.range' 1 127) ([], [])
  let enc ← writeLines (fun x => chrUtf8 x.2) (fun x => pyBytes (index_to_bytes x.1))
    (deduped_table table) enc
  let enc ← writeLines (fun x => chrsUtf8 x.2) (fun x => pyBytes (index_to_bytes x.1)) pairs enc
  some ⟨dec.1, dec.2, enc.1, enc.2⟩

end Verif.Generator

namespace Verif.Tests
open Generator (TestData)

/-- `std::str::from_utf8(b).unwrap()` -/
def fromUtf8Unwrap (b : Bytes) : Rs Str :=
  if (utf8Scan b).2 = b.length then .ok (utf8Scan b).1 else .error .panic

/-- The body of `big5_whatwg_encode` and of `shiftjis_whatwg_encode`, which differ in the module
only.  tests/big5.rs:15-25, tests/shiftjis.rs:15-24 -/
def dataEncode (f : Str → Bytes → Rs (Bytes × EncodeResult)) (data : TestData) : Rs Unit := do
  let text ← fromUtf8Unwrap data.encode_in
  let (_, r) ← f text (List.replicate data.encode_out.length 0)
  match r with
  | .error _ => .error .panic
  | .ok (bytes, _) => assertTrue (data.encode_out = bytes)

/-- The body of `big5_whatwg_decode` and of `shiftjis_whatwg_decode`.
tests/big5.rs:28-33, tests/shiftjis.rs:27-32 -/
def dataDecode (f : Bytes → Bytes → Rs (Bytes × DecodeResult)) (data : TestData) : Rs Unit := do
  let (_, r) ← f data.decode_in (List.replicate data.decode_out.length 0)
  match r with
  | .error _ => .error .panic
  | .ok (utf8, _) => assertTrue (data.decode_out = strBytes utf8)

/-- tests/big5.rs:15-25 -/
def big5_whatwg_encode : TestData → Rs Unit :=
  dataEncode fun text buf => Big5.encode_from_str text buf true
/-- tests/big5.rs:28-33 -/
def big5_whatwg_decode : TestData → Rs Unit :=
  dataDecode fun bytes buf => Big5.decode_to_str bytes buf true
/-- tests/shiftjis.rs:15-24 -/
def shiftjis_whatwg_encode : TestData → Rs Unit :=
  dataEncode ShiftJis.encode_from_str
/-- tests/shiftjis.rs:27-32 -/
def shiftjis_whatwg_decode : TestData → Rs Unit :=
  dataDecode fun bytes buf => ShiftJis.decode_to_str bytes buf true

end Verif.Tests
