import Verif.Rust
import Verif.Tables.Big5Decode
import Verif.Tables.Big5Encode

/-! # src/big5_whatwg.rs -/

namespace Verif.Big5

/-- `DECODE_TABLE`.  src/generated/whatwg/big5_whatwg_tables.rs.inc:4-2478 -/
def DECODE_TABLE : List Char := Tables.Big5.decRows.flatten.map Char.ofNat

/-- `ENCODE_TABLE`.  src/generated/whatwg/big5_whatwg_tables.rs.inc:2480-8645 -/
def ENCODE_TABLE : List (Char × UInt8 × UInt8) :=
  Tables.Big5.encRows.flatten.map fun e =>
    (Char.ofNat e.1, UInt8.ofNat e.2.1, UInt8.ofNat e.2.2)

/-- `map_grapheme`.  src/big5_whatwg.rs:82-90 -/
def map_grapheme (a b : Nat) : Option (UInt8 × UInt8) :=
  if a = 0xCA ∧ b = 0x304 then some (0x88, 0x62)
  else if a = 0xCA ∧ b = 0x30C then some (0x88, 0x64)
  else if a = 0xEA ∧ b = 0x304 then some (0x88, 0xA3)
  else if a = 0xEA ∧ b = 0x30C then some (0x88, 0xA5)
  else none

/-- Two writes to the buffer, then the counters.  src/big5_whatwg.rs:41-45 and 54-57 -/
def encodeEmit2 (st : EncState) (itr : List (Nat × Char)) (b : UInt8 × UInt8) (input_i : Nat) :
    Rs (Ctl EncState EncEnd) := do
  let out ← setIndex st.out st.output_i b.1
  let out ← setIndex out (st.output_i + 1) b.2
  .ok (.next ⟨itr, out, input_i, st.output_i + 2⟩)

/-- "Common case, fetch from table."  src/big5_whatwg.rs:52-57 -/
def encodeCommon (st : EncState) (itr : List (Nat × Char)) (ptr_i offset : Nat) :
    Rs (Ctl EncState EncEnd) := do
  let e ← index ENCODE_TABLE ptr_i
  encodeEmit2 st itr e.2 (offset + 1)

/-- The `while` loop of `encode_from_str`.  src/big5_whatwg.rs:24-68 -/
def encodeBody (is_end : Bool) (st : EncState) : Rs (Ctl EncState EncEnd) :=
  match st.itr with
  | [] => .ok (.done (st.out, .ok (st.input_i, st.output_i)))
  | (offset, c) :: itr =>
    let code := c.toNat
    if st.output_i ≥ st.out.length then
      .ok (.done (st.out, .ok (st.input_i, st.output_i)))
    else if code ≤ 127 then do
      let out ← setIndex st.out st.output_i (UInt8.ofNat code)
      .ok (.next ⟨itr, out, offset + 1, st.output_i + 1⟩)
    else do
      match ← binarySearchByKey ENCODE_TABLE (·.1) c with
      | some ptr_i =>
        if st.output_i + 1 < st.out.length then
          if code = 0xCA ∨ code = 0xEA then
            match itr with
            | (offset2, c2) :: itr' =>
              match map_grapheme code c2.toNat with
              | some bytes => encodeEmit2 st itr' bytes (offset2 + 1)
              | none => encodeCommon st itr ptr_i offset
            | [] =>
              if !is_end then .ok (.done (st.out, .ok (st.input_i, st.output_i)))
              else encodeCommon st itr ptr_i offset
          else encodeCommon st itr ptr_i offset
        else .ok (.done (st.out, .ok (st.input_i, st.output_i)))
      | none =>
        .ok (.done (st.out, .error ⟨c, (offset, offset + lenUtf8 c), st.output_i⟩))

/-- `encode_from_str`.  src/big5_whatwg.rs:15-80 -/
def encode_from_str (input : Str) (out_buffer : Bytes) (is_end : Bool) :
    Rs (Bytes × EncodeResult) := do
  let r ← loop (encodeBody is_end) (input.length + 1)
    ⟨charIndices input, out_buffer, 0, 0⟩
  finishEncode input r

/-- The error value of `decode_to_str`.  src/big5_whatwg.rs:110-114, 121-125, 150-154,
177-181 -/
def fail (st : DecState UInt8) (n : Nat) : Ctl (DecState UInt8) DecEnd :=
  .done (st.out, .error ⟨.InvalidData, (st.input_i, st.input_i + n), st.output_i⟩)

/-- "Copy decoded data to output", "Update our counters".  src/big5_whatwg.rs:162-170 -/
def decodeEmit (st : DecState UInt8) (itr : Bytes) (string : Bytes) :
    Rs (Ctl (DecState UInt8) DecEnd) :=
  if st.out.length < st.output_i + string.length then
    .ok (.done (st.out, .ok (st.input_i, st.output_i)))
  else do
    let out ← copyFromSlice st.out st.output_i (st.output_i + string.length) string
    .ok (.next ⟨itr, out, st.input_i + 2, st.output_i + string.length⟩)

/-- The pointer computed from the two bytes.  src/big5_whatwg.rs:127-135 -/
def big5Ptr (byte_1 byte_2 : UInt8) : Rs Nat := do
  let lead ← checkedSub byte_1.toNat 0x81
  let trail ← if byte_2 < 0x7F then checkedSub byte_2.toNat 0x40 else checkedSub byte_2.toNat 0x62
  .ok (lead * 157 + trail)

/-- "Special handling for codes that map to graphemes."  src/big5_whatwg.rs:139-156 -/
def graphemeOf (big5_ptr : Nat) : Option Str :=
  if big5_ptr = 1133 then some [Char.ofNat 0xCA, Char.ofNat 0x304]
  else if big5_ptr = 1135 then some [Char.ofNat 0xCA, Char.ofNat 0x30C]
  else if big5_ptr = 1164 then some [Char.ofNat 0xEA, Char.ofNat 0x304]
  else if big5_ptr = 1166 then some [Char.ofNat 0xEA, Char.ofNat 0x30C]
  else none

/-- The `while` loop of `decode_to_str`.  src/big5_whatwg.rs:100-184 -/
def decodeBody (is_end : Bool) (st : DecState UInt8) : Rs (Ctl (DecState UInt8) DecEnd) :=
  match st.itr with
  | [] => .ok (.done (st.out, .ok (st.input_i, st.output_i)))
  | byte_1 :: itr =>
    if st.output_i ≥ st.out.length then
      .ok (.done (st.out, .ok (st.input_i, st.output_i)))
    else if byte_1 ≤ 127 then do
      let out ← setIndex st.out st.output_i byte_1
      .ok (.next ⟨itr, out, st.input_i + 1, st.output_i + 1⟩)
    else if byte_1 = 0x80 ∨ byte_1 = 0xFF then
      .ok (fail st 1)
    else match itr with
      | byte_2 :: itr =>
        if byte_2 < 0x40 ∨ byte_2 > 0xFE ∨ (byte_2 > 0x7E ∧ byte_2 < 0xA1) then
          .ok (fail st (if byte_2 ≤ 127 then 1 else 2))
        else do
          let big5_ptr ← big5Ptr byte_1 byte_2
          let undefined_ ←
            if big5_ptr ≥ DECODE_TABLE.length then .ok true
            else (index DECODE_TABLE big5_ptr).map fun c => decide (c = '�')
          if undefined_ then
            match graphemeOf big5_ptr with
            | some s => decodeEmit st itr (strBytes s)
            | none => .ok (fail st (if byte_2 ≤ 127 then 1 else 2))
          else
            let c ← index DECODE_TABLE big5_ptr
            decodeEmit st itr (encodeUtf8 c)
      | [] =>
        if !is_end then .ok (.done (st.out, .ok (st.input_i, st.output_i)))
        else .ok (fail st 1)

/-- `decode_to_str`.  src/big5_whatwg.rs:93-190 -/
def decode_to_str (input : Bytes) (out_buffer : Bytes) (is_end : Bool) :
    Rs (Bytes × DecodeResult) := do
  let r ← loop (decodeBody is_end) (input.length + 1) ⟨input, out_buffer, 0, 0⟩
  finishDecode r

end Verif.Big5
