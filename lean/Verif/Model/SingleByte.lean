import Verif.Rust

/-! # src/single_byte.rs -/

namespace Verif.SingleByte

/-- The `for` loop of `ascii_ext_encode_from_str`.  src/single_byte.rs:278-297 -/
def encodeBody (table : List (Char × UInt8)) (st : EncState) : Rs (Ctl EncState EncEnd) :=
  match st.itr with
  | [] => .ok (.done (st.out, .ok (st.input_i, st.output_i)))
  | (offset, c) :: itr =>
    if st.output_i ≥ st.out.length then
      .ok (.done (st.out, .ok (st.input_i, st.output_i)))
    else if c.toNat ≤ 127 then do
      let out ← setIndex st.out st.output_i (UInt8.ofNat c.toNat)
      .ok (.next ⟨itr, out, offset + 1, st.output_i + 1⟩)
    else do
      match ← binarySearchByKey table (·.1) c with
      | some i =>
        let e ← index table i
        let out ← setIndex st.out st.output_i e.2
        .ok (.next ⟨itr, out, offset + 1, st.output_i + 1⟩)
      | none =>
        .ok (.done (st.out, .error ⟨c, (offset, offset + lenUtf8 c), st.output_i⟩))

/-- `ascii_ext_encode_from_str`.  src/single_byte.rs:270-309 -/
def ascii_ext_encode_from_str (table : List (Char × UInt8)) (input : Str) (output : Bytes) :
    Rs (Bytes × EncodeResult) := do
  let r ← loop (encodeBody table) (input.length + 1)
    ⟨charIndices input, output, 0, 0⟩
  finishEncode input r

/-- The `for` loop of `ascii_ext_decode_to_str`.  src/single_byte.rs:321-351 -/
def decodeBody (table : List Char) (st : DecState UInt8) : Rs (Ctl (DecState UInt8) DecEnd) :=
  match st.itr with
  | [] => .ok (.done (st.out, .ok (st.input_i, st.output_i)))
  | byte :: itr =>
    if byte < 0x80 then
      if st.output_i ≥ st.out.length then
        .ok (.done (st.out, .ok (st.input_i, st.output_i)))
      else do
        let out ← setIndex st.out st.output_i byte
        .ok (.next ⟨itr, out, st.input_i + 1, st.output_i + 1⟩)
    else do
      let i ← checkedSub byte.toNat 0x80
      let code ← index table i
      if code = '�' then
        .ok (.done (st.out, .error ⟨.InvalidData, (st.input_i, st.input_i + 1), st.output_i⟩))
      else
        let s := encodeUtf8 code
        if st.out.length < st.output_i + s.length then
          .ok (.done (st.out, .ok (st.input_i, st.output_i)))
        else
          let out ← copyFromSlice st.out st.output_i (st.output_i + s.length) s
          .ok (.next ⟨itr, out, st.input_i + 1, st.output_i + s.length⟩)

/-- `ascii_ext_decode_to_str`.  src/single_byte.rs:314-357 -/
def ascii_ext_decode_to_str (table : List Char) (input : Bytes) (output : Bytes) :
    Rs (Bytes × DecodeResult) := do
  let r ← loop (decodeBody table) (input.length + 1) ⟨input, output, 0, 0⟩
  finishDecode r

end Verif.SingleByte
