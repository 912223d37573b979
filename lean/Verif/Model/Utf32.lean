import Verif.Rust

/-! # src/utf32_be.rs and src/utf32_le.rs

The two files differ only in `to_be_bytes`/`to_le_bytes` (line 12) and
`from_be_bytes`/`from_le_bytes` (line 57), which are the parameter `Order`. -/

namespace Verif.Utf32

/-- The byte order functions on `u32`. -/
structure Order where
  /-- `u32::to_?e_bytes` -/
  toBytes : Nat → UInt8 × UInt8 × UInt8 × UInt8
  /-- `u32::from_?e_bytes` -/
  fromBytes : UInt8 → UInt8 → UInt8 → UInt8 → Nat

/-- `u32::to_be_bytes`, `u32::from_be_bytes`.  src/utf32_be.rs:12,57 -/
def be : Order where
  toBytes v := (UInt8.ofNat (v / 16777216), UInt8.ofNat (v / 65536 % 256),
    UInt8.ofNat (v / 256 % 256), UInt8.ofNat (v % 256))
  fromBytes a b c d := a.toNat * 16777216 + b.toNat * 65536 + c.toNat * 256 + d.toNat

/-- `u32::to_le_bytes`, `u32::from_le_bytes`.  src/utf32_le.rs:12,57 -/
def le : Order where
  toBytes v := (UInt8.ofNat (v % 256), UInt8.ofNat (v / 256 % 256),
    UInt8.ofNat (v / 65536 % 256), UInt8.ofNat (v / 16777216))
  fromBytes a b c d := d.toNat * 16777216 + c.toNat * 65536 + b.toNat * 256 + a.toNat

/-- The `for` loop of `encode_from_str`.  src/utf32_be.rs:10-22, src/utf32_le.rs:10-22 -/
def encodeBody (o : Order) (st : EncState) : Rs (Ctl EncState EncEnd) :=
  match st.itr with
  | [] => .ok (.done (st.out, .ok (st.input_i, st.output_i)))
  | (offset, c) :: itr =>
    if st.output_i + 3 < st.out.length then do
      let code := o.toBytes c.toNat
      let out ← setIndex st.out st.output_i code.1
      let out ← setIndex out (st.output_i + 1) code.2.1
      let out ← setIndex out (st.output_i + 2) code.2.2.1
      let out ← setIndex out (st.output_i + 3) code.2.2.2
      .ok (.next ⟨itr, out, offset + 1, st.output_i + 4⟩)
    else .ok (.done (st.out, .ok (st.input_i, st.output_i)))

/-- `encode_from_str`.  src/utf32_be.rs:6-34, src/utf32_le.rs:6-34 -/
def encode_from_str (o : Order) (input : Str) (out_buffer : Bytes) :
    Rs (Bytes × EncodeResult) := do
  let r ← loop (encodeBody o) (input.length + 1)
    ⟨charIndices input, out_buffer, 0, 0⟩
  finishEncode input r

/-- The `for` loop of `decode_to_str`.  src/utf32_be.rs:41-78, src/utf32_le.rs:41-78 -/
def decodeBody (o : Order) (input : Bytes) (is_end : Bool) (st : DecState Bytes) :
    Rs (Ctl (DecState Bytes) DecEnd) :=
  match st.itr with
  | [] => .ok (.done (st.out, .ok (st.input_i, st.output_i)))
  | bytes :: itr =>
    if bytes.length < 4 then
      if !is_end then .ok (.done (st.out, .ok (st.input_i, st.output_i)))
      else .ok (.done (st.out, .error ⟨.InvalidData, (st.input_i, input.length), st.output_i⟩))
    else do
      let b0 ← index bytes 0
      let b1 ← index bytes 1
      let b2 ← index bytes 2
      let b3 ← index bytes 3
      match fromU32 (o.fromBytes b0 b1 b2 b3) with
      | some code =>
        let s := encodeUtf8 code
        if st.out.length < st.output_i + s.length then
          .ok (.done (st.out, .ok (st.input_i, st.output_i)))
        else
          let out ← copyFromSlice st.out st.output_i (st.output_i + s.length) s
          .ok (.next ⟨itr, out, st.input_i + 4, st.output_i + s.length⟩)
      | none =>
        .ok (.done (st.out, .error ⟨.InvalidData, (st.input_i, st.input_i + 4), st.output_i⟩))

/-- `decode_to_str`.  src/utf32_be.rs:36-84, src/utf32_le.rs:36-84 -/
def decode_to_str (o : Order) (input : Bytes) (out_buffer : Bytes) (is_end : Bool) :
    Rs (Bytes × DecodeResult) := do
  let r ← loop (decodeBody o input is_end) (input.length + 1)
    ⟨chunks 4 input, out_buffer, 0, 0⟩
  finishDecode r

end Verif.Utf32
