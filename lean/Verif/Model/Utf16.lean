import Verif.Rust

/-! # src/utf16_be.rs and src/utf16_le.rs

The two files differ only in `to_be_bytes`/`to_le_bytes` (lines 15, 26, 27) and
`from_be_bytes`/`from_le_bytes` (lines 73, 101), which are the parameter `Order`. -/

namespace Verif.Utf16

/-- The byte order functions on `u16`. -/
structure Order where
  /-- `u16::to_?e_bytes` -/
  toBytes : Nat → UInt8 × UInt8
  /-- `u16::from_?e_bytes` -/
  fromBytes : UInt8 → UInt8 → Nat

/-- `u16::to_be_bytes`, `u16::from_be_bytes`.  src/utf16_be.rs:15,26,27,73,101 -/
def be : Order where
  toBytes v := (UInt8.ofNat (v / 256), UInt8.ofNat (v % 256))
  fromBytes a b := a.toNat * 256 + b.toNat

/-- `u16::to_le_bytes`, `u16::from_le_bytes`.  src/utf16_le.rs:15,26,27,73,101 -/
def le : Order where
  toBytes v := (UInt8.ofNat (v % 256), UInt8.ofNat (v / 256))
  fromBytes a b := b.toNat * 256 + a.toNat

/-- The `for` loop of `encode_from_str`.  src/utf16_be.rs:10-37, src/utf16_le.rs:10-37 -/
def encodeBody (o : Order) (st : EncState) : Rs (Ctl EncState EncEnd) :=
  match st.itr with
  | [] => .ok (.done (st.out, .ok (st.input_i, st.output_i)))
  | (offset, c) :: itr =>
    let code := c.toNat
    if code ≤ 0xFFFF then
      if st.output_i + 1 < st.out.length then do
        let val := o.toBytes (code % 65536)
        let out ← setIndex st.out st.output_i val.1
        let out ← setIndex out (st.output_i + 1) val.2
        .ok (.next ⟨itr, out, offset + 1, st.output_i + 2⟩)
      else .ok (.done (st.out, .ok (st.input_i, st.output_i)))
    else if st.output_i + 3 < st.out.length then do
      let code ← checkedSub code 0x10000
      let first := o.toBytes (0xD800 ||| ((code >>> 10) % 65536))
      let second := o.toBytes (0xDC00 ||| ((code % 65536) &&& 0x3FF))
      let out ← setIndex st.out st.output_i first.1
      let out ← setIndex out (st.output_i + 1) first.2
      let out ← setIndex out (st.output_i + 2) second.1
      let out ← setIndex out (st.output_i + 3) second.2
      .ok (.next ⟨itr, out, offset + 1, st.output_i + 4⟩)
    else .ok (.done (st.out, .ok (st.input_i, st.output_i)))

/-- `encode_from_str`.  src/utf16_be.rs:6-49, src/utf16_le.rs:6-49 -/
def encode_from_str (o : Order) (input : Str) (out_buffer : Bytes) :
    Rs (Bytes × EncodeResult) := do
  let r ← loop (encodeBody o) (input.length + 1)
    ⟨charIndices input, out_buffer, 0, 0⟩
  finishEncode input r

/-- The error value of `decode_to_str`.  src/utf16_be.rs:63-67, 79-83, 93-97, 104-108 (and
the same lines of src/utf16_le.rs) -/
def fail (out : Bytes) (output_i lo hi : Nat) : Ctl (DecState Bytes) DecEnd :=
  .done (out, .error ⟨.InvalidData, (lo, hi), output_i⟩)

/-- The end of the `while` body: "Encode to utf8", "Update our counters".
src/utf16_be.rs:119-129, src/utf16_le.rs:119-129 -/
def decodeEmit (st : DecState Bytes) (itr : List Bytes) (code : Char) :
    Rs (Ctl (DecState Bytes) DecEnd) :=
  let s := encodeUtf8 code
  if st.out.length < st.output_i + s.length then
    .ok (.done (st.out, .ok (st.input_i, st.output_i)))
  else do
    let out ← copyFromSlice st.out st.output_i (st.output_i + s.length) s
    .ok (.next ⟨itr, out, st.input_i + lenUtf16 code * 2, st.output_i + s.length⟩)

/-- The scalar value of a surrogate pair.  src/utf16_be.rs:111-115, src/utf16_le.rs:111-115 -/
def pairCode (code_1 code_2 : Nat) : Rs Char := do
  let hi ← checkedSub code_1 0xD800
  let lo ← checkedSub code_2 0xDC00
  fromU32Unchecked (((hi <<< 10) ||| lo) + 0x10000)

/-- The `while` loop of `decode_to_str`.  src/utf16_be.rs:57-130, src/utf16_le.rs:57-130 -/
def decodeBody (o : Order) (input : Bytes) (is_end : Bool) (st : DecState Bytes) :
    Rs (Ctl (DecState Bytes) DecEnd) :=
  match st.itr with
  | [] => .ok (.done (st.out, .ok (st.input_i, st.output_i)))
  | bytes :: itr =>
    if bytes.length < 2 then
      if !is_end then .ok (.done (st.out, .ok (st.input_i, st.output_i)))
      else .ok (fail st.out st.output_i st.input_i input.length)
    else do
      let b0 ← index bytes 0
      let b1 ← index bytes 1
      let code_1 := o.fromBytes b0 b1
      if code_1 < 0xD800 ∨ 0xDFFF < code_1 then
        let code ← fromU32Unchecked code_1
        decodeEmit st itr code
      else if code_1 &&& 0xFC00 = 0xDC00 then
        .ok (fail st.out st.output_i st.input_i (st.input_i + 2))
      else if st.input_i + 3 ≥ input.length then
        if !is_end then .ok (.done (st.out, .ok (st.input_i, st.output_i)))
        else .ok (fail st.out st.output_i st.input_i input.length)
      else
        let bytes_2 ← unwrap itr.head?
        let c0 ← index bytes_2 0
        let c1 ← index bytes_2 1
        let code_2 := o.fromBytes c0 c1
        if code_2 &&& 0xFC00 ≠ 0xDC00 then
          .ok (fail st.out st.output_i st.input_i (st.input_i + 2))
        else
          let code ← pairCode code_1 code_2
          decodeEmit st itr.tail code

/-- `decode_to_str`.  src/utf16_be.rs:51-136, src/utf16_le.rs:51-136 -/
def decode_to_str (o : Order) (input : Bytes) (out_buffer : Bytes) (is_end : Bool) :
    Rs (Bytes × DecodeResult) := do
  let r ← loop (decodeBody o input is_end) (input.length + 1)
    ⟨chunks 2 input, out_buffer, 0, 0⟩
  finishDecode r

end Verif.Utf16
