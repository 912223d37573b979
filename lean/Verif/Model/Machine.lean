import Verif.Model.Wrapper

/-! # The same functions with machine integers

`Verif/Model/*.lean` computes with `Nat` and treats only subtraction below zero as a fault.  Here
every `+`, `-` and `*` of the code is an operation of its Rust type: `usize` of the target's width,
or `u32`.  In a build with overflow checks an overflow panics, in a build without it wraps.  The
definitions repeat the code once more, line by line; helpers without arithmetic are shared. -/

namespace Verif.Machine

/-- A target and a build profile: the width of `usize`, and whether overflow is checked. -/
structure Target where
  /-- number of bits of `usize` -/
  bits : Nat
  /-- `-C overflow-checks` (on in debug builds, off in release builds) -/
  overflowChecks : Bool

/-- The result `r` of an arithmetic operation on a type of `bits` bits, given as an integer. -/
def arith (m : Target) (bits : Nat) (r : Int) : Rs Nat :=
  if 0 ≤ r ∧ r < 2 ^ bits then .ok r.toNat
  else if m.overflowChecks then .error .panic
  else .ok (r % 2 ^ bits).toNat

/-- `a + b` on `usize` -/
def add (m : Target) (a b : Nat) : Rs Nat := arith m m.bits (a + b)
/-- `a - b` on `usize` -/
def sub (m : Target) (a b : Nat) : Rs Nat := arith m m.bits ((a : Int) - b)
/-- `a * b` on `usize` -/
def mul (m : Target) (a b : Nat) : Rs Nat := arith m m.bits (a * b)
/-- `a + b` on `u32` -/
def add32 (m : Target) (a b : Nat) : Rs Nat := arith m 32 (a + b)
/-- `a - b` on `u32` -/
def sub32 (m : Target) (a b : Nat) : Rs Nat := arith m 32 ((a : Int) - b)
/-- `a * b` on `u32` -/
def mul32 (m : Target) (a b : Nat) : Rs Nat := arith m 32 (a * b)

/-- The loop of "Calculate how much of the input was consumed": src/utf16_be.rs:43-45,
src/utf16_le.rs:43-45, src/utf32_be.rs:28-30, src/utf32_le.rs:28-30, src/single_byte.rs:303-305,
src/shiftjis_whatwg.rs:83-85, src/big5_whatwg.rs:74-76. -/
def consumedBody (m : Target) (input : Str) (input_i : Nat) : Rs (Ctl Nat Nat) :=
  if isCharBoundary input input_i then .ok (.done input_i)
  else do
    let input_i ← add m input_i 1
    .ok (.next input_i)

/-- "Calculate how much of the input was consumed": src/utf16_be.rs:39-46,
src/utf16_le.rs:39-46, src/utf32_be.rs:24-31, src/utf32_le.rs:24-31, src/single_byte.rs:299-306,
src/shiftjis_whatwg.rs:79-86, src/big5_whatwg.rs:70-77. -/
def consumed (m : Target) (input : Str) (input_i : Nat) : Rs Nat :=
  if strLen input < input_i then .ok (strLen input)
  else loop (consumedBody m input) (strLen input + 1) input_i

/-- What follows an encoder's loop: src/utf16_be.rs:39-48, src/utf16_le.rs:39-48,
src/utf32_be.rs:24-33, src/utf32_le.rs:24-33, src/single_byte.rs:299-308,
src/shiftjis_whatwg.rs:79-88, src/big5_whatwg.rs:70-79. -/
def finishEncode (m : Target) (input : Str) : EncEnd → Rs (Bytes × EncodeResult)
  | (out, .error e) => .ok (out, .error e)
  | (out, .ok (input_i, output_i)) => do
    let input_i ← consumed m input input_i
    let s ← sliceTo out output_i
    .ok (out, .ok (s, input_i))

/-- Two stores to the output buffer.  src/shiftjis_whatwg.rs:70-71, src/big5_whatwg.rs:41-42,
54-55 and src/utf16_be.rs:16-17, src/utf16_le.rs:16-17 -/
def store2 (m : Target) (out : Bytes) (output_i : Nat) (a b : UInt8) : Rs Bytes := do
  let out ← setIndex out output_i a
  let i ← add m output_i 1
  setIndex out i b

/-- Four stores to the output buffer.  src/utf16_be.rs:28-31, src/utf16_le.rs:28-31,
src/utf32_be.rs:13-16, src/utf32_le.rs:13-16 -/
def store4 (m : Target) (out : Bytes) (output_i : Nat) (a b c d : UInt8) : Rs Bytes := do
  let out ← store2 m out output_i a b
  let i ← add m output_i 2
  let out ← setIndex out i c
  let i ← add m output_i 3
  setIndex out i d

/-- The end of an encoding step: `output_i += n; input_i = offset + 1;`.
src/utf16_be.rs:18-19, 32-33, src/utf16_le.rs:18-19, 32-33, src/utf32_be.rs:17-18,
src/utf32_le.rs:17-18, src/single_byte.rs:284-285, 288-289, src/shiftjis_whatwg.rs:24-25, 29-30,
34-35, 39-40, 72-73, src/big5_whatwg.rs:31-32, 43-44, 56-57 -/
def encNext (m : Target) (itr : List (Nat × Char)) (out : Bytes) (offset output_i n : Nat) :
    Rs (Ctl EncState EncEnd) := do
  let output_i ← add m output_i n
  let input_i ← add m offset 1
  .ok (.next ⟨itr, out, input_i, output_i⟩)

/-- The encoding error.  src/single_byte.rs:291-295, src/shiftjis_whatwg.rs:62-66,
src/big5_whatwg.rs:62-66 -/
def encFail (m : Target) (out : Bytes) (c : Char) (offset output_i : Nat) :
    Rs (Ctl EncState EncEnd) := do
  let hi ← add m offset (lenUtf8 c)
  .ok (.done (out, .error ⟨c, (offset, hi), output_i⟩))

/-- The end of a decoding step: the check for room, the copy, the counters.
src/utf16_be.rs:122-129, src/utf16_le.rs:122-129, src/utf32_be.rs:62-69, src/utf32_le.rs:62-69,
src/single_byte.rs:344-349, src/shiftjis_whatwg.rs:192-200, src/big5_whatwg.rs:163-170 -/
def decNext {α : Type} (m : Target) (st : DecState α) (itr : List α) (s : Bytes) (n : Nat) :
    Rs (Ctl (DecState α) DecEnd) := do
  let hi ← add m st.output_i s.length
  if st.out.length < hi then .ok (.done (st.out, .ok (st.input_i, st.output_i)))
  else
    let hi ← add m st.output_i s.length
    let out ← copyFromSlice st.out st.output_i hi s
    let input_i ← add m st.input_i n
    let output_i ← add m st.output_i s.length
    .ok (.next ⟨itr, out, input_i, output_i⟩)

/-- A decoded ASCII byte.  src/single_byte.rs:327-329, src/shiftjis_whatwg.rs:104-106,
src/big5_whatwg.rs:105-107 -/
def decAscii (m : Target) (st : DecState UInt8) (itr : Bytes) (byte : UInt8) :
    Rs (Ctl (DecState UInt8) DecEnd) := do
  let out ← setIndex st.out st.output_i byte
  let input_i ← add m st.input_i 1
  let output_i ← add m st.output_i 1
  .ok (.next ⟨itr, out, input_i, output_i⟩)

/-- The decoding error with range `(input_i, input_i + n)`.  src/utf16_be.rs:79-83, 104-108,
src/utf16_le.rs:79-83, 104-108, src/utf32_be.rs:72-76, src/utf32_le.rs:72-76,
src/single_byte.rs:335-339, src/shiftjis_whatwg.rs:129-133, 140-144, 168-172, 183-187,
src/big5_whatwg.rs:110-114, 121-125, 150-154, 177-181 -/
def decFail {α : Type} (m : Target) (st : DecState α) (n : Nat) :
    Rs (Ctl (DecState α) DecEnd) := do
  let hi ← add m st.input_i n
  .ok (.done (st.out, .error ⟨.InvalidData, (st.input_i, hi), st.output_i⟩))

namespace Utf8

/-- src/utf8.rs:82-84 -/
def copyLenBody (m : Target) (input : Bytes) (i : Nat) : Rs (Ctl Nat Nat) :=
  if 0 < i then do
    let b ← index input i
    if (b &&& 0b1100_0000) = 0b1000_0000 then
      let i ← sub m i 1
      .ok (.next i)
    else .ok (.done i)
  else .ok (.done i)

/-- src/utf8.rs:77-87 -/
def copyLen (m : Target) (input : Bytes) (output_len : Nat) : Rs Nat :=
  if output_len ≥ input.length then .ok input.length
  else loop (copyLenBody m input) (output_len + 1) output_len

/-- src/utf8.rs:11-15 -/
def encode_from_str (m : Target) (input : Str) (out_buffer : Bytes) :
    Rs (Bytes × EncodeResult) := do
  let cl ← copyLen m (strBytes input) out_buffer.length
  let src ← strSliceTo input cl
  let out_buffer ← copyFromSlice out_buffer 0 cl src
  let s ← sliceTo out_buffer cl
  .ok (out_buffer, .ok (s, cl))

/-- src/utf8.rs:40-45 -/
def errorEndBody (m : Target) (input : Bytes) (i : Nat) : Rs (Ctl Nat Nat) :=
  if i < input.length then do
    let b ← index input i
    if (b &&& 0b1100_0000) = 0b1000_0000 ∨ (b &&& 0b1111_1000) = 0b1111_1000 then
      let i ← add m i 1
      .ok (.next i)
    else .ok (.done i)
  else .ok (.done i)

/-- src/utf8.rs:17-67 -/
def decode_to_str (m : Target) (input : Bytes) (out_buffer : Bytes) (is_end : Bool) :
    Rs (Bytes × DecodeResult) := do
  let valid_up_to := fromUtf8ValidUpTo input
  let valid ← sliceTo input valid_up_to
  let bytes_copied ← copyLen m valid out_buffer.length
  let src ← sliceTo input bytes_copied
  let out_buffer ← copyFromSlice out_buffer 0 bytes_copied src
  if bytes_copied < out_buffer.length ∧ bytes_copied = valid_up_to ∧
      valid_up_to < input.length then
    let trailing_bytes ← sub m input.length valid_up_to
    let byte ← index input valid_up_to
    if !Verif.Utf8.isTruncated byte trailing_bytes then
      let i ← add m valid_up_to 1
      let i ← loop (errorEndBody m input) (input.length + 1) i
      .ok (out_buffer, .error ⟨.InvalidData, (valid_up_to, i), bytes_copied⟩)
    else if is_end then
      .ok (out_buffer, .error ⟨.InvalidData, (valid_up_to, input.length), bytes_copied⟩)
    else Verif.Utf8.decodeOk out_buffer bytes_copied
  else Verif.Utf8.decodeOk out_buffer bytes_copied

end Utf8

namespace Utf16
open Verif.Utf16 (Order)

/-- src/utf16_be.rs:10-37, src/utf16_le.rs:10-37 -/
def encodeBody (m : Target) (o : Order) (st : EncState) : Rs (Ctl EncState EncEnd) :=
  match st.itr with
  | [] => .ok (.done (st.out, .ok (st.input_i, st.output_i)))
  | (offset, c) :: itr =>
    let code := c.toNat
    if code ≤ 0xFFFF then do
      let i ← add m st.output_i 1
      if i < st.out.length then
        let val := o.toBytes (code % 65536)
        let out ← store2 m st.out st.output_i val.1 val.2
        encNext m itr out offset st.output_i 2
      else .ok (.done (st.out, .ok (st.input_i, st.output_i)))
    else do
      let i ← add m st.output_i 3
      if i < st.out.length then
        let code ← sub32 m code 0x10000
        let first := o.toBytes (0xD800 ||| ((code >>> 10) % 65536))
        let second := o.toBytes (0xDC00 ||| ((code % 65536) &&& 0x3FF))
        let out ← store4 m st.out st.output_i first.1 first.2 second.1 second.2
        encNext m itr out offset st.output_i 4
      else .ok (.done (st.out, .ok (st.input_i, st.output_i)))

/-- src/utf16_be.rs:6-49, src/utf16_le.rs:6-49 -/
def encode_from_str (m : Target) (o : Order) (input : Str) (out_buffer : Bytes) :
    Rs (Bytes × EncodeResult) := do
  let r ← loop (encodeBody m o) (input.length + 1) ⟨charIndices input, out_buffer, 0, 0⟩
  finishEncode m input r

/-- src/utf16_be.rs:111-115, src/utf16_le.rs:111-115.  `<<` discards the bits shifted out. -/
def pairCode (m : Target) (code_1 code_2 : Nat) : Rs Char := do
  let hi ← sub32 m code_1 0xD800
  let lo ← sub32 m code_2 0xDC00
  let n ← add32 m (((hi <<< 10) % 2 ^ 32) ||| lo) 0x10000
  fromU32Unchecked n

/-- src/utf16_be.rs:119-129, src/utf16_le.rs:119-129 -/
def decodeEmit (m : Target) (st : DecState Bytes) (itr : List Bytes) (code : Char) :
    Rs (Ctl (DecState Bytes) DecEnd) := do
  let s := encodeUtf8 code
  let hi ← add m st.output_i s.length
  if st.out.length < hi then .ok (.done (st.out, .ok (st.input_i, st.output_i)))
  else
    let hi ← add m st.output_i s.length
    let out ← copyFromSlice st.out st.output_i hi s
    let n ← mul m (lenUtf16 code) 2
    let input_i ← add m st.input_i n
    let output_i ← add m st.output_i s.length
    .ok (.next ⟨itr, out, input_i, output_i⟩)

/-- src/utf16_be.rs:57-130, src/utf16_le.rs:57-130 -/
def decodeBody (m : Target) (o : Order) (input : Bytes) (is_end : Bool) (st : DecState Bytes) :
    Rs (Ctl (DecState Bytes) DecEnd) :=
  match st.itr with
  | [] => .ok (.done (st.out, .ok (st.input_i, st.output_i)))
  | bytes :: itr =>
    if bytes.length < 2 then
      if !is_end then .ok (.done (st.out, .ok (st.input_i, st.output_i)))
      else .ok (Verif.Utf16.fail st.out st.output_i st.input_i input.length)
    else do
      let b0 ← index bytes 0
      let b1 ← index bytes 1
      let code_1 := o.fromBytes b0 b1
      if code_1 < 0xD800 ∨ 0xDFFF < code_1 then
        let code ← fromU32Unchecked code_1
        decodeEmit m st itr code
      else if code_1 &&& 0xFC00 = 0xDC00 then
        decFail m st 2
      else
        let i ← add m st.input_i 3
        if i ≥ input.length then
          if !is_end then .ok (.done (st.out, .ok (st.input_i, st.output_i)))
          else .ok (Verif.Utf16.fail st.out st.output_i st.input_i input.length)
        else
          let bytes_2 ← unwrap itr.head?
          let c0 ← index bytes_2 0
          let c1 ← index bytes_2 1
          let code_2 := o.fromBytes c0 c1
          if code_2 &&& 0xFC00 ≠ 0xDC00 then
            decFail m st 2
          else
            let code ← pairCode m code_1 code_2
            decodeEmit m st itr.tail code

/-- src/utf16_be.rs:51-136, src/utf16_le.rs:51-136 -/
def decode_to_str (m : Target) (o : Order) (input : Bytes) (out_buffer : Bytes) (is_end : Bool) :
    Rs (Bytes × DecodeResult) := do
  let r ← loop (decodeBody m o input is_end) (input.length + 1)
    ⟨chunks 2 input, out_buffer, 0, 0⟩
  finishDecode r

end Utf16

namespace Utf32
open Verif.Utf32 (Order)

/-- src/utf32_be.rs:10-22, src/utf32_le.rs:10-22 -/
def encodeBody (m : Target) (o : Order) (st : EncState) : Rs (Ctl EncState EncEnd) :=
  match st.itr with
  | [] => .ok (.done (st.out, .ok (st.input_i, st.output_i)))
  | (offset, c) :: itr => do
    let i ← add m st.output_i 3
    if i < st.out.length then
      let code := o.toBytes c.toNat
      let out ← store4 m st.out st.output_i code.1 code.2.1 code.2.2.1 code.2.2.2
      encNext m itr out offset st.output_i 4
    else .ok (.done (st.out, .ok (st.input_i, st.output_i)))

/-- src/utf32_be.rs:6-34, src/utf32_le.rs:6-34 -/
def encode_from_str (m : Target) (o : Order) (input : Str) (out_buffer : Bytes) :
    Rs (Bytes × EncodeResult) := do
  let r ← loop (encodeBody m o) (input.length + 1) ⟨charIndices input, out_buffer, 0, 0⟩
  finishEncode m input r

/-- src/utf32_be.rs:41-78, src/utf32_le.rs:41-78 -/
def decodeBody (m : Target) (o : Order) (input : Bytes) (is_end : Bool) (st : DecState Bytes) :
    Rs (Ctl (DecState Bytes) DecEnd) :=
  match st.itr with
  | [] => .ok (.done (st.out, .ok (st.input_i, st.output_i)))
  | bytes :: itr =>
    if bytes.length < 4 then
      if !is_end then .ok (.done (st.out, .ok (st.input_i, st.output_i)))
      else .ok (.done (st.out, .error ⟨.InvalidData, (st.input_i, input.length), st.output_i⟩))
    else do
      let b0 ← index bytes 0
      let b1 ← index bytes 1
      let b2 ← index bytes 2
      let b3 ← index bytes 3
      match fromU32 (o.fromBytes b0 b1 b2 b3) with
      | some code => decNext m st itr (encodeUtf8 code) 4
      | none => decFail m st 4

/-- src/utf32_be.rs:36-84, src/utf32_le.rs:36-84 -/
def decode_to_str (m : Target) (o : Order) (input : Bytes) (out_buffer : Bytes) (is_end : Bool) :
    Rs (Bytes × DecodeResult) := do
  let r ← loop (decodeBody m o input is_end) (input.length + 1)
    ⟨chunks 4 input, out_buffer, 0, 0⟩
  finishDecode r

end Utf32

namespace SingleByte

/-- src/single_byte.rs:278-297 -/
def encodeBody (m : Target) (table : List (Char × UInt8)) (st : EncState) :
    Rs (Ctl EncState EncEnd) :=
  match st.itr with
  | [] => .ok (.done (st.out, .ok (st.input_i, st.output_i)))
  | (offset, c) :: itr =>
    if st.output_i ≥ st.out.length then
      .ok (.done (st.out, .ok (st.input_i, st.output_i)))
    else if c.toNat ≤ 127 then do
      let out ← setIndex st.out st.output_i (UInt8.ofNat c.toNat)
      encNext m itr out offset st.output_i 1
    else do
      match ← binarySearchByKey table (·.1) c with
      | some i =>
        let e ← index table i
        let out ← setIndex st.out st.output_i e.2
        encNext m itr out offset st.output_i 1
      | none => encFail m st.out c offset st.output_i

/-- src/single_byte.rs:270-309 -/
def ascii_ext_encode_from_str (m : Target) (table : List (Char × UInt8)) (input : Str)
    (output : Bytes) : Rs (Bytes × EncodeResult) := do
  let r ← loop (encodeBody m table) (input.length + 1) ⟨charIndices input, output, 0, 0⟩
  finishEncode m input r

/-- src/single_byte.rs:321-351 -/
def decodeBody (m : Target) (table : List Char) (st : DecState UInt8) :
    Rs (Ctl (DecState UInt8) DecEnd) :=
  match st.itr with
  | [] => .ok (.done (st.out, .ok (st.input_i, st.output_i)))
  | byte :: itr =>
    if byte < 0x80 then
      if st.output_i ≥ st.out.length then
        .ok (.done (st.out, .ok (st.input_i, st.output_i)))
      else decAscii m st itr byte
    else do
      let i ← sub m byte.toNat 0x80
      let code ← index table i
      if code = '�' then decFail m st 1
      else decNext m st itr (encodeUtf8 code) 1

/-- src/single_byte.rs:314-357 -/
def ascii_ext_decode_to_str (m : Target) (table : List Char) (input : Bytes) (output : Bytes) :
    Rs (Bytes × DecodeResult) := do
  let r ← loop (decodeBody m table) (input.length + 1) ⟨input, output, 0, 0⟩
  finishDecode r

end SingleByte

namespace ShiftJis
open Verif.ShiftJis (ENCODE_TABLE DECODE_TABLE)

/-- src/shiftjis_whatwg.rs:47-52 -/
def eudcBytes (m : Target) (code : Nat) : Rs (UInt8 × UInt8) := do
  let p ← sub32 m code 0xE000
  let jis_ptr ← add32 m p 8836
  let lead := jis_ptr / 188
  let lead_offset := if lead < 0x1F then 0x81 else 0xC1
  let trail := jis_ptr % 188
  let trail_offset := if trail < 0x3F then 0x40 else 0x41
  let a ← add32 m lead lead_offset
  let b ← add32 m trail trail_offset
  .ok (UInt8.ofNat a, UInt8.ofNat b)

/-- src/shiftjis_whatwg.rs:42-69 -/
def jisBytes (m : Target) (code : Nat) : Rs (Option (UInt8 × UInt8)) :=
  if code ≥ 0xE000 ∧ code ≤ 0xE757 then (eudcBytes m code).map some
  else do
    let code ← unwrap (fromU32 (if code = 0x2212 then 0xFF0D else code))
    match ← binarySearchByKey ENCODE_TABLE (·.1) code with
    | some ptr_i => (index ENCODE_TABLE ptr_i).map fun e => some e.2
    | none => .ok none

/-- src/shiftjis_whatwg.rs:17-77 -/
def encodeBody (m : Target) (st : EncState) : Rs (Ctl EncState EncEnd) :=
  match st.itr with
  | [] => .ok (.done (st.out, .ok (st.input_i, st.output_i)))
  | (offset, c) :: itr =>
    let code := c.toNat
    if st.output_i ≥ st.out.length then
      .ok (.done (st.out, .ok (st.input_i, st.output_i)))
    else if code ≤ 128 then do
      let out ← setIndex st.out st.output_i (UInt8.ofNat code)
      encNext m itr out offset st.output_i 1
    else if code = 0xA5 then do
      let out ← setIndex st.out st.output_i 0x5C
      encNext m itr out offset st.output_i 1
    else if code = 0x203E then do
      let out ← setIndex st.out st.output_i 0x7E
      encNext m itr out offset st.output_i 1
    else if code ≥ 0xFF61 ∧ code ≤ 0xFF9F then do
      let d ← sub32 m code 0xFF61
      let d ← add32 m d 0xA1
      let out ← setIndex st.out st.output_i (UInt8.ofNat d)
      encNext m itr out offset st.output_i 1
    else do
      let i ← add m st.output_i 1
      if i < st.out.length then
        match ← jisBytes m code with
        | some b =>
          let out ← store2 m st.out st.output_i b.1 b.2
          encNext m itr out offset st.output_i 2
        | none => encFail m st.out c offset st.output_i
      else .ok (.done (st.out, .ok (st.input_i, st.output_i)))

/-- src/shiftjis_whatwg.rs:13-89 -/
def encode_from_str (m : Target) (input : Str) (out_buffer : Bytes) :
    Rs (Bytes × EncodeResult) := do
  let r ← loop (encodeBody m) (input.length + 1) ⟨charIndices input, out_buffer, 0, 0⟩
  finishEncode m input r

/-- src/shiftjis_whatwg.rs:147-151 -/
def jisPtr (m : Target) (byte_1 byte_2 : UInt8) : Rs Nat := do
  let lead_offset := if byte_1 < 0xA0 then 0x81 else 0xC1
  let trail_offset := if byte_2 < 0x7F then 0x40 else 0x41
  let lead ← sub32 m byte_1.toNat lead_offset
  let p ← mul32 m lead 188
  let q ← add32 m p byte_2.toNat
  sub32 m q trail_offset

/-- src/shiftjis_whatwg.rs:122-123 -/
def katakana (m : Target) (byte_1 : UInt8) : Rs Char := do
  let n ← add32 m byte_1.toNat 0xFF61
  let n ← sub32 m n 0xA1
  unwrap (fromU32 n)

/-- src/shiftjis_whatwg.rs:156-157 -/
def eudcChar (m : Target) (jis_ptr : Nat) : Rs Char := do
  let n ← add32 m jis_ptr 0xE000
  let n ← sub32 m n 8836
  unwrap (fromU32 n)

/-- src/shiftjis_whatwg.rs:99-202.  `jis_ptr as usize` (lines 161, 162, 175) is written out as
the truncation it is. -/
def decodeBody (m : Target) (is_end : Bool) (st : DecState UInt8) :
    Rs (Ctl (DecState UInt8) DecEnd) :=
  match st.itr with
  | [] => .ok (.done (st.out, .ok (st.input_i, st.output_i)))
  | byte_1 :: itr =>
    if st.output_i ≥ st.out.length then
      .ok (.done (st.out, .ok (st.input_i, st.output_i)))
    else if byte_1 ≤ 127 then decAscii m st itr byte_1
    else if byte_1 = 128 then do
      let i ← add m st.output_i 1
      if i ≥ st.out.length then
        .ok (.done (st.out, .ok (st.input_i, st.output_i)))
      else
        let out ← store2 m st.out st.output_i 0xC2 0x80
        let output_i ← add m st.output_i 2
        let input_i ← add m st.input_i 1
        .ok (.next ⟨itr, out, input_i, output_i⟩)
    else if byte_1 ≥ 0xA1 ∧ byte_1 ≤ 0xDF then do
      let c ← katakana m byte_1
      decNext m st itr (encodeUtf8 c) 1
    else if (byte_1 > 0x9F ∧ byte_1 < 0xE0) ∨ byte_1 > 0xFC then
      decFail m st 1
    else match itr with
      | byte_2 :: itr =>
        if byte_2 < 0x40 ∨ byte_2 = 0x7F ∨ byte_2 > 0xFC then
          decFail m st (if byte_2 ≤ 127 then 1 else 2)
        else do
          let jis_ptr ← jisPtr m byte_1 byte_2
          if jis_ptr ≥ 8836 ∧ jis_ptr ≤ 10715 then
            let c ← eudcChar m jis_ptr
            decNext m st itr (encodeUtf8 c) 2
          else if jis_ptr % 2 ^ m.bits ≥ DECODE_TABLE.length then
            decFail m st (if byte_2 ≤ 127 then 1 else 2)
          else
            let c ← index DECODE_TABLE (jis_ptr % 2 ^ m.bits)
            if c = '�' then decFail m st (if byte_2 ≤ 127 then 1 else 2)
            else decNext m st itr (encodeUtf8 c) 2
      | [] =>
        if !is_end then .ok (.done (st.out, .ok (st.input_i, st.output_i)))
        else decFail m st 1

/-- src/shiftjis_whatwg.rs:92-208 -/
def decode_to_str (m : Target) (input : Bytes) (out_buffer : Bytes) (is_end : Bool) :
    Rs (Bytes × DecodeResult) := do
  let r ← loop (decodeBody m is_end) (input.length + 1) ⟨input, out_buffer, 0, 0⟩
  finishDecode r

end ShiftJis

namespace Big5
open Verif.Big5 (ENCODE_TABLE DECODE_TABLE map_grapheme graphemeOf)

/-- src/big5_whatwg.rs:52-57 -/
def encodeCommon (m : Target) (st : EncState) (itr : List (Nat × Char)) (ptr_i offset : Nat) :
    Rs (Ctl EncState EncEnd) := do
  let e ← index ENCODE_TABLE ptr_i
  let out ← store2 m st.out st.output_i e.2.1 e.2.2
  encNext m itr out offset st.output_i 2

/-- src/big5_whatwg.rs:24-68 -/
def encodeBody (m : Target) (is_end : Bool) (st : EncState) : Rs (Ctl EncState EncEnd) :=
  match st.itr with
  | [] => .ok (.done (st.out, .ok (st.input_i, st.output_i)))
  | (offset, c) :: itr =>
    let code := c.toNat
    if st.output_i ≥ st.out.length then
      .ok (.done (st.out, .ok (st.input_i, st.output_i)))
    else if code ≤ 127 then do
      let out ← setIndex st.out st.output_i (UInt8.ofNat code)
      encNext m itr out offset st.output_i 1
    else do
      match ← binarySearchByKey ENCODE_TABLE (·.1) c with
      | some ptr_i =>
        let i ← add m st.output_i 1
        if i < st.out.length then
          if code = 0xCA ∨ code = 0xEA then
            match itr with
            | (offset2, c2) :: itr' =>
              match map_grapheme code c2.toNat with
              | some bytes =>
                let out ← store2 m st.out st.output_i bytes.1 bytes.2
                encNext m itr' out offset2 st.output_i 2
              | none => encodeCommon m st itr ptr_i offset
            | [] =>
              if !is_end then .ok (.done (st.out, .ok (st.input_i, st.output_i)))
              else encodeCommon m st itr ptr_i offset
          else encodeCommon m st itr ptr_i offset
        else .ok (.done (st.out, .ok (st.input_i, st.output_i)))
      | none => encFail m st.out c offset st.output_i

/-- src/big5_whatwg.rs:15-80 -/
def encode_from_str (m : Target) (input : Str) (out_buffer : Bytes) (is_end : Bool) :
    Rs (Bytes × EncodeResult) := do
  let r ← loop (encodeBody m is_end) (input.length + 1) ⟨charIndices input, out_buffer, 0, 0⟩
  finishEncode m input r

/-- src/big5_whatwg.rs:127-135 -/
def big5Ptr (m : Target) (byte_1 byte_2 : UInt8) : Rs Nat := do
  let l ← sub m byte_1.toNat 0x81
  let lead ← mul m l 157
  let trail ← if byte_2 < 0x7F then sub m byte_2.toNat 0x40 else sub m byte_2.toNat 0x62
  add m lead trail

/-- src/big5_whatwg.rs:100-184 -/
def decodeBody (m : Target) (is_end : Bool) (st : DecState UInt8) :
    Rs (Ctl (DecState UInt8) DecEnd) :=
  match st.itr with
  | [] => .ok (.done (st.out, .ok (st.input_i, st.output_i)))
  | byte_1 :: itr =>
    if st.output_i ≥ st.out.length then
      .ok (.done (st.out, .ok (st.input_i, st.output_i)))
    else if byte_1 ≤ 127 then decAscii m st itr byte_1
    else if byte_1 = 0x80 ∨ byte_1 = 0xFF then
      decFail m st 1
    else match itr with
      | byte_2 :: itr =>
        if byte_2 < 0x40 ∨ byte_2 > 0xFE ∨ (byte_2 > 0x7E ∧ byte_2 < 0xA1) then
          decFail m st (if byte_2 ≤ 127 then 1 else 2)
        else do
          let big5_ptr ← big5Ptr m byte_1 byte_2
          let undefined_ ←
            if big5_ptr ≥ DECODE_TABLE.length then .ok true
            else (index DECODE_TABLE big5_ptr).map fun c => decide (c = '�')
          if undefined_ then
            match graphemeOf big5_ptr with
            | some s => decNext m st itr (strBytes s) 2
            | none => decFail m st (if byte_2 ≤ 127 then 1 else 2)
          else
            let c ← index DECODE_TABLE big5_ptr
            decNext m st itr (encodeUtf8 c) 2
      | [] =>
        if !is_end then .ok (.done (st.out, .ok (st.input_i, st.output_i)))
        else decFail m st 1

/-- src/big5_whatwg.rs:93-190 -/
def decode_to_str (m : Target) (input : Bytes) (out_buffer : Bytes) (is_end : Bool) :
    Rs (Bytes × DecodeResult) := do
  let r ← loop (decodeBody m is_end) (input.length + 1) ⟨input, out_buffer, 0, 0⟩
  finishDecode r

end Big5

/-- `encode_from_str` of the wrapper.  examples/wrapper.rs:65-111.  The calls into a module of
`single_byte` are replaced by the body of that module's `encode_from_str`
(src/single_byte.rs:13 for `ascii`; lines 13-18 of src/generated/single_byte/*_tables.rs.inc for
the others, which `single_byte.rs` includes at the line given). -/
def encode_from_str (m : Target) (output_encoding : Encoding) (input : Str) (output : Bytes)
    (is_end : Bool) : Rs (Bytes × EncodeResult) :=
  match output_encoding with
  | .Utf8 => Utf8.encode_from_str m input output
  | .Utf16BE => Utf16.encode_from_str m Verif.Utf16.be input output
  | .Utf16LE => Utf16.encode_from_str m Verif.Utf16.le input output
  | .Utf32BE => Utf32.encode_from_str m Verif.Utf32.be input output
  | .Utf32LE => Utf32.encode_from_str m Verif.Utf32.le input output
  | .Big5WHATWG => Big5.encode_from_str m input output is_end
  | .ShiftJISWHATWG => ShiftJis.encode_from_str m input output
  | .Ascii => SingleByte.ascii_ext_encode_from_str m [] input output
  | .Ibm866 => SingleByte.ascii_ext_encode_from_str m (encTable Tables.ibm_866_encode) input output -- single_byte.rs:21
  | .Iso8859_1 => SingleByte.ascii_ext_encode_from_str m (encTable Tables.iso_8859_1_encode) input output -- single_byte.rs:29
  | .Iso8859_2 => SingleByte.ascii_ext_encode_from_str m (encTable Tables.iso_8859_2_encode) input output -- single_byte.rs:39
  | .Iso8859_3 => SingleByte.ascii_ext_encode_from_str m (encTable Tables.iso_8859_3_encode) input output -- single_byte.rs:47
  | .Iso8859_4 => SingleByte.ascii_ext_encode_from_str m (encTable Tables.iso_8859_4_encode) input output -- single_byte.rs:55
  | .Iso8859_5 => SingleByte.ascii_ext_encode_from_str m (encTable Tables.iso_8859_5_encode) input output -- single_byte.rs:63
  | .Iso8859_6 => SingleByte.ascii_ext_encode_from_str m (encTable Tables.iso_8859_6_encode) input output -- single_byte.rs:71
  | .Iso8859_7 => SingleByte.ascii_ext_encode_from_str m (encTable Tables.iso_8859_7_encode) input output -- single_byte.rs:79
  | .Iso8859_8 => SingleByte.ascii_ext_encode_from_str m (encTable Tables.iso_8859_8_encode) input output -- single_byte.rs:87
  | .Iso8859_9 => SingleByte.ascii_ext_encode_from_str m (encTable Tables.iso_8859_9_encode) input output -- single_byte.rs:95
  | .Iso8859_10 => SingleByte.ascii_ext_encode_from_str m (encTable Tables.iso_8859_10_encode) input output -- single_byte.rs:103
  | .Iso8859_11 => SingleByte.ascii_ext_encode_from_str m (encTable Tables.iso_8859_11_encode) input output -- single_byte.rs:111
  | .Iso8859_13 => SingleByte.ascii_ext_encode_from_str m (encTable Tables.iso_8859_13_encode) input output -- single_byte.rs:121
  | .Iso8859_14 => SingleByte.ascii_ext_encode_from_str m (encTable Tables.iso_8859_14_encode) input output -- single_byte.rs:129
  | .Iso8859_15 => SingleByte.ascii_ext_encode_from_str m (encTable Tables.iso_8859_15_encode) input output -- single_byte.rs:137
  | .Iso8859_16 => SingleByte.ascii_ext_encode_from_str m (encTable Tables.iso_8859_16_encode) input output -- single_byte.rs:145
  | .Koi8R => SingleByte.ascii_ext_encode_from_str m (encTable Tables.koi8_r_encode) input output -- single_byte.rs:153
  | .Koi8U => SingleByte.ascii_ext_encode_from_str m (encTable Tables.koi8_u_encode) input output -- single_byte.rs:161
  | .Macintosh => SingleByte.ascii_ext_encode_from_str m (encTable Tables.mac_roman_encode) input output -- single_byte.rs:169
  | .MacCyrillic => SingleByte.ascii_ext_encode_from_str m (encTable Tables.mac_cyrillic_encode) input output -- single_byte.rs:179
  | .Windows874 => SingleByte.ascii_ext_encode_from_str m (encTable Tables.windows_874_encode) input output -- single_byte.rs:187
  | .Windows1250 => SingleByte.ascii_ext_encode_from_str m (encTable Tables.windows_1250_encode) input output -- single_byte.rs:195
  | .Windows1251 => SingleByte.ascii_ext_encode_from_str m (encTable Tables.windows_1251_encode) input output -- single_byte.rs:203
  | .Windows1252 => SingleByte.ascii_ext_encode_from_str m (encTable Tables.windows_1252_encode) input output -- single_byte.rs:211
  | .Windows1253 => SingleByte.ascii_ext_encode_from_str m (encTable Tables.windows_1253_encode) input output -- single_byte.rs:219
  | .Windows1254 => SingleByte.ascii_ext_encode_from_str m (encTable Tables.windows_1254_encode) input output -- single_byte.rs:227
  | .Windows1255 => SingleByte.ascii_ext_encode_from_str m (encTable Tables.windows_1255_encode) input output -- single_byte.rs:235
  | .Windows1256 => SingleByte.ascii_ext_encode_from_str m (encTable Tables.windows_1256_encode) input output -- single_byte.rs:243
  | .Windows1257 => SingleByte.ascii_ext_encode_from_str m (encTable Tables.windows_1257_encode) input output -- single_byte.rs:251
  | .Windows1258 => SingleByte.ascii_ext_encode_from_str m (encTable Tables.windows_1258_encode) input output -- single_byte.rs:259

/-- `decode_to_str` of the wrapper.  examples/wrapper.rs:114-160.  The calls into a module of
`single_byte` are replaced by the body of that module's `decode_to_str`
(src/single_byte.rs:17 for `ascii`; lines 6-11 of src/generated/single_byte/*_tables.rs.inc for
the others). -/
def decode_to_str (m : Target) (input_encoding : Encoding) (input : Bytes) (output : Bytes)
    (is_end : Bool) : Rs (Bytes × DecodeResult) :=
  match input_encoding with
  | .Utf8 => Utf8.decode_to_str m input output is_end
  | .Utf16BE => Utf16.decode_to_str m Verif.Utf16.be input output is_end
  | .Utf16LE => Utf16.decode_to_str m Verif.Utf16.le input output is_end
  | .Utf32BE => Utf32.decode_to_str m Verif.Utf32.be input output is_end
  | .Utf32LE => Utf32.decode_to_str m Verif.Utf32.le input output is_end
  | .Big5WHATWG => Big5.decode_to_str m input output is_end
  | .ShiftJISWHATWG => ShiftJis.decode_to_str m input output is_end
  | .Ascii => SingleByte.ascii_ext_decode_to_str m asciiDecTable input output
  | .Ibm866 => SingleByte.ascii_ext_decode_to_str m (decTable Tables.ibm_866_decode) input output -- single_byte.rs:21
  | .Iso8859_1 => SingleByte.ascii_ext_decode_to_str m (decTable Tables.iso_8859_1_decode) input output -- single_byte.rs:29
  | .Iso8859_2 => SingleByte.ascii_ext_decode_to_str m (decTable Tables.iso_8859_2_decode) input output -- single_byte.rs:39
  | .Iso8859_3 => SingleByte.ascii_ext_decode_to_str m (decTable Tables.iso_8859_3_decode) input output -- single_byte.rs:47
  | .Iso8859_4 => SingleByte.ascii_ext_decode_to_str m (decTable Tables.iso_8859_4_decode) input output -- single_byte.rs:55
  | .Iso8859_5 => SingleByte.ascii_ext_decode_to_str m (decTable Tables.iso_8859_5_decode) input output -- single_byte.rs:63
  | .Iso8859_6 => SingleByte.ascii_ext_decode_to_str m (decTable Tables.iso_8859_6_decode) input output -- single_byte.rs:71
  | .Iso8859_7 => SingleByte.ascii_ext_decode_to_str m (decTable Tables.iso_8859_7_decode) input output -- single_byte.rs:79
  | .Iso8859_8 => SingleByte.ascii_ext_decode_to_str m (decTable Tables.iso_8859_8_decode) input output -- single_byte.rs:87
  | .Iso8859_9 => SingleByte.ascii_ext_decode_to_str m (decTable Tables.iso_8859_9_decode) input output -- single_byte.rs:95
  | .Iso8859_10 => SingleByte.ascii_ext_decode_to_str m (decTable Tables.iso_8859_10_decode) input output -- single_byte.rs:103
  | .Iso8859_11 => SingleByte.ascii_ext_decode_to_str m (decTable Tables.iso_8859_11_decode) input output -- single_byte.rs:111
  | .Iso8859_13 => SingleByte.ascii_ext_decode_to_str m (decTable Tables.iso_8859_13_decode) input output -- single_byte.rs:121
  | .Iso8859_14 => SingleByte.ascii_ext_decode_to_str m (decTable Tables.iso_8859_14_decode) input output -- single_byte.rs:129
  | .Iso8859_15 => SingleByte.ascii_ext_decode_to_str m (decTable Tables.iso_8859_15_decode) input output -- single_byte.rs:137
  | .Iso8859_16 => SingleByte.ascii_ext_decode_to_str m (decTable Tables.iso_8859_16_decode) input output -- single_byte.rs:145
  | .Koi8R => SingleByte.ascii_ext_decode_to_str m (decTable Tables.koi8_r_decode) input output -- single_byte.rs:153
  | .Koi8U => SingleByte.ascii_ext_decode_to_str m (decTable Tables.koi8_u_decode) input output -- single_byte.rs:161
  | .Macintosh => SingleByte.ascii_ext_decode_to_str m (decTable Tables.mac_roman_decode) input output -- single_byte.rs:169
  | .MacCyrillic => SingleByte.ascii_ext_decode_to_str m (decTable Tables.mac_cyrillic_decode) input output -- single_byte.rs:179
  | .Windows874 => SingleByte.ascii_ext_decode_to_str m (decTable Tables.windows_874_decode) input output -- single_byte.rs:187
  | .Windows1250 => SingleByte.ascii_ext_decode_to_str m (decTable Tables.windows_1250_decode) input output -- single_byte.rs:195
  | .Windows1251 => SingleByte.ascii_ext_decode_to_str m (decTable Tables.windows_1251_decode) input output -- single_byte.rs:203
  | .Windows1252 => SingleByte.ascii_ext_decode_to_str m (decTable Tables.windows_1252_decode) input output -- single_byte.rs:211
  | .Windows1253 => SingleByte.ascii_ext_decode_to_str m (decTable Tables.windows_1253_decode) input output -- single_byte.rs:219
  | .Windows1254 => SingleByte.ascii_ext_decode_to_str m (decTable Tables.windows_1254_decode) input output -- single_byte.rs:227
  | .Windows1255 => SingleByte.ascii_ext_decode_to_str m (decTable Tables.windows_1255_decode) input output -- single_byte.rs:235
  | .Windows1256 => SingleByte.ascii_ext_decode_to_str m (decTable Tables.windows_1256_decode) input output -- single_byte.rs:243
  | .Windows1257 => SingleByte.ascii_ext_decode_to_str m (decTable Tables.windows_1257_decode) input output -- single_byte.rs:251
  | .Windows1258 => SingleByte.ascii_ext_decode_to_str m (decTable Tables.windows_1258_decode) input output -- single_byte.rs:259

end Verif.Machine
