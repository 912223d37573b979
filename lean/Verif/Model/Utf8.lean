import Verif.Rust

/-! # src/utf8.rs -/

namespace Verif.Utf8

/-- The `while` loop of `copy_len`.  src/utf8.rs:82-84 -/
def copyLenBody (input : Bytes) (i : Nat) : Rs (Ctl Nat Nat) :=
  if 0 < i then do
    let b ← index input i
    if (b &&& 0b1100_0000) = 0b1000_0000 then
      let i ← checkedSub i 1
      .ok (.next i)
    else .ok (.done i)
  else .ok (.done i)

/-- `copy_len`.  src/utf8.rs:77-87 -/
def copyLen (input : Bytes) (output_len : Nat) : Rs Nat :=
  if output_len ≥ input.length then .ok input.length
  else loop (copyLenBody input) (output_len + 1) output_len

/-- `utf8::encode_from_str`.  src/utf8.rs:11-15 -/
def encode_from_str (input : Str) (out_buffer : Bytes) : Rs (Bytes × EncodeResult) := do
  let cl ← copyLen (strBytes input) out_buffer.length
  let src ← strSliceTo input cl
  let out_buffer ← copyFromSlice out_buffer 0 cl src
  let s ← sliceTo out_buffer cl
  .ok (out_buffer, .ok (s, cl))

/-- The `while` loop that looks for the end of the error.  src/utf8.rs:40-45 -/
def errorEndBody (input : Bytes) (i : Nat) : Rs (Ctl Nat Nat) :=
  if i < input.length then do
    let b ← index input i
    if (b &&& 0b1100_0000) = 0b1000_0000 ∨ (b &&& 0b1111_1000) = 0b1111_1000 then
      .ok (.next (i + 1))
    else .ok (.done i)
  else .ok (.done i)

/-- `is_truncated`.  src/utf8.rs:33-35 -/
def isTruncated (byte : UInt8) (trailing_bytes : Nat) : Bool :=
  ((byte &&& 0b1110_0000) == 0b1100_0000 && decide (trailing_bytes < 2)) ||
  ((byte &&& 0b1111_0000) == 0b1110_0000 && decide (trailing_bytes < 3)) ||
  ((byte &&& 0b1111_1000) == 0b1111_0000 && decide (trailing_bytes < 4))

/-- src/utf8.rs:62-66 -/
def decodeOk (out_buffer : Bytes) (bytes_copied : Nat) : Rs (Bytes × DecodeResult) := do
  let s ← sliceTo out_buffer bytes_copied
  let text ← fromUtf8Unchecked s
  .ok (out_buffer, .ok (text, bytes_copied))

/-- `utf8::decode_to_str`.  src/utf8.rs:17-67 -/
def decode_to_str (input : Bytes) (out_buffer : Bytes) (is_end : Bool) :
    Rs (Bytes × DecodeResult) := do
  let valid_up_to := fromUtf8ValidUpTo input
  let valid ← sliceTo input valid_up_to
  let bytes_copied ← copyLen valid out_buffer.length
  let src ← sliceTo input bytes_copied
  let out_buffer ← copyFromSlice out_buffer 0 bytes_copied src
  if bytes_copied < out_buffer.length ∧ bytes_copied = valid_up_to ∧
      valid_up_to < input.length then
    let trailing_bytes ← checkedSub input.length valid_up_to
    let byte ← index input valid_up_to
    if !isTruncated byte trailing_bytes then
      let i ← loop (errorEndBody input) (input.length + 1) (valid_up_to + 1)
      .ok (out_buffer, .error ⟨.InvalidData, (valid_up_to, i), bytes_copied⟩)
    else if is_end then
      .ok (out_buffer, .error ⟨.InvalidData, (valid_up_to, input.length), bytes_copied⟩)
    else decodeOk out_buffer bytes_copied
  else decodeOk out_buffer bytes_copied

end Verif.Utf8
