import Verif.Rust
import Verif.Tables.ShiftJisDecode
import Verif.Tables.ShiftJisEncode

/-! # src/shiftjis_whatwg.rs -/

namespace Verif.ShiftJis

/-- `DECODE_TABLE`.  src/generated/whatwg/shiftjis_whatwg_tables.rs.inc:4-1393 -/
def DECODE_TABLE : List Char := Tables.ShiftJis.decRows.flatten.map Char.ofNat

/-- `ENCODE_TABLE`.  src/generated/whatwg/shiftjis_whatwg_tables.rs.inc:1395-3838 -/
def ENCODE_TABLE : List (Char × UInt8 × UInt8) :=
  Tables.ShiftJis.encRows.flatten.map fun e =>
    (Char.ofNat e.1, UInt8.ofNat e.2.1, UInt8.ofNat e.2.2)

/-- "Special case 5" of the encoder.  src/shiftjis_whatwg.rs:47-52 -/
def eudcBytes (code : Nat) : Rs (UInt8 × UInt8) := do
  let p ← checkedSub code 0xE000
  let jis_ptr := p + 8836
  let lead := jis_ptr / 188
  let lead_offset := if lead < 0x1F then 0x81 else 0xC1
  let trail := jis_ptr % 188
  let trail_offset := if trail < 0x3F then 0x40 else 0x41
  .ok (UInt8.ofNat (lead + lead_offset), UInt8.ofNat (trail + trail_offset))

/-- The value of `jis_bytes`, `none` where the code returns an error.
src/shiftjis_whatwg.rs:42-69 -/
def jisBytes (code : Nat) : Rs (Option (UInt8 × UInt8)) :=
  if code ≥ 0xE000 ∧ code ≤ 0xE757 then (eudcBytes code).map some
  else do
    let code ← unwrap (fromU32 (if code = 0x2212 then 0xFF0D else code))
    match ← binarySearchByKey ENCODE_TABLE (·.1) code with
    | some ptr_i => (index ENCODE_TABLE ptr_i).map fun e => some e.2
    | none => .ok none

/-- The `for` loop of `encode_from_str`.  src/shiftjis_whatwg.rs:17-77 -/
def encodeBody (st : EncState) : Rs (Ctl EncState EncEnd) :=
  match st.itr with
  | [] => .ok (.done (st.out, .ok (st.input_i, st.output_i)))
  | (offset, c) :: itr =>
    let code := c.toNat
    if st.output_i ≥ st.out.length then
      .ok (.done (st.out, .ok (st.input_i, st.output_i)))
    else if code ≤ 128 then do
      let out ← setIndex st.out st.output_i (UInt8.ofNat code)
      .ok (.next ⟨itr, out, offset + 1, st.output_i + 1⟩)
    else if code = 0xA5 then do
      let out ← setIndex st.out st.output_i 0x5C
      .ok (.next ⟨itr, out, offset + 1, st.output_i + 1⟩)
    else if code = 0x203E then do
      let out ← setIndex st.out st.output_i 0x7E
      .ok (.next ⟨itr, out, offset + 1, st.output_i + 1⟩)
    else if code ≥ 0xFF61 ∧ code ≤ 0xFF9F then do
      let d ← checkedSub code 0xFF61
      let out ← setIndex st.out st.output_i (UInt8.ofNat (d + 0xA1))
      .ok (.next ⟨itr, out, offset + 1, st.output_i + 1⟩)
    else if st.output_i + 1 < st.out.length then do
      match ← jisBytes code with
      | some b =>
        let out ← setIndex st.out st.output_i b.1
        let out ← setIndex out (st.output_i + 1) b.2
        .ok (.next ⟨itr, out, offset + 1, st.output_i + 2⟩)
      | none =>
        .ok (.done (st.out, .error ⟨c, (offset, offset + lenUtf8 c), st.output_i⟩))
    else .ok (.done (st.out, .ok (st.input_i, st.output_i)))

/-- `encode_from_str`.  src/shiftjis_whatwg.rs:13-89 -/
def encode_from_str (input : Str) (out_buffer : Bytes) : Rs (Bytes × EncodeResult) := do
  let r ← loop encodeBody (input.length + 1) ⟨charIndices input, out_buffer, 0, 0⟩
  finishEncode input r

/-- The error value of `decode_to_str`.  src/shiftjis_whatwg.rs:129-133, 140-144, 168-172,
183-187 -/
def fail (st : DecState UInt8) (n : Nat) : Ctl (DecState UInt8) DecEnd :=
  .done (st.out, .error ⟨.InvalidData, (st.input_i, st.input_i + n), st.output_i⟩)

/-- "Copy decoded data to output", "Update our counters".  src/shiftjis_whatwg.rs:191-200 -/
def decodeEmit (st : DecState UInt8) (itr : Bytes) (string : Bytes) (input_consumed : Nat) :
    Rs (Ctl (DecState UInt8) DecEnd) :=
  if st.out.length < st.output_i + string.length then
    .ok (.done (st.out, .ok (st.input_i, st.output_i)))
  else do
    let out ← copyFromSlice st.out st.output_i (st.output_i + string.length) string
    .ok (.next ⟨itr, out, st.input_i + input_consumed, st.output_i + string.length⟩)

/-- The pointer computed from the two bytes.  src/shiftjis_whatwg.rs:147-151 -/
def jisPtr (byte_1 byte_2 : UInt8) : Rs Nat := do
  let lead_offset := if byte_1 < 0xA0 then 0x81 else 0xC1
  let trail_offset := if byte_2 < 0x7F then 0x40 else 0x41
  let lead ← checkedSub byte_1.toNat lead_offset
  checkedSub (lead * 188 + byte_2.toNat) trail_offset

/-- The char of a one-byte katakana code.  src/shiftjis_whatwg.rs:122-123 -/
def katakana (byte_1 : UInt8) : Rs Char := do
  let n ← checkedSub (byte_1.toNat + 0xFF61) 0xA1
  unwrap (fromU32 n)

/-- The private use char of a pointer.  src/shiftjis_whatwg.rs:156-157 -/
def eudcChar (jis_ptr : Nat) : Rs Char := do
  let n ← checkedSub (jis_ptr + 0xE000) 8836
  unwrap (fromU32 n)

/-- The `while` loop of `decode_to_str`.  src/shiftjis_whatwg.rs:99-202 -/
def decodeBody (is_end : Bool) (st : DecState UInt8) : Rs (Ctl (DecState UInt8) DecEnd) :=
  match st.itr with
  | [] => .ok (.done (st.out, .ok (st.input_i, st.output_i)))
  | byte_1 :: itr =>
    if st.output_i ≥ st.out.length then
      .ok (.done (st.out, .ok (st.input_i, st.output_i)))
    else if byte_1 ≤ 127 then do
      let out ← setIndex st.out st.output_i byte_1
      .ok (.next ⟨itr, out, st.input_i + 1, st.output_i + 1⟩)
    else if byte_1 = 128 then
      if st.output_i + 1 ≥ st.out.length then
        .ok (.done (st.out, .ok (st.input_i, st.output_i)))
      else do
        let out ← setIndex st.out st.output_i 0xC2
        let out ← setIndex out (st.output_i + 1) 0x80
        .ok (.next ⟨itr, out, st.input_i + 1, st.output_i + 2⟩)
    else if byte_1 ≥ 0xA1 ∧ byte_1 ≤ 0xDF then do
      let c ← katakana byte_1
      decodeEmit st itr (encodeUtf8 c) 1
    else if (byte_1 > 0x9F ∧ byte_1 < 0xE0) ∨ byte_1 > 0xFC then
      .ok (fail st 1)
    else match itr with
      | byte_2 :: itr =>
        if byte_2 < 0x40 ∨ byte_2 = 0x7F ∨ byte_2 > 0xFC then
          .ok (fail st (if byte_2 ≤ 127 then 1 else 2))
        else do
          let jis_ptr ← jisPtr byte_1 byte_2
          if jis_ptr ≥ 8836 ∧ jis_ptr ≤ 10715 then
            let c ← eudcChar jis_ptr
            decodeEmit st itr (encodeUtf8 c) 2
          else if jis_ptr ≥ DECODE_TABLE.length then
            .ok (fail st (if byte_2 ≤ 127 then 1 else 2))
          else
            let c ← index DECODE_TABLE jis_ptr
            if c = '�' then .ok (fail st (if byte_2 ≤ 127 then 1 else 2))
            else decodeEmit st itr (encodeUtf8 c) 2
      | [] =>
        if !is_end then .ok (.done (st.out, .ok (st.input_i, st.output_i)))
        else .ok (fail st 1)

/-- `decode_to_str`.  src/shiftjis_whatwg.rs:92-208 -/
def decode_to_str (input : Bytes) (out_buffer : Bytes) (is_end : Bool) :
    Rs (Bytes × DecodeResult) := do
  let r ← loop (decodeBody is_end) (input.length + 1) ⟨input, out_buffer, 0, 0⟩
  finishDecode r

end Verif.ShiftJis
