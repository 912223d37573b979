import Verif.Rust

/-!
# The text functions of Rust's standard library that the crate calls

`Verif.Rust` describes these functions by their contracts. Here are the algorithms that implement
them, on bytes and with the bit operations of the library, so that the contracts can be proved
(C69). The standard library is not part of `/repo`: each comment says where in `library/core/src`
of the Rust sources the function is, and where the crate calls it. They are written from memory of
these sources, which are not available here. `usize` is `Nat` where it cannot overflow (an index
into a slice).
-/

namespace Verif.Core

/-- `b as i8` -/
def asI8 (b : UInt8) : Int := if b.toNat < 128 then b.toNat else b.toNat - 256

/-- core/src/str/validations.rs, `UTF8_CHAR_WIDTH` and `utf8_char_width`: a table of 256 entries,
given here by its runs of equal entries. -/
def utf8CharWidth (b : UInt8) : Nat :=
  if b.toNat ≤ 0x7F then 1
  else if b.toNat ≤ 0xC1 then 0
  else if b.toNat ≤ 0xDF then 2
  else if b.toNat ≤ 0xEF then 3
  else if b.toNat ≤ 0xF4 then 4
  else 0

/-! ## `core::str::from_utf8` (called in src/utf8.rs:19) -/

/-- `Result<(), Utf8Error>`; an error is `(valid_up_to, error_len)`. -/
abbrev Utf8Result := Except (Nat × Option Nat) Unit

/-- The word at `index`, least significant byte first. (The test of it does not depend on the byte
order.) -/
def wordLE : Bytes → Nat
  | [] => 0
  | b :: r => b.toNat + 256 * wordLE r

/-- The word at `index`, most significant byte first. -/
def wordBE (l : Bytes) : Nat := wordLE l.reverse

/-- `NONASCII_MASK`: `usize::repeat_u8(0x80)`. -/
def nonAsciiMask : Nat → Nat
  | 0 => 0
  | n + 1 => 0x80 + 256 * nonAsciiMask n

/-- A machine: bytes of a `usize`, and its byte order. -/
structure Machine where
  usizeBytes : Nat
  bigEndian : Bool

/-- The machines there are. -/
def Machine.Real (m : Machine) : Prop := m.usizeBytes ∈ [2, 4, 8]

/-- `*(ptr.add(i) as *const usize)`: undefined behaviour if the address is not aligned or the word
is not inside the slice. -/
def readWord (m : Machine) (addr : Nat) (v : Bytes) (i : Nat) : Rs Nat :=
  if (addr + i) % m.usizeBytes = 0 ∧ i + m.usizeBytes ≤ v.length then
    let w := (v.drop i).take m.usizeBytes
    .ok (if m.bigEndian then wordBE w else wordLE w)
  else .error .ub

/-- `contains_nonascii`: `(x & NONASCII_MASK) != 0` -/
def containsNonascii (m : Machine) (x : Nat) : Bool := (x &&& nonAsciiMask m.usizeBytes) != 0

/-- `v.as_ptr().align_offset(usize_bytes)`: the number of bytes to the next aligned address; the
library may also answer `usize::MAX` (`none`), and does so when evaluating at compile time. -/
def AlignOffset (m : Machine) (addr : Nat) (align : Option Nat) : Prop :=
  align = none ∨ align = some ((m.usizeBytes - addr % m.usizeBytes) % m.usizeBytes)

/-- `align != usize::MAX && align.wrapping_sub(index) % usize_bytes == 0` -/
def blockStart (m : Machine) (align : Option Nat) (index : Nat) : Bool :=
  match align with
  | none => false
  | some a => (a + 2 ^ (8 * m.usizeBytes) - index) % 2 ^ (8 * m.usizeBytes) % m.usizeBytes == 0

/-- The loop over blocks of two words; it stops at a block with a byte that is not ASCII.
core/src/str/validations.rs, `run_utf8_validation` -/
def blockBody (m : Machine) (addr : Nat) (v : Bytes) (blocksEnd : Nat) (index : Nat) :
    Rs (Ctl Nat Nat) :=
  if index < blocksEnd then do
    let zu := containsNonascii m (← readWord m addr v index)
    let zv := containsNonascii m (← readWord m addr v (index + m.usizeBytes))
    if zu || zv then .ok (.done index) else .ok (.next (index + 2 * m.usizeBytes))
  else .ok (.done index)

/-- `while index < len && v[index] < 128 { index += 1; }` -/
def asciiBody (v : Bytes) (i : Nat) : Rs (Ctl Nat Nat) :=
  if i < v.length then do
    let b ← index v i
    if b.toNat < 128 then .ok (.next (i + 1)) else .ok (.done i)
  else .ok (.done i)

/-- The macro `next!`: the next byte, or the error that there is none. -/
def nextByte (v : Bytes) (old i : Nat) (k : Nat → UInt8 → Rs (Ctl Nat Utf8Result)) :
    Rs (Ctl Nat Utf8Result) :=
  if v.length ≤ i + 1 then .ok (.done (.error (old, none)))
  else do
    let b ← index v (i + 1)
    k (i + 1) b

/-- The macro `err!`. -/
def err (old n : Nat) : Rs (Ctl Nat Utf8Result) := .ok (.done (.error (old, some n)))

/-- The body of the main loop; the state is `index`.
core/src/str/validations.rs, `run_utf8_validation` -/
def validationBody (m : Machine) (addr : Nat) (align : Option Nat) (v : Bytes) (i : Nat) :
    Rs (Ctl Nat Utf8Result) :=
  if i < v.length then do
    let first ← index v i
    if 128 ≤ first.toNat then
      match utf8CharWidth first with
      | 2 => nextByte v i i fun j b =>
        if -64 ≤ asI8 b then err i 1 else .ok (.next (j + 1))
      | 3 => nextByte v i i fun j b =>
        if (first.toNat = 0xE0 ∧ 0xA0 ≤ b.toNat ∧ b.toNat ≤ 0xBF) ∨
            (0xE1 ≤ first.toNat ∧ first.toNat ≤ 0xEC ∧ 0x80 ≤ b.toNat ∧ b.toNat ≤ 0xBF) ∨
            (first.toNat = 0xED ∧ 0x80 ≤ b.toNat ∧ b.toNat ≤ 0x9F) ∨
            (0xEE ≤ first.toNat ∧ first.toNat ≤ 0xEF ∧ 0x80 ≤ b.toNat ∧ b.toNat ≤ 0xBF) then
          nextByte v i j fun j b => if -64 ≤ asI8 b then err i 2 else .ok (.next (j + 1))
        else err i 1
      | 4 => nextByte v i i fun j b =>
        if (first.toNat = 0xF0 ∧ 0x90 ≤ b.toNat ∧ b.toNat ≤ 0xBF) ∨
            (0xF1 ≤ first.toNat ∧ first.toNat ≤ 0xF3 ∧ 0x80 ≤ b.toNat ∧ b.toNat ≤ 0xBF) ∨
            (first.toNat = 0xF4 ∧ 0x80 ≤ b.toNat ∧ b.toNat ≤ 0x8F) then
          nextByte v i j fun j b =>
            if -64 ≤ asI8 b then err i 2
            else nextByte v i j fun j b => if -64 ≤ asI8 b then err i 3 else .ok (.next (j + 1))
        else err i 1
      | _ => err i 1
    else if blockStart m align i then do
      let blocksEnd := if 2 * m.usizeBytes ≤ v.length then v.length - 2 * m.usizeBytes + 1 else 0
      let i ← loop (blockBody m addr v blocksEnd) (v.length + 1) i
      let i ← loop (asciiBody v) (v.length + 1) i
      .ok (.next i)
    else .ok (.next (i + 1))
  else .ok (.done (.ok ()))

/-- core/src/str/validations.rs, `run_utf8_validation`, for a slice at address `addr`. -/
def runUtf8Validation (m : Machine) (addr : Nat) (align : Option Nat) (v : Bytes) : Rs Utf8Result :=
  loop (validationBody m addr align v) (v.length + 1) 0

/-- `match from_utf8(v) { Ok(text) => text.len(), Err(e) => e.valid_up_to() }`, src/utf8.rs:19-22 -/
def validUpTo (m : Machine) (addr : Nat) (align : Option Nat) (v : Bytes) : Rs Nat := do
  match ← runUtf8Validation m addr align v with
  | .ok () => .ok v.length
  | .error (n, _) => .ok n

/-! ## `str::char_indices` (called in all encoders but that of UTF-8) -/

/-- `bytes.next().unwrap_unchecked()`: undefined behaviour at the end of the bytes. -/
def nextUnchecked : Bytes → Rs (UInt8 × Bytes)
  | [] => .error .ub
  | b :: r => .ok (b, r)

/-- `utf8_first_byte(byte, width)`: `(byte & (0x7F >> width)) as u32` -/
def firstByte (b : UInt8) (width : Nat) : UInt32 := UInt32.ofNat (b.toNat &&& (0x7F >>> width))

/-- `utf8_acc_cont_byte(ch, byte)`: `(ch << 6) | (byte & CONT_MASK) as u32` -/
def accCont (ch : UInt32) (b : UInt8) : UInt32 := (ch <<< 6) ||| UInt32.ofNat (b.toNat &&& 0x3F)

/-- core/src/str/validations.rs, `next_code_point`: the code point and the bytes after it. -/
def nextCodePoint : Bytes → Rs (Option (UInt32 × Bytes))
  | [] => .ok none
  | x :: bytes =>
    if x.toNat < 128 then .ok (some (UInt32.ofNat x.toNat, bytes))
    else do
      let init := firstByte x 2
      let (y, bytes) ← nextUnchecked bytes
      let ch := accCont init y
      if 0xE0 ≤ x.toNat then do
        let (z, bytes) ← nextUnchecked bytes
        let y_z := accCont (UInt32.ofNat (y.toNat &&& 0x3F)) z
        let ch := (init <<< 12) ||| y_z
        if 0xF0 ≤ x.toNat then do
          let (w, bytes) ← nextUnchecked bytes
          let ch := ((init &&& 7) <<< 18) ||| accCont y_z w
          .ok (some (ch, bytes))
        else .ok (some (ch, bytes))
      else .ok (some (ch, bytes))

/-- core/src/str/iter.rs, `Chars::next`: `next_code_point` and `from_u32_unchecked`. -/
def charsNext (bytes : Bytes) : Rs (Option (Char × Bytes)) := do
  match ← nextCodePoint bytes with
  | none => .ok none
  | some (ch, rest) => do
    let c ← fromU32Unchecked ch.toNat
    .ok (some (c, rest))

/-- core/src/str/iter.rs, `CharIndices::next`; the iterator is `(front_offset, bytes)`. -/
def charIndicesNext (it : Nat × Bytes) : Rs (Option ((Nat × Char) × (Nat × Bytes))) := do
  let pre_len := it.2.length
  match ← charsNext it.2 with
  | none => .ok none
  | some (c, rest) => do
    let used ← checkedSub pre_len rest.length
    .ok (some ((it.1, c), (it.1 + used, rest)))

/-- All items of `char_indices` of a `str` with these bytes, as a `for` loop takes them. -/
def charIndicesAll (bytes : Bytes) : Rs (List (Nat × Char)) :=
  loop (fun (st : List (Nat × Char) × (Nat × Bytes)) => do
    match ← charIndicesNext st.2 with
    | none => .ok (.done st.1)
    | some (item, it) => .ok (.next (st.1 ++ [item], it))) (bytes.length + 1) ([], (0, bytes))

/-! ## `char` -/

/-- core/src/char/methods.rs, `len_utf8`. -/
def lenUtf8 (code : UInt32) : Nat :=
  if code.toNat < 0x80 then 1
  else if code.toNat < 0x800 then 2
  else if code.toNat < 0x10000 then 3
  else 4

/-- core/src/char/methods.rs, `len_utf16`: `if (code & 0xFFFF) == code { 1 } else { 2 }`. -/
def lenUtf16 (code : UInt32) : Nat := if code &&& 0xFFFF = code then 1 else 2

/-- `(code >> n & mask) as u8 | tag` -/
def bits (code : UInt32) (n mask : UInt32) (tag : UInt8) : UInt8 :=
  UInt8.ofNat ((code >>> n) &&& mask).toNat ||| tag

/-- core/src/char/methods.rs, `encode_utf8_raw` (called through `char::encode_utf8` by the decoders,
with a buffer of four bytes): the buffer and the length; panics if the buffer is too small. -/
def encodeUtf8Raw (code : UInt32) (dst : Bytes) : Rs (Bytes × Nat) :=
  match lenUtf8 code, dst with
  | 1, _ :: r => .ok (UInt8.ofNat code.toNat :: r, 1)
  | 2, _ :: _ :: r => .ok (bits code 6 0x1F 0xC0 :: bits code 0 0x3F 0x80 :: r, 2)
  | 3, _ :: _ :: _ :: r =>
    .ok (bits code 12 0x0F 0xE0 :: bits code 6 0x3F 0x80 :: bits code 0 0x3F 0x80 :: r, 3)
  | 4, _ :: _ :: _ :: _ :: r =>
    .ok (bits code 18 0x07 0xF0 :: bits code 12 0x3F 0x80 :: bits code 6 0x3F 0x80 ::
      bits code 0 0x3F 0x80 :: r, 4)
  | _, _ => .error .panic

/-- `c.encode_utf8(&mut buf)`, `.as_bytes()` of the result. -/
def encodeUtf8 (c : Char) (buf : Bytes) : Rs Bytes := do
  let (buf, len) ← encodeUtf8Raw c.val buf
  sliceTo buf len

/-- core/src/char/convert.rs, `char_try_from_u32` (called through `char::from_u32`):
`if (i ^ 0xD800).wrapping_sub(0x800) >= 0x110000 - 0x800 { Err } else { Ok }`. -/
def fromU32 (i : UInt32) : Option Char :=
  if (0x110000 - 0x800 : UInt32) ≤ (i ^^^ 0xD800) - 0x800 then none else some (Char.ofNat i.toNat)

/-- core/src/str/mod.rs, `is_char_boundary` of a `str` with these bytes. -/
def isCharBoundary (bytes : Bytes) (i : Nat) : Bool :=
  if i = 0 then true
  else if bytes.length ≤ i then i == bytes.length
  else match bytes[i]? with
    | some b => decide (-0x40 ≤ asI8 b)
    | none => false

/-! ## `slice::binary_search_by_key` -/

/-- core/src/slice/mod.rs, `binary_search_by` of Rust 1.52 to 1.81: the state is
`(left, right)`; `size` is `right - left`. (`binarySearchByKey` has the algorithm of the versions
before and after.) -/
def searchBody {α : Type} (t : List α) (key : α → Char) (k : Char) (st : Nat × Nat) :
    Rs (Ctl (Nat × Nat) (Option Nat)) :=
  if st.1 < st.2 then do
    let mid := st.1 + (st.2 - st.1) / 2
    let x ← index t mid
    if (key x).toNat < k.toNat then .ok (.next (mid + 1, st.2))
    else if k.toNat < (key x).toNat then .ok (.next (st.1, mid))
    else .ok (.done (some mid))
  else .ok (.done none)

/-- See `searchBody`. -/
def binarySearchByKey {α : Type} (t : List α) (key : α → Char) (k : Char) : Rs (Option Nat) :=
  loop (searchBody t key k) (t.length + 1) (0, t.length)


end Verif.Core
