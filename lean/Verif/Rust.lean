/-!
# The fragment of Rust used by text_encoding

A call either returns a value or ends in a `Fault`.  All partial operations of the
code (indexing, slicing, `unwrap`, unchecked conversions, checked subtraction) are
modelled as operations that return a `Fault` when their precondition fails.
-/

namespace Verif

/-- Ways in which a Rust call can fail to return a value: a panic, undefined behaviour
(an unsafe function called outside its contract), or a loop that does not end. -/
inductive Fault where
  | panic
  | ub
  | diverge
  deriving DecidableEq, Repr

/-- The outcome of running a piece of Rust code. -/
abbrev Rs (α : Type) := Except Fault α

/-- `[u8]`. -/
abbrev Bytes := List UInt8

/-- `str`: a sequence of Unicode scalar values (a Lean `Char`, like a Rust `char`, is one). -/
abbrev Str := List Char

/-- The bytes of a `str` (`str::as_bytes`): its UTF-8, by Lean core's encoder of one char. -/
def strBytes (s : Str) : Bytes := s.flatMap String.utf8EncodeChar

/-- `str::len`, in bytes. -/
def strLen (s : Str) : Nat := (strBytes s).length

/-! ## Result types -/

/-- src/lib.rs:254-259 -/
structure EncodeError where
  character : Char
  error_range : Nat × Nat
  output_bytes_written : Nat
  deriving DecidableEq, Repr

/-- src/lib.rs:278-286 -/
inductive DecodeErrorCause where
  | InvalidData
  | UnknownConversion
  deriving DecidableEq, Repr

/-- src/lib.rs:271-276 -/
structure DecodeError where
  cause : DecodeErrorCause
  error_range : Nat × Nat
  output_bytes_written : Nat
  deriving DecidableEq, Repr

/-- src/lib.rs:235. The slice `&'a [u8]` of the buffer is given by its contents. -/
abbrev EncodeResult := Except EncodeError (Bytes × Nat)

/-- src/lib.rs:241. The `&'a str` into the buffer is given by its contents. -/
abbrev DecodeResult := Except DecodeError (Str × Nat)

/-! ## Slices -/

/-- `l[i]` -/
def index {α : Type} (l : List α) (i : Nat) : Rs α :=
  match l[i]? with
  | some a => .ok a
  | none => .error .panic

/-- `l[i] = v;` -/
def setIndex {α : Type} (l : List α) (i : Nat) (v : α) : Rs (List α) :=
  if i < l.length then .ok (l.set i v) else .error .panic

/-- `&l[..hi]` -/
def sliceTo {α : Type} (l : List α) (hi : Nat) : Rs (List α) :=
  if hi ≤ l.length then .ok (l.take hi) else .error .panic

/-- `l[lo..hi].copy_from_slice(src);` -/
def copyFromSlice {α : Type} (l : List α) (lo hi : Nat) (src : List α) : Rs (List α) :=
  if lo ≤ hi ∧ hi ≤ l.length ∧ src.length = hi - lo then
    .ok (l.take lo ++ src ++ l.drop hi)
  else .error .panic

/-- `l.chunks(n)` for `n ≥ 1`, as the list of items the iterator yields. -/
def chunksAux {α : Type} (n : Nat) : Nat → List α → List (List α)
  | 0, _ => []
  | fuel + 1, l => if l = [] then [] else l.take n :: chunksAux n fuel (l.drop n)

/-- `l.chunks(n)` -/
def chunks {α : Type} (n : Nat) (l : List α) : List (List α) := chunksAux n l.length l

/-! ## Integers, options -/

/-- `a - b` on an unsigned type, in a build with overflow checks (without them the result
would wrap; both are excluded by showing that this never faults). -/
def checkedSub (a b : Nat) : Rs Nat := if b ≤ a then .ok (a - b) else .error .panic

/-- `Option::unwrap` -/
def unwrap {α : Type} : Option α → Rs α
  | some a => .ok a
  | none => .error .panic

/-! ## `char` and `str` -/

/-- `core::char::from_u32` -/
def fromU32 (n : Nat) : Option Char := if n.isValidChar then some (Char.ofNat n) else none

/-- `core::char::from_u32_unchecked`: undefined behaviour unless `n` is a scalar value. -/
def fromU32Unchecked (n : Nat) : Rs Char :=
  if n.isValidChar then .ok (Char.ofNat n) else .error .ub

/-- `char::encode_utf8`, the resulting bytes. -/
def encodeUtf8 (c : Char) : Bytes := String.utf8EncodeChar c

/-- `char::len_utf8` -/
def lenUtf8 (c : Char) : Nat := c.utf8Size

/-- `char::len_utf16` -/
def lenUtf16 (c : Char) : Nat := if c.toNat ≤ 0xFFFF then 1 else 2

/-- Items of `str::char_indices` of the part of a `str` that starts at byte `off`. -/
def charIndicesFrom (off : Nat) : Str → List (Nat × Char)
  | [] => []
  | c :: s => (off, c) :: charIndicesFrom (off + lenUtf8 c) s

/-- `str::char_indices` -/
def charIndices (s : Str) : List (Nat × Char) := charIndicesFrom 0 s

/-- `str::is_char_boundary`: index 0, the end, or a byte that is not `0b10xx_xxxx`. -/
def isCharBoundary (s : Str) (i : Nat) : Bool :=
  if i = 0 then true
  else match (strBytes s)[i]? with
    | none => i == strLen s
    | some b => (b &&& 0b1100_0000) != 0b1000_0000

/-- `s[..hi].as_bytes()`: panics if `hi` is not a char boundary. -/
def strSliceTo (s : Str) (hi : Nat) : Rs Bytes :=
  if isCharBoundary s hi then .ok ((strBytes s).take hi) else .error .panic

/-! ## UTF-8 validation (`core::str::from_utf8`, `from_utf8_unchecked`) -/

/-- A UTF-8 continuation byte. -/
def isCont (b : UInt8) : Bool := 0x80 ≤ b.toNat && b.toNat ≤ 0xBF

/-- The well-formed UTF-8 sequence at the start of the bytes (Unicode Table 3-7, the table
core's `run_utf8_validation` implements): the scalar value and the number of bytes. -/
def utf8Next : Bytes → Option (Char × Nat)
  | [] => none
  | b0 :: r =>
    let x := b0.toNat
    if x < 0x80 then some (Char.ofNat x, 1)
    else if 0xC2 ≤ x ∧ x ≤ 0xDF then
      match r with
      | b1 :: _ =>
        if isCont b1 then some (Char.ofNat ((x - 0xC0) * 64 + (b1.toNat - 0x80)), 2) else none
      | _ => none
    else if 0xE0 ≤ x ∧ x ≤ 0xEF then
      match r with
      | b1 :: b2 :: _ =>
        if isCont b1 ∧ isCont b2 ∧ (x = 0xE0 → 0xA0 ≤ b1.toNat) ∧ (x = 0xED → b1.toNat ≤ 0x9F) then
          some (Char.ofNat ((x - 0xE0) * 4096 + (b1.toNat - 0x80) * 64 + (b2.toNat - 0x80)), 3)
        else none
      | _ => none
    else if 0xF0 ≤ x ∧ x ≤ 0xF4 then
      match r with
      | b1 :: b2 :: b3 :: _ =>
        if isCont b1 ∧ isCont b2 ∧ isCont b3 ∧
            (x = 0xF0 → 0x90 ≤ b1.toNat) ∧ (x = 0xF4 → b1.toNat ≤ 0x8F) then
          some (Char.ofNat ((x - 0xF0) * 262144 + (b1.toNat - 0x80) * 4096 +
            (b2.toNat - 0x80) * 64 + (b3.toNat - 0x80)), 4)
        else none
      | _ => none
    else none

/-- Repeatedly take the well-formed sequence at the start; the chars and the bytes used. -/
def utf8ScanAux : Nat → Bytes → Str × Nat
  | 0, _ => ([], 0)
  | fuel + 1, b =>
    match utf8Next b with
    | none => ([], 0)
    | some (c, w) =>
      let r := utf8ScanAux fuel (b.drop w)
      (c :: r.1, w + r.2)

/-- The longest prefix made of well-formed sequences: its chars and its length. -/
def utf8Scan (b : Bytes) : Str × Nat := utf8ScanAux b.length b

/-- `match from_utf8(b) { Ok(text) => text.len(), Err(e) => e.valid_up_to() }`.
Both arms are the length of the longest well-formed prefix. -/
def fromUtf8ValidUpTo (b : Bytes) : Nat := (utf8Scan b).2

/-- `core::str::from_utf8_unchecked`: undefined behaviour unless the bytes are UTF-8. -/
def fromUtf8Unchecked (b : Bytes) : Rs Str :=
  if (utf8Scan b).2 = b.length then .ok (utf8Scan b).1 else .error .ub

/-! ## Loops -/

/-- What a loop body does: go round again with a new state, or leave the loop. -/
inductive Ctl (σ ρ : Type) where
  | next (s : σ)
  | done (r : ρ)

/-- A loop, run for at most `fuel` iterations. -/
def loop {σ ρ : Type} (body : σ → Rs (Ctl σ ρ)) : Nat → σ → Rs ρ
  | 0, _ => .error .diverge
  | fuel + 1, s =>
    match body s with
    | .error e => .error e
    | .ok (.done r) => .ok r
    | .ok (.next s') => loop body fuel s'

/-- One step of the search loop of core's `binary_search_by`; the state is `(size, base)`. -/
def bsearchBody {α : Type} (t : List α) (key : α → Char) (k : Char) (st : Nat × Nat) :
    Rs (Ctl (Nat × Nat) Nat) :=
  if 1 < st.1 then
    let half := st.1 / 2
    let mid := st.2 + half
    (index t mid).map fun x =>
      .next (st.1 - half, if k.toNat < (key x).toNat then st.2 else mid)
  else .ok (.done st.2)

/-- `t.binary_search_by_key(&k, key)`: `some i` for `Ok(i)`, `none` for `Err(_)`.
core::slice, the size-halving variant (its result on a table sorted by distinct keys does
not depend on the variant). -/
def binarySearchByKey {α : Type} (t : List α) (key : α → Char) (k : Char) : Rs (Option Nat) :=
  if t.length = 0 then .ok none
  else do
    let base ← loop (bsearchBody t key k) (t.length + 1) (t.length, 0)
    let x ← index t base
    if key x = k then .ok (some base) else .ok none

/-! ## Shared ends of the functions -/

/-- The "Calculate how much of the input was consumed" block, which is the same in all
encoders: src/utf16_be.rs:39-46, src/utf16_le.rs:39-46, src/utf32_be.rs:24-31,
src/utf32_le.rs:24-31, src/single_byte.rs:299-306, src/shiftjis_whatwg.rs:79-86,
src/big5_whatwg.rs:70-77. -/
def consumedBody (input : Str) (input_i : Nat) : Rs (Ctl Nat Nat) :=
  if isCharBoundary input input_i then .ok (.done input_i) else .ok (.next (input_i + 1))

/-- See `consumedBody`. -/
def consumed (input : Str) (input_i : Nat) : Rs Nat :=
  if strLen input < input_i then .ok (strLen input)
  else loop (consumedBody input) (strLen input + 1) input_i

/-- State of the encoders' loops: remaining items of `char_indices`, buffer, counters. -/
structure EncState where
  itr : List (Nat × Char)
  out : Bytes
  input_i : Nat
  output_i : Nat

/-- How an encoder's loop ends: buffer, and either an error or `(input_i, output_i)`. -/
abbrev EncEnd := Bytes × Except EncodeError (Nat × Nat)

/-- State of the decoders' loops: remaining items of the iterator, buffer, counters. -/
structure DecState (α : Type) where
  itr : List α
  out : Bytes
  input_i : Nat
  output_i : Nat

/-- How a decoder's loop ends: buffer, and either an error or `(input_i, output_i)`. -/
abbrev DecEnd := Bytes × Except DecodeError (Nat × Nat)

/-- What follows an encoder's loop: `consumed`, then `Ok((&out[..output_i], input_i))`.
src/utf16_be.rs:39-48, src/utf16_le.rs:39-48, src/utf32_be.rs:24-33, src/utf32_le.rs:24-33,
src/single_byte.rs:299-308, src/shiftjis_whatwg.rs:79-88, src/big5_whatwg.rs:70-79. -/
def finishEncode (input : Str) : EncEnd → Rs (Bytes × EncodeResult)
  | (out, .error e) => .ok (out, .error e)
  | (out, .ok (input_i, output_i)) => do
    let input_i ← consumed input input_i
    let s ← sliceTo out output_i
    .ok (out, .ok (s, input_i))

/-- What follows a decoder's loop: `Ok((from_utf8_unchecked(&out[..output_i]), input_i))`.
src/utf16_be.rs:132-135, src/utf16_le.rs:132-135, src/utf32_be.rs:80-83,
src/utf32_le.rs:80-83, src/single_byte.rs:353-356, src/shiftjis_whatwg.rs:204-207,
src/big5_whatwg.rs:186-189. -/
def finishDecode : DecEnd → Rs (Bytes × DecodeResult)
  | (out, .error e) => .ok (out, .error e)
  | (out, .ok (input_i, output_i)) => do
    let s ← sliceTo out output_i
    let text ← fromUtf8Unchecked s
    .ok (out, .ok (text, input_i))

end Verif
