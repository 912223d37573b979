import Verif.Rust

/-!
# The table generators (Python)

`encoding_tables/single_byte/generate_ascii_ext_tables.py`,
`encoding_tables/whatwg/generate_shiftjis.py` and `encoding_tables/whatwg/generate_big5.py`,
from the parsed lines of a mapping file to the tables of the generated Rust source.

Simplifications: here the lines are given parsed, as pairs of numbers in the order of the file
(for reading them see `Verif.Model.GeneratorText`); the output is the tables, not
their text (see there too).  A Python list is a `List`, a set of code points is a `List Nat` used only through
membership and intersection, an integer is a `Nat` (no negative number can arise from
`index_to_bytes`; `bytes_to_index`, which subtracts, is not called by the generators).
-/

namespace Verif.Generator

/-- Python exceptions the generators can raise: `table[i]` outside the list, `int` of something
else than a numeral (only in `Verif.Model.GeneratorText`), and
"Not an ascii extension".  generate_ascii_ext_tables.py:22-24 -/
inductive PyErr where
  | indexError
  | valueError
  | notAsciiExtension (i : Nat)
  deriving DecidableEq, Repr

/-- The order of Python tuples of two numbers, which `sort` uses.
generate_ascii_ext_tables.py:17, 49, generate_shiftjis.py:49, generate_big5.py:58 -/
def le2 (x y : Nat × Nat) : Bool := x.1 < y.1 || (x.1 == y.1 && x.2 ≤ y.2)

/-- The order of Python tuples `(a, (b, c))`.  generate_shiftjis.py:68, generate_big5.py:77 -/
def le3 (x y : Nat × Nat × Nat) : Bool := x.1 < y.1 || (x.1 == y.1 && le2 x.2 y.2)

/-- `while i < target: dec_table += [None]; i += 1`
generate_ascii_ext_tables.py:34-36, generate_shiftjis.py:60-62, generate_big5.py:69-71 -/
def pad (dec : List (Option Nat)) (i target : Nat) : List (Option Nat) × Nat :=
  if i < target then pad (dec ++ [none]) (i + 1) target else (dec, i)
termination_by target - i

/-- The `for` loop that fills `dec_table`; `off` is subtracted from the index (128 or 0).
generate_ascii_ext_tables.py:33-38, generate_shiftjis.py:56-64, generate_big5.py:65-73 -/
def decLoop (off : Nat) : List (Nat × Nat) → List (Option Nat) × Nat → List (Option Nat) × Nat
  | [], st => st
  | item :: table, st =>
    let st' := pad st.1 st.2 (item.1 - off)
    decLoop off table (st'.1 ++ [some item.2], st'.2 + 1)

/-! ## generate_ascii_ext_tables.py -/

/-- `for i in range(0, 128): if table[i][0] != i or table[i][1] != i: raise`
generate_ascii_ext_tables.py:22-24 -/
def checkAscii (table : List (Nat × Nat)) : Nat → Nat → Except PyErr Unit
  | _, 0 => .ok ()
  | i, n + 1 =>
    match table[i]? with
    | none => .error .indexError
    | some x => if x.1 ≠ i ∨ x.2 ≠ i then .error (.notAsciiExtension i) else checkAscii table (i + 1) n

/-- `while len(dec_table) < 128: dec_table += [None]`
generate_ascii_ext_tables.py:39-40 -/
def fill (dec : List (Option Nat)) : List (Option Nat) :=
  if dec.length < 128 then fill (dec ++ [none]) else dec
termination_by 128 - dec.length
decreasing_by simp; omega

/-- The `for` loop that fills `enc_table`, with `seen &= {item[1]}` (an intersection) as
written.  generate_ascii_ext_tables.py:42-48 -/
def encLoop : List (Nat × Nat) → List Nat → List (Nat × Nat) → List (Nat × Nat)
  | [], _, enc => enc
  | item :: table, seen, enc =>
    if item.2 ∉ seen then
      encLoop table (seen.filter (· == item.2)) (enc ++ [(item.2, item.1)])
    else encLoop table seen enc

/-- The tables of `generate_ascii_ext_encoding`: `(dec_table, enc_table)`.
generate_ascii_ext_tables.py:7-49.  `sort` is any sort by the tuple order. -/
def asciiExt (lines : List (Nat × Nat)) :
    Except PyErr (List (Option Nat) × List (Nat × Nat)) := do
  let table := lines.mergeSort le2
  checkAscii table 0 128
  let table := table.drop 128
  let dec_table := fill (decLoop 128 table ([], 0)).1
  let enc_table := (encLoop table [] []).mergeSort le2
  .ok (dec_table, enc_table)

/-! ## What is common to generate_shiftjis.py and generate_big5.py -/

/-- Keep the first entry of each code point.
generate_shiftjis.py:30-37, generate_big5.py:38-46 -/
def keepFirst : List (Nat × Nat) → List Nat → List (Nat × Nat) → List (Nat × Nat)
  | [], _, new => new
  | (index, codepoint) :: table, seen, new =>
    if codepoint ∉ seen then keepFirst table (codepoint :: seen) (new ++ [(index, codepoint)])
    else keepFirst table seen new

/-- `load_table_file`, after parsing.  generate_shiftjis.py:40-50, generate_big5.py:49-59 -/
def load (lines : List (Nat × Nat)) : List (Nat × Nat) := lines.mergeSort le2

/-! ## generate_shiftjis.py -/

namespace ShiftJis

/-- generate_shiftjis.py:4-11 -/
def index_to_bytes (i : Nat) : Nat × Nat :=
  let lead := i / 188
  let lead_offset := if lead < 0x1F then 0x81 else 0xC1
  let trail := i % 188
  let trail_offset := if trail < 0x3F then 0x40 else 0x41
  (lead + lead_offset, trail + trail_offset)

/-- generate_shiftjis.py:14-19.  Python integers: the result may be negative. -/
def bytes_to_index (lead tail : Nat) : Int :=
  let lead_offset : Int := if lead < 0xA0 then 0x81 else 0xC1
  let tail_offset : Int := if tail < 0x7F then 0x40 else 0x41
  (lead - lead_offset) * 188 + tail - tail_offset

/-- generate_shiftjis.py:22-37 -/
def deduped_table (table : List (Nat × Nat)) : List (Nat × Nat) :=
  let tmp_table_1 := table.filter fun x => x.1 < 8272 || x.1 > 8835
  keepFirst tmp_table_1 [] []

/-- The tables of `generate_shiftjis_tables`: `(dec_table, enc_table)`.
generate_shiftjis.py:53-68 -/
def tables (lines : List (Nat × Nat)) : List (Option Nat) × List (Nat × Nat × Nat) :=
  let table := load lines
  let dec_table := (decLoop 0 table ([], 0)).1
  let enc_table := (deduped_table table).map fun x => (x.2, index_to_bytes x.1)
  (dec_table, enc_table.mergeSort le3)

end ShiftJis

/-! ## generate_big5.py -/

namespace Big5

/-- generate_big5.py:4-10 -/
def index_to_bytes (i : Nat) : Nat × Nat :=
  let lead := i / 157 + 0x81
  let trail := i % 157
  let offset := if trail < 0x3f then 0x40 else 0x62
  (lead, trail + offset)

/-- generate_big5.py:13-17.  Python integers: the result may be negative. -/
def bytes_to_index (lead tail : Nat) : Int :=
  let offset : Int := if tail < 0x7F then 0x40 else 0x62
  (lead - 0x81) * 157 + (tail - offset)

/-- The first `for` loop of `deduped_table`, on the reversed table: drop an entry if its code
point has been put in `seen`.  generate_big5.py:28-36 -/
def dropSeen : List (Nat × Nat) → List Nat → List (Nat × Nat) → List (Nat × Nat)
  | [], _, tmp => tmp
  | (index, codepoint) :: table, seen, tmp =>
    if codepoint ∉ seen then
      dropSeen table
        (if codepoint ∈ [0x2550, 0x255E, 0x2561, 0x256A, 0x5341, 0x5345] then codepoint :: seen
          else seen)
        (tmp ++ [(index, codepoint)])
    else dropSeen table seen tmp

/-- generate_big5.py:20-46 -/
def deduped_table (table : List (Nat × Nat)) : List (Nat × Nat) :=
  let tmp_table_1 := table.reverse
  let tmp_table_2 := dropSeen tmp_table_1 [] []
  let tmp_table_2 := tmp_table_2.reverse
  keepFirst tmp_table_2 [] []

/-- The tables of `generate_big5_tables`: `(dec_table, enc_table)`.
generate_big5.py:62-77 -/
def tables (lines : List (Nat × Nat)) : List (Option Nat) × List (Nat × Nat × Nat) :=
  let table := load lines
  let dec_table := (decLoop 0 table ([], 0)).1
  let enc_table := (deduped_table table).map fun x => (x.2, index_to_bytes x.1)
  (dec_table, enc_table.mergeSort le3)

end Big5

/-! ## From the tables to Rust constants -/

/-- The Rust literal printed for a decode table entry: `'�'` for `None`, else `'\u{…}'`
(which rustc accepts only for scalar values).  generate_ascii_ext_tables.py:79-82,
generate_shiftjis.py:84-87, generate_big5.py:93-96 -/
def decLiteral : Option Nat → Option Char
  | none => some '�'
  | some c => fromU32 c

/-- The constant `DECODE_TABLE` of the generated source; `none` if it does not compile.
generate_ascii_ext_tables.py:75-83, generate_shiftjis.py:80-88, generate_big5.py:89-97 -/
def decConst (dec : List (Option Nat)) : Option (List Char) := dec.mapM decLiteral

/-- A `u8` literal `0x…`: rustc rejects (deny-by-default lint `overflowing_literals`) what does
not fit. -/
def u8Literal (n : Nat) : Option UInt8 := if n < 256 then some (UInt8.ofNat n) else none

/-- The entry `('\u{…}', 0x…)` of a single-byte `ENCODE_TABLE`.
generate_ascii_ext_tables.py:90 -/
def encLiteral (x : Nat × Nat) : Option (Char × UInt8) := do
  some (← fromU32 x.1, ← u8Literal x.2)

/-- The constant `ENCODE_TABLE` of a generated single-byte module.
generate_ascii_ext_tables.py:86-91 -/
def encConst (enc : List (Nat × Nat)) : Option (List (Char × UInt8)) := enc.mapM encLiteral

/-- The constants of the Rust module generated from a file, `none` if there is none: the
generator raises an exception or rustc rejects the source (a `DECODE_TABLE` of type
`[char; 128]` with another number of entries, a literal out of range).
generate_ascii_ext_tables.py:75-91 -/
def asciiExtModule (lines : List (Nat × Nat)) : Option (List Char × List (Char × UInt8)) :=
  match asciiExt lines with
  | .error _ => none
  | .ok (dec, enc) =>
    if dec.length = 128 then do
      some (← decConst dec, ← encConst enc)
    else none

/-- The entry `('\u{…}', [0x…, 0x…])` of a two-byte `ENCODE_TABLE`.
generate_shiftjis.py:95, generate_big5.py:104 -/
def encLiteral2 (x : Nat × Nat × Nat) : Option (Char × UInt8 × UInt8) := do
  some (← fromU32 x.1, ← u8Literal x.2.1, ← u8Literal x.2.2)

/-- The constants of the source generated by generate_shiftjis.py:80-96 and
generate_big5.py:89-105 from the two tables (the array types take their lengths from the
tables). -/
def wideConsts (t : List (Option Nat) × List (Nat × Nat × Nat)) :
    Option (List Char × List (Char × UInt8 × UInt8)) := do
  some (← decConst t.1, ← t.2.mapM encLiteral2)

end Verif.Generator
