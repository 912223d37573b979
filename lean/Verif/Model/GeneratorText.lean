import Verif.Text
import Verif.Model.Generator

/-!
# The table generators (Python), with the text they read and write

Continues `Verif.Model.Generator`: from the text of a mapping file to its lines, and from the
tables to the text of the Rust source.

Simplifications: `open` reads and writes UTF-8 (Python takes the encoding from the locale); of the
numerals that `int` accepts only ASCII digits are modelled, with or without `0x` in base 16, but no
signs, underscores or digits of other scripts: for these the model raises an exception.
-/

namespace Verif.Generator

/-! ## Reading -/

/-- Universal newlines of `open(path)` (generate_ascii_ext_tables.py:4, generate_shiftjis.py:41,
generate_big5.py:50): `\r\n` and `\r` are read as `\n`.  `cr` says that the
code point before was `\r`. -/
def newlines : Bool → Text → Text
  | _, [] => []
  | cr, c :: t =>
    if c = 10 then (if cr then newlines false t else 10 :: newlines false t)
    else if c = 13 then 10 :: newlines true t
    else c :: newlines false t

/-- `for line in in_file`: the lines, each with its `\n`; the last line may have none. -/
def pyLines : Text → Text → List Text
  | [], cur => if cur = [] then [] else [cur]
  | c :: t, cur => if c = 10 then (cur ++ [10]) :: pyLines t [] else pyLines t (cur ++ [c])

/-- `str.isspace` of one code point, for `split` (generate_ascii_ext_tables.py:10,
generate_shiftjis.py:44, generate_big5.py:53). -/
def isSpace (c : Nat) : Bool :=
  (9 ≤ c && c ≤ 13) || (0x1C ≤ c && c ≤ 0x20) || c == 0x85 || c == 0xA0 || c == 0x1680 ||
  (0x2000 ≤ c && c ≤ 0x200A) || c == 0x2028 || c == 0x2029 || c == 0x202F || c == 0x205F ||
  c == 0x3000

/-- `s.split()`; `cur` is the word so far. -/
def split : Text → Text → List Text
  | [], cur => if cur = [] then [] else [cur]
  | c :: t, cur =>
    if isSpace c then (if cur = [] then split t [] else cur :: split t [])
    else split t (cur ++ [c])

/-- `s.startswith("#")`  generate_ascii_ext_tables.py:11, 13, generate_shiftjis.py:45,
generate_big5.py:54 -/
def startsHash (s : Text) : Bool := s.head? == some 0x23

/-- The value of a digit, for `int` (generate_ascii_ext_tables.py:12, 15, generate_shiftjis.py:46-47,
generate_big5.py:55-56). -/
def digit (c : Nat) : Nat :=
  if 0x30 ≤ c ∧ c ≤ 0x39 then c - 0x30
  else if 0x41 ≤ c ∧ c ≤ 0x5A then c - 0x41 + 10
  else if 0x61 ≤ c ∧ c ≤ 0x7A then c - 0x61 + 10
  else 36

/-- The number written with the digits `s`, with `acc` before them. -/
def digitsVal (base : Nat) : Text → Nat → Option Nat
  | [], acc => some acc
  | c :: s, acc => if digit c < base then digitsVal base s (acc * base + digit c) else none

/-- `0x` or `0X` is allowed before the digits in base 16. -/
def dropPrefix (base : Nat) : Text → Text
  | z :: x :: t => if base = 16 ∧ z = 0x30 ∧ (x = 0x78 ∨ x = 0x58) then t else z :: x :: t
  | s => s

/-- `int(s)` (base 10) and `int(s, 16)`: `none` if it raises `ValueError`. -/
def pyInt (base : Nat) (s : Text) : Option Nat :=
  match dropPrefix base s with
  | [] => none
  | c :: t => digitsVal base (c :: t) 0

/-- The body of the loop of `generate_ascii_ext_encoding` that reads the file: `some none` if
nothing is added to the table, `none` for an exception.
generate_ascii_ext_tables.py:10-16 -/
def asciiExtLine (line : Text) : Option (Option (Nat × Nat)) :=
  match split line [] with
  | p0 :: p1 :: _ =>
    if startsHash p0 then some none
    else do
      let byte ← pyInt 16 p0
      if startsHash p1 then some none
      else do
        let unicode ← pyInt 16 p1
        some (some (byte, unicode))
  | _ => some none

/-- The body of the loop of `load_table_file`.
generate_shiftjis.py:43-48, generate_big5.py:52-57 -/
def indexLine (line : Text) : Option (Option (Nat × Nat)) :=
  match split line [] with
  | p0 :: p1 :: _ =>
    if startsHash p0 then some none
    else do
      let byte ← pyInt 10 p0
      let unicode ← pyInt 16 p1
      some (some (byte, unicode))
  | _ => some none

/-- The loops that read a file, with the loop body `f`: the table before it is sorted.
generate_ascii_ext_tables.py:8-16, generate_shiftjis.py:41-48, generate_big5.py:50-57 -/
def readFile (f : Text → Option (Option (Nat × Nat))) (text : Text) : Option (List (Nat × Nat)) :=
  ((pyLines (newlines false text) []).mapM f).map fun l => l.filterMap id

/-! ## Printing -/

/-- The upper case digit. -/
def digitChar (d : Nat) : Nat := if d < 10 then 0x30 + d else 0x41 + (d - 10)

/-- The digits of `n`, at most `fuel` of them. -/
def digitsAux (base : Nat) : Nat → Nat → Text
  | 0, _ => []
  | fuel + 1, n =>
    if n < base then [digitChar n]
    else digitsAux base fuel (n / base) ++ [digitChar (n % base)]

/-- `"{:X}".format(n)` (base 16), `"{}".format(n)` (base 10).
generate_ascii_ext_tables.py:82-90, generate_shiftjis.py:80-95, generate_big5.py:89-104 -/
def digits (base n : Nat) : Text := digitsAux base (n + 1) n

/-- `"{:04X}".format(n)` (width 4), `"{:02X}".format(n)` (width 2). -/
def padded (width n : Nat) : Text :=
  List.replicate (width - (digits 16 n).length) 0x30 ++ digits 16 n

/-- A loop that writes the entries of a table, `w` in a line.
generate_ascii_ext_tables.py:76-82, 87-90, generate_shiftjis.py:81-87, 92-95,
generate_big5.py:90-96, 101-104 -/
def entries {α : Type} (f : α → Text) (w : Nat) : Nat → List α → Text
  | _, [] => []
  | i, c :: cs => (if i % w = 0 then text! "\n    " else []) ++ f c ++ entries f w (i + 1) cs

/-- An entry of the decode table.  generate_ascii_ext_tables.py:79-82, generate_shiftjis.py:84-87,
generate_big5.py:93-96 -/
def decEntry : Option Nat → Text
  | none => text! "'�',"
  | some c => text! r"'\u{" ++ padded 4 c ++ text! "}',"

/-- An entry of the encode table of a single-byte encoding.  generate_ascii_ext_tables.py:90 -/
def encEntry (x : Nat × Nat) : Text :=
  text! r"('\u{" ++ padded 4 x.1 ++ text! "}', 0x" ++ padded 2 x.2 ++ text! "), "

/-- An entry of the encode table of a two-byte encoding.  generate_shiftjis.py:95,
generate_big5.py:104 -/
def encEntry2 (x : Nat × Nat × Nat) : Text :=
  text! r"('\u{" ++ digits 16 x.1 ++ text! "}', [0x" ++ digits 16 x.2.1 ++ text! ", 0x" ++
    digits 16 x.2.2 ++ text! "]), "

/-- The shared code.  generate_ascii_ext_tables.py:52-72 -/
def asciiExtHeader : Text :=
  text! "// This file is auto-generated.  Please see `encoding_tables/single_byte/`\n" ++
  text! "// from the root directory for the files that generate this.\n" ++
  text! "\n" ++
  text! "use {DecodeResult, EncodeResult};\n" ++
  text! "\n" ++
  text! "pub fn decode_to_str<'a>(\n" ++
  text! "    input: &[u8],\n" ++
  text! "    out_buffer: &'a mut [u8],\n" ++
  text! ") -> DecodeResult<'a> {\n" ++
  text! "    super::ascii_ext_decode_to_str(&DECODE_TABLE, input, out_buffer)\n" ++
  text! "}\n" ++
  text! "\n" ++
  text! "pub fn encode_from_str<'a>(\n" ++
  text! "    input: &str,\n" ++
  text! "    out_buffer: &'a mut [u8],\n" ++
  text! ") -> EncodeResult<'a> {\n" ++
  text! "    super::ascii_ext_encode_from_str(&ENCODE_TABLE, input, out_buffer)\n" ++
  text! "}\n\n"

/-- What `generate_ascii_ext_encoding` writes.  generate_ascii_ext_tables.py:51-91 -/
def asciiExtSource (dec_table : List (Option Nat)) (enc_table : List (Nat × Nat)) : Text :=
  asciiExtHeader ++
  text! "const DECODE_TABLE: [char; 128] = [" ++
  entries decEntry 8 0 dec_table ++
  text! "\n];\n\n" ++
  text! "const ENCODE_TABLE: [(char, u8); " ++ digits 10 enc_table.length ++ text! "] = [" ++
  entries encEntry 4 0 enc_table ++
  text! "\n];\n"

/-- What `generate_shiftjis_tables` and `generate_big5_tables` write.
generate_shiftjis.py:70-96, generate_big5.py:79-105 -/
def wideSource (t : List (Option Nat) × List (Nat × Nat × Nat)) : Text :=
  text! "// This file is auto-generated.  Please see `encoding_tables/whatwg/`\n" ++
  text! "// from the root directory for the files that generate this.\n" ++
  text! "\n" ++
  text! "const DECODE_TABLE: [char; " ++ digits 10 t.1.length ++ text! "] = [" ++
  entries decEntry 8 0 t.1 ++
  text! "\n];\n\n" ++
  text! "const ENCODE_TABLE: [(char, [u8; 2]); " ++ digits 10 t.2.length ++ text! "] = [" ++
  entries encEntry2 3 0 t.2 ++
  text! "\n];\n"

/-! ## The generators -/

/-- `generate_ascii_ext_encoding`: the content of the output file afterwards, and whether there was
an exception.  The output file is emptied first.  generate_ascii_ext_tables.py:3-91 -/
def generate_ascii_ext_encoding (text : Text) : Text × Except PyErr Unit :=
  match readFile asciiExtLine text with
  | none => ([], .error .valueError)
  | some lines =>
    match asciiExt lines with
    | .error err => ([], .error err)
    | .ok (dec_table, enc_table) => (asciiExtSource dec_table enc_table, .ok ())

/-- `generate_shiftjis_tables`: the content of the output file, which is not touched if there is an
exception.  generate_shiftjis.py:53-96 -/
def generate_shiftjis_tables (text : Text) : Except PyErr Text :=
  match readFile indexLine text with
  | none => .error .valueError
  | some lines => .ok (wideSource (ShiftJis.tables lines))

/-- `generate_big5_tables`.  generate_big5.py:62-105 -/
def generate_big5_tables (text : Text) : Except PyErr Text :=
  match readFile indexLine text with
  | none => .error .valueError
  | some lines => .ok (wideSource (Big5.tables lines))

end Verif.Generator
