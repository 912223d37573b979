import Verif.Text

/-!
# Tokens of Rust source

Independent of the model of the generators.  The lexical structure of Rust, as far as the
generated files use it (https://doc.rust-lang.org/reference/tokens.html): white space, line
comments, identifiers and keywords, lifetimes, char literals, integer literals without suffix,
punctuation (each mark is a token of its own).
-/

namespace Verif.Spec.Rust

/-- A token. -/
inductive Token where
  | word (name : Text)
  | lifetime (name : Text)
  | char (c : Nat)
  | int (n : Nat)
  | mark (c : Nat)
  deriving DecidableEq, Repr

def isDigit (c : Nat) : Bool := 0x30 ≤ c && c ≤ 0x39
def isLetter (c : Nat) : Bool := (0x41 ≤ c && c ≤ 0x5A) || (0x61 ≤ c && c ≤ 0x7A) || c == 0x5F
def isBlank (c : Nat) : Bool := c == 0x20 || c == 0x09 || c == 0x0A || c == 0x0D
def isHexDigit (c : Nat) : Bool :=
  isDigit c || (0x41 ≤ c && c ≤ 0x46) || (0x61 ≤ c && c ≤ 0x66)

/-- The value of a digit. -/
def digitValue (c : Nat) : Nat :=
  if c ≤ 0x39 then c - 0x30 else if c ≤ 0x46 then c - 0x41 + 10 else c - 0x61 + 10

/-- The value of a numeral. -/
def value (base : Nat) (ds : Text) : Nat := ds.foldl (fun n c => n * base + digitValue c) 0

/-- A scalar value, which `'\u{…}'` has to be. -/
def isScalar (n : Nat) : Bool := n < 0xD800 || (0xDFFF < n && n < 0x110000)

/-- What follows a quotation mark: an escape, a char and a second quotation mark, or the name of a
lifetime. -/
def quoted : Text → Option (Token × Text)
  | 0x5C :: 0x75 :: 0x7B :: t =>
    let ds := t.takeWhile isHexDigit
    match t.dropWhile isHexDigit with
    | 0x7D :: 0x27 :: rest =>
      if 0 < ds.length ∧ ds.length ≤ 6 ∧ isScalar (value 16 ds) then
        some (.char (value 16 ds), rest)
      else none
    | _ => none
  | 0x5C :: _ => none
  | c :: 0x27 :: rest =>
    if c = 0x27 ∨ c = 0x09 ∨ c = 0x0A ∨ c = 0x0D then none else some (.char c, rest)
  | c :: t =>
    if isLetter c then
      some (.lifetime (c :: t.takeWhile fun c => isLetter c || isDigit c),
        t.dropWhile fun c => isLetter c || isDigit c)
    else none
  | [] => none

/-- The text does not go on with a letter or digit. -/
def ends : Text → Bool
  | c :: _ => !(isLetter c || isDigit c)
  | [] => true

/-- A numeral, without a suffix. -/
def number : Text → Option (Token × Text)
  | 0x30 :: 0x78 :: t =>
    let ds := t.takeWhile isHexDigit
    let rest := t.dropWhile isHexDigit
    if ds ≠ [] ∧ ends rest then some (.int (value 16 ds), rest) else none
  | t =>
    let rest := t.dropWhile isDigit
    if ends rest then some (.int (value 10 (t.takeWhile isDigit)), rest) else none

/-- The punctuation in use: `& ( ) , - : ; < = > [ ] { }`. -/
def isMark (c : Nat) : Bool := (text! "&(),-:;<=>[]{}").contains c

/-- One step: skip a blank or a comment, or take one token. -/
def step : Text → Option (Option Token × Text)
  | [] => none
  | 0x2F :: 0x2F :: t => some (none, t.dropWhile (· != 0x0A))
  | c :: t =>
    if isBlank c then some (none, t)
    else if isLetter c then
      some (some (.word (c :: t.takeWhile fun c => isLetter c || isDigit c)),
        t.dropWhile fun c => isLetter c || isDigit c)
    else if isDigit c then (number (c :: t)).map fun x => (some x.1, x.2)
    else if c = 0x27 then (quoted t).map fun x => (some x.1, x.2)
    else if isMark c then some (some (.mark c), t)
    else none

/-- The tokens, by at most `fuel` steps. -/
def tokensAux : Nat → Text → Option (List Token)
  | _, [] => some []
  | 0, _ => none
  | fuel + 1, t =>
    match step t with
    | none => none
    | some (none, rest) => tokensAux fuel rest
    | some (some tok, rest) => (tokensAux fuel rest).map (tok :: ·)

/-- The tokens of a source text; each step takes at least one code point. -/
def tokens (t : Text) : Option (List Token) := tokensAux t.length t

/-! ## The tokens of an array constant -/

/-- `const NAME: [ty; len] = [items];` -/
def const (name : Text) (ty : List Token) (len : Nat) (items : List (List Token)) : List Token :=
  [.word (text! "const"), .word name, .mark 0x3A, .mark 0x5B] ++ ty ++
  [.mark 0x3B, .int len, .mark 0x5D, .mark 0x3D, .mark 0x5B] ++
  items.flatMap (· ++ [.mark 0x2C]) ++ [.mark 0x5D, .mark 0x3B]

/-- `char` -/
def charType : List Token := [.word (text! "char")]
/-- `(char, u8)` -/
def pairType : List Token :=
  [.mark 0x28, .word (text! "char"), .mark 0x2C, .word (text! "u8"), .mark 0x29]
/-- `(char, [u8; 2])` -/
def pairType2 : List Token :=
  [.mark 0x28, .word (text! "char"), .mark 0x2C, .mark 0x5B, .word (text! "u8"), .mark 0x3B, .int 2,
    .mark 0x5D, .mark 0x29]

/-- `'c'` -/
def charItem (c : Char) : List Token := [.char c.toNat]
/-- `('c', b)` -/
def pairItem (x : Char × UInt8) : List Token :=
  [.mark 0x28, .char x.1.toNat, .mark 0x2C, .int x.2.toNat, .mark 0x29]
/-- `('c', [b0, b1])` -/
def pairItem2 (x : Char × UInt8 × UInt8) : List Token :=
  [.mark 0x28, .char x.1.toNat, .mark 0x2C, .mark 0x5B, .int x.2.1.toNat, .mark 0x2C,
    .int x.2.2.toNat, .mark 0x5D, .mark 0x29]

/-- The source of a two-byte table module with these constants. -/
def wideModule (D : List Char) (E : List (Char × UInt8 × UInt8)) : List Token :=
  const (text! "DECODE_TABLE") charType D.length (D.map charItem) ++
  const (text! "ENCODE_TABLE") pairType2 E.length (E.map pairItem2)

/-- The functions of a single-byte module. -/
def functions : Text :=
  text! "use {DecodeResult, EncodeResult};
pub fn decode_to_str<'a>(input: &[u8], out_buffer: &'a mut [u8],) -> DecodeResult<'a> {
    super::ascii_ext_decode_to_str(&DECODE_TABLE, input, out_buffer)
}
pub fn encode_from_str<'a>(input: &str, out_buffer: &'a mut [u8],) -> EncodeResult<'a> {
    super::ascii_ext_encode_from_str(&ENCODE_TABLE, input, out_buffer)
}"

/-- `toks` is the source of a single-byte module with these constants: the two functions, then
`DECODE_TABLE` (an array type with as many elements as there are items) and `ENCODE_TABLE`. -/
def IsSingleByteModule (D : List Char) (E : List (Char × UInt8)) (toks : List Token) : Prop :=
  D.length = 128 ∧ ∃ f, tokens functions = some f ∧
  toks = f ++ const (text! "DECODE_TABLE") charType 128 (D.map charItem) ++
    const (text! "ENCODE_TABLE") pairType E.length (E.map pairItem)

end Verif.Spec.Rust
