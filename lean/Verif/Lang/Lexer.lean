import Verif.Spec.RustLex
import Verif.Lang.Syntax

/-!
# Tokens

The lexer of `Verif/Spec/RustLex.lean`, extended by what the rest of the crate's source has: more
punctuation, string literals, binary numerals, `_` and suffixes in numerals. Each punctuation mark
is a token of its own, so `&&` is two tokens; the parser puts them together.
-/

namespace Verif.Lang

open Spec.Rust (Token isDigit isLetter isHexDigit value isScalar)

/-- Keywords. -/
inductive Kw where
  | as_ | break_ | const_ | continue_ | else_ | enum_ | fn_ | for_ | if_ | in_ | let_ | match_ | mod_
  | mut_ | pub_ | return_ | struct_ | type_ | unsafe_ | use_ | while_ | true_ | false_
  deriving DecidableEq, Repr

/-- A token. -/
inductive Tok where
  | kw (k : Kw)
  | id (name : String)
  | lifetime
  | int (n : Nat) (ty : Option IntTy)
  | char (c : Char)
  | str (s : List Char)
  | p (c : Char)
  deriving DecidableEq, Repr

/-- The keywords and their spelling. -/
def keywords : List (Text × Kw) :=
  [(text! "as", .as_), (text! "break", .break_), (text! "const", .const_),
    (text! "continue", .continue_), (text! "else", .else_), (text! "enum", .enum_), (text! "fn", .fn_),
    (text! "for", .for_), (text! "if", .if_), (text! "in", .in_), (text! "let", .let_),
    (text! "match", .match_), (text! "mod", .mod_), (text! "mut", .mut_), (text! "pub", .pub_),
    (text! "return", .return_), (text! "struct", .struct_), (text! "type", .type_),
    (text! "unsafe", .unsafe_), (text! "use", .use_), (text! "while", .while_),
    (text! "true", .true_), (text! "false", .false_)]

/-- The chars of a text. -/
def chars (t : Text) : List Char := t.map Char.ofNat

/-- A keyword or identifier. -/
def word (t : Text) : Tok :=
  match keywords.lookup t with
  | some k => .kw k
  | none => .id (String.ofList (chars t))

/-- The tokens of `Verif/Spec/RustLex.lean` as tokens here. -/
def ofToken : Token → Tok
  | .word t => word t
  | .lifetime _ => .lifetime
  | .char c => .char (Char.ofNat c)
  | .int n => .int n none
  | .mark c => .p (Char.ofNat c)

/-- Letters, digits and `_`. -/
def isWordChar (c : Nat) : Bool := isLetter c || isDigit c

/-- The type of a suffix. -/
def suffix (t : Text) : Option (Option IntTy) :=
  if t = [] then some none
  else if t = text! "u8" then some (some .u8)
  else if t = text! "u16" then some (some .u16)
  else if t = text! "u32" then some (some .u32)
  else if t = text! "usize" then some (some .usize)
  else none

/-- The digits of a numeral without `_`. -/
def digits (isD : Nat → Bool) (t : Text) : Text :=
  (t.takeWhile fun c => isD c || c == 0x5F).filter (· != 0x5F)

/-- What follows the digits of a numeral. -/
def afterDigits (isD : Nat → Bool) (t : Text) : Text := t.dropWhile fun c => isD c || c == 0x5F

/-- The rest of a numeral, after its prefix. -/
def numeral (base : Nat) (isD : Nat → Bool) (t : Text) : Option (Tok × Text) :=
  let rest := afterDigits isD t
  match suffix (rest.takeWhile isWordChar) with
  | some ty => some (.int (value base (digits isD t)) ty, rest.dropWhile isWordChar)
  | none => none

/-- A string literal, after its quotation mark. The escapes in use are `\u{…}` and, in the tests,
`\\` and `\x…`. The `b` before a byte string is left as a token of its own. -/
def stringLit : Nat → Text → List Char → Option (Tok × Text)
  | 0, _, _ => none
  | _ + 1, 0x22 :: t, acc => some (.str acc.reverse, t)
  | n + 1, 0x5C :: 0x75 :: 0x7B :: t, acc =>
    let ds := t.takeWhile isHexDigit
    match t.dropWhile isHexDigit with
    | 0x7D :: rest =>
      if isScalar (value 16 ds) then stringLit n rest (Char.ofNat (value 16 ds) :: acc) else none
    | _ => none
  | n + 1, 0x5C :: 0x78 :: a :: b :: t, acc =>
    if isHexDigit a && isHexDigit b then stringLit n t (Char.ofNat (value 16 [a, b]) :: acc)
    else none
  | n + 1, 0x5C :: 0x5C :: t, acc => stringLit n t (Char.ofNat 0x5C :: acc)
  | _ + 1, 0x5C :: _, _ => none
  | n + 1, c :: t, acc => stringLit n t (Char.ofNat c :: acc)
  | _ + 1, [], _ => none

/-- The punctuation that `Verif/Spec/RustLex.lean` does not have. -/
def isMoreMark (c : Nat) : Bool := (text! "!#%*+./|").contains c

/-- A token that `Verif/Spec/RustLex.lean` does not have. -/
def moreToken : Text → Option (Tok × Text)
  | 0x22 :: t => stringLit (t.length + 1) t []
  | 0x30 :: 0x62 :: t => numeral 2 (fun c => c == 0x30 || c == 0x31) t
  | 0x30 :: 0x78 :: t => numeral 16 isHexDigit t
  | c :: t =>
    if isDigit c then numeral 10 isDigit (c :: t)
    else if isMoreMark c then some (.p (Char.ofNat c), t)
    else none
  | [] => none

/-- One step: skip a blank or a comment, or take one token. -/
def step (t : Text) : Option (Option Tok × Text) :=
  match Spec.Rust.step t with
  | some (none, rest) => some (none, rest)
  | some (some tok, rest) => some (some (ofToken tok), rest)
  | none => (moreToken t).map fun x => (some x.1, x.2)

/-- The tokens, by at most `fuel` steps. -/
def lexAux : Nat → Text → Option (List Tok)
  | _, [] => some []
  | 0, _ => none
  | fuel + 1, t =>
    match step t with
    | none => none
    | some (none, rest) => lexAux fuel rest
    | some (some tok, rest) => (lexAux fuel rest).map (tok :: ·)

/-- The tokens of a source text; each step takes at least one code point. -/
def lex (t : Text) : Option (List Tok) := lexAux t.length t

end Verif.Lang
