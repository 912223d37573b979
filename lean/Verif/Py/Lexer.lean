import Verif.Spec.RustLex
import Verif.Py.Syntax

/-!
# Tokens of Python

https://docs.python.org/3/reference/lexical_analysis.html, as far as the generators use it. Each
punctuation mark is a token of its own, so `//` is two tokens; the parser puts them together.
-/

namespace Verif.Py

open Spec.Rust (isDigit isLetter isHexDigit value)

/-- Keywords. -/
inductive Kw where
  | and_ | continue_ | def_ | else_ | for_ | if_ | in_ | is_ | none_ | not_ | or_ | raise_ | return_
  | while_
  deriving DecidableEq, Repr

/-- A token. -/
inductive Tok where
  | newline
  | indent
  | dedent
  | kw (k : Kw)
  | id (name : String)
  | int (n : Nat)
  | str (s : Text)
  | p (c : Char)
  deriving DecidableEq, Repr

/-- The keywords and their spelling. -/
def keywords : List (Text × Kw) :=
  [(text! "and", .and_), (text! "continue", .continue_), (text! "def", .def_), (text! "else", .else_),
    (text! "for", .for_), (text! "if", .if_), (text! "in", .in_), (text! "is", .is_),
    (text! "None", .none_), (text! "not", .not_), (text! "or", .or_), (text! "raise", .raise_),
    (text! "return", .return_), (text! "while", .while_)]

/-- Letters, digits and `_`. -/
def isWordChar (c : Nat) : Bool := isLetter c || isDigit c

/-- A keyword or identifier. -/
def word (t : Text) : Tok :=
  match keywords.lookup t with
  | some k => .kw k
  | none => .id (String.ofList (t.map Char.ofNat))

/-- The rest of a string in single or double quotes (`q`). The escapes in use are `\n` and `\\`. -/
def stringLit (q : Nat) : Text → Text → Option (Tok × Text)
  | [], _ => none
  | [c], acc => if c = q then some (.str acc.reverse, []) else none
  | c :: d :: t, acc =>
    if c = q then some (.str acc.reverse, d :: t)
    else if c = 0x0A then none
    else if c = 0x5C then
      (if d = 0x6E then stringLit q t (0x0A :: acc)
      else if d = 0x5C then stringLit q t (0x5C :: acc)
      else none)
    else stringLit q (d :: t) (c :: acc)

/-- The rest of a string in three double quotes. -/
def longLit : Text → Text → Option (Tok × Text)
  | 0x22 :: 0x22 :: 0x22 :: t, acc => some (.str acc.reverse, t)
  | 0x5C :: 0x6E :: t, acc => longLit t (0x0A :: acc)
  | 0x5C :: _, _ => none
  | c :: t, acc => longLit t (c :: acc)
  | [], _ => none

/-- A numeral. -/
def number : Text → Tok × Text
  | 0x30 :: 0x78 :: t => (.int (value 16 (t.takeWhile isHexDigit)), t.dropWhile isHexDigit)
  | t => (.int (value 10 (t.takeWhile isDigit)), t.dropWhile isDigit)

/-- The punctuation in use. -/
def isMark (c : Nat) : Bool := (text! "!%&()*+,-./:;<=>[]{}").contains c

/-- One token. -/
def token : Text → Option (Tok × Text)
  | 0x22 :: 0x22 :: 0x22 :: t => longLit t []
  | c :: t =>
    if c = 0x22 ∨ c = 0x27 then stringLit c t []
    else if isDigit c then some (number (c :: t))
    else if isLetter c then some (word (c :: t.takeWhile isWordChar), t.dropWhile isWordChar)
    else if isMark c then some (.p (Char.ofNat c), t)
    else none
  | [] => none

/-- Opening brackets count up, closing brackets count down. -/
def nesting (depth : Nat) : Tok → Nat
  | .p '(' | .p '[' | .p '{' => depth + 1
  | .p ')' | .p ']' | .p '}' => depth - 1
  | _ => depth

/-- The indentations that a line with `k` spaces ends: how many, and those that are left. `none` if
there is no open one of `k` spaces. -/
def dedents (k : Nat) : List Nat → Option (Nat × List Nat)
  | [] => if k = 0 then some (0, []) else none
  | i :: is =>
    if k = i then some (0, i :: is)
    else if k < i then (dedents k is).map fun r => (r.1 + 1, r.2)
    else none

/-- The tokens at the start of a line with `k` spaces, and the open indentations after them. -/
def lineStart (k : Nat) (is : List Nat) : Option (List Tok × List Nat) :=
  if is.headD 0 < k then some ([.indent], k :: is)
  else (dedents k is).map fun r => (List.replicate r.1 .dedent, r.2)

/-- A blank line or one with a comment only. -/
def isBlankLine : Text → Bool
  | [] => true
  | c :: _ => c == 0x0A || c == 0x23

/-- The tokens, by at most `fuel` steps. `start` says that a line starts here, `depth` is the number
of open brackets, `is` are the open indentations. -/
def lexAux : Nat → Bool → Nat → List Nat → Text → Option (List Tok)
  | 0, _, _, _, _ => none
  | _ + 1, start, depth, is, [] =>
    if depth = 0 then
      some ((if start then [] else [.newline]) ++ List.replicate is.length .dedent)
    else none
  | n + 1, true, depth, is, c :: t =>
    let k := ((c :: t).takeWhile (· == 0x20)).length
    let rest := (c :: t).drop k
    if isBlankLine rest then
      match rest.dropWhile (· != 0x0A) with
      | [] => lexAux n true depth is []
      | _ :: t => lexAux n true depth is t
    else
      match lineStart k is with
      | none => none
      | some (toks, is) => (lexAux n false depth is rest).map (toks ++ ·)
  | n + 1, false, depth, is, c :: t =>
    if c = 0x0A then
      (if depth = 0 then (lexAux n true depth is t).map (.newline :: ·) else lexAux n false depth is t)
    else if c = 0x20 then lexAux n false depth is t
    else if c = 0x23 then lexAux n false depth is (t.dropWhile (· != 0x0A))
    else
      match token (c :: t) with
      | none => none
      | some (tok, rest) => (lexAux n false (nesting depth tok) is rest).map (tok :: ·)

/-- The tokens of a source text. -/
def lex (t : Text) : Option (List Tok) := lexAux (2 * t.length + 2) true 0 [] t

end Verif.Py
