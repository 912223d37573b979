/-!
# Texts as lists of code points

`text! "…"` is the list of the code points of a string literal.  The macro packs them into one
number, 21 bits for each, so that the kernel can handle long texts; `unpack` takes them out again.
`lines! "…"` is the list of the lines of a literal, packed in threes, so that the kernel meets no
large numbers when it takes long files apart.
-/

namespace Verif

/-- A Python `str`, or the text of a file: the list of its code points. -/
abbrev Text := List Nat

/-- The `k` code points packed in a number, the first one in the lowest 21 bits. -/
def unpack : Nat → Nat → Text
  | 0, _ => []
  | k + 1, n => n % 2097152 :: unpack k (n / 2097152)

open Lean in
/-- The code points of a string literal. -/
macro "text! " s:str : term => do
  let cs := s.getString.toList
  let n := cs.foldr (fun c acc => c.toNat + 2097152 * acc) 0
  `(unpack $(quote cs.length) $(quote n))

/-- One code point. -/
def one (a : Nat) (t : Text) : Text := a :: t

/-- Three code points, 21 bits for each. -/
def three (a : Nat) (t : Text) : Text :=
  Nat.mod a (nat_lit 2097152) :: Nat.mod (Nat.div a (nat_lit 2097152)) (nat_lit 2097152) ::
    Nat.div a (nat_lit 4398046511104) :: t

/-- The lines of a text, each with its line end. -/
def splitLines : List Char → List Char → List (List Char)
  | [], cur => if cur.isEmpty then [] else [cur.reverse]
  | c :: t, cur => if c = '\n' then (c :: cur).reverse :: splitLines t [] else splitLines t (c :: cur)

open Lean in
/-- A term for the code points of a line. -/
def packLine : List Char → MacroM Term
  | a :: b :: c :: t => do
    let r ← packLine t
    let n := Syntax.mkNumLit (toString (a.toNat + 2097152 * b.toNat + 4398046511104 * c.toNat))
    `(three (nat_lit $n) $r)
  | a :: t => do
    let r ← packLine t
    let n := Syntax.mkNumLit (toString a.toNat)
    `(one (nat_lit $n) $r)
  | [] => `(([] : Text))

open Lean in
/-- The lines of a string literal, each with its line end, as the lists of their code points. -/
macro "lines! " s:str : term => do
  let es ← (splitLines s.getString.toList []).toArray.mapM packLine
  `(([$es,*] : List Text))

example : text! "a\n'�'" = [0x61, 0x0A, 0x27, 0xFFFD, 0x27] := by decide
example : text! r"\u{}" = ['\\', 'u', '{', '}'].map Char.toNat := by decide
example : lines! "a\n\nbc\nd" = [[0x61, 0x0A], [0x0A], [0x62, 0x63, 0x0A], [0x64]] := by decide +kernel

end Verif
