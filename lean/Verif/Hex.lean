import Verif.Text

/-!
# Files of bytes

`hex! "…"` is the list of the numbers given by pairs of hexadecimal digits; white space between
them is ignored.  The macro packs them in sevens, so that the kernel can handle long files.
-/

namespace Verif

/-- Seven bytes, the first one in the lowest 8 bits. -/
def seven (a : Nat) (t : List Nat) : List Nat :=
  Nat.mod a (nat_lit 256) ::
  Nat.mod (Nat.div a (nat_lit 256)) (nat_lit 256) ::
  Nat.mod (Nat.div a (nat_lit 65536)) (nat_lit 256) ::
  Nat.mod (Nat.div a (nat_lit 16777216)) (nat_lit 256) ::
  Nat.mod (Nat.div a (nat_lit 4294967296)) (nat_lit 256) ::
  Nat.mod (Nat.div a (nat_lit 1099511627776)) (nat_lit 256) ::
  Nat.div a (nat_lit 281474976710656) :: t

/-- The value of a hexadecimal digit. -/
def hexDigit (c : Char) : Option Nat :=
  if '0' ≤ c ∧ c ≤ '9' then some (c.toNat - 48)
  else if 'A' ≤ c ∧ c ≤ 'F' then some (c.toNat - 55)
  else none

/-- The numbers given by pairs of digits. -/
def hexPairs : List Char → Option (List Nat)
  | [] => some []
  | [_] => none
  | a :: b :: t => do some ((16 * (← hexDigit a) + (← hexDigit b)) :: (← hexPairs t))

open Lean in
/-- A term for a list of bytes. -/
def packBytes : List Nat → MacroM Term
  | a :: b :: c :: d :: e :: f :: g :: t => do
    let r ← packBytes t
    let n := [a, b, c, d, e, f, g].foldr (fun x acc => x + 256 * acc) 0
    `(seven (nat_lit $(Syntax.mkNumLit (toString n))) $r)
  | a :: t => do
    let r ← packBytes t
    `(one (nat_lit $(Syntax.mkNumLit (toString a))) $r)
  | [] => `(([] : List Nat))

open Lean in
/-- The numbers given by pairs of hexadecimal digits. -/
macro "hex! " s:str : term => do
  match hexPairs (s.getString.toList.filter fun c => !c.isWhitespace) with
  | some l => packBytes l
  | none => Macro.throwError "pairs of hexadecimal digits expected"

example : hex! "00 01FF
    0A81409F EF FC1B" = [0x00, 0x01, 0xFF, 0x0A, 0x81, 0x40, 0x9F, 0xEF, 0xFC, 0x1B] := by decide +kernel

end Verif
