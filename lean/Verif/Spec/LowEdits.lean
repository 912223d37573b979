import Verif.Spec.StandAlone

/-! # Edits of the bytes that are never part of a longer code -/

namespace Verif.Spec

/-- Each byte below the bound is replaced by the bytes `f` gives for it; the others stay. -/
def editBytes (e : Encoding) (f : UInt8 → List UInt8) (bytes : List UInt8) : List UInt8 :=
  bytes.flatMap fun b => if b.toNat < standAlone e then f b else [b]

/-- The same edit of a text: each char below the bound is replaced by the ASCII chars that `f` gives
for it. -/
def editText (e : Encoding) (f : UInt8 → List UInt8) (text : List Char) : List Char :=
  text.flatMap fun c =>
    if c.toNat < standAlone e then (f (UInt8.ofNat c.toNat)).map fun b => Char.ofNat b.toNat
    else [c]

/-- An edit: CR is dropped and LF becomes CR LF. -/
def dosLines (b : UInt8) : List UInt8 :=
  if b = 0x0D then [] else if b = 0x0A then [0x0D, 0x0A] else [b]

end Verif.Spec
