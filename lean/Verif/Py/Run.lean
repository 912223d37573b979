import Verif.Py.Parser
import Verif.Py.Semantics

/-! # Running a source text -/

namespace Verif.Py

/-- The outcome of a call of a function in a source text. -/
def call (src : Text) (fuel : Nat) (f : String) (args : List Val) (w : World) : Res Val :=
  match parse src with
  | some m => m.call fuel f args w
  | none => .stuck

/-- The outcome of a program, `python3 file.py`. -/
def run (src : Text) (fuel : Nat) (w : World) : Res Val :=
  match parse src with
  | some m => m.run fuel w
  | none => .stuck

/-- It terminates with an outcome: with enough fuel, more does not change it. -/
def Evaluates (f : Nat → Res Val) (r : Res Val) : Prop := ∃ N, ∀ fuel, N ≤ fuel → f fuel = r

/-- There is at most one outcome. -/
theorem Evaluates.unique {f : Nat → Res Val} {r r' : Res Val} (h : Evaluates f r) (h' : Evaluates f r') :
    r = r' := by
  obtain ⟨N, h⟩ := h
  obtain ⟨N', h'⟩ := h'
  rw [← h (max N N') (by omega), ← h' (max N N') (by omega)]

end Verif.Py
