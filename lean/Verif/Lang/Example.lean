import Verif.Lang.Crate

/-!
# The program in examples/wrapper.rs

It is a crate of its own that uses this one by `use text_encoding::{single_byte::*, *};`.
-/

namespace Verif.Lang

/-- The paths of the modules of which everything is in scope, by `use c::{…};`. -/
def globsOf (c : String) : List Item → List (List String)
  | [] => []
  | .useGlobs d ps :: is => if d = c then ps ++ globsOf c is else globsOf c is
  | _ :: is => globsOf c is

/-- The path of the module of this name in one of those modules. -/
noncomputable def resolve (x : String) : List (List String) → Option (List String)
  | [] => none
  | p :: ps => if (root.bind (scopeAt (p ++ [x]))).isSome then some (p ++ [x]) else resolve x ps

/-- A call of a function of a module of the crate. -/
noncomputable def callCrate (m : Machine.Target) (fuel : Nat) (globs : List (List String))
    (x f : String) (vs : List Value) : CallResult :=
  match resolve x globs with
  | some path => run m fuel path f vs
  | none => .error none

/-- The module that this name is imported from, by `use text_encoding::m::{…};`. -/
def importOf (name : String) : List Item → Option String
  | [] => none
  | .useNames c x ns :: is =>
    if c = "text_encoding" ∧ ns.contains name then some x else importOf name is
  | _ :: is => importOf name is

/-- A call of a function among these items, which are those of a program. -/
noncomputable def invokeProgram (m : Machine.Target) (fuel : Nat) (is : List Item) :
    Nat → String → List Value → CallResult
  | 0, _, _ => .error (some .diverge)
  | depth + 1, name, vs =>
    match fnIn name is with
    | none =>
      match importOf name is with
      | some x => run m fuel [x] name vs
      | none => .error none
    | some (ps, body) =>
      if ps.length = vs.length then
        result ps (eval
          ⟨m, fuel, fun up f vs => if up then .error none else invokeProgram m fuel is depth f vs,
            callCrate m fuel (globsOf "text_encoding" is), constOf m [is]⟩
          body ((ps.map (·.1)).zip vs))
      else .error none

/-- A call of a function of examples/wrapper.rs, as the source texts have it. -/
noncomputable def runWrapper (m : Machine.Target) (fuel : Nat) (name : String) (args : List Value) :
    CallResult :=
  match parse Files.Src.wrapper.flatten with
  | some is => invokeProgram m fuel is fuel name args
  | none => .error none

end Verif.Lang
