import Verif.Lang.Example

/-!
# The unit tests in src/*.rs, and the examples in the documentation of src/lib.rs
-/

namespace Verif.Lang

/-- An argument of a call. The arrays that functions take are of bytes, so integers without a suffix
in them are bytes. -/
def byteArray : Value → Value
  | .arr vs => .arr (vs.map fun | .int .usize n => .int .u8 n | v => v)
  | v => v

/-- A call of a function among these items, which are those of tests, or of the crate. `crate` and
`crateIn` are the functions of the crate in scope and in the modules in scope. -/
def testCall (m : Machine.Target) (fuel : Nat) (is : List Item)
    (crate : String → List Value → CallResult) (crateIn : String → String → List Value → CallResult) :
    Nat → String → List Value → CallResult
  | 0, _, _ => .error (some .diverge)
  | depth + 1, f, vs =>
    match fnIn f is with
    | none => crate f (vs.map byteArray)
    | some (ps, body) =>
      if ps.length = vs.length then
        result ps (eval
          ⟨m, fuel,
            fun up f vs => if up then .error none else testCall m fuel is crate crateIn depth f vs,
            fun x f vs => crateIn x f (vs.map byteArray), constOf m [is]⟩
          body ((ps.map (·.1)).zip (vs.map byteArray)))
      else .error none

/-- Whether the module with this path has a function of this name. -/
noncomputable def hasFn (f : String) (path : List String) : Bool :=
  (root.bind (scopeAt path)).any fun sc => (fnIn f (sc.headD [])).isSome

/-- The path of the module that has a function of this name, among those with these paths. -/
noncomputable def fnModule (f : String) : List (List String) → Option (List String)
  | [] => none
  | p :: ps => if hasFn f p then some p else fnModule f ps

/-- A call of a function of the crate that is in one of the modules with these paths. -/
noncomputable def crateFn (m : Machine.Target) (fuel : Nat) (paths : List (List String)) (f : String)
    (vs : List Value) : CallResult :=
  match fnModule f paths with
  | some p => run m fuel p f vs
  | none => .error none

/-! ## Unit tests

Those of a source file are in its module `tests`, which `parse` leaves out of the crate. -/

/-- The items of the module marked with `#[cfg(test)]`. -/
def testItems : Toks → Option (List Item)
  | .p '#' :: .p '[' :: .id "cfg" :: .p '(' :: .id "test" :: .p ')' :: .p ']' :: .kw .mod_ :: .id _ ::
      .p '{' :: t => (items (t.length + 1) true t).map (·.1)
  | _ :: t => testItems t
  | [] => none

/-- The items of the unit tests in a source text. -/
def parseUnit (t : Text) : Option (List Item) := (lex t).bind testItems

/-- The names of the tests among the items. -/
def unitTests : List Item → List String
  | [] => []
  | .test :: .fn name _ _ :: is => name :: unitTests is
  | _ :: is => unitTests is

/-- The paths of the modules of which everything is in scope in the tests of the module with this path:
that module by `use super::*;`, others by `use super::{a::*, …};`. -/
def unitGlobs (path : List String) (is : List Item) : List (List String) :=
  (if usesSuper is then [path] else []) ++ (globsOf "super" is).map (path ++ ·)

/-- A unit test of the module with this path, where `is` are the items of its tests. It passes if the
result is `.ok`: a failed assertion is a panic. -/
noncomputable def runUnit (m : Machine.Target) (fuel : Nat) (path : List String) (is : List Item)
    (name : String) : CallResult :=
  testCall m fuel is (crateFn m fuel (unitGlobs path is)) (callCrate m fuel (unitGlobs path is)) fuel
    name []

/-! ## Examples in the documentation

The text of an example is what is between two lines with three backquotes in the documentation of the
crate. Lines of it that start with `# ` are hidden in the documentation but belong to the example. -/

/-- The text of a line of the documentation of the crate, which starts with `//!` and a space. -/
def docLine : Text → Option Text
  | 0x2F :: 0x2F :: 0x21 :: 0x20 :: t => some t
  | _ => none

/-- The line with the mark of a hidden line dropped. -/
def unhide : Text → Text
  | 0x23 :: 0x20 :: t => t
  | t => t

/-- The examples in these lines of documentation. `cur` has the lines before of the present example. -/
def docExamples : Option Text → List Text → List Text
  | _, [] => []
  | cur, l :: ls =>
    if l = text! "```\n" then
      match cur with
      | none => docExamples (some []) ls
      | some t => t :: docExamples none ls
    else docExamples (cur.map (· ++ unhide l)) ls

/-- A name with the path of its module, in `use text_encoding::a::b::name;`. -/
def useName : Nat → Toks → Option (List String × String × Toks)
  | 0, _ => none
  | _ + 1, .id x :: .p ';' :: t => some ([], x, t)
  | n + 1, .id x :: .p ':' :: .p ':' :: t => (useName n t).map fun r => (x :: r.1, r.2)
  | _ + 1, _ => none

/-- An example: the module and the name of the function that it uses, and its statements. -/
def parseExample (t : Text) : Option (List String × String × Expr) := do
  match ← lex t with
  | .kw .use_ :: .id "text_encoding" :: .p ':' :: .p ':' :: t =>
    let (p, f, t) ← useName t.length t
    let (b, _) ← stmts (16 * t.length + 1) (t ++ [.p '}'])
    some (p, f, b)
  | _ => none

/-- An example of the documentation: its statements are the body of a function. -/
noncomputable def runExample (m : Machine.Target) (fuel : Nat) (x : List String × String × Expr) :
    CallResult :=
  testCall m fuel [.fn "main" [] (.block x.2.2)]
    (fun f vs => if f = x.2.1 then run m fuel x.1 f vs else .error none) (fun _ _ _ => .error none) fuel
    "main" []

end Verif.Lang
