import Verif.Files.Py
import Verif.Py.Parser

/-!
Writes the syntax trees of the generators, as the parser finds them, to `lean/Verif/Py/Ast.lean`.
`Verif/Proof/Py/Parse.lean` has the kernel check that this is what the parser finds.

    cd lean; lake build Verif.Py.Parser Verif.Files.Py; cp ../tools/pyast.lean.txt /tmp/ast.lean; lake env lean --run /tmp/ast.lean
-/

open Verif Verif.Py Std

def fstr (s : String) : Format := .text (repr s).pretty

def app (f : String) (args : List Format) : Format :=
  if args.isEmpty then .text f
  else .group (.nest 2 (.text s!"({f}" ++ Format.join (args.map fun a => Format.line ++ a) ++ ")"))

def flist (l : List Format) : Format :=
  .group (.nest 1 ("[" ++ Format.joinSep l ("," ++ Format.line) ++ "]"))

def fenum {α : Type} [Repr α] (a : α) : Format :=
  .text ("." ++ ((repr a).pretty.splitOn ".").getLast!)

/-- A string literal. -/
def ftext (s : Text) : Format :=
  .text s!"(text! \"{String.join (s.map fun c => match c with
    | 10 => "\\n" | 0x22 => "\\\"" | 0x5C => "\\\\" | c => String.singleton (Char.ofNat c))}\")"

def ftarget : Target → Format
  | .name x => app ".name" [fstr x]
  | .names xs => app ".names" [flist (xs.map fstr)]

partial def fexpr : Expr → Format
  | .none => ".none"
  | .int n => app ".int" [.text (toString n)]
  | .str s => app ".str" [ftext s]
  | .name x => .text s!"(.name {repr x})"
  | .tuple es => app ".tuple" [flist (es.map fexpr)]
  | .list es => app ".list" [flist (es.map fexpr)]
  | .set es => app ".set" [flist (es.map fexpr)]
  | .bin op a b => app ".bin" [fenum op, fexpr a, fexpr b]
  | .cmp op a b => app ".cmp" [fenum op, fexpr a, fexpr b]
  | .and a b => app ".and" [fexpr a, fexpr b]
  | .or a b => app ".or" [fexpr a, fexpr b]
  | .not a => app ".not" [fexpr a]
  | .ite c a b => app ".ite" [fexpr c, fexpr a, fexpr b]
  | .call f args => app ".call" [fstr f, flist (args.map fexpr)]
  | .keyword x e => app ".keyword" [fstr x, fexpr e]
  | .method e m args => app ".method" [fexpr e, fstr m, flist (args.map fexpr)]
  | .index e i => app ".index" [fexpr e, fexpr i]
  | .sliceFrom e i => app ".sliceFrom" [fexpr e, fexpr i]
  | .comp e t it c => app ".comp" [fexpr e, ftarget t, fexpr it,
      match c with
      | none => "none"
      | some c => app "some" [fexpr c]]

/-- The printer's state: the prefix of names and the definitions of the loop bodies. -/
structure St where
  name : String
  loops : List (String × Format) := []

abbrev M := StateM St

partial def fstmt : Stmt → M Format
  | .skip => pure ".skip"
  | .seq a b => do
    let a ← fstmt a
    let b ← fstmt b
    pure (.text "(.seq" ++ .nest 2 (.group (Format.line ++ a)) ++ Format.line ++ b ++ ")")
  | .expr e => pure (app ".expr" [fexpr e])
  | .assign x e => pure (app ".assign" [fstr x, fexpr e])
  | .augAdd x e => pure (app ".augAdd" [fstr x, fexpr e])
  | .augAnd x e => pure (app ".augAnd" [fstr x, fexpr e])
  | .ite c a b => do pure (app ".ite" [fexpr c, ← fstmt a, ← fstmt b])
  | .whileDo c b => do pure (app ".whileDo" [fexpr c, ← loopBody b])
  | .forIn t e b => do pure (app ".forIn" [ftarget t, fexpr e, ← loopBody b])
  | .continue => pure ".continue"
  | .return e => pure (app ".return" [fexpr e])
  | .raise e => pure (app ".raise" [fexpr e])
where
  /-- The body of a loop becomes a definition of its own. -/
  loopBody (b : Stmt) : M Format := do
    let f ← fstmt b
    let st ← get
    let n := s!"{st.name}.loop{st.loops.length + 1}"
    set { st with loops := st.loops ++ [(n, f)] }
    pure (.text n)

def emit (name file : String) (t : List Text) : IO Unit := do
  match parse t.flatten with
  | none => throw (IO.userError name)
  | some m =>
    for g in m.fns do
      let n := s!"{name}.{g.name}"
      let (f, st) := (fstmt g.body).run { name := n }
      for (m, g') in st.loops do
        IO.println s!"\n/-- A loop body in `{g.name}`.  {file} -/\ndef {m} : Stmt :=\n  {(Format.nest 2 g').pretty 100}"
      IO.println s!"\n/-- The body of `{g.name}`.  {file} -/\ndef {n}.body : Stmt :=\n  {(Format.nest 2 f).pretty 100}"
      IO.println s!"\n/-- `{g.name}`.  {file} -/\ndef {n} : Fn := ⟨{repr g.name}, {repr g.params}, {n}.body⟩"
    let (f, _) := (fstmt m.main).run { name := name }
    IO.println s!"\n/-- The statements after the functions.  {file} -/\ndef {name}.main : Stmt :=\n  {(Format.nest 2 f).pretty 100}"
    let fs := flist (m.fns.map fun g => .text s!"{name}.{g.name}")
    IO.println s!"\n/-- {file} -/\ndef {name} : Module :=\n  ⟨{(Format.nest 3 fs).pretty 100},\n    {name}.main⟩"

def main : IO Unit := do
  IO.println "import Verif.Py.Syntax

/-! Generated by tools/pyast.lean.txt: the syntax trees of the generators. -/

namespace Verif.Py.Ast"
  emit "ascii_ext" "encoding_tables/single_byte/generate_ascii_ext_tables.py" Files.Py.ascii_ext
  emit "shiftjis" "encoding_tables/whatwg/generate_shiftjis.py" Files.Py.shiftjis
  emit "big5" "encoding_tables/whatwg/generate_big5.py" Files.Py.big5
  IO.println "\nend Verif.Py.Ast"
