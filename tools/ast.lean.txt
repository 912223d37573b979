import Verif.Files.Src
import Verif.Files.TestSrc
import Verif.Lang.UnitTests

/-!
Writes the syntax trees of the sources, as the parser finds them, to `lean/Verif/Lang/Ast.lean` or, with
the argument `tests`, those of the tests to `lean/Verif/Lang/TestAst.lean`, with the argument `unit`, those
of the unit tests to `lean/Verif/Lang/UnitAst.lean`.
`Verif/Proof/Lang/Parse.lean` has the kernel check that this is what the parser finds.

    cd lean; lake build Verif.Lang.UnitTests Verif.Files.Src Verif.Files.TestSrc; cp ../tools/ast.lean.txt /tmp/ast.lean;  lake env lean --run /tmp/ast.lean
-/

open Verif Verif.Lang Std

def fstr (s : String) : Format := .text (repr s).pretty

def app (f : String) (args : List Format) : Format :=
  if args.isEmpty then .text f
  else .group (.nest 2 (.text s!"({f}" ++ Format.join (args.map fun a => Format.line ++ a) ++ ")"))

def flist (l : List Format) : Format :=
  .group (.nest 1 ("[" ++ Format.joinSep l ("," ++ Format.line) ++ "]"))

def ftail (s : String) : String := (s.splitOn ".").getLast!

def fenum {α : Type} [Repr α] (a : α) : Format :=
  let s := (repr a).pretty.replace "Verif.Lang." ""
  let parts := (s.splitOn " ").map fun w => "." ++ (w.replace "(" "").replace ")" "" |>.splitOn "." |>.getLast! |> ("." ++ ·)
  match parts with
  | [x] => .text x
  | xs => .text ("(" ++ " ".intercalate xs ++ ")")

def fchar (c : Char) : Format :=
  if 0x20 < c.toNat && c.toNat < 0x7F then .text (repr c).pretty
  else .text s!"(Char.ofNat 0x{(String.ofList (Nat.toDigits 16 c.toNat)).toUpper})"

partial def fpat : Pat → Format
  | .wild => ".wild"
  | .bind x => .text s!"(.bind {repr x})"
  | .int n => app ".int" [.text (toString n)]
  | .ctor x ps => app ".ctor" [fstr x, flist (ps.map fpat)]
  | .tuple ps => app ".tuple" [flist (ps.map fpat)]

/-- The printer's state: the prefix of names, the loops and their definitions, and whether arrays of
integers are written with `ints` and `u8s`. -/
structure St where
  name : String
  loops : List (String × Format) := []
  short : Bool := false

abbrev M := StateM St

partial def fexpr : Expr → M Format
  | .unit => pure ".unit"
  | .int ty n => pure (app ".int" [fenum ty, .text (toString n)])
  | .bool b => pure (app ".bool" [.text (toString b)])
  | .char c => pure (app ".char" [fchar c])
  | .str s => pure (app ".str" [flist (s.map fchar)])
  | .var x => pure (.text s!"(.var {repr x})")
  | .variant x => pure (app ".variant" [fstr x])
  | .not e => do pure (app ".not" [← fexpr e])
  | .ref e => do pure (app ".ref" [← fexpr e])
  | .refMut e => do pure (app ".refMut" [← fexpr e])
  | .bin op a b => do pure (app ".bin" [fenum op, ← fexpr a, ← fexpr b])
  | .assign a b => do pure (app ".assign" [← fexpr a, ← fexpr b])
  | .opAssign op a b => do pure (app ".opAssign" [fenum op, ← fexpr a, ← fexpr b])
  | .ctor x e => do pure (app ".ctor" [fstr x, ← fexpr e])
  | .call up f args => do
    pure (app ".call" [.text (toString up), fstr f, flist (← args.mapM fexpr)])
  | .callIn m f args => do
    pure (app ".callIn" [fstr m, fstr f, flist (← args.mapM fexpr)])
  | .panic => pure ".panic"
  | .includeBytes p => pure (app ".includeBytes" [fstr p])
  | .assertEq a b => do pure (app ".assertEq" [← fexpr a, ← fexpr b])
  | .std f e => do pure (app ".std" [fenum f, ← fexpr e])
  | .method e f args => do pure (app ".method" [← fexpr e, fenum f, flist (← args.mapM fexpr)])
  | .proj e n => do pure (app ".proj" [← fexpr e, .text (toString n)])
  | .index e i => do pure (app ".index" [← fexpr e, ← fexpr i])
  | .slice e a b => do pure (app ".slice" [← fexpr e, ← fexpr a, ← fexpr b])
  | .sliceTo e b => do pure (app ".sliceTo" [← fexpr e, ← fexpr b])
  | .sliceFrom e b => do pure (app ".sliceFrom" [← fexpr e, ← fexpr b])
  | .sliceAll e => do pure (app ".sliceAll" [← fexpr e])
  | .vec e n => do pure (app ".vec" [← fexpr e, ← fexpr n])
  | .cast e ty => do pure (app ".cast" [← fexpr e, fenum ty])
  | .asChar e => do pure (app ".asChar" [← fexpr e])
  | .rangeIncl a b => do pure (app ".rangeIncl" [← fexpr a, ← fexpr b])
  | .tuple es => do pure (app ".tuple" [flist (← es.mapM fexpr)])
  | .array es => do
    if (← get).short && !es.isEmpty && es.all (fun | .int _ _ => true | _ => false) then
      let us := es.map fun | .int .u8 _ => true | _ => false
      let ns := es.map fun | .int _ n => Format.text (toString n) | _ => ""
      if us.all id then return app "u8s" [flist ns]
      if !us.any id then return app "ints" [flist ns]
    pure (app ".array" [flist (← es.mapM fexpr)])
  | .rep e n => do pure (app ".rep" [← fexpr e, .text (toString n)])
  | .struct x fs es => do
    pure (app ".struct" [fstr x, flist (fs.map fstr), flist (← es.mapM fexpr)])
  | .block e => do pure (app ".block" [← fexpr e])
  | .ite c t e => do pure (app ".ite" [← fexpr c, ← fexpr t, ← fexpr e])
  | .iteLet p s t e => do pure (app ".iteLet" [fpat p, ← fexpr s, ← fexpr t, ← fexpr e])
  | .matchOn s ps es => do
    pure (app ".matchOn" [← fexpr s, flist (ps.map fpat), flist (← es.mapM fexpr)])
  | .whileDo c b => do pure (app ".whileDo" [← fexpr c, ← loopBody b])
  | .whileLet p s b => do pure (app ".whileLet" [fpat p, ← fexpr s, ← loopBody b])
  | .forIn p s b => do pure (app ".forIn" [fpat p, ← fexpr s, ← loopBody b])
  | .forMut x y b => do pure (app ".forMut" [fstr x, fstr y, ← loopBody b])
  | .break => pure ".break"
  | .continue => pure ".continue"
  | .return e => do pure (app ".return" [← fexpr e])
  | .closure x e => do pure (app ".closure" [fstr x, ← fexpr e])
  | .letIn p e r => do
    let e ← fexpr e
    let r ← fexpr r
    pure (.text "(.letIn " ++ fpat p ++ .nest 2 (.group (Format.line ++ e)) ++ Format.line ++ r ++ ")")
  | .seq e r => do
    let e ← fexpr e
    let r ← fexpr r
    pure (.text "(.seq" ++ .nest 2 (.group (Format.line ++ e)) ++ Format.line ++ r ++ ")")
where
  /-- The body of a loop becomes a definition of its own. -/
  loopBody (b : Expr) : M Format := do
    let f ← fexpr b
    let st ← get
    let n := s!"{st.name}.loop{st.loops.length + 1}"
    set { st with loops := st.loops ++ [(n, f)] }
    pure (.text n)

partial def fitems (file : String) (pre : String) (is : List Item) : IO Format := do
  let mut l : Array Format := #[]
  for i in is do
    match i with
    | .fn x ps b =>
      let n := s!"{pre}.{x}"
      let (f, st) := (fexpr b).run { name := n, short := pre.startsWith "unit_" }
      for (m, g) in st.loops do
        IO.println s!"\n/-- A loop body in `{x}`.  {file} -/\ndef {m} : Expr :=\n  {(Format.nest 2 g).pretty 100}"
      IO.println s!"\n/-- The body of `{x}`.  {file} -/\ndef {n} : Expr :=\n  {(Format.nest 2 f).pretty 100}"
      let fps := flist (ps.map fun p => .text s!"({repr p.1}, {p.2})")
      l := l.push (.group (.nest 2 (.text ".fn " ++ fstr x ++ Format.line ++ fps ++ Format.line ++ .text n)))
    | .const x e =>
      let (f, _) := (fexpr e).run { name := x }
      l := l.push (app ".const" [fstr x, f])
    | .useNames c x ns => l := l.push (app ".useNames" [fstr c, fstr x, flist (ns.map fstr)])
    | .test => l := l.push ".test"
    | .proptest x y s b =>
      let n := s!"{pre}.{x}"
      let (f, st) := (fexpr b).run { name := n, short := pre.startsWith "unit_" }
      for (m, g) in st.loops do
        IO.println s!"\n/-- A loop body in `{x}`.  {file} -/\ndef {m} : Expr :=\n  {(Format.nest 2 g).pretty 100}"
      IO.println s!"\n/-- The body of `{x}`.  {file} -/\ndef {n} : Expr :=\n  {(Format.nest 2 f).pretty 100}"
      let fs := match s with
        | .regex t => app ".regex" [flist (t.map fchar)]
        | .bytes a b c d => app ".bytes" ([a, b, c, d].map fun (k : Nat) => Format.text (toString k))
      l := l.push (app ".proptest" [fstr x, fstr y, fs, .text n])
    | .include p => l := l.push (.text s!".include {repr p}")
    | .useSuper => l := l.push ".useSuper"
    | .useGlobs c ps =>
      l := l.push (app ".useGlobs" [fstr c, flist (ps.map fun p => flist (p.map fstr))])
    | .file x => l := l.push (.text s!".file {repr x}")
    | .mod x sub =>
      let f ← fitems file s!"{pre}.{x}" sub
      l := l.push (.group (.nest 2 (.text s!".mod {repr x}" ++ Format.line ++ f)))
  pure (flist l.toList)

def emit (name : String) (t : List Text) (dir : String := "src") : IO Unit := do
  match parse t.flatten with
  | none => throw (IO.userError name)
  | some is =>
    let f ← fitems s!"{dir}/{name}.rs" name is
    IO.println s!"\n/-- {dir}/{name}.rs -/\ndef {name} : List Item :=\n  {(Format.nest 2 f).pretty 100}"

def emitUnit (name : String) (t : List Text) : IO Unit := do
  match parseUnit t.flatten with
  | none => throw (IO.userError name)
  | some is =>
    let f ← fitems s!"src/{name}.rs" s!"unit_{name}" is
    IO.println s!"\n/-- the unit tests of src/{name}.rs -/\ndef unit_{name} : List Item :=\n  {(Format.nest 2 f).pretty 100}"

def unitHeader : String := "
/-- An array of integers without a suffix. -/
def ints (ns : List Nat) : Expr := .array (ns.map (.int .usize))

/-- An array of bytes. -/
def u8s (ns : List Nat) : Expr := .array (ns.map (.int .u8))"

def header : String := "import Verif.Lang.Syntax

/-! Generated by tools/ast.lean.txt: the syntax trees of the sources. -/

namespace Verif.Lang.Ast"

def main (args : List String) : IO Unit := do
  IO.println header
  if args == ["unit"] then
    IO.println unitHeader
    emitUnit "utf8" Files.Src.utf8
    emitUnit "utf16_be" Files.Src.utf16_be
    emitUnit "utf16_le" Files.Src.utf16_le
    emitUnit "utf32_be" Files.Src.utf32_be
    emitUnit "utf32_le" Files.Src.utf32_le
    emitUnit "shiftjis_whatwg" Files.Src.shiftjis_whatwg
    emitUnit "big5_whatwg" Files.Src.big5_whatwg
    emitUnit "single_byte" Files.Src.single_byte
    IO.println "\nend Verif.Lang.Ast"
    return
  if args == ["tests"] then
    emit "property_tests" Files.TestSrc.property_tests "tests"
    emit "shiftjis" Files.TestSrc.shiftjis "tests"
    emit "big5" Files.TestSrc.big5 "tests"
    IO.println "\nend Verif.Lang.Ast"
    return
  emit "lib" Files.Src.lib
  emit "utf8" Files.Src.utf8
  emit "utf16_be" Files.Src.utf16_be
  emit "utf16_le" Files.Src.utf16_le
  emit "utf32_be" Files.Src.utf32_be
  emit "utf32_le" Files.Src.utf32_le
  emit "shiftjis_whatwg" Files.Src.shiftjis_whatwg
  emit "big5_whatwg" Files.Src.big5_whatwg
  emit "single_byte" Files.Src.single_byte
  emit "wrapper" Files.Src.wrapper "examples"
  IO.println "\nend Verif.Lang.Ast"
