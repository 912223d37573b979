import Verif.Text

/-!
# Syntax of the generators

The part of Python that the table generators are written in
(`encoding_tables/single_byte/generate_ascii_ext_tables.py`,
`encoding_tables/whatwg/generate_shiftjis.py` and `encoding_tables/whatwg/generate_big5.py`).
-/

namespace Verif.Py

/-- Operators from numbers to a number; `+` also joins strings. -/
inductive BinOp where
  | add | sub | mul | floordiv | mod
  deriving DecidableEq, Repr

/-- Comparisons. -/
inductive CmpOp where
  | lt | le | gt | ge | eq | ne | in_ | notIn | is_
  deriving DecidableEq, Repr

/-- The target of a `for`: a name, or names in parentheses. -/
inductive Target where
  | name (x : String)
  | names (xs : List String)
  deriving DecidableEq, Repr

/-- Expressions. -/
inductive Expr where
  | none
  | int (n : Nat)
  | str (s : Text)
  | name (x : String)
  | tuple (es : List Expr)
  | list (es : List Expr)
  | set (es : List Expr)
  | bin (op : BinOp) (a b : Expr)
  | cmp (op : CmpOp) (a b : Expr)
  | and (a b : Expr)
  | or (a b : Expr)
  | not (a : Expr)
  /-- `a if c else b` -/
  | ite (c a b : Expr)
  /-- `f(args)` -/
  | call (f : String) (args : List Expr)
  /-- `x=e`, in the arguments of a call -/
  | keyword (x : String) (e : Expr)
  /-- `e.m(args)` -/
  | method (e : Expr) (m : String) (args : List Expr)
  | index (e i : Expr)
  /-- `e[lo:]` -/
  | sliceFrom (e lo : Expr)
  /-- `[e for t in it]`, `[e for t in it if c]` -/
  | comp (e : Expr) (t : Target) (it : Expr) (c : Option Expr)

/-- Statements; `seq` puts two of them one after the other. -/
inductive Stmt where
  | skip
  | seq (a b : Stmt)
  | expr (e : Expr)
  | assign (x : String) (e : Expr)
  /-- `x += e` -/
  | augAdd (x : String) (e : Expr)
  /-- `x &= e` -/
  | augAnd (x : String) (e : Expr)
  | ite (c : Expr) (a b : Stmt)
  | whileDo (c : Expr) (b : Stmt)
  | forIn (t : Target) (e : Expr) (b : Stmt)
  | continue
  | return (e : Expr)
  | raise (e : Expr)

/-- A function. -/
structure Fn where
  name : String
  params : List String
  body : Stmt

/-- A source file: functions, then statements. -/
structure Module where
  fns : List Fn
  main : Stmt

end Verif.Py
