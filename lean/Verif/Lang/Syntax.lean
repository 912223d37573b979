/-!
# Syntax of the part of Rust that the crate is written in

References (`&`, `&mut`) and `unsafe` are kept only where they matter to the meaning of a program
that the Rust compiler accepts: see `Semantics.lean`.
-/

namespace Verif.Lang

/-- The integer types in use. -/
inductive IntTy where
  | u8 | u16 | u32 | usize
  deriving DecidableEq, Repr

/-- The binary operators in use. -/
inductive BinOp where
  | add | sub | mul | div | rem | and | or | shl | shr
  | eq | ne | lt | le | gt | ge | land | lor
  deriving DecidableEq, Repr

/-- The methods of the standard library in use. -/
inductive Method where
  | len | as_bytes | char_indices | chunks | iter | next | clone | unwrap | is_char_boundary
  | len_utf8 | len_utf16 | to_be_bytes | to_le_bytes | valid_up_to | encode_utf8 | copy_from_slice
  | binary_search_by_key | is_empty | chars | extend | extend_from_slice | iter_mut
  deriving DecidableEq, Repr

/-- The functions of the standard library in use. -/
inductive StdFn where
  | from_utf8 | from_utf8_unchecked | from_u32 | from_u32_unchecked
  | from_be_bytes (ty : IntTy) | from_le_bytes (ty : IntTy)
  deriving DecidableEq, Repr

/-- Patterns. A `&` in a pattern is dropped. -/
inductive Pat where
  | wild
  | bind (name : String)
  | int (n : Nat)
  | ctor (name : String) (args : List Pat)
  | tuple (args : List Pat)
  deriving Repr

/-- Expressions and statements. The statements of a block are a chain of `letIn` and `seq`. -/
inductive Expr where
  /-- `()`, also the value of a block that ends with `;` -/
  | unit
  | int (ty : IntTy) (n : Nat)
  | bool (b : Bool)
  | char (c : Char)
  | str (s : List Char)
  /-- a variable or constant -/
  | var (name : String)
  /-- an enum variant without data, with the name of the enum dropped: `None`,
  `DecodeErrorCause::InvalidData` -/
  | variant (name : String)
  | not (e : Expr)
  /-- `&e` -/
  | ref (e : Expr)
  /-- `&mut e` -/
  | refMut (e : Expr)
  | bin (op : BinOp) (a b : Expr)
  /-- `lhs = rhs` -/
  | assign (lhs rhs : Expr)
  /-- `lhs += rhs` and the like -/
  | opAssign (op : BinOp) (lhs rhs : Expr)
  /-- `Some(e)`, `Ok(e)`, `Err(e)` -/
  | ctor (name : String) (e : Expr)
  /-- a call of a function of the crate; `up` says that the path starts with `super::` -/
  | call (up : Bool) (f : String) (args : List Expr)
  /-- `m::f(…)`, a call of a function of a module -/
  | callIn (m f : String) (args : List Expr)
  /-- `assert_eq!(a, b)` -/
  | assertEq (a b : Expr)
  /-- `panic!(…)` -/
  | panic
  /-- `include_bytes!("path")` -/
  | includeBytes (path : String)
  | std (f : StdFn) (arg : Expr)
  | method (recv : Expr) (f : Method) (args : List Expr)
  /-- `e.0` -/
  | proj (e : Expr) (n : Nat)
  /-- `e[i]` -/
  | index (e i : Expr)
  /-- `e[lo..hi]` -/
  | slice (e lo hi : Expr)
  /-- `e[..hi]` -/
  | sliceTo (e hi : Expr)
  /-- `e[lo..]` -/
  | sliceFrom (e lo : Expr)
  /-- `e[..]` -/
  | sliceAll (e : Expr)
  | cast (e : Expr) (ty : IntTy)
  /-- `e as char` -/
  | asChar (e : Expr)
  | tuple (es : List Expr)
  | array (es : List Expr)
  /-- `[e; n]` -/
  | rep (e : Expr) (n : Nat)
  /-- `vec![e; n]` -/
  | vec (e n : Expr)
  | struct (name : String) (fields : List String) (es : List Expr)
  /-- a block in braces; the variables declared in it end with it -/
  | block (e : Expr)
  | ite (c t e : Expr)
  /-- `if let p = s { t } else { e }` -/
  | iteLet (p : Pat) (s t e : Expr)
  | matchOn (s : Expr) (pats : List Pat) (arms : List Expr)
  | whileDo (c b : Expr)
  /-- `while let p = s { b }` -/
  | whileLet (p : Pat) (s b : Expr)
  /-- `for p in s { b }` -/
  | forIn (p : Pat) (s b : Expr)
  /-- `lo..=hi` -/
  | rangeIncl (lo hi : Expr)
  /-- `for x in y.iter_mut() { b }` -/
  | forMut (x y : String) (b : Expr)
  | break
  | continue
  | return (e : Expr)
  /-- `|x| e` -/
  | closure (x : String) (e : Expr)
  /-- `let p = e; rest` -/
  | letIn (p : Pat) (e rest : Expr)
  /-- `e; rest` -/
  | seq (e rest : Expr)
  deriving Repr

/-- Where a property test takes its input from. -/
inductive Strategy where
  /-- a regular expression that the text matches -/
  | regex (s : List Char)
  /-- `vec(lo..=hi, min..max)`, for bytes -/
  | bytes (lo hi min max : Nat)
  deriving DecidableEq, Repr

/-- Items. Types, attributes, the module of unit tests, and other `use` declarations are skipped. -/
inductive Item where
  /-- The parameters are given with whether they are of a type `&mut T`. -/
  | fn (name : String) (params : List (String × Bool)) (body : Expr)
  | const (name : String) (e : Expr)
  /-- `include!("path");` -/
  | include (path : String)
  /-- `use super::*;` -/
  | useSuper
  /-- `use c::{a::b::*, …};` with the paths before the `*` -/
  | useGlobs (c : String) (paths : List (List String))
  /-- `use c::m::{f, …};` -/
  | useNames (c m : String) (names : List String)
  /-- `#[test]` before the next item -/
  | test
  /-- `#[test] fn name(x in s) { … }` in `proptest! { … }` -/
  | proptest (name x : String) (s : Strategy) (body : Expr)
  /-- `mod name;`, a module in a file of its own -/
  | file (name : String)
  | mod (name : String) (items : List Item)
  deriving Repr

end Verif.Lang
