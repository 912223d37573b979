import Verif.Py.Lexer

/-!
# Parser for Python

Recursive descent. The first argument of the recursive functions bounds the depth of the recursion.
-/

namespace Verif.Py

abbrev Toks := List Tok

/-- Drop this mark. -/
def eat (c : Char) : Toks → Option Toks
  | .p d :: t => if d = c then some t else none
  | _ => none

/-- Drop this token. -/
def eatTok (k : Tok) : Toks → Option Toks
  | l :: t => if l = k then some t else none
  | [] => none

/-- A comparison operator. -/
def cmpOp : Toks → Option (CmpOp × Toks)
  | .p '<' :: .p '=' :: t => some (.le, t)
  | .p '<' :: t => some (.lt, t)
  | .p '>' :: .p '=' :: t => some (.ge, t)
  | .p '>' :: t => some (.gt, t)
  | .p '=' :: .p '=' :: t => some (.eq, t)
  | .p '!' :: .p '=' :: t => some (.ne, t)
  | .kw .in_ :: t => some (.in_, t)
  | .kw .not_ :: .kw .in_ :: t => some (.notIn, t)
  | .kw .is_ :: t => some (.is_, t)
  | _ => none

/-- `+` or `-`, if it is not the start of `+=` or `-=`. -/
def addOp : Toks → Option (BinOp × Toks)
  | .p '+' :: .p '=' :: _ => none
  | .p '-' :: .p '=' :: _ => none
  | .p '+' :: t => some (.add, t)
  | .p '-' :: t => some (.sub, t)
  | _ => none

/-- `*`, `//` or `%`. -/
def mulOp : Toks → Option (BinOp × Toks)
  | .p '*' :: t => some (.mul, t)
  | .p '/' :: .p '/' :: t => some (.floordiv, t)
  | .p '%' :: t => some (.mod, t)
  | _ => none

/-- Names separated by commas, up to the closing parenthesis. -/
def names : Toks → Option (List String × Toks)
  | .p ')' :: t => some ([], t)
  | .id x :: .p ',' :: t => (names t).map fun r => (x :: r.1, r.2)
  | .id x :: .p ')' :: t => some ([x], t)
  | _ => none

/-- The target of a `for`. -/
def target : Toks → Option (Target × Toks)
  | .id x :: t => some (.name x, t)
  | .p '(' :: t => (names t).map fun r => (.names r.1, r.2)
  | _ => none

mutual
/-- An expression: `a if c else b` binds least. -/
def expr : Nat → Toks → Option (Expr × Toks)
  | 0, _ => none
  | n + 1, t => do
    let (a, t) ← orExpr n t
    match t with
    | .kw .if_ :: t => do
      let (c, t) ← orExpr n t
      let t ← eatTok (.kw .else_) t
      let (b, t) ← expr n t
      some (.ite c a b, t)
    | t => some (a, t)
/-- `a or b` -/
def orExpr : Nat → Toks → Option (Expr × Toks)
  | 0, _ => none
  | n + 1, t => do
    let (a, t) ← andExpr n t
    match t with
    | .kw .or_ :: t => (orExpr n t).map fun r => (.or a r.1, r.2)
    | t => some (a, t)
/-- `a and b` -/
def andExpr : Nat → Toks → Option (Expr × Toks)
  | 0, _ => none
  | n + 1, t => do
    let (a, t) ← notExpr n t
    match t with
    | .kw .and_ :: t => (andExpr n t).map fun r => (.and a r.1, r.2)
    | t => some (a, t)
/-- `not a` -/
def notExpr : Nat → Toks → Option (Expr × Toks)
  | 0, _ => none
  | n + 1, .kw .not_ :: t => (notExpr n t).map fun r => (.not r.1, r.2)
  | n + 1, t => do
    let (a, t) ← sum n t
    match cmpOp t with
    | some (op, t) => do
      let (b, t) ← sum n t
      -- `a < b < c` is not in use
      match cmpOp t with
      | some _ => none
      | none => some (.cmp op a b, t)
    | none => some (a, t)
/-- `a + b`, `a - b` -/
def sum : Nat → Toks → Option (Expr × Toks)
  | 0, _ => none
  | n + 1, t => do
    let (a, t) ← product n t
    sumRest n a t
/-- The further terms of a sum. -/
def sumRest : Nat → Expr → Toks → Option (Expr × Toks)
  | 0, _, _ => none
  | n + 1, a, t =>
    match addOp t with
    | some (op, t) => do
      let (b, t) ← product n t
      sumRest n (.bin op a b) t
    | none => some (a, t)
/-- `a * b`, `a // b`, `a % b` -/
def product : Nat → Toks → Option (Expr × Toks)
  | 0, _ => none
  | n + 1, t => do
    let (a, t) ← atom n t
    let (a, t) ← postfixes n a t
    productRest n a t
/-- The further factors of a product. -/
def productRest : Nat → Expr → Toks → Option (Expr × Toks)
  | 0, _, _ => none
  | n + 1, a, t =>
    match mulOp t with
    | some (op, t) => do
      let (b, t) ← atom n t
      let (b, t) ← postfixes n b t
      productRest n (.bin op a b) t
    | none => some (a, t)
/-- Method calls, indices and slices. -/
def postfixes : Nat → Expr → Toks → Option (Expr × Toks)
  | 0, _, _ => none
  | n + 1, e, .p '.' :: .id m :: .p '(' :: t => do
    let (args, t) ← exprs n ')' t
    postfixes n (.method e m args) t
  | n + 1, e, .p '[' :: t => do
    let (i, t) ← expr n t
    match t with
    | .p ']' :: t => postfixes n (.index e i) t
    | .p ':' :: .p ']' :: t => postfixes n (.sliceFrom e i) t
    | _ => none
  | _ + 1, e, t => some (e, t)
/-- An operand. -/
def atom : Nat → Toks → Option (Expr × Toks)
  | 0, _ => none
  | _ + 1, .kw .none_ :: t => some (.none, t)
  | _ + 1, .int k :: t => some (.int k, t)
  | _ + 1, .str s :: t => some (.str s, t)
  | n + 1, .id f :: .p '(' :: t => (exprs n ')' t).map fun r => (.call f r.1, r.2)
  | _ + 1, .id x :: t => some (.name x, t)
  | n + 1, .p '(' :: t => do
    let (a, t) ← expr n t
    match t with
    | .p ')' :: t => some (a, t)
    | .p ',' :: t => (exprs n ')' t).map fun r => (.tuple (a :: r.1), r.2)
    | _ => none
  | _ + 1, .p '[' :: .p ']' :: t => some (.list [], t)
  | n + 1, .p '[' :: t => do
    let (a, t) ← expr n t
    match t with
    | .kw .for_ :: t => do
      let (x, t) ← target t
      let t ← eatTok (.kw .in_) t
      let (it, t) ← orExpr n t
      match t with
      | .kw .if_ :: t => do
        let (c, t) ← orExpr n t
        let t ← eat ']' t
        some (.comp a x it (some c), t)
      | t => do
        let t ← eat ']' t
        some (.comp a x it none, t)
    | .p ',' :: t => (exprs n ']' t).map fun r => (.list (a :: r.1), r.2)
    | .p ']' :: t => some (.list [a], t)
    | _ => none
  | n + 1, .p '{' :: t => (exprs n '}' t).bind fun r =>
    -- `{}` is not a set
    if r.1.isEmpty then none else some (.set r.1, r.2)
  | _ + 1, _ => none
/-- Expressions and keyword arguments separated by commas, up to a closing mark. -/
def exprs : Nat → Char → Toks → Option (List Expr × Toks)
  | 0, _, _ => none
  | n + 1, close, t =>
    match eat close t with
    | some t => some ([], t)
    | none =>
      match arg n t with
      | some (e, .p ',' :: t) => (exprs n close t).map fun r => (e :: r.1, r.2)
      | some (e, t) => (eat close t).map fun t => ([e], t)
      | none => none
/-- An expression or a keyword argument. -/
def arg : Nat → Toks → Option (Expr × Toks)
  | 0, _ => none
  | n + 1, .id x :: .p '=' :: .p '=' :: t => expr n (.id x :: .p '=' :: .p '=' :: t)
  | n + 1, .id x :: .p '=' :: t => (expr n t).map fun r => (.keyword x r.1, r.2)
  | n + 1, t => expr n t
end

/-- The end of a statement: a new line, before which a semicolon can stand. -/
def endStmt : Toks → Option Toks
  | .p ';' :: .newline :: t => some t
  | .newline :: t => some t
  | _ => none

/-- A statement without statements in it. -/
def simpleStmt (n : Nat) : Toks → Option (Stmt × Toks)
  | .kw .continue_ :: t => some (.continue, t)
  | .kw .return_ :: t => (expr n t).map fun r => (.return r.1, r.2)
  | .kw .raise_ :: t => (expr n t).map fun r => (.raise r.1, r.2)
  | .id x :: .p '+' :: .p '=' :: t => (expr n t).map fun r => (.augAdd x r.1, r.2)
  | .id x :: .p '&' :: .p '=' :: t => (expr n t).map fun r => (.augAnd x r.1, r.2)
  | .id x :: .p '=' :: .p '=' :: t =>
    (expr n (.id x :: .p '=' :: .p '=' :: t)).map fun r => (.expr r.1, r.2)
  | .id x :: .p '=' :: t => (expr n t).map fun r => (.assign x r.1, r.2)
  | t => (expr n t).map fun r => (.expr r.1, r.2)

mutual
/-- The statements of a block, up to where it ends. -/
def block : Nat → Toks → Option (Stmt × Toks)
  | 0, _ => none
  | n + 1, t => do
    let t ← eat ':' t
    let t ← eatTok .newline t
    let t ← eatTok .indent t
    stmts n t
/-- Statements up to the end of their block. -/
def stmts : Nat → Toks → Option (Stmt × Toks)
  | 0, _ => none
  | _ + 1, [] => some (.skip, [])
  | _ + 1, .dedent :: t => some (.skip, t)
  | n + 1, t => do
    let (a, t) ← stmt n t
    let (b, t) ← stmts n t
    some (.seq a b, t)
/-- A statement. -/
def stmt : Nat → Toks → Option (Stmt × Toks)
  | 0, _ => none
  | n + 1, .kw .if_ :: t => do
    let (c, t) ← expr (16 * t.length) t
    let (a, t) ← block n t
    match t with
    | .kw .else_ :: t => do
      let (b, t) ← block n t
      some (.ite c a b, t)
    | t => some (.ite c a .skip, t)
  | n + 1, .kw .while_ :: t => do
    let (c, t) ← expr (16 * t.length) t
    let (b, t) ← block n t
    some (.whileDo c b, t)
  | n + 1, .kw .for_ :: t => do
    let (x, t) ← target t
    let t ← eatTok (.kw .in_) t
    let (e, t) ← expr (16 * t.length) t
    let (b, t) ← block n t
    some (.forIn x e b, t)
  | _ + 1, t => do
    let (s, t) ← simpleStmt (16 * t.length) t
    let t ← endStmt t
    some (s, t)
end

/-- The functions of a source file and the statements after them. -/
def items : Nat → Toks → Option Module
  | 0, _ => none
  | n + 1, .kw .def_ :: .id f :: .p '(' :: t => do
    let (ps, t) ← names t
    let (b, t) ← block (t.length + 1) t
    let m ← items n t
    some { m with fns := ⟨f, ps, b⟩ :: m.fns }
  | _ + 1, t => do
    let (s, t) ← stmts (t.length + 1) t
    if t.isEmpty then some ⟨[], s⟩ else none

/-- The module in a source text. -/
def parse (t : Text) : Option Module := do
  let toks ← lex t
  items (toks.length + 1) toks

end Verif.Py
