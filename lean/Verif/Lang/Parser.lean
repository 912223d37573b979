import Verif.Lang.Lexer

/-!
# Parser

Recursive descent, with precedence climbing for binary operators. The first argument of the
recursive functions bounds the depth of the recursion.
-/

namespace Verif.Lang

abbrev Toks := List Tok

/-- Drop this mark. -/
def eat (c : Char) : Toks → Option Toks
  | .p d :: t => if d = c then some t else none
  | _ => none

/-- Types, of which only this much is kept. -/
inductive Ty where
  | refMut | other

/-- What follows `&` in a type: a lifetime and `mut` are optional. -/
def refTy : Toks → Ty × Toks
  | .lifetime :: .kw .mut_ :: t => (.refMut, t)
  | .lifetime :: t => (.other, t)
  | .kw .mut_ :: t => (.refMut, t)
  | t => (.other, t)

mutual
/-- A type: `&T`, `[T]`, `[T; n]`, `(T, …)`, `Name`, `Name<…>`, or a lifetime. -/
def ty : Nat → Toks → Option (Ty × Toks)
  | 0, _ => none
  | n + 1, .p '&' :: t => (ty n (refTy t).2).map fun r => ((refTy t).1, r.2)
  | n + 1, .p '[' :: t =>
    match ty n t with
    | some (_, .p ']' :: t) => some (.other, t)
    | some (_, .p ';' :: .int _ _ :: .p ']' :: t) => some (.other, t)
    | _ => none
  | n + 1, .p '(' :: t => (tys n ')' t).map fun t => (.other, t)
  | n + 1, .id _ :: .p '<' :: t => (tys n '>' t).map fun t => (.other, t)
  | _ + 1, .id _ :: t => some (.other, t)
  | _ + 1, .lifetime :: t => some (.other, t)
  | _ + 1, _ => none
/-- Types separated by commas, up to a closing mark. -/
def tys : Nat → Char → Toks → Option Toks
  | 0, _, _ => none
  | n + 1, close, t =>
    match eat close t with
    | some t => some t
    | none =>
      match ty n t with
      | some (_, .p ',' :: t) => tys n close t
      | some (_, t) => eat close t
      | none => none
end

/-- The integer type with this name. -/
def intTy : String → Option IntTy
  | "u8" => some .u8
  | "u16" => some .u16
  | "u32" => some .u32
  | "usize" => some .usize
  | _ => none

/-- The method with this name. -/
def methodNamed : String → Option Method
  | "len" => some .len
  | "as_bytes" => some .as_bytes
  | "char_indices" => some .char_indices
  | "chunks" => some .chunks
  | "iter" => some .iter
  | "next" => some .next
  | "clone" => some .clone
  | "unwrap" => some .unwrap
  | "is_char_boundary" => some .is_char_boundary
  | "len_utf8" => some .len_utf8
  | "len_utf16" => some .len_utf16
  | "to_be_bytes" => some .to_be_bytes
  | "to_le_bytes" => some .to_le_bytes
  | "valid_up_to" => some .valid_up_to
  | "encode_utf8" => some .encode_utf8
  | "copy_from_slice" => some .copy_from_slice
  | "binary_search_by_key" => some .binary_search_by_key
  | "is_empty" => some .is_empty
  | "chars" => some .chars
  | "extend" => some .extend
  | "extend_from_slice" => some .extend_from_slice
  | "iter_mut" => some .iter_mut
  | _ => none

/-- The function of the standard library with this path. -/
def stdNamed : List String → Option StdFn
  | ["core", "str", "from_utf8"] => some .from_utf8
  | ["std", "str", "from_utf8"] => some .from_utf8
  | ["core", "str", "from_utf8_unchecked"] => some .from_utf8_unchecked
  | ["core", "char", "from_u32"] => some .from_u32
  | ["core", "char", "from_u32_unchecked"] => some .from_u32_unchecked
  | [ty, "from_be_bytes"] => (intTy ty).map .from_be_bytes
  | [ty, "from_le_bytes"] => (intTy ty).map .from_le_bytes
  | _ => none

/-- The name of an enum variant with one field. -/
def isCtor (x : String) : Bool := x == "Some" || x == "Ok" || x == "Err"

/-- The rest of a path: the names after `::`. -/
def pathRest : Nat → Toks → List String × Toks
  | n + 1, .p ':' :: .p ':' :: .id x :: t => (x :: (pathRest n t).1, (pathRest n t).2)
  | _, t => ([], t)

/-- A path as an expression: a variable or constant, or an enum variant. -/
def pathExpr (x : String) : List String → Expr
  | [] => if x == "None" then .variant x else .var x
  | y :: _ => .variant y

/-- A binary operator and its precedence. -/
def binop : Toks → Option (BinOp × Nat × Toks)
  | .p '*' :: .p '=' :: _ => none
  | .p '*' :: t => some (.mul, 10, t)
  | .p '/' :: t => some (.div, 10, t)
  | .p '%' :: t => some (.rem, 10, t)
  | .p '+' :: .p '=' :: _ => none
  | .p '+' :: t => some (.add, 9, t)
  | .p '-' :: .p '=' :: _ => none
  | .p '-' :: t => some (.sub, 9, t)
  | .p '<' :: .p '<' :: t => some (.shl, 8, t)
  | .p '>' :: .p '>' :: t => some (.shr, 8, t)
  | .p '&' :: .p '&' :: t => some (.land, 3, t)
  | .p '&' :: t => some (.and, 7, t)
  | .p '|' :: .p '|' :: t => some (.lor, 2, t)
  | .p '|' :: t => some (.or, 5, t)
  | .p '=' :: .p '=' :: t => some (.eq, 4, t)
  | .p '!' :: .p '=' :: t => some (.ne, 4, t)
  | .p '<' :: .p '=' :: t => some (.le, 4, t)
  | .p '<' :: t => some (.lt, 4, t)
  | .p '>' :: .p '=' :: t => some (.ge, 4, t)
  | .p '>' :: t => some (.gt, 4, t)
  | _ => none

mutual
/-- A pattern. A name that starts with a capital letter is that of an enum variant. -/
def pat : Nat → Toks → Option (Pat × Toks)
  | 0, _ => none
  | n + 1, .p '&' :: t => pat n t
  | n + 1, .kw .mut_ :: t => pat n t
  | _ + 1, .int k _ :: t => some (.int k, t)
  | n + 1, .p '(' :: t => (pats n t).map fun r => (.tuple r.1, r.2)
  | _ + 1, .id _ :: .p ':' :: .p ':' :: .id y :: t => some (.ctor y [], t)
  | n + 1, .id x :: .p '(' :: t => (pats n t).map fun r => (.ctor x r.1, r.2)
  | _ + 1, .id x :: t =>
    some (if x == "_" then .wild else if x == "None" then .ctor x [] else .bind x, t)
  | _ + 1, _ => none
/-- Patterns separated by commas, up to a closing parenthesis. -/
def pats : Nat → Toks → Option (List Pat × Toks)
  | 0, _ => none
  | _ + 1, .p ')' :: t => some ([], t)
  | n + 1, t =>
    match pat n t with
    | some (p, .p ',' :: t) => (pats n t).map fun r => (p :: r.1, r.2)
    | some (p, .p ')' :: t) => some ([p], t)
    | _ => none
end

/-- The statement starts with an expression that ends with a block and needs no `;`. -/
def blockLike : Toks → Bool
  | .kw .if_ :: _ | .kw .match_ :: _ | .kw .while_ :: _ | .kw .for_ :: _ | .kw .unsafe_ :: _ => true
  | .p '{' :: _ => true
  | _ => false

/-- A type annotation, if there is one. -/
def optTy : Toks → Option Toks
  | .p ':' :: t => (ty t.length t).map (·.2)
  | t => some t

mutual
/-- An expression with operators that bind more tightly than `min`. Where `ns` is set, a brace after
a name does not start a struct. -/
def expr : Nat → Bool → Nat → Toks → Option (Expr × Toks)
  | 0, _, _, _ => none
  | n + 1, ns, min, t => do
    let (e, t) ← unary n ns t
    operators n ns min e t
/-- The operators that follow an operand. -/
def operators : Nat → Bool → Nat → Expr → Toks → Option (Expr × Toks)
  | 0, _, _, _, _ => none
  | n + 1, ns, min, a, t =>
    match binop t with
    | none => some (a, t)
    | some (op, prec, t') =>
      if min < prec then do
        let (b, t) ← expr n ns prec t'
        operators n ns min (.bin op a b) t
      else some (a, t)
/-- An operand with its prefixes and casts. -/
def unary : Nat → Bool → Toks → Option (Expr × Toks)
  | 0, _, _ => none
  | n + 1, ns, .p '!' :: t => (unary n ns t).map fun r => (.not r.1, r.2)
  | n + 1, ns, .p '&' :: .kw .mut_ :: t => (unary n ns t).map fun r => (.refMut r.1, r.2)
  | n + 1, ns, .p '&' :: t => (unary n ns t).map fun r => (.ref r.1, r.2)
  -- a reference is the value it refers to
  | n + 1, ns, .p '*' :: t => unary n ns t
  | _ + 1, _, .kw .break_ :: t => some (.break, t)
  | _ + 1, _, .kw .continue_ :: t => some (.continue, t)
  | n + 1, ns, .kw .return_ :: t => (expr n ns 0 t).map fun r => (.return r.1, r.2)
  | n + 1, ns, .p '|' :: .id x :: .p '|' :: t =>
    (expr n ns 0 t).map fun r => (.closure x r.1, r.2)
  | n + 1, ns, t => do
    let (e, t) ← primary n ns t
    let (e, t) ← postfixes n e t
    casts n e t
/-- `as T`, any number of times. -/
def casts : Nat → Expr → Toks → Option (Expr × Toks)
  | 0, _, _ => none
  | n + 1, e, .kw .as_ :: .id "char" :: t => casts n (.asChar e) t
  | n + 1, e, .kw .as_ :: .id x :: t =>
    match intTy x with
    | some ty => casts n (.cast e ty) t
    | none => none
  | _ + 1, e, t => some (e, t)
/-- Method calls, fields and indices. -/
def postfixes : Nat → Expr → Toks → Option (Expr × Toks)
  | 0, _, _ => none
  | n + 1, e, .p '.' :: .id x :: .p '(' :: t =>
    match methodNamed x with
    | some f => do
      let (args, t) ← exprs n ')' t
      postfixes n (.method e f args) t
    | none => none
  | n + 1, e, .p '.' :: .int k none :: t => postfixes n (.proj e k) t
  | n + 1, e, .p '[' :: .p '.' :: .p '.' :: .p ']' :: t => postfixes n (.sliceAll e) t
  | n + 1, e, .p '[' :: .p '.' :: .p '.' :: t => do
    let (hi, t) ← expr n false 0 t
    let t ← eat ']' t
    postfixes n (.sliceTo e hi) t
  | n + 1, e, .p '[' :: t => do
    let (i, t) ← expr n false 0 t
    match t with
    | .p ']' :: t => postfixes n (.index e i) t
    | .p '.' :: .p '.' :: .p ']' :: t => postfixes n (.sliceFrom e i) t
    | .p '.' :: .p '.' :: t => do
      let (hi, t) ← expr n false 0 t
      let t ← eat ']' t
      postfixes n (.slice e i hi) t
    | _ => none
  | _ + 1, e, t => some (e, t)
/-- An operand without prefixes and postfixes. -/
def primary : Nat → Bool → Toks → Option (Expr × Toks)
  | 0, _, _ => none
  | _ + 1, _, .int k ty :: t => some (.int (ty.getD .usize) k, t)
  | _ + 1, _, .kw .true_ :: t => some (.bool true, t)
  | _ + 1, _, .kw .false_ :: t => some (.bool false, t)
  | _ + 1, _, .char c :: t => some (.char c, t)
  | _ + 1, _, .str s :: t => some (.str s, t)
  | _ + 1, _, .id "b" :: .str s :: t => some (.array (s.map fun c => .int .u8 c.toNat), t)
  | n + 1, _, .p '(' :: t =>
    match exprs n ')' t with
    | some ([e], t') =>
      -- one expression in parentheses is a tuple only with a comma after it
      match expr n false 0 t with
      | some (_, .p ',' :: _) => some (.tuple [e], t')
      | _ => some (e, t')
    | some (es, t') => some (.tuple es, t')
    | none => none
  | n + 1, _, .p '[' :: t =>
    match expr n false 0 t with
    | some (e, .p ';' :: .int k _ :: .p ']' :: t) => some (.rep e k, t)
    | _ => (exprs n ']' t).map fun r => (.array r.1, r.2)
  | n + 1, _, .p '{' :: t => (stmts n t).map fun r => (.block r.1, r.2)
  | n + 1, _, .kw .unsafe_ :: .p '{' :: t => (stmts n t).map fun r => (.block r.1, r.2)
  | n + 1, _, .kw .if_ :: t => ifExpr n t
  | n + 1, _, .kw .match_ :: t => do
    let (s, t) ← expr n true 0 t
    let t ← eat '{' t
    let (ps, es, t) ← arms n t
    some (.matchOn s ps es, t)
  | n + 1, _, .kw .while_ :: .kw .let_ :: t => do
    let (p, t) ← pat n t
    let t ← eat '=' t
    let (s, t) ← expr n true 0 t
    let (b, t) ← block n t
    some (.whileLet p s b, t)
  | n + 1, _, .kw .while_ :: t => do
    let (c, t) ← expr n true 0 t
    let (b, t) ← block n t
    some (.whileDo c b, t)
  | n + 1, _, .kw .for_ :: t => do
    let (p, t) ← pat n t
    match t with
    | .kw .in_ :: t => do
      let (s, t) ← expr n true 0 t
      match t with
      | .p '.' :: .p '.' :: .p '=' :: t => do
        let (hi, t) ← expr n true 0 t
        let (b, t) ← block n t
        some (.forIn p (.rangeIncl s hi) b, t)
      | t => do
        let (b, t) ← block n t
        match p, s with
        | .bind x, .method (.var y) .iter_mut [] => some (.forMut x y b, t)
        | _, _ => some (.forIn p s b, t)
    | _ => none
  | n + 1, _, .id x :: .p '!' :: .p '(' :: t => do
    let (args, t) ← exprs n ')' t
    match args with
    | [a, b] => if x == "assert_eq" then some (.assertEq a b, t) else none
    | [.str s] =>
      if x == "panic" then some (.panic, t)
      else if x == "include_bytes" then some (.includeBytes (String.ofList s), t)
      else none
    | _ => none
  | n + 1, _, .id "vec" :: .p '!' :: .p '[' :: t => do
    let (e, t) ← expr n false 0 t
    let t ← eat ';' t
    let (k, t) ← expr n false 0 t
    let t ← eat ']' t
    some (.vec e k, t)
  | n + 1, ns, .id x :: t =>
    let (xs, t) := pathRest n t
    match t with
    | .p '(' :: t => do
      let (args, t) ← exprs n ')' t
      match stdNamed (x :: xs), xs, args with
      | some f, _, [a] => some (.std f a, t)
      | some _, _, _ => none
      | none, [], [a] => some (if isCtor x then .ctor x a else .call false x args, t)
      | none, [], _ => some (.call false x args, t)
      | none, ["new"], [] =>
        if x == "Vec" then some (.array [], t) else if x == "String" then some (.str [], t) else none
      | none, [y], _ => some (if x == "super" then .call true y args else .callIn x y args, t)
      | none, _, _ => none
    | .p '{' :: t' =>
      if ns then some (pathExpr x xs, t)
      else do
        let (fs, es, t) ← fields n t'
        some (.struct x fs es, t)
    | _ => some (pathExpr x xs, t)
  | _ + 1, _, _ => none
/-- What follows `if`. -/
def ifExpr : Nat → Toks → Option (Expr × Toks)
  | 0, _ => none
  | n + 1, .kw .let_ :: t => do
    let (p, t) ← pat n t
    let t ← eat '=' t
    let (s, t) ← expr n true 0 t
    let (a, t) ← block n t
    let (b, t) ← elseExpr n t
    some (.iteLet p s a b, t)
  | n + 1, t => do
    let (c, t) ← expr n true 0 t
    let (a, t) ← block n t
    let (b, t) ← elseExpr n t
    some (.ite c a b, t)
/-- The `else` part of an `if`, if there is one. -/
def elseExpr : Nat → Toks → Option (Expr × Toks)
  | 0, _ => none
  | n + 1, .kw .else_ :: .kw .if_ :: t => ifExpr n t
  | n + 1, .kw .else_ :: t => block n t
  | _ + 1, t => some (.unit, t)
/-- A block in braces. -/
def block : Nat → Toks → Option (Expr × Toks)
  | 0, _ => none
  | n + 1, .p '{' :: t => (stmts n t).map fun r => (.block r.1, r.2)
  | _ + 1, _ => none
/-- The arms of a `match`, up to the closing brace. -/
def arms : Nat → Toks → Option (List Pat × List Expr × Toks)
  | 0, _ => none
  | _ + 1, .p '}' :: t => some ([], [], t)
  | n + 1, t => do
    let (p, t) ← pat n t
    let t ← eat '=' t
    let t ← eat '>' t
    let (e, t) ← expr n false 0 t
    let t := match t with | .p ',' :: t => t | t => t
    let (ps, es, t) ← arms n t
    some (p :: ps, e :: es, t)
/-- The fields of a struct, up to the closing brace. -/
def fields : Nat → Toks → Option (List String × List Expr × Toks)
  | 0, _ => none
  | _ + 1, .p '}' :: t => some ([], [], t)
  | n + 1, .id x :: .p ':' :: t => do
    let (e, t) ← expr n false 0 t
    let t := match t with | .p ',' :: t => t | t => t
    let (xs, es, t) ← fields n t
    some (x :: xs, e :: es, t)
  | _ + 1, _ => none
/-- Expressions separated by commas, up to a closing mark. -/
def exprs : Nat → Char → Toks → Option (List Expr × Toks)
  | 0, _, _ => none
  | n + 1, close, t =>
    match eat close t with
    | some t => some ([], t)
    | none =>
      match expr n false 0 t with
      | some (e, .p ',' :: t) => (exprs n close t).map fun r => (e :: r.1, r.2)
      | some (e, t) => (eat close t).map fun t => ([e], t)
      | none => none
/-- An expression used as a statement: also assignments. -/
def exprStmt : Nat → Toks → Option (Expr × Toks)
  | 0, _ => none
  | n + 1, t => do
    let (a, t) ← expr n false 0 t
    match t with
    | .p '=' :: t => (expr n false 0 t).map fun r => (.assign a r.1, r.2)
    | .p '+' :: .p '=' :: t => (expr n false 0 t).map fun r => (.opAssign .add a r.1, r.2)
    | .p '-' :: .p '=' :: t => (expr n false 0 t).map fun r => (.opAssign .sub a r.1, r.2)
    | .p '*' :: .p '=' :: t => (expr n false 0 t).map fun r => (.opAssign .mul a r.1, r.2)
    | t => some (a, t)
/-- The statements of a block, up to the closing brace. -/
def stmts : Nat → Toks → Option (Expr × Toks)
  | 0, _ => none
  | _ + 1, .p '}' :: t => some (.unit, t)
  | n + 1, .kw .let_ :: t => do
    let (p, t) ← pat n t
    let t ← optTy t
    let t ← eat '=' t
    let (e, t) ← expr n false 0 t
    let t ← eat ';' t
    let (r, t) ← stmts n t
    some (.letIn p e r, t)
  | n + 1, t =>
    if blockLike t then do
      let (e, t) ← primary n false t
      match t with
      | .p '}' :: t => some (e, t)
      | .p ';' :: t => do
        let (r, t) ← stmts n t
        some (.seq e r, t)
      | t => do
        let (r, t) ← stmts n t
        some (.seq e r, t)
    else do
      let (e, t) ← exprStmt n t
      match t with
      | .p ';' :: t => do
        let (r, t) ← stmts n t
        some (.seq e r, t)
      | .p '}' :: t => some (e, t)
      | _ => none
end

/-! ## Items -/

/-- The rest after the next `;`. -/
def skipSemi : Toks → Option Toks
  | [] => none
  | .p ';' :: t => some t
  | _ :: t => skipSemi t

/-- The rest after the bracket that closes `depth` open ones. -/
def skipClose (op cl : Char) : Nat → Toks → Option Toks
  | _, [] => none
  | depth, .p c :: t =>
    if c = op then skipClose op cl (depth + 1) t
    else if c = cl then (if depth ≤ 1 then some t else skipClose op cl (depth - 1) t)
    else skipClose op cl depth t
  | depth, _ :: t => skipClose op cl depth t

/-- The parameters of a function, up to the closing parenthesis. -/
def params : Nat → Toks → Option (List (String × Bool) × Toks)
  | 0, _ => none
  | _ + 1, .p ')' :: t => some ([], t)
  | n + 1, .id x :: .p ':' :: t => do
    let (ty, t) ← ty n t
    let isMut := match ty with | .refMut => true | .other => false
    let t := match t with | .p ',' :: t => t | t => t
    let (ps, t) ← params n t
    some ((x, isMut) :: ps, t)
  | _ + 1, _ => none

/-- The generic parameters of a function are skipped: only lifetimes are in use. -/
def skipGenerics : Toks → Toks
  | .p '<' :: .lifetime :: .p '>' :: t => t
  | t => t

/-- A result type, if there is one. -/
def optResult : Toks → Option Toks
  | .p '-' :: .p '>' :: t => (ty t.length t).map (·.2)
  | t => some t

/-- A path that ends with `*`: the names before it. -/
def glob : Nat → Toks → Option (List String × Toks)
  | 0, _ => none
  | _ + 1, .p '*' :: t => some ([], t)
  | n + 1, .id x :: .p ':' :: .p ':' :: t => (glob n t).map fun r => (x :: r.1, r.2)
  | _ + 1, _ => none

/-- Such paths separated by commas, up to the closing brace. -/
def globs : Nat → Toks → Option (List (List String) × Toks)
  | 0, _ => none
  | n + 1, t =>
    match glob n t with
    | some (p, .p ',' :: t) => (globs n t).map fun r => (p :: r.1, r.2)
    | some (p, .p '}' :: t) => some ([p], t)
    | _ => none

/-- Names separated by commas, up to the closing brace. -/
def names : Toks → Option (List String × Toks)
  | .id x :: .p ',' :: t => (names t).map fun r => (x :: r.1, r.2)
  | .id x :: .p '}' :: t => some ([x], t)
  | _ => none

/-- A strategy. -/
def strategy : Toks → Option (Strategy × Toks)
  | .str s :: t => some (.regex s, t)
  | .id "vec" :: .p '(' :: .int lo (some .u8) :: .p '.' :: .p '.' :: .p '=' :: .int hi none :: .p ',' ::
      .int a none :: .p '.' :: .p '.' :: .int b none :: .p ')' :: t => some (.bytes lo hi a b, t)
  | _ => none

/-- The parameter of a property test: `ref x` or `mut x`. -/
def drawn : Toks → Option (String × Toks)
  | .id "ref" :: .id x :: t => some (x, t)
  | .kw .mut_ :: .id x :: t => some (x, t)
  | _ => none

/-- The tests in `proptest! { … }`, up to the closing brace. -/
def proptests : Nat → Toks → Option (List Item × Toks)
  | 0, _ => none
  | _ + 1, .p '}' :: t => some ([], t)
  | n + 1, .p '#' :: .p '!' :: .p '[' :: t => do
    let t ← skipClose '[' ']' 1 t
    proptests n t
  | n + 1, .p '#' :: .p '[' :: .id "test" :: .p ']' :: .kw .fn_ :: .id name :: .p '(' :: t => do
    let (x, t) ← drawn t
    match t with
    | .kw .in_ :: t =>
      let (s, t) ← strategy t
      let t ← eat ')' t
      let (b, t) ← block (16 * t.length) t
      let (is, t) ← proptests n t
      some (.proptest name x s b :: is, t)
    | _ => none
  | _ + 1, _ => none

/-- The items up to the end of the file or, where `inner` is set, up to a closing brace. -/
def items : Nat → Bool → Toks → Option (List Item × Toks)
  | 0, _, _ => none
  | _ + 1, inner, [] => if inner then none else some ([], [])
  | n + 1, inner, tok :: t =>
    match tok, t with
    | .p '}', t => if inner then some ([], t) else none
    | .kw .pub_, t => items n inner t
    | .kw .use_, .id "super" :: .p ':' :: .p ':' :: .p '*' :: .p ';' :: t => do
      let (is, t) ← items n inner t
      some (.useSuper :: is, t)
    | .kw .use_, .id c :: .p ':' :: .p ':' :: .p '{' :: t => do
      let (ps, t) ← globs t.length t
      let t ← eat ';' t
      let (is, t) ← items n inner t
      some (.useGlobs c ps :: is, t)
    | .kw .use_, .id c :: .p ':' :: .p ':' :: .id x :: .p ':' :: .p ':' :: .p '{' :: t => do
      let (ns, t) ← names t
      let t ← eat ';' t
      let (is, t) ← items n inner t
      some (.useNames c x ns :: is, t)
    | .id "proptest", .p '!' :: .p '{' :: t => do
      let (ts, t) ← proptests t.length t
      let (is, t) ← items n inner t
      some (ts ++ is, t)
    | .id "extern", t => do
      let t ← skipSemi t
      items n inner t
    | .kw .use_, t => do
      let t ← skipSemi t
      items n inner t
    | .kw .type_, t => do
      let t ← skipSemi t
      items n inner t
    | .kw .struct_, .id _ :: .p '{' :: t => do
      let t ← skipClose '{' '}' 1 t
      items n inner t
    | .kw .enum_, .id _ :: .p '{' :: t => do
      let t ← skipClose '{' '}' 1 t
      items n inner t
    | .p '#', .p '[' :: .id "cfg" :: .p '(' :: .id "test" :: .p ')' :: .p ']' :: .kw .mod_ :: .id _ ::
        .p '{' :: t => do
      let t ← skipClose '{' '}' 1 t
      items n inner t
    | .p '#', .p '[' :: .id "test" :: .p ']' :: t => do
      let (is, t) ← items n inner t
      some (.test :: is, t)
    | .p '#', .p '[' :: t => do
      let t ← skipClose '[' ']' 1 t
      items n inner t
    | .p '#', .p '!' :: .p '[' :: t => do
      let t ← skipClose '[' ']' 1 t
      items n inner t
    | .id "include", .p '!' :: .p '(' :: .str path :: .p ')' :: .p ';' :: t => do
      let (is, t) ← items n inner t
      some (.include (String.ofList path) :: is, t)
    | .kw .mod_, .id name :: .p ';' :: t => do
      let (is, t) ← items n inner t
      some (.file name :: is, t)
    | .kw .mod_, .id name :: .p '{' :: t => do
      let (sub, t) ← items n true t
      let (is, t) ← items n inner t
      some (.mod name sub :: is, t)
    | .kw .const_, .id name :: .p ':' :: t => do
      let (_, t) ← ty t.length t
      let t ← eat '=' t
      let (e, t) ← expr (16 * t.length) false 0 t
      let t ← eat ';' t
      let (is, t) ← items n inner t
      some (.const name e :: is, t)
    | .kw .fn_, .id name :: t => do
      let t ← eat '(' (skipGenerics t)
      let (ps, t) ← params t.length t
      let t ← optResult t
      let (b, t) ← block (16 * t.length) t
      let (is, t) ← items n inner t
      some (.fn name ps b :: is, t)
    | _, _ => none

/-- The items of a source text. -/
def parse (t : Text) : Option (List Item) := do
  let toks ← lex t
  let (is, _) ← items (toks.length + 1) false toks
  some is

end Verif.Lang
