import Verif.Py.Syntax
import Verif.Model.GeneratorText
import Verif.Model.TestData

/-!
# Meaning of the programs

An interpreter for the part of Python in `Syntax.lean`. It gives a program the meaning that Python
gives it, or it is `stuck`: where no rule applies (a `TypeError` for example), and where Python goes
beyond the rules below.

* A list or a set is the value of one variable. Python has references to objects instead, which makes
  a difference only if an object that more than one variable refers to is changed. `Fn.separate`
  excludes that: no function changes its arguments or returns one of them, no loop changes what it
  runs over, and no variable is assigned to another. Lists, tuples and sets have no lists or sets in
  them (`Val.frozen`).
* Files have names and contents, and there is a list of the open ones. What is written to a file is
  in it at once; Python may wait until the file is closed, which makes no difference because no file
  is opened (`stuck`) while it is open already. A file is closed where the function ends that opened
  it. Text files hold code points: their encoding is not modelled. A file can always be written to.
* `fuel` bounds the number of rounds of each `while` and the depth of calls.
-/

namespace Verif.Py

open Generator (newlines pyLines split pyInt digits)

/-- Values. -/
inductive Val where
  | none
  | bool (b : Bool)
  | int (n : Int)
  | str (s : Text)
  | bytes (b : Bytes)
  | tuple (vs : List Val)
  | list (vs : List Val)
  | set (vs : List Val)
  /-- what can be run over once: the items -/
  | iter (vs : List Val)
  /-- a file that is open for writing: its path -/
  | file (path : Text)
  /-- an exception with its message -/
  | exn (msg : Text)

/-- Exceptions: what is raised. -/
inductive Exn where
  /-- `IndexError` -/
  | index
  /-- `ValueError` or one of its subclasses (`UnicodeEncodeError`) -/
  | value
  /-- `OverflowError` -/
  | overflow
  /-- `ZeroDivisionError` -/
  | zeroDivision
  /-- `FileNotFoundError` -/
  | notFound
  /-- `Exception(msg)` -/
  | exception (msg : Text)
  deriving DecidableEq, Repr

/-- The content of a file. -/
inductive Content where
  | text (t : Text)
  | data (b : Bytes)

/-- The files, and the paths of the open ones. -/
structure World where
  files : Text → Option Content
  opened : List Text

/-- The files after one of them got a new content. -/
def World.put (w : World) (path : Text) (c : Content) : World :=
  { w with files := fun p => if p = path then some c else w.files p }

/-- One more file is open. -/
def World.opening (w : World) (path : Text) : World := { w with opened := path :: w.opened }

/-- The variables. -/
abbrev Env := String → Option Val

/-- No variables. -/
def Env.empty : Env := fun _ => none

/-- The variables after an assignment. -/
def Env.set (env : Env) (x : String) (v : Val) : Env := fun y => if y = x then some v else env y

/-- The variables without one of them. -/
def Env.unset (env : Env) (x : String) : Env := fun y => if y = x then none else env y

/-- The outcome of an expression. -/
inductive Res (α : Type) where
  | ok (a : α) (w : World)
  | exc (e : Exn) (w : World)
  | stuck

/-- What is evaluated next. -/
def Res.bind {α β : Type} (r : Res α) (k : α → World → Res β) : Res β :=
  match r with
  | .ok a w => k a w
  | .exc e w => .exc e w
  | .stuck => .stuck

/-- The outcome of a statement: go on, `continue`, `return`, an exception. -/
inductive Out where
  | norm (env : Env) (w : World)
  | cont (env : Env) (w : World)
  | ret (v : Val) (w : World)
  | exc (e : Exn) (w : World)
  | stuck

/-- The statement that comes next. -/
def Out.bind (o : Out) (k : Env → World → Out) : Out :=
  match o with
  | .norm env w => k env w
  | o => o

/-- The statement that an expression is in. -/
def Res.then {α : Type} (r : Res α) (k : α → World → Out) : Out :=
  match r with
  | .ok a w => k a w
  | .exc e w => .exc e w
  | .stuck => .stuck

/-! ## Operations on values -/

mutual
/-- Values that cannot be changed. -/
def Val.frozen : Val → Bool
  | .none | .bool _ | .int _ | .str _ | .bytes _ => true
  | .tuple vs => Val.allFrozen vs
  | _ => false
/-- Only values that cannot be changed. -/
def Val.allFrozen : List Val → Bool
  | [] => true
  | v :: vs => v.frozen && Val.allFrozen vs
end

mutual
/-- Values that have the same type, and tuples of as many of them: those that `<` is defined for. -/
def Val.alike : Val → Val → Bool
  | .int _, .int _ => true
  | .tuple vs, .tuple us => Val.allAlike vs us
  | _, _ => false
/-- One by one. -/
def Val.allAlike : List Val → List Val → Bool
  | [], [] => true
  | v :: vs, u :: us => v.alike u && Val.allAlike vs us
  | _, _ => false
end

mutual
/-- The order of the values that `Val.alike` compares. -/
def Val.cmp : Val → Val → Ordering
  | .int a, .int b => compare a b
  | .tuple vs, .tuple us => Val.cmpAll vs us
  | _, _ => .eq
/-- The first difference counts. -/
def Val.cmpAll : List Val → List Val → Ordering
  | v :: vs, u :: us => (v.cmp u).then (Val.cmpAll vs us)
  | _, _ => .eq
end

/-- `list.sort`, `none` if two items cannot be compared. -/
def sorted (vs : List Val) : Option (List Val) :=
  match vs with
  | [] => some []
  | v :: _ => if vs.all v.alike then some (vs.mergeSort fun a b => a.cmp b != .gt) else none

/-- `==`, for numbers, strings and `None`. -/
def equal : Val → Val → Option Bool
  | .int a, .int b => some (a == b)
  | .str a, .str b => some (a == b)
  | .none, .none => some true
  | _, _ => none

/-- `v in vs` -/
def member (v : Val) : List Val → Option Bool
  | [] => some false
  | u :: us => do if ← equal v u then some true else member v us

/-- The truth value of a condition. -/
def Val.truth : Val → Option Bool
  | .bool b => some b
  | _ => Option.none

/-- The operators. -/
def binary (op : BinOp) (w : World) : Val → Val → Res Val
  | .int a, .int b =>
    match op with
    | .add => .ok (.int (a + b)) w
    | .sub => .ok (.int (a - b)) w
    | .mul => .ok (.int (a * b)) w
    | .floordiv => if b = 0 then .exc .zeroDivision w else .ok (.int (a.fdiv b)) w
    | .mod => if b = 0 then .exc .zeroDivision w else .ok (.int (a.fmod b)) w
  | .str a, .str b => if op = .add then .ok (.str (a ++ b)) w else .stuck
  | _, _ => .stuck

/-- The comparisons. -/
def compare' (op : CmpOp) (a b : Val) : Option Bool :=
  match op, a, b with
  | .lt, .int a, .int b => some (decide (a < b))
  | .le, .int a, .int b => some (decide (a ≤ b))
  | .gt, .int a, .int b => some (decide (a > b))
  | .ge, .int a, .int b => some (decide (a ≥ b))
  | .eq, a, b => equal a b
  | .ne, a, b => (equal a b).map (!·)
  | .in_, a, .list vs => member a vs
  | .in_, a, .set vs => member a vs
  | .notIn, a, .list vs => (member a vs).map (!·)
  | .notIn, a, .set vs => (member a vs).map (!·)
  | .is_, .none, .none => some true
  | .is_, .int _, .none => some false
  | _, _, _ => none

/-- `vs[i]`: a negative index counts from the end. -/
def item (vs : List Val) (i : Int) (w : World) : Res Val :=
  let k := if i < 0 then i + vs.length else i
  if k < 0 then .exc .index w
  else
    match vs[k.toNat]? with
    | some v => .ok v w
    | none => .exc .index w

/-- Values that can be run over once. -/
def Val.once : Val → Bool
  | .iter _ => true
  | _ => false

/-- The items that a `for` runs over. -/
def Val.items : Val → Option (List Val)
  | .list vs | .tuple vs | .iter vs => some vs
  | _ => Option.none

/-- The variables that a `for` assigns an item to. -/
def Target.bind : Target → Val → Env → Option Env
  | .name x, v, env => some (env.set x v)
  | .names xs, .tuple vs, env =>
    if xs.length = vs.length then some ((xs.zip vs).foldl (fun env b => env.set b.1 b.2) env) else none
  | .names _, _, _ => none

/-- `str.encode('utf-8')`: `none` if there is a surrogate. -/
def utf8 (s : Text) : Option Bytes := (s.mapM fun c => (fromU32 c).map encodeUtf8).map List.flatten

/-- `bytes(vs)` of numbers -/
def byteVals (w : World) : List Val → Res Bytes
  | [] => .ok [] w
  | .int n :: vs =>
    if 0 ≤ n ∧ n < 256 then (byteVals w vs).bind fun b w => .ok (UInt8.ofNat n.toNat :: b) w
    else .exc .value w
  | _ :: _ => .stuck

/-- Text that `int` needs no more rules for than those of `pyInt`: it has no signs, underscores, white
space or digits of other scripts, or there is a `#` in it. -/
def isPlain (s : Text) : Bool :=
  s.contains 0x23 ||
    s.all fun c => c < 128 && c != 0x2B && c != 0x2D && c != 0x5F && !Generator.isSpace c

/-- `int(s)`, `int(s, 16)` -/
def toInt (base : Nat) (s : Text) (w : World) : Res Val :=
  match pyInt base s with
  | some n => .ok (.int n) w
  | none => if isPlain s then .exc .value w else .stuck

/-! ## `str.format` -/

/-- A replacement field: `{}`, or `{:X}` with a width that is filled up with zeros. -/
inductive Field where
  | plain
  | hex (width : Nat)
  deriving DecidableEq

/-- A format string: characters and fields. -/
def formatParts : Text → Option (List (Nat ⊕ Field))
  -- `{{`
  | 0x7B :: 0x7B :: t => (formatParts t).map (.inl 0x7B :: ·)
  -- `}}`
  | 0x7D :: 0x7D :: t => (formatParts t).map (.inl 0x7D :: ·)
  -- `{}`
  | 0x7B :: 0x7D :: t => (formatParts t).map (.inr .plain :: ·)
  -- `{:X}`
  | 0x7B :: 0x3A :: 0x58 :: 0x7D :: t => (formatParts t).map (.inr (.hex 0) :: ·)
  -- `{:02X}`, `{:04X}`
  | 0x7B :: 0x3A :: 0x30 :: d :: 0x58 :: 0x7D :: t =>
    if 0x31 ≤ d ∧ d ≤ 0x39 then (formatParts t).map (.inr (.hex (d - 0x30)) :: ·) else none
  | 0x7B :: _ => none
  | 0x7D :: _ => none
  | c :: t => (formatParts t).map (.inl c :: ·)
  | [] => some []

/-- A number with at least `width` characters. -/
def formatInt (base width : Nat) (n : Int) : Text :=
  let sign := if n < 0 then [0x2D] else []
  let ds := digits base n.natAbs
  sign ++ List.replicate (width - sign.length - ds.length) 0x30 ++ ds

/-- One field. -/
def formatField : Field → Val → Option Text
  | .plain, .int n => some (formatInt 10 0 n)
  | .plain, .str s => some s
  | .hex k, .int n => some (formatInt 16 k n)
  | _, _ => none

/-- The fields get the arguments, one after the other. -/
def fillIn : List (Nat ⊕ Field) → List Val → Option Text
  | [], _ => some []
  | .inl c :: ps, vs => (fillIn ps vs).map (c :: ·)
  | .inr f :: ps, v :: vs => do some ((← formatField f v) ++ (← fillIn ps vs))
  | .inr _ :: _, [] => none

/-- `s.format(vs)`; too few arguments are not modelled -/
def format (s : Text) (vs : List Val) : Option Text := do fillIn (← formatParts s) vs

/-! ## Calls -/

/-- `open(path)` for reading: the lines. -/
def openRead (path : Text) (w : World) : Res Val :=
  if path ∈ w.opened then .stuck
  else
    match w.files path with
    | none => .exc .notFound w
    | some (.text t) => .ok (.iter ((pyLines (newlines false t) []).map .str)) (w.opening path)
    | some (.data _) => .stuck

/-- `open(path, mode)` for writing: the file is empty then. -/
def openWrite (path : Text) (c : Content) (w : World) : Res Val :=
  if path ∈ w.opened then .stuck else .ok (.file path) ((w.put path c).opening path)

/-- The file modes in use. -/
def openMode (path mode : Text) (w : World) : Res Val :=
  if mode = text! "w" then openWrite path (.text []) w
  else if mode = text! "wb" then openWrite path (.data []) w
  else .stuck

/-- `file.write(v)`: what is returned is the number of characters or bytes. -/
def write (path : Text) (v : Val) (w : World) : Res Val :=
  match w.files path, v with
  | some (.text t), .str s => .ok (.int s.length) (w.put path (.text (t ++ s)))
  | some (.data b), .bytes c => .ok (.int c.length) (w.put path (.data (b ++ c)))
  | _, _ => .stuck

/-- `range(a, b)` -/
def range (a b : Int) : List Val := (List.range (b - a).toNat).map fun (k : Nat) => .int (a + k)

/-- `enumerate(vs)`, from `k` on -/
def enumerate (k : Nat) : List Val → List Val
  | [] => []
  | v :: vs => .tuple [.int k, v] :: enumerate (k + 1) vs

/-- The functions that Python brings along. -/
def builtin (f : String) (args : List Val) (kws : List (String × Val)) (w : World) : Res Val :=
  match f, args, kws with
  | "len", [.list vs], [] => .ok (.int vs.length) w
  | "range", [.int a, .int b], [] => .ok (.iter (range a b)) w
  | "enumerate", [.list vs], [] => .ok (.iter (enumerate 0 vs)) w
  | "int", [.str s], [] => toInt 10 s w
  | "int", [.str s, .int n], [] => if n = 16 then toInt 16 s w else .stuck
  | "set", [], [] => .ok (.set []) w
  | "chr", [.int n], [] =>
    if n < -0x80000000 ∨ 0x7FFFFFFF < n then .exc .overflow w
    else if 0 ≤ n ∧ n ≤ 0x10FFFF then .ok (.str [n.toNat]) w
    else .exc .value w
  | "bytes", [.list vs], [] => (byteVals w vs).bind fun b w => .ok (.bytes b) w
  | "bytes", [.tuple vs], [] => (byteVals w vs).bind fun b w => .ok (.bytes b) w
  | "bytes", [.str s, .str e], [] =>
    if e = text! "utf-8" then
      match utf8 s with
      | some b => .ok (.bytes b) w
      | none => .exc .value w
    else .stuck
  | "open", [.str path], [] => openRead path w
  | "open", [.str path, .str mode], [] => openMode path mode w
  | "open", [.str path], [("mode", .str mode)] => openMode path mode w
  | "Exception", [.str msg], [] => .ok (.exn msg) w
  | _, _, _ => .stuck

/-- The methods that leave their object as it is. -/
def method (v : Val) (m : String) (args : List Val) (w : World) : Res Val :=
  match v, m, args with
  | .str s, "split", [] => .ok (.list ((split s []).map .str)) w
  | .str s, "startswith", [.str p] => .ok (.bool (p.isPrefixOf s)) w
  | .str s, "encode", [.str e] =>
    if e = text! "utf-8" then
      match utf8 s with
      | some b => .ok (.bytes b) w
      | none => .exc .value w
    else .stuck
  | .str s, "format", vs =>
    match format s vs with
    | some t => .ok (.str t) w
    | none => .stuck
  | .file path, "write", [v] => write path v w
  | _, _, _ => .stuck

/-- The methods that change their object, which is in a variable: its new value. -/
def change (v : Val) (m : String) (args : List Val) : Option Val :=
  match v, m, args with
  | .list vs, "sort", [] => (sorted vs).map .list
  | .list vs, "reverse", [] => some (.list vs.reverse)
  | .set vs, "add", [v] => if v.frozen then some (.set (v :: vs)) else none
  | _, _, _ => none

/-! ## Expressions -/

/-- A value, or an outcome without one. -/
def known {α : Type} (o : Option α) (w : World) : Res α :=
  match o with
  | some a => .ok a w
  | none => .stuck

/-- The items of a list, tuple or set. -/
def frozenItems (vs : List Val) (w : World) : Res (List Val) :=
  if Val.allFrozen vs then .ok vs w else .stuck

/-- The items of `[e for t in it if c]`; `f` evaluates `e` if `c` holds. -/
def compLoop (f : Env → World → Res (Option Val)) (t : Target) (env : Env) :
    List Val → World → Res (List Val)
  | [], w => .ok [] w
  | v :: vs, w =>
    match t.bind v env with
    | none => .stuck
    | some env' => (f env' w).bind fun o w =>
      (compLoop f t env vs w).bind fun us w => .ok (o.toList ++ us) w

/-- The functions of the module: what they return, or how they end. -/
abbrev Calls := String → Option (List Val → World → Res Val)

/-- A call of a function of the module or of Python. -/
def invoke (calls : Calls) (f : String) (args : List Val) (kws : List (String × Val)) (w : World) :
    Res Val :=
  match calls f with
  | some g => if kws.isEmpty then g args w else .stuck
  | none => builtin f args kws w

mutual
/-- The value of an expression. -/
def eval (calls : Calls) : Expr → Env → World → Res Val
  | .none, _, w => .ok .none w
  | .int n, _, w => .ok (.int n) w
  | .str s, _, w => .ok (.str s) w
  | .name x, env, w => known (env x) w
  | .tuple es, env, w => (evals calls es env w).bind fun vs w =>
    (frozenItems vs w).bind fun vs w => .ok (.tuple vs) w
  | .list es, env, w => (evals calls es env w).bind fun vs w =>
    (frozenItems vs w).bind fun vs w => .ok (.list vs) w
  | .set es, env, w => (evals calls es env w).bind fun vs w =>
    (frozenItems vs w).bind fun vs w => .ok (.set vs) w
  | .bin op a b, env, w => (eval calls a env w).bind fun a w =>
    (eval calls b env w).bind fun b w => binary op w a b
  | .cmp op a b, env, w => (eval calls a env w).bind fun a w =>
    (eval calls b env w).bind fun b w => (known (compare' op a b) w).bind fun c w => .ok (.bool c) w
  | .and a b, env, w => (eval calls a env w).bind fun a w =>
    (known a.truth w).bind fun c w => if c then eval calls b env w else .ok (.bool false) w
  | .or a b, env, w => (eval calls a env w).bind fun a w =>
    (known a.truth w).bind fun c w => if c then .ok (.bool true) w else eval calls b env w
  | .not a, env, w => (eval calls a env w).bind fun a w =>
    (known a.truth w).bind fun c w => .ok (.bool !c) w
  | .ite c a b, env, w => (eval calls c env w).bind fun c w =>
    (known c.truth w).bind fun c w => if c then eval calls a env w else eval calls b env w
  | .call f args, env, w => (evalArgs calls args env w).bind fun r w => invoke calls f r.1 r.2 w
  | .keyword _ _, _, _ => .stuck
  | .method e m args, env, w => (eval calls e env w).bind fun v w =>
    (evals calls args env w).bind fun vs w => method v m vs w
  | .index e i, env, w => (eval calls e env w).bind fun v w =>
    (eval calls i env w).bind fun i w =>
      match v, i with
      | .list vs, .int i => item vs i w
      | .tuple vs, .int i => item vs i w
      | _, _ => .stuck
  | .sliceFrom e lo, env, w => (eval calls e env w).bind fun v w =>
    (eval calls lo env w).bind fun i w =>
      match v, i with
      | .list vs, .int i => .ok (.list (vs.drop (if i < 0 then i + vs.length else i).toNat)) w
      | _, _ => .stuck
  | .comp e t it c, env, w => (eval calls it env w).bind fun v w =>
    (known (if v.once then none else v.items) w).bind fun vs w =>
    (compLoop (fun env w => (evalIf calls c env w).bind fun b w =>
      if b then (eval calls e env w).bind fun v w => .ok (some v) w else .ok none w) t env vs w).bind
    fun vs w => (frozenItems vs w).bind fun vs w => .ok (.list vs) w
/-- The values of expressions, from left to right. -/
def evals (calls : Calls) : List Expr → Env → World → Res (List Val)
  | [], _, w => .ok [] w
  | e :: es, env, w => (eval calls e env w).bind fun v w =>
    (evals calls es env w).bind fun vs w => .ok (v :: vs) w
/-- The arguments of a call, those with keywords apart. -/
def evalArgs (calls : Calls) : List Expr → Env → World → Res (List Val × List (String × Val))
  | [], _, w => .ok ([], []) w
  | .keyword x e :: es, env, w => (eval calls e env w).bind fun v w =>
    (evalArgs calls es env w).bind fun r w =>
      -- arguments with keywords come last
      if r.1.isEmpty then .ok ([], (x, v) :: r.2) w else .stuck
  | e :: es, env, w => (eval calls e env w).bind fun v w =>
    (evalArgs calls es env w).bind fun r w => .ok (v :: r.1, r.2) w
/-- The condition of `[e for t in it if c]`. -/
def evalIf (calls : Calls) : Option Expr → Env → World → Res Bool
  | none, _, w => .ok true w
  | some c, env, w => (eval calls c env w).bind fun v w => known v.truth w
end

/-! ## Statements -/

/-- A `for`. -/
def forLoop (body : Env → World → Out) (t : Target) : List Val → Env → World → Out
  | [], env, w => .norm env w
  | v :: vs, env, w =>
    match t.bind v env with
    | none => .stuck
    | some env =>
      match body env w with
      | .norm env w => forLoop body t vs env w
      | .cont env w => forLoop body t vs env w
      | o => o

/-- A `while` of at most `fuel` rounds. -/
def whileLoop (c : Env → World → Res Val) (body : Env → World → Out) : Nat → Env → World → Out
  | 0, _, _ => .stuck
  | n + 1, env, w => (c env w).then fun v w =>
    match v.truth with
    | some true =>
      match body env w with
      | .norm env w => whileLoop c body n env w
      | .cont env w => whileLoop c body n env w
      | o => o
    | some false => .norm env w
    | none => .stuck

/-- What can be run over once is gone afterwards. -/
def consume (e : Expr) (v : Val) (env : Env) : Env :=
  match e, v with
  | .name x, .iter _ => env.unset x
  | _, _ => env

/-- `x += v` -/
def augAdd (a b : Val) : Option Val :=
  match a, b with
  | .int a, .int b => some (.int (a + b))
  | .list a, .list b => some (.list (a ++ b))
  | _, _ => none

/-- `x &= v`, of sets -/
def augAnd (a b : Val) : Option Val :=
  match a, b with
  | .set a, .set b => (a.filterMapM fun v => (member v b).map fun c => if c then some v else none).map .set
  | _, _ => none

/-- The outcome of a statement. -/
def exec (calls : Calls) (fuel : Nat) : Stmt → Env → World → Out
  | .skip, env, w => .norm env w
  | .seq a b, env, w => (exec calls fuel a env w).bind fun env w => exec calls fuel b env w
  | .expr (.method (.name x) "sort" []), env, w => changeVar x "sort" [] env w
  | .expr (.method (.name x) "reverse" []), env, w => changeVar x "reverse" [] env w
  | .expr (.method (.name x) "add" [e]), env, w => (eval calls e env w).then fun v w =>
    changeVar x "add" [v] env w
  | .expr e, env, w => (eval calls e env w).then fun _ w => .norm env w
  | .assign x e, env, w => (eval calls e env w).then fun v w => .norm (env.set x v) w
  | .augAdd x e, env, w => (eval calls e env w).then fun v w =>
    (known ((env x).bind fun u => augAdd u v) w).then fun v w => .norm (env.set x v) w
  | .augAnd x e, env, w => (eval calls e env w).then fun v w =>
    (known ((env x).bind fun u => augAnd u v) w).then fun v w => .norm (env.set x v) w
  | .ite c a b, env, w => (eval calls c env w).then fun c w =>
    (known c.truth w).then fun c w => if c then exec calls fuel a env w else exec calls fuel b env w
  | .whileDo c b, env, w =>
    whileLoop (fun env w => eval calls c env w) (fun env w => exec calls fuel b env w) fuel env w
  | .forIn t e b, env, w => (eval calls e env w).then fun v w => (known v.items w).then fun vs w =>
    forLoop (fun env w => exec calls fuel b env w) t vs (consume e v env) w
  | .continue, env, w => .cont env w
  | .return e, env, w => (eval calls e env w).then fun v w => .ret v w
  | .raise e, env, w => (eval calls e env w).then fun v w =>
    match v with
    | .exn msg => .exc (.exception msg) w
    | _ => .stuck
where
  /-- `x.m(args)` where the object changes -/
  changeVar (x m : String) (args : List Val) (env : Env) (w : World) : Out :=
    (known ((env x).bind fun v => change v m args) w).then fun v w => .norm (env.set x v) w

/-! ## Functions and modules -/

/-- The variables at the start of a function. -/
def initial : List String → List Val → Option Env
  | [], [] => some Env.empty
  | x :: xs, v :: vs =>
    match v with
    | .iter _ | .exn _ => none
    | v => (initial xs vs).map fun env => env.set x v
  | _, _ => none

/-- What a function returns: `None` if it comes to its end. Its files are closed. (After an exception,
which ends the program, they all are.) -/
def returned (w : World) : Out → Res Val
  | .norm _ w' => .ok .none { w' with opened := w.opened }
  | .ret v w' =>
    match v with
    | .file _ | .iter _ | .exn _ => .stuck
    | v => .ok v { w' with opened := w.opened }
  | .exc e w' => .exc e { w' with opened := w.opened }
  | .cont _ _ | .stuck => .stuck

/-- A call of a function. -/
def Fn.call (calls : Calls) (fuel : Nat) (f : Fn) (args : List Val) (w : World) : Res Val :=
  match initial f.params args with
  | none => .stuck
  | some env => returned w (exec calls fuel f.body env w)

/-- The functions of a module, with calls up to a depth. -/
def Module.calls (m : Module) (fuel : Nat) : Nat → Calls
  | 0 => fun f => (m.fns.find? fun g => g.name = f).map fun _ _ _ => .stuck
  | d + 1 => fun f => (m.fns.find? fun g => g.name = f).map fun g => g.call (m.calls fuel d) fuel

/-! ## Programs in which values and objects are the same -/

mutual
/-- The variables in an expression. -/
def Expr.names : Expr → List String
  | .none | .int _ | .str _ => []
  | .name x => [x]
  | .tuple es | .list es | .set es => Expr.namesOf es
  | .bin _ a b | .cmp _ a b | .and a b | .or a b | .index a b | .sliceFrom a b => a.names ++ b.names
  | .not a | .keyword _ a => a.names
  | .ite c a b => c.names ++ a.names ++ b.names
  | .call _ args => Expr.namesOf args
  | .method e _ args => e.names ++ Expr.namesOf args
  | .comp e _ it c => e.names ++ it.names ++ Expr.namesOpt c
/-- The variables in expressions. -/
def Expr.namesOf : List Expr → List String
  | [] => []
  | e :: es => e.names ++ Expr.namesOf es
/-- The variables in a condition. -/
def Expr.namesOpt : Option Expr → List String
  | Option.none => []
  | some e => e.names
end

mutual
/-- The functions that an expression calls. -/
def Expr.called : Expr → List String
  | .none | .int _ | .str _ | .name _ => []
  | .tuple es | .list es | .set es => Expr.calledOf es
  | .bin _ a b | .cmp _ a b | .and a b | .or a b | .index a b | .sliceFrom a b => a.called ++ b.called
  | .not a | .keyword _ a => a.called
  | .ite c a b => c.called ++ a.called ++ b.called
  | .call f args => f :: Expr.calledOf args
  | .method e _ args => e.called ++ Expr.calledOf args
  | .comp e _ it c => e.called ++ it.called ++ Expr.calledOpt c
/-- The functions that expressions call. -/
def Expr.calledOf : List Expr → List String
  | [] => []
  | e :: es => e.called ++ Expr.calledOf es
/-- The functions that a condition calls. -/
def Expr.calledOpt : Option Expr → List String
  | Option.none => []
  | some e => e.called
end

/-- The variables in a target. -/
def Target.vars : Target → List String
  | .name x => [x]
  | .names xs => xs

mutual
/-- The variables of the comprehensions in an expression. -/
def Expr.bound : Expr → List String
  | .none | .int _ | .str _ | .name _ => []
  | .tuple es | .list es | .set es => Expr.boundOf es
  | .bin _ a b | .cmp _ a b | .and a b | .or a b | .index a b | .sliceFrom a b => a.bound ++ b.bound
  | .not a | .keyword _ a => a.bound
  | .ite c a b => c.bound ++ a.bound ++ b.bound
  | .call _ args => Expr.boundOf args
  | .method e _ args => e.bound ++ Expr.boundOf args
  | .comp e t it c => t.vars ++ e.bound ++ it.bound ++ Expr.boundOpt c
/-- The variables of the comprehensions in expressions. -/
def Expr.boundOf : List Expr → List String
  | [] => []
  | e :: es => e.bound ++ Expr.boundOf es
/-- The variables of the comprehensions in a condition. -/
def Expr.boundOpt : Option Expr → List String
  | Option.none => []
  | some e => e.bound
end

/-- The value of the expression is no list or set that a variable has. -/
def Expr.fresh : Expr → Bool
  | .name _ | .and _ _ | .or _ _ | .keyword _ _ => false
  | .ite _ a b => a.fresh && b.fresh
  | _ => true

/-- The variables whose lists or sets a statement changes. -/
def Stmt.changed : Stmt → List String
  | .skip | .assign _ _ | .continue | .return _ | .raise _ => []
  | .seq a b | .ite _ a b => a.changed ++ b.changed
  | .expr (.method (.name x) _ _) => [x]
  | .expr _ => []
  | .augAdd x _ | .augAnd x _ => [x]
  | .whileDo _ b | .forIn _ _ b => b.changed

/-- The variables that a statement binds. -/
def Stmt.bound : Stmt → List String
  | .skip | .continue => []
  | .seq a b => a.bound ++ b.bound
  | .expr e | .return e | .raise e => e.bound
  | .assign x e | .augAdd x e | .augAnd x e => x :: e.bound
  | .ite c a b => c.bound ++ a.bound ++ b.bound
  | .whileDo c b => c.bound ++ b.bound
  | .forIn t e b => t.vars ++ e.bound ++ b.bound

/-- The functions that a statement calls. -/
def Stmt.called : Stmt → List String
  | .skip | .continue => []
  | .seq a b => a.called ++ b.called
  | .expr e | .return e | .raise e | .assign _ e | .augAdd _ e | .augAnd _ e => e.called
  | .ite c a b => c.called ++ a.called ++ b.called
  | .whileDo c b => c.called ++ b.called
  | .forIn _ e b => e.called ++ b.called

/-- No list or set gets a second name, and no loop changes what it runs over. `ps` are the variables
whose lists or sets may have another name. -/
def Stmt.separate (ps : List String) : Stmt → Bool
  | .skip | .expr _ | .continue | .raise _ | .augAdd _ _ | .augAnd _ _ => true
  | .seq a b | .ite _ a b => a.separate ps && b.separate ps
  | .assign _ e => e.fresh
  | .whileDo _ b => b.separate ps
  | .forIn _ e b => e.names.all (fun x => !b.changed.contains x) && b.separate ps
  | .return (.name x) => !ps.contains x
  | .return e => e.fresh

/-- A function in which values and objects are the same, and whose variables are no functions. -/
def Fn.separate (f : Fn) : Bool :=
  f.params.all (fun x => !f.body.changed.contains x) && f.body.separate f.params &&
    f.body.called.all fun g => !(f.params ++ f.body.bound).contains g

/-- A module of such functions, with different names. -/
def Module.separate (m : Module) : Bool :=
  m.fns.all Fn.separate && Fn.separate ⟨"", [], m.main⟩ && (m.fns.map Fn.name).eraseDups.length == m.fns.length

/-- The outcome of a call of one of the functions of a module. -/
def Module.call (m : Module) (fuel : Nat) (f : String) (args : List Val) (w : World) : Res Val :=
  if m.separate then
    match m.calls fuel fuel f with
    | some g => g args w
    | none => .stuck
  else .stuck

/-- The outcome of a program (`python3 file.py`): the files at its end, or the exception. -/
def Module.run (m : Module) (fuel : Nat) (w : World) : Res Val :=
  if m.separate then
    returned w (exec (m.calls fuel fuel) fuel m.main
      (Env.empty.set "__name__" (.str (text! "__main__"))) w)
  else .stuck

end Verif.Py
