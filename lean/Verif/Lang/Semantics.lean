import Verif.Lang.Syntax
import Verif.Model.Machine

/-!
# Meaning of the programs

An interpreter for the part of Rust in `Syntax.lean`. It gives every program a meaning that the Rust
compiler gives it, provided that the compiler accepts it:

* A reference is the value it refers to. That is right as long as this value does not change while
  the reference is in use, which the borrow checker ensures. What happens through a `&mut` is written
  back to the variable.
* An integer literal without a suffix has the type `usize` until it meets a value of another type.
  Rust infers its type instead; the two differ only for literals that stay away from all other values.
* `fuel` bounds the number of rounds of each loop and the depth of calls.

`stuck` is the outcome where no rule applies, for example because of a type error.
-/

namespace Verif.Lang

/-- Values. -/
inductive Value where
  | unit
  | int (ty : IntTy) (n : Nat)
  | char (c : Char)
  | bool (b : Bool)
  | str (s : List Char)
  | arr (vs : List Value)
  | tuple (vs : List Value)
  | variant (name : String) (vs : List Value)
  | struct (name : String) (fields : List String) (vs : List Value)
  /-- an iterator: the items still to come -/
  | iter (vs : List Value)

/-- The variables in scope, the innermost first. -/
abbrev Env := List (String × Value)

/-- The value of a variable. -/
def get (x : String) : Env → Option Value
  | [] => none
  | (y, v) :: env => if x = y then some v else get x env

/-- The variables after an assignment. -/
def set (x : String) (v : Value) : Env → Env
  | [] => []
  | (y, w) :: env => if x = y then (y, v) :: env else (y, w) :: set x v env

/-- What is left of the variables where a scope ends that began with `n` variables. -/
def trim (n : Nat) (env : Env) : Env := env.drop (env.length - n)

/-- The outcome of a piece of a program. -/
inductive Out (α : Type) where
  | val (a : α) (env : Env)
  | brk (env : Env)
  | cont (env : Env)
  | ret (v : Value) (env : Env)
  | fault (f : Fault)
  | stuck

namespace Out

/-- What follows in the same sequence of evaluation. -/
def bind {α β : Type} (o : Out α) (k : α → Env → Out β) : Out β :=
  match o with
  | .val a env => k a env
  | .brk env => .brk env
  | .cont env => .cont env
  | .ret v env => .ret v env
  | .fault f => .fault f
  | .stuck => .stuck

/-- The end of a scope that began with `n` variables. -/
def scope {α : Type} (n : Nat) : Out α → Out α
  | .val a env => .val a (trim n env)
  | .brk env => .brk (trim n env)
  | .cont env => .cont (trim n env)
  | .ret v env => .ret v (trim n env)
  | .fault f => .fault f
  | .stuck => .stuck

/-- An operation that can fault. -/
def ofRs {α : Type} (env : Env) : Rs α → Out α
  | .ok a => .val a env
  | .error f => .fault f

/-- An operation that can get stuck. -/
def ofOption {α : Type} (env : Env) : Option α → Out α
  | some a => .val a env
  | none => .stuck

end Out

/-! ## Integers -/

/-- The number of bits of a type. -/
def IntTy.bits (m : Machine.Target) : IntTy → Nat
  | .u8 => 8
  | .u16 => 16
  | .u32 => 32
  | .usize => m.bits

/-- The type of an operation on two integers. -/
def joinTy : IntTy → IntTy → Option IntTy
  | .usize, t => some t
  | t, .usize => some t
  | .u8, .u8 => some .u8
  | .u16, .u16 => some .u16
  | .u32, .u32 => some .u32
  | _, _ => none

/-- The shift distance. -/
def shiftBy (m : Machine.Target) (bits k : Nat) : Rs Nat :=
  if k < bits then .ok k else if m.overflowChecks then .error .panic else .ok (k % bits)

/-- Operators from integers to an integer. -/
def intOp (m : Machine.Target) (ty : IntTy) : BinOp → Nat → Nat → Option (Rs Nat)
  | .add, a, b => some (Machine.arith m (ty.bits m) (a + b))
  | .sub, a, b => some (Machine.arith m (ty.bits m) ((a : Int) - b))
  | .mul, a, b => some (Machine.arith m (ty.bits m) (a * b))
  | .div, a, b => some (if b = 0 then .error .panic else .ok (a / b))
  | .rem, a, b => some (if b = 0 then .error .panic else .ok (a % b))
  | .and, a, b => some (.ok (a &&& b))
  | .or, a, b => some (.ok (a ||| b))
  | .shl, a, b => some ((shiftBy m (ty.bits m) b).map fun k => (a <<< k) % 2 ^ ty.bits m)
  | .shr, a, b => some ((shiftBy m (ty.bits m) b).map fun k => a >>> k)
  | _, _, _ => none

/-- Comparison of integers. -/
def intCmp : BinOp → Nat → Nat → Option Bool
  | .eq, a, b => some (decide (a = b))
  | .ne, a, b => some (!decide (a = b))
  | .lt, a, b => some (decide (a < b))
  | .le, a, b => some (decide (a ≤ b))
  | .gt, a, b => some (decide (b < a))
  | .ge, a, b => some (decide (b ≤ a))
  | _, _, _ => none

/-- The operators that evaluate both operands. The type of a shift is that of its left operand. -/
def binOp (m : Machine.Target) (env : Env) (op : BinOp) : Value → Value → Out Value
  | .int s a, .int t b =>
    match intCmp op a b with
    | some r => if (joinTy s t).isSome then .val (.bool r) env else .stuck
    | none =>
      match if op = .shl ∨ op = .shr then some s else joinTy s t with
      | none => .stuck
      | some ty => (Out.ofOption env (intOp m ty op a b)).bind fun r env =>
        (Out.ofRs env r).bind fun n env => .val (.int ty n) env
  | .char a, .char b =>
    match op with
    | .eq => .val (.bool (decide (a = b))) env
    | .ne => .val (.bool (!decide (a = b))) env
    | _ => .stuck
  | _, _ => .stuck

/-- The new value of a place: an integer takes the type of the old value. -/
def coerce : Value → Value → Option Value
  | .int t _, .int s n => if s = t ∨ s = .usize then some (.int t n) else none
  | _, v => some v

/-! ## The standard library -/

/-- A byte. -/
def byte (b : UInt8) : Value := .int .u8 b.toNat

/-- `[u8]` -/
def bytes (b : Bytes) : Value := .arr (b.map byte)

/-- The bytes in a list of values. -/
def toBytes : List Value → Option Bytes
  | [] => some []
  | .int .u8 n :: vs => (toBytes vs).map (UInt8.ofNat n :: ·)
  | _ :: _ => none

/-- The bytes of an integer of `k` bytes, the lowest first. -/
def leBytes : Nat → Nat → List Value
  | 0, _ => []
  | k + 1, n => byte (UInt8.ofNat n) :: leBytes k (n / 256)

/-- The integer with these bytes, the lowest first. -/
def ofLeBytes : Bytes → Nat
  | [] => 0
  | b :: bs => b.toNat + 256 * ofLeBytes bs

/-- The number of bytes of a type. -/
def IntTy.size (m : Machine.Target) (ty : IntTy) : Nat := ty.bits m / 8

/-- The chars of bytes that are UTF-8. -/
def charsOf (b : Bytes) : List Char := (utf8Scan b).1

/-- Functions. -/
def stdFn (m : Machine.Target) (env : Env) : StdFn → Value → Out Value
  | .from_utf8, .arr vs =>
    (Out.ofOption env (toBytes vs)).bind fun b env =>
      if fromUtf8ValidUpTo b = b.length then .val (.variant "Ok" [.str (charsOf b)]) env
      else .val (.variant "Err"
        [.struct "Utf8Error" ["valid_up_to"] [.int .usize (fromUtf8ValidUpTo b)]]) env
  | .from_utf8_unchecked, .arr vs =>
    (Out.ofOption env (toBytes vs)).bind fun b env =>
      (Out.ofRs env (fromUtf8Unchecked b)).bind fun s env => .val (.str s) env
  | .from_u32, .int .u32 n =>
    match fromU32 n with
    | some c => .val (.variant "Some" [.char c]) env
    | none => .val (.variant "None" []) env
  | .from_u32_unchecked, .int .u32 n =>
    (Out.ofRs env (fromU32Unchecked n)).bind fun c env => .val (.char c) env
  | .from_be_bytes ty, .arr vs =>
    (Out.ofOption env (toBytes vs)).bind fun b env =>
      if b.length = ty.size m then .val (.int ty (ofLeBytes b.reverse)) env else .stuck
  | .from_le_bytes ty, .arr vs =>
    (Out.ofOption env (toBytes vs)).bind fun b env =>
      if b.length = ty.size m then .val (.int ty (ofLeBytes b)) env else .stuck
  | _, _ => .stuck

/-- Methods without arguments that do not change their receiver. -/
def method0 (m : Machine.Target) (env : Env) : Method → Value → Out Value
  | .len, .arr vs => .val (.int .usize vs.length) env
  | .len, .str s => .val (.int .usize (strLen s)) env
  | .as_bytes, .str s => .val (bytes (strBytes s)) env
  | .char_indices, .str s =>
    .val (.iter ((charIndices s).map fun p => .tuple [.int .usize p.1, .char p.2])) env
  | .is_empty, .arr vs => .val (.bool vs.isEmpty) env
  | .is_empty, .str s => .val (.bool s.isEmpty) env
  | .chars, .str s => .val (.iter (s.map .char)) env
  | .iter, .arr vs => .val (.iter vs) env
  | .clone, v => .val v env
  | .unwrap, .variant "Some" [v] => .val v env
  | .unwrap, .variant "None" [] => .fault .panic
  | .unwrap, .variant "Ok" [v] => .val v env
  | .unwrap, .variant "Err" _ => .fault .panic
  | .len_utf8, .char c => .val (.int .usize (lenUtf8 c)) env
  | .len_utf16, .char c => .val (.int .usize (lenUtf16 c)) env
  | .to_be_bytes, .int ty n => .val (.arr (leBytes (ty.size m) n).reverse) env
  | .to_le_bytes, .int ty n => .val (.arr (leBytes (ty.size m) n)) env
  | .valid_up_to, .struct _ _ [v] => .val v env
  | _, _ => .stuck

/-- Methods with one argument that do not change their receiver or argument. -/
def method1 (env : Env) : Method → Value → Value → Out Value
  | .chunks, .arr vs, .int _ n =>
    if n = 0 then .fault .panic else .val (.iter ((chunks n vs).map .arr)) env
  | .is_char_boundary, .str s, .int _ n => .val (.bool (isCharBoundary s n)) env
  | _, _, _ => .stuck

/-- `v[i]` -/
def indexOf (env : Env) : Value → Value → Out Value
  | .arr vs, .int _ i => Out.ofRs env (index vs i)
  | _, _ => .stuck

/-- `v[..hi]` -/
def slicePrefix (env : Env) : Value → Value → Out Value
  | .arr vs, .int _ hi => (Out.ofRs env (sliceTo vs hi)).bind fun vs env => .val (.arr vs) env
  | .str s, .int _ hi =>
    (Out.ofRs env (strSliceTo s hi)).bind fun b env => .val (.str (charsOf b)) env
  | _, _ => .stuck

/-- `v[lo..hi]` -/
def sliceRange (env : Env) : Value → Value → Value → Out Value
  | .arr vs, .int _ lo, .int _ hi =>
    if lo ≤ hi ∧ hi ≤ vs.length then .val (.arr ((vs.take hi).drop lo)) env else .fault .panic
  | _, _, _ => .stuck

/-- `&s[n..]` for text: panics if `n` is not a char boundary. -/
def strSuffix : List Char → Nat → Rs (List Char)
  | s, 0 => .ok s
  | [], _ + 1 => .error .panic
  | c :: s, n + 1 => if lenUtf8 c ≤ n + 1 then strSuffix s (n + 1 - lenUtf8 c) else .error .panic

/-- `v[lo..]` -/
def sliceSuffix (env : Env) : Value → Value → Out Value
  | .arr vs, .int _ lo => if lo ≤ vs.length then .val (.arr (vs.drop lo)) env else .fault .panic
  | .str s, .int _ lo => (Out.ofRs env (strSuffix s lo)).bind fun s env => .val (.str s) env
  | _, _ => .stuck

/-- `v[..]` -/
def sliceWhole (env : Env) : Value → Out Value
  | .arr vs => .val (.arr vs) env
  | .str s => .val (.str s) env
  | _ => .stuck

/-- `vec![v; n]` -/
def vecOf (env : Env) (v : Value) : Value → Out Value
  | .int _ n => .val (.arr (List.replicate n v)) env
  | _ => .stuck

/-- The chars in a list of values. -/
def toChars : List Value → Option (List Char)
  | [] => some []
  | .char c :: vs => (toChars vs).map (c :: ·)
  | _ :: _ => none

/-- The vector or text with more at its end: `extend_from_slice` of bytes, `extend` of text by chars. -/
def extended (env : Env) : Value → Value → Out Value
  | .arr vs, .arr ws => .val (.arr (vs ++ ws)) env
  | .str s, .iter vs => (Out.ofOption env (toChars vs)).bind fun cs env => .val (.str (s ++ cs)) env
  | _, _ => .stuck

/-- `e as ty` -/
def castTo (m : Machine.Target) (env : Env) (ty : IntTy) : Value → Out Value
  | .int _ n => .val (.int ty (n % 2 ^ ty.bits m)) env
  | .char c => .val (.int ty (c.toNat % 2 ^ ty.bits m)) env
  | _ => .stuck

/-- `e as char`, which takes a `u8`. -/
def castToChar (env : Env) : Value → Out Value
  | .int .u8 n => .val (.char (Char.ofNat n)) env
  | _ => .stuck

/-- `lo..=hi`: the integers from `lo` to `hi`. -/
def rangeOf (env : Env) : Value → Value → Out Value
  | .int s a, .int t b =>
    (Out.ofOption env (joinTy s t)).bind fun ty env =>
      .val (.iter ((List.range' a (b + 1 - a)).map (.int ty))) env
  | _, _ => .stuck

/-- `e.k` -/
def field (env : Env) (k : Nat) : Value → Out Value
  | .tuple vs => Out.ofOption env vs[k]?
  | _ => .stuck

/-! ## Patterns -/

mutual
/-- The variables that a pattern binds, if the value matches it. -/
def bindPat : Pat → Value → Option Env
  | .wild, _ => some []
  | .bind x, v => some [(x, v)]
  | .int n, .int _ k => if k = n then some [] else none
  | .ctor x ps, .variant y vs => if x = y then bindPats ps vs else none
  | .tuple ps, .tuple vs => bindPats ps vs
  | _, _ => none
/-- The same for a list of patterns and values. -/
def bindPats : List Pat → List Value → Option Env
  | [], [] => some []
  | p :: ps, v :: vs =>
    match bindPat p v, bindPats ps vs with
    | some a, some b => some (a ++ b)
    | _, _ => none
  | _, _ => none
end

/-! ## Loops -/

/-- The outcome of one round of a loop: `continue` ends the round. -/
def Out.round : Out Value → Out Value
  | .val _ env => .val .unit env
  | .cont env => .val .unit env
  | o => o

/-- What follows a round of a loop. -/
def Out.andLoop (o : Out Value) (next : Env → Out Value) : Out Value :=
  match o with
  | .val _ env => next env
  | .brk env => .val .unit env
  | o => o

/-- A `for` loop over these items. -/
def forLoop (body : Value → Env → Out Value) : List Value → Env → Out Value
  | [], env => .val .unit env
  | v :: vs, env => (body v env).round.andLoop (forLoop body vs)

/-- One round of a `while` loop. `head` evaluates to the variables that the body begins with, or to
`none` at the end. -/
def whileRound (head : Env → Out (Option Env)) (body : Env → Out Value) (env : Env) : Out Value :=
  (head env).bind fun binds env =>
    match binds with
    | none => .brk env
    | some binds => ((body (binds ++ env)).scope env.length).round

/-- A `while` loop. -/
def whileLoop (head : Env → Out (Option Env)) (body : Env → Out Value) : Nat → Env → Out Value
  | 0, _ => .fault .diverge
  | fuel + 1, env => (whileRound head body env).andLoop (whileLoop head body fuel)

/-! ## Expressions -/

/-- The result of a call: the value, and the final values behind the `&mut` parameters. -/
abbrev CallResult := Except (Option Fault) (Value × List (Option Value))

/-- What an expression needs to know. -/
structure Ctx where
  target : Machine.Target
  /-- bound on the rounds of a loop -/
  fuel : Nat
  /-- calls of the functions in scope; `true` for paths that start with `super::` -/
  call : Bool → String → List Value → CallResult
  /-- calls of the functions of the modules in scope -/
  callIn : String → String → List Value → CallResult
  /-- the constants in scope -/
  const : String → Option Value

/-- Store through the expression, if it is a place or a `&mut` to one. -/
def writeBack : Expr → Value → Env → Env
  | .var x, v, env => set x v env
  | .refMut (.var x), v, env => set x v env
  | _, _, env => env

/-- Store what a call has left behind its `&mut` parameters. -/
def writeBacks : List Expr → List (Option Value) → Env → Env
  | a :: as, some v :: vs, env => writeBacks as vs (writeBack a v env)
  | _ :: as, none :: vs, env => writeBacks as vs env
  | _, _, env => env

/-- Assign to a variable. -/
def assignVar (x : String) (v : Value) (env : Env) : Out Value :=
  (Out.ofOption env (get x env)).bind fun old env =>
    (Out.ofOption env (coerce old v)).bind fun v env => .val .unit (set x v env)

/-- The array after a store to an element. -/
def storeElem (env : Env) : Value → Value → Value → Out Value
  | .arr vs, .int _ k, v =>
    (Out.ofRs env (index vs k)).bind fun old env =>
      (Out.ofOption env (coerce old v)).bind fun v env =>
        (Out.ofRs env (setIndex vs k v)).bind fun vs env => .val (.arr vs) env
  | _, _, _ => .stuck

/-- Assign to an element of an array in a variable. -/
def assignElem (x : String) (i v : Value) (env : Env) : Out Value :=
  (Out.ofOption env (get x env)).bind fun a env =>
    (storeElem env a i v).bind fun a env => .val .unit (set x a env)

/-- The array after a copy to a part of it. -/
def storeSlice (env : Env) : Value → Value → Value → Value → Out Value
  | .arr vs, .int _ lo, .int _ hi, .arr src =>
    (Out.ofRs env (copyFromSlice vs lo hi src)).bind fun vs env => .val (.arr vs) env
  | _, _, _, _ => .stuck

/-- Copy to a part of an array in a variable. -/
def copyTo (x : String) (lo hi src : Value) (env : Env) : Out Value :=
  (Out.ofOption env (get x env)).bind fun a env =>
    (storeSlice env a lo hi src).bind fun a env => .val .unit (set x a env)

/-- The next item of an iterator. -/
def nextOf (e : Expr) (env : Env) : Value → Out Value
  | .iter [] => .val (.variant "None" []) env
  | .iter (v :: vs) => .val (.variant "Some" [v]) (writeBack e (.iter vs) env)
  | _ => .stuck

/-- `c.encode_utf8(buf)`: the buffer has to be long enough. -/
def encodeTo (buf : Expr) (env : Env) : Value → Value → Out Value
  | .char c, .arr vs =>
    if (encodeUtf8 c).length ≤ vs.length then
      .val (.str [c]) (writeBack buf
        (.arr ((encodeUtf8 c).map byte ++ vs.drop (encodeUtf8 c).length)) env)
    else .fault .panic
  | _, _ => .stuck

/-- `!v` -/
def notOf (env : Env) : Value → Out Value
  | .bool b => .val (.bool !b) env
  | _ => .stuck

/-- Choose by a condition. -/
def branch (v : Value) (t e : Out Value) : Out Value :=
  match v with
  | .bool b => if b then t else e
  | _ => .stuck

/-- `v && …` -/
def andThen (env : Env) (v : Value) (o : Out Value) : Out Value := branch v o (.val (.bool false) env)

/-- `v || …` -/
def orElse (env : Env) (v : Value) (o : Out Value) : Out Value := branch v (.val (.bool true) env) o

/-- The condition of a `while` loop. -/
def condOf (env : Env) : Value → Out (Option Env)
  | .bool b => .val (if b then some [] else none) env
  | _ => .stuck

/-- Go on with the variables that a pattern binds, or else otherwise. -/
def withPat (p : Pat) (v : Value) (env : Env) (t : Env → Out Value) (e : Out Value) : Out Value :=
  match bindPat p v with
  | some b => t (b ++ env)
  | none => e

mutual
/-- `v == w` -/
def same : Value → Value → Bool
  | .unit, .unit => true
  | .int _ a, .int _ b => a == b
  | .char a, .char b => a == b
  | .bool a, .bool b => a == b
  | .str a, .str b => a == b
  | .arr vs, .arr ws => sames vs ws
  | .tuple vs, .tuple ws => sames vs ws
  | .variant x vs, .variant y ws => x == y && sames vs ws
  | .struct x fs vs, .struct y gs ws => x == y && fs == gs && sames vs ws
  | _, _ => false
/-- The same for lists. -/
def sames : List Value → List Value → Bool
  | [], [] => true
  | v :: vs, w :: ws => same v w && sames vs ws
  | _, _ => false
end

/-- The value of a variable or else a constant. -/
def varOf (C : Ctx) (x : String) (env : Env) : Out Value :=
  match get x env with
  | some v => .val v env
  | none => Out.ofOption env (C.const x)

/-- After a call. -/
def returned (args : List Expr) (env : Env) : CallResult → Out Value
  | .ok (v, muts) => .val v (writeBacks args muts env)
  | .error (some f) => .fault f
  | .error none => .stuck

/-- A `for` loop. -/
def forOf (body : Value → Env → Out Value) (env : Env) : Value → Out Value
  | .iter vs => forLoop body vs env
  | _ => .stuck

/-- `for x in y.iter_mut() { … }`: each item is the variable `x` in one round, and what that round
leaves in it replaces the item. `done` has the items of the rounds before. The items go back to `y`
at the end, since `y` cannot be used before. -/
def mutLoop (x y : String) (body : Env → Out Value) :
    List Value → List Value → Env → Out Value
  | done, [], env => .val .unit (set y (.arr done) env)
  | done, v :: vs, env =>
    match (body ((x, v) :: env)).round with
    | .val _ ((_, w) :: env) => mutLoop x y body (done ++ [w]) vs env
    | .brk ((_, w) :: env) => .val .unit (set y (.arr (done ++ w :: vs)) env)
    | .fault f => .fault f
    | _ => .stuck

/-- The same for the value of `y`. -/
def mutLoopOf (x y : String) (body : Env → Out Value) (env : Env) : Value → Out Value
  | .arr vs => mutLoop x y body [] vs env
  | _ => .stuck

/-- The keys of the elements of an array, by a closure. -/
def keys (f : Value → Out Value) : List Value → Option (List Char)
  | [] => some []
  | v :: vs =>
    match f v, keys f vs with
    | .val (.char c) _, some cs => some (c :: cs)
    | _, _ => none

/-- Binary search for a char. -/
def searchOf (env : Env) (f : Value → Out Value) : Value → Value → Out Value
  | .arr vs, .char k =>
    (Out.ofOption env (keys f vs)).bind fun cs env =>
      (Out.ofRs env (binarySearchByKey cs (fun c => c) k)).bind fun r env =>
        match r with
        | some i => .val (.variant "Ok" [.int .usize i]) env
        | none => .val (.variant "Err" []) env
  | _, _ => .stuck

mutual
/-- The outcome of an expression. -/
def eval (C : Ctx) : Expr → Env → Out Value
  | .unit, env => .val .unit env
  | .int ty n, env => .val (.int ty n) env
  | .bool b, env => .val (.bool b) env
  | .char c, env => .val (.char c) env
  | .str s, env => .val (.str s) env
  | .var x, env => varOf C x env
  | .variant x, env => .val (.variant x []) env
  | .not e, env => (eval C e env).bind fun v env => notOf env v
  | .ref e, env => eval C e env
  | .refMut e, env => eval C e env
  | .bin .land a b, env => (eval C a env).bind fun v env =>
    andThen env v (eval C b env)
  | .bin .lor a b, env => (eval C a env).bind fun v env =>
    orElse env v (eval C b env)
  | .bin op a b, env => (eval C a env).bind fun v env => (eval C b env).bind fun w env =>
    binOp C.target env op v w
  | .assign (.var x) e, env => (eval C e env).bind fun v env => assignVar x v env
  | .assign (.index (.var x) i) e, env => (eval C e env).bind fun v env =>
    (eval C i env).bind fun i env => assignElem x i v env
  | .assign _ _, _ => .stuck
  | .opAssign op (.var x) e, env => (eval C e env).bind fun v env =>
    (Out.ofOption env (get x env)).bind fun old env =>
      (binOp C.target env op old v).bind fun v env => assignVar x v env
  | .opAssign _ _ _, _ => .stuck
  | .ctor x e, env => (eval C e env).bind fun v env => .val (.variant x [v]) env
  | .call up f args, env => (evalList C args env).bind fun vs env =>
    returned args env (C.call up f vs)
  | .callIn m f args, env => (evalList C args env).bind fun vs env =>
    returned args env (C.callIn m f vs)
  | .assertEq a b, env => (eval C a env).bind fun v env => (eval C b env).bind fun w env =>
    if same v w then .val .unit env else .fault .panic
  | .panic, _ => .fault .panic
  -- only as the value of a constant: see `Tests.lean`
  | .includeBytes _, _ => .stuck
  | .std f e, env => (eval C e env).bind fun v env => stdFn C.target env f v
  | .method (.slice (.var x) lo hi) .copy_from_slice [e], env => (eval C lo env).bind fun lo env =>
    (eval C hi env).bind fun hi env => (eval C e env).bind fun v env => copyTo x lo hi v env
  | .method (.sliceTo (.var x) hi) .copy_from_slice [e], env => (eval C hi env).bind fun hi env =>
    (eval C e env).bind fun v env => copyTo x (.int .usize 0) hi v env
  | .method (.var x) .extend [e], env => (eval C e env).bind fun v env =>
    (Out.ofOption env (get x env)).bind fun a env =>
      (extended env a v).bind fun a env => .val .unit (set x a env)
  | .method (.var x) .extend_from_slice [e], env => (eval C e env).bind fun v env =>
    (Out.ofOption env (get x env)).bind fun a env =>
      (extended env a v).bind fun a env => .val .unit (set x a env)
  | .method e .next [], env => (eval C e env).bind fun v env => nextOf e env v
  | .method e .encode_utf8 [b], env => (eval C e env).bind fun c env =>
    (eval C b env).bind fun v env => encodeTo b env c v
  | .method e .binary_search_by_key [k, .closure x body], env => (eval C e env).bind fun v env =>
    (eval C k env).bind fun k env => searchOf env (fun v => eval C body ((x, v) :: env)) v k
  | .method e f [], env => (eval C e env).bind fun v env => method0 C.target env f v
  | .method e f [a], env => (eval C e env).bind fun v env => (eval C a env).bind fun a env =>
    method1 env f v a
  | .method _ _ _, _ => .stuck
  | .proj e k, env => (eval C e env).bind fun v env => field env k v
  | .index e i, env => (eval C e env).bind fun v env => (eval C i env).bind fun i env =>
    indexOf env v i
  | .slice e lo hi, env => (eval C e env).bind fun v env => (eval C lo env).bind fun lo env =>
    (eval C hi env).bind fun hi env => sliceRange env v lo hi
  | .sliceTo e hi, env => (eval C e env).bind fun v env => (eval C hi env).bind fun hi env =>
    slicePrefix env v hi
  | .sliceFrom e lo, env => (eval C e env).bind fun v env => (eval C lo env).bind fun lo env =>
    sliceSuffix env v lo
  | .sliceAll e, env => (eval C e env).bind fun v env => sliceWhole env v
  | .cast e ty, env => (eval C e env).bind fun v env => castTo C.target env ty v
  | .asChar e, env => (eval C e env).bind fun v env => castToChar env v
  | .rangeIncl lo hi, env => (eval C lo env).bind fun lo env => (eval C hi env).bind fun hi env =>
    rangeOf env lo hi
  | .tuple es, env => (evalList C es env).bind fun vs env => .val (.tuple vs) env
  | .array es, env => (evalList C es env).bind fun vs env => .val (.arr vs) env
  | .vec e n, env => (eval C e env).bind fun v env => (eval C n env).bind fun n env => vecOf env v n
  | .rep e n, env => (eval C e env).bind fun v env => .val (.arr (List.replicate n v)) env
  | .struct x fs es, env => (evalList C es env).bind fun vs env => .val (.struct x fs vs) env
  | .block e, env => (eval C e env).scope env.length
  | .ite c t e, env => (eval C c env).bind fun v env => branch v (eval C t env) (eval C e env)
  | .iteLet p s t e, env => (eval C s env).bind fun v env =>
    withPat p v env (fun env' => (eval C t env').scope env.length) (eval C e env)
  | .matchOn s ps es, env => (eval C s env).bind fun v env => evalArms C v ps es env
  | .whileDo c b, env =>
    whileLoop (fun env => (eval C c env).bind fun v env => condOf env v)
      (fun env => eval C b env) C.fuel env
  | .whileLet p s b, env =>
    whileLoop (fun env => (eval C s env).bind fun v env => .val (bindPat p v) env)
      (fun env => eval C b env) C.fuel env
  | .forMut x y b, env =>
    (Out.ofOption env (get y env)).bind fun a env => mutLoopOf x y (fun env => eval C b env) env a
  | .forIn p s b, env => (eval C s env).bind fun v env =>
    forOf (fun v env => withPat p v env (fun env' => (eval C b env').scope env.length) .stuck) env v
  | .break, env => .brk env
  | .continue, env => .cont env
  | .return e, env => (eval C e env).bind fun v env => .ret v env
  | .closure _ _, _ => .stuck
  | .letIn p e rest, env => (eval C e env).bind fun v env =>
    withPat p v env (fun env => eval C rest env) .stuck
  | .seq e rest, env => (eval C e env).bind fun _ env => eval C rest env
/-- The outcome of several expressions, from left to right. -/
def evalList (C : Ctx) : List Expr → Env → Out (List Value)
  | [], env => .val [] env
  | e :: es, env => (eval C e env).bind fun v env => (evalList C es env).bind fun vs env =>
    .val (v :: vs) env
/-- The first arm of a `match` with a pattern that fits. -/
def evalArms (C : Ctx) (v : Value) : List Pat → List Expr → Env → Out Value
  | p :: ps, e :: es, env =>
    withPat p v env (fun env' => (eval C e env').scope env.length) (evalArms C v ps es env)
  | _, _, _ => .stuck
end

/-! ## Functions and modules -/

/-- A module with the modules around it, the innermost first. -/
abbrev Scope := List (List Item)

/-- The function of this name among the items. -/
def fnIn (name : String) : List Item → Option (List (String × Bool) × Expr)
  | [] => none
  | .fn x ps b :: is => if x = name then some (ps, b) else fnIn name is
  | _ :: is => fnIn name is

/-- The constant of this name among the items. -/
def constIn (name : String) : List Item → Option Expr
  | [] => none
  | .const x e :: is => if x = name then some e else constIn name is
  | _ :: is => constIn name is

/-- The items have `use super::*;`. -/
def usesSuper : List Item → Bool
  | [] => false
  | .useSuper :: _ => true
  | _ :: is => usesSuper is

/-- The function of this name in scope, with the scope that its body has. -/
def findFn (name : String) : Scope → Option (Scope × List (String × Bool) × Expr)
  | [] => none
  | is :: sc =>
    match fnIn name is with
    | some f => some (is :: sc, f)
    | none => if usesSuper is then findFn name sc else none

/-- The value of the constant of this name in the module: a constant is made of literals. -/
def constOf (m : Machine.Target) : Scope → String → Option Value
  | is :: _, name =>
    match constIn name is with
    | some e =>
      match eval ⟨m, 0, fun _ _ _ => .error none, fun _ _ _ => .error none, fun _ => none⟩ e [] with
      | .val v _ => some v
      | _ => none
    | none => none
  | [], _ => none

/-- The final values behind the `&mut` parameters. -/
def finals (env : Env) (ps : List (String × Bool)) : List (Option Value) :=
  ps.map fun p => if p.2 then get p.1 env else none

/-- The result of a call from the outcome of the body. -/
def result (ps : List (String × Bool)) : Out Value → CallResult
  | .val v env => .ok (v, finals env ps)
  | .ret v env => .ok (v, finals env ps)
  | .fault f => .error (some f)
  | _ => .error none

/-- A call. The crate has no calls of the form `m::f(…)`. `fuel` bounds the rounds of loops, `depth` the depth of calls. -/
def invoke (m : Machine.Target) (fuel : Nat) : Nat → Scope → String → List Value → CallResult
  | 0, _, _, _ => .error (some .diverge)
  | depth + 1, sc, name, vs =>
    match findFn name sc with
    | none => .error none
    | some (sc, ps, body) =>
      if ps.length = vs.length then
        result ps (eval
          ⟨m, fuel, fun up f vs => invoke m fuel depth (if up then sc.tail else sc) f vs,
            fun _ _ _ => .error none, constOf m sc⟩
          body ((ps.map (·.1)).zip vs))
      else .error none

end Verif.Lang
