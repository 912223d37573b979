import Verif.Proof.Py.Attr
import Verif.Py.Semantics

/-! # Lemmas for running programs -/

namespace Verif.Py

open Generator

@[py] theorem Env.set_apply (env : Env) (x : String) (v : Val) (y : String) :
    env.set x v y = if y = x then some v else env y := rfl

@[py] theorem Env.unset_apply (env : Env) (x y : String) :
    env.unset x y = if y = x then none else env y := rfl

@[py] theorem Res.bind_ok {α β : Type} (a : α) (w : World) (k : α → World → Res β) :
    (Res.ok a w).bind k = k a w := rfl
@[py] theorem Res.bind_exc {α β : Type} (e : Exn) (w : World) (k : α → World → Res β) :
    (Res.exc e w).bind k = .exc e w := rfl
@[py] theorem Res.then_ok {α : Type} (a : α) (w : World) (k : α → World → Out) :
    (Res.ok a w).then k = k a w := rfl
@[py] theorem Res.then_exc {α : Type} (e : Exn) (w : World) (k : α → World → Out) :
    (Res.exc e w : Res α).then k = .exc e w := rfl
@[py] theorem Out.bind_norm (env : Env) (w : World) (k : Env → World → Out) :
    (Out.norm env w).bind k = k env w := rfl
@[py] theorem Out.bind_cont (env : Env) (w : World) (k : Env → World → Out) :
    (Out.cont env w).bind k = .cont env w := rfl
@[py] theorem Out.bind_exc (e : Exn) (w : World) (k : Env → World → Out) :
    (Out.exc e w).bind k = .exc e w := rfl
@[py] theorem Out.bind_ret (v : Val) (w : World) (k : Env → World → Out) :
    (Out.ret v w).bind k = .ret v w := rfl
@[py] theorem known_some {α : Type} (a : α) (w : World) : known (some a) w = .ok a w := rfl

@[py] theorem truth_bool (b : Bool) : (Val.bool b).truth = some b := rfl
@[py] theorem items_list (vs : List Val) : (Val.list vs).items = some vs := rfl
@[py] theorem items_tuple (vs : List Val) : (Val.tuple vs).items = some vs := rfl
@[py] theorem items_iter (vs : List Val) : (Val.iter vs).items = some vs := rfl
@[py] theorem once_list (vs : List Val) : (Val.list vs).once = false := rfl

/-! ## Operations -/

@[py] theorem compare_lt (a b : Int) : compare' .lt (.int a) (.int b) = some (decide (a < b)) := rfl
@[py] theorem compare_gt (a b : Int) : compare' .gt (.int a) (.int b) = some (decide (a > b)) := rfl
@[py] theorem compare_ge (a b : Int) : compare' .ge (.int a) (.int b) = some (decide (a ≥ b)) := rfl
@[py] theorem compare_eq (a b : Int) : compare' .eq (.int a) (.int b) = some (a == b) := rfl
@[py] theorem compare_ne (a b : Int) : compare' .ne (.int a) (.int b) = some !(a == b) := rfl
@[py] theorem compare_in_set (a : Val) (vs : List Val) :
    compare' .in_ a (.set vs) = member a vs := by cases a <;> rfl
@[py] theorem compare_in_list (a : Val) (vs : List Val) :
    compare' .in_ a (.list vs) = member a vs := by cases a <;> rfl
@[py] theorem compare_notIn_set (a : Val) (vs : List Val) :
    compare' .notIn a (.set vs) = (member a vs).map (!·) := by cases a <;> rfl
@[py] theorem compare_is_none : compare' .is_ .none .none = some true := rfl
@[py] theorem compare_is_int (a : Int) : compare' .is_ (.int a) .none = some false := rfl

@[py] theorem binary_add (w : World) (a b : Int) :
    binary .add w (.int a) (.int b) = .ok (.int (a + b)) w := rfl
@[py] theorem binary_sub (w : World) (a b : Int) :
    binary .sub w (.int a) (.int b) = .ok (.int (a - b)) w := rfl
@[py] theorem binary_mul (w : World) (a b : Int) :
    binary .mul w (.int a) (.int b) = .ok (.int (a * b)) w := rfl
@[py] theorem binary_floordiv (w : World) (a b : Int) :
    binary .floordiv w (.int a) (.int b) =
      if b = 0 then .exc .zeroDivision w else .ok (.int (a.fdiv b)) w := rfl
@[py] theorem binary_mod (w : World) (a b : Int) :
    binary .mod w (.int a) (.int b) =
      if b = 0 then .exc .zeroDivision w else .ok (.int (a.fmod b)) w := rfl
@[py] theorem binary_str (w : World) (a b : Text) :
    binary .add w (.str a) (.str b) = .ok (.str (a ++ b)) w := rfl

@[py] theorem augAdd_int (a b : Int) : augAdd (.int a) (.int b) = some (.int (a + b)) := rfl
@[py] theorem augAdd_list (a b : List Val) : augAdd (.list a) (.list b) = some (.list (a ++ b)) := rfl

@[py] theorem item_zero (v : Val) (vs : List Val) (w : World) : item (v :: vs) 0 w = .ok v w := by
  simp [item]
@[py] theorem item_one (v u : Val) (vs : List Val) (w : World) : item (v :: u :: vs) 1 w = .ok u w := by
  simp [item]
theorem item_nat (vs : List Val) (i : Nat) (w : World) : item vs i w =
    match vs[i]? with
    | some v => .ok v w
    | none => .exc .index w := by
  have h : ¬ (i : Int) < 0 := by omega
  simp only [item, h, if_false, Int.toNat_natCast]
  rfl

@[py] theorem frozen_none : Val.none.frozen = true := rfl
@[py] theorem frozen_int (n : Int) : (Val.int n).frozen = true := rfl
@[py] theorem frozen_str (s : Text) : (Val.str s).frozen = true := rfl
@[py] theorem frozen_tuple (vs : List Val) : (Val.tuple vs).frozen = Val.allFrozen vs := rfl
@[py] theorem allFrozen_nil : Val.allFrozen [] = true := rfl
@[py] theorem allFrozen_cons (v : Val) (vs : List Val) :
    Val.allFrozen (v :: vs) = (v.frozen && Val.allFrozen vs) := rfl
@[py] theorem frozenItems_eq (vs : List Val) (w : World) : frozenItems vs w =
    if Val.allFrozen vs then .ok vs w else .stuck := rfl

@[py] theorem consume_iter (x : String) (vs : List Val) (env : Env) :
    consume (.name x) (.iter vs) env = env.unset x := rfl
@[py] theorem consume_list (e : Expr) (vs : List Val) (env : Env) :
    consume e (.list vs) env = env := by cases e <;> rfl
@[py] theorem consume_call (f : String) (es : List Expr) (v : Val) (env : Env) :
    consume (.call f es) v env = env := rfl

@[py] theorem files_put (w : World) (p q : Text) (c : Content) :
    (w.put p c).files q = if q = p then some c else w.files q := rfl
@[py] theorem opened_put (w : World) (p : Text) (c : Content) : (w.put p c).opened = w.opened := rfl
@[py] theorem files_opening (w : World) (p q : Text) : (w.opening p).files q = w.files q := rfl
@[py] theorem opened_opening (w : World) (p : Text) : (w.opening p).opened = p :: w.opened := rfl
@[py] theorem put_opening (w : World) (p q : Text) (c : Content) :
    (w.opening q).put p c = (w.put p c).opening q := rfl
@[py] theorem put_put (w : World) (p : Text) (c d : Content) : (w.put p c).put p d = w.put p d := by
  simp only [World.put, World.mk.injEq, and_true]
  funext q
  split <;> rfl
theorem put_self (w : World) (p : Text) (c : Content) (h : w.files p = some c) : w.put p c = w := by
  cases w
  simp only [World.put, World.mk.injEq, and_true]
  funext q
  split
  · next e => rw [e]; exact h.symm
  · rfl

theorem toInt_some {base n : Nat} {s : Text} (h : pyInt base s = some n) (w : World) :
    toInt base s w = .ok (.int n) w := by simp [toInt, h]
theorem toInt_none {base : Nat} {s : Text} (h : pyInt base s = none) (hp : isPlain s = true)
    (w : World) : toInt base s w = .exc .value w := by simp [toInt, h, hp]

theorem write_text {w : World} {p t : Text} (h : w.files p = some (.text t)) (s : Text) :
    write p (.str s) w = .ok (.int s.length) (w.put p (.text (t ++ s))) := by simp [write, h]
@[py] theorem write_put_text (w : World) (p t s : Text) :
    write p (.str s) (w.put p (.text t)) = .ok (.int s.length) (w.put p (.text (t ++ s))) := by
  rw [write_text (t := t) (by simp [py]), put_put]
theorem write_data {w : World} {p : Text} {b : Bytes} (h : w.files p = some (.data b)) (c : Bytes) :
    write p (.bytes c) w = .ok (.int c.length) (w.put p (.data (b ++ c))) := by simp [write, h]

section
variable (calls : Calls) (fuel : Nat) (env : Env) (w : World)

/-! ## Statements -/

@[py] theorem exec_seq (a b : Stmt) : exec calls fuel (.seq a b) env w =
    (exec calls fuel a env w).bind fun env w => exec calls fuel b env w := by rw [exec]
theorem exec_seq_norm {calls : Calls} {fuel : Nat} {env env' : Env} {w w' : World} {a : Stmt} (b : Stmt)
    (h : exec calls fuel a env w = .norm env' w') :
    exec calls fuel (.seq a b) env w = exec calls fuel b env' w' := by
  rw [exec_seq, h]
  rfl
theorem exec_seq_exc {calls : Calls} {fuel : Nat} {env : Env} {w w' : World} {a : Stmt} {e : Exn}
    (b : Stmt) (h : exec calls fuel a env w = .exc e w') :
    exec calls fuel (.seq a b) env w = .exc e w' := by
  rw [exec_seq, h]
  rfl
@[py] theorem exec_skip : exec calls fuel .skip env w = .norm env w := by rw [exec]
@[py] theorem exec_assign (x : String) (e : Expr) : exec calls fuel (.assign x e) env w =
    (eval calls e env w).then fun v w => .norm (env.set x v) w := by rw [exec]
@[py] theorem exec_augAdd (x : String) (e : Expr) : exec calls fuel (.augAdd x e) env w =
    (eval calls e env w).then fun v w =>
      (known ((env x).bind fun u => augAdd u v) w).then fun v w => .norm (env.set x v) w := by rw [exec]
@[py] theorem exec_augAnd (x : String) (e : Expr) : exec calls fuel (.augAnd x e) env w =
    (eval calls e env w).then fun v w =>
      (known ((env x).bind fun u => augAnd u v) w).then fun v w => .norm (env.set x v) w := by rw [exec]
@[py] theorem exec_ite (c : Expr) (a b : Stmt) : exec calls fuel (.ite c a b) env w =
    (eval calls c env w).then fun c w => (known c.truth w).then fun c w =>
      if c then exec calls fuel a env w else exec calls fuel b env w := by rw [exec]
@[py] theorem exec_while (c : Expr) (b : Stmt) : exec calls fuel (.whileDo c b) env w =
    whileLoop (fun env w => eval calls c env w) (fun env w => exec calls fuel b env w) fuel env w := by
  rw [exec]
@[py] theorem exec_for (t : Target) (e : Expr) (b : Stmt) : exec calls fuel (.forIn t e b) env w =
    (eval calls e env w).then fun v w => (known v.items w).then fun vs w =>
      forLoop (fun env w => exec calls fuel b env w) t vs (consume e v env) w := by rw [exec]
@[py] theorem exec_continue : exec calls fuel .continue env w = .cont env w := by rw [exec]
@[py] theorem exec_return (e : Expr) : exec calls fuel (.return e) env w =
    (eval calls e env w).then fun v w => .ret v w := by rw [exec]
@[py] theorem exec_raise (e : Expr) : exec calls fuel (.raise e) env w =
    (eval calls e env w).then fun v w =>
    match v with
    | .exn msg => .exc (.exception msg) w
    | _ => .stuck := by rw [exec]; rfl
@[py] theorem exec_write (x : String) (e : Expr) : exec calls fuel (.expr (.method (.name x) "write" [e])) env w =
    (eval calls (.method (.name x) "write" [e]) env w).then fun _ w => .norm env w := by
  rw [exec] <;> simp
@[py] theorem exec_call (f : String) (args : List Expr) : exec calls fuel (.expr (.call f args)) env w =
    (eval calls (.call f args) env w).then fun _ w => .norm env w := by
  rw [exec] <;> simp
@[py] theorem exec_doc (s : Text) : exec calls fuel (.expr (.str s)) env w = .norm env w := by
  rw [exec, eval] <;> simp [Res.then]
@[py] theorem exec_sort (x : String) : exec calls fuel (.expr (.method (.name x) "sort" [])) env w =
    (known ((env x).bind fun v => change v "sort" []) w).then fun v w => .norm (env.set x v) w := by
  rw [exec, exec.changeVar]
@[py] theorem exec_reverse (x : String) : exec calls fuel (.expr (.method (.name x) "reverse" [])) env w =
    (known ((env x).bind fun v => change v "reverse" []) w).then fun v w => .norm (env.set x v) w := by
  rw [exec, exec.changeVar]
@[py] theorem exec_add (x : String) (e : Expr) : exec calls fuel (.expr (.method (.name x) "add" [e])) env w =
    (eval calls e env w).then fun u w =>
    (known ((env x).bind fun v => change v "add" [u]) w).then fun v w => .norm (env.set x v) w := by
  rw [exec]
  rfl

/-! ## Functions and methods of Python -/

theorem builtin_len (vs : List Val) : builtin "len" [.list vs] [] w = .ok (.int vs.length) w := by
  simp [builtin]
theorem builtin_range (a b : Int) :
    builtin "range" [.int a, .int b] [] w = .ok (.iter (range a b)) w := by simp [builtin]
theorem builtin_enumerate (vs : List Val) :
    builtin "enumerate" [.list vs] [] w = .ok (.iter (enumerate 0 vs)) w := by simp [builtin]
theorem builtin_int (s : Text) : builtin "int" [.str s] [] w = toInt 10 s w := by simp [builtin]
theorem builtin_int16 (s : Text) : builtin "int" [.str s, .int 16] [] w = toInt 16 s w := by
  simp [builtin]
theorem builtin_set : builtin "set" [] [] w = .ok (.set []) w := by simp [builtin]
theorem builtin_chr (n : Int) : builtin "chr" [.int n] [] w =
    if n < -0x80000000 ∨ 0x7FFFFFFF < n then .exc .overflow w
    else if 0 ≤ n ∧ n ≤ 0x10FFFF then .ok (.str [n.toNat]) w
    else .exc .value w := by simp [builtin]
theorem builtin_bytes_list (vs : List Val) : builtin "bytes" [.list vs] [] w =
    (byteVals w vs).bind fun b w => .ok (.bytes b) w := by simp [builtin]
theorem builtin_bytes_tuple (vs : List Val) : builtin "bytes" [.tuple vs] [] w =
    (byteVals w vs).bind fun b w => .ok (.bytes b) w := by simp [builtin]
theorem builtin_bytes_nl : builtin "bytes" [.str (text! "\n"), .str (text! "utf-8")] [] w =
    .ok (.bytes [0x0A]) w := by
  simp only [builtin, if_true]
  rfl
theorem builtin_open (path : Text) : builtin "open" [.str path] [] w = openRead path w := by
  simp [builtin]
theorem builtin_open_w (path : Text) : builtin "open" [.str path] [("mode", .str (text! "w"))] w =
    openWrite path (.text []) w := by simp only [builtin, openMode, if_true]
theorem builtin_open_wb (path : Text) : builtin "open" [.str path, .str (text! "wb")] [] w =
    openWrite path (.data []) w := by simp only [builtin, openMode, if_true]; rfl
theorem builtin_Exception (msg : Text) : builtin "Exception" [.str msg] [] w = .ok (.exn msg) w := by
  simp [builtin]

@[py] theorem method_split (s : Text) : method (.str s) "split" [] w =
    .ok (.list ((split s []).map .str)) w := by simp [method]
@[py] theorem method_startswith (s p : Text) : method (.str s) "startswith" [.str p] w =
    .ok (.bool (p.isPrefixOf s)) w := by simp [method]
@[py] theorem method_encode (s : Text) : method (.str s) "encode" [.str (text! "utf-8")] w =
    match utf8 s with
    | some b => .ok (.bytes b) w
    | none => .exc .value w := by simp only [method, if_true]; rfl
@[py] theorem method_format (s : Text) (vs : List Val) : method (.str s) "format" vs w =
    match format s vs with
    | some t => .ok (.str t) w
    | none => .stuck := by simp only [method]; rfl
@[py] theorem method_write (path : Text) (v : Val) : method (.file path) "write" [v] w = write path v w := by
  simp [method]

/-- The functions of Python have not been replaced. -/
structure Plain (calls : Calls) : Prop where
  len : calls "len" = none
  range : calls "range" = none
  enumerate : calls "enumerate" = none
  int : calls "int" = none
  set : calls "set" = none
  chr : calls "chr" = none
  bytes : calls "bytes" = none
  open_ : calls "open" = none
  Exception : calls "Exception" = none

variable {calls} (hc : Plain calls)
include hc

@[py] theorem invoke_len (vs : List Val) : invoke calls "len" [.list vs] [] w = .ok (.int vs.length) w := by
  rw [invoke, hc.len]; exact builtin_len ..
@[py] theorem invoke_range (a b : Int) :
    invoke calls "range" [.int a, .int b] [] w = .ok (.iter (range a b)) w := by
  rw [invoke, hc.range]; exact builtin_range ..
@[py] theorem invoke_enumerate (vs : List Val) :
    invoke calls "enumerate" [.list vs] [] w = .ok (.iter (enumerate 0 vs)) w := by
  rw [invoke, hc.enumerate]; exact builtin_enumerate ..
@[py] theorem invoke_int (s : Text) : invoke calls "int" [.str s] [] w = toInt 10 s w := by
  rw [invoke, hc.int]; exact builtin_int ..
@[py] theorem invoke_int16 (s : Text) : invoke calls "int" [.str s, .int 16] [] w = toInt 16 s w := by
  rw [invoke, hc.int]; exact builtin_int16 ..
@[py] theorem invoke_set : invoke calls "set" [] [] w = .ok (.set []) w := by
  rw [invoke, hc.set]; exact builtin_set ..
theorem invoke_chr (n : Int) : invoke calls "chr" [.int n] [] w =
    if n < -0x80000000 ∨ 0x7FFFFFFF < n then .exc .overflow w
    else if 0 ≤ n ∧ n ≤ 0x10FFFF then .ok (.str [n.toNat]) w
    else .exc .value w := by
  rw [invoke, hc.chr]; exact builtin_chr ..
theorem invoke_bytes_list (vs : List Val) : invoke calls "bytes" [.list vs] [] w =
    (byteVals w vs).bind fun b w => .ok (.bytes b) w := by
  rw [invoke, hc.bytes]; exact builtin_bytes_list ..
theorem invoke_bytes_tuple (vs : List Val) : invoke calls "bytes" [.tuple vs] [] w =
    (byteVals w vs).bind fun b w => .ok (.bytes b) w := by
  rw [invoke, hc.bytes]; exact builtin_bytes_tuple ..
@[py] theorem invoke_bytes_nl : invoke calls "bytes" [.str (text! "\n"), .str (text! "utf-8")] [] w =
    .ok (.bytes [0x0A]) w := by
  rw [invoke, hc.bytes]; exact builtin_bytes_nl ..
@[py] theorem invoke_open (path : Text) : invoke calls "open" [.str path] [] w = openRead path w := by
  rw [invoke, hc.open_]; exact builtin_open ..
@[py] theorem invoke_open_w (path : Text) : invoke calls "open" [.str path] [("mode", .str (text! "w"))] w =
    openWrite path (.text []) w := by
  rw [invoke, hc.open_]; exact builtin_open_w ..
@[py] theorem invoke_open_wb (path : Text) : invoke calls "open" [.str path, .str (text! "wb")] [] w =
    openWrite path (.data []) w := by
  rw [invoke, hc.open_]; exact builtin_open_wb ..
@[py] theorem invoke_Exception (msg : Text) : invoke calls "Exception" [.str msg] [] w = .ok (.exn msg) w := by
  rw [invoke, hc.Exception]; exact builtin_Exception ..

end

@[py] theorem write_put_data (w : World) (p : Text) (b c : Bytes) :
    write p (.bytes c) (w.put p (.data b)) = .ok (.int c.length) (w.put p (.data (b ++ c))) := by
  rw [write_data (b := b) (by simp [py]), put_put]

attribute [py] Int.ofNat_inj Int.ofNat_lt eval evals evalArgs evalIf List.isEmpty_nil

end Verif.Py
