import Verif.Lang.Semantics

/-!
# Symbolic execution

Rules that run a program of known text from variables whose values are known only in part, up to the
next operation that can fault or the next condition.
-/

namespace Verif.Lang

/-- Go on after an operation that can fault. -/
def onRs {α β : Type} (r : Rs α) (k : α → Out β) : Out β :=
  match r with
  | .ok a => k a
  | .error f => .fault f

/-! ## The rules -/

theorem bind_val {α β : Type} (a : α) (env : Env) (k : α → Env → Out β) :
    (Out.val a env).bind k = k a env := rfl
theorem bind_fault {α β : Type} (f : Fault) (k : α → Env → Out β) :
    (Out.fault f).bind k = .fault f := rfl
theorem bind_brk {α β : Type} (env : Env) (k : α → Env → Out β) :
    (Out.brk env : Out α).bind k = .brk env := rfl
theorem bind_cont {α β : Type} (env : Env) (k : α → Env → Out β) :
    (Out.cont env : Out α).bind k = .cont env := rfl
theorem bind_ret {α β : Type} (v : Value) (env : Env) (k : α → Env → Out β) :
    (Out.ret v env : Out α).bind k = .ret v env := rfl
theorem bind_on {α β γ : Type} (r : Rs α) (j : α → Out β) (k : β → Env → Out γ) :
    (onRs r j).bind k = onRs r fun a => (j a).bind k := by
  cases r <;> rfl
theorem bind_ite {α β : Type} (p : Prop) [Decidable p] (a b : Out α) (k : α → Env → Out β) :
    (if p then a else b).bind k = if p then a.bind k else b.bind k := by
  by_cases h : p
  · rw [if_pos h, if_pos h]
  · rw [if_neg h, if_neg h]

theorem scope_val {α : Type} (n : Nat) (a : α) (env : Env) :
    (Out.val a env).scope n = .val a (trim n env) := rfl
theorem scope_fault {α : Type} (n : Nat) (f : Fault) : (Out.fault f : Out α).scope n = .fault f := rfl
theorem scope_brk {α : Type} (n : Nat) (env : Env) :
    (Out.brk env : Out α).scope n = .brk (trim n env) := rfl
theorem scope_cont {α : Type} (n : Nat) (env : Env) :
    (Out.cont env : Out α).scope n = .cont (trim n env) := rfl
theorem scope_ret {α : Type} (n : Nat) (v : Value) (env : Env) :
    (Out.ret v env : Out α).scope n = .ret v (trim n env) := rfl
theorem scope_on {α β : Type} (n : Nat) (r : Rs α) (k : α → Out β) :
    (onRs r k).scope n = onRs r fun a => (k a).scope n := by
  cases r <;> rfl
theorem scope_ite {α : Type} (n : Nat) (p : Prop) [Decidable p] (a b : Out α) :
    (if p then a else b).scope n = if p then a.scope n else b.scope n := by
  by_cases h : p
  · rw [if_pos h, if_pos h]
  · rw [if_neg h, if_neg h]

theorem round_val (v : Value) (env : Env) : (Out.val v env).round = .val .unit env := rfl
theorem round_fault (f : Fault) : (Out.fault f).round = .fault f := rfl
theorem round_brk (env : Env) : (Out.brk env).round = .brk env := rfl
theorem round_cont (env : Env) : (Out.cont env).round = .val .unit env := rfl
theorem round_ret (v : Value) (env : Env) : (Out.ret v env).round = .ret v env := rfl
theorem round_on {α : Type} (r : Rs α) (k : α → Out Value) :
    (onRs r k).round = onRs r fun a => (k a).round := by
  cases r <;> rfl
theorem round_ite (p : Prop) [Decidable p] (a b : Out Value) :
    (if p then a else b).round = if p then a.round else b.round := by
  by_cases h : p
  · rw [if_pos h, if_pos h]
  · rw [if_neg h, if_neg h]

theorem ofRs_bind {α β : Type} (env : Env) (r : Rs α) (k : α → Env → Out β) :
    (Out.ofRs env r).bind k = onRs r fun a => k a env := by
  cases r <;> rfl
theorem ofRs_eq {α : Type} (env : Env) (r : Rs α) :
    Out.ofRs env r = onRs r fun a => .val a env := by
  cases r <;> rfl
theorem ofOption_some {α : Type} (env : Env) (a : α) : Out.ofOption env (some a) = .val a env := rfl

theorem on_ok {α β : Type} (a : α) (k : α → Out β) : onRs (.ok a) k = k a := rfl
theorem on_error {α β : Type} (f : Fault) (k : α → Out β) : onRs (.error f : Rs α) k = .fault f := rfl
theorem on_map {α β γ : Type} (f : α → β) (r : Rs α) (k : β → Out γ) :
    onRs (r.map f) k = onRs r fun a => k (f a) := by
  cases r <;> rfl
theorem on_bind {α β γ : Type} (r : Rs α) (j : α → Rs β) (k : β → Out γ) :
    onRs (r >>= j) k = onRs r fun a => onRs (j a) k := by
  cases r <;> rfl
theorem on_on {α β γ : Type} (r : Rs α) (j : α → Rs β) (k : β → Out γ) :
    onRs (match r with | .ok a => j a | .error f => .error f) k = onRs r fun a => onRs (j a) k := by
  cases r <;> rfl
theorem on_ite {α β : Type} (p : Prop) [Decidable p] (a b : Rs α) (k : α → Out β) :
    onRs (if p then a else b) k = if p then onRs a k else onRs b k := by
  by_cases h : p
  · rw [if_pos h, if_pos h]
  · rw [if_neg h, if_neg h]

theorem get_same (x : String) (v : Value) (env : Env) : get x ((x, v) :: env) = some v :=
  if_pos rfl
theorem get_other {x y : String} (v : Value) (env : Env) (h : x ≠ y) :
    get x ((y, v) :: env) = get x env := if_neg h
theorem set_same (x : String) (v w : Value) (env : Env) :
    set x v ((x, w) :: env) = (x, v) :: env := if_pos rfl
theorem set_other {x y : String} (v w : Value) (env : Env) (h : x ≠ y) :
    set x v ((y, w) :: env) = (y, w) :: set x v env := if_neg h

theorem varOf_get {C : Ctx} {x : String} {env : Env} {v : Value} (h : get x env = some v) :
    varOf C x env = .val v env := by
  rw [varOf, h]

theorem varOf_same (C : Ctx) (x : String) (v : Value) (env : Env) :
    varOf C x ((x, v) :: env) = .val v ((x, v) :: env) := varOf_get (get_same x v env)

theorem varOf_const {C : Ctx} {x : String} {env : Env} {v : Value} (h : get x env = none)
    (hc : C.const x = some v) : varOf C x env = .val v env := by
  rw [varOf, h, hc]; rfl

theorem notOf_bool (env : Env) (b : Bool) : notOf env (.bool b) = .val (.bool !b) env := rfl

theorem branch_decide (p : Prop) [Decidable p] (t e : Out Value) :
    branch (.bool (decide p)) t e = if p then t else e := by
  by_cases h : p <;> simp [branch, h]
theorem branch_not (p : Prop) [Decidable p] (t e : Out Value) :
    branch (.bool !decide p) t e = if p then e else t := by
  by_cases h : p <;> simp [branch, h]
theorem branch_true (t e : Out Value) : branch (.bool true) t e = t := rfl
theorem branch_false (t e : Out Value) : branch (.bool false) t e = e := rfl
theorem branch_bool (b : Bool) (t e : Out Value) :
    branch (.bool b) t e = if b = true then t else e := by
  cases b <;> rfl

theorem andThen_pure (env : Env) (b c : Bool) :
    andThen env (.bool b) (.val (.bool c) env) = .val (.bool (b && c)) env := by
  cases b <;> rfl
theorem andThen_decide (env : Env) (p : Prop) [Decidable p] (o : Out Value) :
    andThen env (.bool (decide p)) o = if p then o else .val (.bool false) env :=
  branch_decide p _ _
theorem orElse_pure (env : Env) (b c : Bool) :
    orElse env (.bool b) (.val (.bool c) env) = .val (.bool (b || c)) env := by
  cases b <;> rfl
theorem orElse_decide (env : Env) (p : Prop) [Decidable p] (o : Out Value) :
    orElse env (.bool (decide p)) o = if p then .val (.bool true) env else o :=
  branch_decide p _ _

theorem and_decide (p q : Prop) [Decidable p] [Decidable q] :
    (decide p && decide q) = decide (p ∧ q) := by
  by_cases hp : p <;> by_cases hq : q <;> simp [hp, hq]
theorem or_decide (p q : Prop) [Decidable p] [Decidable q] :
    (decide p || decide q) = decide (p ∨ q) := by
  by_cases hp : p <;> by_cases hq : q <;> simp [hp, hq]
theorem not_decide (p : Prop) [Decidable p] : (!decide p) = decide (¬p) := by
  by_cases hp : p <;> simp [hp]

theorem withPat_some {p : Pat} {v : Value} {b : Env} (h : bindPat p v = some b) (env : Env)
    (t : Env → Out Value) (e : Out Value) : withPat p v env t e = t (b ++ env) := by
  rw [withPat, h]
theorem withPat_none {p : Pat} {v : Value} (h : bindPat p v = none) (env : Env)
    (t : Env → Out Value) (e : Out Value) : withPat p v env t e = e := by
  rw [withPat, h]
theorem withPat_bind (x : String) (v : Value) (env : Env) (t : Env → Out Value) (e : Out Value) :
    withPat (.bind x) v env t e = t ((x, v) :: env) := rfl
theorem withPat_wild (v : Value) (env : Env) (t : Env → Out Value) (e : Out Value) :
    withPat .wild v env t e = t env := rfl

/-! ### Operators -/

section
variable (m : Machine.Target) (env : Env)

theorem binOp_eq (s : IntTy) (a b : Nat) :
    binOp m env .eq (.int s a) (.int .usize b) = .val (.bool (decide (a = b))) env := by
  cases s <;> rfl
theorem binOp_ne (s : IntTy) (a b : Nat) :
    binOp m env .ne (.int s a) (.int .usize b) = .val (.bool (!decide (a = b))) env := by
  cases s <;> rfl
theorem binOp_lt (s : IntTy) (a b : Nat) :
    binOp m env .lt (.int s a) (.int .usize b) = .val (.bool (decide (a < b))) env := by
  cases s <;> rfl
theorem binOp_le (s : IntTy) (a b : Nat) :
    binOp m env .le (.int s a) (.int .usize b) = .val (.bool (decide (a ≤ b))) env := by
  cases s <;> rfl
theorem binOp_gt (s : IntTy) (a b : Nat) :
    binOp m env .gt (.int s a) (.int .usize b) = .val (.bool (decide (b < a))) env := by
  cases s <;> rfl
theorem binOp_ge (s : IntTy) (a b : Nat) :
    binOp m env .ge (.int s a) (.int .usize b) = .val (.bool (decide (b ≤ a))) env := by
  cases s <;> rfl
theorem binOp_char (a b : Char) :
    binOp m env .eq (.char a) (.char b) = .val (.bool (decide (a = b))) env := rfl

theorem joinTy_usize (s : IntTy) : joinTy s .usize = some s := by
  cases s <;> rfl

theorem binOp_addTy (s : IntTy) (a b : Nat) : binOp m env .add (.int s a) (.int .usize b) =
    onRs (Machine.arith m (s.bits m) (a + b)) fun n => .val (.int s n) env := by
  unfold binOp
  simp [intCmp, joinTy_usize, intOp, ofOption_some, bind_val, ofRs_bind]
theorem binOp_subTy (s : IntTy) (a b : Nat) : binOp m env .sub (.int s a) (.int .usize b) =
    onRs (Machine.arith m (s.bits m) ((a : Int) - b)) fun n => .val (.int s n) env := by
  unfold binOp
  simp [intCmp, joinTy_usize, intOp, ofOption_some, bind_val, ofRs_bind]
theorem binOp_mulTy (s : IntTy) (a b : Nat) : binOp m env .mul (.int s a) (.int .usize b) =
    onRs (Machine.arith m (s.bits m) (a * b)) fun n => .val (.int s n) env := by
  unfold binOp
  simp [intCmp, joinTy_usize, intOp, ofOption_some, bind_val, ofRs_bind]

theorem bits_u32 : IntTy.bits m .u32 = 32 := rfl

theorem binOp_add (a b : Nat) : binOp m env .add (.int .usize a) (.int .usize b) =
    onRs (Machine.add m a b) fun n => .val (.int .usize n) env := binOp_addTy m env .usize a b
theorem binOp_sub (a b : Nat) : binOp m env .sub (.int .usize a) (.int .usize b) =
    onRs (Machine.sub m a b) fun n => .val (.int .usize n) env := binOp_subTy m env .usize a b
theorem binOp_mul (a b : Nat) : binOp m env .mul (.int .usize a) (.int .usize b) =
    onRs (Machine.mul m a b) fun n => .val (.int .usize n) env := binOp_mulTy m env .usize a b
theorem binOp_add32 (a b : Nat) : binOp m env .add (.int .u32 a) (.int .usize b) =
    onRs (Machine.add32 m a b) fun n => .val (.int .u32 n) env := by
  rw [binOp_addTy, Machine.add32, bits_u32]
theorem binOp_sub32 (a b : Nat) : binOp m env .sub (.int .u32 a) (.int .usize b) =
    onRs (Machine.sub32 m a b) fun n => .val (.int .u32 n) env := by
  rw [binOp_subTy, Machine.sub32, bits_u32]
theorem binOp_mul32 (a b : Nat) : binOp m env .mul (.int .u32 a) (.int .usize b) =
    onRs (Machine.mul32 m a b) fun n => .val (.int .u32 n) env := by
  rw [binOp_mulTy, Machine.mul32, bits_u32]
theorem binOp_lit_add32 (a b : Nat) : binOp m env .add (.int .u32 a) (.int .u32 b) =
    binOp m env .add (.int .u32 a) (.int .usize b) := rfl
theorem binOp_lit_sub32 (a b : Nat) : binOp m env .sub (.int .u32 a) (.int .u32 b) =
    binOp m env .sub (.int .u32 a) (.int .usize b) := rfl
theorem binOp_div32 (a b : Nat) : binOp m env .div (.int .u32 a) (.int .usize (b + 1)) =
    .val (.int .u32 (a / (b + 1))) env := rfl
theorem binOp_rem32 (a b : Nat) : binOp m env .rem (.int .u32 a) (.int .usize (b + 1)) =
    .val (.int .u32 (a % (b + 1))) env := rfl
theorem binOp_and (s : IntTy) (a b : Nat) : binOp m env .and (.int s a) (.int .usize b) =
    .val (.int s (a &&& b)) env := by
  cases s <;> rfl
theorem binOp_or (s : IntTy) (a b : Nat) : binOp m env .or (.int .usize a) (.int s b) =
    .val (.int s (a ||| b)) env := by
  cases s <;> rfl
theorem binOp_or32 (a b : Nat) : binOp m env .or (.int .u32 a) (.int .u32 b) =
    .val (.int .u32 (a ||| b)) env := rfl
theorem binOp_shr (a : Nat) : binOp m env .shr (.int .u32 a) (.int .usize 10) =
    .val (.int .u32 (a >>> 10)) env := rfl
theorem binOp_shl (a : Nat) : binOp m env .shl (.int .u32 a) (.int .usize 10) =
    .val (.int .u32 ((a <<< 10) % 2 ^ 32)) env := rfl

end

/-! ### Slices -/

theorem index_map {α β : Type} (f : α → β) (l : List α) (i : Nat) :
    index (l.map f) i = (index l i).map f := by
  simp only [index, List.getElem?_map]
  cases l[i]? <;> rfl

theorem setIndex_map {α β : Type} (f : α → β) (l : List α) (i : Nat) (a : α) :
    setIndex (l.map f) i (f a) = (setIndex l i a).map (List.map f) := by
  simp only [setIndex, List.length_map]
  by_cases h : i < l.length
  · rw [if_pos h, if_pos h]
    simp [Except.map]
  · rw [if_neg h, if_neg h]
    rfl

theorem sliceTo_map {α β : Type} (f : α → β) (l : List α) (i : Nat) :
    sliceTo (l.map f) i = (sliceTo l i).map (List.map f) := by
  simp only [sliceTo, List.length_map]
  by_cases h : i ≤ l.length
  · rw [if_pos h, if_pos h]
    simp [Except.map]
  · rw [if_neg h, if_neg h]
    rfl

theorem copyFromSlice_map {α β : Type} (f : α → β) (l : List α) (lo hi : Nat) (src : List α) :
    copyFromSlice (l.map f) lo hi (src.map f) = (copyFromSlice l lo hi src).map (List.map f) := by
  simp only [copyFromSlice, List.length_map]
  by_cases h : lo ≤ hi ∧ hi ≤ l.length ∧ src.length = hi - lo
  · rw [if_pos h, if_pos h]
    simp [Except.map]
  · rw [if_neg h, if_neg h]
    rfl

theorem chunksAux_map {α β : Type} (f : α → β) (n : Nat) :
    ∀ (k : Nat) (l : List α), chunksAux n k (l.map f) = (chunksAux n k l).map (List.map f)
  | 0, _ => rfl
  | k + 1, l => by
    unfold chunksAux
    cases l with
    | nil => rfl
    | cons a l =>
      rw [if_neg (by simp), if_neg (by simp)]
      simp only [List.map_cons]
      rw [List.map_take, ← chunksAux_map f n k, List.map_drop, List.map_cons]

theorem chunks_map {α β : Type} (f : α → β) (n : Nat) (l : List α) :
    chunks n (l.map f) = (chunks n l).map (List.map f) := by
  simp only [chunks, List.length_map, chunksAux_map]

theorem toBytes_map : ∀ b : Bytes, toBytes (b.map byte) = some b
  | [] => rfl
  | b :: bs => by
    simp [toBytes, byte, toBytes_map bs, UInt8.ofNat_toNat]

theorem index_lt {α : Type} {l : List α} {i : Nat} (h : i < l.length) : index l i = .ok l[i] := by
  simp [index, h]
theorem index_ge {α : Type} {l : List α} {i : Nat} (h : ¬i < l.length) :
    index l i = .error .panic := by
  simp [index, Nat.not_lt.mp h]

/-- A store of a byte, given as a literal or not. -/
theorem storeElem_int (env : Env) (out : Bytes) (t s : IntTy) (i n : Nat)
    (hs : s = .u8 ∨ s = .usize) (hn : n < 256) :
    storeElem env (bytes out) (.int t i) (.int s n) =
      onRs (setIndex out i (UInt8.ofNat n)) fun out => .val (bytes out) env := by
  have hv : Value.int .u8 n = byte (UInt8.ofNat n) := by
    simp [byte, Nat.mod_eq_of_lt hn]
  simp only [storeElem, bytes, index_map]
  by_cases hi : i < out.length
  · rw [index_lt hi]
    have : coerce (byte out[i]) (.int s n) = some (.int .u8 n) := by
      simp [coerce, byte, hs]
    simp only [Except.map, ofRs_bind, on_ok, this, ofOption_some, bind_val]
    rw [hv, setIndex_map, on_map]
  · rw [index_ge hi]
    simp only [Except.map, ofRs_bind, on_error, setIndex, if_neg hi]

theorem storeElem_byte (env : Env) (out : Bytes) (t : IntTy) (i : Nat) (b : UInt8) :
    storeElem env (bytes out) (.int t i) (byte b) =
      onRs (setIndex out i b) fun out => .val (bytes out) env := by
  have := storeElem_int env out t .u8 i b.toNat (.inl rfl) b.toNat_lt
  rw [UInt8.ofNat_toNat] at this
  exact this

theorem coerce_same (t : IntTy) (k n : Nat) : coerce (.int t k) (.int t n) = some (.int t n) := by
  simp [coerce]
theorem coerce_lit (t : IntTy) (k n : Nat) : coerce (.int t k) (.int .usize n) = some (.int t n) := by
  simp [coerce]

theorem storeSlice_bytes (env : Env) (out : Bytes) (s t : IntTy) (lo hi : Nat) (src : Bytes) :
    storeSlice env (bytes out) (.int s lo) (.int t hi) (bytes src) =
      onRs (copyFromSlice out lo hi src) fun out => .val (bytes out) env := by
  simp only [storeSlice, bytes, copyFromSlice_map, ofRs_bind, on_map]

theorem index_0 {α : Type} (a : α) (l : List α) : index (a :: l) 0 = .ok a := rfl
theorem index_1 {α : Type} (a b : α) (l : List α) : index (a :: b :: l) 1 = .ok b := rfl
theorem index_2 {α : Type} (a b c : α) (l : List α) : index (a :: b :: c :: l) 2 = .ok c := rfl
theorem index_3 {α : Type} (a b c d : α) (l : List α) : index (a :: b :: c :: d :: l) 3 = .ok d := rfl

theorem indexOf_bytes (env : Env) (b : Bytes) (t : IntTy) (i : Nat) :
    indexOf env (bytes b) (.int t i) = onRs (index b i) fun b => .val (byte b) env := by
  simp only [indexOf, bytes, index_map, ofRs_eq, on_map]

theorem slicePrefix_bytes (env : Env) (b : Bytes) (t : IntTy) (i : Nat) :
    slicePrefix env (bytes b) (.int t i) = onRs (sliceTo b i) fun b => .val (bytes b) env := by
  simp only [slicePrefix, bytes, sliceTo_map, ofRs_bind, on_map]

theorem len_bytes (m : Machine.Target) (env : Env) (b : Bytes) :
    method0 m env .len (bytes b) = .val (.int .usize b.length) env := by
  simp [method0, bytes]

theorem from_utf8_unchecked_bytes (m : Machine.Target) (env : Env) (b : Bytes) :
    stdFn m env .from_utf8_unchecked (bytes b) =
      onRs (fromUtf8Unchecked b) fun s => .val (.str s) env := by
  simp only [stdFn, bytes, toBytes_map, ofOption_some, bind_val, ofRs_bind]

theorem from_u32_unchecked_int (m : Machine.Target) (env : Env) (n : Nat) :
    stdFn m env .from_u32_unchecked (.int .u32 n) =
      onRs (fromU32Unchecked n) fun c => .val (.char c) env := by
  simp only [stdFn, ofRs_bind]

theorem forOf_iter (body : Value → Env → Out Value) (env : Env) (vs : List Value) :
    forOf body env (.iter vs) = forLoop body vs env := rfl
theorem len_str (m : Machine.Target) (env : Env) (s : Str) :
    method0 m env .len (.str s) = .val (.int .usize (strLen s)) env := rfl
theorem as_bytes_str (m : Machine.Target) (env : Env) (s : Str) :
    method0 m env .as_bytes (.str s) = .val (bytes (strBytes s)) env := rfl
theorem is_char_boundary_str (env : Env) (s : Str) (t : IntTy) (i : Nat) :
    method1 env .is_char_boundary (.str s) (.int t i) = .val (.bool (isCharBoundary s i)) env := rfl
theorem len_utf8_char (m : Machine.Target) (env : Env) (c : Char) :
    method0 m env .len_utf8 (.char c) = .val (.int .usize (lenUtf8 c)) env := rfl
theorem len_utf16_char (m : Machine.Target) (env : Env) (c : Char) :
    method0 m env .len_utf16 (.char c) = .val (.int .usize (lenUtf16 c)) env := rfl

/-- An item of `char_indices`. -/
def charItem (p : Nat × Char) : Value := .tuple [.int .usize p.1, .char p.2]

theorem char_indices_str (m : Machine.Target) (env : Env) (s : Str) :
    method0 m env .char_indices (.str s) = .val (.iter ((charIndices s).map charItem)) env := rfl
theorem iter_bytes (m : Machine.Target) (env : Env) (b : Bytes) :
    method0 m env .iter (bytes b) = .val (.iter (b.map byte)) env := rfl
theorem chunks_bytes (env : Env) (b : Bytes) (t : IntTy) (n : Nat) :
    method1 env .chunks (bytes b) (.int t (n + 1)) =
      .val (.iter ((chunks (n + 1) b).map bytes)) env := by
  simp [method1, bytes, chunks_map]
theorem branch_not_bool (b : Bool) (t e : Out Value) :
    branch (.bool !b) t e = if b = true then e else t := by
  cases b <;> rfl

/-! ### Numbers -/

theorem char_lt (c : Char) : c.toNat < 0x110000 := by
  rcases c.valid with h | h
  · exact Nat.lt_of_lt_of_le h (by decide)
  · exact h.2

theorem castTo_char_u32 (m : Machine.Target) (env : Env) (c : Char) :
    castTo m env .u32 (.char c) = .val (.int .u32 c.toNat) env := by
  simp only [castTo, IntTy.bits]
  rw [Nat.mod_eq_of_lt (Nat.lt_trans (char_lt c) (by decide))]
theorem castTo_u8 (m : Machine.Target) (env : Env) (s : IntTy) (n : Nat) :
    castTo m env .u8 (.int s n) = .val (byte (UInt8.ofNat n)) env := by
  simp [castTo, IntTy.bits, byte]
theorem castTo_u16 (m : Machine.Target) (env : Env) (s : IntTy) (n : Nat) :
    castTo m env .u16 (.int s n) = .val (.int .u16 (n % 65536)) env := rfl

theorem ofNat_mod (n : Nat) : UInt8.ofNat (n % 256) = UInt8.ofNat n := by
  apply UInt8.toNat_inj.mp
  simp

theorem to_be_bytes_u16 (m : Machine.Target) (env : Env) (n : Nat) :
    method0 m env .to_be_bytes (.int .u16 n) =
      .val (bytes [(Utf16.be.toBytes n).1, (Utf16.be.toBytes n).2]) env := by
  simp [method0, IntTy.size, IntTy.bits, leBytes, bytes, Utf16.be, ofNat_mod]
theorem to_le_bytes_u16 (m : Machine.Target) (env : Env) (n : Nat) :
    method0 m env .to_le_bytes (.int .u16 n) =
      .val (bytes [(Utf16.le.toBytes n).1, (Utf16.le.toBytes n).2]) env := by
  simp [method0, IntTy.size, IntTy.bits, leBytes, bytes, Utf16.le, ofNat_mod]

/-! ### Expressions -/

/-- The head of a `while` loop. -/
def doHead (C : Ctx) (c : Expr) (env : Env) : Out (Option Env) :=
  (eval C c env).bind fun v env => condOf env v

/-- The head of a `while let` loop. -/
def letHead (C : Ctx) (p : Pat) (s : Expr) (env : Env) : Out (Option Env) :=
  (eval C s env).bind fun v env => .val (bindPat p v) env

/-- A round of a `for` loop. -/
def forBody (C : Ctx) (p : Pat) (b : Expr) (v : Value) (env : Env) : Out Value :=
  withPat p v env (fun env' => (eval C b env').scope env.length) .stuck

section
variable (C : Ctx) (env : Env)

theorem eval_unit : eval C (.unit) env = .val .unit env := by
  simp only [eval]
theorem eval_int (ty : IntTy) (n : Nat) : eval C (.int ty n) env = .val (.int ty n) env := by
  simp only [eval]
theorem eval_char (c : Char) : eval C (.char c) env = .val (.char c) env := by
  simp only [eval]
theorem eval_str (s : List Char) : eval C (.str s) env = .val (.str s) env := by
  simp only [eval]
theorem eval_var (x : String) : eval C (.var x) env = varOf C x env := by
  simp only [eval]
theorem eval_variant (x : String) : eval C (.variant x) env = .val (.variant x []) env := by
  simp only [eval]
theorem eval_not (e : Expr) : eval C (.not e) env = (eval C e env).bind fun v env => notOf env v := by
  simp only [eval]
theorem eval_ref (e : Expr) : eval C (.ref e) env = eval C e env := by
  simp only [eval]
theorem eval_refMut (e : Expr) : eval C (.refMut e) env = eval C e env := by
  simp only [eval]
theorem eval_land (a b : Expr) : eval C (.bin .land a b) env = (eval C a env).bind fun v env =>
    andThen env v (eval C b env) := by
  simp only [eval]
theorem eval_lor (a b : Expr) : eval C (.bin .lor a b) env = (eval C a env).bind fun v env =>
    orElse env v (eval C b env) := by
  simp only [eval]
theorem eval_add (a b : Expr) : eval C (.bin .add a b) env = (eval C a env).bind fun v env =>
    (eval C b env).bind fun w env => binOp C.target env .add v w := by
  simp only [eval]
theorem eval_sub (a b : Expr) : eval C (.bin .sub a b) env = (eval C a env).bind fun v env =>
    (eval C b env).bind fun w env => binOp C.target env .sub v w := by
  simp only [eval]
theorem eval_mul (a b : Expr) : eval C (.bin .mul a b) env = (eval C a env).bind fun v env =>
    (eval C b env).bind fun w env => binOp C.target env .mul v w := by
  simp only [eval]
theorem eval_div (a b : Expr) : eval C (.bin .div a b) env = (eval C a env).bind fun v env =>
    (eval C b env).bind fun w env => binOp C.target env .div v w := by
  simp only [eval]
theorem eval_rem (a b : Expr) : eval C (.bin .rem a b) env = (eval C a env).bind fun v env =>
    (eval C b env).bind fun w env => binOp C.target env .rem v w := by
  simp only [eval]
theorem eval_and (a b : Expr) : eval C (.bin .and a b) env = (eval C a env).bind fun v env =>
    (eval C b env).bind fun w env => binOp C.target env .and v w := by
  simp only [eval]
theorem eval_or (a b : Expr) : eval C (.bin .or a b) env = (eval C a env).bind fun v env =>
    (eval C b env).bind fun w env => binOp C.target env .or v w := by
  simp only [eval]
theorem eval_shl (a b : Expr) : eval C (.bin .shl a b) env = (eval C a env).bind fun v env =>
    (eval C b env).bind fun w env => binOp C.target env .shl v w := by
  simp only [eval]
theorem eval_shr (a b : Expr) : eval C (.bin .shr a b) env = (eval C a env).bind fun v env =>
    (eval C b env).bind fun w env => binOp C.target env .shr v w := by
  simp only [eval]
theorem eval_eq (a b : Expr) : eval C (.bin .eq a b) env = (eval C a env).bind fun v env =>
    (eval C b env).bind fun w env => binOp C.target env .eq v w := by
  simp only [eval]
theorem eval_ne (a b : Expr) : eval C (.bin .ne a b) env = (eval C a env).bind fun v env =>
    (eval C b env).bind fun w env => binOp C.target env .ne v w := by
  simp only [eval]
theorem eval_lt (a b : Expr) : eval C (.bin .lt a b) env = (eval C a env).bind fun v env =>
    (eval C b env).bind fun w env => binOp C.target env .lt v w := by
  simp only [eval]
theorem eval_le (a b : Expr) : eval C (.bin .le a b) env = (eval C a env).bind fun v env =>
    (eval C b env).bind fun w env => binOp C.target env .le v w := by
  simp only [eval]
theorem eval_gt (a b : Expr) : eval C (.bin .gt a b) env = (eval C a env).bind fun v env =>
    (eval C b env).bind fun w env => binOp C.target env .gt v w := by
  simp only [eval]
theorem eval_ge (a b : Expr) : eval C (.bin .ge a b) env = (eval C a env).bind fun v env =>
    (eval C b env).bind fun w env => binOp C.target env .ge v w := by
  simp only [eval]
theorem eval_assign_var (x : String) (e : Expr) : eval C (.assign (.var x) e) env = (eval C e env).bind fun v env =>
    assignVar x v env := by
  simp only [eval]
theorem eval_assign_index (x : String) (i e : Expr) : eval C (.assign (.index (.var x) i) e) env = (eval C e env).bind fun v env =>
    (eval C i env).bind fun i env => assignElem x i v env := by
  simp only [eval]
theorem eval_opAssign (op : BinOp) (x : String) (e : Expr) : eval C (.opAssign op (.var x) e) env = (eval C e env).bind fun v env =>
    (Out.ofOption env (get x env)).bind fun old env =>
      (binOp C.target env op old v).bind fun v env => assignVar x v env := by
  simp only [eval]
theorem eval_ctor (x : String) (e : Expr) : eval C (.ctor x e) env = (eval C e env).bind fun v env =>
    .val (.variant x [v]) env := by
  simp only [eval]
theorem eval_call (up : Bool) (f : String) (args : List Expr) : eval C (.call up f args) env = (evalList C args env).bind fun vs env =>
    returned args env (C.call up f vs) := by
  simp only [eval]
theorem eval_std (f : StdFn) (e : Expr) : eval C (.std f e) env = (eval C e env).bind fun v env => stdFn C.target env f v := by
  simp only [eval]
theorem eval_copy (x : String) (lo hi e : Expr) : eval C (.method (.slice (.var x) lo hi) .copy_from_slice [e]) env = (eval C lo env).bind fun lo env =>
    (eval C hi env).bind fun hi env => (eval C e env).bind fun v env => copyTo x lo hi v env := by
  simp only [eval]
theorem eval_copyTo (x : String) (hi e : Expr) : eval C (.method (.sliceTo (.var x) hi) .copy_from_slice [e]) env = (eval C hi env).bind fun hi env =>
    (eval C e env).bind fun v env => copyTo x (.int .usize 0) hi v env := by
  simp only [eval]
theorem eval_next (e : Expr) : eval C (.method e .next []) env = (eval C e env).bind fun v env => nextOf e env v := by
  simp only [eval]
theorem eval_encode_utf8 (e b : Expr) : eval C (.method e .encode_utf8 [b]) env = (eval C e env).bind fun c env =>
    (eval C b env).bind fun v env => encodeTo b env c v := by
  simp only [eval]
theorem eval_search (e k : Expr) (x : String) (body : Expr) : eval C (.method e .binary_search_by_key [k, .closure x body]) env = (eval C e env).bind fun v env =>
    (eval C k env).bind fun k env => searchOf env (fun v => eval C body ((x, v) :: env)) v k := by
  simp only [eval]
theorem eval_len (e : Expr) : eval C (.method e .len []) env = (eval C e env).bind fun v env =>
    method0 C.target env .len v := by
  simp only [eval]
theorem eval_as_bytes (e : Expr) : eval C (.method e .as_bytes []) env = (eval C e env).bind fun v env =>
    method0 C.target env .as_bytes v := by
  simp only [eval]
theorem eval_char_indices (e : Expr) : eval C (.method e .char_indices []) env = (eval C e env).bind fun v env =>
    method0 C.target env .char_indices v := by
  simp only [eval]
theorem eval_iter (e : Expr) : eval C (.method e .iter []) env = (eval C e env).bind fun v env =>
    method0 C.target env .iter v := by
  simp only [eval]
theorem eval_clone (e : Expr) : eval C (.method e .clone []) env = (eval C e env).bind fun v env =>
    method0 C.target env .clone v := by
  simp only [eval]
theorem eval_unwrap (e : Expr) : eval C (.method e .unwrap []) env = (eval C e env).bind fun v env =>
    method0 C.target env .unwrap v := by
  simp only [eval]
theorem eval_len_utf8 (e : Expr) : eval C (.method e .len_utf8 []) env = (eval C e env).bind fun v env =>
    method0 C.target env .len_utf8 v := by
  simp only [eval]
theorem eval_len_utf16 (e : Expr) : eval C (.method e .len_utf16 []) env = (eval C e env).bind fun v env =>
    method0 C.target env .len_utf16 v := by
  simp only [eval]
theorem eval_to_be_bytes (e : Expr) : eval C (.method e .to_be_bytes []) env = (eval C e env).bind fun v env =>
    method0 C.target env .to_be_bytes v := by
  simp only [eval]
theorem eval_to_le_bytes (e : Expr) : eval C (.method e .to_le_bytes []) env = (eval C e env).bind fun v env =>
    method0 C.target env .to_le_bytes v := by
  simp only [eval]
theorem eval_valid_up_to (e : Expr) : eval C (.method e .valid_up_to []) env = (eval C e env).bind fun v env =>
    method0 C.target env .valid_up_to v := by
  simp only [eval]
theorem eval_chunks (e a : Expr) : eval C (.method e .chunks [a]) env = (eval C e env).bind fun v env =>
    (eval C a env).bind fun a env => method1 env .chunks v a := by
  simp only [eval]
theorem eval_is_char_boundary (e a : Expr) : eval C (.method e .is_char_boundary [a]) env = (eval C e env).bind fun v env =>
    (eval C a env).bind fun a env => method1 env .is_char_boundary v a := by
  simp only [eval]
theorem eval_proj (e : Expr) (k : Nat) : eval C (.proj e k) env = (eval C e env).bind fun v env => field env k v := by
  simp only [eval]
theorem eval_index (e i : Expr) : eval C (.index e i) env = (eval C e env).bind fun v env =>
    (eval C i env).bind fun i env => indexOf env v i := by
  simp only [eval]
theorem eval_slice (e lo hi : Expr) : eval C (.slice e lo hi) env = (eval C e env).bind fun v env =>
    (eval C lo env).bind fun lo env => (eval C hi env).bind fun hi env => sliceRange env v lo hi := by
  simp only [eval]
theorem eval_sliceTo (e hi : Expr) : eval C (.sliceTo e hi) env = (eval C e env).bind fun v env =>
    (eval C hi env).bind fun hi env => slicePrefix env v hi := by
  simp only [eval]
theorem eval_cast (e : Expr) (ty : IntTy) : eval C (.cast e ty) env = (eval C e env).bind fun v env =>
    castTo C.target env ty v := by
  simp only [eval]
theorem eval_tuple (es : List Expr) : eval C (.tuple es) env = (evalList C es env).bind fun vs env =>
    .val (.tuple vs) env := by
  simp only [eval]
theorem eval_array (es : List Expr) : eval C (.array es) env = (evalList C es env).bind fun vs env =>
    .val (.arr vs) env := by
  simp only [eval]
theorem eval_rep (e : Expr) (n : Nat) : eval C (.rep e n) env = (eval C e env).bind fun v env =>
    .val (.arr (List.replicate n v)) env := by
  simp only [eval]
theorem eval_struct (x : String) (fs : List String) (es : List Expr) : eval C (.struct x fs es) env = (evalList C es env).bind fun vs env =>
    .val (.struct x fs vs) env := by
  simp only [eval]
theorem eval_block (e : Expr) : eval C (.block e) env = (eval C e env).scope env.length := by
  simp only [eval]
theorem eval_ite (c t e : Expr) : eval C (.ite c t e) env = (eval C c env).bind fun v env =>
    branch v (eval C t env) (eval C e env) := by
  simp only [eval]
theorem eval_iteLet (p : Pat) (s t e : Expr) : eval C (.iteLet p s t e) env = (eval C s env).bind fun v env =>
    withPat p v env (fun env' => (eval C t env').scope env.length) (eval C e env) := by
  simp only [eval]
theorem eval_match (s : Expr) (ps : List Pat) (es : List Expr) : eval C (.matchOn s ps es) env = (eval C s env).bind fun v env =>
    evalArms C v ps es env := by
  simp only [eval]
theorem eval_whileDo (c b : Expr) : eval C (.whileDo c b) env =
    whileLoop (doHead C c) (fun env => eval C b env) C.fuel env := by
  simp only [eval]
  rfl
theorem eval_whileLet (p : Pat) (s b : Expr) : eval C (.whileLet p s b) env =
    whileLoop (letHead C p s) (fun env => eval C b env) C.fuel env := by
  simp only [eval]
  rfl
theorem eval_for (p : Pat) (s b : Expr) : eval C (.forIn p s b) env =
    (eval C s env).bind fun v env => forOf (forBody C p b) env v := by
  simp only [eval]
  rfl
theorem eval_forMut (x y : String) (b : Expr) : eval C (.forMut x y b) env =
    (Out.ofOption env (get y env)).bind fun a env =>
      mutLoopOf x y (fun env => eval C b env) env a := by
  simp only [eval]
theorem eval_callIn (m f : String) (args : List Expr) : eval C (.callIn m f args) env =
    (evalList C args env).bind fun vs env => returned args env (C.callIn m f vs) := by
  simp only [eval]
theorem eval_assertEq (a b : Expr) : eval C (.assertEq a b) env = (eval C a env).bind fun v env =>
    (eval C b env).bind fun w env => if same v w then .val .unit env else .fault .panic := by
  simp only [eval]
theorem eval_panic : eval C .panic env = .fault .panic := by
  simp only [eval]
theorem eval_extend (x : String) (e : Expr) : eval C (.method (.var x) .extend [e]) env =
    (eval C e env).bind fun v env => (Out.ofOption env (get x env)).bind fun a env =>
      (extended env a v).bind fun a env => .val .unit (set x a env) := by
  simp only [eval]
theorem eval_extend_from_slice (x : String) (e : Expr) :
    eval C (.method (.var x) .extend_from_slice [e]) env =
    (eval C e env).bind fun v env => (Out.ofOption env (get x env)).bind fun a env =>
      (extended env a v).bind fun a env => .val .unit (set x a env) := by
  simp only [eval]
theorem eval_sliceFrom (e lo : Expr) : eval C (.sliceFrom e lo) env = (eval C e env).bind fun v env =>
    (eval C lo env).bind fun lo env => sliceSuffix env v lo := by
  simp only [eval]
theorem eval_sliceAll (e : Expr) : eval C (.sliceAll e) env =
    (eval C e env).bind fun v env => sliceWhole env v := by
  simp only [eval]
theorem eval_vec (e n : Expr) : eval C (.vec e n) env = (eval C e env).bind fun v env =>
    (eval C n env).bind fun n env => vecOf env v n := by
  simp only [eval]
theorem eval_is_empty (e : Expr) : eval C (.method e .is_empty []) env = (eval C e env).bind fun v env =>
    method0 C.target env .is_empty v := by
  simp only [eval]
theorem eval_chars (e : Expr) : eval C (.method e .chars []) env = (eval C e env).bind fun v env =>
    method0 C.target env .chars v := by
  simp only [eval]
theorem eval_bool (b : Bool) : eval C (.bool b) env = .val (.bool b) env := by
  simp only [eval]
theorem eval_break  : eval C (.break) env = .brk env := by
  simp only [eval]
theorem eval_continue  : eval C (.continue) env = .cont env := by
  simp only [eval]
theorem eval_return (e : Expr) : eval C (.return e) env = (eval C e env).bind fun v env => .ret v env := by
  simp only [eval]
theorem eval_let (p : Pat) (e rest : Expr) : eval C (.letIn p e rest) env = (eval C e env).bind fun v env =>
    withPat p v env (fun env => eval C rest env) .stuck := by
  simp only [eval]
theorem eval_seq (e rest : Expr) : eval C (.seq e rest) env = (eval C e env).bind fun _ env => eval C rest env := by
  simp only [eval]
theorem evalList_nil : evalList C [] env = .val [] env := by
  simp only [evalList]
theorem evalList_cons (e : Expr) (es : List Expr) : evalList C (e :: es) env =
    (eval C e env).bind fun v env => (evalList C es env).bind fun vs env => .val (v :: vs) env := by
  simp only [evalList]
theorem evalArms_cons (v : Value) (p : Pat) (ps : List Pat) (e : Expr) (es : List Expr) :
    evalArms C v (p :: ps) (e :: es) env =
      withPat p v env (fun env' => (eval C e env').scope env.length) (evalArms C v ps es env) := by
  simp only [evalArms]

end

/-! ## Outcomes side by side -/

theorem on_congr {α β : Type} {r : Rs α} {j k : α → Out β} (h : ∀ a, r = .ok a → j a = k a) :
    onRs r j = onRs r k := by
  cases r with
  | ok a => exact h a rfl
  | error f => rfl

theorem ite_congr_both {α : Type} {p : Prop} [Decidable p] {a b c d : α} (h : p → a = c)
    (h' : ¬p → b = d) : (if p then a else b) = if p then c else d := by
  by_cases hp : p
  · rw [if_pos hp, if_pos hp, h hp]
  · rw [if_neg hp, if_neg hp, h' hp]

theorem ite_and' {α : Type} {p q : Prop} [Decidable p] [Decidable q] (a b : α) :
    (if p ∧ q then a else b) = if p then if q then a else b else b := by
  by_cases hp : p <;> by_cases hq : q <;> simp [hp, hq]

theorem ite_or' {α : Type} {p q : Prop} [Decidable p] [Decidable q] (a b : α) :
    (if p ∨ q then a else b) = if p then a else if q then a else b := by
  by_cases hp : p <;> by_cases hq : q <;> simp [hp, hq]

theorem bind_congr_head {α β : Type} {o o' : Out α} {k : α → Env → Out β} (h : o = o') :
    o.bind k = o'.bind k := by rw [h]

theorem on_congr_head {α β : Type} {r r' : Rs α} {k : α → Out β} (h : r = r') :
    onRs r k = onRs r' k := by rw [h]

theorem branch_congr_head {v v' : Value} {t e : Out Value} (h : v = v') :
    branch v t e = branch v' t e := by rw [h]

theorem withPat_congr_head {p : Pat} {v v' : Value} {env : Env} {t : Env → Out Value} {e : Out Value}
    (h : v = v') : withPat p v env t e = withPat p v' env t e := by rw [h]

end Verif.Lang
