import Lean
import Verif.Proof.Lang.Values

/-!
# Symbolic execution: the tactics

`exec` runs both sides of an equation up to the next operation that can fault or the next condition.
It simplifies the outcome that comes first and leaves what follows alone. `steps` goes on behind
them, as long as the two sides agree.
-/

namespace Verif.Lang

theorem withPat_pair (x y : String) (v w : Value) (env : Env) (t : Env → Out Value) (e : Out Value) :
    withPat (.tuple [.bind x, .bind y]) (.tuple [v, w]) env t e = t ((x, v) :: (y, w) :: env) := rfl
theorem withPat_ctor {c : String} (x : String) (v : Value) (env : Env) (t : Env → Out Value)
    (e : Out Value) :
    withPat (.ctor c [.bind x]) (.variant c [v]) env t e = t ((x, v) :: env) := by
  simp [withPat, bindPat, bindPats]
theorem withPat_ctor_pair {c : String} (x y : String) (v w : Value) (env : Env)
    (t : Env → Out Value) (e : Out Value) :
    withPat (.ctor c [.tuple [.bind x, .bind y]]) (.variant c [.tuple [v, w]]) env t e =
      t ((x, v) :: (y, w) :: env) := by
  simp [withPat, bindPat, bindPats]
theorem withPat_other {c d : String} (ps : List Pat) (vs : List Value) (env : Env)
    (t : Env → Out Value) (e : Out Value) (h : c ≠ d) :
    withPat (.ctor c ps) (.variant d vs) env t e = e := by
  simp [withPat, bindPat, h]
theorem withPat_none_none (c : String) (env : Env) (t : Env → Out Value) (e : Out Value) :
    withPat (.ctor c []) (.variant c []) env t e = t env := by
  simp [withPat, bindPat, bindPats]
theorem withPat_int (x : Nat) (t : IntTy) (a : Nat) (env : Env) (f : Env → Out Value)
    (e : Out Value) :
    withPat (.int x) (.int t a) env f e = if a = x then f env else e := by
  by_cases h : a = x <;> simp [withPat, bindPat, h]
theorem withPat_ints (x y : Nat) (t s : IntTy) (a b : Nat) (env : Env) (f : Env → Out Value)
    (e : Out Value) :
    withPat (.tuple [.int x, .int y]) (.tuple [.int t a, .int s b]) env f e =
      if a = x ∧ b = y then f env else e := by
  by_cases h : a = x <;> by_cases h' : b = y <;> simp [withPat, bindPat, bindPats, h, h']

end Verif.Lang

namespace Verif.Exec
open Lean Meta Simp Verif.Lang

/-- Simplify one argument only, then try the given lemmas. -/
def headStep (i : Nat) (lems : List Name) : Simproc := fun e => do
  let args := e.getAppArgs
  unless i < args.size do return .continue
  let r ← simp args[i]!
  let e' := mkAppN e.getAppFn (args.set! i r.expr)
  let r1 : Result ← match r.proof? with
    | none => pure { expr := e' }
    | some h => do
      let x ← mkFreshExprMVar (← inferType args[i]!)
      let f ← mkLambdaFVars #[x] (mkAppN e.getAppFn (args.set! i x))
      pure { expr := e', proof? := some (← mkCongrArg f h) }
  for lem in lems do
    let thm ← mkConstWithFreshMVarLevels lem
    let (ms, bis, ty) ← forallMetaTelescopeReducing (← inferType thm)
    let some (_, lhs, rhs) := ty.eq? | continue
    if ← withReducible (isDefEq lhs e') then
      let mut ok := true
      for m in ms, b in bis do
        let m' ← instantiateMVars m
        if m'.isMVar then
          if b.isInstImplicit then
            m'.mvarId!.assign (← synthInstance (← inferType m'))
          else
            let r ← simp (← instantiateMVars (← inferType m'))
            if r.expr.isTrue then
              m'.mvarId!.assign (← mkOfEqTrue (← r.getProof))
            else ok := false
      if ok then
        let rhs := (← instantiateMVars rhs).headBeta
        let pf ← instantiateMVars (mkAppN thm ms)
        return .visit (← r1.mkEqTrans { expr := rhs, proof? := some pf })
  return .done r1

simproc_decl bindStep (Out.bind _ _) := headStep 2 [``bind_val, ``bind_on, ``bind_ite, ``bind_brk,
  ``bind_cont, ``bind_ret, ``bind_fault, ``ofRs_bind]
simproc_decl scopeStep (Out.scope _ _) := headStep 2 [``scope_val, ``scope_on, ``scope_ite,
  ``scope_brk, ``scope_cont, ``scope_ret, ``scope_fault]
simproc_decl roundStep (Out.round _) := headStep 0 [``round_val, ``round_on, ``round_ite, ``round_brk,
  ``round_cont, ``round_ret, ``round_fault]
simproc_decl branchStep (branch _ _ _) := headStep 0 [``branch_true, ``branch_false, ``branch_decide,
  ``branch_not, ``branch_not_bool, ``branch_bool]
simproc_decl onStep (onRs _ _) := headStep 2 [``on_ok, ``on_error, ``on_map, ``on_bind, ``on_ite]
simproc_decl withPatStep (withPat _ _ _ _ _) := headStep 1 [``withPat_bind, ``withPat_wild,
  ``withPat_pair, ``withPat_ctor, ``withPat_ctor_pair, ``withPat_none_none, ``withPat_other,
  ``withPat_int, ``withPat_ints]
simproc_decl iteStep (@ite (Out _) _ _ _ _) := fun e => do
  let_expr f@ite α p d a b := e | return .continue
  let r ← simp p
  if r.expr.isTrue then
    return .visit { expr := a, proof? := some (mkAppN (mkConst ``if_pos f.constLevels!)
      #[p, d, ← mkOfEqTrue (← r.getProof), α, a, b]) }
  if r.expr.isFalse then
    return .visit { expr := b, proof? := some (mkAppN (mkConst ``if_neg f.constLevels!)
      #[p, d, ← mkOfEqFalse (← r.getProof), α, a, b]) }
  return .done { expr := e }

/-- The length of a list given by its elements. -/
partial def spine (e : Lean.Expr) : Option Nat :=
  match_expr e with
  | List.nil _ => some 0
  | List.cons _ _ t => (spine t).map (· + 1)
  | _ => none

simproc_decl trimStep (trim _ _) := fun e => do
  let_expr trim n env := e | return .continue
  let r ← simp env
  let env' := r.expr
  let e1 := mkApp2 (mkConst ``trim) n env'
  let r1 : Result ← match r.proof? with
    | none => pure { expr := e1 }
    | some h => pure { expr := e1, proof? := some (← mkCongrArg (mkApp (mkConst ``trim) n) h) }
  let some l := spine env' | return .done r1
  let k? : Option Nat := match_expr n with
    | List.length _ x => spine x
    | _ => n.nat?
  let some k := k? | return .done r1
  let mut t := env'
  for _ in [0:l - k] do
    t := t.appArg!
  return .done (← r1.mkEqTrans
    { expr := t, proof? := some (← mkExpectedTypeHint (← mkEqRefl t) (← mkEq e1 t)) })

end Verif.Exec

namespace Verif.Lang
open Verif.Exec
open Machine (Target)

/-- Run up to the next operation that can fault or the next condition. -/
macro "exec" "[" es:Lean.Parser.Tactic.simpLemma,* "]" : tactic => `(tactic| simp only [
  eval_unit, eval_int, eval_char, eval_str, eval_var, eval_variant, eval_not, eval_ref, eval_refMut,
  eval_land, eval_lor, eval_add, eval_sub, eval_mul, eval_div, eval_rem, eval_and, eval_or, eval_shl,
  eval_shr, eval_eq, eval_ne, eval_lt, eval_le, eval_gt, eval_ge, eval_assign_var,
  eval_assign_index, eval_opAssign, eval_ctor, eval_call, eval_std, eval_copy, eval_copyTo,
  eval_next, eval_encode_utf8, eval_search, eval_len, eval_as_bytes, eval_char_indices, eval_iter,
  eval_clone, eval_unwrap, eval_len_utf8, eval_len_utf16, eval_to_be_bytes, eval_to_le_bytes,
  eval_valid_up_to, eval_chunks, eval_is_char_boundary, eval_proj, eval_index, eval_slice,
  eval_sliceTo, eval_cast, eval_tuple, eval_array, eval_rep, eval_struct, eval_block, eval_ite,
  eval_iteLet, eval_match, eval_whileDo, eval_whileLet, eval_for, eval_break, eval_continue,
  eval_return, eval_let, eval_seq, evalList_nil, evalList_cons, evalArms_cons,
  ↓bindStep, ↓scopeStep, ↓roundStep, ↓branchStep, ↓onStep, ↓withPatStep, ↓iteStep, ↓trimStep,
  varOf, get_nil, get_same, get_other, set_same, set_other, ofOption_some, ofRs_eq, notOf_bool,
  andThen_pure, andThen_decide, orElse_pure, orElse_decide,
  binOp_eq, binOp_ne, binOp_lt, binOp_le, binOp_gt, binOp_ge, binOp_char, binOp_add, binOp_sub,
  binOp_mul, binOp_add32, binOp_sub32, binOp_mul32, binOp_lit_add32, binOp_lit_sub32, binOp_div32,
  binOp_rem32, binOp_shr, binOp_shl, binOp_or, binOp_or32, binOp_and, indexOf_bytes,
  len_bytes, copyTo, storeSlice_bytes, slicePrefix_bytes, from_u32_unchecked_int, from_utf8_unchecked_bytes,
  assignElem, storeElem_byte, assignVar, coerce_same, coerce_lit, index_0, index_1, index_2, index_3,
  forOf_iter, len_str, as_bytes_str, is_char_boundary_str, len_utf8_char, len_utf16_char,
  char_indices_str, iter_bytes, chunks_bytes,
  castTo_char_u32, castTo_u8, castTo_u16, to_be_bytes_u16, to_le_bytes_u16,
  binOp_eq_byte, binOp_ne_byte, binOp_lt_byte, binOp_le_byte, binOp_gt_byte, binOp_ge_byte,
  binOp_and_byte, castTo_u32_byte, castTo_usize_u32, castTo_u8_char, castTo_u32_be, castTo_u32_le,
  from_be_u16, from_le_u16, from_be_u32, from_le_u32, to_be_bytes_u32, to_le_bytes_u32,
  and_decide, or_decide, not_decide, decide_or_assoc, decide_and_assoc, strBytes_one, strLen_one,
  from_u32_int, unwrap_optChar, optChar_some, optChar_none, unwrap_some, unwrap_none, encodeTo_buf,
  nextOf_nil, nextOf_cons, nextOf_clone, clone_val, List.map_cons, List.map_nil,
  List.length_replicate, indexOf_char, len_charTable, indexOf_arr0, indexOf_arr1, field_0, field_1,
  field_entry, field_entry2, storeElem_lit, found_some, found_none, searchOf_entry, searchOf_entry2,
  if_true, if_false, Bool.false_eq_true, Bool.not_false, Bool.not_true, eq_self, ne_eq, String.reduceEq,
  not_false_eq_true, $es,*])

/-- Run, and go on behind the operations and conditions that both sides share. -/
macro "steps" "[" es:Lean.Parser.Tactic.simpLemma,* "]" : tactic => `(tactic| repeat' (first
  | with_reducible rfl
  | (with_reducible refine ite_congr_both (fun h => ?_) (fun h => ?_))
  | (with_reducible refine on_congr fun a h => ?_)
  | exec [$es,*]))

end Verif.Lang
