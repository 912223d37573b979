import Verif.Lang.TestAst
import Verif.Model.Tests
import Verif.Proof.Lang.Tactic
import Verif.Proof.Utf8Base
import Verif.Spec.Program

/-!
# The bodies of the tests

From known outcomes of the calls of the crate's functions to the outcome of a test.
-/

namespace Verif.Lang

open Tests

theorem strSuffix_eq : ∀ (s : List Char) (n : Nat), strSuffix s n = strFrom s n
  | [], 0 => rfl
  | [], _ + 1 => rfl
  | _ :: _, 0 => rfl
  | c :: s, n + 1 => by
    unfold strSuffix strFrom
    rw [strSuffix_eq s]
    rfl

theorem sliceSuffix_bytes (env : Env) (b : Bytes) (n : Nat) :
    sliceSuffix env (bytes b) (.int .usize n) =
      onRs (sliceFrom b n) fun b => .val (bytes b) env := by
  show (if n ≤ (b.map byte).length then Out.val (Value.arr ((b.map byte).drop n)) env
    else .fault .panic) = _
  rw [List.length_map, sliceFrom]
  by_cases h : n ≤ b.length
  · rw [if_pos h, if_pos h, on_ok, bytes, List.map_drop]
  · rw [if_neg h, if_neg h, on_error]

theorem toChars_map (s : List Char) : toChars (s.map .char) = some s := by
  induction s with
  | nil => rfl
  | cons c s ih => simp only [List.map_cons, toChars, ih, Option.map_some]

theorem same_str (t : Str) : same (.str t) (.str t) = true := by
  simp only [same, beq_self_eq_true]
theorem sames_bytes (b : Bytes) : sames (b.map byte) (b.map byte) = true := by
  induction b with
  | nil => rfl
  | cons x b ih =>
    rw [List.map_cons, sames, ih, byte, same, beq_self_eq_true]
    rfl
theorem same_bytes (b : Bytes) : same (bytes b) (bytes b) = true := by
  rw [bytes, same, sames_bytes]

/-! ## The loops -/

/-- The condition of the loops. -/
def going : Expr := .not (.method (.var "tmp") .is_empty [])

/-- The body of an encoding loop. -/
def encodeBody (mod acc : String) : Expr :=
  .block (.iteLet (.ctor "Ok" [.tuple [.bind "encoded", .bind "n"]])
    (.callIn mod "encode_from_str" [.var "tmp", .refMut (.var "buf")])
    (.block (.seq (.assign (.var "tmp") (.ref (.sliceFrom (.var "tmp") (.var "n"))))
      (.seq (.method (.var acc) .extend_from_slice [.var "encoded"]) .unit)))
    (.block (.seq .panic .unit)))

/-- The body of a decoding loop, with the arguments of the call. -/
def decodeBody (mod : String) (args : List Expr) : Expr :=
  .block (.iteLet (.ctor "Ok" [.tuple [.bind "decoded", .bind "n"]])
    (.callIn mod "decode_to_str" args)
    (.block (.seq (.assign (.var "tmp") (.ref (.sliceFrom (.var "tmp") (.var "n"))))
      (.seq (.method (.var "utf8") .extend [.method (.var "decoded") .chars []]) .unit)))
    (.block (.seq .panic .unit)))

/-- The variables of a loop, as a function of `tmp`, `buf` and the variable `acc`. -/
structure Vars (acc : String) (E : Value → Value → Value → Env) (n : Nat) : Prop where
  length : ∀ t b a, (E t b a).length = n
  tmp : ∀ t b a, get "tmp" (E t b a) = some t
  buf : ∀ t b a, get "buf" (E t b a) = some b
  getAcc : ∀ t b a, get acc (E t b a) = some a
  setTmp : ∀ t b a v, set "tmp" v (E t b a) = E v b a
  setBuf : ∀ t b a v, set "buf" v (E t b a) = E t v a
  setAcc : ∀ t b a v, set acc v (E t b a) = E t b v

theorem trim_self (n : Nat) (env : Env) (h : env.length = n) : trim n env = env := by
  rw [trim, h, Nat.sub_self, List.drop_zero]
theorem trim_two (n : Nat) (x y : String × Value) (env : Env) (h : env.length = n) :
    trim n (x :: y :: env) = env := by
  rw [trim, List.length_cons, List.length_cons, h, show n + 1 + 1 - n = 2 by omega]
  rfl

theorem coerce_str (s t : List Char) : coerce (.str s) (.str t) = some (.str t) := rfl
theorem coerce_bytes (s t : Bytes) : coerce (bytes s) (bytes t) = some (bytes t) := rfl

theorem going_str {C : Ctx} {acc : String} {E : Value → Value → Value → Env} {n : Nat}
    (hE : Vars acc E n) (t : Str) (b a : Value) :
    doHead C going (E (.str t) b a) =
      .val (if t = [] then none else some []) (E (.str t) b a) := by
  cases t <;>
    simp only [doHead, going, eval_not, eval_is_empty, eval_var, varOf, hE.tmp, bind_val, method0,
      notOf, condOf, List.isEmpty] <;> rfl

theorem going_bytes {C : Ctx} {acc : String} {E : Value → Value → Value → Env} {n : Nat}
    (hE : Vars acc E n) (t : Bytes) (b a : Value) :
    doHead C going (E (bytes t) b a) =
      .val (if t = [] then none else some []) (E (bytes t) b a) := by
  cases t <;>
    simp only [doHead, going, eval_not, eval_is_empty, eval_var, varOf, hE.tmp, bind_val, method0,
      notOf, condOf, List.isEmpty, bytes, List.map_nil, List.map_cons] <;> rfl

theorem test_encode_body {C : Ctx} {mod acc : String} {E : Value → Value → Value → Env} {n : Nat}
    (hE : Vars acc E n) (h1 : acc ≠ "encoded") (h2 : acc ≠ "n") {t t' : Str} {b b' a s : Bytes} {k : Nat}
    (hc : C.callIn mod "encode_from_str" [.str t, bytes b] =
      .ok (encOk s k, [none, some (bytes b')]))
    (ht : strFrom t k = .ok t') :
    eval C (encodeBody mod acc) (E (.str t) (bytes b) (bytes a)) =
      .val .unit (E (.str t') (bytes b') (bytes (a ++ s))) := by
  have he : ∀ env, extended env (bytes a) (bytes s) = .val (bytes (a ++ s)) env := fun env => by
    simp only [extended, bytes, List.map_append]
  simp only [encodeBody, eval_block, eval_iteLet, eval_callIn, evalList_cons, evalList_nil, eval_var,
    eval_refMut, varOf, hE.tmp, hE.buf, bind_val, hc, returned, writeBacks, writeBack, hE.setBuf,
    encOk, withPat_ctor_pair, eval_seq, eval_assign_var, eval_ref, eval_sliceFrom, get_other, get_same,
    ne_eq, String.reduceEq, not_false_eq_true, sliceSuffix, strSuffix_eq, ht, Out.ofRs, assignVar,
    ofOption_some, coerce_str, set_other, hE.setTmp, eval_extend_from_slice, h1, h2, hE.getAcc, he,
    hE.setAcc, eval_unit, scope_val, hE.length, List.length_cons]
  rw [trim_self (n + 1 + 1) _ (by simp only [List.length_cons, hE.length]),
    trim_two n _ _ _ (hE.length _ _ _), trim_self n _ (hE.length _ _ _)]

theorem test_decode_body {C : Ctx} {mod : String} {args : List Expr} {vs : List Value}
    {ws : List (Option Value)} {E : Value → Value → Value → Env} {n : Nat}
    (hE : Vars "utf8" E n) {t t' b b' : Bytes} {a s : Str} {k : Nat}
    (hv : evalList C args (E (bytes t) (bytes b) (.str a)) = .val vs (E (bytes t) (bytes b) (.str a)))
    (hw : writeBacks args ws (E (bytes t) (bytes b) (.str a)) = E (bytes t) (bytes b') (.str a))
    (hc : C.callIn mod "decode_to_str" vs = .ok (decOk s k, ws))
    (ht : Verif.sliceFrom t k = .ok t') :
    eval C (decodeBody mod args) (E (bytes t) (bytes b) (.str a)) =
      .val .unit (E (bytes t') (bytes b') (.str (a ++ s))) := by
  have he : ∀ env, extended env (.str a) (.iter (s.map .char)) = .val (.str (a ++ s)) env :=
    fun env => by simp only [extended, toChars_map, ofOption_some, bind_val]
  simp only [decodeBody, eval_block, eval_iteLet, eval_callIn, hv, hw, eval_var,
    varOf, hE.tmp, bind_val, hc, returned,
    decOk, withPat_ctor_pair, eval_seq, eval_assign_var, eval_ref, eval_sliceFrom, get_other, get_same,
    ne_eq, String.reduceEq, not_false_eq_true, sliceSuffix_bytes, ht, on_ok, assignVar,
    ofOption_some, coerce_bytes, set_other, hE.setTmp, eval_extend, hE.getAcc, eval_chars, method0, he,
    hE.setAcc, eval_unit, scope_val, hE.length, List.length_cons]
  rw [trim_self (n + 1 + 1) _ (by simp only [List.length_cons, hE.length]),
    trim_two n _ _ _ (hE.length _ _ _), trim_self n _ (hE.length _ _ _)]

theorem strFrom_le : ∀ (t : Str) (k : Nat) (t' : Str), strFrom t k = .ok t' → strLen t' ≤ strLen t
  | t, 0, t', h => by
    have : t = t' := by cases t <;> exact Except.ok.inj h
    exact Nat.le_of_eq (by rw [this])
  | [], _ + 1, t', h => by cases h
  | c :: t, k + 1, t', h => by
    unfold strFrom at h
    split at h
    · have := strFrom_le t _ t' h
      refine Nat.le_trans this ?_
      rw [← List.singleton_append, strLen_append]
      exact Nat.le_add_left _ _
    · cases h

theorem while_stop {head : Env → Out (Option Env)} {body : Env → Out Value} {fuel : Nat} {env : Env}
    (h : head env = .val none env) :
    whileLoop head body (fuel + 1) env = .val .unit env := by
  simp only [whileLoop, whileRound, h, bind_val]
  rfl

theorem while_next {head : Env → Out (Option Env)} {body : Env → Out Value} {fuel : Nat}
    {env env' : Env} (h : head env = .val (some []) env)
    (hb : body env = .val .unit env') (hl : env'.length = env.length) :
    whileLoop head body (fuel + 1) env = whileLoop head body fuel env' := by
  have : trim env.length env' = env' := trim_self _ _ hl
  simp only [whileLoop, whileRound, h, bind_val, List.nil_append, hb, scope_val, this]
  rfl

theorem test_encode_loop {C : Ctx} {mod acc : String} {E : Value → Value → Value → Env} {n : Nat}
    (hE : Vars acc E n) (h1 : acc ≠ "encoded") (h2 : acc ≠ "n")
    {f : Str → Bytes → Rs (Bytes × EncodeResult)} {len w : Nat}
    (hc : ∀ t b b' s k, strLen t ≤ len → b.length = w → f t b = .ok (b', .ok (s, k)) →
      C.callIn mod "encode_from_str" [.str t, bytes b] = .ok (encOk s k, [none, some (bytes b')]) ∧
        b'.length = w) :
    ∀ (fuel : Nat) (t : Str) (b a b' a' : Bytes), strLen t ≤ len → b.length = w →
      encodeAll f fuel t b a = .ok (b', a') →
      whileLoop (doHead C going) (fun env => eval C (encodeBody mod acc) env) fuel
        (E (.str t) (bytes b) (bytes a)) = .val .unit (E (.str []) (bytes b') (bytes a'))
  | 0, t, b, a, b', a', _, _, h => by cases h
  | fuel + 1, t, b, a, b', a', hl, hw, h => by
    unfold encodeAll at h
    have hg := going_str (C := C) hE t (bytes b) (bytes a)
    by_cases ht : t = []
    · subst ht
      rw [if_pos rfl] at h hg
      cases h
      exact while_stop hg
    · rw [if_neg ht] at h hg
      cases hf : f t b with
      | error x => rw [hf] at h; cases h
      | ok r =>
        rw [hf] at h
        obtain ⟨b1, r⟩ := r
        cases r with
        | error x => cases h
        | ok r =>
          obtain ⟨s, k⟩ := r
          cases hs : strFrom t k with
          | error x => simp only [bind, Except.bind, hs] at h; cases h
          | ok t1 =>
            simp only [bind, Except.bind, hs] at h
            obtain ⟨hcall, hw1⟩ := hc t b b1 s k hl hw hf
            rw [while_next hg (test_encode_body hE h1 h2 hcall hs) (by rw [hE.length, hE.length])]
            exact test_encode_loop hE h1 h2 hc fuel t1 b1 (a ++ s) b' a'
              (Nat.le_trans (strFrom_le t k t1 hs) hl) hw1 h

theorem test_decode_loop {C : Ctx} {mod : String} {args : List Expr} {vs : Bytes → Bytes → List Value}
    {ws : Bytes → List (Option Value)} {E : Value → Value → Value → Env} {n : Nat}
    (hE : Vars "utf8" E n)
    (hv : ∀ t b a, evalList C args (E (bytes t) (bytes b) (.str a)) =
      .val (vs t b) (E (bytes t) (bytes b) (.str a)))
    (hw : ∀ t b b' a, writeBacks args (ws b') (E (bytes t) (bytes b) (.str a)) =
      E (bytes t) (bytes b') (.str a))
    {f : Bytes → Bytes → Rs (Bytes × DecodeResult)} {len w : Nat}
    (hc : ∀ t b b' s k, t.length ≤ len → b.length = w → f t b = .ok (b', .ok (s, k)) →
      C.callIn mod "decode_to_str" (vs t b) = .ok (decOk s k, ws b') ∧ b'.length = w) :
    ∀ (fuel : Nat) (t b : Bytes) (a : Str) (b' : Bytes) (a' : Str), t.length ≤ len → b.length = w →
      decodeAll f fuel t b a = .ok (b', a') →
      whileLoop (doHead C going) (fun env => eval C (decodeBody mod args) env) fuel
        (E (bytes t) (bytes b) (.str a)) = .val .unit (E (bytes []) (bytes b') (.str a'))
  | 0, t, b, a, b', a', _, _, h => by cases h
  | fuel + 1, t, b, a, b', a', hl, hwb, h => by
    unfold decodeAll at h
    have hg := going_bytes (C := C) hE t (bytes b) (.str a)
    by_cases ht : t = []
    · subst ht
      rw [if_pos rfl] at h hg
      cases h
      exact while_stop hg
    · rw [if_neg ht] at h hg
      cases hf : f t b with
      | error x => rw [hf] at h; cases h
      | ok r =>
        rw [hf] at h
        obtain ⟨b1, r⟩ := r
        cases r with
        | error x => cases h
        | ok r =>
          obtain ⟨s, k⟩ := r
          cases hs : Verif.sliceFrom t k with
          | error x => simp only [bind, Except.bind, hs] at h; cases h
          | ok t1 =>
            simp only [bind, Except.bind, hs] at h
            obtain ⟨hcall, hw1⟩ := hc t b b1 s k hl hwb hf
            have hl1 : t1.length ≤ t.length := by
              unfold Verif.sliceFrom at hs
              split at hs
              · cases hs
                rw [List.length_drop]
                omega
              · cases hs
            rw [while_next hg (test_decode_body hE (hv t b a) (hw t b b1 a) hcall hs)
              (by rw [hE.length, hE.length])]
            exact test_decode_loop hE hv hw hc fuel t1 b1 (a ++ s) b' a' (Nat.le_trans hl1 hl) hw1 h

end Verif.Lang
