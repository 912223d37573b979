import Verif.Proof.Lang.Encode
import Verif.Proof.Lang.Decode
import Verif.Proof.Machine

namespace Verif.Lang.Utf8
open Machine (Target)

/-! ## Strings -/

theorem boundary_split : ∀ (s : Str) (k : Nat), isCharBoundary s k = true →
    ∃ a b, s = a ++ b ∧ k = strLen a
  | s, 0, _ => ⟨[], s, rfl, rfl⟩
  | [], k + 1, h => by
    simp [isCharBoundary, strBytes, strLen] at h
  | c :: s, k + 1, h => by
    by_cases hk : k + 1 < c.utf8Size
    · have := not_isCharBoundary_in [] s c (k + 1) (Nat.succ_pos k) hk
      simp [strLen, strBytes] at this
      rw [this] at h
      cases h
    · obtain ⟨j, hj⟩ : ∃ j, k + 1 = c.utf8Size + j := ⟨k + 1 - c.utf8Size, by omega⟩
      have hs : isCharBoundary s j = true := by
        unfold isCharBoundary at h ⊢
        by_cases h0 : j = 0
        · rw [if_pos h0]
        rw [if_neg h0]
        rw [if_neg (Nat.succ_ne_zero k), hj, strBytes_cons, strLen_cons,
          List.getElem?_append_right (by rw [utf8_len]; exact Nat.le_add_right ..), utf8_len,
          Nat.add_sub_cancel_left] at h
        revert h
        cases (strBytes s)[j]? with
        | none => simp
        | some b => exact id
      obtain ⟨a, b, rfl, rfl⟩ := boundary_split s j hs
      exact ⟨c :: a, b, rfl, by rw [hj, strLen_cons]⟩

theorem charsOf_strBytes (s : Str) : charsOf (strBytes s) = s := by
  have := utf8Scan_strBytes s [] utf8Next_nil
  rw [List.append_nil] at this
  rw [charsOf, this]

theorem strSliceTo_bytes {s : Str} {k : Nat} {b : Bytes} (h : strSliceTo s k = .ok b) :
    strBytes (charsOf b) = b := by
  unfold strSliceTo at h
  by_cases hb : isCharBoundary s k = true
  · rw [if_pos hb] at h
    obtain ⟨x, y, rfl, rfl⟩ := boundary_split s k hb
    rw [strBytes_append, ← strBytes_length, List.take_left] at h
    cases h
    rw [charsOf_strBytes]
  · rw [if_neg hb] at h
    cases h

theorem strLen_charsOf (b : Bytes) : strLen (charsOf b) = fromUtf8ValidUpTo b := by
  obtain ⟨s, rest, rfl, hr⟩ := utf8_split b
  rw [charsOf, fromUtf8ValidUpTo, utf8Scan_strBytes s rest hr]

/-! ## Loops -/

theorem while_value {E : Nat → Env} {step : Nat → Rs (Ctl Nat Nat)} {head : Env → Out (Option Env)}
    {body : Env → Out Value}
    (h : ∀ i, Sim (RoundOf (fun i env => env = E i) (fun i o => o = .brk (E i)))
      (whileRound head body (E i)) (onRs (step i) fun c => .val c []))
    {n N : Nat} (hN : n ≤ N) (i : Nat) (hd : loop step n i ≠ .error .diverge) :
    whileLoop head body N (E i) = onRs (loop step n i) fun i => .val .unit (E i) := by
  have := while_sim (E := fun i env => env = E i) (fun i env he => by rw [he]; exact h i) _ N i (E i)
    hN rfl hd
  revert this
  cases loop step n i with
  | error f => exact id
  | ok k =>
    rintro ⟨o, -, rfl, ho⟩
    exact ho

theorem toNat_and (b c : UInt8) (n : Nat) : (b &&& c = UInt8.ofNat n) ↔
    b.toNat &&& c.toNat = n % 256 := by
  rw [← UInt8.toNat_inj, UInt8.toNat_and]
  simp

theorem copyLen_diverge {m : Target} {input : Bytes} :
    ∀ n i, i < n → i < 2 ^ m.bits → loop (Machine.Utf8.copyLenBody m input) n i ≠ .error .diverge
  | 0, _, h, _ => absurd h (Nat.not_lt_zero _)
  | n + 1, i, h, hb => by
    unfold loop Machine.Utf8.copyLenBody
    by_cases h0 : 0 < i
    · rw [if_pos h0]
      unfold index
      cases input[i]? with
      | none => simp [bind, Except.bind]
      | some b =>
        simp only [bind, Except.bind]
        by_cases hc : (b &&& 0b1100_0000) = 0b1000_0000
        · rw [if_pos hc, Machine.sub_ok h0 hb]
          exact copyLen_diverge n _ (by omega) (by omega)
        · rw [if_neg hc]
          simp
    · rw [if_neg h0]
      simp

theorem copy_round (C : Ctx) (l : Bytes) (n i : Nat) :
    Sim (RoundOf (fun i env => env = [("i", .int .usize i), ("input", bytes l),
          ("output_len", .int .usize n)])
        (fun i o => o = .brk [("i", .int .usize i), ("input", bytes l), ("output_len", .int .usize n)]))
      (whileRound (doHead C (.bin .land (.bin .gt (.var "i") (.int .usize 0))
          (.bin .eq (.bin .and (.index (.var "input") (.var "i")) (.int .usize 192))
            (.int .usize 128))))
        (fun env => eval C Ast.utf8.copy_len.loop1 env)
        [("i", .int .usize i), ("input", bytes l), ("output_len", .int .usize n)])
      (onRs (Machine.Utf8.copyLenBody C.target l i) fun c => .val c []) := by
  generalize hP : RoundOf _ _ = P
  rw [whileRound_do]
  simp only [Machine.Utf8.copyLenBody, Ast.utf8.copy_len.loop1, ← UInt8.toNat_inj, UInt8.toNat_and,
    UInt8.reduceToNat]
  sims []
  all_goals subst hP
  all_goals first
    | exact ⟨_, rfl, rfl⟩
    | exact ⟨trivial, rfl⟩

theorem copy_len (C : Ctx) (l : Bytes) (n : Nat) (hfuel : l.length ≤ C.fuel)
    (hl : l.length ≤ 2 ^ C.target.bits) :
    eval C Ast.utf8.copy_len [("input", bytes l), ("output_len", .int .usize n)] =
      onRs (Machine.Utf8.copyLen C.target l n) fun k =>
        .val (.int .usize k) [("input", bytes l), ("output_len", .int .usize n)] := by
  simp only [Ast.utf8.copy_len, Machine.Utf8.copyLen, ge_iff_le]
  exec []
  by_cases h : l.length ≤ n
  · rw [if_pos h, if_pos h]
    exec []
  · rw [if_neg h, if_neg h]
    have := while_value (copy_round C l n) (n := n + 1) (N := C.fuel) (by omega) n
      (copyLen_diverge _ _ (Nat.lt_succ_self n) (by omega))
    exec []
    rw [this]
    steps []

/-- The outcome of a call that returns a length. -/
def lenResult : Rs Nat → CallResult
  | .ok k => .ok (.int .usize k, [none, none])
  | .error f => .error (some f)

theorem returned_len (a b : Expr) (env : Env) (r : Rs Nat) :
    returned [a, b] env (lenResult r) = onRs r fun k => .val (.int .usize k) env := by
  cases r <;> rfl

/-- The calls of `copy_len` return what they must. -/
def Copies (C : Ctx) : Prop :=
  ∀ l n, l.length ≤ C.fuel → l.length ≤ 2 ^ C.target.bits →
    C.call false "copy_len" [bytes l, .int .usize n] = lenResult (Machine.Utf8.copyLen C.target l n)

theorem slicePrefix_str (env : Env) (s : Str) (t : IntTy) (i : Nat) :
    slicePrefix env (.str s) (.int t i) = onRs (strSliceTo s i) fun b => .val (.str (charsOf b)) env := by
  simp only [slicePrefix, ofRs_bind]

theorem encode (C : Ctx) (hc : Copies C) (input : Str) (out : Bytes)
    (hfuel : strLen input + 1 ≤ C.fuel) (hl : strLen input ≤ 2 ^ C.target.bits) :
    Sim (EncRes fun out env => env = [("input", .str input), ("out_buffer", bytes out)])
      (eval C Ast.utf8.encode_from_str [("input", .str input), ("out_buffer", bytes out)])
      (onRs (Machine.Utf8.encode_from_str C.target input out) fun x => .val x []) := by
  generalize hP : EncRes _ = P
  have h := hc (strBytes input) out.length (by rw [strBytes_length]; omega)
    (by rw [strBytes_length]; exact hl)
  simp only [Ast.utf8.encode_from_str, Machine.Utf8.encode_from_str]
  sims [h, returned_len, slicePrefix_str]
  rename_i h
  rw [strSliceTo_bytes h]
  sims []
  subst hP
  exact ⟨_, rfl, rfl⟩

/-! ## Decoding -/

theorem isTruncated_eq (b : UInt8) (n : Nat) : Verif.Utf8.isTruncated b n =
    decide ((b.toNat &&& 224 = 192 ∧ n < 2) ∨ (b.toNat &&& 240 = 224 ∧ n < 3) ∨
      b.toNat &&& 248 = 240 ∧ n < 4) := by
  have h : ∀ x y : UInt8, (x == y) = decide (x.toNat = y.toNat) := fun x y => by
    by_cases e : x = y
    · simp [e]
    · simp [e, UInt8.toNat_inj]
  simp only [Verif.Utf8.isTruncated, h, UInt8.toNat_and, UInt8.reduceToNat, Bool.decide_or,
    Bool.decide_and, Bool.or_assoc]

theorem errorEnd_diverge {m : Target} {input : Bytes} (hl : input.length < 2 ^ m.bits) :
    ∀ n i, input.length ≤ i + n →
      loop (Machine.Utf8.errorEndBody m input) (n + 1) i ≠ .error .diverge
  | n, i, h => by
    unfold loop Machine.Utf8.errorEndBody
    by_cases h0 : i < input.length
    · rw [if_pos h0]
      unfold index
      cases input[i]? with
      | none => simp [bind, Except.bind]
      | some b =>
        simp only [bind, Except.bind]
        by_cases hc : (b &&& 0b1100_0000) = 0b1000_0000 ∨ (b &&& 0b1111_1000) = 0b1111_1000
        · rw [if_pos hc, Machine.add_ok (Nat.lt_of_le_of_lt h0 hl)]
          cases n with
          | zero => exact absurd h (by omega)
          | succ n => exact errorEnd_diverge hl n _ (by omega)
        · rw [if_neg hc]
          simp
    · rw [if_neg h0]
      simp

/-- The variables of the decoder at its loop. -/
def decEnv (input out : Bytes) (is_end tr : Bool) (t k v : Nat) (b : UInt8) (i : Nat) : Env :=
  [("i", .int .usize i), ("is_truncated", .bool tr), ("byte", byte b),
    ("trailing_bytes", .int .usize t), ("bytes_copied", .int .usize k),
    ("valid_up_to", .int .usize v), ("input", bytes input), ("out_buffer", bytes out),
    ("is_end", .bool is_end)]

theorem errorEnd_round (C : Ctx) (input out : Bytes) (is_end tr : Bool) (t k v : Nat) (b : UInt8)
    (i : Nat) :
    Sim (RoundOf (fun i env => env = decEnv input out is_end tr t k v b i)
        (fun i o => o = .brk (decEnv input out is_end tr t k v b i)))
      (whileRound (doHead C (.bin .land (.bin .lt (.var "i") (.method (.var "input") .len []))
        (.bin .lor
          (.bin .eq (.bin .and (.index (.var "input") (.var "i")) (.int .usize 192)) (.int .usize 128))
          (.bin .eq (.bin .and (.index (.var "input") (.var "i")) (.int .usize 248))
            (.int .usize 248)))))
        (fun env => eval C Ast.utf8.decode_to_str.loop1 env)
        (decEnv input out is_end tr t k v b i))
      (onRs (Machine.Utf8.errorEndBody C.target input i) fun c => .val c []) := by
  generalize hP : RoundOf _ _ = P
  rw [whileRound_do]
  simp only [Machine.Utf8.errorEndBody, Ast.utf8.decode_to_str.loop1, ← UInt8.toNat_inj,
    UInt8.toNat_and, UInt8.reduceToNat, decEnv]
  sims []
  · rename_i c h
    by_cases h1 : c.toNat &&& 192 = 128
    · simp only [h1, true_or, if_true]
      sims []
      subst hP
      exact ⟨_, rfl, rfl⟩
    · simp only [h1, false_or, if_false, h]
      sims []
      all_goals subst hP
      · exact ⟨_, rfl, rfl⟩
      · exact ⟨trivial, rfl⟩
  · subst hP
    exact ⟨trivial, rfl⟩

theorem from_utf8_bytes (m : Target) (env : Env) (b : Bytes) :
    stdFn m env .from_utf8 (bytes b) =
      if fromUtf8ValidUpTo b = b.length then .val (.variant "Ok" [.str (charsOf b)]) env
      else .val (.variant "Err"
        [.struct "Utf8Error" ["valid_up_to"] [.int .usize (fromUtf8ValidUpTo b)]]) env := by
  simp only [stdFn, bytes, toBytes_map, ofOption_some, bind_val]

theorem valid_up_to_error (m : Target) (env : Env) (v : Value) :
    method0 m env .valid_up_to (.struct "Utf8Error" ["valid_up_to"] [v]) = .val v env := rfl

/-- Only the arm of the value that `from_utf8` returned is run: both lead to the same length. -/
theorem decode (C : Ctx) (hc : Copies C) (input out : Bytes) (is_end : Bool)
    (hfuel : input.length + 1 ≤ C.fuel) (hl : input.length < 2 ^ C.target.bits) :
    Sim (DecRes fun out env =>
        env = [("input", bytes input), ("out_buffer", bytes out), ("is_end", .bool is_end)])
      (eval C Ast.utf8.decode_to_str
        [("input", bytes input), ("out_buffer", bytes out), ("is_end", .bool is_end)])
      (onRs (Machine.Utf8.decode_to_str C.target input out is_end) fun x => .val x []) := by
  generalize hP : DecRes _ = P
  simp only [Ast.utf8.decode_to_str, Machine.Utf8.decode_to_str]
  exec [from_utf8_bytes]
  have hs : ∀ {k : Nat} {v : Bytes}, sliceTo input k = .ok v → v.length ≤ input.length := by
    intro k v h
    unfold sliceTo at h
    by_cases hk : k ≤ input.length
    · rw [if_pos hk] at h
      cases h
      rw [List.length_take]
      exact Nat.min_le_right ..
    · rw [if_neg hk] at h
      cases h
  have hcall : ∀ {k : Nat} {v : Bytes}, sliceTo input k = .ok v →
      C.call false "copy_len" [bytes v, .int .usize out.length] =
        lenResult (Machine.Utf8.copyLen C.target v out.length) := fun h =>
    hc _ _ (Nat.le_trans (hs h) (Nat.le_of_succ_le hfuel)) (Nat.le_trans (hs h) (Nat.le_of_lt hl))
  have hw := fun out is_end tr t k v b i =>
    while_value (errorEnd_round C input out is_end tr t k v b) (n := input.length + 1) hfuel i
      (errorEnd_diverge hl _ _ (Nat.le_add_left ..))
  simp only [decEnv] at hw
  simp only [isTruncated_eq, Bool.not_eq_true', decide_eq_false_iff_not]
  by_cases hv : fromUtf8ValidUpTo input = input.length
  · rw [if_pos hv]
    sims [strLen_charsOf]
    rename_i h
    sims [hcall h, returned_len, Verif.Utf8.decodeOk, hw]
    all_goals subst hP
    all_goals exact ⟨_, rfl, rfl⟩
  · rw [if_neg hv]
    sims [valid_up_to_error]
    rename_i h
    sims [hcall h, returned_len, Verif.Utf8.decodeOk, hw]
    all_goals subst hP
    all_goals exact ⟨_, rfl, rfl⟩

end Verif.Lang.Utf8
