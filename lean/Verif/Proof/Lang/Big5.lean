import Verif.Proof.Lang.ShiftJis

namespace Verif.Lang.Big5
open Machine (Target)

/-- What `map_grapheme` evaluates to. -/
def pair : Option (UInt8 × UInt8) → Value
  | some (x, y) => .variant "Some" [.arr [.int .usize x.toNat, .int .usize y.toNat]]
  | none => .variant "None" []

theorem map_grapheme (C : Ctx) (a b : Nat) :
    eval C Ast.big5_whatwg.map_grapheme [("a", .int .u32 a), ("b", .int .u32 b)] =
      .val (pair (Verif.Big5.map_grapheme a b)) [("a", .int .u32 a), ("b", .int .u32 b)] := by
  simp only [Ast.big5_whatwg.map_grapheme, Verif.Big5.map_grapheme]
  exec []
  by_cases h1 : a = 202 ∧ b = 772
  · rw [if_pos h1, if_pos h1]
    exec []
    rfl
  rw [if_neg h1, if_neg h1]
  exec []
  by_cases h2 : a = 202 ∧ b = 780
  · rw [if_pos h2, if_pos h2]
    exec []
    rfl
  rw [if_neg h2, if_neg h2]
  exec []
  by_cases h3 : a = 234 ∧ b = 772
  · rw [if_pos h3, if_pos h3]
    exec []
    rfl
  rw [if_neg h3, if_neg h3]
  exec []
  by_cases h4 : a = 234 ∧ b = 780
  · rw [if_pos h4, if_pos h4]
    exec []
    rfl
  rw [if_neg h4, if_neg h4]
  exec []
  rfl

/-- The variables of the encoder. -/
def encEnv (input : Str) (is_end : Bool) (its : List Value) (out : Bytes) (i j : Nat) : Env :=
  [("itr", .iter its), ("output_i", .int .usize j), ("input_i", .int .usize i),
    ("input", .str input), ("out_buffer", bytes out), ("is_end", .bool is_end)]

/-- The calls of `map_grapheme` return what they must. -/
def Graphemes (C : Ctx) : Prop :=
  ∀ a b, C.call false "map_grapheme" [.int .u32 a, .int .u32 b] =
    .ok (pair (Verif.Big5.map_grapheme a b), [none, none])

theorem returned_none (a b : Expr) (env : Env) (v : Value) :
    returned [a, b] env (.ok (v, [none, none])) = .val v env := rfl

set_option maxHeartbeats 2000000 in
theorem encode_round (C : Ctx)
    (ht : C.const "ENCODE_TABLE" = some (.arr (Verif.Big5.ENCODE_TABLE.map entry2)))
    (hg : Graphemes C)
    (input : Str) (is_end : Bool) (st : EncState) (env : Env)
    (he : env = encEnv input is_end (st.itr.map charItem) st.out st.input_i st.output_i) :
    Sim (RoundOf (fun st env =>
          env = encEnv input is_end (st.itr.map charItem) st.out st.input_i st.output_i)
        (EncEnds fun out i j env => ∃ its, env = encEnv input is_end its out i j))
      (whileRound (letHead C (.ctor "Some" [.tuple [.bind "offset", .bind "c"]])
        (.method (.var "itr") .next []))
        (fun env => eval C Ast.big5_whatwg.encode_from_str.loop1 env) env)
      (onRs (Machine.Big5.encodeBody C.target is_end st) fun c => .val c []) := by
  subst he
  generalize hP : RoundOf _ _ = P
  rw [whileRound_let]
  obtain ⟨_ | ⟨⟨off, c⟩, _ | ⟨⟨off2, c2⟩, itr⟩⟩, out, i, j⟩ := st
  all_goals cases is_end
  all_goals
    simp only [Ast.big5_whatwg.encode_from_str.loop1, encEnv, Machine.Big5.encodeBody, ge_iff_le,
      charItem, List.map_nil, List.map_cons]
    sims [Machine.encNext, varOf, ht]
  all_goals try (rename_i r _; cases r)
  all_goals sims [Machine.store2, Machine.encNext, Machine.encFail, Machine.Big5.encodeCommon, varOf,
    ht, indexOf_map entry2, hg _ _, returned_none]
  all_goals try (
    generalize Verif.Big5.map_grapheme _ _ = g
    obtain _ | ⟨x, y⟩ := g
    all_goals
      simp only [pair]
      sims [Machine.store2, Machine.encNext, Machine.Big5.encodeCommon, varOf, ht,
        indexOf_map entry2])
  all_goals subst hP
  all_goals first
    | exact ⟨_, rfl, rfl⟩
    | exact ⟨trivial, _, rfl, _, rfl⟩
    | exact ⟨trivial, _, _, _, rfl, _, rfl⟩

theorem consumed_round (C : Ctx) (input : Str) (is_end : Bool) (its : List Value) (out : Bytes)
    (j i : Nat) :
    Sim (RoundOf (fun i env => env = encEnv input is_end its out i j)
        (fun i o => o = .brk (encEnv input is_end its out i j)))
      (whileRound (doHead C (.not (.method (.var "input") .is_char_boundary [(.var "input_i")])))
        (fun env => eval C Ast.big5_whatwg.encode_from_str.loop2 env)
        (encEnv input is_end its out i j))
      (onRs (Machine.consumedBody C.target input i) fun c => .val c []) := by
  consumed_round [Ast.big5_whatwg.encode_from_str.loop2, encEnv]

theorem length_le_strLen (s : Str) : s.length ≤ strLen s := by
  induction s with
  | nil => exact Nat.zero_le _
  | cons c s ih =>
    have h : strLen (c :: s) = (encodeUtf8 c).length + strLen s := by
      simp [strLen, strBytes, encodeUtf8]
    have : 0 < (encodeUtf8 c).length := by
      rw [encodeUtf8, String.length_utf8EncodeChar]
      exact c.utf8Size_pos
    simp only [List.length_cons]
    omega

theorem enc_diverge {m : Target} {input : Str} {r : Rs EncEnd}
    (h : (r >>= Machine.finishEncode m input) ≠ .error .diverge) : r ≠ .error .diverge := by
  rintro rfl
  exact h rfl

theorem encode (C : Ctx)
    (ht : C.const "ENCODE_TABLE" = some (.arr (Verif.Big5.ENCODE_TABLE.map entry2)))
    (hg : Graphemes C) (input : Str) (out : Bytes) (is_end : Bool)
    (hfuel : strLen input + 1 ≤ C.fuel)
    (hd : Machine.Big5.encode_from_str C.target input out is_end ≠ .error .diverge) :
    Sim (EncRes fun out env =>
        env = [("input", .str input), ("out_buffer", bytes out), ("is_end", .bool is_end)])
      (eval C Ast.big5_whatwg.encode_from_str
        [("input", .str input), ("out_buffer", bytes out), ("is_end", .bool is_end)])
      (onRs (Machine.Big5.encode_from_str C.target input out is_end) fun x => .val x []) := by
  have hl := while_sim (step := Machine.Big5.encodeBody C.target is_end)
    (encode_round C ht hg input is_end) _ _ ⟨charIndices input, out, 0, 0⟩
    (encEnv input is_end ((charIndices input).map charItem) out 0 0)
    (Nat.le_trans (Nat.succ_le_succ (length_le_strLen input)) hfuel) rfl (enc_diverge hd)
  simp only [Ast.big5_whatwg.encode_from_str]
  exec []
  refine sim_scope (encode_sim hl hd fun out i j env he hd => ?_) ?_
  · obtain ⟨its, rfl⟩ := he
    have hc := finishEncode_diverge hd
    have hw := fun i hi => consumed_sim (consumed_round C input is_end its out j) hfuel i hi
    simp only [encEnv] at hw
    generalize hP : EncRes _ = P
    simp only [Machine.finishEncode, Machine.consumed, encEnv]
    exec []
    by_cases hi : strLen input < i
    · rw [if_pos hi, if_pos hi]
      sims []
      subst hP
      exact ⟨_, rfl, _, _, _, rfl⟩
    · rw [if_neg hi, if_neg hi]
      exec []
      rw [hw i (hc hi)]
      sims []
      subst hP
      exact ⟨_, rfl, _, _, _, rfl⟩
  · rintro ⟨out, ⟨s, n⟩ | e⟩ o ⟨env, rfl, i, j, its, rfl⟩
    · exact ⟨_, rfl, rfl⟩
    · exact ⟨_, rfl, rfl⟩

/-- The variables of the decoder. -/
def decEnv (input : Bytes) (is_end : Bool) (its buf : List Value) (out : Bytes) (i j : Nat) : Env :=
  [("itr", .iter its), ("buf", .arr buf), ("output_i", .int .usize j), ("input_i", .int .usize i),
    ("input", bytes input), ("out_buffer", bytes out), ("is_end", .bool is_end)]

theorem big5Ptr_ite (m : Target) (a b : UInt8) :
    Machine.Big5.big5Ptr m a b = (do
      let l ← Machine.sub m a.toNat 129
      let lead ← Machine.mul m l 157
      if b.toNat < 127 then do
        let trail ← Machine.sub m b.toNat 64
        Machine.add m lead trail
      else do
        let trail ← Machine.sub m b.toNat 98
        Machine.add m lead trail) := by
  simp only [Machine.Big5.big5Ptr, UInt8.lt_iff_toNat_lt, UInt8.reduceToNat]

theorem grapheme_cases {p : Nat} {g : Option Str} (h : Verif.Big5.graphemeOf p = g) :
    (p = 1133 ∧ g = some [Char.ofNat 0xCA, Char.ofNat 0x304]) ∨
    (p = 1135 ∧ g = some [Char.ofNat 0xCA, Char.ofNat 0x30C]) ∨
    (p = 1164 ∧ g = some [Char.ofNat 0xEA, Char.ofNat 0x304]) ∨
    (p = 1166 ∧ g = some [Char.ofNat 0xEA, Char.ofNat 0x30C]) ∨
    (p ≠ 1133 ∧ p ≠ 1135 ∧ p ≠ 1164 ∧ p ≠ 1166 ∧ g = none) := by
  subst h
  unfold Verif.Big5.graphemeOf
  by_cases h1 : p = 1133
  · simp [h1]
  by_cases h2 : p = 1135
  · simp [h2]
  by_cases h3 : p = 1164
  · simp [h3]
  by_cases h4 : p = 1166
  · simp [h4]
  simp [h1, h2, h3, h4]

theorem strLen_pair (a b : Char) : strLen [a, b] = (strBytes [a, b]).length := rfl

set_option maxHeartbeats 2000000 in
theorem decode_round (C : Ctx) (hm : 16 ≤ C.target.bits)
    (ht : C.const "DECODE_TABLE" = some (charTable Verif.Big5.DECODE_TABLE))
    (input : Bytes) (is_end : Bool) (st : DecState UInt8) (env : Env)
    (he : ∃ buf : List Value, buf.length = 4 ∧
      env = decEnv input is_end (st.itr.map byte) buf st.out st.input_i st.output_i) :
    Sim (RoundOf (fun st env => ∃ buf : List Value, buf.length = 4 ∧
          env = decEnv input is_end (st.itr.map byte) buf st.out st.input_i st.output_i)
        (DecEnds fun out i j env => ∃ its buf, env = decEnv input is_end its buf out i j))
      (whileRound (letHead C (.ctor "Some" [.bind "byte_1"]) (.method (.var "itr") .next []))
        (fun env => eval C Ast.big5_whatwg.decode_to_str.loop1 env) env)
      (onRs (Machine.Big5.decodeBody C.target is_end st) fun c => .val c []) := by
  obtain ⟨buf, hb, rfl⟩ := he
  generalize hP : RoundOf _ _ = P
  rw [whileRound_let]
  obtain ⟨_ | ⟨b, _ | ⟨b2, itr⟩⟩, out, i, j⟩ := st
  all_goals cases is_end
  all_goals
    simp only [Ast.big5_whatwg.decode_to_str.loop1, decEnv, Machine.Big5.decodeBody, ge_iff_le, gt_iff_lt, UInt8.lt_iff_toNat_lt, UInt8.le_iff_toNat_le, ← UInt8.toNat_inj, UInt8.reduceToNat, List.map_nil, List.map_cons]
    sims [encodeTo_buf _ _ _ hb, ShiftJis.decAscii_swap, castTo_usize_byte _ _ hm, big5Ptr_ite,
      ShiftJis.decFail_ite, ht, ofOption_some, decide_eq_true_eq]
    all_goals try (
      conv in Verif.Big5.graphemeOf _ => skip
      generalize hg : Verif.Big5.graphemeOf _ = g
      rcases grapheme_cases hg with ⟨h, rfl⟩ | ⟨h, rfl⟩ | ⟨h, rfl⟩ | ⟨h, rfl⟩ | ⟨h1, h2, h3, h4, rfl⟩
      all_goals first
        | (have := h1; sims [h1, h2, h3, h4])
        | sims [h, Nat.reduceEqDiff, strLen_pair, Machine.decNext])
    all_goals sims [Machine.decFail]
    all_goals try (rename_i h _; simp only [h])
    all_goals sims [encodeTo_buf _ _ _ hb, Machine.decNext]
    all_goals subst hP
    all_goals first
      | exact ⟨_, rfl, _, hb, rfl⟩
      | exact ⟨_, rfl, _, refill_length _ hb, rfl⟩
      | exact ⟨trivial, _, rfl, _, _, rfl⟩
      | exact ⟨trivial, _, _, _, rfl, _, _, rfl⟩

theorem decode (C : Ctx) (hm : 16 ≤ C.target.bits)
    (ht : C.const "DECODE_TABLE" = some (charTable Verif.Big5.DECODE_TABLE))
    (input out : Bytes) (is_end : Bool) (hfuel : input.length + 1 ≤ C.fuel)
    (hd : Machine.Big5.decode_to_str C.target input out is_end ≠ .error .diverge) :
    Sim (DecRes fun out env =>
        env = [("input", bytes input), ("out_buffer", bytes out), ("is_end", .bool is_end)])
      (eval C Ast.big5_whatwg.decode_to_str
        [("input", bytes input), ("out_buffer", bytes out), ("is_end", .bool is_end)])
      (onRs (Machine.Big5.decode_to_str C.target input out is_end) fun x => .val x []) := by
  have hl := while_sim (step := Machine.Big5.decodeBody C.target is_end)
    (decode_round C hm ht input is_end) _ _ ⟨input, out, 0, 0⟩
    (decEnv input is_end (input.map byte) (List.replicate 4 (.int .u8 0)) out 0 0) hfuel
    ⟨_, rfl, rfl⟩ (loop_diverge hd)
  simp only [Ast.big5_whatwg.decode_to_str]
  exec []
  refine sim_scope (decode_sim hl fun out i j env he => ?_) ?_
  · obtain ⟨its, buf, rfl⟩ := he
    generalize hP : DecRes _ = P
    simp only [finishDecode, decEnv]
    sims []
    subst hP
    exact ⟨_, rfl, _, _, _, _, rfl⟩
  · rintro ⟨out, ⟨s, n⟩ | e⟩ o ⟨env, rfl, i, j, its, buf, rfl⟩
    · exact ⟨_, rfl, rfl⟩
    · exact ⟨_, rfl, rfl⟩

end Verif.Lang.Big5
