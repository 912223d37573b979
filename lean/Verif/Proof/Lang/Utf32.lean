import Verif.Proof.Lang.Encode
import Verif.Proof.Lang.Decode

namespace Verif.Lang.Utf32
open Machine (Target)

/-- The variables of the encoder. -/
def encEnv (input : Str) (out : Bytes) (i j : Nat) : Env :=
  [("output_i", .int .usize j), ("input_i", .int .usize i), ("input", .str input),
    ("out_buffer", bytes out)]

theorem be_encode_round (C : Ctx) (input : Str) (off : Nat) (c : Char) (itr : List (Nat × Char))
    (out : Bytes) (i j : Nat) :
    Sim (RoundOf (fun st env => st.itr = itr ∧ env = encEnv input st.out st.input_i st.output_i)
        (EncEnds (Is (encEnv input))))
      (forBody C (.tuple [.bind "offset", .bind "c"]) Ast.utf32_be.encode_from_str.loop1
        (charItem (off, c)) (encEnv input out i j)).round
      (onRs (Machine.Utf32.encodeBody C.target Verif.Utf32.be ⟨(off, c) :: itr, out, i, j⟩)
        fun c => .val c []) := by
  encode_round [Ast.utf32_be.encode_from_str.loop1, encEnv, Machine.Utf32.encodeBody]

theorem be_consumed_round (C : Ctx) (input : Str) (out : Bytes) (j i : Nat) :
    Sim (RoundOf (fun i env => env = encEnv input out i j) (fun i o => o = .brk (encEnv input out i j)))
      (whileRound (doHead C (.not (.method (.var "input") .is_char_boundary [(.var "input_i")])))
        (fun env => eval C Ast.utf32_be.encode_from_str.loop2 env) (encEnv input out i j))
      (onRs (Machine.consumedBody C.target input i) fun c => .val c []) := by
  consumed_round [Ast.utf32_be.encode_from_str.loop2, encEnv]

theorem be_encode (C : Ctx) (input : Str) (out : Bytes) (hfuel : strLen input + 1 ≤ C.fuel)
    (hd : Machine.Utf32.encode_from_str C.target Verif.Utf32.be input out ≠ .error .diverge) :
    Sim (EncRes fun out env => env = [("input", .str input), ("out_buffer", bytes out)])
      (eval C Ast.utf32_be.encode_from_str [("input", .str input), ("out_buffer", bytes out)])
      (onRs (Machine.Utf32.encode_from_str C.target Verif.Utf32.be input out) fun x => .val x []) := by
  have hl := for_encode (step := Machine.Utf32.encodeBody C.target Verif.Utf32.be)
    (be_encode_round C input) (fun _ _ _ => rfl) input out
  simp only [Ast.utf32_be.encode_from_str]
  exec []
  refine sim_scope (encode_sim hl hd fun out i j env he hd => ?_) ?_
  · subst he
    have hc := finishEncode_diverge hd
    have hw := fun i hi => consumed_sim (be_consumed_round C input out j) hfuel i hi
    simp only [encEnv] at hw
    generalize hP : EncRes _ = P
    simp only [Machine.finishEncode, Machine.consumed, encEnv]
    exec []
    by_cases hi : strLen input < i
    · rw [if_pos hi, if_pos hi]
      sims []
      subst hP
      exact ⟨_, rfl, _, _, rfl⟩
    · rw [if_neg hi, if_neg hi]
      exec []
      rw [hw i (hc hi)]
      sims []
      subst hP
      exact ⟨_, rfl, _, _, rfl⟩
  · rintro ⟨out, ⟨s, n⟩ | e⟩ o ⟨env, rfl, i, j, rfl⟩
    · exact ⟨_, rfl, rfl⟩
    · exact ⟨_, rfl, rfl⟩

theorem le_encode_round (C : Ctx) (input : Str) (off : Nat) (c : Char) (itr : List (Nat × Char))
    (out : Bytes) (i j : Nat) :
    Sim (RoundOf (fun st env => st.itr = itr ∧ env = encEnv input st.out st.input_i st.output_i)
        (EncEnds (Is (encEnv input))))
      (forBody C (.tuple [.bind "offset", .bind "c"]) Ast.utf32_le.encode_from_str.loop1
        (charItem (off, c)) (encEnv input out i j)).round
      (onRs (Machine.Utf32.encodeBody C.target Verif.Utf32.le ⟨(off, c) :: itr, out, i, j⟩)
        fun c => .val c []) := by
  encode_round [Ast.utf32_le.encode_from_str.loop1, encEnv, Machine.Utf32.encodeBody]

theorem le_consumed_round (C : Ctx) (input : Str) (out : Bytes) (j i : Nat) :
    Sim (RoundOf (fun i env => env = encEnv input out i j) (fun i o => o = .brk (encEnv input out i j)))
      (whileRound (doHead C (.not (.method (.var "input") .is_char_boundary [(.var "input_i")])))
        (fun env => eval C Ast.utf32_le.encode_from_str.loop2 env) (encEnv input out i j))
      (onRs (Machine.consumedBody C.target input i) fun c => .val c []) := by
  consumed_round [Ast.utf32_le.encode_from_str.loop2, encEnv]

theorem le_encode (C : Ctx) (input : Str) (out : Bytes) (hfuel : strLen input + 1 ≤ C.fuel)
    (hd : Machine.Utf32.encode_from_str C.target Verif.Utf32.le input out ≠ .error .diverge) :
    Sim (EncRes fun out env => env = [("input", .str input), ("out_buffer", bytes out)])
      (eval C Ast.utf32_le.encode_from_str [("input", .str input), ("out_buffer", bytes out)])
      (onRs (Machine.Utf32.encode_from_str C.target Verif.Utf32.le input out) fun x => .val x []) := by
  have hl := for_encode (step := Machine.Utf32.encodeBody C.target Verif.Utf32.le)
    (le_encode_round C input) (fun _ _ _ => rfl) input out
  simp only [Ast.utf32_le.encode_from_str]
  exec []
  refine sim_scope (encode_sim hl hd fun out i j env he hd => ?_) ?_
  · subst he
    have hc := finishEncode_diverge hd
    have hw := fun i hi => consumed_sim (le_consumed_round C input out j) hfuel i hi
    simp only [encEnv] at hw
    generalize hP : EncRes _ = P
    simp only [Machine.finishEncode, Machine.consumed, encEnv]
    exec []
    by_cases hi : strLen input < i
    · rw [if_pos hi, if_pos hi]
      sims []
      subst hP
      exact ⟨_, rfl, _, _, rfl⟩
    · rw [if_neg hi, if_neg hi]
      exec []
      rw [hw i (hc hi)]
      sims []
      subst hP
      exact ⟨_, rfl, _, _, rfl⟩
  · rintro ⟨out, ⟨s, n⟩ | e⟩ o ⟨env, rfl, i, j, rfl⟩
    · exact ⟨_, rfl, rfl⟩
    · exact ⟨_, rfl, rfl⟩

/-- The variables of the decoder. -/
def decEnv (input : Bytes) (is_end : Bool) (out : Bytes) (i j : Nat) : Env :=
  [("output_i", .int .usize j), ("input_i", .int .usize i), ("input", bytes input),
    ("out_buffer", bytes out), ("is_end", .bool is_end)]

theorem be_decode_round (C : Ctx) (input : Bytes) (is_end : Bool) (b : Bytes) (itr : List Bytes)
    (out : Bytes) (i j : Nat) (env : Env) (he : env = decEnv input is_end out i j) :
    Sim (RoundOf (fun st env =>
          st.itr = itr ∧ env = decEnv input is_end st.out st.input_i st.output_i)
        (DecEnds fun out i j env => env = decEnv input is_end out i j))
      (forBody C (.bind "bytes") Ast.utf32_be.decode_to_str.loop1 (bytes b) env).round
      (onRs (Machine.Utf32.decodeBody C.target Verif.Utf32.be input is_end ⟨b :: itr, out, i, j⟩)
        fun c => .val c []) := by
  subst he
  generalize hP : RoundOf _ _ = P
  cases is_end
  all_goals
    simp only [forBody, Ast.utf32_be.decode_to_str.loop1, decEnv, Machine.Utf32.decodeBody]
    sims []
  all_goals try (split <;> rename_i heq <;> simp only [heq])
  all_goals sims [Machine.decNext, Machine.decFail]
  all_goals subst hP
  all_goals first
    | exact ⟨_, rfl, rfl, rfl⟩
    | exact ⟨trivial, _, rfl, rfl⟩
    | exact ⟨trivial, _, _, _, rfl, rfl⟩

theorem be_decode (C : Ctx) (input out : Bytes) (is_end : Bool) :
    Sim (DecRes fun out env =>
        env = [("input", bytes input), ("out_buffer", bytes out), ("is_end", .bool is_end)])
      (eval C Ast.utf32_be.decode_to_str
        [("input", bytes input), ("out_buffer", bytes out), ("is_end", .bool is_end)])
      (onRs (Machine.Utf32.decode_to_str C.target Verif.Utf32.be input out is_end)
        fun x => .val x []) := by
  have hl := for_decode (step := Machine.Utf32.decodeBody C.target Verif.Utf32.be input is_end)
    (be_decode_round C input is_end) (fun _ _ _ => rfl) (chunks 4 input) (chunks_length 4 input) out rfl
  simp only [Ast.utf32_be.decode_to_str]
  exec []
  refine sim_scope (decode_sim hl fun out i j env he => ?_) ?_
  · subst he
    generalize hP : DecRes _ = P
    simp only [finishDecode, decEnv]
    sims []
    subst hP
    exact ⟨_, rfl, _, _, rfl⟩
  · rintro ⟨out, ⟨s, n⟩ | e⟩ o ⟨env, rfl, i, j, rfl⟩
    · exact ⟨_, rfl, rfl⟩
    · exact ⟨_, rfl, rfl⟩

theorem le_decode_round (C : Ctx) (input : Bytes) (is_end : Bool) (b : Bytes) (itr : List Bytes)
    (out : Bytes) (i j : Nat) (env : Env) (he : env = decEnv input is_end out i j) :
    Sim (RoundOf (fun st env =>
          st.itr = itr ∧ env = decEnv input is_end st.out st.input_i st.output_i)
        (DecEnds fun out i j env => env = decEnv input is_end out i j))
      (forBody C (.bind "bytes") Ast.utf32_le.decode_to_str.loop1 (bytes b) env).round
      (onRs (Machine.Utf32.decodeBody C.target Verif.Utf32.le input is_end ⟨b :: itr, out, i, j⟩)
        fun c => .val c []) := by
  subst he
  generalize hP : RoundOf _ _ = P
  cases is_end
  all_goals
    simp only [forBody, Ast.utf32_le.decode_to_str.loop1, decEnv, Machine.Utf32.decodeBody]
    sims []
  all_goals try (split <;> rename_i heq <;> simp only [heq])
  all_goals sims [Machine.decNext, Machine.decFail]
  all_goals subst hP
  all_goals first
    | exact ⟨_, rfl, rfl, rfl⟩
    | exact ⟨trivial, _, rfl, rfl⟩
    | exact ⟨trivial, _, _, _, rfl, rfl⟩

theorem le_decode (C : Ctx) (input out : Bytes) (is_end : Bool) :
    Sim (DecRes fun out env =>
        env = [("input", bytes input), ("out_buffer", bytes out), ("is_end", .bool is_end)])
      (eval C Ast.utf32_le.decode_to_str
        [("input", bytes input), ("out_buffer", bytes out), ("is_end", .bool is_end)])
      (onRs (Machine.Utf32.decode_to_str C.target Verif.Utf32.le input out is_end)
        fun x => .val x []) := by
  have hl := for_decode (step := Machine.Utf32.decodeBody C.target Verif.Utf32.le input is_end)
    (le_decode_round C input is_end) (fun _ _ _ => rfl) (chunks 4 input) (chunks_length 4 input) out rfl
  simp only [Ast.utf32_le.decode_to_str]
  exec []
  refine sim_scope (decode_sim hl fun out i j env he => ?_) ?_
  · subst he
    generalize hP : DecRes _ = P
    simp only [finishDecode, decEnv]
    sims []
    subst hP
    exact ⟨_, rfl, _, _, rfl⟩
  · rintro ⟨out, ⟨s, n⟩ | e⟩ o ⟨env, rfl, i, j, rfl⟩
    · exact ⟨_, rfl, rfl⟩
    · exact ⟨_, rfl, rfl⟩

end Verif.Lang.Utf32
