import Verif.Proof.Lang.Encode
import Verif.Proof.Lang.Decode

namespace Verif.Lang.Utf16
open Machine (Target)

/-- The variables of the encoder. -/
def encEnv (input : Str) (out : Bytes) (i j : Nat) : Env :=
  [("output_i", .int .usize j), ("input_i", .int .usize i), ("input", .str input),
    ("out_buffer", bytes out)]

theorem be_encode_round (C : Ctx) (input : Str) (off : Nat) (c : Char) (itr : List (Nat × Char))
    (out : Bytes) (i j : Nat) :
    Sim (RoundOf (fun st env => st.itr = itr ∧ env = encEnv input st.out st.input_i st.output_i)
        (EncEnds (Is (encEnv input))))
      (forBody C (.tuple [.bind "offset", .bind "c"]) Ast.utf16_be.encode_from_str.loop1
        (charItem (off, c)) (encEnv input out i j)).round
      (onRs (Machine.Utf16.encodeBody C.target Verif.Utf16.be ⟨(off, c) :: itr, out, i, j⟩)
        fun c => .val c []) := by
  encode_round [Ast.utf16_be.encode_from_str.loop1, encEnv, Machine.Utf16.encodeBody]

theorem be_consumed_round (C : Ctx) (input : Str) (out : Bytes) (j i : Nat) :
    Sim (RoundOf (fun i env => env = encEnv input out i j) (fun i o => o = .brk (encEnv input out i j)))
      (whileRound (doHead C (.not (.method (.var "input") .is_char_boundary [(.var "input_i")])))
        (fun env => eval C Ast.utf16_be.encode_from_str.loop2 env) (encEnv input out i j))
      (onRs (Machine.consumedBody C.target input i) fun c => .val c []) := by
  consumed_round [Ast.utf16_be.encode_from_str.loop2, encEnv]

theorem be_encode (C : Ctx) (input : Str) (out : Bytes) (hfuel : strLen input + 1 ≤ C.fuel)
    (hd : Machine.Utf16.encode_from_str C.target Verif.Utf16.be input out ≠ .error .diverge) :
    Sim (EncRes fun out env => env = [("input", .str input), ("out_buffer", bytes out)])
      (eval C Ast.utf16_be.encode_from_str [("input", .str input), ("out_buffer", bytes out)])
      (onRs (Machine.Utf16.encode_from_str C.target Verif.Utf16.be input out) fun x => .val x []) := by
  have hl := for_encode (step := Machine.Utf16.encodeBody C.target Verif.Utf16.be)
    (be_encode_round C input) (fun _ _ _ => rfl) input out
  simp only [Ast.utf16_be.encode_from_str]
  exec []
  refine sim_scope (encode_sim hl hd fun out i j env he hd => ?_) ?_
  · subst he
    have hc := finishEncode_diverge hd
    have hw := fun i hi => consumed_sim (be_consumed_round C input out j) hfuel i hi
    simp only [encEnv] at hw
    generalize hP : EncRes _ = P
    simp only [Machine.finishEncode, Machine.consumed, encEnv]
    exec []
    by_cases hi : strLen input < i
    · rw [if_pos hi, if_pos hi]
      sims []
      subst hP
      exact ⟨_, rfl, _, _, rfl⟩
    · rw [if_neg hi, if_neg hi]
      exec []
      rw [hw i (hc hi)]
      sims []
      subst hP
      exact ⟨_, rfl, _, _, rfl⟩
  · rintro ⟨out, ⟨s, n⟩ | e⟩ o ⟨env, rfl, i, j, rfl⟩
    · exact ⟨_, rfl, rfl⟩
    · exact ⟨_, rfl, rfl⟩

theorem le_encode_round (C : Ctx) (input : Str) (off : Nat) (c : Char) (itr : List (Nat × Char))
    (out : Bytes) (i j : Nat) :
    Sim (RoundOf (fun st env => st.itr = itr ∧ env = encEnv input st.out st.input_i st.output_i)
        (EncEnds (Is (encEnv input))))
      (forBody C (.tuple [.bind "offset", .bind "c"]) Ast.utf16_le.encode_from_str.loop1
        (charItem (off, c)) (encEnv input out i j)).round
      (onRs (Machine.Utf16.encodeBody C.target Verif.Utf16.le ⟨(off, c) :: itr, out, i, j⟩)
        fun c => .val c []) := by
  encode_round [Ast.utf16_le.encode_from_str.loop1, encEnv, Machine.Utf16.encodeBody]

theorem le_consumed_round (C : Ctx) (input : Str) (out : Bytes) (j i : Nat) :
    Sim (RoundOf (fun i env => env = encEnv input out i j) (fun i o => o = .brk (encEnv input out i j)))
      (whileRound (doHead C (.not (.method (.var "input") .is_char_boundary [(.var "input_i")])))
        (fun env => eval C Ast.utf16_le.encode_from_str.loop2 env) (encEnv input out i j))
      (onRs (Machine.consumedBody C.target input i) fun c => .val c []) := by
  consumed_round [Ast.utf16_le.encode_from_str.loop2, encEnv]

theorem le_encode (C : Ctx) (input : Str) (out : Bytes) (hfuel : strLen input + 1 ≤ C.fuel)
    (hd : Machine.Utf16.encode_from_str C.target Verif.Utf16.le input out ≠ .error .diverge) :
    Sim (EncRes fun out env => env = [("input", .str input), ("out_buffer", bytes out)])
      (eval C Ast.utf16_le.encode_from_str [("input", .str input), ("out_buffer", bytes out)])
      (onRs (Machine.Utf16.encode_from_str C.target Verif.Utf16.le input out) fun x => .val x []) := by
  have hl := for_encode (step := Machine.Utf16.encodeBody C.target Verif.Utf16.le)
    (le_encode_round C input) (fun _ _ _ => rfl) input out
  simp only [Ast.utf16_le.encode_from_str]
  exec []
  refine sim_scope (encode_sim hl hd fun out i j env he hd => ?_) ?_
  · subst he
    have hc := finishEncode_diverge hd
    have hw := fun i hi => consumed_sim (le_consumed_round C input out j) hfuel i hi
    simp only [encEnv] at hw
    generalize hP : EncRes _ = P
    simp only [Machine.finishEncode, Machine.consumed, encEnv]
    exec []
    by_cases hi : strLen input < i
    · rw [if_pos hi, if_pos hi]
      sims []
      subst hP
      exact ⟨_, rfl, _, _, rfl⟩
    · rw [if_neg hi, if_neg hi]
      exec []
      rw [hw i (hc hi)]
      sims []
      subst hP
      exact ⟨_, rfl, _, _, rfl⟩
  · rintro ⟨out, ⟨s, n⟩ | e⟩ o ⟨env, rfl, i, j, rfl⟩
    · exact ⟨_, rfl, rfl⟩
    · exact ⟨_, rfl, rfl⟩

/-- The variables of the decoder. -/
def decEnv (input : Bytes) (is_end : Bool) (its : List Value) (out : Bytes) (i j : Nat) : Env :=
  [("itr", .iter its), ("output_i", .int .usize j), ("input_i", .int .usize i),
    ("input", bytes input), ("out_buffer", bytes out), ("is_end", .bool is_end)]

theorem be_decode_round (C : Ctx) (input : Bytes) (is_end : Bool) (st : DecState Bytes) (env : Env)
    (he : env = decEnv input is_end (st.itr.map bytes) st.out st.input_i st.output_i) :
    Sim (RoundOf (fun st env => env = decEnv input is_end (st.itr.map bytes) st.out st.input_i st.output_i)
        (DecEnds fun out i j env => ∃ its, env = decEnv input is_end its out i j))
      (whileRound (letHead C (.ctor "Some" [.bind "bytes"]) (.method (.var "itr") .next []))
        (fun env => eval C Ast.utf16_be.decode_to_str.loop1 env) env)
      (onRs (Machine.Utf16.decodeBody C.target Verif.Utf16.be input is_end st)
        fun c => .val c []) := by
  subst he
  generalize hP : RoundOf _ _ = P
  rw [whileRound_let]
  obtain ⟨_ | ⟨b, _ | ⟨b2, itr⟩⟩, out, i, j⟩ := st
  all_goals cases is_end
  all_goals
    simp only [Ast.utf16_be.decode_to_str.loop1, decEnv, Machine.Utf16.decodeBody, List.map_nil, List.map_cons]
    sims []
    all_goals try simp only [List.head?_nil, List.head?_cons, unwrap, List.tail_cons, List.tail_nil]
    sims [Machine.Utf16.decodeEmit, Machine.Utf16.pairCode, Machine.decFail, Verif.Utf16.fail]
  all_goals subst hP
  all_goals first
    | exact ⟨_, rfl, rfl⟩
    | exact ⟨trivial, _, rfl, _, rfl⟩
    | exact ⟨trivial, _, _, _, rfl, _, rfl⟩

theorem be_decode (C : Ctx) (input out : Bytes) (is_end : Bool)
    (hfuel : input.length + 1 ≤ C.fuel)
    (hd : Machine.Utf16.decode_to_str C.target Verif.Utf16.be input out is_end ≠ .error .diverge) :
    Sim (DecRes fun out env =>
        env = [("input", bytes input), ("out_buffer", bytes out), ("is_end", .bool is_end)])
      (eval C Ast.utf16_be.decode_to_str
        [("input", bytes input), ("out_buffer", bytes out), ("is_end", .bool is_end)])
      (onRs (Machine.Utf16.decode_to_str C.target Verif.Utf16.be input out is_end)
        fun x => .val x []) := by
  have hl := while_sim (step := Machine.Utf16.decodeBody C.target Verif.Utf16.be input is_end)
    (be_decode_round C input is_end) _ _ ⟨chunks 2 input, out, 0, 0⟩ _ hfuel rfl (loop_diverge hd)
  simp only [Ast.utf16_be.decode_to_str]
  exec []
  refine sim_scope (decode_sim hl fun out i j env he => ?_) ?_
  · obtain ⟨its, rfl⟩ := he
    generalize hP : DecRes _ = P
    simp only [finishDecode, decEnv]
    sims []
    subst hP
    exact ⟨_, rfl, _, _, _, rfl⟩
  · rintro ⟨out, ⟨s, n⟩ | e⟩ o ⟨env, rfl, i, j, its, rfl⟩
    · exact ⟨_, rfl, rfl⟩
    · exact ⟨_, rfl, rfl⟩

theorem le_decode_round (C : Ctx) (input : Bytes) (is_end : Bool) (st : DecState Bytes) (env : Env)
    (he : env = decEnv input is_end (st.itr.map bytes) st.out st.input_i st.output_i) :
    Sim (RoundOf (fun st env => env = decEnv input is_end (st.itr.map bytes) st.out st.input_i st.output_i)
        (DecEnds fun out i j env => ∃ its, env = decEnv input is_end its out i j))
      (whileRound (letHead C (.ctor "Some" [.bind "bytes"]) (.method (.var "itr") .next []))
        (fun env => eval C Ast.utf16_le.decode_to_str.loop1 env) env)
      (onRs (Machine.Utf16.decodeBody C.target Verif.Utf16.le input is_end st)
        fun c => .val c []) := by
  subst he
  generalize hP : RoundOf _ _ = P
  rw [whileRound_let]
  obtain ⟨_ | ⟨b, _ | ⟨b2, itr⟩⟩, out, i, j⟩ := st
  all_goals cases is_end
  all_goals
    simp only [Ast.utf16_le.decode_to_str.loop1, decEnv, Machine.Utf16.decodeBody, List.map_nil, List.map_cons]
    sims []
    all_goals try simp only [List.head?_nil, List.head?_cons, unwrap, List.tail_cons, List.tail_nil]
    sims [Machine.Utf16.decodeEmit, Machine.Utf16.pairCode, Machine.decFail, Verif.Utf16.fail]
  all_goals subst hP
  all_goals first
    | exact ⟨_, rfl, rfl⟩
    | exact ⟨trivial, _, rfl, _, rfl⟩
    | exact ⟨trivial, _, _, _, rfl, _, rfl⟩

theorem le_decode (C : Ctx) (input out : Bytes) (is_end : Bool)
    (hfuel : input.length + 1 ≤ C.fuel)
    (hd : Machine.Utf16.decode_to_str C.target Verif.Utf16.le input out is_end ≠ .error .diverge) :
    Sim (DecRes fun out env =>
        env = [("input", bytes input), ("out_buffer", bytes out), ("is_end", .bool is_end)])
      (eval C Ast.utf16_le.decode_to_str
        [("input", bytes input), ("out_buffer", bytes out), ("is_end", .bool is_end)])
      (onRs (Machine.Utf16.decode_to_str C.target Verif.Utf16.le input out is_end)
        fun x => .val x []) := by
  have hl := while_sim (step := Machine.Utf16.decodeBody C.target Verif.Utf16.le input is_end)
    (le_decode_round C input is_end) _ _ ⟨chunks 2 input, out, 0, 0⟩ _ hfuel rfl (loop_diverge hd)
  simp only [Ast.utf16_le.decode_to_str]
  exec []
  refine sim_scope (decode_sim hl fun out i j env he => ?_) ?_
  · obtain ⟨its, rfl⟩ := he
    generalize hP : DecRes _ = P
    simp only [finishDecode, decEnv]
    sims []
    subst hP
    exact ⟨_, rfl, _, _, _, rfl⟩
  · rintro ⟨out, ⟨s, n⟩ | e⟩ o ⟨env, rfl, i, j, its, rfl⟩
    · exact ⟨_, rfl, rfl⟩
    · exact ⟨_, rfl, rfl⟩

end Verif.Lang.Utf16
