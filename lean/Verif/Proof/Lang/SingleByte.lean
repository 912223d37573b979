import Verif.Proof.Lang.Encode
import Verif.Proof.Lang.Decode

namespace Verif.Lang.SingleByte
open Machine (Target)

/-- The variables of the encoder. -/
def encEnv (table : List (Char × UInt8)) (input : Str) (out : Bytes) (i j : Nat) : Env :=
  [("output_i", .int .usize j), ("input_i", .int .usize i), ("table", .arr (table.map entry)),
    ("input", .str input), ("output", bytes out)]

theorem encode_round (C : Ctx) (table : List (Char × UInt8)) (input : Str) (off : Nat) (c : Char)
    (itr : List (Nat × Char)) (out : Bytes) (i j : Nat) :
    Sim (RoundOf (fun st env =>
          st.itr = itr ∧ env = encEnv table input st.out st.input_i st.output_i)
        (EncEnds (Is (encEnv table input))))
      (forBody C (.tuple [.bind "offset", .bind "c"]) Ast.single_byte.ascii_ext_encode_from_str.loop1
        (charItem (off, c)) (encEnv table input out i j)).round
      (onRs (Machine.SingleByte.encodeBody C.target table ⟨(off, c) :: itr, out, i, j⟩)
        fun c => .val c []) := by
  generalize hP : RoundOf _ _ = P
  simp only [forBody, charItem, Ast.single_byte.ascii_ext_encode_from_str.loop1, encEnv,
    Machine.SingleByte.encodeBody, ge_iff_le]
  sims []
  all_goals try (rename_i r _; cases r)
  all_goals sims [Machine.encNext, Machine.encFail, indexOf_map entry]
  all_goals subst hP
  all_goals first
    | exact ⟨_, rfl, rfl, rfl⟩
    | exact ⟨trivial, _, rfl, rfl⟩
    | exact ⟨trivial, _, _, _, rfl, rfl⟩

theorem consumed_round (C : Ctx) (table : List (Char × UInt8)) (input : Str) (out : Bytes) (j i : Nat) :
    Sim (RoundOf (fun i env => env = encEnv table input out i j)
        (fun i o => o = .brk (encEnv table input out i j)))
      (whileRound (doHead C (.not (.method (.var "input") .is_char_boundary [(.var "input_i")])))
        (fun env => eval C Ast.single_byte.ascii_ext_encode_from_str.loop2 env)
        (encEnv table input out i j))
      (onRs (Machine.consumedBody C.target input i) fun c => .val c []) := by
  consumed_round [Ast.single_byte.ascii_ext_encode_from_str.loop2, encEnv]

theorem encode (C : Ctx) (table : List (Char × UInt8)) (input : Str) (out : Bytes)
    (hfuel : strLen input + 1 ≤ C.fuel)
    (hd : Machine.SingleByte.ascii_ext_encode_from_str C.target table input out ≠ .error .diverge) :
    Sim (EncRes fun out env => env = [("table", .arr (table.map entry)), ("input", .str input),
        ("output", bytes out)])
      (eval C Ast.single_byte.ascii_ext_encode_from_str [("table", .arr (table.map entry)),
        ("input", .str input), ("output", bytes out)])
      (onRs (Machine.SingleByte.ascii_ext_encode_from_str C.target table input out)
        fun x => .val x []) := by
  have hl := for_encode (step := Machine.SingleByte.encodeBody C.target table)
    (encode_round C table input) (fun _ _ _ => rfl) input out
  simp only [Ast.single_byte.ascii_ext_encode_from_str]
  exec []
  refine sim_scope (encode_sim hl hd fun out i j env he hd => ?_) ?_
  · subst he
    have hc := finishEncode_diverge hd
    have hw := fun i hi => consumed_sim (consumed_round C table input out j) hfuel i hi
    simp only [encEnv] at hw
    generalize hP : EncRes _ = P
    simp only [Machine.finishEncode, Machine.consumed, encEnv]
    exec []
    by_cases hi : strLen input < i
    · rw [if_pos hi, if_pos hi]
      sims []
      subst hP
      exact ⟨_, rfl, _, _, rfl⟩
    · rw [if_neg hi, if_neg hi]
      exec []
      rw [hw i (hc hi)]
      sims []
      subst hP
      exact ⟨_, rfl, _, _, rfl⟩
  · rintro ⟨out, ⟨s, n⟩ | e⟩ o ⟨env, rfl, i, j, rfl⟩
    · exact ⟨_, rfl, rfl⟩
    · exact ⟨_, rfl, rfl⟩

/-- The variables of the decoder. -/
def decEnv (table : List Char) (input : Bytes) (out : Bytes) (i j : Nat) : Env :=
  [("output_i", .int .usize j), ("input_i", .int .usize i), ("table", charTable table),
    ("input", bytes input), ("output", bytes out)]

theorem decode_round (C : Ctx) (hm : 16 ≤ C.target.bits) (table : List Char) (input : Bytes)
    (b : UInt8) (itr : Bytes) (out : Bytes) (i j : Nat) (env : Env)
    (he : env = decEnv table input out i j) :
    Sim (RoundOf (fun st env =>
          st.itr = itr ∧ env = decEnv table input st.out st.input_i st.output_i)
        (DecEnds fun out i j env => env = decEnv table input out i j))
      (forBody C (.bind "byte") Ast.single_byte.ascii_ext_decode_to_str.loop1 (byte b) env).round
      (onRs (Machine.SingleByte.decodeBody C.target table ⟨b :: itr, out, i, j⟩)
        fun c => .val c []) := by
  subst he
  generalize hP : RoundOf _ _ = P
  simp only [forBody, Ast.single_byte.ascii_ext_decode_to_str.loop1, decEnv,
    Machine.SingleByte.decodeBody, UInt8.lt_iff_toNat_lt, UInt8.reduceToNat, ge_iff_le]
  sims [Machine.decAscii, Machine.decNext, Machine.decFail, castTo_usize_byte _ _ hm]
  all_goals subst hP
  all_goals first
    | exact ⟨_, rfl, rfl, rfl⟩
    | exact ⟨trivial, _, rfl, rfl⟩
    | exact ⟨trivial, _, _, _, rfl, rfl⟩

theorem decode (C : Ctx) (hm : 16 ≤ C.target.bits) (table : List Char) (input out : Bytes) :
    Sim (DecRes fun out env =>
        env = [("table", charTable table), ("input", bytes input), ("output", bytes out)])
      (eval C Ast.single_byte.ascii_ext_decode_to_str
        [("table", charTable table), ("input", bytes input), ("output", bytes out)])
      (onRs (Machine.SingleByte.ascii_ext_decode_to_str C.target table input out)
        fun x => .val x []) := by
  have hl := for_decode (step := Machine.SingleByte.decodeBody C.target table)
    (decode_round C hm table input) (fun _ _ _ => rfl) input (Nat.lt_succ_self _) out rfl
  simp only [Ast.single_byte.ascii_ext_decode_to_str]
  exec []
  refine sim_scope (decode_sim hl fun out i j env he => ?_) ?_
  · subst he
    generalize hP : DecRes _ = P
    simp only [finishDecode, decEnv]
    sims []
    subst hP
    exact ⟨_, rfl, _, _, rfl⟩
  · rintro ⟨out, ⟨s, n⟩ | e⟩ o ⟨env, rfl, i, j, rfl⟩
    · exact ⟨_, rfl, rfl⟩
    · exact ⟨_, rfl, rfl⟩

end Verif.Lang.SingleByte
