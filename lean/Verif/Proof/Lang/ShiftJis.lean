import Verif.Proof.Lang.Encode
import Verif.Proof.Lang.Decode

namespace Verif.Lang.ShiftJis
open Machine (Target)

/-- The variables of the encoder. -/
def encEnv (input : Str) (out : Bytes) (i j : Nat) : Env :=
  [("output_i", .int .usize j), ("input_i", .int .usize i), ("input", .str input),
    ("out_buffer", bytes out)]

theorem encode_round (C : Ctx)
    (ht : C.const "ENCODE_TABLE" = some (.arr (Verif.ShiftJis.ENCODE_TABLE.map entry2)))
    (input : Str) (off : Nat) (c : Char) (itr : List (Nat × Char)) (out : Bytes) (i j : Nat) :
    Sim (RoundOf (fun st env => st.itr = itr ∧ env = encEnv input st.out st.input_i st.output_i)
        (EncEnds (Is (encEnv input))))
      (forBody C (.tuple [.bind "offset", .bind "c"]) Ast.shiftjis_whatwg.encode_from_str.loop1
        (charItem (off, c)) (encEnv input out i j)).round
      (onRs (Machine.ShiftJis.encodeBody C.target ⟨(off, c) :: itr, out, i, j⟩)
        fun c => .val c []) := by
  generalize hP : RoundOf _ _ = P
  simp only [forBody, charItem, Ast.shiftjis_whatwg.encode_from_str.loop1, encEnv,
    Machine.ShiftJis.encodeBody, ge_iff_le]
  sims [storeElem_int _ _ _ .usize _ 92 (.inr rfl) (by decide), Machine.encNext, UInt8.reduceOfNat,
    storeElem_int _ _ _ .usize _ 126 (.inr rfl) (by decide)]
  all_goals try (subst hP; first
    | exact ⟨_, rfl, rfl, rfl⟩
    | exact ⟨trivial, _, rfl, rfl⟩
    | exact ⟨trivial, _, _, _, rfl, rfl⟩)
  by_cases hc : 57344 ≤ c.toNat ∧ c.toNat ≤ 59223
  · simp only [Machine.ShiftJis.jisBytes, Machine.ShiftJis.eudcBytes, if_pos hc, ge_iff_le]
    sims [Nat.reduceAdd]
    rename_i p _
    by_cases h1 : p / 188 < 31 <;> by_cases h2 : p % 188 < 63
    all_goals
      simp only [h1, h2, if_true, if_false]
      sims [Machine.store2, Machine.encNext, Nat.reduceAdd, h1, h2]
      subst hP
      exact ⟨_, rfl, rfl, rfl⟩
  · simp only [Machine.ShiftJis.jisBytes, if_neg hc, ge_iff_le]
    by_cases h1 : c.toNat = 8722
    all_goals
      simp only [h1, if_true, if_false]
      sims [varOf, ht, h1]
      rename_i r _
      cases r
      all_goals sims [Machine.store2, Machine.encNext, Machine.encFail, varOf, ht, indexOf_map entry2]
      all_goals subst hP
      all_goals first
        | exact ⟨_, rfl, rfl, rfl⟩
        | exact ⟨trivial, _, _, _, rfl, rfl⟩

theorem consumed_round (C : Ctx) (input : Str) (out : Bytes) (j i : Nat) :
    Sim (RoundOf (fun i env => env = encEnv input out i j) (fun i o => o = .brk (encEnv input out i j)))
      (whileRound (doHead C (.not (.method (.var "input") .is_char_boundary [(.var "input_i")])))
        (fun env => eval C Ast.shiftjis_whatwg.encode_from_str.loop2 env) (encEnv input out i j))
      (onRs (Machine.consumedBody C.target input i) fun c => .val c []) := by
  consumed_round [Ast.shiftjis_whatwg.encode_from_str.loop2, encEnv]

theorem encode (C : Ctx)
    (ht : C.const "ENCODE_TABLE" = some (.arr (Verif.ShiftJis.ENCODE_TABLE.map entry2)))
    (input : Str) (out : Bytes) (hfuel : strLen input + 1 ≤ C.fuel)
    (hd : Machine.ShiftJis.encode_from_str C.target input out ≠ .error .diverge) :
    Sim (EncRes fun out env => env = [("input", .str input), ("out_buffer", bytes out)])
      (eval C Ast.shiftjis_whatwg.encode_from_str [("input", .str input), ("out_buffer", bytes out)])
      (onRs (Machine.ShiftJis.encode_from_str C.target input out) fun x => .val x []) := by
  have hl := for_encode (step := Machine.ShiftJis.encodeBody C.target)
    (encode_round C ht input) (fun _ _ _ => rfl) input out
  simp only [Ast.shiftjis_whatwg.encode_from_str]
  exec []
  refine sim_scope (encode_sim hl hd fun out i j env he hd => ?_) ?_
  · subst he
    have hc := finishEncode_diverge hd
    have hw := fun i hi => consumed_sim (consumed_round C input out j) hfuel i hi
    simp only [encEnv] at hw
    generalize hP : EncRes _ = P
    simp only [Machine.finishEncode, Machine.consumed, encEnv]
    exec []
    by_cases hi : strLen input < i
    · rw [if_pos hi, if_pos hi]
      sims []
      subst hP
      exact ⟨_, rfl, _, _, rfl⟩
    · rw [if_neg hi, if_neg hi]
      exec []
      rw [hw i (hc hi)]
      sims []
      subst hP
      exact ⟨_, rfl, _, _, rfl⟩
  · rintro ⟨out, ⟨s, n⟩ | e⟩ o ⟨env, rfl, i, j, rfl⟩
    · exact ⟨_, rfl, rfl⟩
    · exact ⟨_, rfl, rfl⟩

/-- The variables of the decoder. -/
def decEnv (input : Bytes) (is_end : Bool) (its buf : List Value) (out : Bytes) (i j : Nat) : Env :=
  [("itr", .iter its), ("buf", .arr buf), ("output_i", .int .usize j), ("input_i", .int .usize i),
    ("input", bytes input), ("out_buffer", bytes out), ("is_end", .bool is_end)]

theorem decAscii_swap (m : Target) (st : DecState UInt8) (itr : Bytes) (b : UInt8) :
    Machine.decAscii m st itr b = (do
      let out ← setIndex st.out st.output_i b
      let output_i ← Machine.add m st.output_i 1
      let input_i ← Machine.add m st.input_i 1
      .ok (.next ⟨itr, out, input_i, output_i⟩)) := by
  unfold Machine.decAscii
  cases setIndex st.out st.output_i b with
  | error f => rfl
  | ok out =>
    cases h : Machine.add m st.input_i 1 <;> cases h' : Machine.add m st.output_i 1 <;> try rfl
    cases arith_error h
    cases arith_error h'
    rfl

theorem decFail_ite {α : Type} (m : Target) (st : DecState α) (p : Prop) [Decidable p] (a b : Nat) :
    Machine.decFail m st (if p then a else b) =
      if p then Machine.decFail m st a else Machine.decFail m st b := by
  by_cases h : p
  · rw [if_pos h, if_pos h]
  · rw [if_neg h, if_neg h]

theorem jisPtr_ite (m : Target) (a b : UInt8) :
    Machine.ShiftJis.jisPtr m a b = (
      if a.toNat < 160 then
        if b.toNat < 127 then do
          let lead ← Machine.sub32 m a.toNat 129
          let p ← Machine.mul32 m lead 188
          let q ← Machine.add32 m p b.toNat
          Machine.sub32 m q 64
        else do
          let lead ← Machine.sub32 m a.toNat 129
          let p ← Machine.mul32 m lead 188
          let q ← Machine.add32 m p b.toNat
          Machine.sub32 m q 65
      else
        if b.toNat < 127 then do
          let lead ← Machine.sub32 m a.toNat 193
          let p ← Machine.mul32 m lead 188
          let q ← Machine.add32 m p b.toNat
          Machine.sub32 m q 64
        else do
          let lead ← Machine.sub32 m a.toNat 193
          let p ← Machine.mul32 m lead 188
          let q ← Machine.add32 m p b.toNat
          Machine.sub32 m q 65) := by
  simp only [Machine.ShiftJis.jisPtr, UInt8.lt_iff_toNat_lt, UInt8.reduceToNat]
  by_cases h : a.toNat < 160 <;> by_cases h' : b.toNat < 127 <;>
    simp only [h, h', if_true, if_false]

set_option maxHeartbeats 2000000 in
theorem decode_round (C : Ctx)
    (ht : C.const "DECODE_TABLE" = some (charTable Verif.ShiftJis.DECODE_TABLE))
    (input : Bytes) (is_end : Bool) (st : DecState UInt8) (env : Env)
    (he : ∃ buf : List Value, buf.length = 4 ∧
      env = decEnv input is_end (st.itr.map byte) buf st.out st.input_i st.output_i) :
    Sim (RoundOf (fun st env => ∃ buf : List Value, buf.length = 4 ∧
          env = decEnv input is_end (st.itr.map byte) buf st.out st.input_i st.output_i)
        (DecEnds fun out i j env => ∃ its buf, env = decEnv input is_end its buf out i j))
      (whileRound (letHead C (.ctor "Some" [.bind "byte_1"]) (.method (.var "itr") .next []))
        (fun env => eval C Ast.shiftjis_whatwg.decode_to_str.loop1 env) env)
      (onRs (Machine.ShiftJis.decodeBody C.target is_end st) fun c => .val c []) := by
  obtain ⟨buf, hb, rfl⟩ := he
  generalize hP : RoundOf _ _ = P
  rw [whileRound_let]
  obtain ⟨_ | ⟨b, _ | ⟨b2, itr⟩⟩, out, i, j⟩ := st
  all_goals cases is_end
  all_goals
    simp only [Ast.shiftjis_whatwg.decode_to_str.loop1, decEnv, Machine.ShiftJis.decodeBody, ge_iff_le, gt_iff_lt, UInt8.lt_iff_toNat_lt, UInt8.le_iff_toNat_le, ← UInt8.toNat_inj, UInt8.reduceToNat, List.map_nil, List.map_cons]
    sims [encodeTo_buf _ _ _ hb, decAscii_swap, Machine.store2, Machine.decNext,
      storeElem_int _ _ _ .usize _ 194 (.inr rfl) (by decide),
      storeElem_int _ _ _ .usize _ 128 (.inr rfl) (by decide), UInt8.reduceOfNat,
      Machine.ShiftJis.katakana, Machine.ShiftJis.eudcChar, jisPtr_ite, decFail_ite, ht, ofOption_some]
    all_goals sims [Machine.decFail]
    all_goals try (rename_i h _; simp only [h])
    all_goals sims [encodeTo_buf _ _ _ hb, Machine.decNext]
    all_goals subst hP
    all_goals first
      | exact ⟨_, rfl, _, hb, rfl⟩
      | exact ⟨_, rfl, _, refill_length _ hb, rfl⟩
      | exact ⟨trivial, _, rfl, _, _, rfl⟩
      | exact ⟨trivial, _, _, _, rfl, _, _, rfl⟩

theorem decode (C : Ctx)
    (ht : C.const "DECODE_TABLE" = some (charTable Verif.ShiftJis.DECODE_TABLE))
    (input out : Bytes) (is_end : Bool) (hfuel : input.length + 1 ≤ C.fuel)
    (hd : Machine.ShiftJis.decode_to_str C.target input out is_end ≠ .error .diverge) :
    Sim (DecRes fun out env =>
        env = [("input", bytes input), ("out_buffer", bytes out), ("is_end", .bool is_end)])
      (eval C Ast.shiftjis_whatwg.decode_to_str
        [("input", bytes input), ("out_buffer", bytes out), ("is_end", .bool is_end)])
      (onRs (Machine.ShiftJis.decode_to_str C.target input out is_end) fun x => .val x []) := by
  have hl := while_sim (step := Machine.ShiftJis.decodeBody C.target is_end)
    (decode_round C ht input is_end) _ _ ⟨input, out, 0, 0⟩
    (decEnv input is_end (input.map byte) (List.replicate 4 (.int .u8 0)) out 0 0) hfuel
    ⟨_, rfl, rfl⟩ (loop_diverge hd)
  simp only [Ast.shiftjis_whatwg.decode_to_str]
  exec []
  refine sim_scope (decode_sim hl fun out i j env he => ?_) ?_
  · obtain ⟨its, buf, rfl⟩ := he
    generalize hP : DecRes _ = P
    simp only [finishDecode, decEnv]
    sims []
    subst hP
    exact ⟨_, rfl, _, _, _, _, rfl⟩
  · rintro ⟨out, ⟨s, n⟩ | e⟩ o ⟨env, rfl, i, j, its, buf, rfl⟩
    · exact ⟨_, rfl, rfl⟩
    · exact ⟨_, rfl, rfl⟩

end Verif.Lang.ShiftJis
