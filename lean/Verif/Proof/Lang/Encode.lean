import Verif.Proof.Lang.Sim
import Verif.Lang.Ast
import Verif.Spec.Program

/-!
# Encoders: what the loops have in common
-/

namespace Verif.Lang

attribute [local semireducible] Sim
open Machine (Target)

/-- The outcome of an encoder. -/
def EncRes (E : Bytes → Env → Prop) : Bytes × EncodeResult → Out Value → Prop
  | (out, .ok (s, n)), o => ∃ env, o = .val (encOk s n) env ∧ E out env
  | (out, .error e), o => ∃ env, o = .ret (encErr e) env ∧ E out env

/-- The end of an encoder's loop. -/
def EncEnds (E : Bytes → Nat → Nat → Env → Prop) : EncEnd → Out Value → Prop
  | (out, .ok (i, j)), o => ∃ env, o = .brk env ∧ E out i j env
  | (out, .error e), o => ∃ env i j, o = .ret (encErr e) env ∧ E out i j env

theorem charIndices_length : ∀ s : Str, (charIndices s).length = s.length := by
  intro s
  have : ∀ (s : Str) (n : Nat), (charIndicesFrom n s).length = s.length := by
    intro s
    induction s with
    | nil => intro n; rfl
    | cons c s ih => intro n; simp [charIndicesFrom, ih]
  exact this s 0

/-- A relation that says what the variables are. -/
abbrev Is (E : Bytes → Nat → Nat → Env) : Bytes → Nat → Nat → Env → Prop :=
  fun out i j env => env = E out i j

theorem for_encode {E : Bytes → Nat → Nat → Env} {step : EncState → Rs (Ctl EncState EncEnd)}
    {body : Value → Env → Out Value}
    (h : ∀ off c itr out i j,
      Sim (RoundOf (fun st env => st.itr = itr ∧ env = E st.out st.input_i st.output_i) (EncEnds (Is E)))
        (body (charItem (off, c)) (E out i j)).round
        (onRs (step ⟨(off, c) :: itr, out, i, j⟩) fun c => .val c []))
    (hnil : ∀ out i j, step ⟨[], out, i, j⟩ = .ok (.done (out, .ok (i, j)))) (input : Str)
    (out : Bytes) :
    LoopOf (EncEnds (Is E)) (loop step (input.length + 1) ⟨charIndices input, out, 0, 0⟩)
      (forLoop body ((charIndices input).map charItem) (E out 0 0)) := by
  refine for_sim (E := fun st env => env = E st.out st.input_i st.output_i) EncState.itr charItem
    ?_ ?_ _ ⟨charIndices input, out, 0, 0⟩ _ ?_ rfl
  · rintro ⟨_, out, i, j⟩ env ⟨off, c⟩ itr rfl rfl
    exact h off c itr out i j
  · rintro ⟨_, out, i, j⟩ env rfl rfl
    exact ⟨_, hnil out i j, _, rfl, rfl⟩
  · rw [charIndices_length]
    exact Nat.lt_succ_self _

theorem consumed_sim {E : Nat → Env} {m : Target} {input : Str} {head : Env → Out (Option Env)}
    {body : Env → Out Value}
    (h : ∀ i, Sim (RoundOf (fun i env => env = E i) (fun i o => o = .brk (E i)))
      (whileRound head body (E i)) (onRs (Machine.consumedBody m input i) fun c => .val c []))
    {N : Nat} (hN : strLen input + 1 ≤ N) (i : Nat)
    (hd : loop (Machine.consumedBody m input) (strLen input + 1) i ≠ .error .diverge) :
    whileLoop head body N (E i) =
      onRs (loop (Machine.consumedBody m input) (strLen input + 1) i) fun i => .val .unit (E i) := by
  have := while_sim (E := fun i env => env = E i) (fun i env he => by rw [he]; exact h i) _ N i (E i)
    hN rfl hd
  revert this
  cases loop (Machine.consumedBody m input) (strLen input + 1) i with
  | error f => exact id
  | ok k =>
    rintro ⟨o, -, rfl, ho⟩
    exact ho

theorem finishEncode_diverge {m : Target} {input : Str} {out : Bytes} {i j : Nat}
    (h : Machine.finishEncode m input (out, .ok (i, j)) ≠ .error .diverge)
    (hi : ¬strLen input < i) :
    loop (Machine.consumedBody m input) (strLen input + 1) i ≠ .error .diverge := by
  intro hl
  apply h
  simp only [Machine.finishEncode, Machine.consumed, if_neg hi, hl]
  rfl

theorem encode_sim {E : Bytes → Nat → Nat → Env → Prop} {m : Target} {input : Str} {r : Rs EncEnd}
    {o : Out Value} {rest : Env → Out Value} (hl : LoopOf (EncEnds E) r o)
    (hd : (r >>= Machine.finishEncode m input) ≠ .error .diverge)
    (h : ∀ out i j env, E out i j env →
      Machine.finishEncode m input (out, .ok (i, j)) ≠ .error .diverge →
      Sim (EncRes fun out env => ∃ i j, E out i j env) (rest env)
        (onRs (Machine.finishEncode m input (out, .ok (i, j))) fun x => .val x [])) :
    Sim (EncRes fun out env => ∃ i j, E out i j env) (o.bind fun _ env => rest env)
      (onRs (r >>= Machine.finishEncode m input) fun x => .val x []) := by
  cases r with
  | error f =>
    rw [show o = .fault f from hl]
    rfl
  | ok d =>
    obtain ⟨o', -, hf, rfl⟩ := hl
    obtain ⟨out, e | ⟨i, j⟩⟩ := d
    · obtain ⟨env, i, j, rfl, he⟩ := hf
      exact ⟨_, rfl, i, j, he⟩
    · obtain ⟨env, rfl, he⟩ := hf
      exact h _ _ _ _ he hd

/-! ## Tactics -/

/-- A round of the loop of an encoder. -/
macro "encode_round" "[" es:Lean.Parser.Tactic.simpLemma,* "]" : tactic => `(tactic| (
  generalize hP : RoundOf _ _ = P
  simp only [forBody, charItem, $es,*]
  sims [Machine.store2, Machine.store4, Machine.encNext, Machine.encFail]
  all_goals subst hP
  all_goals first
    | exact ⟨_, rfl, rfl, rfl⟩
    | exact ⟨trivial, _, rfl, rfl⟩
    | exact ⟨trivial, _, _, _, rfl, rfl⟩))

/-- A round of the loop that moves on to the next boundary between chars. -/
macro "consumed_round" "[" es:Lean.Parser.Tactic.simpLemma,* "]" : tactic => `(tactic| (
  generalize hP : RoundOf _ _ = P
  rw [whileRound_do]
  simp only [Machine.consumedBody, $es,*]
  sims []
  all_goals subst hP
  all_goals first
    | exact ⟨_, rfl, rfl⟩
    | exact ⟨trivial, rfl⟩))

end Verif.Lang
