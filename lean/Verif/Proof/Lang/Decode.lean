import Verif.Proof.Lang.Sim
import Verif.Lang.Ast
import Verif.Spec.Program

/-!
# Decoders: what the loops have in common
-/

namespace Verif.Lang

attribute [local semireducible] Sim
open Machine (Target)

/-- The outcome of a decoder. -/
def DecRes (E : Bytes → Env → Prop) : Bytes × DecodeResult → Out Value → Prop
  | (out, .ok (s, n)), o => ∃ env, o = .val (decOk s n) env ∧ E out env
  | (out, .error e), o => ∃ env, o = .ret (decErr e) env ∧ E out env

/-- The end of a decoder's loop. -/
def DecEnds (E : Bytes → Nat → Nat → Env → Prop) : DecEnd → Out Value → Prop
  | (out, .ok (i, j)), o => ∃ env, o = .brk env ∧ E out i j env
  | (out, .error e), o => ∃ env i j, o = .ret (decErr e) env ∧ E out i j env

theorem for_decode {α : Type} {E : Bytes → Nat → Nat → Env → Prop}
    {step : DecState α → Rs (Ctl (DecState α) DecEnd)} {body : Value → Env → Out Value}
    {val : α → Value}
    (h : ∀ a itr out i j env, E out i j env →
      Sim (RoundOf (fun st env => st.itr = itr ∧ E st.out st.input_i st.output_i env) (DecEnds E))
        (body (val a) env).round
        (onRs (step ⟨a :: itr, out, i, j⟩) fun c => .val c []))
    (hnil : ∀ out i j, step ⟨[], out, i, j⟩ = .ok (.done (out, .ok (i, j)))) {n : Nat}
    (items : List α) (hn : items.length < n) (out : Bytes) {env : Env} (he : E out 0 0 env) :
    LoopOf (DecEnds E) (loop step n ⟨items, out, 0, 0⟩) (forLoop body (items.map val) env) := by
  refine for_sim (E := fun st env => E st.out st.input_i st.output_i env) DecState.itr val
    ?_ ?_ _ ⟨items, out, 0, 0⟩ _ hn he
  · rintro ⟨_, out, i, j⟩ env a itr rfl he
    exact h a itr out i j env he
  · rintro ⟨_, out, i, j⟩ env rfl he
    exact ⟨_, hnil out i j, _, rfl, he⟩

theorem decode_sim {E : Bytes → Nat → Nat → Env → Prop} {r : Rs DecEnd}
    {o : Out Value} {rest : Env → Out Value} (hl : LoopOf (DecEnds E) r o)
    (h : ∀ out i j env, E out i j env →
      Sim (DecRes fun out env => ∃ i j, E out i j env) (rest env)
        (onRs (finishDecode (out, .ok (i, j))) fun x => .val x [])) :
    Sim (DecRes fun out env => ∃ i j, E out i j env) (o.bind fun _ env => rest env)
      (onRs (r >>= finishDecode) fun x => .val x []) := by
  cases r with
  | error f =>
    rw [show o = .fault f from hl]
    rfl
  | ok d =>
    obtain ⟨o', -, hf, rfl⟩ := hl
    obtain ⟨out, e | ⟨i, j⟩⟩ := d
    · obtain ⟨env, i, j, rfl, he⟩ := hf
      exact ⟨_, rfl, i, j, he⟩
    · obtain ⟨env, rfl, he⟩ := hf
      exact h _ _ _ _ he

theorem loop_diverge {r : Rs DecEnd} (h : (r >>= finishDecode) ≠ .error .diverge) :
    r ≠ .error .diverge := by
  rintro rfl
  exact h rfl

theorem chunksAux_length {α : Type} (n : Nat) : ∀ (k : Nat) (l : List α), (chunksAux n k l).length ≤ k
  | 0, _ => Nat.le_refl _
  | k + 1, l => by
    unfold chunksAux
    by_cases h : l.length = 0
    · rw [if_pos (List.length_eq_zero_iff.mp h)]
      exact Nat.zero_le _
    · rw [if_neg (fun e => h (by rw [e]; rfl))]
      exact Nat.succ_le_succ (chunksAux_length n k _)

theorem chunks_length {α : Type} (n : Nat) (l : List α) : (chunks n l).length < l.length + 1 :=
  Nat.lt_succ_of_le (chunksAux_length n _ _)

end Verif.Lang
