import Verif.Proof.Lang.Tactic

/-!
# Programs and models side by side
-/

namespace Verif.Lang

/-- The outcome of a program fits the outcome of a model: the same fault, or `P`. -/
def Sim {α : Type} (P : α → Out Value → Prop) (o : Out Value) (p : Out α) : Prop :=
  match p with
  | .val c _ => P c o
  | .fault f => o = .fault f
  | _ => False

theorem sim_on {α β : Type} {P : α → Out Value → Prop} {r : Rs β} {j : β → Out Value}
    {k : β → Out α} (h : ∀ a, r = .ok a → Sim P (j a) (k a)) : Sim P (onRs r j) (onRs r k) := by
  cases r with
  | ok a => exact h a rfl
  | error f => rfl

theorem sim_ite {α : Type} {P : α → Out Value → Prop} {p : Prop} {i j : Decidable p}
    {a b : Out Value} {c d : Out α} (h : p → Sim P a c) (h' : ¬p → Sim P b d) :
    Sim P (@ite _ p i a b) (@ite _ p j c d) := by
  by_cases hp : p
  · rw [if_pos hp, if_pos hp]
    exact h hp
  · rw [if_neg hp, if_neg hp]
    exact h' hp

theorem sim_val {α : Type} {P : α → Out Value → Prop} {c : α} {o : Out Value} {env : Env}
    (h : P c o) : Sim P o (.val c env) := h

theorem sim_fault {α : Type} {P : α → Out Value → Prop} {f : Fault} :
    Sim P (.fault f) (.fault f) := rfl

theorem sim_scope {α : Type} {P Q : α → Out Value → Prop} {o : Out Value} {p : Out α} {n : Nat}
    (h : Sim P o p) (hq : ∀ c o, P c o → Q c (o.scope n)) : Sim Q (o.scope n) p := by
  cases p with
  | val c env => exact hq c o h
  | fault f =>
    rw [show o = .fault f from h]
    rfl
  | _ => exact h

/-- The end of a loop. -/
def endLoop : Out Value → Out Value
  | .brk env => .val .unit env
  | o => o

/-- The outcome of a round ends the loop. -/
def Ends : Out Value → Prop
  | .brk _ => True
  | .ret _ _ => True
  | _ => False

theorem andLoop_ends {o : Out Value} (h : Ends o) (f : Env → Out Value) : o.andLoop f = endLoop o := by
  cases o <;> first | rfl | exact h.elim

/-- The outcome of a round fits: it goes on with variables that fit the next state, or it ends. -/
def RoundOf {σ δ : Type} (E : σ → Env → Prop) (F : δ → Out Value → Prop) : Ctl σ δ → Out Value → Prop
  | .next st, o => ∃ env, o = .val .unit env ∧ E st env
  | .done d, o => Ends o ∧ F d o

/-- The outcome of a loop fits the outcome of the modelled loop. -/
def LoopOf {δ : Type} (F : δ → Out Value → Prop) (r : Rs δ) (o : Out Value) : Prop :=
  match r with
  | .ok d => ∃ o', Ends o' ∧ F d o' ∧ o = endLoop o'
  | .error f => o = .fault f

theorem while_sim {σ δ : Type} {E : σ → Env → Prop} {F : δ → Out Value → Prop}
    {step : σ → Rs (Ctl σ δ)} {head : Env → Out (Option Env)} {body : Env → Out Value}
    (h : ∀ st env, E st env →
      Sim (RoundOf E F) (whileRound head body env) (onRs (step st) fun c => .val c [])) :
    ∀ (n N : Nat) (st : σ) (env : Env), n ≤ N → E st env → loop step n st ≠ .error .diverge →
      LoopOf F (loop step n st) (whileLoop head body N env)
  | 0, _, _, _, _, _, hd => (hd rfl).elim
  | n + 1, 0, _, _, hn, _, _ => absurd hn (Nat.not_succ_le_zero n)
  | n + 1, N + 1, st, env, hn, he, hd => by
    have hs := h st env he
    unfold whileLoop
    cases hst : step st with
    | error f =>
      rw [hst] at hs
      have : loop step (n + 1) st = .error f := by
        simp only [loop, hst]
      rw [this]
      rw [show whileRound head body env = .fault f from hs]
      rfl
    | ok c =>
      rw [hst] at hs
      cases c with
      | next st' =>
        obtain ⟨env', ho, he'⟩ := hs
        have : loop step (n + 1) st = loop step n st' := by
          simp only [loop, hst]
        rw [this] at hd ⊢
        rw [ho]
        exact while_sim h n N st' env' (Nat.le_of_succ_le_succ hn) he' hd
      | done d =>
        have : loop step (n + 1) st = .ok d := by
          simp only [loop, hst]
        rw [this]
        exact ⟨_, hs.1, hs.2, andLoop_ends hs.1 _⟩

theorem whileRound_do (C : Ctx) (c : Expr) (body : Env → Out Value) (env : Env) :
    whileRound (doHead C c) body env =
      (eval C c env).bind fun v env => branch v ((body env).scope env.length).round (.brk env) := by
  unfold whileRound doHead
  cases eval C c env with
  | val v env =>
    cases v with
    | bool b => cases b <;> rfl
    | _ => rfl
  | _ => rfl

theorem whileRound_let (C : Ctx) (p : Pat) (s : Expr) (body : Env → Out Value) (env : Env) :
    whileRound (letHead C p s) body env =
      (eval C s env).bind fun v env =>
        withPat p v env (fun env' => ((body env').scope env.length).round) (.brk env) := by
  unfold whileRound letHead
  cases eval C s env with
  | val v env =>
    simp only [bind_val, withPat]
    cases bindPat p v <;> rfl
  | _ => rfl

/-- The same for a `for` loop: `items` tells the items that a state has still to visit. -/
theorem for_sim {σ δ ι : Type} {E : σ → Env → Prop} {F : δ → Out Value → Prop}
    {step : σ → Rs (Ctl σ δ)} {body : Value → Env → Out Value} (items : σ → List ι)
    (val : ι → Value)
    (h : ∀ st env i is, items st = i :: is → E st env →
      Sim (RoundOf (fun st env => items st = is ∧ E st env) F) (body (val i) env).round
        (onRs (step st) fun c => .val c []))
    (hnil : ∀ st env, items st = [] → E st env → ∃ d, step st = .ok (.done d) ∧ F d (.brk env)) :
    ∀ (n : Nat) (st : σ) (env : Env), (items st).length < n → E st env →
      LoopOf F (loop step n st) (forLoop body ((items st).map val) env)
  | 0, st, _, hn, _ => absurd hn (Nat.not_lt_zero _)
  | n + 1, st, env, hn, he => by
    cases hi : items st with
    | nil =>
      obtain ⟨d, hst, hf⟩ := hnil st env hi he
      have : loop step (n + 1) st = .ok d := by
        simp only [loop, hst]
      rw [this]
      exact ⟨.brk env, trivial, hf, rfl⟩
    | cons i is =>
      have hs := h st env i is hi he
      simp only [List.map_cons, forLoop]
      cases hst : step st with
      | error f =>
        rw [hst] at hs
        have : loop step (n + 1) st = .error f := by
          simp only [loop, hst]
        rw [this]
        rw [show (body (val i) env).round = .fault f from hs]
        rfl
      | ok c =>
        rw [hst] at hs
        cases c with
        | next st' =>
          obtain ⟨env', ho, hi', he'⟩ := hs
          have : loop step (n + 1) st = loop step n st' := by
            simp only [loop, hst]
          rw [this]
          rw [ho]
          have := for_sim items val h hnil n st' env' (by
            rw [hi']
            rw [hi] at hn
            exact Nat.lt_of_succ_lt_succ hn) he'
          rw [hi'] at this
          exact this
        | done d =>
          have : loop step (n + 1) st = .ok d := by
            simp only [loop, hst]
          rw [this]
          exact ⟨_, hs.1, hs.2, andLoop_ends hs.1 _⟩

/-- Run both sides, and go on behind the operations and conditions that they share. -/
macro "sims" "[" es:Lean.Parser.Tactic.simpLemma,* "]" : tactic => `(tactic| repeat' (first
  | (with_reducible refine sim_ite (fun h => ?_) (fun h => ?_))
  | (with_reducible refine sim_on fun a h => ?_)
  | (with_reducible apply sim_val)
  | (with_reducible exact sim_fault)
  | exec [$es,*]))

-- Elaboration puts goals in weak head normal form, which must not run the programs.
attribute [irreducible] Sim

end Verif.Lang
