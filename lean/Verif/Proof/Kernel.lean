/-!
# Checks over tables, written for evaluation by the kernel

Plain recursors on lists, numbers and booleans: the kernel evaluates these without unfolding
type class instances.
-/

namespace Verif

theorem beq_iff {a b : Nat} : Nat.beq a b = true ↔ a = b :=
  ⟨Nat.eq_of_beq_eq_true, fun h => h ▸ Nat.beq_refl a⟩

/-- Membership, for evaluation by the kernel. -/
noncomputable def memB (a b : Nat) (l : List (Nat × Nat)) : Bool :=
  l.rec false fun x _ ih => (Nat.beq x.1 a).rec ih ((Nat.beq x.2 b).rec ih true)

theorem memB_sound {a b : Nat} {l : List (Nat × Nat)} (h : memB a b l = true) : (a, b) ∈ l := by
  induction l with
  | nil => cases h
  | cons x l ih =>
    have hx : memB a b (x :: l) = (Nat.beq x.1 a).rec (memB a b l) ((Nat.beq x.2 b).rec (memB a b l) true) := rfl
    rw [hx] at h
    cases h1 : Nat.beq x.1 a with
    | false => rw [h1] at h; exact List.mem_cons_of_mem _ (ih h)
    | true =>
      cases h2 : Nat.beq x.2 b with
      | false => rw [h1, h2] at h; exact List.mem_cons_of_mem _ (ih h)
      | true =>
        have e1 := Nat.eq_of_beq_eq_true h1
        have e2 := Nat.eq_of_beq_eq_true h2
        subst e1 e2
        exact List.mem_cons_self

/-- All numbers below `n`, for evaluation by the kernel. -/
noncomputable def allB (p : Nat → Bool) (n : Nat) : Bool := n.rec true fun i ih => (p i).rec false ih

theorem allB_sound {p : Nat → Bool} {n : Nat} (h : allB p n = true) : ∀ i < n, p i = true := by
  induction n with
  | zero => intro i hi; omega
  | succ n ih =>
    have hx : allB p (n + 1) = (p n).rec false (allB p n) := rfl
    rw [hx] at h
    cases hp : p n with
    | false => rw [hp] at h; cases h
    | true =>
      rw [hp] at h
      intro i hi
      by_cases hn : i = n
      · rw [hn, hp]
      · exact ih h i (by omega)

/-- All members of a list, for evaluation by the kernel. -/
noncomputable def everyB {α : Type} (p : α → Bool) (l : List α) : Bool :=
  l.rec true fun x _ ih => (p x).rec false ih

theorem everyB_sound {α : Type} {p : α → Bool} {l : List α} (h : everyB p l = true) :
    ∀ x ∈ l, p x = true := by
  induction l with
  | nil => intro x hx; cases hx
  | cons y l ih =>
    have hx : everyB p (y :: l) = (p y).rec false (everyB p l) := rfl
    rw [hx] at h
    cases hp : p y with
    | false => rw [hp] at h; cases h
    | true =>
      rw [hp] at h
      intro x hx
      rcases List.mem_cons.1 hx with rfl | hx
      · exact hp
      · exact ih h x hx

/-- `l[i]`, else U+FFFD, for evaluation by the kernel. -/
noncomputable def nthB (l : List Nat) : Nat → Nat :=
  l.rec (fun _ => 0xFFFD) fun x _ ih n => n.rec x fun m _ => ih m

theorem nthB_eq (l : List Nat) (i : Nat) : nthB l i = l.getD i 0xFFFD := by
  induction l generalizing i with
  | nil => rfl
  | cons x l ih =>
    cases i with
    | zero => rfl
    | succ i => exact ih i

theorem blt_rec (a b : Nat) (x y : Nat) :
    ((Nat.blt a b).rec x y : Nat) = if a < b then y else x := by
  cases hb : Nat.blt a b with
  | false =>
    rw [if_neg]
    intro h
    rw [← Nat.blt_eq, hb] at h
    cases h
  | true => rw [if_pos (by rwa [Nat.blt_eq] at hb)]

end Verif
