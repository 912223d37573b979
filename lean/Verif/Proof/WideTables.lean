import Verif.Proof.Kernel

/-! # Checks for the two-byte tables: rows of decoding, encoding and index entries -/

namespace Verif

/-- Row `i`, for evaluation by the kernel. -/
noncomputable def rowB {α : Type} (l : List (List α)) : Nat → List α :=
  l.rec (fun _ => []) fun x _ ih n => n.rec x fun m _ => ih m

theorem rowB_eq {α : Type} (l : List (List α)) (i : Nat) : rowB l i = l.getD i [] := by
  induction l generalizing i with
  | nil => rfl
  | cons x l ih =>
    cases i with
    | zero => rfl
    | succ i => exact ih i

/-- The entry of a table at a pointer; U+FFFD where there is none. -/
def look (w : Nat) (rows : List (List Nat)) (p : Nat) : Nat :=
  (rows.getD (p / w) []).getD (p % w) 0xFFFD

/-- `look`, for evaluation by the kernel. -/
noncomputable def lookB (w : Nat) (rows : List (List Nat)) (p : Nat) : Nat :=
  nthB (rowB rows (p / w)) (p % w)

theorem lookB_eq (w : Nat) (rows : List (List Nat)) (p : Nat) : lookB w rows p = look w rows p := by
  rw [lookB, nthB_eq, rowB_eq, look]

/-- A table cut in rows of `w` entries (the last may be shorter) is the flattened table. -/
theorem flatten_getD {w : Nat} (hw : 0 < w) : ∀ (rows : List (List Nat)),
    (∀ i, i + 1 < rows.length → (rows.getD i []).length = w) →
    (∀ i, i < rows.length → (rows.getD i []).length ≤ w) → ∀ p,
    rows.flatten.getD p 0xFFFD = look w rows p := by
  intro rows
  induction rows with
  | nil => intro _ _ p; simp [look]
  | cons r rows ih =>
    intro h1 h2 p
    have ih' := ih (fun i hi => by simpa using h1 (i + 1) (by simp; omega))
      (fun i hi => by simpa using h2 (i + 1) (by simp; omega))
    rw [List.flatten_cons]
    by_cases hp : p < w
    · have hd : p / w = 0 := Nat.div_eq_of_lt hp
      have hm : p % w = p := Nat.mod_eq_of_lt hp
      rw [look, hd, hm, List.getD_cons_zero]
      by_cases hr : p < r.length
      · simp only [List.getD_eq_getElem?_getD, List.getElem?_append_left hr]
      · have hrl : r.length < w := by omega
        have hrows : rows = [] := by
          cases rows with
          | nil => rfl
          | cons r' rows' =>
            have := h1 0 (by simp)
            simp at this
            omega
        subst hrows
        simp
    · have hlen : rows ≠ [] → r.length = w := by
        intro hne
        have := h1 0 (by
          cases rows with
          | nil => exact absurd rfl hne
          | cons => simp)
        simpa using this
      have hrw := h2 0 (by simp)
      rw [List.getD_cons_zero] at hrw
      have happ : (r ++ rows.flatten).getD p 0xFFFD = rows.flatten.getD (p - r.length) 0xFFFD := by
        simp only [List.getD_eq_getElem?_getD]
        rw [List.getElem?_append_right (by omega)]
      rw [happ]
      have hd : p / w = (p - w) / w + 1 := by
        conv => lhs; rw [show p = (p - w) + w by omega]
        rw [Nat.add_div_right _ hw]
      have hm : p % w = (p - w) % w := by
        conv => lhs; rw [show p = (p - w) + w by omega]
        rw [Nat.add_mod_right]
      by_cases hne : rows = []
      · subst hne
        rw [look, hd, hm]
        simp
      · rw [hlen hne, ih', look, look, hd, hm, List.getD_cons_succ]

/-- A row of the decoding table against a row of the index, from pointer `base` on. -/
noncomputable def rowEqB (ds : List Nat) : Nat → List (Nat × Nat) → Bool :=
  ds.rec (fun _ ps => ps.rec true fun _ _ _ => false) fun d _ ih base ps =>
    (Nat.beq d 0xFFFD).rec
      (ps.rec false fun x ps' _ =>
        (Nat.beq x.1 base).rec false ((Nat.beq x.2 d).rec false (ih (base + 1) ps')))
      (ih (base + 1) ps)

theorem rowEqB_sound {ds : List Nat} {base : Nat} {ps : List (Nat × Nat)}
    (h : rowEqB ds base ps = true) (p c : Nat) :
    (p, c) ∈ ps ↔ base ≤ p ∧ ds.getD (p - base) 0xFFFD = c ∧ c ≠ 0xFFFD := by
  induction ds generalizing base ps with
  | nil =>
    cases ps with
    | nil => simp; intro _ h1; omega
    | cons x ps => cases h
  | cons d ds ih =>
    have hstep : ∀ qs, rowEqB ds (base + 1) qs = true →
        ((p, c) ∈ qs ↔ base + 1 ≤ p ∧ (d :: ds).getD (p - base) 0xFFFD = c ∧ c ≠ 0xFFFD) := by
      intro qs hq
      rw [ih hq]
      constructor
      · rintro ⟨h1, h2⟩
        refine ⟨h1, ?_⟩
        rwa [show p - base = (p - (base + 1)) + 1 by omega, List.getD_cons_succ]
      · rintro ⟨h1, h2⟩
        refine ⟨h1, ?_⟩
        rwa [show p - base = (p - (base + 1)) + 1 by omega, List.getD_cons_succ] at h2
    have hx : rowEqB (d :: ds) base ps = (Nat.beq d 0xFFFD).rec
      (ps.rec false fun x ps' _ =>
        (Nat.beq x.1 base).rec false ((Nat.beq x.2 d).rec false (rowEqB ds (base + 1) ps')))
      (rowEqB ds (base + 1) ps) := rfl
    rw [hx] at h
    cases hd : Nat.beq d 0xFFFD with
    | true =>
      rw [hd] at h
      have hd' := beq_iff.1 hd
      rw [hstep ps h]
      constructor
      · rintro ⟨h1, h2⟩; exact ⟨by omega, h2⟩
      · rintro ⟨h1, h2, h3⟩
        refine ⟨?_, h2, h3⟩
        by_cases he : p = base
        · subst he
          rw [Nat.sub_self, List.getD_cons_zero, hd'] at h2
          omega
        · omega
    | false =>
      rw [hd] at h
      have hd' : d ≠ 0xFFFD := by
        intro he
        rw [beq_iff.2 he] at hd
        cases hd
      cases ps with
      | nil => cases h
      | cons x ps =>
        simp only at h
        cases h1 : Nat.beq x.1 base with
        | false => rw [h1] at h; cases h
        | true =>
          cases h2 : Nat.beq x.2 d with
          | false => rw [h1, h2] at h; cases h
          | true =>
            rw [h1, h2] at h
            have e1 := beq_iff.1 h1
            have e2 := beq_iff.1 h2
            rw [List.mem_cons, hstep ps h]
            constructor
            · rintro (rfl | ⟨h1, h2⟩)
              · simp only at e1 e2
                subst e1 e2
                simp [hd']
              · exact ⟨by omega, h2⟩
            · rintro ⟨h3, h4, h5⟩
              by_cases he : p = base
              · left
                subst he
                rw [Nat.sub_self, List.getD_cons_zero] at h4
                rw [← e2, ← e1] at *
                ext <;> simp [*]
              · right
                exact ⟨by omega, h4, h5⟩

/-- All rows of the decoding table against all rows of the index. -/
noncomputable def rowsEqB (w : Nat) (D : List (List Nat)) : Nat → List (List (Nat × Nat)) → Bool :=
  D.rec (fun _ P => P.rec true fun _ _ _ => false) fun d _ ih base P =>
    P.rec false fun p P' _ => (rowEqB d base p).rec false (ih (base + w) P')

theorem rowsEqB_sound {w : Nat} {D : List (List Nat)} {base : Nat} {P : List (List (Nat × Nat))}
    (hw0 : 0 < w)
    (h : rowsEqB w D base P = true) (hlen : ∀ r ∈ D, r.length ≤ w) (p c : Nat) :
    (∃ row ∈ P, (p, c) ∈ row) ↔ base ≤ p ∧ look w D (p - base) = c ∧ c ≠ 0xFFFD := by
  induction D generalizing base P with
  | nil =>
    cases P with
    | nil => simp [look]; intro _ h1; omega
    | cons => cases h
  | cons d D ih =>
    have hx : rowsEqB w (d :: D) base P =
      P.rec false fun p P' _ => (rowEqB d base p).rec false (rowsEqB w D (base + w) P') := rfl
    rw [hx] at h
    cases P with
    | nil => cases h
    | cons r P =>
      simp only at h
      cases h1 : rowEqB d base r with
      | false => rw [h1] at h; cases h
      | true =>
        rw [h1] at h
        have ih' := ih h (fun r hr => hlen r (List.mem_cons_of_mem _ hr))
        have hr := rowEqB_sound h1 p c
        have hdl := hlen d List.mem_cons_self
        simp only [List.mem_cons, exists_eq_or_imp, ih', hr]
        by_cases hp : base ≤ p
        · by_cases hw : p < base + w
          · have e1 : (p - base) / w = 0 := Nat.div_eq_of_lt (by omega)
            have e2 : (p - base) % w = p - base := Nat.mod_eq_of_lt (by omega)
            rw [look.eq_1 w (d :: D), e1, e2, List.getD_cons_zero]
            constructor
            · rintro (h | h)
              · exact h
              · omega
            · intro h; exact .inl h
          · have e1 : (p - base) / w = (p - (base + w)) / w + 1 := by
              conv => lhs; rw [show p - base = (p - (base + w)) + w by omega]
              rw [Nat.add_div_right _ hw0]
            have e2 : (p - base) % w = (p - (base + w)) % w := by
              conv => lhs; rw [show p - base = (p - (base + w)) + w by omega]
              rw [Nat.add_mod_right]
            have e3 : look w (d :: D) (p - base) = look w D (p - (base + w)) := by
              rw [look, look, e1, e2, List.getD_cons_succ]
            have e4 : d.getD (p - base) 0xFFFD = 0xFFFD := by
              rw [List.getD_eq_getElem?_getD, List.getElem?_eq_none (by omega)]
              rfl
            rw [e3, e4]
            constructor
            · rintro (h | h)
              · omega
              · exact ⟨hp, h.2⟩
            · intro h
              exact .inr ⟨by omega, h.2⟩
        · constructor
          · rintro (h | h) <;> omega
          · intro h; omega

/-! ## Encoding tables -/

/-- An entry of an encoding table: code point, lead byte, trail byte. -/
abbrev Ent := Nat × Nat × Nat

/-- A row of strictly increasing code points above `b`, for evaluation by the kernel. -/
noncomputable def rowSortedB (r : List Ent) : Nat → Bool :=
  r.rec (fun _ => true) fun x _ ih b => (Nat.blt b x.1).rec false (ih x.1)

/-- The last code point of a row, else `b`. -/
noncomputable def lastB (r : List Ent) : Nat → Nat := r.rec (fun b => b) fun x _ ih _ => ih x.1

/-- Rows that are sorted when put together. -/
noncomputable def rowsSortedB (R : List (List Ent)) : Nat → Bool :=
  R.rec (fun _ => true) fun r _ ih b => (rowSortedB r b).rec false (ih (lastB r b))

theorem rowSortedB_sound {r : List Ent} {b : Nat} (h : rowSortedB r b = true) :
    (∀ x ∈ r, b < x.1) ∧ r.Pairwise (fun x y => x.1 < y.1) ∧
      b ≤ lastB r b ∧ (∀ x ∈ r, x.1 ≤ lastB r b) := by
  induction r generalizing b with
  | nil => exact ⟨by simp, .nil, Nat.le_refl _, by simp⟩
  | cons y r ih =>
    have hx : rowSortedB (y :: r) b = (Nat.blt b y.1).rec false (rowSortedB r y.1) := rfl
    have hl : lastB (y :: r) b = lastB r y.1 := rfl
    rw [hx] at h
    rw [hl]
    cases h1 : Nat.blt b y.1 with
    | false => rw [h1] at h; cases h
    | true =>
      rw [h1] at h
      have h1' : b < y.1 := Nat.blt_eq ▸ h1
      obtain ⟨i1, i2, i3, i4⟩ := ih h
      refine ⟨?_, List.pairwise_cons.2 ⟨i1, i2⟩, by omega, ?_⟩
      · intro x hx
        rcases List.mem_cons.1 hx with rfl | hx
        · exact h1'
        · have := i1 x hx; omega
      · intro x hx
        rcases List.mem_cons.1 hx with rfl | hx
        · exact i3
        · exact i4 x hx

theorem rowsSortedB_sound {R : List (List Ent)} {b : Nat} (h : rowsSortedB R b = true) :
    (∀ x ∈ R.flatten, b < x.1) ∧ R.flatten.Pairwise (fun x y => x.1 < y.1) := by
  induction R generalizing b with
  | nil => exact ⟨by simp, .nil⟩
  | cons r R ih =>
    have hx : rowsSortedB (r :: R) b = (rowSortedB r b).rec false (rowsSortedB R (lastB r b)) := rfl
    rw [hx] at h
    cases h1 : rowSortedB r b with
    | false => rw [h1] at h; cases h
    | true =>
      rw [h1] at h
      obtain ⟨i1, i2⟩ := ih h
      obtain ⟨j1, j2, j3, j4⟩ := rowSortedB_sound h1
      rw [List.flatten_cons]
      refine ⟨?_, List.pairwise_append.2 ⟨j2, i2, ?_⟩⟩
      · intro x hx
        rcases List.mem_append.1 hx with hx | hx
        · exact j1 x hx
        · have := i1 x hx; omega
      · intro x hx y hy
        have := j4 x hx
        have := i1 y hy
        omega

/-- Look for code point `c` in a row and apply `k` to its bytes. -/
noncomputable def searchB (c : Nat) (k : Nat → Nat → Bool) (r : List Ent) : Bool :=
  r.rec false fun x _ ih => (Nat.beq x.1 c).rec ih (k x.2.1 x.2.2)

/-- Look for code point `c` in the first row before one that starts above it. -/
noncomputable def findB (c : Nat) (k : Nat → Nat → Bool) (R : List (List Ent)) : Bool :=
  R.rec false fun r rest ih =>
    rest.rec (searchB c k r) fun r' _ _ =>
      r'.rec (searchB c k r) fun y _ _ => (Nat.blt c y.1).rec ih (searchB c k r)

theorem searchB_sound {c : Nat} {k : Nat → Nat → Bool} {r : List Ent} (h : searchB c k r = true) :
    ∃ b0 b1, (c, b0, b1) ∈ r ∧ k b0 b1 = true := by
  induction r with
  | nil => cases h
  | cons x r ih =>
    have hx : searchB c k (x :: r) = (Nat.beq x.1 c).rec (searchB c k r) (k x.2.1 x.2.2) := rfl
    rw [hx] at h
    cases h1 : Nat.beq x.1 c with
    | false =>
      rw [h1] at h
      obtain ⟨b0, b1, h2, h3⟩ := ih h
      exact ⟨b0, b1, List.mem_cons_of_mem _ h2, h3⟩
    | true =>
      rw [h1] at h
      have := beq_iff.1 h1
      subst this
      exact ⟨x.2.1, x.2.2, List.mem_cons_self, h⟩

theorem findB_sound {c : Nat} {k : Nat → Nat → Bool} {R : List (List Ent)}
    (h : findB c k R = true) : ∃ b0 b1, (c, b0, b1) ∈ R.flatten ∧ k b0 b1 = true := by
  induction R with
  | nil => cases h
  | cons r R ih =>
    have here : searchB c k r = true → ∃ b0 b1, (c, b0, b1) ∈ (r :: R).flatten ∧ k b0 b1 = true := by
      intro h
      obtain ⟨b0, b1, h1, h2⟩ := searchB_sound h
      exact ⟨b0, b1, by simp [h1], h2⟩
    cases R with
    | nil => exact here h
    | cons r' R =>
      cases r' with
      | nil => exact here h
      | cons y r' =>
        have hx : findB c k (r :: (y :: r') :: R) =
          (Nat.blt c y.1).rec (findB c k ((y :: r') :: R)) (searchB c k r) := rfl
        rw [hx] at h
        cases h1 : Nat.blt c y.1 with
        | false =>
          rw [h1] at h
          obtain ⟨b0, b1, h2, h3⟩ := ih h
          exact ⟨b0, b1, by rw [List.flatten_cons]; exact List.mem_append_right _ h2, h3⟩
        | true =>
          rw [h1] at h
          exact here h

/-- All entries of all rows. -/
noncomputable def everyRowB {α : Type} (p : α → Bool) (R : List (List α)) : Bool :=
  everyB (everyB p) R

theorem everyRowB_sound {α : Type} {p : α → Bool} {R : List (List α)} (h : everyRowB p R = true) :
    ∀ r ∈ R, ∀ x ∈ r, p x = true :=
  fun r hr => everyB_sound (everyB_sound h r hr)

/-- The same from checks of `w` rows at a time. -/
theorem everyRowB_chunks {α : Type} {p : α → Bool} {R : List (List α)} (w n : Nat) (hw : 0 < w)
    (hn : R.length ≤ w * n)
    (h : ∀ i < n, everyRowB p ((R.drop (w * i)).take w) = true) : ∀ r ∈ R, ∀ x ∈ r, p x = true := by
  intro r hr
  obtain ⟨j, hj, rfl⟩ := List.getElem_of_mem hr
  have hi : j / w < n := by
    apply Nat.div_lt_of_lt_mul
    omega
  refine everyRowB_sound (h (j / w) hi) _ ?_
  have hm := Nat.mod_lt j hw
  have hd := Nat.div_add_mod j w
  rw [List.mem_iff_getElem?]
  refine ⟨j % w, ?_⟩
  rw [List.getElem?_take_of_lt hm, List.getElem?_drop, hd, List.getElem?_eq_getElem hj]

end Verif
