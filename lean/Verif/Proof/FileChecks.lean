import Verif.Proof.GeneratorRead
import Verif.Proof.GeneratorSource
import Verif.Proof.GeneratedTables
import Verif.Proof.Kernel

/-!
# Checks of texts, written for evaluation by the kernel

Plain recursors, as in `Verif.Proof.Kernel`.
-/

namespace Verif.Generator

open Spec

/-! ## Lines -/

/-- No line end but one at the end. -/
noncomputable def lineB (l : Text) : Bool :=
  l.rec false fun c t ih =>
    (Nat.beq c (nat_lit 10)).rec ((Nat.beq c (nat_lit 13)).rec ih false)
      (t.rec true fun _ _ _ => false)

theorem lineB_sound {l : Text} (h : lineB l = true) :
    ∃ b, l = b ++ [10] ∧ ∀ c ∈ b, c ≠ 0x0A ∧ c ≠ 0x0D := by
  induction l with
  | nil => cases h
  | cons c t ih =>
    have hx : lineB (c :: t) = (Nat.beq c 10).rec ((Nat.beq c 13).rec (lineB t) false)
      (t.rec true fun _ _ _ => false) := rfl
    rw [hx] at h
    cases h1 : Nat.beq c 10 with
    | true =>
      rw [h1] at h
      have := beq_iff.1 h1
      subst this
      cases t with
      | nil => exact ⟨[], rfl, by simp⟩
      | cons d t => cases h
    | false =>
      rw [h1] at h
      cases h2 : Nat.beq c 13 with
      | true => rw [h2] at h; cases h
      | false =>
        rw [h2] at h
        obtain ⟨b, rfl, hb⟩ := ih h
        refine ⟨c :: b, rfl, ?_⟩
        intro d hd
        rcases List.mem_cons.1 hd with rfl | hd
        · constructor
          · intro e
            rw [beq_iff.2 e] at h1
            cases h1
          · intro e
            rw [beq_iff.2 e] at h2
            cases h2
        · exact hb d hd

/-- A file of lines is read line by line. -/
theorem readFile_lines {f : Text → Option (Option (Nat × Nat))} {ls : List Text}
    {xs : List (Option (Nat × Nat))} (hl : ∀ l ∈ ls, lineB l = true)
    (h : ls.mapM f = some xs) : readFile f ls.flatten = some (xs.filterMap id) := by
  have key : newlines false ls.flatten = ls.flatten ∧ pyLines ls.flatten [] = ls := by
    clear h
    induction ls with
    | nil => exact ⟨rfl, rfl⟩
    | cons l ls ih =>
      obtain ⟨h1, h2⟩ := ih fun m hm => hl m (by simp [hm])
      obtain ⟨b, rfl, hb⟩ := lineB_sound (hl l (by simp))
      simp only [List.flatten_cons, List.append_assoc, List.cons_append, List.nil_append]
      constructor
      · rw [newlines_plain' hb, newlines, if_pos rfl, if_neg (by decide), h1]
      · rw [pyLines_line hb, h2]
  unfold readFile
  rw [key.1, key.2, h]
  rfl

/-! ## Numerals -/

/-- A blank, a tab or a line end. -/
noncomputable def spB (c : Nat) : Bool :=
  (Nat.beq c (nat_lit 32)).rec ((Nat.beq c (nat_lit 9)).rec (Nat.beq c (nat_lit 10)) true) true

theorem spB_sound {c : Nat} (h : spB c = true) : WhiteSpace c := by
  have : c = 32 ∨ c = 9 ∨ c = 10 := by
    unfold spB at h
    cases h1 : Nat.beq c 32 with
    | true => exact .inl (beq_iff.1 h1)
    | false =>
      rw [h1] at h
      cases h2 : Nat.beq c 9 with
      | true => exact .inr (.inl (beq_iff.1 h2))
      | false => rw [h2] at h; exact .inr (.inr (beq_iff.1 h))
  unfold WhiteSpace
  omega

/-- The value of a digit, or 99. -/
noncomputable def digitB (c : Nat) : Nat :=
  (Nat.ble (nat_lit 48) c).rec (nat_lit 99)
    ((Nat.ble c (nat_lit 57)).rec
      ((Nat.ble (nat_lit 65) c).rec (nat_lit 99)
        ((Nat.ble c (nat_lit 70)).rec (nat_lit 99) (Nat.sub c (nat_lit 55))))
      (Nat.sub c (nat_lit 48)))

theorem ble_iff {a b : Nat} : Nat.ble a b = true ↔ a ≤ b := ⟨Nat.le_of_ble_eq_true, Nat.ble_eq_true_of_le⟩

theorem ble_false {a b : Nat} (h : Nat.ble a b = false) : b < a := by
  apply Nat.lt_of_not_le
  intro hle
  rw [ble_iff.2 hle] at h
  cases h

theorem digitB_sound {c : Nat} (h : digitB c < 16) :
    IsDigit c (digitB c) ∧ ¬ WhiteSpace c := by
  have key : (48 ≤ c ∧ c ≤ 57 ∧ digitB c = c - 48) ∨ (65 ≤ c ∧ c ≤ 70 ∧ digitB c = c - 55) := by
    unfold digitB at h ⊢
    cases h1 : Nat.ble 48 c with
    | false => rw [h1] at h; change 99 < 16 at h; omega
    | true =>
      rw [h1] at h
      have g1 := ble_iff.1 h1
      cases h2 : Nat.ble c 57 with
      | true => exact .inl ⟨g1, ble_iff.1 h2, rfl⟩
      | false =>
        rw [h2] at h
        cases h3 : Nat.ble 65 c with
        | false => rw [h3] at h; change 99 < 16 at h; omega
        | true =>
          rw [h3] at h
          have g3 := ble_iff.1 h3
          cases h4 : Nat.ble c 70 with
          | false => rw [h4] at h; change 99 < 16 at h; omega
          | true => exact .inr ⟨g3, ble_iff.1 h4, rfl⟩
  unfold IsDigit WhiteSpace
  rcases key with ⟨h1, h2, h3⟩ | ⟨h1, h2, h3⟩ <;> omega

/-- Digits up to white space, then `k`. -/
noncomputable def numB (base : Nat) (k : Nat → Text → Bool) (l : Text) : Nat → Bool :=
  l.rec (fun _ => false) fun c t ih acc =>
    (spB c).rec ((Nat.ble base (digitB c)).rec (ih (Nat.add (Nat.mul acc base) (digitB c))) false)
      (k acc (c :: t))

theorem numB_sound {base : Nat} (hb : base ≤ 16) {k : Nat → Text → Bool} {l p : Text} {acc : Nat}
    (hp : Digits base p acc) (h : numB base k l acc = true) :
    ∃ w r n, l = w ++ r ∧ (∀ c ∈ w, ¬ WhiteSpace c) ∧ (∀ c, r.head? = some c → WhiteSpace c) ∧
      Digits base (p ++ w) n ∧ k n r = true := by
  induction l generalizing p acc with
  | nil => cases h
  | cons c t ih =>
    have hx : numB base k (c :: t) acc = (spB c).rec ((Nat.ble base (digitB c)).rec
      (numB base k t (Nat.add (Nat.mul acc base) (digitB c))) false) (k acc (c :: t)) := rfl
    rw [hx] at h
    cases h1 : spB c with
    | true =>
      rw [h1] at h
      refine ⟨[], c :: t, acc, rfl, by simp, ?_, by simpa using hp, h⟩
      intro d hd
      cases hd
      exact spB_sound h1
    | false =>
      rw [h1] at h
      cases h2 : Nat.ble base (digitB c) with
      | true => rw [h2] at h; cases h
      | false =>
        rw [h2] at h
        have hlt := ble_false h2
        obtain ⟨d1, d2⟩ := digitB_sound (c := c) (by omega)
        obtain ⟨w, r, n, rfl, e1, e2, e3, e4⟩ := ih (p := p ++ [c]) (.more hp d1 hlt) h
        refine ⟨c :: w, r, n, rfl, ?_, e2, by simpa using e3, e4⟩
        intro d hd
        rcases List.mem_cons.1 hd with rfl | hd
        · exact d2
        · exact e1 d hd

/-- At least one digit, up to white space, then `k`. -/
noncomputable def num1B (base : Nat) (k : Nat → Text → Bool) (l : Text) : Bool :=
  l.rec false fun c t _ => (Nat.ble base (digitB c)).rec (numB base k t (digitB c)) false

/-- What a numeral at the beginning of a line looks like. -/
structure NumAt (P : Text → Nat → Prop) (k : Nat → Text → Bool) (l w r : Text) (n : Nat) : Prop where
  split : l = w ++ r
  word : ∀ c ∈ w, ¬ WhiteSpace c
  ne : w ≠ []
  rest : ∀ c, r.head? = some c → WhiteSpace c
  num : P w n
  cont : k n r = true

theorem num1B_sound {base : Nat} (hb : base ≤ 16) {k : Nat → Text → Bool} {l : Text}
    (h : num1B base k l = true) : ∃ w r n, NumAt (Digits base) k l w r n := by
  cases l with
  | nil => cases h
  | cons c t =>
    have hx : num1B base k (c :: t) =
      (Nat.ble base (digitB c)).rec (numB base k t (digitB c)) false := rfl
    rw [hx] at h
    cases h2 : Nat.ble base (digitB c) with
    | true => rw [h2] at h; cases h
    | false =>
      rw [h2] at h
      have hlt := ble_false h2
      obtain ⟨d1, d2⟩ := digitB_sound (c := c) (by omega)
      obtain ⟨w, r, n, rfl, e1, e2, e3, e4⟩ := numB_sound hb (p := [c]) (.one d1 hlt) h
      refine ⟨c :: w, r, n, rfl, ?_, by simp, e2, e3, e4⟩
      intro d hd
      rcases List.mem_cons.1 hd with rfl | hd
      · exact d2
      · exact e1 d hd

/-- `0x` and digits up to white space, then `k`. -/
noncomputable def hexB (k : Nat → Text → Bool) (l : Text) : Bool :=
  l.rec false fun z t _ => (Nat.beq z (nat_lit 48)).rec false
    (t.rec false fun x t _ => (Nat.beq x (nat_lit 120)).rec false (num1B (nat_lit 16) k t))

theorem hexB_sound {k : Nat → Text → Bool} {l : Text} (h : hexB k l = true) :
    ∃ w r n, NumAt Hex k l w r n := by
  cases l with
  | nil => cases h
  | cons z t =>
    have hx : hexB k (z :: t) = (Nat.beq z 48).rec false
      (t.rec false fun x t _ => (Nat.beq x 120).rec false (num1B 16 k t)) := rfl
    rw [hx] at h
    cases h1 : Nat.beq z 48 with
    | false => rw [h1] at h; cases h
    | true =>
      rw [h1] at h
      have := beq_iff.1 h1
      subst this
      cases t with
      | nil => cases h
      | cons x t =>
        change (Nat.beq x 120).rec false (num1B 16 k t) = true at h
        cases h2 : Nat.beq x 120 with
        | false => rw [h2] at h; cases h
        | true =>
          rw [h2] at h
          have := beq_iff.1 h2
          subst this
          obtain ⟨w, r, n, a1, a2, a3, a4, a5, a6⟩ := num1B_sound (by decide) h
          refine ⟨48 :: 120 :: w, r, n, by rw [a1]; rfl, ?_, by simp, a4, ?_, a6⟩
          · intro d hd
            rcases List.mem_cons.1 hd with rfl | hd
            · unfold WhiteSpace; omega
            rcases List.mem_cons.1 hd with rfl | hd
            · unfold WhiteSpace; omega
            · exact a2 d hd
          · exact .inr ⟨120, w, .inl rfl, rfl, a5⟩

/-- Skip white space, then `k`. -/
noncomputable def skipB (k : Text → Bool) (l : Text) : Bool :=
  l.rec false fun c t ih => (spB c).rec (k (c :: t)) ih

theorem skipB_sound {k : Text → Bool} {l : Text} (h : skipB k l = true) :
    ∃ s r, l = s ++ r ∧ (∀ c ∈ s, WhiteSpace c) ∧ k r = true := by
  induction l with
  | nil => cases h
  | cons c t ih =>
    have hx : skipB k (c :: t) = (spB c).rec (k (c :: t)) (skipB k t) := rfl
    rw [hx] at h
    cases h1 : spB c with
    | false => rw [h1] at h; exact ⟨[], c :: t, rfl, by simp, h⟩
    | true =>
      rw [h1] at h
      obtain ⟨s, r, rfl, h2, h3⟩ := ih h
      refine ⟨c :: s, r, rfl, ?_, h3⟩
      intro d hd
      rcases List.mem_cons.1 hd with rfl | hd
      · exact spB_sound h1
      · exact h2 d hd

/-! ## Lines of mapping files -/

theorem words_hash {l : Text} (h : l.head? = some 0x23) :
    ∃ w ws, Words l (w :: ws) ∧ Hash w := by
  cases l with
  | nil => simp at h
  | cons c t =>
    have hc : c = 0x23 := by simpa using h
    have hs : isSpace c = false := by subst hc; decide
    obtain ⟨w, t', h1, h2, h3, h4, h5⟩ := (words_split_aux t).2 [c] (by simp)
    have hw := words_split (c :: t)
    have e : split (c :: t) [] = ([c] ++ w) :: split t' [] := by
      rw [← h4, split, if_neg (by rw [hs]; decide)]; rfl
    rw [e] at hw
    exact ⟨_, _, hw, by simp [Hash, hc]⟩

theorem words_head {s w r : Text} {ws : List Text} (hs : ∀ c ∈ s, WhiteSpace c)
    (hw : ∀ c ∈ w, ¬ WhiteSpace c) (hn : w ≠ []) (hr : ∀ c, r.head? = some c → WhiteSpace c)
    (h : Words r ws) : Words (s ++ (w ++ r)) (w :: ws) := by
  rw [← List.append_assoc]
  exact .cons hs hn hw hr h

theorem words_skip {s r : Text} {ws : List Text} (hs : ∀ c ∈ s, WhiteSpace c)
    (h : Words r ws) : Words (s ++ r) ws := by
  induction s with
  | nil => exact h
  | cons c s ih =>
    exact Words.space (hs c (by simp)) (ih fun d hd => hs d (by simp [hd]))

/-- The next expected line, then `k`. -/
noncomputable def expectB (k : List (Nat × Nat) → Bool) (file : List (Nat × Nat)) (b c : Nat) : Bool :=
  file.rec false fun y ys _ => (Nat.beq b y.1).rec false ((Nat.beq c y.2).rec false (k ys))

theorem expectB_sound {k : List (Nat × Nat) → Bool} {file : List (Nat × Nat)} {b c : Nat}
    (h : expectB k file b c = true) : ∃ ys, file = (b, c) :: ys ∧ k ys = true := by
  cases file with
  | nil => cases h
  | cons y ys =>
    obtain ⟨y1, y2⟩ := y
    change (Nat.beq b y1).rec false ((Nat.beq c y2).rec false (k ys)) = true at h
    cases h1 : Nat.beq b y1 with
    | false => rw [h1] at h; cases h
    | true =>
      rw [h1] at h
      cases h2 : Nat.beq c y2 with
      | false => rw [h2] at h; cases h
      | true =>
        rw [h2] at h
        have := beq_iff.1 h1
        have := beq_iff.1 h2
        subst_vars
        exact ⟨ys, rfl, h⟩

/-- A comment, an empty line, or what `k` finds. -/
noncomputable def plainB (k : Bool) (no : Bool) (l : Text) : Bool :=
  l.rec false fun c t _ => (Nat.beq c (nat_lit 35)).rec
    ((Nat.beq c (nat_lit 10)).rec no (t.rec k fun _ _ _ => false)) k

theorem plainB_sound {k no : Bool} {l : Text} (h : plainB k no l = true) :
    (k = true ∧ (l.head? = some 0x23 ∨ l = [10])) ∨ no = true := by
  cases l with
  | nil => cases h
  | cons c t =>
    change (Nat.beq c 35).rec ((Nat.beq c 10).rec no (t.rec k fun _ _ _ => false)) k = true at h
    cases h1 : Nat.beq c 35 with
    | true =>
      rw [h1] at h
      have := beq_iff.1 h1
      exact .inl ⟨h, .inl (by rw [this]; rfl)⟩
    | false =>
      rw [h1] at h
      cases h2 : Nat.beq c 10 with
      | false => rw [h2] at h; exact .inr h
      | true =>
        rw [h2] at h
        have := beq_iff.1 h2
        subst this
        cases t with
        | nil => exact .inl ⟨h, .inr rfl⟩
        | cons d t => cases h

theorem words_lf : Words [10] [] := .nil (by
  intro c hc
  simp at hc
  subst hc
  unfold WhiteSpace
  omega)

/-- A line of a single-byte mapping file, then `k` for the lines still expected. -/
noncomputable def byteLineB (k : List (Nat × Nat) → Bool) (file : List (Nat × Nat)) (l : Text) : Bool :=
  plainB (k file) (hexB (fun b => skipB fun r => (r.rec false fun c _ _ => Nat.beq c (nat_lit 35) : Bool).rec
    (hexB (fun c _ => expectB k file b c) r) (k file)) l) l

theorem byteLineB_sound {k : List (Nat × Nat) → Bool} {file : List (Nat × Nat)} {l : Text}
    (h : byteLineB k file l = true) :
    ∃ x ys, asciiExtLine l = some x ∧ file = x.toList ++ ys ∧ k ys = true := by
  rcases plainB_sound h with ⟨hk, hl | rfl⟩ | h
  · refine ⟨none, file, ?_, rfl, hk⟩
    obtain ⟨w, ws, h1, h2⟩ := words_hash hl
    cases ws with
    | nil => exact asciiExtLine_of (.short h1 (by simp))
    | cons v ws => exact asciiExtLine_of (.comment h1 h2)
  · exact ⟨none, file, asciiExtLine_of (.short words_lf (by simp)), rfl, hk⟩
  · obtain ⟨w, r, b, a1, a2, a3, a4, a5, a6⟩ := hexB_sound h
    obtain ⟨s, r', rfl, b1, b2⟩ := skipB_sound a6
    have hw : ∀ {ws}, Words r' ws → Words l (w :: ws) := by
      intro ws h
      rw [a1]
      exact words_head (s := []) (by simp) a2 a3 a4 (words_skip b1 h)
    cases hh : (r'.rec false fun c _ _ => Nat.beq c (nat_lit 35) : Bool) with
    | true =>
      simp only [hh] at b2
      have hhd : r'.head? = some 0x23 := by
        cases r' with
        | nil => cases hh
        | cons c t => exact congrArg some (beq_iff.1 hh)
      obtain ⟨v, ws, h1, h2⟩ := words_hash hhd
      exact ⟨none, file, asciiExtLine_of (.undefined (hw h1) a5 h2), rfl, b2⟩
    | false =>
      simp only [hh] at b2
      obtain ⟨v, r3, c, c1, c2, c3, c4, c5, c6⟩ := hexB_sound b2
      obtain ⟨ys, e1, e2⟩ := expectB_sound c6
      refine ⟨some (b, c), ys, asciiExtLine_of (.entry (ws := split r3 []) (hw ?_) a5 c5), e1, e2⟩
      rw [c1]
      exact words_head (s := []) (by simp) c2 c3 c4 (words_split r3)

/-- A line of an index file, then `k` for the lines still expected. -/
noncomputable def indexLineB (k : List (Nat × Nat) → Bool) (file : List (Nat × Nat)) (l : Text) : Bool :=
  plainB (k file) (skipB (num1B (nat_lit 10) fun b => skipB
    (hexB fun c _ => expectB k file b c)) l) l

theorem indexLineB_sound {k : List (Nat × Nat) → Bool} {file : List (Nat × Nat)} {l : Text}
    (h : indexLineB k file l = true) :
    ∃ x ys, indexLine l = some x ∧ file = x.toList ++ ys ∧ k ys = true := by
  rcases plainB_sound h with ⟨hk, hl | rfl⟩ | h
  · refine ⟨none, file, ?_, rfl, hk⟩
    obtain ⟨w, ws, h1, h2⟩ := words_hash hl
    cases ws with
    | nil => exact indexLine_of (.short h1 (by simp))
    | cons v ws => exact indexLine_of (.comment h1 h2)
  · exact ⟨none, file, indexLine_of (.short words_lf (by simp)), rfl, hk⟩
  · obtain ⟨s0, r0, rfl, z1, z2⟩ := skipB_sound h
    obtain ⟨w, r, b, a1, a2, a3, a4, a5, a6⟩ := num1B_sound (by decide) z2
    obtain ⟨s, r', rfl, b1, b2⟩ := skipB_sound a6
    obtain ⟨v, r3, c, c1, c2, c3, c4, c5, c6⟩ := hexB_sound b2
    obtain ⟨ys, e1, e2⟩ := expectB_sound c6
    refine ⟨some (b, c), ys, indexLine_of (.entry (ws := split r3 []) ?_ a5 c5), e1, e2⟩
    rw [a1]
    refine words_head z1 a2 a3 a4 (words_skip b1 ?_)
    rw [c1]
    exact words_head (s := []) (by simp) c2 c3 c4 (words_split r3)

/-- The lines of a text, with `line` for each, and the lines of the file that are left. -/
noncomputable def linesB (line : (List (Nat × Nat) → Bool) → List (Nat × Nat) → Text → Bool)
    (k : List (Nat × Nat) → Bool) (ls : List Text) : List (Nat × Nat) → Bool :=
  ls.rec k fun l _ ih file => (lineB l).rec false (line ih file l)

/-- Nothing is left. -/
noncomputable def nilB (file : List (Nat × Nat)) : Bool := file.rec true fun _ _ _ => false

theorem linesB_sound {line : (List (Nat × Nat) → Bool) → List (Nat × Nat) → Text → Bool}
    {f : Text → Option (Option (Nat × Nat))}
    (hf : ∀ k file l, line k file l = true →
      ∃ x ys, f l = some x ∧ file = x.toList ++ ys ∧ k ys = true) {ls : List Text}
    {file : List (Nat × Nat)} (h : linesB line nilB ls file = true) :
    (∀ l ∈ ls, lineB l = true) ∧ ∃ xs, ls.mapM f = some xs ∧ xs.filterMap id = file := by
  induction ls generalizing file with
  | nil =>
    refine ⟨by simp, [], rfl, ?_⟩
    cases file with
    | nil => rfl
    | cons y ys => cases h
  | cons l ls ih =>
    have hx : linesB line nilB (l :: ls) file =
      (lineB l).rec false (line (linesB line nilB ls) file l) := rfl
    rw [hx] at h
    cases h1 : lineB l with
    | false => rw [h1] at h; cases h
    | true =>
      rw [h1] at h
      obtain ⟨x, ys, e1, rfl, e3⟩ := hf _ _ _ h
      obtain ⟨i1, xs, i2, rfl⟩ := ih e3
      refine ⟨?_, x :: xs, ?_, ?_⟩
      · intro m hm
        rcases List.mem_cons.1 hm with rfl | hm
        · exact h1
        · exact i1 m hm
      · rw [List.mapM_cons, e1, i2]; rfl
      · cases x <;> rfl

theorem byteFile_sound {ls : List Text} {file : List (Nat × Nat)}
    (h : linesB byteLineB nilB ls file = true) : readFile asciiExtLine ls.flatten = some file := by
  obtain ⟨h1, xs, h2, rfl⟩ := linesB_sound (line := byteLineB) (fun _ _ _ => byteLineB_sound) h
  exact readFile_lines h1 h2

theorem indexFile_sound {ls : List Text} {file : List (Nat × Nat)}
    (h : linesB indexLineB nilB ls file = true) : readFile indexLine ls.flatten = some file := by
  obtain ⟨h1, xs, h2, rfl⟩ := linesB_sound (line := indexLineB) (fun _ _ _ => indexLineB_sound) h
  exact readFile_lines h1 h2

/-! ## Printed tables -/

/-- Equal texts. -/
noncomputable def eqB (l : Text) : Text → Bool :=
  l.rec (fun b => b.rec true fun _ _ _ => false) fun x _ ih b =>
    b.rec false fun y bs _ => (Nat.beq x y).rec false (ih bs)

theorem eqB_sound {a b : Text} (h : eqB a b = true) : a = b := by
  induction a generalizing b with
  | nil =>
    cases b with
    | nil => rfl
    | cons y b => cases h
  | cons x a ih =>
    cases b with
    | nil => cases h
    | cons y b =>
      change (Nat.beq x y).rec false (eqB a b) = true at h
      cases h1 : Nat.beq x y with
      | false => rw [h1] at h; cases h
      | true =>
        rw [h1] at h
        rw [beq_iff.1 h1, ih h]

theorem entries_row {α : Type} (f : α → Text) {w : Nat} (hw : 0 < w) :
    ∀ (row : List α) (i : Nat) (rest : List α), i % w ≠ 0 → i % w + row.length ≤ w →
      entries f w i (row ++ rest) = row.flatMap f ++ entries f w (i + row.length) rest := by
  intro row
  induction row with
  | nil => intro i rest _ _; simp
  | cons x row ih =>
    intro i rest hi hl
    rw [List.cons_append, entries, if_neg hi]
    simp only [List.length_cons] at hl
    cases row with
    | nil => simp
    | cons y row =>
      have hlt : i % w + 1 < w := by simp only [List.length_cons] at hl; omega
      have hm : (i + 1) % w = i % w + 1 := by
        rw [Nat.add_mod, Nat.mod_eq_of_lt (show 1 < w by omega)]
        exact Nat.mod_eq_of_lt hlt
      rw [ih (i + 1) rest (by omega) (by omega)]
      simp [Nat.add_assoc, Nat.add_comm 1]

theorem entries_take {α : Type} (f : α → Text) {w : Nat} (hw : 0 < w) (tab : List α) (i : Nat)
    (hi : i % w = 0) (hn : tab ≠ []) :
    entries f w i tab = text! "\n    " ++ (tab.take w).flatMap f ++
      entries f w (i + (tab.take w).length) (tab.drop w) := by
  cases tab with
  | nil => exact absurd rfl hn
  | cons x tab =>
    obtain ⟨v, rfl⟩ : ∃ v, w = v + 1 := ⟨w - 1, by omega⟩
    rw [entries, if_pos hi, List.take_succ_cons, List.drop_succ_cons]
    rcases Nat.eq_zero_or_pos v with rfl | hv
    · simp
    · have hm : (i + 1) % (v + 1) = 1 := by
        rw [Nat.add_mod, hi, Nat.zero_add, Nat.mod_mod, Nat.mod_eq_of_lt (by omega)]
      conv => lhs; rw [← List.take_append_drop v tab]
      rw [entries_row f hw (tab.take v) (i + 1) (tab.drop v) (by omega) (by
        rw [hm, List.length_take]; omega)]
      simp [Nat.add_assoc, Nat.add_comm 1]

/-- A hexadecimal digit. -/
noncomputable def digB (d : Nat) : Nat :=
  (Nat.ble d (nat_lit 9)).rec (Nat.add d (nat_lit 55)) (Nat.add d (nat_lit 48))

theorem digB_eq (d : Nat) : digB d = digitChar d := by
  unfold digB digitChar
  cases h : Nat.ble d 9 with
  | true =>
    have := ble_iff.1 h
    rw [if_pos (by omega)]
    show d + 48 = _
    omega
  | false =>
    have := ble_false h
    rw [if_neg (by omega)]
    show d + 55 = _
    omega

/-- The hexadecimal digits of `n`, before `k`. -/
noncomputable def hexK (fuel : Nat) : Nat → Text → Text :=
  fuel.rec (fun _ k => k) fun _ ih n k =>
    (Nat.ble n (nat_lit 15)).rec
      (ih (Nat.div n (nat_lit 16)) (digB (Nat.mod n (nat_lit 16)) :: k)) (digB n :: k)

theorem digitsAux_fuel (base : Nat) (hb : 2 ≤ base) (f g n : Nat) (hf : n < f) (hg : n < g) :
    digitsAux base f n = digitsAux base g n := by
  induction f generalizing g n with
  | zero => omega
  | succ f ih =>
    obtain ⟨g, rfl⟩ : ∃ g', g = g' + 1 := ⟨g - 1, by omega⟩
    rw [digitsAux, digitsAux]
    split
    · rfl
    · rename_i hn
      have := Nat.div_lt_self (n := n) (k := base) (by omega) (by omega)
      rw [ih g (n / base) (by omega) (by omega)]

theorem digits_step {n : Nat} (h : 16 ≤ n) :
    digits 16 n = digits 16 (n / 16) ++ [digitChar (n % 16)] := by
  have : digits 16 n = digitsAux 16 n (n / 16) ++ [digitChar (n % 16)] := by
    unfold digits
    rw [digitsAux, if_neg (by omega)]
  rw [this]
  congr 1
  exact digitsAux_fuel 16 (by decide) _ _ _ (by omega) (by omega)

theorem hexK_eq (fuel n : Nat) (k : Text) (h : n < 16 ^ fuel) (hf : 0 < fuel) :
    hexK fuel n k = digits 16 n ++ k := by
  induction fuel generalizing n k with
  | zero => omega
  | succ fuel ih =>
    have hx : hexK (fuel + 1) n k = (Nat.ble n 15).rec
      (hexK fuel (n / 16) (digB (n % 16) :: k)) (digB n :: k) := rfl
    rw [hx]
    cases hb : Nat.ble n 15 with
    | true =>
      have := ble_iff.1 hb
      have : digits 16 n = [digitChar n] := by
        unfold digits
        rw [digitsAux, if_pos (by omega)]
      rw [this, ← digB_eq]
      rfl
    | false =>
      have := ble_false hb
      have h0 : 0 < fuel := by
        apply Nat.pos_of_ne_zero
        rintro rfl
        simp at h
        omega
      rw [digits_step (by omega), ← digB_eq, List.append_assoc]
      exact ih (n / 16) _ (Nat.div_lt_of_lt_mul (by rw [Nat.pow_succ] at h; omega)) h0

theorem hexDigits_length {n : Nat} (w : Nat) (h1 : 16 ^ w ≤ n) (h2 : n < 16 ^ (w + 1)) :
    (digits 16 n).length = w + 1 := by
  induction w generalizing n with
  | zero =>
    unfold digits
    rw [digitsAux, if_pos (by simpa using h2)]
    rfl
  | succ w ih =>
    rw [Nat.pow_succ] at h1 h2
    have : 0 < 16 ^ w := Nat.pow_pos (by decide)
    rw [digits_step (by omega), List.length_append, ih (by omega)
      (by rw [Nat.pow_succ] at h2 ⊢; omega)]
    rfl

theorem digits_pos (n : Nat) : 1 ≤ (digits 16 n).length := by
  unfold digits
  rw [digitsAux]
  split <;> simp

/-- At least four hexadecimal digits, before `k`. -/
noncomputable def pad4K (n : Nat) (k : Text) : Text :=
  (Nat.ble (nat_lit 4096) n).rec
    ((Nat.ble (nat_lit 256) n).rec
      ((Nat.ble (nat_lit 16) n).rec
        (nat_lit 48 :: nat_lit 48 :: nat_lit 48 :: hexK (nat_lit 6) n k)
        (nat_lit 48 :: nat_lit 48 :: hexK (nat_lit 6) n k))
      (nat_lit 48 :: hexK (nat_lit 6) n k))
    (hexK (nat_lit 6) n k)

theorem pad4K_eq (n : Nat) (k : Text) (h : n < 16777216) : pad4K n k = padded 4 n ++ k := by
  have hk : hexK 6 n k = digits 16 n ++ k := hexK_eq 6 n k h (by decide)
  have hp : ∀ m l : Nat, (digits 16 n).length = l → 4 - l = m →
      padded 4 n ++ k = List.replicate m 0x30 ++ hexK 6 n k := by
    rintro m l h1 h2
    rw [hk, padded, h1, h2, List.append_assoc]
  unfold pad4K
  cases h1 : Nat.ble 4096 n with
  | true =>
    have h1' := ble_iff.1 h1
    have : 4 ≤ (digits 16 n).length := by
      by_cases h5 : n < 65536
      · rw [hexDigits_length 3 h1' h5]
        decide
      · by_cases h6 : n < 1048576
        · rw [hexDigits_length 4 (by omega) h6]
          decide
        · rw [hexDigits_length 5 (by omega) (by omega)]
          decide
    rw [hp 0 _ rfl (by omega)]
    rfl
  | false =>
    have h1' := ble_false h1
    cases h2 : Nat.ble 256 n with
    | true => rw [hp 1 3 (hexDigits_length 2 (ble_iff.1 h2) h1') rfl]; rfl
    | false =>
      have h2' := ble_false h2
      cases h3 : Nat.ble 16 n with
      | true => rw [hp 2 2 (hexDigits_length 1 (ble_iff.1 h3) h2') rfl]; rfl
      | false =>
        have h3' := ble_false h3
        have : (digits 16 n).length = 1 := by
          unfold digits
          rw [digitsAux, if_pos h3']
          rfl
        rw [hp 3 1 this rfl]; rfl

/-- At least two hexadecimal digits, before `k`. -/
noncomputable def pad2K (n : Nat) (k : Text) : Text :=
  (Nat.ble (nat_lit 16) n).rec (nat_lit 48 :: hexK (nat_lit 2) n k) (hexK (nat_lit 2) n k)

theorem pad2K_eq (n : Nat) (k : Text) (h : n < 256) : pad2K n k = padded 2 n ++ k := by
  have hk : hexK 2 n k = digits 16 n ++ k := hexK_eq 2 n k h (by decide)
  unfold pad2K
  cases h3 : Nat.ble 16 n with
  | true =>
    show hexK 2 n k = _
    rw [hk, padded, hexDigits_length 1 (ble_iff.1 h3) h]
    rfl
  | false =>
    have h3' := ble_false h3
    have : (digits 16 n).length = 1 := by
      unfold digits
      rw [digitsAux, if_pos h3']
      rfl
    show 48 :: hexK 2 n k = _
    rw [hk, padded, this]
    rfl

/-- `decEntry` of U+FFFD for `none`, before `k`. -/
noncomputable def decK (c : Nat) (k : Text) : Text :=
  (Nat.beq c (nat_lit 65533)).rec
    (nat_lit 39 :: nat_lit 92 :: nat_lit 117 :: nat_lit 123 ::
      pad4K c (nat_lit 125 :: nat_lit 39 :: nat_lit 44 :: k))
    (nat_lit 39 :: nat_lit 65533 :: nat_lit 39 :: nat_lit 44 :: k)

theorem decK_eq (c : Nat) (k : Text) (h : c < 16777216) : decK c k = decEntry (decOpt c) ++ k := by
  unfold decK decOpt
  have e1 : text! r"'\u{" = [39, 92, 117, 123] := by decide
  have e2 : text! "}'," = [125, 39, 44] := by decide
  have e3 : text! "'�'," = [39, 65533, 39, 44] := by decide
  cases hb : Nat.beq c 65533 with
  | true =>
    rw [if_pos (beq_iff.1 hb), decEntry, e3]
    rfl
  | false =>
    have : c ≠ 65533 := fun e => by
      rw [beq_iff.2 e] at hb
      cases hb
    rw [if_neg this, decEntry, e1, e2]
    show [39, 92, 117, 123] ++ pad4K c ([125, 39, 44] ++ k) = _
    rw [pad4K_eq _ _ h]
    simp

/-- `encEntry`, before `k`. -/
noncomputable def encK (x : Nat × Nat) (k : Text) : Text :=
  nat_lit 40 :: nat_lit 39 :: nat_lit 92 :: nat_lit 117 :: nat_lit 123 :: pad4K x.1
    (nat_lit 125 :: nat_lit 39 :: nat_lit 44 :: nat_lit 32 :: nat_lit 48 :: nat_lit 120 :: pad2K x.2
      (nat_lit 41 :: nat_lit 44 :: nat_lit 32 :: k))

theorem encK_eq (x : Nat × Nat) (k : Text) (h : x.1 < 16777216 ∧ x.2 < 256) :
    encK x k = encEntry x ++ k := by
  have e1 : text! r"('\u{" = [40, 39, 92, 117, 123] := by decide
  have e2 : text! "}', 0x" = [125, 39, 44, 32, 48, 120] := by decide
  have e3 : text! "), " = [41, 44, 32] := by decide
  unfold encK encEntry
  rw [e1, e2, e3, pad4K_eq _ _ h.1, pad2K_eq _ _ h.2]
  simp

/-- `encEntry2`, before `k`. -/
noncomputable def enc2K (x : Nat × Nat × Nat) (k : Text) : Text :=
  nat_lit 40 :: nat_lit 39 :: nat_lit 92 :: nat_lit 117 :: nat_lit 123 :: hexK (nat_lit 6) x.1
    (nat_lit 125 :: nat_lit 39 :: nat_lit 44 :: nat_lit 32 :: nat_lit 91 :: nat_lit 48 ::
      nat_lit 120 :: hexK (nat_lit 2) x.2.1 (nat_lit 44 :: nat_lit 32 :: nat_lit 48 :: nat_lit 120 ::
        hexK (nat_lit 2) x.2.2 (nat_lit 93 :: nat_lit 41 :: nat_lit 44 :: nat_lit 32 :: k)))

theorem enc2K_eq (x : Nat × Nat × Nat) (k : Text) (h : x.1 < 16777216 ∧ x.2.1 < 256 ∧ x.2.2 < 256) :
    enc2K x k = encEntry2 x ++ k := by
  have e1 : text! r"('\u{" = [40, 39, 92, 117, 123] := by decide
  have e2 : text! "}', [0x" = [125, 39, 44, 32, 91, 48, 120] := by decide
  have e3 : text! "]), " = [93, 41, 44, 32] := by decide
  have e4 : text! ", 0x" = [44, 32, 48, 120] := by decide
  unfold enc2K encEntry2
  rw [e1, e2, e3, e4, hexK_eq 6 _ _ h.1 (by decide), hexK_eq 2 _ _ h.2.1 (by decide),
    hexK_eq 2 _ _ h.2.2 (by decide)]
  simp

/-- A row of at most `w` entries. -/
noncomputable def rowText {α : Type} (f : α → Text → Text) (w : Nat) : List α → Text :=
  w.rec (fun _ => [nat_lit 10]) fun _ ih tab => tab.rec [nat_lit 10] fun x tab _ => f x (ih tab)

/-- What is left after a row. -/
noncomputable def rowRest {α : Type} (w : Nat) : List α → List α :=
  w.rec (fun tab => tab) fun _ ih tab => tab.rec [] fun _ tab _ => ih tab

theorem rowText_eq {α β : Type} {f : α → Text → Text} {g : β → Text} {h : α → β} (w : Nat)
    (tab : List α) (hf : ∀ x ∈ tab, ∀ k, f x k = g (h x) ++ k) :
    rowText f w tab = ((tab.map h).take w).flatMap g ++ [10] := by
  induction w generalizing tab with
  | zero => rw [List.take_zero]; rfl
  | succ w ih =>
    cases tab with
    | nil => rfl
    | cons x tab =>
      show f x (rowText f w tab) = _
      rw [hf x (by simp), ih tab fun y hy => hf y (by simp [hy])]
      simp

theorem rowRest_eq {α : Type} (w : Nat) (tab : List α) : rowRest w tab = tab.drop w := by
  induction w generalizing tab with
  | zero => rfl
  | succ w ih =>
    cases tab with
    | nil => rfl
    | cons x tab => exact ih tab

/-- The rows of a table, `w` entries each, as lines. -/
noncomputable def rowLines {α : Type} (f : α → Text → Text) (w : Nat) (fuel : Nat) :
    List α → List Text :=
  fuel.rec (fun _ => []) fun _ ih tab => tab.rec [] fun _ _ _ =>
    (nat_lit 32 :: nat_lit 32 :: nat_lit 32 :: nat_lit 32 :: rowText f w tab) :: ih (rowRest w tab)

theorem rowLines_flatten {α β : Type} {f : α → Text → Text} {g : β → Text} {h : α → β} {w : Nat}
    (hw : 0 < w) (fuel : Nat) (tab : List α) (hg : ∀ x ∈ tab, ∀ k, f x k = g (h x) ++ k)
    (hf : tab.length ≤ fuel) (i : Nat) (hi : i % w = 0) :
    entries g w i (tab.map h) ++ [10] = 10 :: (rowLines f w fuel tab).flatten := by
  induction fuel generalizing tab i with
  | zero =>
    rw [List.length_eq_zero_iff.1 (Nat.le_zero.1 hf)]
    rfl
  | succ fuel ih =>
    by_cases hn : tab = []
    · rw [hn]; rfl
    · have hx : rowLines f w (fuel + 1) tab =
          ([32, 32, 32, 32] ++ rowText f w tab) :: rowLines f w fuel (rowRest w tab) := by
        cases tab with
        | nil => exact absurd rfl hn
        | cons x tab => rfl
      have e0 : text! "\n    " = 10 :: [32, 32, 32, 32] := by decide
      rw [hx, entries_take g hw _ i hi (by simpa using hn), List.flatten_cons, rowText_eq w tab hg,
        rowRest_eq, ← List.map_drop]
      by_cases hd : tab.drop w = []
      · have hn : rowLines f w fuel [] = [] := by cases fuel <;> rfl
        rw [hd, e0, hn]
        simp [entries]
      · have hlen : ((tab.map h).take w).length = w := by
          rw [List.length_take, List.length_map]
          apply Nat.min_eq_left
          apply Nat.le_of_not_le
          intro hle
          exact hd (List.drop_eq_nil_of_le hle)
        have := ih (tab.drop w) (fun x hx => hg x (List.mem_of_mem_drop hx))
          (by
            have : 0 < tab.length := List.length_pos_of_ne_nil hn
            rw [List.length_drop]
            omega) (i + w)
          (by rw [Nat.add_mod_right]; exact hi)
        rw [hlen, List.append_assoc, List.append_assoc, this, e0]
        simp

/-- Equal lines. -/
noncomputable def linesEqB (as : List Text) : List Text → Bool :=
  as.rec (fun bs => bs.rec true fun _ _ _ => false) fun a _ ih bs =>
    bs.rec false fun b bs _ => (eqB b a).rec false (ih bs)

theorem linesEqB_sound {as bs : List Text} (h : linesEqB as bs = true) : as = bs := by
  induction as generalizing bs with
  | nil =>
    cases bs with
    | nil => rfl
    | cons y b => cases h
  | cons x a ih =>
    cases bs with
    | nil => cases h
    | cons y b =>
      change (eqB y x).rec false (linesEqB a b) = true at h
      cases h1 : eqB y x with
      | false => rw [h1] at h; cases h
      | true =>
        rw [h1] at h
        rw [eqB_sound h1, ih h]

/-- The lines of `asciiExtHeader`. -/
noncomputable def headerLines : List Text := lines!
"// This file is auto-generated.  Please see `encoding_tables/single_byte/`
// from the root directory for the files that generate this.

use {DecodeResult, EncodeResult};

pub fn decode_to_str<'a>(
    input: &[u8],
    out_buffer: &'a mut [u8],
) -> DecodeResult<'a> {
    super::ascii_ext_decode_to_str(&DECODE_TABLE, input, out_buffer)
}

pub fn encode_from_str<'a>(
    input: &str,
    out_buffer: &'a mut [u8],
) -> EncodeResult<'a> {
    super::ascii_ext_encode_from_str(&ENCODE_TABLE, input, out_buffer)
}

"

/-- The lines of `asciiExtSource`. -/
noncomputable def asciiExtLines (dec : List Nat) (enc : List (Nat × Nat)) : List Text :=
  headerLines ++ text! "const DECODE_TABLE: [char; 128] = [\n" ::
    (rowLines decK 8 dec.length dec ++ text! "];\n" :: text! "\n" ::
      (text! "const ENCODE_TABLE: [(char, u8); " ++ digits 10 enc.length ++ text! "] = [\n") ::
        (rowLines encK 4 enc.length enc ++ [text! "];\n"]))

theorem asciiExtLines_flatten (dec : List Nat) (enc : List (Nat × Nat))
    (hd : ∀ c ∈ dec, c < 16777216) (he : ∀ x ∈ enc, x.1 < 16777216 ∧ x.2 < 256) :
    (asciiExtLines dec enc).flatten = asciiExtSource (dec.map decOpt) enc := by
  have h0 : headerLines.flatten = asciiExtHeader := by decide +kernel
  have e1 : text! "const DECODE_TABLE: [char; 128] = [\n" =
    text! "const DECODE_TABLE: [char; 128] = [" ++ [10] := by decide
  have e2 : text! "] = [\n" = text! "] = [" ++ [10] := by decide
  have e3 : text! "\n];\n\n" = [10] ++ text! "];\n" ++ text! "\n" := by decide
  have e4 : text! "\n];\n" = [10] ++ text! "];\n" := by decide
  unfold asciiExtLines asciiExtSource
  rw [e3, e4, e1, e2]
  simp only [List.flatten_append, List.flatten_cons, List.flatten_nil, h0]
  have g1 : [10] ++ (rowLines decK 8 dec.length dec).flatten =
      entries decEntry 8 0 (dec.map decOpt) ++ [10] :=
    (rowLines_flatten (by decide) dec.length dec (fun x hx k => decK_eq x k (hd x hx))
      (Nat.le_refl _) 0 rfl).symm
  have g2 : [10] ++ (rowLines encK 4 enc.length enc).flatten =
      entries encEntry 4 0 (enc.map id) ++ [10] :=
    (rowLines_flatten (by decide) enc.length enc (fun x hx k => encK_eq x k (he x hx))
      (Nat.le_refl _) 0 rfl).symm
  rw [List.map_id] at g2
  have r : ∀ {a b c d : Text} (t : Text), a ++ b = c ++ d → a ++ (b ++ t) = c ++ (d ++ t) := by
    intro a b c d t h
    rw [← List.append_assoc, h, List.append_assoc]
  simp only [List.append_assoc]
  rw [r _ g1, r _ g2]
  simp

/-! ## Files in parts -/

/-- The parts of an index file, and the lines of the index in each. -/
inductive IndexParts : List (List Text) → List (List (Nat × Nat)) → Prop where
  | nil : IndexParts [] []
  | cons {ls : List Text} {r : List (Nat × Nat)} {P : List (List Text)}
      {R : List (List (Nat × Nat))} (h : linesB indexLineB nilB ls r = true) (hr : IndexParts P R) :
      IndexParts (ls :: P) (r :: R)

theorem IndexParts.read {P : List (List Text)} {R : List (List (Nat × Nat))} (h : IndexParts P R) :
    readFile indexLine P.flatten.flatten = some R.flatten := by
  have key : (∀ l ∈ P.flatten, lineB l = true) ∧
      ∃ xs, P.flatten.mapM indexLine = some xs ∧ xs.filterMap id = R.flatten := by
    induction h with
    | nil => exact ⟨by simp, [], rfl, rfl⟩
    | @cons ls r P R h _ ih =>
      obtain ⟨i1, xs, i2, i3⟩ := ih
      obtain ⟨h1, ys, h2, h3⟩ := linesB_sound (line := indexLineB) (fun _ _ _ => indexLineB_sound) h
      refine ⟨?_, ys ++ xs, ?_, ?_⟩
      · intro l hl
        rw [List.flatten_cons] at hl
        rcases List.mem_append.1 hl with hl | hl
        · exact h1 l hl
        · exact i1 l hl
      · rw [List.flatten_cons, List.mapM_append, h2, i2]
        rfl
      · rw [List.filterMap_append, h3, i3, List.flatten_cons]
  obtain ⟨h1, xs, h2, h3⟩ := key
  rw [readFile_lines h1 h2, h3]

/-- A part of a table, a whole number of rows. -/
noncomputable def chunkB {α : Type} (f : α → Text → Text) (w : Nat) (tab : List α)
    (ls : List Text) : Bool :=
  (Nat.beq (Nat.mod tab.length w) (nat_lit 0)).rec false
    (linesEqB (rowLines f w tab.length tab) ls)

/-- The parts of a table, and the lines that show each. -/
inductive Chunks {α : Type} (f : α → Text → Text) (w : Nat) :
    List (List α) → List (List Text) → Prop where
  | last {tab : List α} {ls : List Text}
      (h : linesEqB (rowLines f w tab.length tab) ls = true) : Chunks f w [tab] [ls]
  | cons {tab : List α} {ls : List Text} {T : List (List α)} {L : List (List Text)}
      (h : chunkB f w tab ls = true) (hr : Chunks f w T L) : Chunks f w (tab :: T) (ls :: L)

theorem entries_append {α : Type} (f : α → Text) (w : Nat) (a b : List α) (i : Nat) :
    entries f w i (a ++ b) = entries f w i a ++ entries f w (i + a.length) b := by
  induction a generalizing i with
  | nil => rfl
  | cons x a ih =>
    rw [List.cons_append, entries, entries, ih, List.length_cons]
    simp [Nat.add_assoc, Nat.add_comm 1]

theorem Chunks.entries {α β : Type} {f : α → Text → Text} {g : β → Text} {t : α → β} {w : Nat}
    (hw : 0 < w) {T : List (List α)} {L : List (List Text)} (h : Chunks f w T L)
    (hg : ∀ x ∈ T.flatten, ∀ k, f x k = g (t x) ++ k) (i : Nat) (hi : i % w = 0) :
    Generator.entries g w i (T.flatten.map t) ++ [10] = 10 :: L.flatten.flatten := by
  induction h generalizing i with
  | @last tab ls h =>
    simp only [List.flatten_cons, List.flatten_nil, List.append_nil] at hg ⊢
    rw [← linesEqB_sound h]
    exact rowLines_flatten hw _ _ hg (Nat.le_refl _) i hi
  | @cons tab ls T L h _ ih =>
    unfold chunkB at h
    cases hm : Nat.beq (Nat.mod tab.length w) 0 with
    | false => rw [hm] at h; cases h
    | true =>
      rw [hm] at h
      have hm' : tab.length % w = 0 := beq_iff.1 hm
      have h1 := rowLines_flatten hw _ tab (fun x hx => hg x (by
        rw [List.flatten_cons]
        exact List.mem_append_left _ hx)) (Nat.le_refl _) i hi
      rw [linesEqB_sound h] at h1
      have h2 := ih (fun x hx => hg x (by
        rw [List.flatten_cons]
        exact List.mem_append_right _ hx)) (i + tab.length) (by
        rw [Nat.add_mod, hi, hm', Nat.zero_add, Nat.zero_mod])
      rw [List.flatten_cons, List.map_append, entries_append, List.length_map, List.append_assoc,
        h2, ← List.singleton_append, ← List.append_assoc, h1]
      simp

/-- The lines before the decode table. -/
noncomputable def wideHead (n : Nat) : List Text :=
  [text! "// This file is auto-generated.  Please see `encoding_tables/whatwg/`\n",
   text! "// from the root directory for the files that generate this.\n",
   text! "\n",
   text! "const DECODE_TABLE: [char; " ++ (digits 10 n ++ text! "] = [\n")]

/-- The lines between the two tables. -/
noncomputable def wideMid (n : Nat) : List Text :=
  [text! "];\n", text! "\n",
   text! "const ENCODE_TABLE: [(char, [u8; 2]); " ++ (digits 10 n ++ text! "] = [\n")]

/-- The last line. -/
noncomputable def wideEnd : List Text := [text! "];\n"]

theorem wide_flatten {D : List (List Nat)} {E : List (List (Nat × Nat × Nat))}
    {H M Z : List Text} {P Q : List (List Text)} {n m : Nat}
    (hD : Chunks decK 8 D P) (hE : Chunks enc2K 3 E Q)
    (bD : ∀ c ∈ D.flatten, c < 16777216)
    (bE : ∀ x ∈ E.flatten, x.1 < 16777216 ∧ x.2.1 < 256 ∧ x.2.2 < 256)
    (hn : D.flatten.length = n) (hm : E.flatten.length = m)
    (h1 : linesEqB (wideHead n) H = true) (h2 : linesEqB (wideMid m) M = true)
    (h3 : linesEqB wideEnd Z = true) :
    (H ++ P.flatten ++ M ++ Q.flatten ++ Z).flatten =
      wideSource (D.flatten.map decOpt, E.flatten) := by
  have g1 : [10] ++ P.flatten.flatten = entries decEntry 8 0 (D.flatten.map decOpt) ++ [10] :=
    (hD.entries (by decide) (fun x hx k => decK_eq x k (bD x hx)) 0 rfl).symm
  have g2 : [10] ++ Q.flatten.flatten = entries encEntry2 3 0 (E.flatten.map id) ++ [10] :=
    (hE.entries (by decide) (fun x hx k => enc2K_eq x k (bE x hx)) 0 rfl).symm
  rw [List.map_id] at g2
  have r : ∀ {a b c d : Text} (t : Text), a ++ b = c ++ d → a ++ (b ++ t) = c ++ (d ++ t) := by
    intro a b c d t h
    rw [← List.append_assoc, h, List.append_assoc]
  have e2 : text! "] = [\n" = text! "] = [" ++ [10] := by decide
  have e3 : text! "\n];\n\n" = [10] ++ text! "];\n" ++ text! "\n" := by decide
  have e4 : text! "\n];\n" = [10] ++ text! "];\n" := by decide
  rw [← linesEqB_sound h1, ← linesEqB_sound h2, ← linesEqB_sound h3]
  unfold wideSource wideHead wideMid wideEnd
  rw [e3, e4, e2]
  simp only [List.flatten_append, List.flatten_cons, List.flatten_nil, List.append_assoc,
    List.length_map, hn, hm, List.nil_append]
  rw [r _ g1, r _ g2]
  simp

end Verif.Generator
