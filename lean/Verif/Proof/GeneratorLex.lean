import Verif.Spec.RustLex
import Verif.Model.GeneratorText
import Mathlib.Data.List.Basic

/-! # The generated source, as the Rust lexer reads it -/

namespace Verif.Spec.Rust

/-! ## Steps shorten the text and look only at what they take -/

theorem length_dropWhile_le {p : Nat → Bool} (t : Text) : (t.dropWhile p).length ≤ t.length :=
  (List.dropWhile_suffix p).length_le

theorem takeWhile_append_of {p : Nat → Bool} {t s : Text} (h : t.dropWhile p ≠ []) :
    (t ++ s).takeWhile p = t.takeWhile p ∧ (t ++ s).dropWhile p = t.dropWhile p ++ s := by
  induction t with
  | nil => simp at h
  | cons c t ih =>
    by_cases hc : p c
    · simp only [List.cons_append, List.takeWhile_cons, List.dropWhile_cons, hc, if_true] at h ⊢
      obtain ⟨h1, h2⟩ := ih h
      exact ⟨by rw [h1], h2⟩
    · simp [hc]

theorem quoted_length {t : Text} {x : Token × Text} (h : quoted t = some x) :
    x.2.length < t.length := by
  unfold quoted at h
  split at h
  · rename_i t
    dsimp only at h
    split at h
    · rename_i rest hr
      have := length_dropWhile_le (p := isHexDigit) t
      rw [hr] at this
      split at h <;> simp at h
      subst h
      simp at this ⊢
      omega
    · simp at h
  · simp at h
  · split at h <;> simp at h
    subst h
    simp
    omega
  · rename_i t _ _ _
    split at h <;> simp at h
    subst h
    have := length_dropWhile_le (p := fun c => isLetter c || isDigit c) t
    simp; omega
  · simp at h

theorem number_length {c : Nat} {t : Text} {x : Token × Text} (hc : isDigit c)
    (h : number (c :: t) = some x) : x.2.length < (c :: t).length := by
  unfold number at h
  split at h
  · rename_i t heq
    cases heq
    dsimp only at h
    split at h <;> simp at h
    subst h
    have := length_dropWhile_le (p := isHexDigit) t
    simp; omega
  · dsimp only at h
    split at h <;> simp at h
    subst h
    have := length_dropWhile_le (p := isDigit) t
    simp [hc]; omega

theorem step_length {t : Text} {x : Option Token × Text} (h : step t = some x) :
    x.2.length < t.length := by
  unfold step at h
  split at h
  · simp at h
  · rename_i t
    simp at h
    subst h
    have := length_dropWhile_le (p := (· != 0x0A)) t
    simp; omega
  · rename_i c t _
    split at h
    · simp at h; subst h; simp
    split at h
    · simp at h; subst h
      have := length_dropWhile_le (p := fun c => isLetter c || isDigit c) t
      simp; omega
    split at h
    · rename_i hd
      cases hn : number (c :: t) with
      | none => simp [hn] at h
      | some y =>
        simp [hn] at h
        subst h
        exact number_length hd hn
    split at h
    · cases hn : quoted t with
      | none => simp [hn] at h
      | some y =>
        simp [hn] at h
        subst h
        have := quoted_length hn
        simp; omega
    split at h
    · simp at h; subst h; simp
    · simp at h

theorem step_cons {c : Nat} (t : Text) (h : c ≠ 0x2F) : step (c :: t) =
    (if isBlank c then some (none, t)
    else if isLetter c then
      some (some (.word (c :: t.takeWhile fun c => isLetter c || isDigit c)),
        t.dropWhile fun c => isLetter c || isDigit c)
    else if isDigit c then (number (c :: t)).map fun x => (some x.1, x.2)
    else if c = 0x27 then (quoted t).map fun x => (some x.1, x.2)
    else if isMark c then some (some (.mark c), t)
    else none) := by
  conv => lhs; unfold step
  split
  · rename_i heq; simp at heq
  · rename_i heq; simp only [List.cons.injEq] at heq; exact absurd heq.1 h
  · rename_i heq
    simp only [List.cons.injEq] at heq
    obtain ⟨rfl, rfl⟩ := heq
    rfl

/-- The text is read as these tokens. -/
inductive Lex : Text → List Token → Prop
  | nil : Lex [] []
  | skip {t r toks} : step t = some (none, r) → Lex r toks → Lex t toks
  | tok {t r tok toks} : step t = some (some tok, r) → Lex r toks → Lex t (tok :: toks)

theorem Lex.aux {t : Text} {toks : List Token} (h : Lex t toks) :
    ∀ fuel, t.length ≤ fuel → tokensAux fuel t = some toks := by
  induction h with
  | nil => intro fuel _; cases fuel <;> rfl
  | @skip t r toks hs _ ih =>
    intro fuel hf
    have hl := step_length hs
    cases t with
    | nil => simp at hl
    | cons c t =>
      cases fuel with
      | zero => simp at hf
      | succ fuel =>
        simp only [tokensAux, hs]
        exact ih fuel (by simp at hl hf; omega)
  | @tok t r tok toks hs _ ih =>
    intro fuel hf
    have hl := step_length hs
    cases t with
    | nil => simp at hl
    | cons c t =>
      cases fuel with
      | zero => simp at hf
      | succ fuel =>
        simp only [tokensAux, hs]
        rw [ih fuel (by simp at hl hf; omega)]
        rfl

theorem Lex.tokens {t : Text} {toks : List Token} (h : Lex t toks) : tokens t = some toks :=
  h.aux _ (Nat.le_refl _)

/-- The text is read as these tokens whatever comes after it. -/
def Chunk (t : Text) (toks : List Token) : Prop :=
  ∀ rest ts, Lex rest ts → Lex (t ++ rest) (toks ++ ts)

theorem Chunk.nil : Chunk [] [] := fun _ _ h => h

theorem Chunk.append {a b : Text} {s t : List Token} (ha : Chunk a s) (hb : Chunk b t) :
    Chunk (a ++ b) (s ++ t) := by
  intro rest ts h
  rw [List.append_assoc, List.append_assoc]
  exact ha _ _ (hb _ _ h)

theorem Chunk.tokens {t : Text} {toks : List Token} (h : Chunk t toks) :
    tokens t = some toks := by
  have := h [] [] .nil
  simp only [List.append_nil] at this
  exact this.tokens

theorem quoted_append {t s : Text} {x : Token × Text} (h : quoted t = some x) (hx : x.2 ≠ []) :
    quoted (t ++ s) = some (x.1, x.2 ++ s) := by
  unfold quoted at h
  split at h
  · rename_i t
    dsimp only at h
    split at h
    · rename_i rest hr
      obtain ⟨h1, h2⟩ := takeWhile_append_of (p := isHexDigit) (t := t) (s := s) (by rw [hr]; simp)
      split at h <;> simp at h
      rename_i hc
      subst h
      simp only [List.cons_append, quoted, h1, h2, hr]
      rw [if_pos hc]
    · simp at h
  · simp at h
  · rename_i c rest h2
    split at h <;> simp at h
    rename_i hc
    subst h
    have : c ≠ 0x5C := fun e => h2 e
    simp only [List.cons_append]
    unfold quoted
    split
    · rename_i heq; simp at heq
    · rename_i heq; simp at heq; exact absurd heq.1 this
    · rename_i heq
      simp at heq
      obtain ⟨rfl, rfl⟩ := heq
      rw [if_neg hc]
    · rename_i h3 heq
      simp at heq
      exact absurd heq.2.symm (h3 _)
    · rename_i heq; simp at heq
  · rename_i c t h1 h2 h3
    split at h <;> simp at h
    rename_i hc
    subst h
    have hne : c ≠ 0x5C := by intro e; exact h2 e
    obtain ⟨g1, g2⟩ := takeWhile_append_of (p := fun c => isLetter c || isDigit c) (t := t) (s := s) hx
    have ht : t ≠ [] := by rintro rfl; simp at hx
    obtain ⟨d, t', rfl⟩ := List.exists_cons_of_ne_nil ht
    have hd : d ≠ 0x27 := by rintro rfl; exact h3 _ rfl
    unfold quoted
    split
    · rename_i heq; simp at heq; exact absurd heq.1 hne
    · rename_i heq; simp at heq; exact absurd heq.1 hne
    · rename_i heq; simp at heq; exact absurd heq.2.1 hd
    · rename_i heq
      simp only [List.cons_append, List.cons.injEq] at heq
      obtain ⟨rfl, rfl⟩ := heq
      rw [if_pos hc]
      rw [List.cons_append] at g1 g2
      rw [g1, g2]
    · rename_i heq; simp at heq
  · simp at h

theorem ends_append {t s : Text} (h : t ≠ []) : ends (t ++ s) = ends t := by
  cases t with
  | nil => exact absurd rfl h
  | cons c t => rfl

theorem number_append {t s : Text} {x : Token × Text} (h : number t = some x) (hx : x.2 ≠ []) :
    number (t ++ s) = some (x.1, x.2 ++ s) := by
  unfold number at h
  split at h
  · rename_i t
    dsimp only at h
    split at h <;> simp at h
    rename_i hc
    subst h
    obtain ⟨g1, g2⟩ := takeWhile_append_of (p := isHexDigit) (t := t) (s := s) hx
    simp only [List.cons_append, number, g1, g2]
    rw [ends_append hx, if_pos hc]
  · rename_i h1
    dsimp only at h
    split at h <;> simp at h
    rename_i hc
    subst h
    obtain ⟨g1, g2⟩ := takeWhile_append_of (p := isDigit) (t := t) (s := s) hx
    have ht : t ≠ [] := by rintro rfl; simp at hx
    obtain ⟨c, t', rfl⟩ := List.exists_cons_of_ne_nil ht
    unfold number
    split
    · rename_i heq
      simp only [List.cons_append, List.cons.injEq] at heq
      cases t' with
      | nil =>
        exfalso
        rw [heq.1] at hx
        revert hx
        decide
      | cons d t' =>
        simp only [List.cons_append, List.cons.injEq] at heq
        exact absurd (by rw [heq.1, heq.2.1]) (h1 t')
    · simp only [g1, g2]
      rw [ends_append hx, if_pos hc]

theorem step_append {t s : Text} {x : Option Token × Text} (h : step t = some x) (hx : x.2 ≠ []) :
    step (t ++ s) = some (x.1, x.2 ++ s) := by
  unfold step at h
  split at h
  · simp at h
  · rename_i t
    simp at h
    subst h
    obtain ⟨g1, g2⟩ := takeWhile_append_of (p := (· != 0x0A)) (t := t) (s := s) hx
    simp only [List.cons_append, step, g2]
  · rename_i c t h1
    have key : step (c :: t ++ s) =
        (if isBlank c then some (none, t ++ s)
        else if isLetter c then
          some (some (.word (c :: (t ++ s).takeWhile fun c => isLetter c || isDigit c)),
            (t ++ s).dropWhile fun c => isLetter c || isDigit c)
        else if isDigit c then (number (c :: (t ++ s))).map fun x => (some x.1, x.2)
        else if c = 0x27 then (quoted (t ++ s)).map fun x => (some x.1, x.2)
        else if isMark c then some (some (.mark c), t ++ s)
        else none) := by
      rw [List.cons_append]
      conv => lhs; unfold step
      split
      · rename_i heq; simp at heq
      · rename_i heq
        exfalso
        simp only [List.cons.injEq] at heq
        cases t with
        | nil =>
          obtain ⟨rfl, _⟩ := heq
          revert h
          rw [if_neg (by decide), if_neg (by decide), if_neg (by decide), if_neg (by decide),
            if_neg (by decide +kernel)]
          simp
        | cons d t =>
          simp only [List.cons_append, List.cons.injEq] at heq
          exact h1 t (by rw [heq.1]) (by rw [heq.2.1])
      · rename_i heq
        simp only [List.cons.injEq] at heq
        obtain ⟨rfl, rfl⟩ := heq
        rfl
    rw [key]
    split at h
    · rename_i a1
      simp at h; subst h; rw [if_pos a1]
    rename_i a1
    rw [if_neg a1]
    split at h
    · rename_i a2
      simp at h; subst h
      obtain ⟨g1, g2⟩ := takeWhile_append_of (p := fun c => isLetter c || isDigit c) (t := t) (s := s) hx
      rw [if_pos a2, g1, g2]
    rename_i a2
    rw [if_neg a2]
    split at h
    · rename_i a3
      cases hn : number (c :: t) with
      | none => simp [hn] at h
      | some y =>
        simp [hn] at h
        subst h
        rw [if_pos a3, ← List.cons_append, number_append hn hx]
        rfl
    rename_i a3
    rw [if_neg a3]
    split at h
    · rename_i a4
      cases hn : quoted t with
      | none => simp [hn] at h
      | some y =>
        simp [hn] at h
        subst h
        rw [if_pos a4, quoted_append hn hx]
        rfl
    rename_i a4
    rw [if_neg a4]
    split at h
    · rename_i a5
      simp at h; subst h; rw [if_pos a5]
    · simp at h

/-- The tokens of a text of which the last one is a mark or a blank. -/
def chunkAux : Nat → Text → Option (List Token)
  | _, [] => some []
  | 0, _ => none
  | fuel + 1, t =>
    match step t with
    | none => none
    | some (x, []) => if t.length = 1 ∧ (isBlank (t.headD 0) ∨ isMark (t.headD 0)) then some x.toList
        else none
    | some (x, c :: r) => (chunkAux fuel (c :: r)).map (x.toList ++ ·)

theorem step_single {c : Nat} (h : isBlank c ∨ isMark c) (rest : Text) :
    step (c :: rest) = some (if isBlank c then none else some (.mark c), rest) := by
  have hm : isMark c = true → c ∈ text! "&(),-:;<=>[]{}" := by
    intro h; simpa [isMark, List.contains_iff_mem] using h
  have hcases : isBlank c = true ∨ (isBlank c = false ∧ isLetter c = false ∧ isDigit c = false ∧
      c ≠ 0x27 ∧ isMark c = true) := by
    rcases h with h | h
    · exact .inl h
    · right
      have : ∀ c ∈ text! "&(),-:;<=>[]{}", isBlank c = false ∧ isLetter c = false ∧
          isDigit c = false ∧ c ≠ 0x27 := by decide
      obtain ⟨a, b, d, e⟩ := this c (hm h)
      exact ⟨a, b, d, e, h⟩
  have hsl : c ≠ 0x2F := by
    rintro rfl
    rcases hcases with h | ⟨_, _, _, _, h⟩
    · revert h; decide
    · revert h; decide
  unfold step
  split
  · rename_i heq; simp at heq
  · rename_i heq; simp only [List.cons.injEq] at heq; exact absurd heq.1 hsl
  · rename_i heq
    simp only [List.cons.injEq] at heq
    obtain ⟨rfl, rfl⟩ := heq
    rcases hcases with h | ⟨h1, h2, h3, h4, h5⟩
    · simp [h]
    · simp [h1, h2, h3, h4, h5]

theorem Chunk.of_aux {fuel : Nat} {t : Text} {toks : List Token}
    (h : chunkAux fuel t = some toks) : Chunk t toks := by
  induction fuel generalizing t toks with
  | zero =>
    cases t with
    | nil => simp [chunkAux] at h; subst h; exact .nil
    | cons c t => simp [chunkAux] at h
  | succ fuel ih =>
    cases t with
    | nil => simp [chunkAux] at h; subst h; exact .nil
    | cons c t =>
      rw [chunkAux] at h
      · split at h
        · simp at h
        · rename_i x hs
          split at h <;> simp at h
          subst h
          rename_i hc
          obtain ⟨hl, hc⟩ := hc
          have : t = [] := by simpa using hl
          subst this
          have h1 : step [c] = _ := step_single hc []
          rw [hs] at h1
          intro rest ts hr
          have h2 : step (c :: rest) = _ := step_single hc rest
          simp only [Option.some.injEq, Prod.mk.injEq, and_true] at h1
          rw [← h1] at h2
          cases x with
          | none => exact .skip h2 hr
          | some x => exact .tok h2 hr
        · rename_i x d r hs
          cases hr : chunkAux fuel (d :: r) with
          | none => simp [hr] at h
          | some l =>
            simp [hr] at h
            subst h
            have hch := ih hr
            intro rest ts h'
            have h2 := step_append (s := rest) hs (by simp)
            rw [List.append_assoc]
            cases x with
            | none => exact .skip h2 (hch _ _ h')
            | some x => exact .tok h2 (hch _ _ h')
      · simp

end Verif.Spec.Rust
