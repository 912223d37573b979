import Verif.Spec.MappingFile
import Verif.Model.GeneratorText
import Mathlib.Data.List.Basic

/-! # Reading a mapping file -/

namespace Verif.Generator

open Spec

theorem isSpace_iff (c : Nat) : isSpace c = true ↔ WhiteSpace c := by
  simp only [isSpace, WhiteSpace, Bool.or_eq_true, Bool.and_eq_true, decide_eq_true_eq,
    beq_iff_eq]
  simp only [or_assoc]

/-! ## Words -/

theorem split_space {s t : Text} (h : ∀ c ∈ s, WhiteSpace c) : split (s ++ t) [] = split t [] := by
  induction s with
  | nil => rfl
  | cons c s ih =>
    have hc := (isSpace_iff c).2 (h c (by simp))
    rw [List.cons_append, split, if_pos hc, if_pos rfl]
    exact ih fun d hd => h d (by simp [hd])

theorem split_word {w t : Text} (h : ∀ c ∈ w, ¬ WhiteSpace c) (cur : Text)
    (hne : cur ++ w ≠ []) (ht : ∀ c, t.head? = some c → WhiteSpace c) :
    split (w ++ t) cur = (cur ++ w) :: split t [] := by
  induction w generalizing cur with
  | nil =>
    rw [List.append_nil] at hne ⊢
    cases t with
    | nil => simp [split, hne]
    | cons c t =>
      have hc := (isSpace_iff c).2 (ht c rfl)
      rw [List.nil_append, split, if_pos hc, if_neg hne, split, if_pos hc, if_pos rfl]
  | cons c w ih =>
    have hc : isSpace c = false := by
      have := h c (by simp)
      rw [← isSpace_iff] at this
      simpa using this
    rw [List.cons_append, split, if_neg (by rw [hc]; decide),
      ih (fun d hd => h d (by simp [hd])) (cur ++ [c]) (by simp)]
    simp

theorem split_words {line : Text} {ws : List Text} (h : Words line ws) : split line [] = ws := by
  induction h with
  | nil hs =>
    have := split_space (t := []) hs
    rw [List.append_nil] at this
    rw [this]
    rfl
  | cons h1 h2 h3 h4 _ ih =>
    rw [List.append_assoc, split_space h1, split_word h3 [] (by simpa using h2) h4, ih]
    rfl

theorem split_newline (line cur : Text) : split (line ++ [10]) cur = split line cur := by
  induction line generalizing cur with
  | nil =>
    by_cases h : cur = []
    · simp [split, isSpace, h]
    · simp [split, isSpace, h]
  | cons c line ih =>
    rw [List.cons_append, split, split]
    split
    · rw [ih]
    · rw [ih]

/-! ## Numerals -/

theorem digit_of {c d : Nat} (h : IsDigit c d) : digit c = d := by
  unfold IsDigit at h
  unfold digit
  split
  · omega
  split
  · omega
  split
  · omega
  · omega

theorem digitsVal_append {base : Nat} {t : Text} {c acc n : Nat}
    (h : digitsVal base t acc = some n) (hc : digit c < base) :
    digitsVal base (t ++ [c]) acc = some (n * base + digit c) := by
  induction t generalizing acc with
  | nil =>
    simp [digitsVal] at h
    subst h
    simp [digitsVal, hc]
  | cons d t ih =>
    rw [List.cons_append]
    unfold digitsVal at h ⊢
    split at h
    · rename_i hd
      rw [if_pos hd]
      exact ih h
    · simp at h

theorem digitsVal_of {base : Nat} {t : Text} {n : Nat} (h : Digits base t n) :
    digitsVal base t 0 = some n := by
  induction h with
  | one h1 h2 =>
    have := digit_of h1
    simp [digitsVal, this, h2]
  | more _ h1 h2 ih =>
    have := digit_of h1
    rw [digitsVal_append ih (by omega), this]

theorem digits_mem {base : Nat} {t : Text} {n : Nat} (h : Digits base t n) :
    t ≠ [] ∧ ∀ c ∈ t, ∃ d < base, IsDigit c d := by
  induction h with
  | one h1 h2 => exact ⟨by simp, fun c hc => ⟨_, h2, by simp at hc; subst hc; exact h1⟩⟩
  | more _ h1 h2 ih =>
    refine ⟨by simp, fun c hc => ?_⟩
    rcases List.mem_append.1 hc with hc | hc
    · exact ih.2 c hc
    · simp at hc; subst hc; exact ⟨_, h2, h1⟩

theorem pyInt_of {base : Nat} {s t : Text} {n : Nat} (hs : dropPrefix base s = t)
    (h : Digits base t n) : pyInt base s = some n := by
  unfold pyInt
  rw [hs]
  cases t with
  | nil => exact absurd rfl (digits_mem h).1
  | cons c t => exact digitsVal_of h

theorem pyInt_hex {w : Text} {n : Nat} (h : Hex w n) : pyInt 16 w = some n := by
  rcases h with h | ⟨x, t, hx, rfl, h⟩
  · refine pyInt_of ?_ h
    unfold dropPrefix
    split
    · refine if_neg ?_
      rintro ⟨_, _, hx⟩
      obtain ⟨d, hd, hi⟩ := (digits_mem h).2 _ (List.mem_cons_of_mem _ (List.mem_cons_self ..))
      unfold IsDigit at hi
      omega
    · rfl
  · exact pyInt_of (if_pos ⟨rfl, rfl, hx⟩) h

theorem pyInt_decimal {w : Text} {n : Nat} (h : Decimal w n) : pyInt 10 w = some n := by
  refine pyInt_of ?_ h
  unfold dropPrefix
  split
  · exact if_neg (by simp)
  · rfl

theorem startsHash_iff {w : Text} : startsHash w = true ↔ Hash w := by
  simp [startsHash, Hash]

theorem digits_not_hash {base : Nat} {t : Text} {n : Nat} (h : Digits base t n) :
    startsHash t = false := by
  obtain ⟨h1, h2⟩ := digits_mem h
  cases t with
  | nil => exact absurd rfl h1
  | cons c t =>
    obtain ⟨d, _, hd⟩ := h2 c (by simp)
    unfold IsDigit at hd
    have : c ≠ 0x23 := by omega
    simp [startsHash, this]

theorem hex_not_hash {w : Text} {n : Nat} (h : Hex w n) : startsHash w = false := by
  rcases h with h | ⟨x, t, _, rfl, _⟩
  · exact digits_not_hash h
  · simp [startsHash]

/-! ## Lines -/

theorem asciiExtLine_of {line : Text} {x : Option (Nat × Nat)} (h : ByteLine line x) :
    asciiExtLine line = some x := by
  cases h with
  | short h1 h2 =>
    unfold asciiExtLine
    rw [split_words h1]
    split
    · rename_i h; simp at h2; omega
    · rfl
  | comment h1 h2 =>
    unfold asciiExtLine
    rw [split_words h1]
    simp [startsHash_iff.2 h2]
  | undefined h1 h2 h3 =>
    unfold asciiExtLine
    rw [split_words h1]
    simp [hex_not_hash h2, pyInt_hex h2, startsHash_iff.2 h3]
  | entry h1 h2 h3 =>
    unfold asciiExtLine
    rw [split_words h1]
    simp [hex_not_hash h2, pyInt_hex h2, hex_not_hash h3, pyInt_hex h3]

theorem indexLine_of {line : Text} {x : Option (Nat × Nat)} (h : IndexLine line x) :
    indexLine line = some x := by
  cases h with
  | short h1 h2 =>
    unfold indexLine
    rw [split_words h1]
    split
    · rename_i h; simp at h2; omega
    · rfl
  | comment h1 h2 =>
    unfold indexLine
    rw [split_words h1]
    simp [startsHash_iff.2 h2]
  | entry h1 h2 h3 =>
    unfold indexLine
    rw [split_words h1]
    simp [digits_not_hash h2, pyInt_decimal h2, pyInt_hex h3]

theorem asciiExtLine_newline (line : Text) : asciiExtLine (line ++ [10]) = asciiExtLine line := by
  unfold asciiExtLine
  rw [split_newline]

theorem indexLine_newline (line : Text) : indexLine (line ++ [10]) = indexLine line := by
  unfold indexLine
  rw [split_newline]

/-! ## Files -/

theorem newlines_plain {l t : Text} (h : ∀ c ∈ l, c ≠ 0x0A ∧ c ≠ 0x0D) (hl : l ≠ []) (cr : Bool) :
    newlines cr (l ++ t) = l ++ newlines false t := by
  induction l generalizing cr with
  | nil => exact absurd rfl hl
  | cons c l ih =>
    obtain ⟨h1, h2⟩ := h c (by simp)
    rw [List.cons_append, newlines, if_neg h1, if_neg h2, List.cons_append]
    congr 1
    cases l with
    | nil => rfl
    | cons d l => exact ih (fun e he => h e (by simp [he])) (by simp) false

theorem newlines_plain' {l t : Text} (h : ∀ c ∈ l, c ≠ 0x0A ∧ c ≠ 0x0D) :
    newlines false (l ++ t) = l ++ newlines false t := by
  cases l with
  | nil => rfl
  | cons c l => exact newlines_plain h (by simp) false

theorem newlines_cr {t : Text} (h : t.head? ≠ some 0x0A) : newlines true t = newlines false t := by
  cases t with
  | nil => rfl
  | cons c t =>
    have : c ≠ 10 := by simpa using h
    rw [newlines, newlines, if_neg this, if_neg this]

theorem pyLines_plain {l t : Text} (h : ∀ c ∈ l, c ≠ 0x0A ∧ c ≠ 0x0D) (cur : Text) :
    pyLines (l ++ t) cur = pyLines t (cur ++ l) := by
  induction l generalizing cur with
  | nil => simp
  | cons c l ih =>
    rw [List.cons_append, pyLines, if_neg (h c (by simp)).1, ih fun e he => h e (by simp [he])]
    simp

theorem pyLines_line {l t : Text} (h : ∀ c ∈ l, c ≠ 0x0A ∧ c ≠ 0x0D) :
    pyLines (l ++ 10 :: t) [] = (l ++ [10]) :: pyLines t [] := by
  rw [pyLines_plain h, pyLines, if_pos rfl, List.nil_append]

theorem readFile_of {Line : Text → Option (Nat × Nat) → Prop}
    {f : Text → Option (Option (Nat × Nat))} (hf : ∀ l x, Line l x → f l = some x)
    (hn : ∀ l, f (l ++ [10]) = f l) {text : Text} {file : List (Nat × Nat)}
    (h : FileText Line text file) : readFile f text = some file := by
  unfold readFile
  suffices hs : ∃ xs, (pyLines (newlines false text) []).mapM f = some xs ∧
      xs.filterMap id = file by
    obtain ⟨xs, h1, h2⟩ := hs
    rw [h1, ← h2]
    rfl
  have hline : ∀ {l t : Text} {x : Option (Nat × Nat)} {file : List (Nat × Nat)},
      (∀ c ∈ l, c ≠ 0x0A ∧ c ≠ 0x0D) → Line l x →
      (∃ xs, (pyLines t []).mapM f = some xs ∧ xs.filterMap id = file) →
      ∃ xs, (pyLines (l ++ 10 :: t) []).mapM f = some xs ∧
        xs.filterMap id = x.toList ++ file := by
    intro l t x file h1 h2 ⟨xs, h3, h4⟩
    refine ⟨x :: xs, ?_, ?_⟩
    · rw [pyLines_line h1, List.mapM_cons, hn, hf _ _ h2, h3]
      rfl
    · cases x <;> simp [← h4]
  induction h with
  | nil => exact ⟨[], rfl, rfl⟩
  | @last l x hl h1 h2 =>
    refine ⟨[x], ?_, ?_⟩
    · have e1 := newlines_plain' (t := []) h1
      have e2 := pyLines_plain (t := []) h1 []
      simp only [List.append_nil, List.nil_append] at e1 e2
      rw [e1]
      show (pyLines (l ++ []) []).mapM f = _
      rw [List.append_nil, e2]
      simp [pyLines, hl, hf _ _ h2]
    · cases x <;> rfl
  | lf h1 h2 _ ih =>
    rw [newlines_plain' h1, newlines, if_pos rfl]
    exact hline h1 h2 ih
  | crlf h1 h2 _ ih =>
    rw [newlines_plain' h1, newlines, if_neg (by decide), if_pos rfl, newlines, if_pos rfl]
    exact hline h1 h2 ih
  | cr h1 h2 h3 _ ih =>
    rw [newlines_plain' h1, newlines, if_neg (by decide), if_pos rfl, newlines_cr h3]
    exact hline h1 h2 ih

/-! ## The other direction -/

theorem Words.space {c : Nat} {t : Text} {ws : List Text} (hc : WhiteSpace c) (h : Words t ws) :
    Words (c :: t) ws := by
  cases h with
  | nil h =>
    refine .nil fun d hd => ?_
    rcases List.mem_cons.1 hd with rfl | hd
    · exact hc
    · exact h d hd
  | @cons s w t ws h1 h2 h3 h4 h5 =>
    have := Words.cons (s := c :: s) (fun d hd => by
      rcases List.mem_cons.1 hd with rfl | hd
      · exact hc
      · exact h1 d hd) h2 h3 h4 h5
    simpa using this

theorem words_split_aux (line : Text) : Words line (split line []) ∧
    ∀ cur, cur ≠ [] → ∃ w t, line = w ++ t ∧ (∀ c ∈ w, ¬ WhiteSpace c) ∧
      (∀ c, t.head? = some c → WhiteSpace c) ∧ split line cur = (cur ++ w) :: split t [] ∧
      Words t (split t []) := by
  induction line with
  | nil =>
    refine ⟨.nil (by simp), fun cur hc => ⟨[], [], rfl, by simp, by simp, ?_, .nil (by simp)⟩⟩
    simp [split, hc]
  | cons c t ih =>
    by_cases hs : isSpace c = true
    · have hw := (isSpace_iff c).1 hs
      have e : split (c :: t) [] = split t [] := by rw [split, if_pos hs, if_pos rfl]
      have h1 : Words (c :: t) (split (c :: t) []) := by rw [e]; exact Words.space hw ih.1
      refine ⟨h1, fun cur hc => ⟨[], c :: t, rfl, by simp, ?_, ?_, h1⟩⟩
      · intro d hd; cases hd; exact hw
      · rw [e, split, if_pos hs, if_neg hc, List.append_nil]
    · have hw : ¬ WhiteSpace c := by rwa [← isSpace_iff]
      have key : ∀ cur, ∃ w t', c :: t = w ++ t' ∧ w ≠ [] ∧ (∀ c ∈ w, ¬ WhiteSpace c) ∧
          (∀ c, t'.head? = some c → WhiteSpace c) ∧ split (c :: t) cur = (cur ++ w) :: split t' [] ∧
          Words t' (split t' []) := by
        intro cur
        obtain ⟨w, t', h1, h2, h3, h4, h5⟩ := ih.2 (cur ++ [c]) (by simp)
        refine ⟨c :: w, t', by rw [h1]; rfl, by simp, ?_, h3, ?_, h5⟩
        · intro d hd
          rcases List.mem_cons.1 hd with rfl | hd
          · exact hw
          · exact h2 d hd
        · rw [split, if_neg hs, h4]
          simp
      refine ⟨?_, fun cur _ => ?_⟩
      · obtain ⟨w, t', h1, h2, h3, h4, h5, h6⟩ := key []
        rw [h5, h1]
        exact Words.cons (s := []) (by simp) h2 h3 h4 h6
      · obtain ⟨w, t', h1, h2, h3, h4, h5, h6⟩ := key cur
        exact ⟨w, t', h1, h3, h4, h5, h6⟩

theorem words_split (line : Text) : Words line (split line []) := (words_split_aux line).1

theorem isDigit_digit {c : Nat} (h : digit c < 36) : IsDigit c (digit c) := by
  unfold digit at h ⊢
  unfold IsDigit
  split at h
  · rename_i h1; rw [if_pos h1]; omega
  split at h
  · rename_i h1 h2; rw [if_neg h1, if_pos h2]; omega
  split at h
  · rename_i h1 h2 h3; rw [if_neg h1, if_neg h2, if_pos h3]; omega
  · omega

theorem digits_of_val {base : Nat} (hb : base ≤ 36) {s p : Text} {acc n : Nat}
    (hp : Digits base p acc) (h : digitsVal base s acc = some n) : Digits base (p ++ s) n := by
  induction s generalizing p acc with
  | nil => simp [digitsVal] at h; subst h; simpa using hp
  | cons c s ih =>
    unfold digitsVal at h
    split at h
    · rename_i hc
      have := ih (p := p ++ [c]) (.more hp (isDigit_digit (by omega)) hc) h
      simpa using this
    · simp at h

theorem digits_of_pyInt {base : Nat} (hb : base ≤ 36) {s : Text} {n : Nat}
    (h : pyInt base s = some n) : Digits base (dropPrefix base s) n := by
  unfold pyInt at h
  split at h
  · simp at h
  · rename_i c t ht
    rw [ht]
    unfold digitsVal at h
    split at h
    · rename_i hc
      have e : 0 * base + digit c = digit c := by simp
      rw [e] at h
      exact digits_of_val hb (p := [c]) (.one (isDigit_digit (by omega)) hc) h
    · simp at h

theorem hex_iff {w : Text} {n : Nat} : pyInt 16 w = some n ↔ Hex w n := by
  refine ⟨fun h => ?_, pyInt_hex⟩
  have := digits_of_pyInt (by decide) h
  unfold dropPrefix at this
  split at this
  · split at this
    · rename_i hx
      obtain ⟨_, rfl, hx⟩ := hx
      exact .inr ⟨_, _, hx, rfl, this⟩
    · exact .inl this
  · exact .inl this

theorem decimal_iff {w : Text} {n : Nat} : pyInt 10 w = some n ↔ Decimal w n := by
  refine ⟨fun h => ?_, pyInt_decimal⟩
  have := digits_of_pyInt (by decide) h
  unfold dropPrefix at this
  split at this
  · rw [if_neg (by simp)] at this
    exact this
  · exact this

theorem byteLine_iff {line : Text} {x : Option (Nat × Nat)} :
    asciiExtLine line = some x ↔ ByteLine line x := by
  refine ⟨fun h => ?_, asciiExtLine_of⟩
  have hw := words_split line
  unfold asciiExtLine at h
  split at h
  · rename_i p0 p1 ps heq
    rw [heq] at hw
    split at h
    · rename_i h0
      simp at h
      subst h
      exact .comment hw (startsHash_iff.1 h0)
    · cases hb : pyInt 16 p0 with
      | none => simp [hb] at h
      | some b =>
        simp only [hb, Option.bind_eq_bind, Option.bind_some] at h
        split at h
        · rename_i h1
          simp at h
          subst h
          exact .undefined hw (hex_iff.1 hb) (startsHash_iff.1 h1)
        · cases hc : pyInt 16 p1 with
          | none => simp [hc] at h
          | some c =>
            simp [hc] at h
            subst h
            exact .entry hw (hex_iff.1 hb) (hex_iff.1 hc)
  · rename_i h0
    simp at h
    subst h
    refine .short hw ?_
    match hs : split line [] with
    | [] => simp
    | [_] => simp
    | p0 :: p1 :: ps => exact absurd hs (h0 p0 p1 ps)

theorem indexLine_iff {line : Text} {x : Option (Nat × Nat)} :
    indexLine line = some x ↔ IndexLine line x := by
  refine ⟨fun h => ?_, indexLine_of⟩
  have hw := words_split line
  unfold indexLine at h
  split at h
  · rename_i p0 p1 ps heq
    rw [heq] at hw
    split at h
    · rename_i h0
      simp at h
      subst h
      exact .comment hw (startsHash_iff.1 h0)
    · cases hb : pyInt 10 p0 with
      | none => simp [hb] at h
      | some b =>
        cases hc : pyInt 16 p1 with
        | none => simp [hb, hc] at h
        | some c =>
          simp [hb, hc] at h
          subst h
          exact .entry hw (decimal_iff.1 hb) (hex_iff.1 hc)
  · rename_i h0
    simp at h
    subst h
    refine .short hw ?_
    match hs : split line [] with
    | [] => simp
    | [_] => simp
    | p0 :: p1 :: ps => exact absurd hs (h0 p0 p1 ps)

theorem first_line (text : Text) : ∃ l t, text = l ++ t ∧ (∀ c ∈ l, c ≠ 0x0A ∧ c ≠ 0x0D) ∧
    (t = [] ∨ ∃ c t', t = c :: t' ∧ (c = 0x0A ∨ c = 0x0D)) := by
  induction text with
  | nil => exact ⟨[], [], rfl, by simp, .inl rfl⟩
  | cons c text ih =>
    by_cases hc : c = 0x0A ∨ c = 0x0D
    · exact ⟨[], c :: text, rfl, by simp, .inr ⟨c, text, rfl, hc⟩⟩
    · obtain ⟨l, t, rfl, h1, h2⟩ := ih
      refine ⟨c :: l, t, rfl, ?_, h2⟩
      intro d hd
      rcases List.mem_cons.1 hd with rfl | hd
      · omega
      · exact h1 d hd

theorem mapM_cons_some {α β : Type} {f : α → Option β} {a : α} {l : List α} {r : List β}
    (h : (a :: l).mapM f = some r) : ∃ b r', f a = some b ∧ l.mapM f = some r' ∧ r = b :: r' := by
  rw [List.mapM_cons] at h
  cases ha : f a with
  | none => simp [ha] at h
  | some b =>
    cases hl : l.mapM f with
    | none => simp [ha, hl] at h
    | some r' =>
      simp [ha, hl] at h
      exact ⟨b, r', rfl, rfl, h.symm⟩

theorem fileText_of {Line : Text → Option (Nat × Nat) → Prop}
    {f : Text → Option (Option (Nat × Nat))} (hf : ∀ l x, f l = some x → Line l x)
    (hn : ∀ l, f (l ++ [10]) = f l) :
    ∀ (k : Nat) (text : Text) (xs : List (Option (Nat × Nat))), text.length ≤ k →
      (pyLines (newlines false text) []).mapM f = some xs →
      FileText Line text (xs.filterMap id) := by
  intro k
  induction k with
  | zero =>
    intro text xs hk h
    have : text = [] := List.length_eq_zero_iff.1 (by omega)
    subst this
    simp [newlines, pyLines] at h
    subst h
    exact .nil
  | succ k ih =>
    intro text xs hk h
    obtain ⟨l, t, rfl, hl, ht⟩ := first_line text
    have hcons : ∀ (x : Option (Nat × Nat)) r, (x :: r).filterMap id = x.toList ++ r.filterMap id := by
      intro x r; cases x <;> simp
    rcases ht with rfl | ⟨c, t', rfl, hc⟩
    · rw [newlines_plain' hl, show newlines false [] = [] from rfl, pyLines_plain hl,
        List.nil_append] at h
      by_cases he : l = []
      · subst he
        simp [pyLines] at h
        subst h
        exact .nil
      · simp only [pyLines, if_neg he] at h
        obtain ⟨x, r, h1, h2, rfl⟩ := mapM_cons_some h
        simp at h2
        subst h2
        rw [List.append_nil, hcons]
        simp only [List.filterMap_nil, List.append_nil]
        exact .last he hl (hf _ _ h1)
    · simp only [List.length_append, List.length_cons] at hk
      rw [newlines_plain' hl] at h
      rcases hc with rfl | rfl
      · rw [newlines, if_pos rfl, if_neg (by decide), pyLines_line hl] at h
        obtain ⟨x, r, h1, h2, rfl⟩ := mapM_cons_some h
        rw [hn] at h1
        rw [hcons]
        exact .lf hl (hf _ _ h1) (ih t' r (by omega) h2)
      · rw [newlines, if_neg (by decide), if_pos rfl, pyLines_line hl] at h
        obtain ⟨x, r, h1, h2, rfl⟩ := mapM_cons_some h
        rw [hn] at h1
        rw [hcons]
        by_cases h0 : t'.head? = some 0x0A
        · cases t' with
          | nil => simp at h0
          | cons d t' =>
            have : d = 0x0A := by simpa using h0
            subst this
            rw [newlines, if_pos rfl, if_pos rfl] at h2
            simp only [List.length_cons] at hk
            exact .crlf hl (hf _ _ h1) (ih t' r (by omega) h2)
        · rw [newlines_cr h0] at h2
          exact .cr hl (hf _ _ h1) h0 (ih t' r (by omega) h2)

theorem readFile_iff {Line : Text → Option (Nat × Nat) → Prop}
    {f : Text → Option (Option (Nat × Nat))} (hf : ∀ l x, f l = some x ↔ Line l x)
    (hn : ∀ l, f (l ++ [10]) = f l) {text : Text} {file : List (Nat × Nat)} :
    readFile f text = some file ↔ FileText Line text file := by
  refine ⟨fun h => ?_, readFile_of (fun l x => (hf l x).2) hn⟩
  unfold readFile at h
  simp only [Option.map_eq_some_iff] at h
  obtain ⟨xs, h1, rfl⟩ := h
  exact fileText_of (fun l x => (hf l x).1) hn _ text xs (Nat.le_refl _) h1

theorem readFile_byte {text : Text} {file : List (Nat × Nat)} :
    readFile asciiExtLine text = some file ↔ FileText ByteLine text file :=
  readFile_iff (fun _ _ => byteLine_iff) asciiExtLine_newline

theorem readFile_index {text : Text} {file : List (Nat × Nat)} :
    readFile indexLine text = some file ↔ FileText IndexLine text file :=
  readFile_iff (fun _ _ => indexLine_iff) indexLine_newline

end Verif.Generator
