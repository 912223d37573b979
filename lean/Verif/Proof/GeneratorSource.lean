import Verif.Proof.GeneratorLex
import Verif.Proof.Utf8Base
import Mathlib.Data.List.Forall2

/-! # The printed numerals, entries and tables as tokens -/

namespace Verif.Generator

open Spec.Rust

/-! ## Numerals -/

theorem digitChar_hex {d : Nat} (h : d < 16) : isHexDigit (digitChar d) = true ∧
    digitValue (digitChar d) = d := by
  have : ∀ d < 16, isHexDigit (digitChar d) = true ∧ digitValue (digitChar d) = d := by decide
  exact this d h

theorem digitChar_dec {d : Nat} (h : d < 10) : isDigit (digitChar d) = true := by
  have : ∀ d < 10, isDigit (digitChar d) = true := by decide
  exact this d h

theorem value_append (base : Nat) (l : Text) (c : Nat) :
    value base (l ++ [c]) = value base l * base + digitValue c := by
  simp [value]

theorem digitsAux_spec {base : Nat} (h2 : 2 ≤ base) (h16 : base ≤ 16) :
    ∀ fuel n, n < fuel → value base (digitsAux base fuel n) = n ∧
      (∀ c ∈ digitsAux base fuel n, ∃ d < base, c = digitChar d) ∧
      digitsAux base fuel n ≠ [] ∧
      ∀ k, 1 ≤ k → n < base ^ k → (digitsAux base fuel n).length ≤ k := by
  intro fuel
  induction fuel with
  | zero => intro n h; omega
  | succ fuel ih =>
    intro n hn
    rw [digitsAux]
    split
    · rename_i hb
      refine ⟨?_, ?_, by simp, ?_⟩
      · simp [value, (digitChar_hex (show n < 16 by omega)).2]
      · intro c hc
        simp at hc
        exact ⟨n, hb, hc⟩
      · intro k hk _; simpa using hk
    · rename_i hb
      have hlt : n / base < fuel := by
        have : n / base < n := Nat.div_lt_self (by omega) (by omega)
        omega
      obtain ⟨i1, i2, i3, i4⟩ := ih (n / base) hlt
      have hmod : n % base < base := Nat.mod_lt _ (by omega)
      refine ⟨?_, ?_, by simp, ?_⟩
      · rw [value_append, i1, (digitChar_hex (show n % base < 16 by omega)).2]
        rw [Nat.mul_comm]
        exact Nat.div_add_mod n base
      · intro c hc
        rcases List.mem_append.1 hc with hc | hc
        · exact i2 c hc
        · simp at hc
          exact ⟨_, hmod, hc⟩
      · intro k hk hlt
        have hk2 : 2 ≤ k := by
          rcases Nat.lt_or_ge k 2 with h | h
          · have : k = 1 := by omega
            subst this
            simp at hlt
            omega
          · exact h
        have : n / base < base ^ (k - 1) := by
          rw [Nat.div_lt_iff_lt_mul (by omega), ← Nat.pow_succ]
          have : k - 1 + 1 = k := by omega
          rwa [Nat.succ_eq_add_one, this]
        have := i4 (k - 1) (by omega) this
        simp
        omega

theorem digits_spec {base : Nat} (h2 : 2 ≤ base) (h16 : base ≤ 16) (n : Nat) :
    value base (digits base n) = n ∧ (∀ c ∈ digits base n, ∃ d < base, c = digitChar d) ∧
      digits base n ≠ [] ∧ ∀ k, 1 ≤ k → n < base ^ k → (digits base n).length ≤ k :=
  digitsAux_spec h2 h16 (n + 1) n (by omega)

theorem value_zeros (base k : Nat) (l : Text) : value base (List.replicate k 0x30 ++ l) = value base l := by
  induction k with
  | zero => rfl
  | succ k ih =>
    rw [List.replicate_succ, List.cons_append]
    show List.foldl _ (0 * base + digitValue 0x30) _ = _
    have : 0 * base + digitValue 0x30 = 0 := by simp [digitValue]
    rw [this]
    exact ih

/-- A printed hexadecimal numeral. -/
structure HexNumeral (ds : Text) (n : Nat) : Prop where
  value : value 16 ds = n
  hex : ∀ c ∈ ds, isHexDigit c = true
  ne : ds ≠ []

theorem hexNumeral_digits (n : Nat) : HexNumeral (digits 16 n) n := by
  obtain ⟨h1, h2, h3, _⟩ := digits_spec (base := 16) (by decide) (by decide) n
  refine ⟨h1, fun c hc => ?_, h3⟩
  obtain ⟨d, hd, rfl⟩ := h2 c hc
  exact (digitChar_hex hd).1

theorem hexNumeral_padded (w n : Nat) : HexNumeral (padded w n) n := by
  have h := hexNumeral_digits n
  refine ⟨by rw [padded, value_zeros]; exact h.value, fun c hc => ?_, ?_⟩
  · rw [padded] at hc
    rcases List.mem_append.1 hc with hc | hc
    · have := (List.mem_replicate.1 hc).2
      subst this
      decide
    · exact h.hex c hc
  · rw [padded]
    exact fun e => h.ne (List.append_eq_nil_iff.1 e).2

theorem digits_length {n : Nat} (h : n < 0x110000) : (digits 16 n).length ≤ 6 :=
  (digits_spec (base := 16) (by decide) (by decide) n).2.2.2 6 (by decide) (by omega)

theorem padded_length {w n : Nat} (hw : w ≤ 6) (h : n < 0x110000) : (padded w n).length ≤ 6 := by
  have := digits_length h
  simp only [padded, List.length_append, List.length_replicate]
  omega

/-! ## Literals -/

theorem while_all {p : Nat → Bool} {ds t : Text} (h : ∀ c ∈ ds, p c = true)
    (ht : ∀ c, t.head? = some c → p c = false) :
    (ds ++ t).takeWhile p = ds ∧ (ds ++ t).dropWhile p = t := by
  have h0 : t.takeWhile p = [] ∧ t.dropWhile p = t := by
    cases t with
    | nil => simp
    | cons c t => simp [ht c rfl]
  rw [List.takeWhile_append_of_pos h, List.dropWhile_append_of_pos h, h0.1, h0.2]
  simp

/-- A `'\u{…}'` literal. -/
theorem lex_char {ds : Text} {n : Nat} (h : HexNumeral ds n) (hl : ds.length ≤ 6)
    (hs : isScalar n = true) {rest : Text} {ts : List Token} (hr : Lex rest ts) :
    Lex (text! r"'\u{" ++ ds ++ text! "}'" ++ rest) (.char n :: ts) := by
  refine .tok ?_ hr
  have e1 : text! r"'\u{" = [0x27, 0x5C, 0x75, 0x7B] := by decide
  have e2 : text! "}'" = [0x7D, 0x27] := by decide
  obtain ⟨w1, w2⟩ := while_all (p := isHexDigit) (ds := ds) (t := 0x7D :: 0x27 :: rest) h.hex
    (by intro c hc; cases hc; decide)
  rw [e1, e2]
  have : [0x27, 0x5C, 0x75, 0x7B] ++ ds ++ [0x7D, 0x27] ++ rest =
    0x27 :: 0x5C :: 0x75 :: 0x7B :: (ds ++ 0x7D :: 0x27 :: rest) := by simp
  rw [this]
  have hq : quoted (0x5C :: 0x75 :: 0x7B :: (ds ++ 0x7D :: 0x27 :: rest)) = some (.char n, rest) := by
    simp only [quoted, w1, w2, h.value]
    rw [if_pos ⟨List.length_pos_iff.2 h.ne, hl, hs⟩]
  rw [step_cons _ (by decide), if_neg (by decide), if_neg (by decide), if_neg (by decide), if_pos rfl, hq]
  rfl

/-- A `0x…` literal. -/
theorem lex_hex {ds : Text} {n : Nat} (h : HexNumeral ds n) {c : Nat} {rest : Text}
    {ts : List Token} (hc : isMark c = true) (hr : Lex (c :: rest) ts) :
    Lex (text! "0x" ++ ds ++ c :: rest) (.int n :: ts) := by
  refine .tok ?_ hr
  have e1 : text! "0x" = [0x30, 0x78] := by decide
  have hm : ∀ c ∈ text! "&(),-:;<=>[]{}", isHexDigit c = false ∧
    (!(isLetter c || isDigit c)) = true := by decide
  obtain ⟨m1, m2⟩ := hm c (by simpa [isMark, List.contains_iff_mem] using hc)
  obtain ⟨w1, w2⟩ := while_all (p := isHexDigit) (ds := ds) (t := c :: rest) h.hex
    (by intro d hd; cases hd; exact m1)
  rw [e1]
  have : [0x30, 0x78] ++ ds ++ c :: rest = 0x30 :: 0x78 :: (ds ++ c :: rest) := by simp
  rw [this]
  have hq : number (0x30 :: 0x78 :: (ds ++ c :: rest)) = some (.int n, c :: rest) := by
    simp only [number, w1, w2, h.value]
    rw [if_pos ⟨h.ne, m2⟩]
  rw [step_cons _ (by decide), if_neg (by decide), if_neg (by decide), if_pos (by decide), hq]
  rfl

theorem number_dec {ds : Text} (h : ∀ c ∈ ds, isDigit c = true) (hn : ds ≠ []) {c : Nat}
    {rest : Text} (hc : isDigit c = false) (hx : c ≠ 0x78) (he : (!(isLetter c || isDigit c)) = true) :
    number (ds ++ c :: rest) = some (.int (value 10 ds), c :: rest) := by
  obtain ⟨w1, w2⟩ := while_all (p := isDigit) (ds := ds) (t := c :: rest) h
    (by intro d hd; cases hd; exact hc)
  unfold number
  split
  · rename_i heq
    exfalso
    match ds, hn with
    | [a], _ =>
      simp only [List.cons_append, List.nil_append, List.cons.injEq] at heq
      exact hx heq.2.1
    | a :: b :: ds, _ =>
      simp only [List.cons_append, List.cons.injEq] at heq
      have := h b (by simp)
      rw [heq.2.1] at this
      revert this
      decide
  · simp only [w1, w2]
    exact if_pos he

/-- A decimal literal. -/
theorem lex_dec (n : Nat) {c : Nat} {rest : Text} {ts : List Token} (hc : isMark c = true)
    (hr : Lex (c :: rest) ts) : Lex (digits 10 n ++ c :: rest) (.int n :: ts) := by
  obtain ⟨h1, h2, h3, _⟩ := digits_spec (base := 10) (by decide) (by decide) n
  have hd : ∀ c ∈ digits 10 n, isDigit c = true := by
    intro c hc
    obtain ⟨d, hd, rfl⟩ := h2 c hc
    exact digitChar_dec hd
  have hm : ∀ c ∈ text! "&(),-:;<=>[]{}", isDigit c = false ∧ c ≠ 0x78 ∧
    (!(isLetter c || isDigit c)) = true := by decide
  obtain ⟨m1, m2, m3⟩ := hm c (by simpa [isMark, List.contains_iff_mem] using hc)
  have hq := number_dec hd h3 (rest := rest) m1 m2 m3
  rw [h1] at hq
  generalize digits 10 n = ds at *
  cases ds with
  | nil => exact absurd rfl h3
  | cons a ds =>
    have ha := hd a (by simp)
    have hb : isBlank a = false ∧ isLetter a = false ∧ a ≠ 0x2F := by
      simp [isDigit, isBlank, isLetter] at ha ⊢
      omega
    refine .tok ?_ hr
    rw [List.cons_append] at hq ⊢
    rw [step_cons _ hb.2.2, if_neg (by rw [hb.1]; decide), if_neg (by rw [hb.2.1]; decide),
      if_pos ha, hq]
    rfl

theorem lex_mark {c : Nat} (h : isMark c = true) {rest : Text} {ts : List Token}
    (hr : Lex rest ts) : Lex (c :: rest) (.mark c :: ts) := by
  refine .tok ?_ hr
  rw [step_single (.inr h), if_neg]
  have hm : ∀ c ∈ text! "&(),-:;<=>[]{}", ¬ isBlank c = true := by decide
  exact hm c (by simpa [isMark, List.contains_iff_mem] using h)

theorem lex_space {rest : Text} {ts : List Token} (hr : Lex rest ts) : Lex (0x20 :: rest) ts :=
  .skip (by rw [step_single (.inl (by decide)), if_pos (by decide)]) hr

/-! ## Entries -/

/-- The value of a decode table entry. -/
def entryValue : Option Nat → Nat
  | none => 0xFFFD
  | some c => c

theorem chunk_dec {c : Option Nat} (h : isScalar (entryValue c) = true) :
    Chunk (decEntry c) [.char (entryValue c), .mark 0x2C] := by
  cases c with
  | none => exact Chunk.of_aux (fuel := 10) (by decide +kernel)
  | some c =>
    intro rest ts hr
    replace h : isScalar c = true := h
    have hl := padded_length (w := 4) (n := c) (by decide) (by simp [isScalar] at h; omega)
    have := lex_char (hexNumeral_padded 4 c) hl h (lex_mark (c := 0x2C) (by decide) hr)
    have e : text! "}'," = text! "}'" ++ [0x2C] := by decide
    rw [decEntry, e]
    simpa [entryValue] using this

theorem chunk_enc {x : Nat × Nat} (h : isScalar x.1 = true) :
    Chunk (encEntry x) [.mark 0x28, .char x.1, .mark 0x2C, .int x.2, .mark 0x29, .mark 0x2C] := by
  intro rest ts hr
  have hl := padded_length (w := 4) (n := x.1) (by decide) (by simp [isScalar] at h; omega)
  have h1 := lex_hex (hexNumeral_padded 2 x.2) (c := 0x29) (by decide)
    (lex_mark (c := 0x29) (by decide) (lex_mark (c := 0x2C) (by decide) (lex_space hr)))
  have h2 := lex_mark (c := 0x28) (by decide)
    (lex_char (hexNumeral_padded 4 x.1) hl h (lex_mark (c := 0x2C) (by decide) (lex_space h1)))
  have e1 : text! r"('\u{" = 0x28 :: text! r"'\u{" := by decide
  have e2 : text! "}', 0x" = text! "}'" ++ 0x2C :: 0x20 :: text! "0x" := by decide
  have e3 : text! "), " = [0x29, 0x2C, 0x20] := by decide
  rw [encEntry, e1, e2, e3]
  simpa using h2

theorem chunk_enc2 {x : Nat × Nat × Nat} (h : isScalar x.1 = true) :
    Chunk (encEntry2 x) [.mark 0x28, .char x.1, .mark 0x2C, .mark 0x5B, .int x.2.1, .mark 0x2C,
      .int x.2.2, .mark 0x5D, .mark 0x29, .mark 0x2C] := by
  intro rest ts hr
  have hl := digits_length (n := x.1) (by simp [isScalar] at h; omega)
  have h1 := lex_hex (hexNumeral_digits x.2.2) (c := 0x5D) (by decide)
    (lex_mark (c := 0x5D) (by decide) (lex_mark (c := 0x29) (by decide)
      (lex_mark (c := 0x2C) (by decide) (lex_space hr))))
  have h1 := lex_hex (hexNumeral_digits x.2.1) (c := 0x2C) (by decide)
    (lex_mark (c := 0x2C) (by decide) (lex_space h1))
  have h2 := lex_mark (c := 0x28) (by decide)
    (lex_char (hexNumeral_digits x.1) hl h (lex_mark (c := 0x2C) (by decide) (lex_space
      (lex_mark (c := 0x5B) (by decide) h1))))
  have e1 : text! r"('\u{" = 0x28 :: text! r"'\u{" := by decide
  have e2 : text! "}', [0x" = text! "}'" ++ 0x2C :: 0x20 :: 0x5B :: text! "0x" := by decide
  have e3 : text! "]), " = [0x5D, 0x29, 0x2C, 0x20] := by decide
  have e4 : text! ", 0x" = 0x2C :: 0x20 :: text! "0x" := by decide
  rw [encEntry2, e1, e2, e3, e4]
  simpa using h2

/-! ## Tables -/

theorem chunk_entries {α : Type} {f : α → Text} {g : α → List Token} (w : Nat) :
    ∀ (l : List α) (i : Nat), (∀ x ∈ l, Chunk (f x) (g x)) →
      Chunk (entries f w i l) (l.flatMap g) := by
  intro l
  induction l with
  | nil => intro _ _; exact .nil
  | cons x l ih =>
    intro i h
    have hsp : Chunk (if i % w = 0 then text! "\n    " else []) [] := by
      split
      · exact Chunk.of_aux (fuel := 10) (by decide +kernel)
      · exact .nil
    have := (hsp.append (h x (by simp))).append (ih (i + 1) fun y hy => h y (by simp [hy]))
    simpa [entries] using this

theorem chunk_dec_len {a : Text} {ta : List Token} (ha : Chunk a ta) (n : Nat) {c : Nat} {b : Text}
    {tb : List Token} (hc : isMark c = true) (hb : Chunk (c :: b) tb) :
    Chunk (a ++ digits 10 n ++ c :: b) (ta ++ .int n :: tb) := by
  intro rest ts hr
  have h1 := hb _ _ hr
  rw [List.cons_append] at h1
  have := ha _ _ (lex_dec n hc h1)
  simpa using this

theorem isScalar_iff {n : Nat} : isScalar n = true ↔ n.isValidChar := by
  simp only [isScalar, Nat.isValidChar, Bool.or_eq_true, decide_eq_true_eq, Bool.and_eq_true]

theorem decLiteral_some {c : Option Nat} {d : Char} (h : decLiteral c = some d) :
    isScalar (entryValue c) = true ∧ d.toNat = entryValue c := by
  cases c with
  | none => simp [decLiteral] at h; subst h; decide
  | some c =>
    simp only [decLiteral, fromU32] at h
    split at h
    · rename_i hv
      simp at h
      subst h
      exact ⟨isScalar_iff.2 hv, toNat_ofNat hv⟩
    · simp at h

theorem u8Literal_some {n : Nat} {b : UInt8} (h : u8Literal n = some b) : b.toNat = n := by
  simp only [u8Literal] at h
  split at h
  · simp at h; subst h; exact u8_toNat (by assumption)
  · simp at h

theorem mapM_some {α β : Type} {f : α → Option β} {l : List α} {r : List β}
    (h : l.mapM f = some r) : List.Forall₂ (fun a b => f a = some b) l r := by
  induction l generalizing r with
  | nil => simp at h; subst h; exact .nil
  | cons a l ih =>
    rw [List.mapM_cons] at h
    cases ha : f a with
    | none => simp [ha] at h
    | some b =>
      cases hl : l.mapM f with
      | none => simp [ha, hl] at h
      | some l' =>
        simp [ha, hl] at h
        subst h
        exact .cons ha (ih hl)

theorem chunk_table {α β : Type} {f : α → Text} {item : β → List Token} {lit : α → Option β}
    (w : Nat) (hf : ∀ a b, lit a = some b → Chunk (f a) (item b ++ [.mark 0x2C])) :
    ∀ (l : List α) (r : List β) (i : Nat), List.Forall₂ (fun a b => lit a = some b) l r →
      Chunk (entries f w i l) ((r.map item).flatMap (· ++ [.mark 0x2C])) := by
  intro l
  induction l with
  | nil => intro r _ h; cases h; exact .nil
  | cons x l ih =>
    intro r i h
    cases h with
    | cons h1 h2 =>
      have hsp : Chunk (if i % w = 0 then text! "\n    " else []) [] := by
        split
        · exact Chunk.of_aux (fuel := 10) (by decide +kernel)
        · exact .nil
      have := (hsp.append (hf _ _ h1)).append (ih _ (i + 1) h2)
      simpa [entries] using this

theorem chunk_decTable {dec : List (Option Nat)} {D : List Char} (h : decConst dec = some D)
    (w : Nat) : Chunk (entries decEntry w 0 dec) ((D.map charItem).flatMap (· ++ [.mark 0x2C])) := by
  refine chunk_table w ?_ _ _ 0 (mapM_some h)
  intro a b hab
  obtain ⟨h1, h2⟩ := decLiteral_some hab
  rw [charItem, h2]
  exact chunk_dec h1

theorem fromU32_some {n : Nat} {c : Char} (h : fromU32 n = some c) :
    isScalar n = true ∧ c.toNat = n := decLiteral_some (c := some n) h

theorem chunk_encTable {enc : List (Nat × Nat)} {E : List (Char × UInt8)}
    (h : encConst enc = some E) (w : Nat) :
    Chunk (entries encEntry w 0 enc) ((E.map pairItem).flatMap (· ++ [.mark 0x2C])) := by
  refine chunk_table w ?_ _ _ 0 (mapM_some h)
  intro a b hab
  simp only [encLiteral, Option.bind_eq_bind, Option.bind_eq_some_iff, Option.some.injEq] at hab
  obtain ⟨c, hc, b, hb, rfl⟩ := hab
  obtain ⟨h1, h2⟩ := fromU32_some hc
  have h3 := u8Literal_some hb
  simp only [pairItem, h2, h3]
  exact chunk_enc h1

theorem chunk_encTable2 {enc : List (Nat × Nat × Nat)} {E : List (Char × UInt8 × UInt8)}
    (h : enc.mapM encLiteral2 = some E) (w : Nat) :
    Chunk (entries encEntry2 w 0 enc) ((E.map pairItem2).flatMap (· ++ [.mark 0x2C])) := by
  refine chunk_table w ?_ _ _ 0 (mapM_some h)
  intro a b hab
  simp only [encLiteral2, Option.bind_eq_bind, Option.bind_eq_some_iff, Option.some.injEq] at hab
  obtain ⟨c, hc, b, hb, b', hb', rfl⟩ := hab
  obtain ⟨h1, h2⟩ := fromU32_some hc
  have h3 := u8Literal_some hb
  have h4 := u8Literal_some hb'
  simp only [pairItem2, h2, h3, h4]
  exact chunk_enc2 h1

theorem chunk_lit {t : Text} {toks : List Token} (fuel : Nat) (h : chunkAux fuel t = some toks) :
    Chunk t toks := Chunk.of_aux h

/-- The source of a single-byte module has the tokens of a module with these tables. -/
theorem tokens_asciiExt {dec : List (Option Nat)} {enc : List (Nat × Nat)} {D : List Char}
    {E : List (Char × UInt8)} (hd : decConst dec = some D) (he : encConst enc = some E)
    (hl : dec.length = 128) :
    ∃ toks, tokens (asciiExtSource dec enc) = some toks ∧ IsSingleByteModule D E toks := by
  obtain ⟨f, hf, hh⟩ : ∃ f, tokens functions = some f ∧ Chunk asciiExtHeader f := by
    have h1 : (tokens functions).isSome = true := by decide +kernel
    have h2 : chunkAux 1000 asciiExtHeader = tokens functions := by decide +kernel
    obtain ⟨f, hf⟩ := Option.isSome_iff_exists.1 h1
    exact ⟨f, hf, Chunk.of_aux (h2.trans hf)⟩
  have hlen : E.length = enc.length := (mapM_some he).length_eq.symm
  have hlen' : D.length = 128 := hl ▸ (mapM_some hd).length_eq.symm
  have c1 : Chunk (text! "const DECODE_TABLE: [char; 128] = [")
      ([.word (text! "const"), .word (text! "DECODE_TABLE"), .mark 0x3A, .mark 0x5B] ++ charType ++
        [.mark 0x3B, .int 128, .mark 0x5D, .mark 0x3D, .mark 0x5B]) :=
    chunk_lit 100 (by decide +kernel)
  have c2 : Chunk (text! "\n];\n\n") [.mark 0x5D, .mark 0x3B] := chunk_lit 100 (by decide +kernel)
  have c3 : Chunk (text! "const ENCODE_TABLE: [(char, u8); ")
      ([.word (text! "const"), .word (text! "ENCODE_TABLE"), .mark 0x3A, .mark 0x5B] ++ pairType ++
        [.mark 0x3B]) := chunk_lit 100 (by decide +kernel)
  have c4 : Chunk (text! "] = [") [.mark 0x5D, .mark 0x3D, .mark 0x5B] :=
    chunk_lit 100 (by decide +kernel)
  have e4 : text! "] = [" = 0x5D :: text! " = [" := by decide
  have c5 : Chunk (text! "\n];\n") [.mark 0x5D, .mark 0x3B] := chunk_lit 100 (by decide +kernel)
  have c34 := chunk_dec_len c3 enc.length (c := 0x5D) (by decide) (e4 ▸ c4)
  rw [← e4] at c34
  have := ((((hh.append c1).append (chunk_decTable hd 8)).append c2).append
    (c34.append ((chunk_encTable he 4).append c5)))
  refine ⟨_, ?_, hlen', f, hf, rfl⟩
  have ht := this.tokens
  rw [asciiExtSource]
  simp only [List.append_assoc] at ht ⊢
  rw [ht]
  simp [const, hlen]

/-- The source of the two-byte tables has the tokens of the two constants. -/
theorem tokens_wide {t : List (Option Nat) × List (Nat × Nat × Nat)} {D : List Char}
    {E : List (Char × UInt8 × UInt8)} (h : wideConsts t = some (D, E)) :
    tokens (wideSource t) = some (wideModule D E) := by
  simp only [wideConsts, Option.bind_eq_bind, Option.bind_eq_some_iff, Option.some.injEq,
    Prod.mk.injEq] at h
  obtain ⟨_, hd, _, he, rfl, rfl⟩ := h
  have hlen := (mapM_some he).length_eq.symm
  have hlen' := (mapM_some hd).length_eq.symm
  have c0 : Chunk
      (text! "// This file is auto-generated.  Please see `encoding_tables/whatwg/`\n" ++
       text! "// from the root directory for the files that generate this.\n" ++
       text! "\n" ++ text! "const DECODE_TABLE: [char; ")
      ([.word (text! "const"), .word (text! "DECODE_TABLE"), .mark 0x3A, .mark 0x5B] ++ charType ++
        [.mark 0x3B]) := chunk_lit 1000 (by decide +kernel)
  have c2 : Chunk (text! "\n];\n\n") [.mark 0x5D, .mark 0x3B] := chunk_lit 100 (by decide +kernel)
  have c3 : Chunk (text! "const ENCODE_TABLE: [(char, [u8; 2]); ")
      ([.word (text! "const"), .word (text! "ENCODE_TABLE"), .mark 0x3A, .mark 0x5B] ++ pairType2 ++
        [.mark 0x3B]) := chunk_lit 100 (by decide +kernel)
  have c4 : Chunk (text! "] = [") [.mark 0x5D, .mark 0x3D, .mark 0x5B] :=
    chunk_lit 100 (by decide +kernel)
  have e4 : text! "] = [" = 0x5D :: text! " = [" := by decide
  have c5 : Chunk (text! "\n];\n") [.mark 0x5D, .mark 0x3B] := chunk_lit 100 (by decide +kernel)
  have c04 := chunk_dec_len c0 t.1.length (c := 0x5D) (by decide) (e4 ▸ c4)
  have c34 := chunk_dec_len c3 t.2.length (c := 0x5D) (by decide) (e4 ▸ c4)
  rw [← e4] at c04 c34
  have := ((c04.append (chunk_decTable hd 8)).append c2).append
    (c34.append ((chunk_encTable2 he 3).append c5))
  have ht := this.tokens
  rw [wideSource]
  simp only [List.append_assoc] at ht ⊢
  rw [ht]
  simp [wideModule, const, hlen, hlen']

end Verif.Generator
