import Verif.Props.Shape
import Verif.Props.Tests
import Verif.Props.Whatwg
import Verif.Spec.StandAlone

/-!
# C63 to C65: bytes that are never part of a longer code, and working line by line
-/

namespace Verif.Props

open SingleByte (isSingle)

theorem standAlone_le (e : Encoding) : Spec.standAlone e ≤ 0x80 := by cases e <;> decide

theorem standAlone_single {e : Encoding} (h : isSingle e = true) : Spec.standAlone e = 0x80 := by
  cases e <;> first | rfl | exact absurd h (by decide)

theorem standAlone_ascii {e : Encoding} {n : Nat} (h : n < Spec.standAlone e) :
    asciiCompatible e := by
  cases e <;> first
    | exact absurd h (Nat.not_lt_zero _)
    | (unfold asciiCompatible; decide)

/-- UTF-8: a byte below 0x80 is a char, and the codes of other chars have none. -/
theorem utf8_alone (c : Char) : (c.toNat < 0x80 ∧ String.utf8EncodeChar c = [UInt8.ofNat c.toNat]) ∨
    (0x80 ≤ c.toNat ∧ ∀ b ∈ String.utf8EncodeChar c, 0x80 ≤ b.toNat) := by
  rw [utf8_char]
  by_cases h : c.toNat ≤ 0x7F
  · exact .inl ⟨by omega, if_pos h⟩
  · refine .inr ⟨by omega, ?_⟩
    rw [if_neg h]
    split
    · intro b hb
      simp only [List.mem_cons, List.not_mem_nil, or_false] at hb
      rcases hb with rfl | rfl <;> rw [u8_toNat (by omega)] <;> omega
    · split
      · intro b hb
        simp only [List.mem_cons, List.not_mem_nil, or_false] at hb
        rcases hb with rfl | rfl | rfl <;> rw [u8_toNat (by omega)] <;> omega
      · intro b hb
        simp only [List.mem_cons, List.not_mem_nil, or_false] at hb
        rcases hb with rfl | rfl | rfl | rfl <;> rw [u8_toNat (by omega)] <;> omega

theorem pub_alone {e : Encoding} (hs : isSingle e = true) {b c : Nat}
    (h : (b, c) ∈ Spec.published e) : (b < 0x80 ∧ c = b) ∨ (0x80 ≤ b ∧ 0x80 ≤ c ∧ c ≠ 0xFFFD) := by
  have T := SingleByte.tabOk e hs
  rcases T.pub _ h with h1 | ⟨h1, h2, h3, h4⟩
  · exact .inl h1
  · refine .inr ⟨h1, ?_, h3⟩
    simp only at h1 h2 h4
    have hlt : b - 128 < (SingleByte.decTab e).length := by rw [T.len]; omega
    rw [List.getD_eq_getElem?_getD, List.getElem?_eq_getElem hlt, Option.getD_some] at h4
    have := T.valid c (h4 ▸ List.getElem_mem hlt)
    omega

theorem jis_ptr_lt {p c : Nat} (h : Spec.JisIndex p c) : p < 11280 := by
  have h1 := (ShiftJis.index_iff p c).1 h
  apply Nat.lt_of_not_le
  intro hp
  apply h1.2
  rw [← h1.1]
  have hl : Tables.ShiftJis.decRows.length ≤ p / 188 := by
    have : Tables.ShiftJis.decRows.length ≤ 60 := by decide +kernel
    omega
  have hz : Tables.ShiftJis.decRows.getD (p / 188) [] = [] := by
    rw [List.getD_eq_getElem?_getD, List.getElem?_eq_none hl]
    rfl
  rw [look, hz]
  rfl

/-- A code is a byte below the bound that stands for itself, or has nothing below the bound in its
bytes nor in its text. -/
theorem codeSeq_alone (e : Encoding) {u : Bytes} {t : Str} (h : Spec.CodeSeq e u t) :
    (∃ b, b.toNat < Spec.standAlone e ∧ u = [b] ∧ t = [Char.ofNat b.toNat]) ∨
    ((∀ b ∈ u, Spec.standAlone e ≤ b.toNat) ∧ ∀ c ∈ t, Spec.standAlone e ≤ c.toNat) := by
  revert h
  refine encoding_cases (M := fun e => Spec.CodeSeq e u t →
    (∃ b, b.toNat < Spec.standAlone e ∧ u = [b] ∧ t = [Char.ofNat b.toNat]) ∨
    ((∀ b ∈ u, Spec.standAlone e ≤ b.toNat) ∧ ∀ c ∈ t, Spec.standAlone e ≤ c.toNat))
    ?_ ?_ ?_ ?_ ?_ ?_ ?_ ?_ e
  · intro e hs h
    rw [single_codeSeq e hs] at h
    obtain ⟨b, c, rfl, rfl, hp⟩ := h
    rw [standAlone_single hs]
    rcases pub_alone hs hp with ⟨h1, h2⟩ | ⟨h1, h2, _⟩
    · exact .inl ⟨b, h1, rfl, by rw [← h2, Char.ofNat_toNat]⟩
    · exact .inr ⟨by simpa using h1, by simpa using h2⟩
  · rintro ⟨c, rfl, rfl⟩
    rcases utf8_alone c with ⟨h1, h2⟩ | ⟨h1, h2⟩
    · refine .inl ⟨UInt8.ofNat c.toNat, ?_, h2, ?_⟩
      · rw [u8_toNat (by omega)]; exact h1
      · rw [u8_toNat (by omega), Char.ofNat_toNat]
    · exact .inr ⟨h2, fun d hd => by rw [List.mem_singleton.1 hd]; exact h1⟩
  · exact fun _ => .inr ⟨fun _ _ => Nat.zero_le _, fun _ _ => Nat.zero_le _⟩
  · exact fun _ => .inr ⟨fun _ _ => Nat.zero_le _, fun _ _ => Nat.zero_le _⟩
  · exact fun _ => .inr ⟨fun _ _ => Nat.zero_le _, fun _ _ => Nat.zero_le _⟩
  · exact fun _ => .inr ⟨fun _ _ => Nat.zero_le _, fun _ _ => Nat.zero_le _⟩
  · show Spec.Big5Code u t → _
    rw [show Spec.standAlone .Big5WHATWG = 0x40 from rfl]
    rintro (⟨b, c, rfl, rfl, h1, h2⟩ | ⟨l, tr, rfl, h1, _, h2, h3⟩)
    · by_cases hb : b.toNat < 0x40
      · exact .inl ⟨b, hb, rfl, by rw [← h2, Char.ofNat_toNat]⟩
      · refine .inr ⟨?_, ?_⟩
        · simp only [List.mem_singleton, forall_eq]; omega
        · simp only [List.mem_singleton, forall_eq]; omega
    · refine .inr ⟨?_, ?_⟩
      · intro b hb
        simp only [List.mem_cons, List.not_mem_nil, or_false] at hb
        rcases hb with rfl | rfl <;> omega
      · rcases h3 with ⟨x, y, hm, rfl⟩ | ⟨c, hi, rfl⟩
        · generalize (l.toNat - 0x81) * 157 + _ = p at hm
          simp only [Spec.big5Pairs, List.mem_cons, Prod.mk.injEq, List.not_mem_nil, or_false] at hm
          rcases hm with ⟨_, rfl, rfl⟩ | ⟨_, rfl, rfl⟩ | ⟨_, rfl, rfl⟩ | ⟨_, rfl, rfl⟩ <;> decide
        · have := Big5.index_code hi
          simp only [List.mem_singleton, forall_eq]
          omega
  · show Spec.JisCode u t → _
    rw [show Spec.standAlone .ShiftJISWHATWG = 0x40 from rfl]
    rintro (⟨b, c, rfl, rfl, h1, h2⟩ | ⟨b, c, rfl, rfl, h1, h2, h3⟩ | ⟨l, tr, c, rfl, rfl, h1, h2, h3⟩)
    · by_cases hb : b.toNat < 0x40
      · exact .inl ⟨b, hb, rfl, by rw [← h2, Char.ofNat_toNat]⟩
      · refine .inr ⟨?_, ?_⟩
        · simp only [List.mem_singleton, forall_eq]; omega
        · simp only [List.mem_singleton, forall_eq]; omega
    · refine .inr ⟨?_, ?_⟩
      · simp only [List.mem_singleton, forall_eq]; omega
      · simp only [List.mem_singleton, forall_eq]; omega
    · refine .inr ⟨?_, ?_⟩
      · intro b hb
        simp only [List.mem_cons, List.not_mem_nil, or_false] at hb
        rcases hb with rfl | rfl <;> omega
      · simp only [List.mem_singleton, forall_eq]
        generalize (l.toNat - _) * 188 + _ = p at h3
        unfold Spec.JisPointer at h3
        split at h3
        · omega
        · have := ShiftJis.index_code h3
          omega

/-- The code of a char below the bound is the char; other codes have no byte below it. -/
theorem charCode_alone (e : Encoding) {c : Char} {u : Bytes} (h : Spec.CharCode e c u) :
    (c.toNat < Spec.standAlone e ∧ u = [UInt8.ofNat c.toNat]) ∨
    (Spec.standAlone e ≤ c.toNat ∧ ∀ b ∈ u, Spec.standAlone e ≤ b.toNat) := by
  by_cases h1 : e = .ShiftJISWHATWG
  · subst h1
    rw [show Spec.standAlone .ShiftJISWHATWG = 0x40 from rfl]
    have h : Spec.JisCharCode c u := h
    unfold Spec.JisCharCode at h
    have two : ∀ p, p < 11280 → ∀ b ∈ Spec.jisBytes p, 0x40 ≤ b.toNat := by
      intro p hp b hb
      simp only [Spec.jisBytes, List.mem_cons, List.not_mem_nil, or_false] at hb
      rcases hb with rfl | rfl
      · split <;> (rw [u8_toNat (by omega)]; omega)
      · split <;> (rw [u8_toNat (by omega)]; omega)
    split at h
    · subst h
      by_cases hc : c.toNat < 0x40
      · exact .inl ⟨hc, rfl⟩
      · refine .inr ⟨by omega, ?_⟩
        simp only [List.mem_singleton, forall_eq]
        rw [u8_toNat (by omega)]
        omega
    · refine .inr ⟨by omega, ?_⟩
      split at h
      · subst h; decide
      · split at h
        · subst h; decide
        · split at h
          · subst h
            simp only [List.mem_singleton, forall_eq]
            rw [u8_toNat (by omega)]
            omega
          · split at h
            · subst h
              exact two _ (by omega)
            · obtain ⟨p, ⟨hp, _⟩, rfl⟩ := h
              exact two _ (jis_ptr_lt hp)
  · by_cases h2 : e = .Big5WHATWG
    · subst h2
      rw [show Spec.standAlone .Big5WHATWG = 0x40 from rfl]
      have h : Spec.Big5CharCode c u := h
      unfold Spec.Big5CharCode at h
      split at h
      · subst h
        by_cases hc : c.toNat < 0x40
        · exact .inl ⟨hc, rfl⟩
        · refine .inr ⟨by omega, ?_⟩
          simp only [List.mem_singleton, forall_eq]
          rw [u8_toNat (by omega)]
          omega
      · refine .inr ⟨by omega, ?_⟩
        obtain ⟨p, ⟨hp, _⟩, rfl⟩ := h
        have := big5_ptr_lt hp
        intro b hb
        simp only [Spec.big5Bytes, List.mem_cons, List.not_mem_nil, or_false] at hb
        rcases hb with rfl | rfl
        · rw [u8_toNat (by omega)]; omega
        · split <;> (rw [u8_toNat (by omega)]; omega)
    · have h3 : Spec.CodeSeq e u [c] := by
        cases e <;> first | exact h | exact absurd rfl h1 | exact absurd rfl h2
      rcases codeSeq_alone e h3 with ⟨b, hb, rfl, hc⟩ | ⟨hb, hc⟩
      · have := standAlone_le e
        have hv : c.toNat = b.toNat := by
          obtain ⟨rfl, _⟩ := List.cons.inj hc
          exact toNat_ofNat (by unfold Nat.isValidChar; omega)
        exact .inl ⟨by omega, by rw [hv, UInt8.ofNat_toNat]⟩
      · exact .inr ⟨hc c (by simp), hb⟩

theorem pairCode_alone (e : Encoding) {c d : Char} {u : Bytes} (h : Spec.PairCode e c d u) :
    Spec.standAlone e ≤ c.toNat ∧ Spec.standAlone e ≤ d.toNat ∧
    ∀ b ∈ u, Spec.standAlone e ≤ b.toNat := by
  obtain ⟨rfl, p, hp, rfl⟩ := h
  simp only [Spec.big5Pairs, List.mem_cons, Prod.mk.injEq, List.not_mem_nil, or_false] at hp
  rcases hp with ⟨rfl, h1, h2⟩ | ⟨rfl, h1, h2⟩ | ⟨rfl, h1, h2⟩ | ⟨rfl, h1, h2⟩ <;>
    (rw [h1, h2]; decide)

/-- The bytes below the bound. -/
def lowBytes (e : Encoding) (bytes : Bytes) : Bytes :=
  bytes.filter fun b => decide (b.toNat < Spec.standAlone e)

/-- The chars below the bound, as bytes. -/
def lowChars (e : Encoding) (text : Str) : Bytes :=
  (text.filter fun c => decide (c.toNat < Spec.standAlone e)).map fun c => UInt8.ofNat c.toNat

theorem lowBytes_nil {e : Encoding} {u : Bytes} (h : ∀ b ∈ u, Spec.standAlone e ≤ b.toNat) :
    lowBytes e u = [] := by
  unfold lowBytes
  rw [List.filter_eq_nil_iff]
  intro b hb
  have := h b hb
  simp only [decide_eq_true_eq]
  omega

theorem lowChars_nil {e : Encoding} {t : Str} (h : ∀ c ∈ t, Spec.standAlone e ≤ c.toNat) :
    lowChars e t = [] := by
  unfold lowChars
  rw [List.map_eq_nil_iff, List.filter_eq_nil_iff]
  intro b hb
  have := h b hb
  simp only [decide_eq_true_eq]
  omega

theorem lowBytes_append (e : Encoding) (u v : Bytes) :
    lowBytes e (u ++ v) = lowBytes e u ++ lowBytes e v := List.filter_append _ _

theorem lowChars_append (e : Encoding) (s t : Str) :
    lowChars e (s ++ t) = lowChars e s ++ lowChars e t := by
  unfold lowChars
  rw [List.filter_append, List.map_append]

theorem decodes_low {e : Encoding} {u : Bytes} {t : Str} (h : Spec.Decodes e u t) :
    lowBytes e u = lowChars e t := by
  induction h with
  | nil => rfl
  | @cons u t us ts hc _ ih =>
    rw [lowBytes_append, lowChars_append, ih]
    congr 1
    rcases codeSeq_alone e hc with ⟨b, hb, rfl, rfl⟩ | ⟨hb, ht⟩
    · have := standAlone_le e
      have hv : (Char.ofNat b.toNat).toNat = b.toNat :=
        toNat_ofNat (by unfold Nat.isValidChar; omega)
      unfold lowBytes lowChars
      rw [List.filter_cons_of_pos (by simpa using hb),
        List.filter_cons_of_pos (by rw [hv]; simpa using hb)]
      simp only [List.filter_nil, List.map_cons, List.map_nil, hv, UInt8.ofNat_toNat]
    · rw [lowBytes_nil hb, lowChars_nil ht]

theorem encodes_low {e : Encoding} {t : Str} {u : Bytes} (h : Spec.Encodes e t u) :
    lowBytes e u = lowChars e t := by
  induction h with
  | nil => rfl
  | @char c u cs us hc _ _ ih =>
    rw [lowBytes_append, show c :: cs = [c] ++ cs from rfl, lowChars_append, ih]
    congr 1
    rcases charCode_alone e hc with ⟨hb, rfl⟩ | ⟨hb, hu⟩
    · have := standAlone_le e
      unfold lowBytes lowChars
      rw [List.filter_cons_of_pos (by rw [u8_toNat (by omega)]; simpa using hb),
        List.filter_cons_of_pos (by simpa using hb)]
      rfl
    · rw [lowBytes_nil hu, lowChars_nil (by simpa using hb)]
  | @pair c d u cs us hc _ ih =>
    obtain ⟨h1, h2, h3⟩ := pairCode_alone e hc
    have h4 : lowChars e [c, d] = [] := lowChars_nil (by
      intro x hx
      simp only [List.mem_cons, List.not_mem_nil, or_false] at hx
      rcases hx with rfl | rfl
      · exact h1
      · exact h2)
    rw [lowBytes_append, show c :: d :: cs = [c, d] ++ cs from rfl, lowChars_append, ih,
      lowBytes_nil h3, h4]

/-- C63: the bytes below the bound in what a decoder consumed are exactly the chars below the bound
in the text, in the same order: such a byte is never part of a longer code, and such a char never
comes from anything else. -/
theorem C63_decode_low_bytes (e : Encoding) (input buf buf' : Bytes) (text : Str) (n : Nat)
    (is_end : Bool) (h : decode_to_str e input buf is_end = .ok (buf', .ok (text, n))) :
    (input.take n).filter (fun b => decide (b.toNat < Spec.standAlone e)) =
      (text.filter fun c => decide (c.toNat < Spec.standAlone e)).map fun c => UInt8.ofNat c.toNat :=
  decodes_low (C10_decode_ok_is_decoding e input buf buf' text n is_end h).2

/-- C63: the bytes below the bound in what an encoder wrote are exactly the chars below the bound
in the text it consumed, in the same order. -/
theorem C63_encode_low_bytes (e : Encoding) (input : Str) (buf buf' out : Bytes) (n : Nat)
    (is_end : Bool) (h : encode_from_str e input buf is_end = .ok (buf', .ok (out, n))) :
    ∃ done rest, input = done ++ rest ∧ n = (Spec.utf8 done).length ∧
      out.filter (fun b => decide (b.toNat < Spec.standAlone e)) =
        (done.filter fun c => decide (c.toNat < Spec.standAlone e)).map
          fun c => UInt8.ofNat c.toNat := by
  obtain ⟨done, rest, h1, h2, h3, _⟩ := C03_encode_ok_is_encoding e input buf buf' out n is_end h
  exact ⟨done, rest, h1, h2, encodes_low h3⟩

/-- C63: in particular an encoder writes no NUL byte for a text without U+0000. -/
theorem C63_no_nul (e : Encoding) (he : asciiCompatible e) (input : Str) (buf buf' out : Bytes)
    (n : Nat) (is_end : Bool)
    (h : encode_from_str e input buf is_end = .ok (buf', .ok (out, n)))
    (hnul : Char.ofNat 0 ∉ input) : (0 : UInt8) ∉ out := by
  obtain ⟨done, rest, rfl, _, h3⟩ := C63_encode_low_bytes e input buf buf' out n is_end h
  have hpos : 0 < Spec.standAlone e := by
    cases e <;> first | decide | exact absurd (by decide) he
  intro h0
  have h1 : (0 : UInt8) ∈ out.filter (fun b => decide (b.toNat < Spec.standAlone e)) :=
    List.mem_filter.2 ⟨h0, by simpa using hpos⟩
  rw [h3] at h1
  obtain ⟨c, hc, hz⟩ := List.mem_map.1 h1
  obtain ⟨hc, hlt⟩ := List.mem_filter.1 hc
  have := standAlone_le e
  have hlt : c.toNat < Spec.standAlone e := by simpa using hlt
  have hz := congrArg UInt8.toNat hz
  rw [u8_toNat (by omega)] at hz
  apply hnul
  have hz : c.toNat = 0 := hz
  rw [← hz, Char.ofNat_toNat]
  exact List.mem_append_left _ hc

/-- C63: the bound is exact. The byte 0x40 (the sign `@`) is the second byte of a Shift JIS and of a
Big5 code; 0x80 is the second byte of a UTF-8 code; a NUL byte is the first byte of every UTF-16BE
and UTF-32BE code of an ASCII char. -/
theorem C63_bound_is_exact :
    decode_to_str .ShiftJISWHATWG [0x81, 0x40] (List.replicate 4 0) true =
      .ok ([0xE3, 0x80, 0x80, 0], .ok ([Char.ofNat 0x3000], 2)) ∧
    decode_to_str .Big5WHATWG [0xA4, 0x40] (List.replicate 4 0) true =
      .ok ([0xE4, 0xB8, 0x80, 0], .ok (['一'], 2)) ∧
    decode_to_str .Utf8 [0xC2, 0x80] (List.replicate 4 0) true =
      .ok ([0xC2, 0x80, 0, 0], .ok ([Char.ofNat 0x80], 2)) ∧
    decode_to_str .Utf16BE [0x00, 0x41] (List.replicate 4 0) true =
      .ok ([0x41, 0, 0, 0], .ok (['A'], 2)) :=
  ⟨by decide +kernel, by decide +kernel, by decide +kernel, by decide +kernel⟩

/-- A Shift JIS text with a trail byte that is the code of the backslash: only the line feed is
below the bound. -/
example : decode_to_str .ShiftJISWHATWG [0x83, 0x5C, 0x0A, 0x41] (List.replicate 8 0) true =
      .ok ([0xE3, 0x82, 0xBD, 0x0A, 0x41, 0, 0, 0], .ok (['ソ', '\n', 'A'], 4)) ∧
    [0x83, 0x5C, 0x0A, 0x41].filter (fun b => decide (b < 0x40)) = [0x0A] := by
  decide +kernel

/-! ## C64: splitting -/

theorem ofNat_inj_low {a b : Nat} (ha : a < 0x80) (hb : b < 0x80) (h : Char.ofNat a = Char.ofNat b) :
    a = b := by
  have := congrArg Char.toNat h
  rwa [toNat_ofNat (by unfold Nat.isValidChar; omega),
    toNat_ofNat (by unfold Nat.isValidChar; omega)] at this

/-- Bytes with a byte below the bound in them split there. -/
theorem decodes_split {e : Encoding} {b : UInt8} (hb : b.toNat < Spec.standAlone e) {x y : Bytes}
    {t : Str} (h : Spec.Decodes e (x ++ b :: y) t) :
    ∃ s r, t = s ++ Char.ofNat b.toNat :: r ∧ Spec.Decodes e x s ∧ Spec.Decodes e y r := by
  generalize hz : x ++ b :: y = z at h
  induction h generalizing x with
  | nil => simp at hz
  | @cons u t us ts hc hd ih =>
    rcases codeSeq_alone e hc with ⟨a, ha, rfl, rfl⟩ | ⟨hu, _⟩
    · cases x with
      | nil =>
        obtain ⟨rfl, rfl⟩ := List.cons.inj hz
        exact ⟨[], ts, rfl, .nil, hd⟩
      | cons x0 x =>
        obtain ⟨rfl, h2⟩ := List.cons.inj hz
        obtain ⟨s, r, rfl, h3, h4⟩ := ih h2
        exact ⟨Char.ofNat x0.toNat :: s, r, rfl, .cons hc h3, h4⟩
    · have hx : ∃ x', x = u ++ x' := by
        rcases List.append_eq_append_iff.1 hz with ⟨a, h1, h2⟩ | ⟨a, h1, h2⟩
        · cases a with
          | nil => exact ⟨[], by simpa using h1.symm⟩
          | cons a0 a =>
            obtain ⟨rfl, _⟩ := List.cons.inj h2
            have := hu b (by rw [h1]; simp)
            omega
        · exact ⟨a, h1⟩
      obtain ⟨x', rfl⟩ := hx
      rw [List.append_assoc] at hz
      obtain ⟨s, r, rfl, h3, h4⟩ := ih (List.append_cancel_left hz)
      exact ⟨t ++ s, r, by simp, .cons hc h3, h4⟩

theorem low_codeSeq {e : Encoding} {b : UInt8} (hb : b.toNat < Spec.standAlone e) :
    Spec.CodeSeq e [b] [Char.ofNat b.toNat] := by
  have := standAlone_le e
  exact ascii_codeSeq (standAlone_ascii hb) (by omega)

/-- C64: cutting at a byte below the bound. If the whole decodes to `t`, the parts before and after
the byte decode, with any buffers that are long enough, and `t` is their texts around the char. -/
theorem C64_decode_split (e : Encoding) (x y buf buf' : Bytes) (b : UInt8) (t : Str) (is_end : Bool)
    (hb : b.toNat < Spec.standAlone e)
    (h : decode_to_str e (x ++ b :: y) buf is_end = .ok (buf', .ok (t, (x ++ b :: y).length))) :
    ∃ s r, t = s ++ Char.ofNat b.toNat :: r ∧
      (∀ (buf₁ : Bytes) (is_end₁ : Bool), (Spec.utf8 s).length ≤ buf₁.length →
        ∃ buf₁', decode_to_str e x buf₁ is_end₁ = .ok (buf₁', .ok (s, x.length))) ∧
      (∀ (buf₂ : Bytes) (is_end₂ : Bool), (Spec.utf8 r).length ≤ buf₂.length →
        ∃ buf₂', decode_to_str e y buf₂ is_end₂ = .ok (buf₂', .ok (r, y.length))) := by
  have hd := (C10_decode_ok_is_decoding _ _ _ _ _ _ _ h).2
  rw [List.take_length] at hd
  obtain ⟨s, r, ht, h1, h2⟩ := decodes_split hb hd
  exact ⟨s, r, ht, fun buf₁ e₁ hl => ⟨_, C14_decode_complete e x buf₁ s e₁ h1 hl⟩,
    fun buf₂ e₂ hl => ⟨_, C14_decode_complete e y buf₂ r e₂ h2 hl⟩⟩

/-- C64: joining. If two parts decode, they decode with any ASCII byte between them (of an encoding
that has ASCII), with any buffer that is long enough. -/
theorem C64_decode_join (e : Encoding) (he : asciiCompatible e) (x y buf₁ buf₁' buf₂ buf₂' : Bytes)
    (b : UInt8) (s r : Str) (is_end₁ is_end₂ : Bool) (hb : b.toNat < 0x80)
    (h₁ : decode_to_str e x buf₁ is_end₁ = .ok (buf₁', .ok (s, x.length)))
    (h₂ : decode_to_str e y buf₂ is_end₂ = .ok (buf₂', .ok (r, y.length)))
    (buf : Bytes) (is_end : Bool)
    (hl : (Spec.utf8 (s ++ Char.ofNat b.toNat :: r)).length ≤ buf.length) :
    ∃ buf', decode_to_str e (x ++ b :: y) buf is_end =
      .ok (buf', .ok (s ++ Char.ofNat b.toNat :: r, (x ++ b :: y).length)) := by
  have h1 := (C10_decode_ok_is_decoding _ _ _ _ _ _ _ h₁).2
  have h2 := (C10_decode_ok_is_decoding _ _ _ _ _ _ _ h₂).2
  rw [List.take_length] at h1 h2
  have h3 : Spec.Decodes e (x ++ b :: y) (s ++ Char.ofNat b.toNat :: r) :=
    decodes_append h1 (.cons (u := [b]) (t := [Char.ofNat b.toNat]) (ascii_codeSeq he hb) h2)
  exact ⟨_, C14_decode_complete e _ buf _ is_end h3 hl⟩

/-- Two lines of Shift JIS; the first ends with a code that ends in a backslash byte. -/
example : decode_to_str .ShiftJISWHATWG ([0x83, 0x5C] ++ 0x0A :: [0x41]) (List.replicate 5 0) true =
      .ok ([0xE3, 0x82, 0xBD, 0x0A, 0x41], .ok (['ソ', '\n', 'A'], 4)) ∧
    decode_to_str .ShiftJISWHATWG [0x83, 0x5C] (List.replicate 3 0) true =
      .ok ([0xE3, 0x82, 0xBD], .ok (['ソ'], 2)) := by
  decide +kernel

/-- C64: the bound is needed: cut at the backslash byte, the same data does not decode. -/
theorem C64_bound_is_needed :
    decode_to_str .ShiftJISWHATWG ([0x83] ++ 0x5C :: [0x41]) (List.replicate 5 0) true =
      .ok ([0xE3, 0x82, 0xBD, 0x41, 0], .ok (['ソ', 'A'], 3)) ∧
    decode_to_str .ShiftJISWHATWG [0x83] (List.replicate 5 0) true =
      .ok ([0, 0, 0, 0, 0], .error ⟨.InvalidData, (0, 1), 0⟩) :=
  ⟨by decide +kernel, by decide +kernel⟩

theorem low_charCode {e : Encoding} {c : Char} (hc : c.toNat < Spec.standAlone e) :
    Spec.CharCode e c [UInt8.ofNat c.toNat] := by
  have h0 := standAlone_le e
  by_cases h1 : e = .ShiftJISWHATWG
  · subst h1
    show Spec.JisCharCode c _
    unfold Spec.JisCharCode
    rw [if_pos (by omega)]
  · by_cases h2 : e = .Big5WHATWG
    · subst h2
      show Spec.Big5CharCode c _
      unfold Spec.Big5CharCode
      rw [if_pos (by omega)]
    · have h3 : Spec.CodeSeq e [UInt8.ofNat c.toNat] [c] := by
        have hn : (UInt8.ofNat c.toNat).toNat = c.toNat := u8_toNat (by omega)
        have := ascii_codeSeq (b := UInt8.ofNat c.toNat) (standAlone_ascii hc) (by omega)
        rwa [hn, Char.ofNat_toNat] at this
      cases e <;> first | exact absurd rfl h1 | exact absurd rfl h2 | exact h3

theorem encodes_split {e : Encoding} {c : Char} (hc : c.toNat < Spec.standAlone e) {x y : Str}
    {w : Bytes} (h : Spec.Encodes e (x ++ c :: y) w) :
    ∃ u v, w = u ++ UInt8.ofNat c.toNat :: v ∧ Spec.Encodes e x u ∧ Spec.Encodes e y v := by
  generalize hz : x ++ c :: y = z at h
  induction h generalizing x with
  | nil => simp at hz
  | @char c0 u cs us h0 hn hs ih =>
    cases x with
    | nil =>
      obtain ⟨rfl, rfl⟩ := List.cons.inj hz
      rcases charCode_alone e h0 with ⟨_, rfl⟩ | ⟨h1, _⟩
      · exact ⟨[], us, rfl, .nil, hs⟩
      · omega
    | cons x0 x =>
      obtain ⟨rfl, rfl⟩ := List.cons.inj hz
      obtain ⟨u', v, rfl, h1, h2⟩ := ih rfl
      refine ⟨u ++ u', v, by simp, .char h0 (fun d v' hd => hn d v' ?_) h1, h2⟩
      cases x with
      | nil => cases hd
      | cons x1 x => exact hd
  | @pair c0 d u cs us h0 hs ih =>
    obtain ⟨p1, p2, _⟩ := pairCode_alone e h0
    cases x with
    | nil =>
      obtain ⟨rfl, _⟩ := List.cons.inj hz
      omega
    | cons x0 x =>
      cases x with
      | nil =>
        obtain ⟨_, h1⟩ := List.cons.inj hz
        obtain ⟨rfl, _⟩ := List.cons.inj h1
        omega
      | cons x1 x =>
        obtain ⟨rfl, h1⟩ := List.cons.inj hz
        obtain ⟨rfl, rfl⟩ := List.cons.inj h1
        obtain ⟨u', v, rfl, h1, h2⟩ := ih rfl
        exact ⟨u ++ u', v, by simp, .pair h0 h1, h2⟩

theorem encodes_join {e : Encoding} {c : Char} (hc : c.toNat < Spec.standAlone e) {x y : Str}
    {u v : Bytes} (hx : Spec.Encodes e x u) (hy : Spec.Encodes e y v) :
    Spec.Encodes e (x ++ c :: y) (u ++ UInt8.ofNat c.toNat :: v) := by
  induction hx with
  | nil =>
    refine .char (u := [UInt8.ofNat c.toNat]) (low_charCode hc) (fun d v' _ hp => ?_) hy
    have := (pairCode_alone e hp).1
    omega
  | @char c0 u cs us h0 hn hs ih =>
    rw [List.append_assoc]
    refine .char h0 (fun d v' hd hp => ?_) ih
    cases cs with
    | nil =>
      obtain rfl : c = d := by simpa using hd
      have := (pairCode_alone e hp).2.1
      omega
    | cons x1 cs => exact hn d v' hd hp
  | @pair c0 d u cs us h0 hs ih =>
    rw [List.append_assoc]
    exact .pair h0 ih

/-- All of the text was consumed. -/
theorem encode_all {e : Encoding} {t : Str} {buf buf' w : Bytes} {is_end : Bool}
    (h : encode_from_str e t buf is_end = .ok (buf', .ok (w, (Spec.utf8 t).length))) :
    Spec.Encodes e t w := by
  obtain ⟨done, rest, rfl, h2, h3, _⟩ := C03_encode_ok_is_encoding e t buf buf' w _ is_end h
  cases rest with
  | nil => rwa [List.append_nil]
  | cons c r =>
    have := Char.utf8Size_pos c
    simp only [Spec.utf8, List.flatMap_append, List.flatMap_cons, List.length_append,
      String.length_utf8EncodeChar] at h2
    omega

/-- C64: cutting a text at a char below the bound and encoding the parts. -/
theorem C64_encode_split (e : Encoding) (x y : Str) (c : Char) (buf buf' w : Bytes)
    (hc : c.toNat < Spec.standAlone e)
    (h : encode_from_str e (x ++ c :: y) buf true =
      .ok (buf', .ok (w, (Spec.utf8 (x ++ c :: y)).length))) :
    ∃ u v, w = u ++ UInt8.ofNat c.toNat :: v ∧
      (∀ buf₁ : Bytes, u.length ≤ buf₁.length →
        ∃ buf₁', encode_from_str e x buf₁ true = .ok (buf₁', .ok (u, (Spec.utf8 x).length))) ∧
      (∀ buf₂ : Bytes, v.length ≤ buf₂.length →
        ∃ buf₂', encode_from_str e y buf₂ true = .ok (buf₂', .ok (v, (Spec.utf8 y).length))) := by
  have hd := encode_all h
  obtain ⟨u, v, hw, h1, h2⟩ := encodes_split hc hd
  exact ⟨u, v, hw, fun buf₁ hl => ⟨_, C06_encode_complete e x u buf₁ true h1 hl (.inl rfl)⟩,
    fun buf₂ hl => ⟨_, C06_encode_complete e y v buf₂ true h2 hl (.inl rfl)⟩⟩

/-- C64: joining two encoded texts with the byte of a char below the bound between them. -/
theorem C64_encode_join (e : Encoding) (x y : Str) (c : Char) (buf₁ buf₁' buf₂ buf₂' u v : Bytes)
    (hc : c.toNat < Spec.standAlone e)
    (h₁ : encode_from_str e x buf₁ true = .ok (buf₁', .ok (u, (Spec.utf8 x).length)))
    (h₂ : encode_from_str e y buf₂ true = .ok (buf₂', .ok (v, (Spec.utf8 y).length)))
    (buf : Bytes) (hl : (u ++ UInt8.ofNat c.toNat :: v).length ≤ buf.length) :
    ∃ buf', encode_from_str e (x ++ c :: y) buf true =
      .ok (buf', .ok (u ++ UInt8.ofNat c.toNat :: v, (Spec.utf8 (x ++ c :: y)).length)) :=
  ⟨_, C06_encode_complete e _ _ buf true (encodes_join hc (encode_all h₁) (encode_all h₂)) hl
    (.inl rfl)⟩

/-- A Big5 text in which a char that waits for a mark is followed by a line feed. -/
example : encode_from_str .Big5WHATWG (['Ê'] ++ '\n' :: ['Ê', '̄']) (List.replicate 6 0) true =
      .ok ([0x88, 0x66, 0x0A, 0x88, 0x62, 0], .ok ([0x88, 0x66, 0x0A, 0x88, 0x62], 7)) ∧
    encode_from_str .Big5WHATWG ['Ê'] [0, 0] true = .ok ([0x88, 0x66], .ok ([0x88, 0x66], 2)) := by
  decide +kernel

/-! ## C65: lossy decoding -/

/-- Lossy decoding, one step of the decoder at a time. -/
inductive LossyRun (e : Encoding) : Bytes → Str → Prop where
  | nil : LossyRun e [] []
  | emit {inp o n ts} (h : dfront e true inp = .emit o n) (hs : LossyRun e (inp.drop n) ts) :
      LossyRun e inp (o ++ ts)
  | bad {inp k ts} (h : dfront e true inp = .bad k) (hs : LossyRun e (inp.drop k) ts) :
      LossyRun e inp (Char.ofNat 0xFFFD :: ts)

theorem LossyRun.det {e : Encoding} {inp : Bytes} {t t' : Str} (h : LossyRun e inp t)
    (h' : LossyRun e inp t') : t = t' := by
  have hnil : dfront e true [] = .more := ((decLaw e).ok true).nil
  induction h generalizing t' with
  | nil =>
    cases h' with
    | nil => rfl
    | emit h _ => rw [hnil] at h; cases h
    | bad h _ => rw [hnil] at h; cases h
  | @emit inp o n ts h _ ih =>
    cases h' with
    | nil => rw [hnil] at h; cases h
    | emit h2 hs2 =>
      rw [h] at h2
      cases h2
      rw [ih hs2]
    | bad h2 _ => rw [h] at h2; cases h2
  | @bad inp k ts h _ ih =>
    cases h' with
    | nil => rw [hnil] at h; cases h
    | emit h2 _ => rw [h] at h2; cases h2
    | bad h2 hs2 =>
      rw [h] at h2
      cases h2
      rw [ih hs2]

theorem lossyRun_of_pieces {e : Encoding} {input : Bytes} {ps : List (Bytes × Option Str)}
    (hp : LossyPieces e input ps) : LossyRun e input (lossyText ps) := by
  have L := decLaw e
  induction hp with
  | nil => exact .nil
  | @good u t rest ps hd hs ih =>
    simp only [lossyText]
    clear hs
    generalize hrest : lossyText ps = ts at ih
    clear hrest
    induction hd with
    | nil => exact ih
    | @cons u t us ts' hc hd ih' =>
      rw [List.append_assoc, List.append_assoc]
      refine .emit (L.complete hc) ?_
      rw [List.drop_left]
      exact ih'
  | @bad u rest ps hu hb hl hs ih =>
    simp only [lossyText]
    cases hf : dfront e true (u ++ rest) with
    | more => exact absurd (List.append_eq_nil_iff.1 (L.stuck hf)).1 hu
    | emit o n =>
      exact absurd (List.take_append_drop n (u ++ rest)).symm (hb _ _ _ (L.sound hf))
    | bad k =>
      rw [← dfront_extent e hf] at hl
      refine .bad hf ?_
      rw [← hl, List.drop_left]
      exact ih

/-- A byte below the bound after undecodable bytes does not make them decodable. -/
theorem undecodable_low {e : Encoding} {b : UInt8} (hb : b.toNat < Spec.standAlone e)
    {x y : Bytes} (hx : x ≠ []) (h : Spec.Undecodable e x) : Spec.Undecodable e (x ++ b :: y) := by
  intro u t rest hc heq
  rcases codeSeq_alone e hc with ⟨a, _, rfl, rfl⟩ | ⟨hu, _⟩
  · cases x with
    | nil => exact hx rfl
    | cons x0 x =>
      obtain ⟨rfl, _⟩ := List.cons.inj heq
      exact h _ _ x hc rfl
  · rcases List.append_eq_append_iff.1 heq with ⟨a, h1, h2⟩ | ⟨a, h1, h2⟩
    · cases a with
      | nil => exact h _ _ [] hc (by simpa using h1.symm)
      | cons a0 a =>
        obtain ⟨rfl, _⟩ := List.cons.inj h2
        have := hu b (by rw [h1]; simp)
        omega
    · exact h _ _ a hc h1

theorem errorExtent_low {e : Encoding} (he : e ≠ .Utf8) {b : UInt8}
    (hb : b.toNat < Spec.standAlone e) {x y : Bytes} (hx : x ≠ []) :
    Spec.errorExtent e (x ++ b :: y) = Spec.errorExtent e x := by
  cases e <;> first
    | exact absurd rfl he
    | exact absurd hb (Nat.not_lt_zero _)
    | rfl
    | (cases x with
       | nil => exact absurd rfl hx
       | cons x0 x =>
         cases x with
         | nil =>
           have hb : b.toNat < 0x40 := hb
           simp only [List.cons_append, List.nil_append, Spec.errorExtent]
           rw [if_neg (by omega)]
         | cons x1 x => rfl)

theorem lossy_join {e : Encoding} (he : e ≠ .Utf8) {b : UInt8} (hb : b.toNat < Spec.standAlone e)
    {x y : Bytes} {ps qs : List (Bytes × Option Str)} (hx : LossyPieces e x ps)
    (hy : LossyPieces e y qs) :
    LossyPieces e (x ++ b :: y) (ps ++ ([b], some [Char.ofNat b.toNat]) :: qs) := by
  induction hx with
  | nil =>
    refine .good (u := [b]) ?_ hy
    exact .cons (u := [b]) (t := [Char.ofNat b.toNat]) (low_codeSeq hb) .nil
  | @good u t rest ps hd hs ih =>
    rw [List.append_assoc]
    exact .good hd ih
  | @bad u rest ps hu h hl hs ih =>
    rw [List.append_assoc]
    have hne : u ++ rest ≠ [] := fun h0 => hu (List.append_eq_nil_iff.1 h0).1
    refine .bad hu ?_ ?_ ih
    · rw [← List.append_assoc]
      exact undecodable_low hb hne h
    · rw [← List.append_assoc, errorExtent_low he hb hne]
      exact hl

theorem lossyText_append (ps qs : List (Bytes × Option Str)) :
    lossyText (ps ++ qs) = lossyText ps ++ lossyText qs := by
  induction ps with
  | nil => rfl
  | cons p ps ih =>
    obtain ⟨u, t⟩ := p
    cases t with
    | none => simp only [List.cons_append, lossyText, ih]
    | some t => simp only [List.cons_append, lossyText, ih, List.append_assoc]

/-- C65: decoding with replacement characters may be done line by line, in every encoding but UTF-8
(and UTF-16 and UTF-32, where no byte stands alone): the text of the whole is the texts of the parts
before and after the byte, around its char. No error reaches over the byte. -/
theorem C65_lossy_decoding_by_lines (e : Encoding) (he : e ≠ .Utf8) (b : UInt8)
    (hb : b.toNat < Spec.standAlone e) (x y buf buf₁ buf₂ : Bytes) (fuel fuel₁ fuel₂ : Nat)
    (hbuf : 4 ≤ buf.length) (hbuf₁ : 4 ≤ buf₁.length) (hbuf₂ : 4 ≤ buf₂.length)
    (hf : (x ++ b :: y).length < fuel) (hf₁ : x.length < fuel₁) (hf₂ : y.length < fuel₂) :
    ∃ ps qs rs, decodeLossy e fuel buf (x ++ b :: y) = .ok ps ∧
      decodeLossy e fuel₁ buf₁ x = .ok qs ∧ decodeLossy e fuel₂ buf₂ y = .ok rs ∧
      lossyText ps = lossyText qs ++ Char.ofNat b.toNat :: lossyText rs := by
  obtain ⟨ps, h1, h2⟩ := C39_lossy_decoding_finishes e _ buf hbuf fuel hf
  obtain ⟨qs, h3, h4⟩ := C39_lossy_decoding_finishes e _ buf₁ hbuf₁ fuel₁ hf₁
  obtain ⟨rs, h5, h6⟩ := C39_lossy_decoding_finishes e _ buf₂ hbuf₂ fuel₂ hf₂
  refine ⟨ps, qs, rs, h1, h3, h5, ?_⟩
  have := (lossyRun_of_pieces h2).det (lossyRun_of_pieces (lossy_join he hb h4 h6))
  rw [this, lossyText_append]
  rfl

/-- C65: the text of lossy decoding does not depend on the buffers. -/
theorem C65_lossy_text_independent_of_buffer (e : Encoding) (input buf₁ buf₂ : Bytes)
    (fuel₁ fuel₂ : Nat) (hbuf₁ : 4 ≤ buf₁.length) (hbuf₂ : 4 ≤ buf₂.length)
    (hf₁ : input.length < fuel₁) (hf₂ : input.length < fuel₂) :
    ∃ ps qs, decodeLossy e fuel₁ buf₁ input = .ok ps ∧ decodeLossy e fuel₂ buf₂ input = .ok qs ∧
      lossyText ps = lossyText qs := by
  obtain ⟨qs, h3, h4⟩ := C39_lossy_decoding_finishes e _ buf₁ hbuf₁ fuel₁ hf₁
  obtain ⟨rs, h5, h6⟩ := C39_lossy_decoding_finishes e _ buf₂ hbuf₂ fuel₂ hf₂
  exact ⟨qs, rs, h3, h5, (lossyRun_of_pieces h4).det (lossyRun_of_pieces h6)⟩

/-- C65: not so for UTF-8, where an error at the end of the data takes in the line feed. -/
theorem C65_utf8_counterexample :
    (decodeLossy .Utf8 9 [0, 0, 0, 0] ([0xE3] ++ 0x0A :: [])).map lossyText = .ok ['�'] ∧
    (decodeLossy .Utf8 9 [0, 0, 0, 0] [0xE3]).map lossyText = .ok ['�'] ∧
    (decodeLossy .Utf8 9 [0, 0, 0, 0] []).map lossyText = .ok [] := by
  decide +kernel

/-- A line of Shift JIS that ends with a lead byte. -/
example : (decodeLossy .ShiftJISWHATWG 9 [0, 0, 0, 0] ([0x83, 0x5C, 0x83] ++ 0x0A :: [0x83])).map
      lossyText = .ok ['ソ', '�', '\n', '�'] := by
  decide +kernel

end Verif.Props
