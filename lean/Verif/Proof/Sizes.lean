import Verif.Proof.Uniform
import Verif.Spec.Sizes

/-! # Sizes of codes -/

namespace Verif

open SingleByte (decTab encTab isSingle tabOk)

theorem single_pub_code {e : Encoding} (h : isSingle e = true) {b c : Nat}
    (hp : (b, c) ∈ Spec.published e) : b < 128 ∧ c = b ∨ 128 ≤ b ∧ b < 256 ∧ 128 ≤ c ∧ c < 0x10000 := by
  have ht := tabOk e h
  rcases ht.pub _ hp with ⟨h1, h2⟩ | ⟨h1, h2, h3, h4⟩
  · exact .inl ⟨h1, h2⟩
  · refine .inr ⟨h1, h2, ?_⟩
    have hlt : b - 128 < (decTab e).length := by rw [ht.len]; simp only at h1 h2; omega
    have hm : c ∈ decTab e := by
      simp only at h4
      rw [← h4, List.getD_eq_getElem?_getD, List.getElem?_eq_getElem hlt]
      exact List.getElem_mem _
    have := ht.valid _ hm
    omega

theorem ascii_pub {b c : Nat} (hp : (b, c) ∈ Spec.published .Ascii) : c = b ∧ b < 128 := by
  simp only [Spec.published, List.mem_map, List.mem_range, Prod.mk.injEq] at hp
  obtain ⟨a, h1, h2, h3⟩ := hp
  omega

theorem latin1_pub {b c : Nat} (hp : (b, c) ∈ Spec.published .Iso8859_1) : c = b ∧ b < 256 := by
  have h : ∀ x ∈ Spec.published .Iso8859_1, x.2 = x.1 ∧ x.1 < 256 := by decide +kernel
  exact h _ hp

/-- The text of a code sequence: one char, or a pair of Big5. -/
theorem codeSeq_text (e : Encoding) {u : Bytes} {t : Str} (h : Spec.CodeSeq e u t) :
    (∃ c, t = [c]) ∨ (e = .Big5WHATWG ∧ ∃ p c d, u.length = 2 ∧ (p, c.toNat, d.toNat) ∈ Spec.big5Pairs ∧
      t = [c, d]) := by
  revert h
  refine encoding_cases (M := fun e => Spec.CodeSeq e u t → (∃ c, t = [c]) ∨
    (e = .Big5WHATWG ∧ ∃ p c d, u.length = 2 ∧ (p, c.toNat, d.toNat) ∈ Spec.big5Pairs ∧
      t = [c, d])) ?_ ?_ ?_ ?_ ?_ ?_ ?_ ?_ e
  · intro e h1 h
    rw [single_codeSeq e h1] at h
    obtain ⟨b, c, rfl, _⟩ := h
    exact .inl ⟨c, rfl⟩
  · rintro ⟨c, rfl, _⟩; exact .inl ⟨c, rfl⟩
  · rintro ⟨c, rfl, _⟩; exact .inl ⟨c, rfl⟩
  · rintro ⟨c, rfl, _⟩; exact .inl ⟨c, rfl⟩
  · rintro ⟨c, rfl, _⟩; exact .inl ⟨c, rfl⟩
  · rintro ⟨c, rfl, _⟩; exact .inl ⟨c, rfl⟩
  · rintro (⟨b, c, rfl, rfl, _⟩ | ⟨l, tr, rfl, _, _, _, (⟨a, b, h, rfl⟩ | ⟨c, _, rfl⟩)⟩)
    · exact .inl ⟨c, rfl⟩
    · generalize (l.toNat - 0x81) * 157 + _ = p at h
      refine .inr ⟨rfl, p, Char.ofNat a, Char.ofNat b, rfl, ?_, rfl⟩
      have h' := h
      simp only [Spec.big5Pairs, List.mem_cons, Prod.mk.injEq, List.not_mem_nil, or_false] at h'
      rw [toNat_ofNat (by unfold Nat.isValidChar; omega),
        toNat_ofNat (by unfold Nat.isValidChar; omega)]
      exact h
    · exact .inl ⟨c, rfl⟩
  · rintro (⟨b, c, rfl, rfl, _⟩ | ⟨b, c, rfl, rfl, _⟩ | ⟨l, tr, c, rfl, rfl, _⟩)
    · exact .inl ⟨c, rfl⟩
    · exact .inl ⟨c, rfl⟩
    · exact .inl ⟨c, rfl⟩

theorem codeSeq_text_len (e : Encoding) {u : Bytes} {t : Str} (h : Spec.CodeSeq e u t) :
    1 ≤ strLen t ∧ strLen t ≤ 4 := by
  rcases codeSeq_text e h with ⟨c, rfl⟩ | ⟨_, p, c, d, _, hm, rfl⟩
  · rw [strLen_singleton]
    exact ⟨utf8Size_pos c, utf8Size_le c⟩
  · simp only [Spec.big5Pairs, List.mem_cons, Prod.mk.injEq, List.not_mem_nil, or_false] at hm
    rw [strLen_cons, strLen_singleton, utf8Size_eq, utf8Size_eq]
    repeat' split
    all_goals omega

theorem utf16Units_len (c : Char) (f : Nat → Bytes) (hf : ∀ n, (f n).length = 2) :
    ((Spec.utf16Units c).flatMap f).length = if c.toNat < 0x10000 then 2 else 4 := by
  unfold Spec.utf16Units
  split <;> simp [hf]

/-- The single-byte encodings of which no char needs three bytes of UTF-8. -/
def twoByteMax : List Encoding :=
  [.Iso8859_1, .Iso8859_2, .Iso8859_3, .Iso8859_4, .Iso8859_6, .Iso8859_9]

theorem twoByteMax_pub : ∀ e ∈ twoByteMax,
    (Spec.published e).all (fun p => decide (p.2 < 0x800)) = true := by
  decide +kernel

/-- How long a code sequence is, and how its text compares. -/
theorem codeSeq_growth (e : Encoding) {u : Bytes} {t : Str} (h : Spec.CodeSeq e u t) :
    1 ≤ u.length ∧ u.length ≤ 4 ∧
      (Spec.decodeGrowth e).2 * strLen t ≤ (Spec.decodeGrowth e).1 * u.length := by
  have h0 := codeSeq_text_len e h
  revert h
  refine encoding_cases (M := fun e => Spec.CodeSeq e u t → 1 ≤ u.length ∧ u.length ≤ 4 ∧
      (Spec.decodeGrowth e).2 * strLen t ≤ (Spec.decodeGrowth e).1 * u.length)
      ?_ ?_ ?_ ?_ ?_ ?_ ?_ ?_ e
  · intro e h1 h
    rw [single_codeSeq e h1] at h
    obtain ⟨b, c, rfl, rfl, hp⟩ := h
    refine ⟨Nat.le_refl _, by simp, ?_⟩
    have hc := single_pub_code h1 hp
    have hb := u8_lt b
    have h3 : strLen [c] ≤ 3 := by
      rw [strLen_singleton, utf8Size_eq]
      repeat' split
      all_goals omega
    by_cases he : e = .Ascii
    · subst he
      have := ascii_pub hp
      rw [strLen_singleton, utf8Size_eq, if_pos (by omega)]
      exact Nat.le_refl 1
    by_cases he : e ∈ twoByteMax
    · have := List.all_eq_true.1 (twoByteMax_pub e he) _ hp
      have h2 : strLen [c] ≤ 2 := by
        simp only [decide_eq_true_eq] at this
        rw [strLen_singleton, utf8Size_eq]
        repeat' split
        all_goals omega
      have : Spec.decodeGrowth e = (2, 1) := by
        simp only [twoByteMax, List.mem_cons, List.not_mem_nil, or_false] at he
        rcases he with rfl | rfl | rfl | rfl | rfl | rfl <;> rfl
      rw [this]
      simpa using h2
    · have : Spec.decodeGrowth e = (3, 1) := by
        cases e <;>
          first | rfl | exact absurd h1 (by decide) | contradiction | exact absurd (by decide) he
      rw [this]
      simpa using h3
  · rintro ⟨c, rfl, rfl⟩
    rw [strLen_singleton] at *
    simp only [utf8_len, Spec.decodeGrowth]
    omega
  · rintro ⟨c, rfl, rfl⟩
    rw [strLen_singleton, utf8Size_eq] at *
    rw [utf16Units_len _ _ (fun _ => rfl)]
    simp only [Spec.decodeGrowth]
    repeat' split
    all_goals omega
  · rintro ⟨c, rfl, rfl⟩
    rw [strLen_singleton, utf8Size_eq] at *
    rw [utf16Units_len _ _ (fun _ => rfl)]
    simp only [Spec.decodeGrowth]
    repeat' split
    all_goals omega
  · rintro ⟨c, rfl, rfl⟩
    show 1 ≤ 4 ∧ 4 ≤ 4 ∧ 1 * strLen [c] ≤ 1 * 4
    omega
  · rintro ⟨c, rfl, rfl⟩
    show 1 ≤ 4 ∧ 4 ≤ 4 ∧ 1 * strLen [c] ≤ 1 * 4
    omega
  · rintro (⟨b, c, rfl, rfl, hb, hc⟩ | ⟨l, tr, rfl, _, _, _, _⟩)
    · rw [strLen_singleton, utf8Size_eq, if_pos (by omega)]
      show 1 ≤ 1 ∧ 1 ≤ 4 ∧ 1 * 1 ≤ 2 * 1
      omega
    · show 1 ≤ 2 ∧ 2 ≤ 4 ∧ 1 * strLen t ≤ 2 * 2
      omega
  · rintro (⟨b, c, rfl, rfl, hb, hc⟩ | ⟨b, c, rfl, rfl, hb, hb2, hc⟩ | ⟨l, tr, c, rfl, rfl, _⟩)
    · rw [strLen_singleton, utf8Size_eq]
      refine ⟨Nat.le_refl _, by simp, ?_⟩
      simp only [Spec.decodeGrowth, List.length_singleton]
      repeat' split
      all_goals omega
    · rw [strLen_singleton, utf8Size_eq]
      refine ⟨Nat.le_refl _, by simp, ?_⟩
      simp only [Spec.decodeGrowth, List.length_singleton]
      repeat' split
      all_goals omega
    · show 1 ≤ 2 ∧ 2 ≤ 4 ∧ 1 * strLen [c] ≤ 3 * 2
      omega

theorem jisBytes_len (p : Nat) : (Spec.jisBytes p).length = 2 := rfl
theorem big5Bytes_len (p : Nat) : (Spec.big5Bytes p).length = 2 := rfl

/-- How long the code of a char is. -/
theorem charCode_growth (e : Encoding) {c : Char} {u : Bytes} (h : Spec.CharCode e c u) :
    1 ≤ u.length ∧ u.length ≤ 4 ∧ u.length ≤ Spec.encodeGrowth e * strLen [c] := by
  revert h
  have h0 := utf8Size_pos c
  have h4 := utf8Size_le c
  rw [strLen_singleton]
  refine encoding_cases (M := fun e => Spec.CharCode e c u → 1 ≤ u.length ∧ u.length ≤ 4 ∧
    u.length ≤ Spec.encodeGrowth e * c.utf8Size) ?_ ?_ ?_ ?_ ?_ ?_ ?_ ?_ e
  · intro e h1 h
    rw [single_charCode e h1] at h
    obtain ⟨b, c', hc, rfl, _⟩ := h
    have : Spec.encodeGrowth e = 1 := by
      cases e <;> first | rfl | exact absurd h1 (by decide)
    rw [this]
    simp
    omega
  · rintro ⟨c', hc, rfl⟩
    cases hc
    rw [utf8_len]
    simp only [Spec.encodeGrowth]
    omega
  · rintro ⟨c', hc, rfl⟩
    cases hc
    rw [utf16Units_len _ _ (fun _ => rfl), utf8Size_eq]
    simp only [Spec.encodeGrowth]
    repeat' split
    all_goals omega
  · rintro ⟨c', hc, rfl⟩
    cases hc
    rw [utf16Units_len _ _ (fun _ => rfl), utf8Size_eq]
    simp only [Spec.encodeGrowth]
    repeat' split
    all_goals omega
  · rintro ⟨c', hc, rfl⟩
    show 1 ≤ 4 ∧ 4 ≤ 4 ∧ 4 ≤ 4 * c.utf8Size
    omega
  · rintro ⟨c', hc, rfl⟩
    show 1 ≤ 4 ∧ 4 ≤ 4 ∧ 4 ≤ 4 * c.utf8Size
    omega
  · intro h
    simp only [Spec.CharCode, Spec.Big5CharCode] at h
    rw [utf8Size_eq]
    simp only [Spec.encodeGrowth]
    split at h
    · subst h
      rw [List.length_singleton]
      repeat' split
      all_goals omega
    · obtain ⟨p, _, rfl⟩ := h
      rw [big5Bytes_len]
      repeat' split
      all_goals omega
  · intro h
    simp only [Spec.CharCode, Spec.JisCharCode] at h
    have : u.length = 1 ∨ u.length = 2 ∧ 0x80 < c.toNat := by
      split at h
      · subst h; exact .inl rfl
      · have hc : 0x80 < c.toNat := by omega
        split at h
        · subst h; exact .inl rfl
        · split at h
          · subst h; exact .inl rfl
          · split at h
            · subst h; exact .inl rfl
            · split at h
              · subst h; exact .inr ⟨jisBytes_len _, hc⟩
              · obtain ⟨p, _, rfl⟩ := h
                exact .inr ⟨jisBytes_len _, hc⟩
    rw [utf8Size_eq]
    simp only [Spec.encodeGrowth]
    repeat' split
    all_goals omega

theorem pairCode_growth (e : Encoding) {c d : Char} {u : Bytes} (h : Spec.PairCode e c d u) :
    u.length = 2 ∧ e = .Big5WHATWG ∧ u.length ≤ Spec.encodeGrowth e * strLen [c, d] := by
  obtain ⟨rfl, p, _, rfl⟩ := h
  refine ⟨rfl, rfl, ?_⟩
  rw [big5Bytes_len, strLen_cons, strLen_singleton]
  have := utf8Size_pos c
  have := utf8Size_pos d
  simp only [Spec.encodeGrowth]
  omega

/-- What an encoder step emits is 1 to 4 bytes. -/
theorem efront_emit_len (e : Encoding) {b : Bool} {inp : Str} {o : Bytes} {n : Nat}
    (h : efront e b inp = .emit o n) : 1 ≤ o.length ∧ o.length ≤ 4 ∧
      o.length ≤ Spec.encodeGrowth e * strLen (inp.take n) := by
  rcases (encLaw e).emit h with ⟨rfl, c, cs, rfl, hc, _⟩ | ⟨rfl, c, d, cs, rfl, hp⟩
  · exact charCode_growth e hc
  · have := pairCode_growth e hp
    exact ⟨by omega, by omega, this.2.2⟩

theorem dfront_emit_len (e : Encoding) {b : Bool} {inp : Bytes} {o : Str} {n : Nat}
    (h : dfront e b inp = .emit o n) : 1 ≤ strLen o ∧ strLen o ≤ 4 ∧ n ≤ 4 ∧
      (Spec.decodeGrowth e).2 * strLen o ≤ (Spec.decodeGrowth e).1 * n := by
  have hs := (decLaw e).sound h
  have h1 := codeSeq_text_len e hs
  have h2 := codeSeq_growth e hs
  have h3 := ((decLaw e).ok b).emit_n h
  rw [List.length_take, Nat.min_eq_left h3.2] at h2
  omega

/-- A char in ASCII has a code in every encoding. -/
theorem ascii_encodable (e : Encoding) {c : Char} (h : c.toNat < 0x80) : Spec.Encodable e c := by
  refine encoding_cases (M := fun e => Spec.Encodable e c) ?_ ?_ ?_ ?_ ?_ ?_ ?_ ?_ e
  · intro e h1
    refine ⟨[UInt8.ofNat c.toNat], ?_⟩
    rw [single_charCode e h1]
    refine ⟨_, c, rfl, rfl, ?_⟩
    rw [u8_toNat (by omega)]
    exact (tabOk e h1).low _ h
  · exact ⟨_, c, rfl, rfl⟩
  · exact ⟨_, c, rfl, rfl⟩
  · exact ⟨_, c, rfl, rfl⟩
  · exact ⟨_, c, rfl, rfl⟩
  · exact ⟨_, c, rfl, rfl⟩
  · exact ⟨[UInt8.ofNat c.toNat], by simp only [Spec.CharCode, Spec.Big5CharCode]; rw [if_pos h]; trivial⟩
  · exact ⟨[UInt8.ofNat c.toNat], by simp only [Spec.CharCode, Spec.JisCharCode]; rw [if_pos (by omega)]; trivial⟩

end Verif
