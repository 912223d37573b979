import Verif.Props.LowEdits
import Verif.Spec.Counting

/-!
# C94: counting the chars of encoded text without decoding it
-/

namespace Verif.Proof

theorem countUnits16_code {high : UInt8 → UInt8 → UInt8} {f : Nat → Bytes}
    (hf : ∀ n, n < 65536 → ∃ a b, f n = [a, b] ∧ (high a b).toNat = n / 256) (c : Char)
    (us : Bytes) : Spec.countUnits16 high ((Spec.utf16Units c).flatMap f ++ us) =
      1 + Spec.countUnits16 high us := by
  have hb := char_bound c
  unfold Spec.utf16Units
  split
  · obtain ⟨a, b, h1, h2⟩ := hf c.toNat (by omega)
    rw [List.flatMap_cons, List.flatMap_nil, List.append_nil, h1, List.cons_append, List.cons_append,
      List.nil_append, Spec.countUnits16, h2, if_neg (by omega)]
  · obtain ⟨a, b, h1, h2⟩ := hf (0xD800 + (c.toNat - 0x10000) / 0x400) (by omega)
    obtain ⟨a', b', h1', h2'⟩ := hf (0xDC00 + (c.toNat - 0x10000) % 0x400) (by omega)
    rw [List.flatMap_cons, List.flatMap_cons, List.flatMap_nil, List.append_nil, h1, h1']
    simp only [List.cons_append, List.nil_append, Spec.countUnits16, h2, h2']
    rw [if_neg (by omega), if_pos (by omega)]
    omega

theorem countChars_code (e : Encoding) {u : Bytes} {t : Str} (h : Spec.CodeSeq e u t) (us : Bytes) :
    Spec.countChars e (u ++ us) = t.length + Spec.countChars e us := by
  revert h
  refine encoding_cases (M := fun e => Spec.CodeSeq e u t →
    Spec.countChars e (u ++ us) = t.length + Spec.countChars e us) ?_ ?_ ?_ ?_ ?_ ?_ ?_ ?_ e
  · intro e h1 h
    rw [single_codeSeq e h1] at h
    obtain ⟨b, c, rfl, rfl, -⟩ := h
    have hl : ∀ bs, Spec.countChars e bs = bs.length := by
      intro bs
      cases e <;> first | rfl | cases h1
    rw [hl, hl]
    simp
    omega
  · rintro ⟨c, rfl, rfl⟩
    obtain ⟨b, r, h1, h2, h3, -⟩ := utf8_char_shape c
    have hb : ¬ (0x80 ≤ b.toNat ∧ b.toNat ≤ 0xBF) := by
      rw [← isCont_iff, h2]
      decide
    have hr : (r.filter fun b => !(decide (0x80 ≤ b.toNat) && decide (b.toNat ≤ 0xBF))) = [] := by
      rw [List.filter_eq_nil_iff]
      intro x hx
      have := (isCont_iff x).1 (h3 x hx)
      simp [this]
    unfold Spec.countChars
    rw [h1, List.filter_append, List.filter_cons_of_pos, hr, List.length_append]
    · rfl
    · simp only [Bool.not_eq_true', Bool.and_eq_false_imp, decide_eq_true_eq, decide_eq_false_iff_not]
      omega
  · rintro ⟨c, rfl, rfl⟩
    exact countUnits16_code (fun n hn => ⟨_, _, rfl, u8_toNat (by omega)⟩) c us
  · rintro ⟨c, rfl, rfl⟩
    exact countUnits16_code (fun n hn => ⟨_, _, rfl, u8_toNat (by omega)⟩) c us
  · rintro ⟨c, rfl, rfl⟩
    show (Spec.be32 c.toNat ++ us).length / 4 = 1 + us.length / 4
    rw [List.length_append, show (Spec.be32 c.toNat).length = 4 from rfl]
    omega
  · rintro ⟨c, rfl, rfl⟩
    show (Spec.le32 c.toNat ++ us).length / 4 = 1 + us.length / 4
    rw [List.length_append, show (Spec.le32 c.toNat).length = 4 from rfl]
    omega
  · intro h
    have h : Spec.Big5Code u t := h
    show Spec.countBig5 (u ++ us) = t.length + Spec.countBig5 us
    rcases h with ⟨b, c, rfl, rfl, hb, -⟩ | ⟨a, b, rfl, ha, ha', hb, hp⟩
    · cases us with
      | nil => rfl
      | cons x us => rw [List.cons_append, List.nil_append, Spec.countBig5, if_pos hb]; rfl
    · rw [List.cons_append, List.cons_append, List.nil_append, Spec.countBig5, if_neg (by omega)]
      have h88 : ∀ {x y : UInt8}, x.toNat = y.toNat → x = y := fun h => UInt8.toNat_inj.1 h
      rcases hp with ⟨x, y, hx, rfl⟩ | ⟨c, hc, rfl⟩
      · rw [if_pos]
        · rfl
        · simp only [Spec.big5Pairs, List.mem_cons, Prod.mk.injEq, List.not_mem_nil, or_false] at hx
          have ha : a.toNat = 0x88 := by split at hx <;> omega
          refine ⟨h88 ha, ?_⟩
          have hb : b.toNat = 0x62 ∨ b.toNat = 0x64 ∨ b.toNat = 0xA3 ∨ b.toNat = 0xA5 := by
            split at hx <;> omega
          simp only [List.mem_cons, List.not_mem_nil, or_false]
          rcases hb with hb | hb | hb | hb
          · exact .inl (h88 hb)
          · exact .inr (.inl (h88 hb))
          · exact .inr (.inr (.inl (h88 hb)))
          · exact .inr (.inr (.inr (h88 hb)))
      · rw [if_neg]
        · rfl
        · have hne := Verif.Big5.index_code hc
          rintro ⟨rfl, hb'⟩
          simp only [List.mem_cons, List.not_mem_nil, or_false] at hb'
          rcases hb' with rfl | rfl | rfl | rfl
          · exact absurd rfl hne.2.2.2.1
          · exact absurd rfl hne.2.2.2.2.1
          · exact absurd rfl hne.2.2.2.2.2.1
          · exact absurd rfl hne.2.2.2.2.2.2
  · intro h
    have h : Spec.JisCode u t := h
    show Spec.countShiftJis (u ++ us) = t.length + Spec.countShiftJis us
    rcases h with ⟨b, c, rfl, rfl, hb, -⟩ | ⟨b, c, rfl, rfl, hb, hb', -⟩ | ⟨a, b, c, rfl, rfl, ha, -⟩
    · cases us with
      | nil => rfl
      | cons x us =>
        rw [List.cons_append, List.nil_append, Spec.countShiftJis, if_neg (by omega)]; rfl
    · cases us with
      | nil => rfl
      | cons x us =>
        rw [List.cons_append, List.nil_append, Spec.countShiftJis, if_neg (by omega)]; rfl
    · rw [List.cons_append, List.cons_append, List.nil_append, Spec.countShiftJis,
        if_pos (by omega)]
      rfl

theorem countChars_decodes (e : Encoding) {us : Bytes} {t : Str} (h : Spec.Decodes e us t) :
    Spec.countChars e us = t.length := by
  induction h with
  | nil => cases e <;> rfl
  | cons hc _ ih => rw [countChars_code e hc, ih, List.length_append]

end Verif.Proof

namespace Verif.Props

open Verif.Proof

/-- C94: the number of chars that a decoder returns can be counted in the bytes that it consumed: in
UTF-8 the bytes that are not 80 to BF, in UTF-16 the units that are no low surrogates, in UTF-32 the
units, in Shift JIS and Big5 the codes from left to right, otherwise the bytes. -/
theorem C94_count_decoded (e : Encoding) (input buf buf' : Bytes) (text : Str) (n : Nat)
    (is_end : Bool) (h : decode_to_str e input buf is_end = .ok (buf', .ok (text, n))) :
    text.length = Spec.countChars e (input.take n) :=
  (countChars_decodes e (C10_decode_ok_is_decoding e input buf buf' text n is_end h).2).symm

/-- C94: likewise the number of chars that an encoder took, in the bytes that it wrote. -/
theorem C94_count_encoded (e : Encoding) (input : Str) (buf buf' out : Bytes) (n : Nat)
    (is_end : Bool) (h : encode_from_str e input buf is_end = .ok (buf', .ok (out, n))) :
    ∃ done rest, input = done ++ rest ∧ n = (Spec.utf8 done).length ∧
      done.length = Spec.countChars e out := by
  obtain ⟨done, rest, h1, h2, h3, _⟩ := C03_encode_ok_is_encoding e input buf buf' out n is_end h
  refine ⟨done, rest, h1, h2, ?_⟩
  by_cases he : e = .ShiftJISWHATWG
  · subst he
    rw [countChars_decodes _ (ShiftJis.encodes_decodes h3), List.length_map]
  · rw [countChars_decodes _ (encodes_decodes he h3)]

theorem count_low {e : Encoding} {bytes : Bytes} {text : Str} {b : UInt8}
    (hb : b.toNat < Spec.standAlone e)
    (h : bytes.filter (fun b => decide (b.toNat < Spec.standAlone e)) =
      (text.filter fun c => decide (c.toNat < Spec.standAlone e)).map fun c => UInt8.ofNat c.toNat) :
    bytes.count b = text.count (Char.ofNat b.toNat) := by
  have hs := standAlone_le e
  have hv : (Char.ofNat b.toNat).toNat = b.toNat :=
    toNat_ofNat (by unfold Nat.isValidChar; omega)
  rw [← List.count_filter (p := fun b => decide (b.toNat < Spec.standAlone e)) (by simpa using hb), h,
    ← List.count_filter (l := text) (p := fun c => decide (c.toNat < Spec.standAlone e))
      (by simpa [hv] using hb)]
  generalize hl : (text.filter fun c => decide (c.toNat < Spec.standAlone e)) = l
  have hlow : ∀ c ∈ l, c.toNat < Spec.standAlone e := by
    intro c hc
    rw [← hl] at hc
    simpa using (List.mem_filter.1 hc).2
  clear h hl
  induction l with
  | nil => rfl
  | cons c l ih =>
    have hc := hlow c (by simp)
    rw [List.map_cons, List.count_cons, List.count_cons, ih fun c hc => hlow c (by simp [hc])]
    congr 1
    have : (UInt8.ofNat c.toNat == b) = (c == Char.ofNat b.toNat) := by
      rw [Bool.eq_iff_iff, beq_iff_eq, beq_iff_eq]
      constructor
      · rintro rfl
        rw [u8_toNat (by omega)]
        exact (Char.ofNat_toNat c).symm
      · rintro rfl
        rw [hv, UInt8.ofNat_toNat]
    rw [this]

/-- C94: lines, and every other low byte (C63), can be counted in the bytes too: a decoder returns as
many of the char as it has consumed of the byte. -/
theorem C94_count_low_decoded (e : Encoding) (b : UInt8) (hb : b.toNat < Spec.standAlone e)
    (input buf buf' : Bytes) (text : Str) (n : Nat)
    (is_end : Bool) (h : decode_to_str e input buf is_end = .ok (buf', .ok (text, n))) :
    (input.take n).count b = text.count (Char.ofNat b.toNat) :=
  count_low hb (C63_decode_low_bytes e input buf buf' text n is_end h)

/-- C94: the same for an encoder. -/
theorem C94_count_low_encoded (e : Encoding) (b : UInt8) (hb : b.toNat < Spec.standAlone e)
    (input : Str) (buf buf' out : Bytes) (n : Nat)
    (is_end : Bool) (h : encode_from_str e input buf is_end = .ok (buf', .ok (out, n))) :
    ∃ done rest, input = done ++ rest ∧ n = (Spec.utf8 done).length ∧
      out.count b = done.count (Char.ofNat b.toNat) := by
  obtain ⟨done, rest, h1, h2, h3⟩ := C63_encode_low_bytes e input buf buf' out n is_end h
  exact ⟨done, rest, h1, h2, count_low hb h3⟩

/-- Texts with codes of all lengths, a code of two chars, and lines. -/
example :
    encode_from_str .Big5WHATWG ['Ê', Char.ofNat 0x304, '一', '\n'] (List.replicate 9 0) true =
      .ok ([0x88, 0x62, 0xA4, 0x40, 0x0A, 0, 0, 0, 0], .ok ([0x88, 0x62, 0xA4, 0x40, 0x0A], 8)) ∧
    Spec.countChars .Big5WHATWG [0x88, 0x62, 0xA4, 0x40, 0x0A] = 4 ∧
    decode_to_str .Utf8 [0x61, 0xC3, 0xA9, 0xE4, 0xB8, 0x80, 0xF0, 0x9F, 0x98, 0x80, 0xE4]
        (List.replicate 12 0) false =
      .ok ([0x61, 0xC3, 0xA9, 0xE4, 0xB8, 0x80, 0xF0, 0x9F, 0x98, 0x80, 0, 0],
        .ok (['a', 'é', '一', '😀'], 10)) ∧
    Spec.countChars .Utf8 [0x61, 0xC3, 0xA9, 0xE4, 0xB8, 0x80, 0xF0, 0x9F, 0x98, 0x80] = 4 ∧
    Spec.countChars .Utf16LE [0x61, 0x00, 0x3D, 0xD8, 0x00, 0xDE] = 2 ∧
    Spec.countChars .ShiftJISWHATWG [0x8A, 0xBF, 0xB1, 0x61] = 3 := by
  refine ⟨?_, ?_, ?_, ?_, ?_, ?_⟩ <;> decide +kernel

end Verif.Props
