import Verif.Proof.ShiftJis
import Verif.Proof.ShiftJisChecks

/-! # The Shift JIS tables against the published index -/

namespace Verif.ShiftJis
open Verif.Tables.ShiftJis (decRows encRows)

theorem mem_rows_len : ∀ r ∈ decRows, r.length ≤ 188 := by
  intro r hr
  obtain ⟨i, hi, rfl⟩ := List.getElem_of_mem hr
  have := (dec_lens i hi).1
  rwa [List.getD_eq_getElem?_getD, List.getElem?_eq_getElem hi] at this

/-- The decoding table is the index. -/
theorem index_iff (p c : Nat) : Spec.JisIndex p c ↔ look 188 decRows p = c ∧ c ≠ 0xFFFD := by
  have := rowsEqB_sound (by omega) dec_idx mem_rows_len p c
  simpa [Spec.JisIndex] using this

/-- The code points of the index. -/
theorem index_code {p c : Nat} (h : Spec.JisIndex p c) :
    (0x80 < c ∧ c < 0xD800 ∨ 0xE757 < c ∧ c < 0xFF61 ∨ 0xFF9F < c ∧ c < 0xFFFD) ∧
    c ≠ 0xA5 ∧ c ≠ 0x203E ∧ c ≠ 0x2212 ∧ (p < 8836 ∨ 10715 < p) := by
  obtain ⟨r, hr, hx⟩ := h
  have := idx_check r hr _ hx
  simp only [idxB, Bool.and_eq_true, Bool.or_eq_true, Nat.blt_eq, Bool.not_eq_true',
    ← Bool.not_eq_true, beq_iff] at this
  omega

theorem ptrB_eq (x y : Nat) : ptrB x y = ptrOf x y := by
  unfold ptrB ptrOf
  rw [blt_rec, blt_rec]

/-- A lead byte and a trail byte. -/
def LeadTrail (x y : Nat) : Prop :=
  (0x81 ≤ x ∧ x ≤ 0x9F ∨ 0xE0 ≤ x ∧ x ≤ 0xFC) ∧ (0x40 ≤ y ∧ y ≤ 0x7E ∨ 0x80 ≤ y ∧ y ≤ 0xFC)

/-- The entries of the encoding table. -/
theorem enc_entry {c b0 b1 : Nat} (h : (c, b0, b1) ∈ encRows.flatten) :
    LeadTrail b0 b1 ∧ ¬ (8272 ≤ ptrOf b0 b1 ∧ ptrOf b0 b1 ≤ 10715) ∧
      Spec.JisIndex (ptrOf b0 b1) c := by
  obtain ⟨r, hr, hx⟩ := List.mem_flatten.1 h
  have := enc_check r hr _ hx
  simp only [entB, Bool.and_eq_true, Bool.or_eq_true, Nat.blt_eq, Nat.ble_eq, Bool.not_eq_true',
    ← Bool.not_eq_true, beq_iff, ptrB_eq, lookB_eq] at this
  obtain ⟨⟨⟨⟨h1, h2⟩, h3⟩, h4⟩, h5⟩ := this
  exact ⟨⟨h1, h2⟩, by omega, (index_iff _ _).2 ⟨h5, h4⟩⟩

/-- Every code point of the index is in the encoding table. -/
theorem index_enc {p c : Nat} (h : Spec.JisIndex p c) :
    ∃ b0 b1, (c, b0, b1) ∈ encRows.flatten ∧ (8272 ≤ p ∧ p ≤ 8835 ∨ ptrOf b0 b1 ≤ p) := by
  obtain ⟨r, hr, hx⟩ := h
  have := idx_check r hr _ hx
  simp only [idxB, Bool.and_eq_true] at this
  obtain ⟨b0, b1, h1, h2⟩ := findB_sound this.2
  refine ⟨b0, b1, h1, ?_⟩
  simpa only [Bool.and_eq_true, Bool.or_eq_true, Nat.ble_eq, ptrB_eq] using h2

theorem index_valid {p c : Nat} (h : Spec.JisIndex p c) : c.isValidChar := by
  have := index_code h
  unfold Nat.isValidChar
  omega

theorem enc_pairwise : encRows.flatten.Pairwise (fun x y => x.1 < y.1) :=
  (rowsSortedB_sound enc_sorted_check).2

theorem enc_sorted : SortedBy (·.1) ENCODE_TABLE := by
  unfold SortedBy ENCODE_TABLE
  rw [List.pairwise_map]
  refine List.Pairwise.imp_of_mem ?_ enc_pairwise
  intro x y hx hy hxy
  obtain ⟨c, b0, b1⟩ := x
  obtain ⟨d, d0, d1⟩ := y
  simp only
  rw [toNat_ofNat (index_valid (enc_entry hx).2.2), toNat_ofNat (index_valid (enc_entry hy).2.2)]
  exact hxy

/-- The decoding table of the program, entry by entry. -/
theorem decode_getD (p : Nat) : DECODE_TABLE.getD p '�' = Char.ofNat (look 188 decRows p) := by
  have := flatten_getD (w := 188) (by omega) decRows
    (fun i hi => by have := dec_lens i (by omega); omega) (fun i hi => (dec_lens i hi).1) p
  rw [← this]
  simp only [DECODE_TABLE, List.getD_eq_getElem?_getD, List.getElem?_map]
  cases decRows.flatten[p]? <;> rfl

theorem decode_toNat (p : Nat) : (DECODE_TABLE.getD p '�').toNat = look 188 decRows p := by
  rw [decode_getD]
  by_cases h : look 188 decRows p = 0xFFFD
  · rw [h]; rfl
  · exact toNat_ofNat (index_valid ((index_iff p _).2 ⟨rfl, h⟩))

/-- A table entry other than U+FFFD is an index entry. -/
theorem decode_iff (p : Nat) (c : Char) :
    (DECODE_TABLE.getD p '�' ≠ '�' ∧ DECODE_TABLE.getD p '�' = c) ↔ Spec.JisIndex p c.toNat := by
  rw [index_iff, ← decode_toNat]
  constructor
  · rintro ⟨h1, rfl⟩
    exact ⟨rfl, fun h => h1 (char_ext h)⟩
  · rintro ⟨h1, h2⟩
    have := char_ext h1
    exact ⟨fun h => h2 (by rw [← h1, h]; rfl), this⟩

theorem ptrOf_bytes {x y : Nat} (h : LeadTrail x y) : ptrOf x y / 188 + (if ptrOf x y / 188 < 0x1F then 0x81 else 0xC1) = x ∧
    ptrOf x y % 188 + (if ptrOf x y % 188 < 0x3F then 0x40 else 0x41) = y := by
  unfold ptrOf
  unfold LeadTrail at h
  split <;> split <;> split <;> split <;> omega

/-- The bytes of a pointer determine it. -/
theorem jisBytes_ptrOf {x y : Nat} (h : LeadTrail x y) :
    Spec.jisBytes (ptrOf x y) = [UInt8.ofNat x, UInt8.ofNat y] := by
  obtain ⟨h1, h2⟩ := ptrOf_bytes h
  rw [Spec.jisBytes, h1, h2]

/-- The encoding table of the program picks the pointers of the specification. -/
theorem lookup_iff (c : Char) (u : Bytes) :
    (∃ b, lookup ENCODE_TABLE c = some b ∧ u = [b.1, b.2]) ↔
      ∃ p, Spec.JisEncPointer c.toNat p ∧ u = Spec.jisBytes p := by
  constructor
  · rintro ⟨b, h, rfl⟩
    rw [lookup_some enc_sorted] at h
    simp only [ENCODE_TABLE, List.mem_map] at h
    obtain ⟨⟨d, b0, b1⟩, hx, he⟩ := h
    obtain ⟨h1, h2, h3⟩ := enc_entry hx
    simp only [Prod.mk.injEq] at he
    obtain ⟨rfl, rfl⟩ := he
    have hv := index_valid h3
    rw [toNat_ofNat hv]
    refine ⟨ptrOf b0 b1, ⟨h3, by omega, ?_⟩, (jisBytes_ptrOf h1).symm⟩
    intro q hq hne
    obtain ⟨d0, d1, h4, h5⟩ := index_enc hq
    have : (d, d0, d1) = (d, b0, b1) := by
      obtain ⟨i, hi, e1⟩ := List.getElem_of_mem h4
      obtain ⟨j, hj, e2⟩ := List.getElem_of_mem hx
      have hpw := List.pairwise_iff_getElem.1 enc_pairwise
      rcases Nat.lt_trichotomy i j with hl | rfl | hl
      · have := hpw i j hi hj hl; rw [e1, e2] at this; simp at this
      · rw [← e1, ← e2]
      · have := hpw j i hj hi hl; rw [e1, e2] at this; simp at this
    simp only [Prod.mk.injEq, true_and] at this
    obtain ⟨rfl, rfl⟩ := this
    omega
  · rintro ⟨p, ⟨h1, h2, h3⟩, rfl⟩
    obtain ⟨b0, b1, h4, h5⟩ := index_enc h1
    obtain ⟨h6, h7, h8⟩ := enc_entry h4
    have : ptrOf b0 b1 = p := by
      have := h3 _ h8 (by omega)
      omega
    subst this
    refine ⟨(UInt8.ofNat b0, UInt8.ofNat b1), ?_, jisBytes_ptrOf h6⟩
    rw [lookup_some enc_sorted]
    simp only [ENCODE_TABLE, List.mem_map]
    exact ⟨_, h4, by simp only [ofNat_toNat]⟩

end Verif.ShiftJis
