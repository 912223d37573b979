import Verif.Proof.Big5
import Verif.Proof.Big5Checks

/-! # The Big5 tables against the published index -/

namespace Verif.Big5
open Verif.Tables.Big5 (decRows encRows)

theorem mem_rows_len : ∀ r ∈ decRows, r.length ≤ 157 := by
  intro r hr
  obtain ⟨i, hi, rfl⟩ := List.getElem_of_mem hr
  have := (dec_lens i hi).1
  rwa [List.getD_eq_getElem?_getD, List.getElem?_eq_getElem hi] at this

/-- The decoding table is the index. -/
theorem index_iff (p c : Nat) : Spec.Big5Index p c ↔ look 157 decRows p = c ∧ c ≠ 0xFFFD := by
  have := rowsEqB_sound (by omega) dec_idx mem_rows_len p c
  simpa [Spec.Big5Index] using this

/-- The code points of the index. -/
theorem index_code {p c : Nat} (h : Spec.Big5Index p c) :
    (0x80 ≤ c ∧ c < 0xD800 ∨ 0xDFFF < c ∧ c < 0x110000) ∧
    c ≠ 0x304 ∧ c ≠ 0x30C ∧ p ≠ 1133 ∧ p ≠ 1135 ∧ p ≠ 1164 ∧ p ≠ 1166 := by
  obtain ⟨r, hr, hx⟩ := h
  have := idx_check r hr _ hx
  simp only [idxB, Bool.and_eq_true, Bool.or_eq_true, Nat.blt_eq, Nat.ble_eq, Bool.not_eq_true',
    ← Bool.not_eq_true, beq_iff] at this
  omega

theorem ptrB_eq (x y : Nat) : ptrB x y = ptrOf x y := by
  unfold ptrB ptrOf
  rw [blt_rec]

/-- A lead byte and a trail byte. -/
def LeadTrail (x y : Nat) : Prop :=
  (0x81 ≤ x ∧ x ≤ 0xFE) ∧ (0x40 ≤ y ∧ y ≤ 0x7E ∨ 0xA1 ≤ y ∧ y ≤ 0xFE)

/-- The entries of the encoding table. -/
theorem enc_entry {c b0 b1 : Nat} (h : (c, b0, b1) ∈ encRows.flatten) :
    LeadTrail b0 b1 ∧ Spec.Big5Index (ptrOf b0 b1) c := by
  obtain ⟨r, hr, hx⟩ := List.mem_flatten.1 h
  have := enc_check r hr _ hx
  simp only [entB, Bool.and_eq_true, Bool.or_eq_true, Nat.ble_eq, Bool.not_eq_true',
    ← Bool.not_eq_true, beq_iff, ptrB_eq, lookB_eq] at this
  obtain ⟨⟨⟨h1, h2⟩, h4⟩, h5⟩ := this
  exact ⟨⟨h1, h2⟩, (index_iff _ _).2 ⟨h5, h4⟩⟩

/-- The six code points that are encoded to their last pointer. -/
def lastOnes : List Nat := [0x2550, 0x255E, 0x2561, 0x256A, 0x5341, 0x5345]

theorem lastOnesB_iff (c : Nat) : lastOnesB c = true ↔ c ∈ lastOnes := by
  simp [lastOnesB, lastOnes, beq_iff, or_assoc]

/-- Every code point of the index is in the encoding table. -/
theorem index_enc {p c : Nat} (h : Spec.Big5Index p c) :
    ∃ b0 b1, (c, b0, b1) ∈ encRows.flatten ∧
      if c ∈ lastOnes then p ≤ ptrOf b0 b1 else ptrOf b0 b1 ≤ p := by
  obtain ⟨r, hr, hx⟩ := h
  have := idx_check r hr _ hx
  simp only [idxB, Bool.and_eq_true] at this
  obtain ⟨b0, b1, h1, h2⟩ := findB_sound this.2
  refine ⟨b0, b1, h1, ?_⟩
  cases hl : lastOnesB c with
  | true =>
    rw [if_pos ((lastOnesB_iff c).1 hl)]
    rw [hl] at h2
    simpa only [Nat.ble_eq, ptrB_eq] using h2
  | false =>
    rw [if_neg (fun h => by rw [← lastOnesB_iff, hl] at h; cases h)]
    rw [hl] at h2
    simpa only [Nat.ble_eq, ptrB_eq] using h2

theorem index_valid {p c : Nat} (h : Spec.Big5Index p c) : c.isValidChar := by
  have := index_code h
  unfold Nat.isValidChar
  omega

theorem enc_pairwise : encRows.flatten.Pairwise (fun x y => x.1 < y.1) :=
  (rowsSortedB_sound enc_sorted_check).2

theorem enc_sorted : SortedBy (·.1) ENCODE_TABLE := by
  unfold SortedBy ENCODE_TABLE
  rw [List.pairwise_map]
  refine List.Pairwise.imp_of_mem ?_ enc_pairwise
  intro x y hx hy hxy
  obtain ⟨c, b0, b1⟩ := x
  obtain ⟨d, d0, d1⟩ := y
  simp only
  rw [toNat_ofNat (index_valid (enc_entry hx).2), toNat_ofNat (index_valid (enc_entry hy).2)]
  exact hxy

/-- The decoding table of the program, entry by entry. -/
theorem decode_getD (p : Nat) : DECODE_TABLE.getD p '�' = Char.ofNat (look 157 decRows p) := by
  have := flatten_getD (w := 157) (by omega) decRows
    (fun i hi => by have := dec_lens i (by omega); omega) (fun i hi => (dec_lens i hi).1) p
  rw [← this]
  simp only [DECODE_TABLE, List.getD_eq_getElem?_getD, List.getElem?_map]
  cases decRows.flatten[p]? <;> rfl

theorem decode_toNat (p : Nat) : (DECODE_TABLE.getD p '�').toNat = look 157 decRows p := by
  rw [decode_getD]
  by_cases h : look 157 decRows p = 0xFFFD
  · rw [h]; rfl
  · exact toNat_ofNat (index_valid ((index_iff p _).2 ⟨rfl, h⟩))

/-- A table entry other than U+FFFD is an index entry. -/
theorem decode_iff (p : Nat) (c : Char) :
    (DECODE_TABLE.getD p '�' ≠ '�' ∧ DECODE_TABLE.getD p '�' = c) ↔ Spec.Big5Index p c.toNat := by
  rw [index_iff, ← decode_toNat]
  constructor
  · rintro ⟨h1, rfl⟩
    exact ⟨rfl, fun h => h1 (char_ext h)⟩
  · rintro ⟨h1, h2⟩
    have := char_ext h1
    exact ⟨fun h => h2 (by rw [← h1, h]; rfl), this⟩

theorem ptrOf_bytes {x y : Nat} (h : LeadTrail x y) : ptrOf x y / 157 + 0x81 = x ∧
    ptrOf x y % 157 + (if ptrOf x y % 157 < 0x3F then 0x40 else 0x62) = y := by
  unfold ptrOf
  unfold LeadTrail at h
  split <;> split <;> omega

/-- The bytes of a pointer determine it. -/
theorem big5Bytes_ptrOf {x y : Nat} (h : LeadTrail x y) :
    Spec.big5Bytes (ptrOf x y) = [UInt8.ofNat x, UInt8.ofNat y] := by
  obtain ⟨h1, h2⟩ := ptrOf_bytes h
  rw [Spec.big5Bytes, h1, h2]

theorem enc_unique {c b0 b1 d0 d1 : Nat} (h : (c, b0, b1) ∈ encRows.flatten)
    (h' : (c, d0, d1) ∈ encRows.flatten) : d0 = b0 ∧ d1 = b1 := by
  have : (c, d0, d1) = (c, b0, b1) := by
    obtain ⟨i, hi, e1⟩ := List.getElem_of_mem h'
    obtain ⟨j, hj, e2⟩ := List.getElem_of_mem h
    have hpw := List.pairwise_iff_getElem.1 enc_pairwise
    rcases Nat.lt_trichotomy i j with hl | rfl | hl
    · have := hpw i j hi hj hl; rw [e1, e2] at this; simp at this
    · rw [← e1, ← e2]
    · have := hpw j i hj hi hl; rw [e1, e2] at this; simp at this
  simpa using this

/-- The encoding table of the program picks the pointers of the specification. -/
theorem lookup_iff (c : Char) (u : Bytes) :
    (∃ b, lookup ENCODE_TABLE c = some b ∧ u = [b.1, b.2]) ↔
      ∃ p, Spec.Big5EncPointer c.toNat p ∧ u = Spec.big5Bytes p := by
  constructor
  · rintro ⟨b, h, rfl⟩
    rw [lookup_some enc_sorted] at h
    simp only [ENCODE_TABLE, List.mem_map] at h
    obtain ⟨⟨d, b0, b1⟩, hx, he⟩ := h
    obtain ⟨h1, h3⟩ := enc_entry hx
    simp only [Prod.mk.injEq] at he
    obtain ⟨rfl, rfl⟩ := he
    have hv := index_valid h3
    rw [toNat_ofNat hv]
    refine ⟨ptrOf b0 b1, ⟨h3, ?_⟩, (big5Bytes_ptrOf h1).symm⟩
    show if d ∈ lastOnes then _ else _
    by_cases hl : d ∈ lastOnes
    · rw [if_pos hl]
      intro q hq
      obtain ⟨d0, d1, h4, h5⟩ := index_enc hq
      obtain ⟨rfl, rfl⟩ := enc_unique hx h4
      rwa [if_pos hl] at h5
    · rw [if_neg hl]
      intro q hq
      obtain ⟨d0, d1, h4, h5⟩ := index_enc hq
      obtain ⟨rfl, rfl⟩ := enc_unique hx h4
      rwa [if_neg hl] at h5
  · rintro ⟨p, ⟨h1, h3⟩, rfl⟩
    obtain ⟨b0, b1, h4, h5⟩ := index_enc h1
    obtain ⟨h6, h8⟩ := enc_entry h4
    have : ptrOf b0 b1 = p := by
      change if c.toNat ∈ lastOnes then _ else _ at h3
      by_cases hl : c.toNat ∈ lastOnes
      · rw [if_pos hl] at h3 h5
        have := h3 _ h8
        omega
      · rw [if_neg hl] at h3 h5
        have := h3 _ h8
        omega
    subst this
    refine ⟨(UInt8.ofNat b0, UInt8.ofNat b1), ?_, big5Bytes_ptrOf h6⟩
    rw [lookup_some enc_sorted]
    simp only [ENCODE_TABLE, List.mem_map]
    exact ⟨_, h4, by simp only [ofNat_toNat]⟩

end Verif.Big5
