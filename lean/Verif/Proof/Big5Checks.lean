import Verif.Proof.WideTables
import Verif.Tables.Big5Decode
import Verif.Tables.Big5Encode
import Verif.Spec.Encodings

/-! # The Big5 tables against the published index: the checks -/

namespace Verif.Big5
open Verif.Tables.Big5 (decRows encRows)

theorem dec_lens : ∀ i, i < decRows.length →
    (decRows.getD i []).length ≤ 157 ∧ (i + 1 = decRows.length ∨ (decRows.getD i []).length = 157) := by
  decide +kernel

theorem dec_idx : rowsEqB 157 decRows 0 Spec.Published.Big5.rows = true := by
  decide +kernel

theorem enc_sorted_check : rowsSortedB encRows 0 = true := by
  decide +kernel

/-- `ptrOf`, for evaluation by the kernel. -/
noncomputable def ptrB (x y : Nat) : Nat :=
  (x - 0x81) * 157 + (y - (Nat.blt y 0x7F).rec 0x62 0x40)

/-- What an entry of the encoding table must satisfy. -/
noncomputable def entB (x : Ent) : Bool :=
  (Nat.ble 0x81 x.2.1 && Nat.ble x.2.1 0xFE) &&
  (Nat.ble 0x40 x.2.2 && Nat.ble x.2.2 0x7E || Nat.ble 0xA1 x.2.2 && Nat.ble x.2.2 0xFE) &&
  !Nat.beq x.1 0xFFFD &&
  Nat.beq (lookB 157 decRows (ptrB x.2.1 x.2.2)) x.1

theorem enc_check0 : everyRowB entB ((encRows.drop (25 * 0)).take 25) = true := by
  decide +kernel

theorem enc_check1 : everyRowB entB ((encRows.drop (25 * 1)).take 25) = true := by
  decide +kernel

theorem enc_check2 : everyRowB entB ((encRows.drop (25 * 2)).take 25) = true := by
  decide +kernel

theorem enc_check3 : everyRowB entB ((encRows.drop (25 * 3)).take 25) = true := by
  decide +kernel

theorem enc_check4 : everyRowB entB ((encRows.drop (25 * 4)).take 25) = true := by
  decide +kernel

theorem enc_check5 : everyRowB entB ((encRows.drop (25 * 5)).take 25) = true := by
  decide +kernel

theorem enc_check : ∀ r ∈ encRows, ∀ x ∈ r, entB x = true :=
  everyRowB_chunks 25 6 (by decide) (by decide +kernel) fun i hi =>
    match i, hi with
    | 0, _ => enc_check0
    | 1, _ => enc_check1
    | 2, _ => enc_check2
    | 3, _ => enc_check3
    | 4, _ => enc_check4
    | 5, _ => enc_check5

/-- The six code points that are encoded to their last pointer. -/
noncomputable def lastOnesB (c : Nat) : Bool :=
  Nat.beq c 0x2550 || Nat.beq c 0x255E || Nat.beq c 0x2561 || Nat.beq c 0x256A ||
  Nat.beq c 0x5341 || Nat.beq c 0x5345

/-- What an entry of the index must satisfy. -/
noncomputable def idxB (x : Nat × Nat) : Bool :=
  (Nat.ble 0x80 x.2 && Nat.blt x.2 0xD800 || Nat.blt 0xDFFF x.2 && Nat.blt x.2 0x110000) &&
  !Nat.beq x.2 0x304 && !Nat.beq x.2 0x30C &&
  !Nat.beq x.1 1133 && !Nat.beq x.1 1135 && !Nat.beq x.1 1164 && !Nat.beq x.1 1166 &&
  findB x.2 (fun b0 b1 => (lastOnesB x.2).rec (Nat.ble (ptrB b0 b1) x.1) (Nat.ble x.1 (ptrB b0 b1)))
    encRows

theorem idx_check0 : everyRowB idxB ((Spec.Published.Big5.rows.drop (8 * 0)).take 8) = true := by
  decide +kernel

theorem idx_check1 : everyRowB idxB ((Spec.Published.Big5.rows.drop (8 * 1)).take 8) = true := by
  decide +kernel

theorem idx_check2 : everyRowB idxB ((Spec.Published.Big5.rows.drop (8 * 2)).take 8) = true := by
  decide +kernel

theorem idx_check3 : everyRowB idxB ((Spec.Published.Big5.rows.drop (8 * 3)).take 8) = true := by
  decide +kernel

theorem idx_check4 : everyRowB idxB ((Spec.Published.Big5.rows.drop (8 * 4)).take 8) = true := by
  decide +kernel

theorem idx_check5 : everyRowB idxB ((Spec.Published.Big5.rows.drop (8 * 5)).take 8) = true := by
  decide +kernel

theorem idx_check6 : everyRowB idxB ((Spec.Published.Big5.rows.drop (8 * 6)).take 8) = true := by
  decide +kernel

theorem idx_check7 : everyRowB idxB ((Spec.Published.Big5.rows.drop (8 * 7)).take 8) = true := by
  decide +kernel

theorem idx_check8 : everyRowB idxB ((Spec.Published.Big5.rows.drop (8 * 8)).take 8) = true := by
  decide +kernel

theorem idx_check9 : everyRowB idxB ((Spec.Published.Big5.rows.drop (8 * 9)).take 8) = true := by
  decide +kernel

theorem idx_check10 : everyRowB idxB ((Spec.Published.Big5.rows.drop (8 * 10)).take 8) = true := by
  decide +kernel

theorem idx_check11 : everyRowB idxB ((Spec.Published.Big5.rows.drop (8 * 11)).take 8) = true := by
  decide +kernel

theorem idx_check12 : everyRowB idxB ((Spec.Published.Big5.rows.drop (8 * 12)).take 8) = true := by
  decide +kernel

theorem idx_check13 : everyRowB idxB ((Spec.Published.Big5.rows.drop (8 * 13)).take 8) = true := by
  decide +kernel

theorem idx_check14 : everyRowB idxB ((Spec.Published.Big5.rows.drop (8 * 14)).take 8) = true := by
  decide +kernel

theorem idx_check15 : everyRowB idxB ((Spec.Published.Big5.rows.drop (8 * 15)).take 8) = true := by
  decide +kernel

theorem idx_check : ∀ r ∈ Spec.Published.Big5.rows, ∀ x ∈ r, idxB x = true :=
  everyRowB_chunks 8 16 (by decide) (by decide +kernel) fun i hi =>
    match i, hi with
    | 0, _ => idx_check0
    | 1, _ => idx_check1
    | 2, _ => idx_check2
    | 3, _ => idx_check3
    | 4, _ => idx_check4
    | 5, _ => idx_check5
    | 6, _ => idx_check6
    | 7, _ => idx_check7
    | 8, _ => idx_check8
    | 9, _ => idx_check9
    | 10, _ => idx_check10
    | 11, _ => idx_check11
    | 12, _ => idx_check12
    | 13, _ => idx_check13
    | 14, _ => idx_check14
    | 15, _ => idx_check15
    | _ + 16, h => absurd h (by omega)

end Verif.Big5
