import Verif.Proof.WideTables
import Verif.Tables.ShiftJisDecode
import Verif.Tables.ShiftJisEncode
import Verif.Spec.Encodings

/-! # The Shift JIS tables against the published index: the checks -/

namespace Verif.ShiftJis
open Verif.Tables.ShiftJis (decRows encRows)

theorem dec_lens : ∀ i, i < decRows.length →
    (decRows.getD i []).length ≤ 188 ∧ (i + 1 = decRows.length ∨ (decRows.getD i []).length = 188) := by
  decide +kernel

theorem dec_idx : rowsEqB 188 decRows 0 Spec.Published.Jis0208.rows = true := by
  decide +kernel

theorem enc_sorted_check : rowsSortedB encRows 0 = true := by
  decide +kernel

/-- `ptrOf`, for evaluation by the kernel. -/
noncomputable def ptrB (x y : Nat) : Nat :=
  (x - (Nat.blt x 0xA0).rec 0xC1 0x81) * 188 + (y - (Nat.blt y 0x7F).rec 0x41 0x40)

/-- What an entry of the encoding table must satisfy. -/
noncomputable def entB (x : Ent) : Bool :=
  (Nat.ble 0x81 x.2.1 && Nat.ble x.2.1 0x9F || Nat.ble 0xE0 x.2.1 && Nat.ble x.2.1 0xFC) &&
  (Nat.ble 0x40 x.2.2 && Nat.ble x.2.2 0x7E || Nat.ble 0x80 x.2.2 && Nat.ble x.2.2 0xFC) &&
  (Nat.blt (ptrB x.2.1 x.2.2) 8272 || Nat.blt 10715 (ptrB x.2.1 x.2.2)) &&
  !Nat.beq x.1 0xFFFD &&
  Nat.beq (lookB 188 decRows (ptrB x.2.1 x.2.2)) x.1

theorem enc_check0 : everyRowB entB ((encRows.drop (15 * 0)).take 15) = true := by
  decide +kernel

theorem enc_check1 : everyRowB entB ((encRows.drop (15 * 1)).take 15) = true := by
  decide +kernel

theorem enc_check2 : everyRowB entB ((encRows.drop (15 * 2)).take 15) = true := by
  decide +kernel

theorem enc_check3 : everyRowB entB ((encRows.drop (15 * 3)).take 15) = true := by
  decide +kernel

theorem enc_check : ∀ r ∈ encRows, ∀ x ∈ r, entB x = true :=
  everyRowB_chunks 15 4 (by decide) (by decide +kernel) fun i hi =>
    match i, hi with
    | 0, _ => enc_check0
    | 1, _ => enc_check1
    | 2, _ => enc_check2
    | 3, _ => enc_check3

/-- What an entry of the index must satisfy. -/
noncomputable def idxB (x : Nat × Nat) : Bool :=
  (Nat.blt 0x80 x.2 && Nat.blt x.2 0xD800 || Nat.blt 0xE757 x.2 && Nat.blt x.2 0xFF61 ||
    Nat.blt 0xFF9F x.2 && Nat.blt x.2 0xFFFD) &&
  !Nat.beq x.2 0xA5 && !Nat.beq x.2 0x203E && !Nat.beq x.2 0x2212 &&
  (Nat.blt x.1 8836 || Nat.blt 10715 x.1) &&
  findB x.2 (fun b0 b1 => Nat.ble 8272 x.1 && Nat.ble x.1 8835 || Nat.ble (ptrB b0 b1) x.1) encRows

theorem idx_check0 : everyRowB idxB ((Spec.Published.Jis0208.rows.drop (8 * 0)).take 8) = true := by
  decide +kernel

theorem idx_check1 : everyRowB idxB ((Spec.Published.Jis0208.rows.drop (8 * 1)).take 8) = true := by
  decide +kernel

theorem idx_check2 : everyRowB idxB ((Spec.Published.Jis0208.rows.drop (8 * 2)).take 8) = true := by
  decide +kernel

theorem idx_check3 : everyRowB idxB ((Spec.Published.Jis0208.rows.drop (8 * 3)).take 8) = true := by
  decide +kernel

theorem idx_check4 : everyRowB idxB ((Spec.Published.Jis0208.rows.drop (8 * 4)).take 8) = true := by
  decide +kernel

theorem idx_check5 : everyRowB idxB ((Spec.Published.Jis0208.rows.drop (8 * 5)).take 8) = true := by
  decide +kernel

theorem idx_check6 : everyRowB idxB ((Spec.Published.Jis0208.rows.drop (8 * 6)).take 8) = true := by
  decide +kernel

theorem idx_check7 : everyRowB idxB ((Spec.Published.Jis0208.rows.drop (8 * 7)).take 8) = true := by
  decide +kernel

theorem idx_check : ∀ r ∈ Spec.Published.Jis0208.rows, ∀ x ∈ r, idxB x = true :=
  everyRowB_chunks 8 8 (by decide) (by decide +kernel) fun i hi =>
    match i, hi with
    | 0, _ => idx_check0
    | 1, _ => idx_check1
    | 2, _ => idx_check2
    | 3, _ => idx_check3
    | 4, _ => idx_check4
    | 5, _ => idx_check5
    | 6, _ => idx_check6
    | 7, _ => idx_check7

end Verif.ShiftJis
