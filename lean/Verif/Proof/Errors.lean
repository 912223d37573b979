import Verif.Proof.Results
import Verif.Spec.Errors

/-! # How many bytes an error covers -/

namespace Verif

theorem mem_takeWhile {α : Type} {p : α → Bool} {l : List α} {x : α} (h : x ∈ l.takeWhile p) :
    p x = true := by
  induction l with
  | nil => simp at h
  | cons a l ih =>
    by_cases ha : p a = true
    · rw [List.takeWhile_cons_of_pos ha] at h
      rcases List.mem_cons.1 h with rfl | h
      · exact ha
      · exact ih h
    · rw [List.takeWhile_cons_of_neg ha] at h
      simp at h

theorem Utf8.errCont_eq : errCont = Spec.utf8NotStart := by
  have h : ∀ m : Nat, m < 256 → errCont (UInt8.ofNat m) = Spec.utf8NotStart (UInt8.ofNat m) := by
    decide +kernel
  funext b
  have := h b.toNat (u8_lt b)
  rwa [UInt8.ofNat_toNat] at this

theorem Utf8.isTruncated_announced (b : UInt8) (n : Nat) (hn : 1 ≤ n) :
    isTruncated b n = true ↔ n < Spec.utf8Announced b := by
  rw [isTruncated_iff]
  unfold Spec.utf8Announced
  repeat' split
  all_goals omega

theorem dfront_extent (e : Encoding) {b : Bool} {inp : Bytes} {k : Nat}
    (h : dfront e b inp = .bad k) : k = Spec.errorExtent e inp := by
  revert h
  refine encoding_cases (M := fun e => dfront e b inp = .bad k → k = Spec.errorExtent e inp)
    ?_ ?_ ?_ ?_ ?_ ?_ ?_ ?_ e
  · intro e he h
    rw [single_dfront e he] at h
    have hx : Spec.errorExtent e inp = 1 := by
      cases e <;> first | exact absurd he (by decide) | rfl
    rw [hx]
    cases inp with
    | nil => cases h
    | cons b0 r =>
      simp only [SingleByte.decFront] at h
      repeat' split at h
      all_goals first | (cases h; rfl) | cases h
  · intro h
    simp only [dfront] at h
    cases inp with
    | nil => cases h
    | cons b0 r =>
      simp only [Utf8.decFront] at h
      have ht := Utf8.isTruncated_announced b0 (b0 :: r).length (by simp)
      simp only [Spec.errorExtent]
      split at h
      · cases h
      · split at h
        · rename_i hn
          rw [if_neg (by rw [← ht]; simpa using hn)]
          cases h
          rw [Utf8.errCont_eq]
        · rename_i hn
          rw [if_pos (by rw [← ht]; simpa using hn)]
          split at h <;> cases h
          rfl
  · exact utf16 Utf16.be (fun a _ => 0xD8 ≤ a ∧ a ≤ 0xDB) (fun a c => by
      have := u8_lt c
      simp only [Utf16.be]
      omega)
  · exact utf16 Utf16.le (fun _ b => 0xD8 ≤ b ∧ b ≤ 0xDB) (fun a c => by
      have := u8_lt a
      simp only [Utf16.le]
      omega)
  · exact utf32 _
  · exact utf32 _
  · intro h
    simp only [dfront] at h
    cases inp with
    | nil => cases h
    | cons b1 r =>
      have := u8_lt b1
      simp only [Big5.decFront] at h
      simp only [Spec.errorExtent]
      split at h
      · cases h
      · split at h
        · cases h
          cases r with
          | nil => rfl
          | cons b2 r => simp only; rw [if_neg (by omega)]
        · split at h
          · split at h <;> cases h
            rfl
          · split at h
            · cases h
            · cases h
              simp only
              split
              · rw [if_neg (by omega)]
              · rw [if_pos (by omega)]
  · intro h
    simp only [dfront] at h
    cases inp with
    | nil => cases h
    | cons b1 r =>
      have := u8_lt b1
      simp only [ShiftJis.decFront] at h
      simp only [Spec.errorExtent]
      split at h
      · cases h
      · split at h
        · cases h
        · split at h
          · cases h
            cases r with
            | nil => rfl
            | cons b2 r => simp only; rw [if_neg (by omega)]
          · split at h
            · split at h <;> cases h
              rfl
            · split at h
              · cases h
              · cases h
                simp only
                split
                · rw [if_neg (by omega)]
                · rw [if_pos (by omega)]
where
  utf16 (o : Utf16.Order) (high : Nat → Nat → Prop) [∀ a b, Decidable (high a b)]
      (hh : ∀ a c : UInt8,
        (0xD800 ≤ o.fromBytes a c ∧ o.fromBytes a c < 0xDC00 ↔ high a.toNat c.toNat))
      (h : Utf16.decFront o b inp = .bad k) : k = Spec.utf16Extent high inp := by
    match inp, h with
    | [], h => cases h
    | [x], h =>
      simp only [Utf16.decFront] at h
      split at h <;> cases h
      rfl
    | [x, y], h =>
      simp only [Utf16.decFront] at h
      repeat' split at h
      all_goals first | (cases h; rfl) | cases h
    | [x, y, z], h =>
      have := hh x y
      simp only [Utf16.decFront] at h
      simp only [Spec.utf16Extent]
      split at h
      · cases h
      · split at h
        · cases h
          rw [if_neg (by rw [← this]; omega)]
        · split at h
          · cases h
            rw [if_pos (by rw [← this]; omega)]
            rfl
          · cases h
    | x :: y :: z :: w :: r, h =>
      simp only [Utf16.decFront] at h
      simp only [Spec.utf16Extent]
      repeat' split at h
      all_goals first | (cases h; rfl) | cases h
  utf32 (o : Utf32.Order) (h : Utf32.decFront o b inp = .bad k) : k = min 4 inp.length := by
    unfold Utf32.decFront at h
    split at h
    · cases h
    · split at h
      · cases h
      · cases h
        simp only [List.length_cons]
        omega
    · rename_i h1 h2
      split at h
      · cases h
        match inp, h2 with
        | [], _ => rfl
        | [_], _ => rfl
        | [_, _], _ => rfl
        | [_, _, _], _ => rfl
        | _ :: _ :: _ :: _ :: _, h2 => exact absurd rfl (h2 _ _ _ _ _)
      · cases h

end Verif
