import Verif.Model.SingleByteModules
import Verif.Proof.Kernel
import Verif.Spec.Encodings

/-! # The tables of the single-byte modules agree with the published files -/

namespace Verif.SingleByte

/-- What makes a pair of tables right for a published file. -/
structure TabOk (dec : List Nat) (enc pub : List (Nat × Nat)) : Prop where
  len : dec.length = 128
  valid : ∀ c ∈ dec, 0x80 ≤ c ∧ c < 0xD800 ∨ 0xDFFF < c ∧ c < 0x10000
  low : ∀ b < 128, (b, b) ∈ pub
  high : ∀ i < 128, dec.getD i 0xFFFD ≠ 0xFFFD → (i + 128, dec.getD i 0xFFFD) ∈ pub
  pub : ∀ x ∈ pub, x.1 < 128 ∧ x.2 = x.1 ∨
    128 ≤ x.1 ∧ x.1 < 256 ∧ x.2 ≠ 0xFFFD ∧ dec.getD (x.1 - 128) 0xFFFD = x.2
  sorted : enc.Pairwise fun x y => x.1 < y.1
  enc_dec : ∀ x ∈ enc, 128 ≤ x.2 ∧ x.2 < 256 ∧ x.1 ≠ 0xFFFD ∧ dec.getD (x.2 - 128) 0xFFFD = x.1
  dec_enc : ∀ i < 128, dec.getD i 0xFFFD ≠ 0xFFFD → (dec.getD i 0xFFFD, i + 128) ∈ enc

/-- Strictly increasing first components, decided by neighbours. -/
def sortedB : List (Nat × Nat) → Bool
  | x :: y :: r => Nat.blt x.1 y.1 && sortedB (y :: r)
  | _ => true

theorem sortedB_sound : ∀ l : List (Nat × Nat), sortedB l = true →
    l.Pairwise fun x y => x.1 < y.1
  | [], _ => .nil
  | [x], _ => List.pairwise_singleton _ _
  | x :: y :: r, h => by
    simp only [sortedB, Bool.and_eq_true, Nat.blt_eq] at h
    have ih := sortedB_sound (y :: r) h.2
    refine List.pairwise_cons.2 ⟨?_, ih⟩
    intro z hz
    rcases List.mem_cons.1 hz with rfl | hz
    · exact h.1
    · have := (List.pairwise_cons.1 ih).1 z hz
      omega

/-- The whole check. -/
noncomputable def checkB (dec : List Nat) (enc pub : List (Nat × Nat)) : Bool :=
  Nat.beq dec.length 128 &&
  everyB (fun c => Nat.ble 0x80 c && Nat.blt c 0xD800 || Nat.blt 0xDFFF c && Nat.blt c 0x10000) dec &&
  allB (fun b => memB b b pub) 128 &&
  allB (fun i => Nat.beq (nthB dec i) 0xFFFD || memB (i + 128) (nthB dec i) pub) 128 &&
  everyB (fun x => Nat.blt x.1 128 && Nat.beq x.2 x.1 ||
    Nat.ble 128 x.1 && Nat.blt x.1 256 && !Nat.beq x.2 0xFFFD &&
      Nat.beq (nthB dec (x.1 - 128)) x.2) pub &&
  sortedB enc &&
  everyB (fun x => Nat.ble 128 x.2 && Nat.blt x.2 256 && !Nat.beq x.1 0xFFFD &&
    Nat.beq (nthB dec (x.2 - 128)) x.1) enc &&
  allB (fun i => Nat.beq (nthB dec i) 0xFFFD || memB (nthB dec i) (i + 128) enc) 128

theorem checkB_sound {dec : List Nat} {enc pub : List (Nat × Nat)} (h : checkB dec enc pub = true) :
    TabOk dec enc pub := by
  simp only [checkB, Bool.and_eq_true] at h
  obtain ⟨⟨⟨⟨⟨⟨⟨h1, h2⟩, h3⟩, h4⟩, h5⟩, h6⟩, h7⟩, h8⟩ := h
  refine ⟨beq_iff.1 h1, ?_, ?_, ?_, ?_, sortedB_sound _ h6, ?_, ?_⟩
  · intro c hc
    have := everyB_sound h2 c hc
    simpa [Nat.blt_eq, Nat.ble_eq] using this
  · intro b hb
    exact memB_sound (allB_sound h3 b hb)
  · intro i hi hne
    have := allB_sound h4 i hi
    simp only [Bool.or_eq_true, beq_iff, nthB_eq] at this
    rcases this with h | h
    · exact absurd h hne
    · exact memB_sound h
  · intro x hx
    have := everyB_sound h5 x hx
    simp only [Bool.or_eq_true, Bool.and_eq_true, Nat.blt_eq, Nat.ble_eq, beq_iff, nthB_eq,
      Bool.not_eq_true', ← Bool.not_eq_true] at this
    rcases this with h | h
    · exact .inl h
    · exact .inr ⟨h.1.1.1, h.1.1.2, h.1.2, h.2⟩
  · intro x hx
    have := everyB_sound h7 x hx
    simp only [Bool.and_eq_true, Nat.blt_eq, Nat.ble_eq, beq_iff, nthB_eq,
      Bool.not_eq_true', ← Bool.not_eq_true] at this
    exact ⟨this.1.1.1, this.1.1.2, this.1.2, this.2⟩
  · intro i hi hne
    have := allB_sound h8 i hi
    simp only [Bool.or_eq_true, beq_iff, nthB_eq] at this
    rcases this with h | h
    · exact absurd h hne
    · exact memB_sound h

set_option maxHeartbeats 0 in
theorem tabOk (e : Encoding) (h : isSingle e = true) :
    TabOk (decTab e) (encTab e) (Spec.published e) := by
  cases e <;> first
    | (exact absurd h (by decide))
    | exact checkB_sound (by decide +kernel)

end Verif.SingleByte
