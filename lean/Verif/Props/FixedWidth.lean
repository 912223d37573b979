import Verif.Props.Middle
import Verif.Props.RoundTrip

/-!
# C86: encodings of fixed width

In UTF-32 and the single-byte encodings every char has as many bytes as any other, so a char can be
found by its number. In the other encodings it cannot.
-/

namespace Verif.Proof

/-- In an encoding of fixed width, codes have that width and stand for one char. -/
theorem fixed_code {e : Encoding} (he : e ∉ [.Utf8, .Utf16BE, .Utf16LE, .ShiftJISWHATWG, .Big5WHATWG])
    {u : Bytes} {t : Str} (h : Spec.CodeSeq e u t) :
    u.length = Spec.unitSize e ∧ ∃ c, t = [c] := by
  revert he h
  refine encoding_cases (M := fun e => e ∉ [.Utf8, .Utf16BE, .Utf16LE, .ShiftJISWHATWG, .Big5WHATWG] →
    Spec.CodeSeq e u t → u.length = Spec.unitSize e ∧ ∃ c, t = [c]) ?_ ?_ ?_ ?_ ?_ ?_ ?_ ?_ e
  · intro e h1 _ h
    rw [single_codeSeq e h1] at h
    obtain ⟨b, c, rfl, rfl, -⟩ := h
    refine ⟨?_, c, rfl⟩
    cases e <;> first | rfl | cases h1
  · exact fun h => absurd (by simp) h
  · exact fun h => absurd (by simp) h
  · exact fun h => absurd (by simp) h
  · rintro - ⟨c, rfl, rfl⟩
    exact ⟨rfl, c, rfl⟩
  · rintro - ⟨c, rfl, rfl⟩
    exact ⟨List.length_reverse, c, rfl⟩
  · exact fun h => absurd (by simp) h
  · exact fun h => absurd (by simp) h

theorem fixed_drop {e : Encoding} (he : e ∉ [.Utf8, .Utf16BE, .Utf16LE, .ShiftJISWHATWG, .Big5WHATWG])
    {us : Bytes} {ts : Str} (h : Spec.Decodes e us ts) (i : Nat) :
    Spec.Decodes e (us.drop (Spec.unitSize e * i)) (ts.drop i) := by
  induction h generalizing i with
  | nil => rw [List.drop_nil, List.drop_nil]; exact .nil
  | cons hc hs ih =>
    cases i with
    | zero => exact .cons hc hs
    | succ i =>
      obtain ⟨h1, c, rfl⟩ := fixed_code he hc
      rw [Nat.mul_succ, Nat.add_comm, ← List.drop_drop, ← h1, List.drop_left, h1]
      exact ih i

theorem fixed_take {e : Encoding} (he : e ∉ [.Utf8, .Utf16BE, .Utf16LE, .ShiftJISWHATWG, .Big5WHATWG])
    {us : Bytes} {ts : Str} (h : Spec.Decodes e us ts) (i : Nat) :
    Spec.Decodes e (us.take (Spec.unitSize e * i)) (ts.take i) := by
  induction h generalizing i with
  | nil => rw [List.take_nil, List.take_nil]; exact .nil
  | @cons u t us ts hc hs ih =>
    cases i with
    | zero => exact .nil
    | succ i =>
      obtain ⟨h1, c, rfl⟩ := fixed_code he hc
      have h2 : (u ++ us).take (Spec.unitSize e * (i + 1)) = u ++ us.take (Spec.unitSize e * i) := by
        rw [Nat.mul_succ, Nat.add_comm, ← h1, List.take_length_add_append]
      rw [h2]
      exact .cons hc (ih i)

theorem fixed_length {e : Encoding} (he : e ∉ [.Utf8, .Utf16BE, .Utf16LE, .ShiftJISWHATWG, .Big5WHATWG])
    {us : Bytes} {ts : Str} (h : Spec.Decodes e us ts) : us.length = Spec.unitSize e * ts.length := by
  induction h with
  | nil => rfl
  | cons hc hs ih =>
    obtain ⟨h1, c, rfl⟩ := fixed_code he hc
    rw [List.length_append, List.length_append, h1, ih, Nat.mul_add]
    simp

end Verif.Proof

namespace Verif.Props

/-- C86: in UTF-32 and the single-byte encodings, text that is decoded completely has as many units
as chars, and the chars from number `i` up to number `j` are the decoding of the units with these
numbers. -/
theorem C86_random_access (e : Encoding)
    (he : e ∉ [.Utf8, .Utf16BE, .Utf16LE, .ShiftJISWHATWG, .Big5WHATWG])
    (input buf buf' : Bytes) (text : Str) (is_end : Bool)
    (h : decode_to_str e input buf is_end = .ok (buf', .ok (text, input.length))) :
    input.length = Spec.unitSize e * text.length ∧
    ∀ i j, i ≤ j → j ≤ text.length → ∀ (buf₂ : Bytes) (is_end₂ : Bool),
      (Spec.utf8 ((text.take j).drop i)).length ≤ buf₂.length →
      ∃ buf₂', decode_to_str e
          ((input.take (Spec.unitSize e * j)).drop (Spec.unitSize e * i)) buf₂ is_end₂ =
        .ok (buf₂', .ok ((text.take j).drop i, Spec.unitSize e * (j - i))) := by
  have hd := (C10_decode_ok_is_decoding e _ buf buf' text _ is_end h).2
  rw [List.take_length] at hd
  have hl := Proof.fixed_length he hd
  refine ⟨hl, fun i j hij hj buf₂ is_end₂ hb => ?_⟩
  have h1 := Proof.fixed_drop he (Proof.fixed_take he hd j) i
  have h2 := C14_decode_complete e _ buf₂ _ is_end₂ h1 hb
  rw [List.length_drop, List.length_take, hl,
    Nat.min_eq_left (Nat.mul_le_mul_left _ hj), ← Nat.mul_sub] at h2
  exact ⟨_, h2⟩

/-- C86: the same of encoding. -/
theorem C86_random_access_encode (e : Encoding)
    (he : e ∉ [.Utf8, .Utf16BE, .Utf16LE, .ShiftJISWHATWG, .Big5WHATWG])
    (text : Str) (buf buf' out : Bytes)
    (h : encode_from_str e text buf true = .ok (buf', .ok (out, (Spec.utf8 text).length))) :
    out.length = Spec.unitSize e * text.length ∧
    ∀ i j, i ≤ j → j ≤ text.length → ∀ buf₂ : Bytes, Spec.unitSize e * (j - i) ≤ buf₂.length →
      ∃ buf₂', encode_from_str e ((text.take j).drop i) buf₂ true =
        .ok (buf₂', .ok ((out.take (Spec.unitSize e * j)).drop (Spec.unitSize e * i),
          (Spec.utf8 ((text.take j).drop i)).length)) := by
  have he' : e ≠ .ShiftJISWHATWG := by rintro rfl; exact he (by simp)
  have he'' : e ≠ .Big5WHATWG := by rintro rfl; exact he (by simp)
  obtain ⟨done, rest, h3, h4, h5, _⟩ := C03_encode_ok_is_encoding e text buf buf' out _ true h
  have hdone : text = done := (prefix_eq (a := text) (b := []) (a' := done) (b' := rest)
    (by rw [List.append_nil]; exact h3) h4).1
  subst hdone
  have hd := encodes_decodes he' h5
  have hl := Proof.fixed_length he hd
  refine ⟨hl, fun i j hij hj buf₂ hb => ?_⟩
  have h1 := decodes_encodes ⟨he', he''⟩ (Proof.fixed_drop he (Proof.fixed_take he hd j) i)
  exact ⟨_, C06_encode_complete e _ _ buf₂ true h1 (by
    rw [List.length_drop, List.length_take, hl, Nat.min_eq_left (Nat.mul_le_mul_left _ hj),
      ← Nat.mul_sub]
    exact hb) (.inl rfl)⟩

/-- The hypotheses hold. -/
example : decode_to_str .Windows1252 [0x41, 0x80, 0x42] (List.replicate 5 0) true =
      .ok ([0x41, 0xE2, 0x82, 0xAC, 0x42], .ok (['A', '€', 'B'], 3)) ∧
    encode_from_str .Utf32LE ['A', '€'] (List.replicate 8 0) true =
      .ok ([0x41, 0, 0, 0, 0xAC, 0x20, 0, 0], .ok ([0x41, 0, 0, 0, 0xAC, 0x20, 0, 0], 4)) := by
  constructor <;> decide +kernel

/-- C86: in each of the other encodings there are two chars with codes of different lengths. -/
theorem C86_other_encodings_fail (e : Encoding)
    (he : e ∈ [.Utf8, .Utf16BE, .Utf16LE, .ShiftJISWHATWG, .Big5WHATWG]) :
    ∃ (c d : Char) (u v b b' : Bytes),
      encode_from_str e [c] (List.replicate 4 0) true = .ok (b, .ok (u, (Spec.utf8 [c]).length)) ∧
      encode_from_str e [d] (List.replicate 4 0) true = .ok (b', .ok (v, (Spec.utf8 [d]).length)) ∧
      u.length ≠ v.length := by
  simp only [List.mem_cons, List.not_mem_nil, or_false] at he
  rcases he with rfl | rfl | rfl | rfl | rfl
  · exact ⟨'A', '文', [0x41], [0xE6, 0x96, 0x87], [0x41, 0, 0, 0], [0xE6, 0x96, 0x87, 0],
      by decide +kernel, by decide +kernel, by decide⟩
  · exact ⟨'A', '😀', [0, 0x41], [0xD8, 0x3D, 0xDE, 0], [0, 0x41, 0, 0], [0xD8, 0x3D, 0xDE, 0],
      by decide +kernel, by decide +kernel, by decide⟩
  · exact ⟨'A', '😀', [0x41, 0], [0x3D, 0xD8, 0, 0xDE], [0x41, 0, 0, 0], [0x3D, 0xD8, 0, 0xDE],
      by decide +kernel, by decide +kernel, by decide⟩
  · exact ⟨'A', '文', [0x41], [0x95, 0xB6], [0x41, 0, 0, 0], [0x95, 0xB6, 0, 0],
      by decide +kernel, by decide +kernel, by decide⟩
  · exact ⟨'A', '文', [0x41], [0xA4, 0xE5], [0x41, 0, 0, 0], [0xA4, 0xE5, 0, 0],
      by decide +kernel, by decide +kernel, by decide⟩

end Verif.Props
