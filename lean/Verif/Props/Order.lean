import Verif.Props.StandAlone

/-!
# C68: UTF-8 and UTF-32BE keep the order of code points
-/

namespace Verif.Props

/-- Two byte strings that differ at some place, the first being smaller there. -/
def Below (u v : Bytes) : Prop :=
  ∃ p x y s t, u = p ++ x :: s ∧ v = p ++ y :: t ∧ x < y

theorem Below.append {u v : Bytes} (h : Below u v) (us vs : Bytes) : u ++ us < v ++ vs := by
  obtain ⟨p, x, y, s, t, rfl, rfl, hxy⟩ := h
  induction p with
  | nil => exact List.Lex.rel hxy
  | cons a p ih => exact List.Lex.cons ih

theorem Below.intro0 {a b : Nat} (ha : a < 256) (hb : b < 256) (h : a < b) (s t : Bytes) :
    Below (UInt8.ofNat a :: s) (UInt8.ofNat b :: t) :=
  ⟨[], _, _, s, t, rfl, rfl, by rw [UInt8.lt_iff_toNat_lt, u8_toNat ha, u8_toNat hb]; exact h⟩

theorem Below.cons {u v : Bytes} (h : Below u v) {a b : Nat} (hab : a = b) :
    Below (UInt8.ofNat a :: u) (UInt8.ofNat b :: v) := by
  obtain ⟨p, x, y, s, t, rfl, rfl, hxy⟩ := h
  subst hab
  exact ⟨_ :: p, x, y, s, t, rfl, rfl, hxy⟩

theorem be32_below {a b : Nat} (hb : b < 0x110000) (h : a < b) :
    Below (Spec.be32 a) (Spec.be32 b) := by
  unfold Spec.be32
  by_cases h1 : a / 16777216 = b / 16777216
  · refine .cons ?_ h1
    by_cases h2 : a / 65536 % 256 = b / 65536 % 256
    · refine .cons ?_ h2
      by_cases h3 : a / 256 % 256 = b / 256 % 256
      · refine .cons ?_ h3
        exact .intro0 (by omega) (by omega) (by omega) _ _
      · exact .intro0 (by omega) (by omega) (by omega) _ _
    · exact .intro0 (by omega) (by omega) (by omega) _ _
  · exact .intro0 (by omega) (by omega) (by omega) _ _

theorem utf8_below {c d : Char} (h : c.toNat < d.toNat) :
    Below (String.utf8EncodeChar c) (String.utf8EncodeChar d) := by
  have hb := char_bound d
  rw [utf8_char, utf8_char]
  generalize c.toNat = a at h
  generalize d.toNat = b at h hb
  by_cases a1 : a ≤ 0x7F
  · rw [if_pos a1]
    by_cases b1 : b ≤ 0x7F
    · rw [if_pos b1]
      exact .intro0 (by omega) (by omega) (by omega) _ _
    · rw [if_neg b1]
      by_cases b2 : b ≤ 0x7FF
      · rw [if_pos b2]
        exact .intro0 (by omega) (by omega) (by omega) _ _
      · rw [if_neg b2]
        by_cases b3 : b ≤ 0xFFFF
        · rw [if_pos b3]
          exact .intro0 (by omega) (by omega) (by omega) _ _
        · rw [if_neg b3]
          exact .intro0 (by omega) (by omega) (by omega) _ _
  · rw [if_neg a1, if_neg (by omega : ¬ b ≤ 0x7F)]
    by_cases a2 : a ≤ 0x7FF
    · rw [if_pos a2]
      by_cases b2 : b ≤ 0x7FF
      · rw [if_pos b2]
        by_cases h1 : a / 64 = b / 64
        · refine .cons ?_ (by omega)
          exact .intro0 (by omega) (by omega) (by omega) _ _
        · exact .intro0 (by omega) (by omega) (by omega) _ _
      · rw [if_neg b2]
        by_cases b3 : b ≤ 0xFFFF
        · rw [if_pos b3]
          exact .intro0 (by omega) (by omega) (by omega) _ _
        · rw [if_neg b3]
          exact .intro0 (by omega) (by omega) (by omega) _ _
    · rw [if_neg a2, if_neg (by omega : ¬ b ≤ 0x7FF)]
      by_cases a3 : a ≤ 0xFFFF
      · rw [if_pos a3]
        by_cases b3 : b ≤ 0xFFFF
        · rw [if_pos b3]
          by_cases h1 : a / 4096 = b / 4096
          · refine .cons ?_ (by omega)
            by_cases h2 : a / 64 = b / 64
            · refine .cons ?_ (by omega)
              exact .intro0 (by omega) (by omega) (by omega) _ _
            · exact .intro0 (by omega) (by omega) (by omega) _ _
          · exact .intro0 (by omega) (by omega) (by omega) _ _
        · rw [if_neg b3]
          exact .intro0 (by omega) (by omega) (by omega) _ _
      · rw [if_neg a3, if_neg (by omega : ¬ b ≤ 0xFFFF)]
        by_cases h1 : a / 262144 = b / 262144
        · refine .cons ?_ (by omega)
          by_cases h2 : a / 4096 = b / 4096
          · refine .cons ?_ (by omega)
            by_cases h3 : a / 64 = b / 64
            · refine .cons ?_ (by omega)
              exact .intro0 (by omega) (by omega) (by omega) _ _
            · exact .intro0 (by omega) (by omega) (by omega) _ _
          · exact .intro0 (by omega) (by omega) (by omega) _ _
        · exact .intro0 (by omega) (by omega) (by omega) _ _

/-- The code of a char in the two encodings. -/
def ordCode (e : Encoding) (c : Char) : Bytes :=
  if e = .Utf8 then String.utf8EncodeChar c else Spec.be32 c.toNat

theorem ordCode_below (e : Encoding) {c d : Char} (h : c < d) :
    Below (ordCode e c) (ordCode e d) := by
  have h : c.toNat < d.toNat := h
  unfold ordCode
  split
  · exact utf8_below h
  · have := char_bound d
    exact be32_below (by omega) h

theorem ordCode_ne (e : Encoding) (c : Char) : ∃ b r, ordCode e c = b :: r := by
  unfold ordCode
  split
  · obtain ⟨b, r, h, _⟩ := utf8_char_shape c
    exact ⟨b, r, h⟩
  · exact ⟨_, _, rfl⟩

theorem ordCode_mono (e : Encoding) {a b : Str} (h : a < b) :
    a.flatMap (ordCode e) < b.flatMap (ordCode e) := by
  replace h : List.Lex (· < ·) a b := h
  induction h with
  | @nil d b =>
    obtain ⟨x, r, h⟩ := ordCode_ne e d
    rw [List.flatMap_cons, h]
    exact List.Lex.nil
  | @cons c a b _ ih =>
    rw [List.flatMap_cons, List.flatMap_cons]
    generalize ordCode e c = p
    induction p with
    | nil => exact ih
    | cons x p ih => exact List.Lex.cons ih
  | rel h =>
    rw [List.flatMap_cons, List.flatMap_cons]
    exact (ordCode_below e h).append _ _

theorem ord_decodes {e : Encoding} (he : e = .Utf8 ∨ e = .Utf32BE) {t : Str} {u : Bytes}
    (h : Spec.Decodes e u t) : u = t.flatMap (ordCode e) := by
  induction h with
  | nil => rfl
  | @cons u t us ts hc _ ih =>
    rw [List.flatMap_append, ← ih]
    congr 1
    rcases he with rfl | rfl <;>
    · obtain ⟨c', rfl, rfl⟩ := hc
      simp [ordCode]

theorem ordCode_iff (e : Encoding) (a b : Str) :
    a.flatMap (ordCode e) < b.flatMap (ordCode e) ↔ a < b := by
  constructor
  · intro h
    apply Decidable.byContradiction
    intro hn
    rcases List.le_iff_lt_or_eq.1 (List.not_lt.1 hn) with h1 | h1
    · exact List.lt_asymm (ordCode_mono e h1) h
    · subst h1
      exact List.lt_irrefl _ h
  · exact ordCode_mono e

theorem ord_encodes {e : Encoding} (he : e = .Utf8 ∨ e = .Utf32BE) {t : Str} {u : Bytes}
    (h : Spec.Encodes e t u) : u = t.flatMap (ordCode e) := by
  induction h with
  | nil => rfl
  | @char c u cs us hc _ _ ih =>
    rw [List.flatMap_cons, ih]
    congr 1
    rcases he with rfl | rfl
    · obtain ⟨c', h1, rfl⟩ := hc
      obtain rfl : c = c' := by simpa using h1
      rfl
    · obtain ⟨c', h1, rfl⟩ := hc
      obtain rfl : c = c' := by simpa using h1
      rfl
  | pair hp _ _ =>
    rcases he with rfl | rfl <;> exact absurd hp.1 (by decide)

/-- C68: for UTF-8 and UTF-32BE, comparing two encoded texts byte by byte is comparing the texts
code point by code point. -/
theorem C68_order_is_kept (e : Encoding) (he : e = .Utf8 ∨ e = .Utf32BE) (a b : Str)
    (buf₁ buf₁' buf₂ buf₂' u v : Bytes) (is_end₁ is_end₂ : Bool)
    (h₁ : encode_from_str e a buf₁ is_end₁ = .ok (buf₁', .ok (u, (Spec.utf8 a).length)))
    (h₂ : encode_from_str e b buf₂ is_end₂ = .ok (buf₂', .ok (v, (Spec.utf8 b).length))) :
    u < v ↔ a < b := by
  obtain rfl := ord_encodes he (encode_all h₁)
  obtain rfl := ord_encodes he (encode_all h₂)
  exact ordCode_iff e a b

/-- C68: the same for decoding. -/
theorem C68_decoding_keeps_order (e : Encoding) (he : e = .Utf8 ∨ e = .Utf32BE) (u v : Bytes)
    (buf₁ buf₁' buf₂ buf₂' : Bytes) (a b : Str) (is_end₁ is_end₂ : Bool)
    (h₁ : decode_to_str e u buf₁ is_end₁ = .ok (buf₁', .ok (a, u.length)))
    (h₂ : decode_to_str e v buf₂ is_end₂ = .ok (buf₂', .ok (b, v.length))) :
    a < b ↔ u < v := by
  have d₁ := (C10_decode_ok_is_decoding _ _ _ _ _ _ _ h₁).2
  have d₂ := (C10_decode_ok_is_decoding _ _ _ _ _ _ _ h₂).2
  rw [List.take_length] at d₁ d₂
  rw [ord_decodes he d₁, ord_decodes he d₂]
  exact (ordCode_iff e a b).symm

/-- C68: not so for UTF-16BE (nor for the little-endian encodings). -/
theorem C68_utf16_does_not_keep_order :
    ['�'] < ['😀'] ∧
    encode_from_str .Utf16BE ['�'] [0, 0, 0, 0] true = .ok ([0xFF, 0xFD, 0, 0], .ok ([0xFF, 0xFD], 3)) ∧
    encode_from_str .Utf16BE ['😀'] [0, 0, 0, 0] true =
      .ok ([0xD8, 0x3D, 0xDE, 0x00], .ok ([0xD8, 0x3D, 0xDE, 0x00], 4)) ∧
    ([0xD8, 0x3D, 0xDE, 0x00] : Bytes) < [0xFF, 0xFD] :=
  ⟨by decide +kernel, by decide +kernel, by decide +kernel, by decide +kernel⟩

/-- Two texts of which neither is the beginning of the other, and chars of different lengths. -/
example : encode_from_str .Utf8 ['a', '�'] (List.replicate 4 0) true =
      .ok ([0x61, 0xEF, 0xBF, 0xBD], .ok ([0x61, 0xEF, 0xBF, 0xBD], 4)) ∧
    encode_from_str .Utf8 ['a', '😀'] (List.replicate 5 0) true =
      .ok ([0x61, 0xF0, 0x9F, 0x98, 0x80], .ok ([0x61, 0xF0, 0x9F, 0x98, 0x80], 5)) ∧
    ([0x61, 0xEF, 0xBF, 0xBD] : Bytes) < [0x61, 0xF0, 0x9F, 0x98, 0x80] := by
  decide +kernel

end Verif.Props
